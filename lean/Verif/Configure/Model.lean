import Verif.Base

/-!
# The script `configure`

The options (442-512), the packages given by hand (514-565, 602-604), the searches for HDF5 and Python (130-149, 220-247), the prefix (606-610) and the version number (349-355). An argument is the list of its
characters and contains no line break or backslash. Directories are of any type; what exists where is a function. Boost is in
`Verif.Configure.Boost`. Not modelled: `pkg-config` and the Makefile.
-/

namespace Verif.Configure

/-! ## Options -/

/-- The variables that options set. -/
inductive Key where
  | prefixDir | libdir | gslInc | gslLib | hdf5Inc | hdf5Lib | squidsInc | squidsLib | boostInc | boostLib | pythonBin | moduleDir
  deriving DecidableEq, Repr

/-- The variables; `value` is empty where nothing was given, and before the options only `PREFIX` (346), `INSTALL_LIBDIR` (347) and `PYTHON_EXE` (382-387) have
one. -/
structure Vars where
  value : Key → List Char
  bindings : Bool

def Vars.set (s : Vars) (k : Key) (v : List Char) : Vars := { s with value := fun a => if a = k then v else s.value a }

/-- What `sed -n 's/^p\(.*\)$/\1/p'` prints. -/
def after (p v : List Char) : List Char := if p.isPrefixOf v then v.drop p.length else []

def includeDir : List Char := ['/', 'i', 'n', 'c', 'l', 'u', 'd', 'e']
def libDir : List Char := ['/', 'l', 'i', 'b']

def helpLong : List Char := ['-', '-', 'h', 'e', 'l', 'p']
def helpShort : List Char := ['-', 'h']
def bindingsText : List Char := ['-', '-', 'w', 'i', 't', 'h', '-', 'p', 'y', 't', 'h', 'o', 'n', '-', 'b', 'i', 'n', 'd', 'i', 'n', 'g', 's']
def textPrefix : List Char := ['-', '-', 'p', 'r', 'e', 'f', 'i', 'x', '=']
def textLibdir : List Char := ['-', '-', 'l', 'i', 'b', 'd', 'i', 'r', '=']
def textWithGsl : List Char := ['-', '-', 'w', 'i', 't', 'h', '-', 'g', 's', 'l', '=']
def textWithGslIncdir : List Char := ['-', '-', 'w', 'i', 't', 'h', '-', 'g', 's', 'l', '-', 'i', 'n', 'c', 'd', 'i', 'r', '=']
def textWithGslLibdir : List Char := ['-', '-', 'w', 'i', 't', 'h', '-', 'g', 's', 'l', '-', 'l', 'i', 'b', 'd', 'i', 'r', '=']
def textWithHdf5 : List Char := ['-', '-', 'w', 'i', 't', 'h', '-', 'h', 'd', 'f', '5', '=']
def textWithHdf5Incdir : List Char := ['-', '-', 'w', 'i', 't', 'h', '-', 'h', 'd', 'f', '5', '-', 'i', 'n', 'c', 'd', 'i', 'r', '=']
def textWithHdf5Libdir : List Char := ['-', '-', 'w', 'i', 't', 'h', '-', 'h', 'd', 'f', '5', '-', 'l', 'i', 'b', 'd', 'i', 'r', '=']
def textWithSquids : List Char := ['-', '-', 'w', 'i', 't', 'h', '-', 's', 'q', 'u', 'i', 'd', 's', '=']
def textWithSquidsIncdir : List Char := ['-', '-', 'w', 'i', 't', 'h', '-', 's', 'q', 'u', 'i', 'd', 's', '-', 'i', 'n', 'c', 'd', 'i', 'r', '=']
def textWithSquidsLibdir : List Char := ['-', '-', 'w', 'i', 't', 'h', '-', 's', 'q', 'u', 'i', 'd', 's', '-', 'l', 'i', 'b', 'd', 'i', 'r', '=']
def textWithBoost : List Char := ['-', '-', 'w', 'i', 't', 'h', '-', 'b', 'o', 'o', 's', 't', '=']
def textWithBoostLibdir : List Char := ['-', '-', 'w', 'i', 't', 'h', '-', 'b', 'o', 'o', 's', 't', '-', 'l', 'i', 'b', 'd', 'i', 'r', '=']
def textWithBoostIncdir : List Char := ['-', '-', 'w', 'i', 't', 'h', '-', 'b', 'o', 'o', 's', 't', '-', 'i', 'n', 'c', 'd', 'i', 'r', '=']
def textPythonBin : List Char := ['-', '-', 'p', 'y', 't', 'h', 'o', 'n', '-', 'b', 'i', 'n', '=']
def textPythonModuleDir : List Char := ['-', '-', 'p', 'y', 't', 'h', 'o', 'n', '-', 'm', 'o', 'd', 'u', 'l', 'e', '-', 'd', 'i', 'r', '=']

/-- How the loop goes on after an argument. -/
inductive Step where
  | next (s : Vars)
  | help
  | refuse

/-- The body of the loop (444-511). -/
def readOption (s : Vars) (v : List Char) : Step :=
  if v = helpLong ∨ v = helpShort then .help
  else if after textPrefix v ≠ [] then .next (s.set .prefixDir (after textPrefix v))
  else if after textLibdir v ≠ [] then .next (s.set .libdir (after textLibdir v))
  else if after textWithGsl v ≠ [] then .next ((s.set .gslInc (after textWithGsl v ++ includeDir)).set .gslLib (after textWithGsl v ++ libDir))
  else if after textWithGslIncdir v ≠ [] then .next (s.set .gslInc (after textWithGslIncdir v))
  else if after textWithGslLibdir v ≠ [] then .next (s.set .gslLib (after textWithGslLibdir v))
  else if after textWithHdf5 v ≠ [] then .next ((s.set .hdf5Inc (after textWithHdf5 v ++ includeDir)).set .hdf5Lib (after textWithHdf5 v ++ libDir))
  else if after textWithHdf5Incdir v ≠ [] then .next (s.set .hdf5Inc (after textWithHdf5Incdir v))
  else if after textWithHdf5Libdir v ≠ [] then .next (s.set .hdf5Lib (after textWithHdf5Libdir v))
  else if after textWithSquids v ≠ [] then .next ((s.set .squidsInc (after textWithSquids v ++ includeDir)).set .squidsLib (after textWithSquids v ++ libDir))
  else if after textWithSquidsIncdir v ≠ [] then .next (s.set .squidsInc (after textWithSquidsIncdir v))
  else if after textWithSquidsLibdir v ≠ [] then .next (s.set .squidsLib (after textWithSquidsLibdir v))
  else if bindingsText.isPrefixOf v then .next { s with bindings := true }
  else if after textWithBoost v ≠ [] then .next ((s.set .boostInc (after textWithBoost v ++ includeDir)).set .boostLib (after textWithBoost v ++ libDir))
  else if after textWithBoostLibdir v ≠ [] then .next (s.set .boostLib (after textWithBoostLibdir v))
  else if after textWithBoostIncdir v ≠ [] then .next (s.set .boostInc (after textWithBoostIncdir v))
  else if after textPythonBin v ≠ [] then .next (s.set .pythonBin (after textPythonBin v))
  else if after textPythonModuleDir v ≠ [] then .next (s.set .moduleDir (after textPythonModuleDir v))
  else .refuse

/-- The result of the loop: the variables, or the status with which the script ends. -/
def readOptions : Vars → List (List Char) → Vars ⊕ Nat
  | s, [] => .inl s
  | s, v :: l =>
    match readOption s v with
    | .next s' => readOptions s' l
    | .help => .inr 0
    | .refuse => .inr 1

/-! ## Packages -/

/-- The files that are looked for. The last two are not looked for in a package given by hand. -/
inductive File where
  | gslVersion | gslA | h5version | hdf5A | hdf5HlA | squidsA | gslSo | squidsHeader
  deriving DecidableEq, Repr

/-- Directories and their files; `gsl` is the subdirectory of that name. -/
structure Files (D : Type) where
  isDir : D → Bool
  gsl : D → D
  has : D → File → Bool

/-- What is checked for GSL given by hand (516-519). -/
def checkGsl {D : Type} (k : Files D) (inc lib : D) : Bool :=
  k.isDir (k.gsl inc) && k.has (k.gsl inc) .gslVersion && k.isDir lib && k.has lib .gslA

/-- What is checked for HDF5 given by hand (532-536). -/
def checkHdf5 {D : Type} (k : Files D) (inc lib : D) : Bool :=
  k.isDir inc && k.has inc .h5version && k.isDir lib && k.has lib .hdf5A && k.has lib .hdf5HlA

/-- What is checked for SQuIDS given by hand (551-553). -/
def checkSquids {D : Type} (k : Files D) (inc lib : D) : Bool := k.isDir inc && k.isDir lib && k.has lib .squidsA

/-- One package (514-528, 530-547, 549-565, 602-604): the copy given by hand if both directories are given and the check succeeds, otherwise what is found
automatically (`find_package`, `find_hdf5`). Without either the script ends with status 1 (`ensure_found`, or already in `find_package`). -/
def choose {D : Type} (check : D → D → Bool) (inc lib : Option D) (auto : Option (D × D)) : (D × D) ⊕ Nat :=
  let found :=
    match inc, lib with
    | some i, some l => if check i l then some (i, l) else auto
    | _, _ => auto
  match found with
  | some c => .inl c
  | none => .inr 1

/-! ## Searches -/

/-- `for D in …; do if …; then break; fi; done`: the value of `D` afterwards, `old` if the list is empty. -/
def forBreak {D : Type} (good : D → Bool) : D → List D → D
  | old, [] => old
  | _, d :: l => if good d then d else forBreak good d l

/-- What is in the directories that `find_hdf5` looks at; `up` is `${HDF5_LIBDIR}/../include`. -/
structure Disk (D : Type) where
  isDir : D → Bool
  libA : D → Bool
  libSo : D → Bool
  version : D → Bool
  up : D → D

/-- `find_hdf5` (130-149): `libs` are the directories after `-L` and `incs` those after `-I` in what `h5cc -show` prints, at least one `-L` being there.
The library and the include directory; `none` if it returns without them. In line 146 the `-e` before the name of the file is missing, so that the
second test is whether the name is empty. -/
def findHdf5 {D : Type} (k : Disk D) (lib : D) (libs incs : List D) : Option (D × D) :=
  let l := forBreak (fun d => k.isDir d && (k.libA d || k.libSo d)) lib (lib :: libs)
  if !k.isDir l || !(k.libA l || k.libSo l) then none
  else
    let i := forBreak (fun d => k.isDir d && k.version d) l (incs ++ [k.up l])
    if !k.isDir i || false then none else some (l, i)

/-- The directory in which `try_find_python` finds a library under one of two names (220-236), each as `.a`, `.so` or `.dylib`: `holds d v e`. The `break`
leaves the inner loop only. `none` if `PYTHON_LIBRARY` is unset; otherwise its directory, version and kind. -/
def pythonInner {D V : Type} (isDir : D → Bool) (holds : D → V → Nat → Bool) (d : D) : Option (D × V × Nat) → List V → Option (D × V × Nat)
  | r, [] => r
  | r, v :: l =>
    if isDir d then
      if holds d v 0 then some (d, v, 0)
      else if holds d v 1 then some (d, v, 1)
      else if holds d v 2 then some (d, v, 2)
      else pythonInner isDir holds d r l
    else pythonInner isDir holds d r l

/-- The outer loop (220): `PYTHON_LIBDIR` and `PYTHON_LIBRARY` afterwards. -/
def pythonOuter {D V : Type} (isDir : D → Bool) (holds : D → V → Nat → Bool) (vs : List V) : D × Option (D × V × Nat) → List D → D × Option (D × V × Nat)
  | r, [] => r
  | (_, r), d :: l => pythonOuter isDir holds vs (d, pythonInner isDir holds d r vs) l

/-- `try_find_python` from 220 on: the directory after `-L` (245) and the library reported (238), `none` if it is not found. The variable is unset before. -/
def findPython {D V : Type} (isDir : D → Bool) (holds : D → V → Nat → Bool) (vs : List V) (first : D) (dirs : List D) : Option (D × D × V × Nat) :=
  match pythonOuter isDir holds vs (first, none) (first :: dirs) with
  | (_, none) => none
  | (l, some r) => some (l, r)

/-! ## Prefix and version -/

/-- `cd "$PREFIX"; PREFIX=\`pwd\`` (608-609): `resolve` gives the absolute path of a directory that can be entered. -/
def resolvePrefix {D : Type} (resolve : D → Option D) (here pre : D) : D := (resolve pre).getD here

/-- The three numbers of `VERSION` (350-355). -/
def versionOf (num : Nat) : Nat × Nat × Nat := (num / 100000, num / 100 % 1000, num % 100)

end Verif.Configure
