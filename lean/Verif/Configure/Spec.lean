import Verif.Configure.Model

/-!
# What the options of `configure` mean

As the help text (395-440) has it.
-/

namespace Verif.Configure

inductive Package where
  | gsl | hdf5 | squids | boost
  deriving DecidableEq, Repr

/-- The options there are. -/
inductive Opt where
  | one (k : Key) (v : List Char)
  | both (p : Package) (dir : List Char)
  | bindings
  deriving DecidableEq

/-- How an option for one variable is written. -/
def written : Key → String
  | .prefixDir => "--prefix="
  | .libdir => "--libdir="
  | .gslInc => "--with-gsl-incdir="
  | .gslLib => "--with-gsl-libdir="
  | .hdf5Inc => "--with-hdf5-incdir="
  | .hdf5Lib => "--with-hdf5-libdir="
  | .squidsInc => "--with-squids-incdir="
  | .squidsLib => "--with-squids-libdir="
  | .boostInc => "--with-boost-incdir="
  | .boostLib => "--with-boost-libdir="
  | .pythonBin => "--python-bin="
  | .moduleDir => "--python-module-dir="

/-- How an option for a package is written. -/
def writtenBoth : Package → String
  | .gsl => "--with-gsl="
  | .hdf5 => "--with-hdf5="
  | .squids => "--with-squids="
  | .boost => "--with-boost="

def Opt.render : Opt → List Char
  | .one k v => (written k).toList ++ v
  | .both p dir => (writtenBoth p).toList ++ dir
  | .bindings => "--with-python-bindings".toList

/-- An option with a value has one. -/
def Opt.valid : Opt → Prop
  | .one _ v => v ≠ []
  | .both _ dir => dir ≠ []
  | .bindings => True

def includeOf : Package → Key
  | .gsl => .gslInc
  | .hdf5 => .hdf5Inc
  | .squids => .squidsInc
  | .boost => .boostInc

def libraryOf : Package → Key
  | .gsl => .gslLib
  | .hdf5 => .hdf5Lib
  | .squids => .squidsLib
  | .boost => .boostLib

/-- The value an option gives to a variable. -/
def Opt.gives : Opt → Key → Option (List Char)
  | .one k v, a => if a = k then some v else none
  | .both p dir, a =>
    if a = includeOf p then some (dir ++ "/include".toList) else if a = libraryOf p then some (dir ++ "/lib".toList) else none
  | .bindings, _ => none

/-- The value after all options: that of the last one that gives one. -/
def final (l : List Opt) (k : Key) (old : List Char) : List Char := ((l.filterMap (·.gives k)).getLast?).getD old

/-! ## Packages -/

/-- There is a copy of GSL: its headers, and its library in either form. -/
def HasGsl {D : Type} (k : Files D) (inc lib : D) : Prop :=
  (k.isDir (k.gsl inc) = true ∧ k.has (k.gsl inc) .gslVersion = true) ∧ k.isDir lib = true ∧ (k.has lib .gslA = true ∨ k.has lib .gslSo = true)

/-- There is a copy of HDF5 with static libraries. -/
def HasHdf5 {D : Type} (k : Files D) (inc lib : D) : Prop :=
  (k.isDir inc = true ∧ k.has inc .h5version = true) ∧ k.isDir lib = true ∧ k.has lib .hdf5A = true ∧ k.has lib .hdf5HlA = true

/-- There is a copy of SQuIDS with a static library. -/
def HasSquids {D : Type} (k : Files D) (inc lib : D) : Prop :=
  (k.isDir inc = true ∧ k.has inc .squidsHeader = true) ∧ k.isDir lib = true ∧ k.has lib .squidsA = true

end Verif.Configure
