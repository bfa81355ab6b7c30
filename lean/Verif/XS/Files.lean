import Verif.XS.Tables

/-!
# Text and HDF5 files of `NeutrinoDISCrossSectionsFromTables` (src/xsections.cpp 110-167, 269-586)

A text file is the list of its rows as `quickread` returns them (C28, C29). The files of a prefix are named by the flavour part of the name
("" or "electron_", …) and one of eight endings. An HDF5 file has the arrays `energies` and `zs` and, under a name, an object with eight
arrays; two names may refer to the same object. An object in which some of the eight arrays are missing is not modelled.

`fmt` is what becomes of a double written to text with the default six digits and read again, `fl` what becomes of one stored as `float`.
-/

namespace Verif.XS

open Verif.Interp

/-! ## Reading text -/

/-- Rows to columns: `log10` of every entry of a column times a factor. -/
noncomputable def logs (u : ℝ) : List ℝ → Outcome (List ℝ)
  | [] => .ok []
  | x :: xs => (log10 (x * u)).bind fun l => (logs u xs).map (l :: ·)

/-- `read1DInterpolationFromText` (110-125). `quickread` of a file without numbers does not give two columns. -/
noncomputable def read1D (rows : List (List ℝ)) : Outcome (Spline ℝ × ℝ × ℝ) :=
  if rows = [] ∨ ∃ r ∈ rows, r.length ≠ 2 then .throws
  else
    (logs GeV (rows.map (·.getD 0 0))).bind fun en =>
    (logs 1 (rows.map (·.getD 1 0))).bind fun sigma =>
    (ofVectors en sigma).bind fun s =>
    .ok (s, (rows.map (·.getD 0 0)).headD 0 * GeV, (rows.map (·.getD 0 0)).getLastD 0 * GeV)

/-- The number of leading rows with the energy of the first (131-138). -/
noncomputable def leading (es : List ℝ) : Nat := (es.takeWhile fun e => e = es.headD 0).length

/-- `data[i][j]=log10(…)`, with `tiny` instead of anything that is not finite (156-160). -/
noncomputable def logOrTiny (x : ℝ) : ℝ := if 0 < x then Real.logb 10 x else -50

/-- `read2DInterpolationFromText` (127-167): the z values in the file are not used. -/
noncomputable def read2D (rows : List (List ℝ)) : Outcome (BiCubic ℝ × ℝ × ℝ) :=
  if rows = [] ∨ ∃ r ∈ rows, r.length ≠ 3 then .throws
  else
    let es := rows.map (·.getD 0 0)
    let vs := rows.map (·.getD 2 0)
    let zSteps := leading es
    let enSteps := rows.length / zSteps
    if zSteps = rows.length ∨ enSteps * zSteps ≠ rows.length then .throws
    else
      (logs GeV ((List.range enSteps).map fun j => es.getD (j * zSteps) 0)).bind fun x =>
      (BiCubic.make ⟨zSteps, enSteps, fun i j => logOrTiny (vs.getD (j * zSteps + i) 0)⟩ x
        ((List.range zSteps).map fun (j : Nat) => (j : ℝ) / ((zSteps - 1 : Nat) : ℝ))).bind fun b =>
      .ok (b, es.headD 0 * GeV, es.getLastD 0 * GeV)

/-- The eight files of one prefix (310-313): totals and differentials, each in the order CC nu, NC nu, CC nubar, NC nubar; `none` if the
file is not there. -/
structure TextSet where
  s : Fin 4 → Option (List (List ℝ))
  d : Fin 4 → Option (List (List ℝ))

/-- `expectedFilesExist` (309-314). -/
def TextSet.complete (x : TextSet) : Bool := (List.finRange 4).all fun k => (x.s k).isSome && (x.d k).isSome

/-- One `std::tie(...)=read…; if(eMinTmp!=Emin || eMaxTmp!=Emax) throw` (283-304). -/
noncomputable def checked {α : Type} (range : ℝ × ℝ) (x : Outcome (α × ℝ × ℝ)) : Outcome α :=
  x.bind fun r => if r.2.1 ≠ range.1 ∨ r.2.2 ≠ range.2 then .throws else .ok r.1

/-- `!(Emin>0 && Emax>0)` (277): the range is not set yet; it starts as NaN, which is `none`. -/
noncomputable def unset (range : Option (ℝ × ℝ)) : Bool :=
  match range with
  | none => true
  | some r => !(decide (0 < r.1) && decide (0 < r.2))

/-- Opening a file that is not there makes `quickread` throw. -/
def file (x : Option (List (List ℝ))) : Outcome (List (List ℝ)) :=
  match x with
  | none => .throws
  | some r => .ok r

def fin4 {α : Type} (a b c d : α) : Fin 4 → α
  | 0 => a
  | 1 => b
  | 2 => c
  | 3 => d

def fin3 {α : Type} (a b c : α) : Fin 3 → α
  | 0 => a
  | 1 => b
  | 2 => c

/-- `readFlavorText` (269-307). -/
noncomputable def readFlavorText (x : TextSet) (range : Option (ℝ × ℝ)) : Outcome (PerFlavor × ℝ × ℝ) :=
  (((file (x.s 0)).bind read1D)).bind fun r0 =>
  let range := if unset range then (r0.2.1, r0.2.2) else range.getD (0, 0)
  (checked range ((file (x.s 1)).bind read1D)).bind fun s1 =>
  (checked range ((file (x.s 2)).bind read1D)).bind fun s2 =>
  (checked range ((file (x.s 3)).bind read1D)).bind fun s3 =>
  (checked range ((file (x.d 0)).bind read2D)).bind fun d0 =>
  (checked range ((file (x.d 1)).bind read2D)).bind fun d1 =>
  (checked range ((file (x.d 2)).bind read2D)).bind fun d2 =>
  (checked range ((file (x.d 3)).bind read2D)).bind fun d3 =>
  .ok (⟨fin4 r0.1 s1 s2 s3, fin4 d0 d1 d2 d3⟩, range)

/-- The files with a given beginning: without a flavour in the name, and with "electron_", "muon_", "tau_". -/
structure TextFiles where
  common : TextSet
  flavour : Fin 3 → TextSet

/-- A map with the three active flavours. -/
def three (e m t : PerFlavor) : Nat → Option PerFlavor
  | 0 => some e
  | 1 => some m
  | 2 => some t
  | _ => none

/-- `ReadText` (308-335) on a new object. -/
noncomputable def fromText (x : TextFiles) : Outcome Tables :=
  if x.common.complete then
    (readFlavorText x.common none).bind fun r => .ok ⟨r.2.1, r.2.2, three r.1 r.1 r.1⟩
  else if (x.flavour 0).complete && (x.flavour 1).complete && (x.flavour 2).complete then
    (readFlavorText (x.flavour 0) none).bind fun e =>
    (readFlavorText (x.flavour 1) (some e.2)).bind fun m =>
    (readFlavorText (x.flavour 2) (some m.2)).bind fun t =>
    .ok ⟨t.2.1, t.2.2, three e.1 m.1 t.1⟩
  else .throws

/-! ## Writing text -/

/-- `write1D` (338-347). -/
noncomputable def write1D (fmt : ℝ → ℝ) (s : Spline ℝ) : List (List ℝ) :=
  (s.abscissas.zip s.ordinates).map fun p => [fmt (pow10 p.1 / GeV), fmt (pow10 p.2)]

/-- `z[i][j]` of a two-dimensional `marray`: cells are stored row after row and indices are not checked. -/
def cellAt (g : Grid2 ℝ) (i j : Nat) : Outcome ℝ :=
  if i * g.n1 + j < g.n0 * g.n1 then .ok (g.at_ ((i * g.n1 + j) / g.n1) ((i * g.n1 + j) % g.n1)) else .ub

/-- The inner loop of `write2D` (357-358). -/
noncomputable def writeRow (fmt : ℝ → ℝ) (g : Grid2 ℝ) (en : ℝ) (i : Nat) : List (ℝ × Nat) → Outcome (List (List ℝ))
  | [] => .ok []
  | (y, j) :: rest => (cellAt g i j).bind fun v => (writeRow fmt g en i rest).map ([fmt en, fmt y, fmt (pow10 v)] :: ·)

/-- The outer loop of `write2D` (355-359). -/
noncomputable def writeRows (fmt : ℝ → ℝ) (g : Grid2 ℝ) (ys : List ℝ) : List (ℝ × Nat) → Outcome (List (List ℝ))
  | [] => .ok []
  | (x, i) :: rest =>
    (writeRow fmt g (pow10 x / GeV) i ys.zipIdx).bind fun a => (writeRows fmt g ys rest).map (a ++ ·)

/-- `write2D` (348-360). -/
noncomputable def write2D (fmt : ℝ → ℝ) (b : BiCubic ℝ) : Outcome (List (List ℝ)) := writeRows fmt b.data b.ys b.xs.zipIdx

/-- The eight files of a flavour (368-376). -/
noncomputable def writeFlavor (fmt : ℝ → ℝ) (p : PerFlavor) : Outcome TextSet :=
  (write2D fmt (p.d 0)).bind fun d0 =>
  (write2D fmt (p.d 1)).bind fun d1 =>
  (write2D fmt (p.d 2)).bind fun d2 =>
  (write2D fmt (p.d 3)).bind fun d3 =>
  .ok ⟨fun k => some (write1D fmt (p.s k)), fin4 (some d0) (some d1) (some d2) (some d3)⟩

/-- No files. -/
def TextSet.empty : TextSet := ⟨fun _ => none, fun _ => none⟩

/-- `WriteText` (337-378) to a new place; the order of the flavours, which is that of a hash table, does not matter to the result. -/
noncomputable def writeText (fmt : ℝ → ℝ) (t : Tables) : Outcome TextFiles :=
  (getFlavor t 0).bind fun e => (getFlavor t 1).bind fun m => (getFlavor t 2).bind fun ta =>
  (writeFlavor fmt e).bind fun fe => (writeFlavor fmt m).bind fun fm => (writeFlavor fmt ta).bind fun ft =>
  .ok ⟨TextSet.empty, fin3 fe fm ft⟩

/-! ## HDF5 -/

/-- An object of the file with its eight arrays. -/
structure H5Flavor where
  s : Fin 4 → List ℝ
  d : Fin 4 → Grid2 ℝ

/-- A file. `link` gives the object a name refers to; `common` are arrays at the top, as old files have them. -/
structure H5File where
  energies : List ℝ
  zs : List ℝ
  common : Option H5Flavor
  link : Fin 3 → Option Nat
  objects : Nat → H5Flavor

/-- `readTotal` (387-392). -/
noncomputable def readTotal (energies a : List ℝ) : Outcome (Spline ℝ) :=
  if a.length ≠ energies.length then .throws else akimaInit (energies.getD · 0) (a.getD · 0) energies.length

/-- `readDifferential` (399-406). -/
noncomputable def readDifferential (energies zs : List ℝ) (g : Grid2 ℝ) : Outcome (BiCubic ℝ) :=
  if g.n0 ≠ energies.length then .throws
  else if g.n1 ≠ zs.length then .throws
  else BiCubic.make g energies zs

/-- `readFlavorHDF5` (380-413). -/
noncomputable def readFlavorHDF5 (energies zs : List ℝ) (x : H5Flavor) : Outcome PerFlavor :=
  (readTotal energies (x.s 0)).bind fun s0 =>
  (readTotal energies (x.s 1)).bind fun s1 =>
  (readTotal energies (x.s 2)).bind fun s2 =>
  (readTotal energies (x.s 3)).bind fun s3 =>
  (readDifferential energies zs (x.d 0)).bind fun d0 =>
  (readDifferential energies zs (x.d 1)).bind fun d1 =>
  (readDifferential energies zs (x.d 2)).bind fun d2 =>
  (readDifferential energies zs (x.d 3)).bind fun d3 =>
  .ok ⟨fin4 s0 s1 s2 s3, fin4 d0 d1 d2 d3⟩

/-- `ReadHDF` (471-527) on a new object; `front()` and `back()` of an empty array are undefined. An object that two names refer to is read
once. -/
noncomputable def fromHDF (x : H5File) : Outcome Tables :=
  (Outcome.ofOption x.energies.head?).bind fun lo =>
  (Outcome.ofOption x.energies.getLast?).bind fun hi =>
  match x.common with
  | some c => (readFlavorHDF5 x.energies x.zs c).bind fun p => .ok ⟨pow10 lo, pow10 hi, three p p p⟩
  | none =>
    match x.link 0, x.link 1, x.link 2 with
    | some e, some m, some t =>
      (readFlavorHDF5 x.energies x.zs (x.objects e)).bind fun pe =>
      (if m = e then .ok pe else readFlavorHDF5 x.energies x.zs (x.objects m)).bind fun pm =>
      (if t = e then .ok pe else if t = m then .ok pm else readFlavorHDF5 x.energies x.zs (x.objects t)).bind fun pt =>
      .ok ⟨pow10 lo, pow10 hi, three pe pm pt⟩
    | _, _, _ => .throws

/-- `writeFlavorHDF5` (529-539): ordinates of the splines and data of the interpolators, as `float`. -/
def writeFlavorHDF5 (fl : ℝ → ℝ) (p : PerFlavor) : H5Flavor :=
  ⟨fun k => (p.s k).ordinates.map fl, fun k => ⟨(p.d k).data.n0, (p.d k).data.n1, fun i j => fl ((p.d k).data.at_ i j)⟩⟩

/-- `WriteHDF` (541-586). `same` says whether tau shares its data object with electron and with muon (`it1->second == it2->second`, 555-559;
an iterator to a flavour that is not there is dereferenced); `first` is the flavour the hash table begins with. The muon is always a second
name of the electron data (571), and a tau that shares data with the muon a further name of that (580). -/
def writeHDF (fl : ℝ → ℝ) (same : Bool × Bool) (first : PerFlavor) (t : Tables) : Outcome H5File :=
  (getFlavor t 0).bind fun e =>
  (Outcome.ofOption (t.data 2)).bind fun ta =>
  (if same.1 then .ok 0 else (Outcome.ofOption (t.data 1)).bind fun _ => .ok (if same.2 then 0 else 2)).bind fun taLink =>
  .ok ⟨(first.d 0).xs.map fl, (first.d 0).ys.map fl, none, fin3 (some 0) (some 0) (some taLink),
    fun k => if k = 2 then writeFlavorHDF5 fl ta else writeFlavorHDF5 fl e⟩

end Verif.XS
