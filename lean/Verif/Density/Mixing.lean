import Mathlib.Analysis.SpecialFunctions.Trigonometric.Basic
import Verif.Density.Model

/-!
# Mixing parameters and antineutrinos

`AntineutrinoCPFix` and the loops of `iniProjectors` and `SetIniFlavorProyectors` (nuSQuIDS.cpp 1617-1679), which flip the CP phases in the
shared parameter object before each rotation and flip them back after it.

Assumed of SQuIDS: `RotateToB1(params)` is `U A U†` with `U` a product of rotations by the mixing angles with the CP phases, one for each
pair of states in some order that depends on the number of flavours only, each being `cos θ` on the diagonal and `sin θ e^(-iδ)`,
`-sin θ e^(iδ)` off it; `SetPhase` and `GetPhase` store and return.
-/

namespace Verif.Density

open Matrix
open Matter (NT)

/-- `squids::Const`: mixing angles and phases. -/
structure Params where
  angle : Nat → Nat → ℝ
  phase : Nat → Nat → ℝ

/-- `Set_CPPhase` (2857-2862) on indices in range. -/
noncomputable def Params.setPhase (p : Params) (ij : Nat × Nat) (v : ℝ) : Params :=
  { p with phase := fun a b => if (a, b) = ij then v else p.phase a b }

/-- The pairs the two loops of `AntineutrinoCPFix` visit (1619-1620). -/
def cpPairs (numneu : Nat) : List (Nat × Nat) :=
  (List.range numneu).flatMap fun i => (List.range' (i + 1) (numneu - (i + 1))).map fun j => (i, j)

/-- `AntineutrinoCPFix` (1617-1625). -/
noncomputable def cpFix (nt : NT) (numneu rho : Nat) (p : Params) : Params :=
  if nt = .antineutrino ∨ (nt = .both ∧ rho = 1) then
    (cpPairs numneu).foldl (fun p ij => p.setPhase ij (-p.phase ij.1 ij.2)) p
  else p

/-- One rotation. -/
noncomputable def rotation {n : Nat} (i j : Fin n) (θ δ : ℝ) : Mat n :=
  Matrix.of fun a b =>
    if a = i ∧ b = i then (Real.cos θ : ℂ)
    else if a = j ∧ b = j then (Real.cos θ : ℂ)
    else if a = i ∧ b = j then Real.sin θ * (Real.cos δ - Real.sin δ * Complex.I)
    else if a = j ∧ b = i then -(Real.sin θ * (Real.cos δ + Real.sin δ * Complex.I))
    else if a = b then 1 else 0

/-- The matrix `RotateToB1` uses; `pairs` is the order SQuIDS multiplies in. -/
noncomputable def mixingMatrix {n : Nat} (pairs : List (Fin n × Fin n)) (p : Params) : Mat n :=
  (pairs.map fun ij => rotation ij.1 ij.2 (p.angle ij.1 ij.2) (p.phase ij.1 ij.2)).prod

/-- What the loops read and write. -/
structure Projectors (n : Nat) where
  params : Params
  b0 : Fin n → Mat n
  b1 : Nat → Fin n → Mat n
  evolB1 : Nat → Fin n → Nat → Mat n

variable {n : Nat}

/-- `AntineutrinoCPFix(rho); A.RotateToB1(params); AntineutrinoCPFix(rho);` (1639-1641 and three more places). -/
noncomputable def rotated (pairs : List (Fin n × Fin n)) (nt : NT) (rho : Nat) (p : Params) (A : Mat n) : Params × Mat n :=
  let flipped := cpFix nt n rho p
  (cpFix nt n rho flipped, toB1 (mixingMatrix pairs flipped) A)

/-- Rotates into one entry of `b1_proj`. -/
noncomputable def rotateB1 (pairs : List (Fin n × Fin n)) (nt : NT) (rho : Nat) (f : Fin n) (A : Mat n) (s : Projectors n) : Projectors n :=
  let r := rotated pairs nt rho s.params A
  { s with params := r.1, b1 := fun rho' f' => if rho' = rho ∧ f' = f then r.2 else s.b1 rho' f' }

/-- Rotates into one entry of `evol_b1_proj`. -/
noncomputable def rotateEvol (pairs : List (Fin n × Fin n)) (nt : NT) (rho : Nat) (f : Fin n) (A : Mat n) (s : Projectors n) (e : Nat) :
    Projectors n :=
  let r := rotated pairs nt rho s.params A
  { s with params := r.1, evolB1 := fun rho' f' e' => if rho' = rho ∧ f' = f ∧ e' = e then r.2 else s.evolB1 rho' f' e' }

/-- `iniProjectors` (1627-1660). -/
noncomputable def iniLoops (pairs : List (Fin n × Fin n)) (nt : NT) (nrhos ne : Nat) (s : Projectors n) : Projectors n :=
  let s := { s with b0 := fun f => projector f }
  let s := (List.range nrhos).foldl (fun s rho => (List.finRange n).foldl (fun s f => rotateB1 pairs nt rho f (projector f) s) s) s
  (List.range nrhos).foldl (fun s rho => (List.finRange n).foldl (fun s f =>
    (List.range ne).foldl (rotateEvol pairs nt rho f (projector f)) s) s) s

/-- `SetIniFlavorProyectors` (1662-1679). -/
noncomputable def setIniLoops (pairs : List (Fin n × Fin n)) (nt : NT) (nrhos ne : Nat) (s : Projectors n) : Projectors n :=
  (List.range nrhos).foldl (fun s rho => (List.finRange n).foldl (fun s f =>
    rotateB1 pairs nt rho f (s.b0 f) ((List.range ne).foldl (rotateEvol pairs nt rho f (s.b0 f)) s)) s) s

end Verif.Density
