import Verif.NewPhys.Model
import Mathlib.LinearAlgebra.Matrix.Hermitian
import Mathlib.Tactic.FinCases
import Mathlib.Tactic.NormNum

/-!
# C88: the new-physics term is that of the current parameters
-/

namespace Verif.NewPhys

open Matrix Complex

/-! ## Specification -/

/-- Non-standard interactions of strength `eps` between the muon and the tau neutrino, in the flavour basis. -/
noncomputable def muTau (eps : ℝ) : Op := !![0, 0, 0; 0, 0, (eps : ℂ); 0, (eps : ℂ), 0]

/-- Nothing but the strength was changed since the operator was last set or the object was made. -/
def noLaterMixing : List NsiCall → Bool → Bool
  | [], fresh => fresh
  | .setMutau _ :: h, _ => noLaterMixing h true
  | .setMixing _ :: h, _ => noLaterMixing h false
  | .read _ _ :: h, _ => noLaterMixing h false

/-- The strength last given. -/
def lastEps : List NsiCall → ℝ → ℝ
  | [], e => e
  | .setMutau e :: h, _ => lastEps h e
  | .setMixing _ :: h, e => lastEps h e
  | .read e _ :: h, _ => lastEps h e

/-- The mixing matrix last given. -/
def lastMix : List NsiCall → Op → Op
  | [], U => U
  | .setMutau _ :: h, U => lastMix h U
  | .setMixing U :: h, _ => lastMix h U
  | .read _ U :: h, _ => lastMix h U

/-- The flavour operator with elements `emu` and `mutau` below the diagonal. -/
noncomputable def lorentz (emu mutau : ℂ) : Op := !![0, star emu, 0; emu, 0, star mutau; 0, mutau, 0]

/-- The flavour operator given last, if the mixing was not changed after it. -/
noncomputable def given : List LvCall → Option Op → Option Op
  | [], A => A
  | .setParams a b :: h, _ => given h (some (lorentz a b))
  | .setMatrix M :: h, _ => given h (some M)
  | .setOperator A :: h, _ => given h (some A)
  | .setMixing _ :: h, _ => given h none
  | .setPower _ :: h, A => given h A
  | .setInitial _ :: h, A => given h A

def lvMix : List LvCall → Op → Op
  | [], U => U
  | .setMixing U :: h, _ => lvMix h U
  | _ :: h, U => lvMix h U

def lvPower : List LvCall → Int → Int
  | [], n => n
  | .setPower n :: h, _ => lvPower h n
  | _ :: h, n => lvPower h n

/-! ## Non-standard interactions -/

theorem nsiMatrix_eq (eps : ℝ) : nsiMatrix eps = muTau eps := by
  ext a b
  fin_cases a <;> fin_cases b <;> simp [nsiMatrix, muTau, put]

/-- The parameters kept are always the ones last given; the operator is theirs if `noLaterMixing`. -/
theorem nsi_run (h : List NsiCall) : ∀ (s : Nsi) (f : Bool), (f = true → s.op = rotate s.mix (muTau s.eps)) →
    (s.run h).eps = lastEps h s.eps ∧ (s.run h).mix = lastMix h s.mix ∧
    (noLaterMixing h f = true → (s.run h).op = rotate (s.run h).mix (muTau (s.run h).eps)) := by
  induction h with
  | nil => intro s f hf; exact ⟨rfl, rfl, hf⟩
  | cons c h ih =>
    intro s f hf
    cases c with
    | setMutau e => exact ih (s.setMutau e) true (fun _ => by simp [Nsi.setMutau, nsiMatrix_eq])
    | setMixing U => exact ih (s.setMixing U) false (fun h => by cases h)
    | read e U => exact ih (s.read e U) false (fun h => by cases h)

/-- C88, partial: whatever was called before, the operator used at a position is that of the current strength and the current mixing, provided that the
mixing was not changed, nor a file read, after the strength was last set. Missing: without that the operator is stale (`c88_nsi_mixing_violated`,
`c88_nsi_file_violated`). -/
theorem c88_nsi_current_partial (eps : ℝ) (U : Op) (h : List NsiCall) (hf : noLaterMixing h true = true) (W : Nat → ℝ → Op) (x : ℝ) (ei : Nat) :
    ((Nsi.make eps U).run h).preDerive W x ei = W ei x * (lastMix h U * muTau (lastEps h eps) * (lastMix h U)ᴴ) * (W ei x)ᴴ := by
  obtain ⟨h1, h2, h3⟩ := nsi_run h (Nsi.make eps U) true (fun _ => by simp [Nsi.make, nsiMatrix_eq])
  unfold Nsi.preDerive evolve
  rw [h3 hf, h1, h2]
  rfl

example : noLaterMixing [.setMixing 1, .setMutau 2, .read 3 1, .setMutau 4, .setMutau 5] true = true := rfl

/-- C88: the parameters that are saved are always the current ones. -/
theorem c88_nsi_parameters (eps : ℝ) (U : Op) (h : List NsiCall) :
    ((Nsi.make eps U).run h).eps = lastEps h eps ∧ ((Nsi.make eps U).run h).mix = lastMix h U := by
  obtain ⟨h1, h2, -⟩ := nsi_run h (Nsi.make eps U) true (fun _ => by simp [Nsi.make, nsiMatrix_eq])
  exact ⟨h1, h2⟩

example : lastEps [.setMutau 2, .read 3 1] 1 = 3 := rfl

/-- C88: neutrinos get the term with one sign, antineutrinos with the other, in objects of either and of both. -/
theorem c88_nsi_term (CC : ℝ) (base ev : Op) :
    nsiHI .neutrino 0 CC base ev = .ok (base + ((3 * CC : ℝ) : ℂ) • ev) ∧
    nsiHI .antineutrino 0 CC base ev = .ok (base - ((3 * CC : ℝ) : ℂ) • ev) ∧
    nsiHI .both 0 CC base ev = .ok (base + ((3 * CC : ℝ) : ℂ) • ev) ∧
    nsiHI .both 1 CC base ev = .ok (base - ((3 * CC : ℝ) : ℂ) • ev) := by
  refine ⟨?_, ?_, ?_, ?_⟩ <;> simp [nsiHI, sub_eq_add_neg]

example : nsiHI .both 2 1 0 0 = .throws := by simp [nsiHI]

/-- C88: the term is hermitian whenever the rotation and evolution are applied to the matrix of a real strength. -/
theorem c88_nsi_hermitian (eps CC : ℝ) (U W : Op) : Matrix.IsHermitian (((3 * CC : ℝ) : ℂ) • (W * (U * muTau eps * Uᴴ) * Wᴴ)) := by
  have h : Matrix.IsHermitian (muTau eps) := by
    ext a b
    fin_cases a <;> fin_cases b <;> simp [muTau]
  have h1 := Matrix.isHermitian_mul_mul_conjTranspose U h
  have h2 := Matrix.isHermitian_mul_mul_conjTranspose W h1
  unfold Matrix.IsHermitian at h2 ⊢
  rw [Matrix.conjTranspose_smul, h2]
  simp

example : muTau 1 ≠ 0 := by
  intro h
  have := congrFun (congrFun h 1) 2
  simp [muTau] at this

/-- A rotation by a right angle between the first two states. -/
noncomputable def swap01 : Op := !![0, 1, 0; -1, 0, 0; 0, 0, 1]

/-- C88 fails when the mixing is changed after the construction, as by `Set_CPPhase`: the operator is still that of the old mixing. -/
theorem c88_nsi_mixing_violated : ∃ (U U' : Op), U * Uᴴ = 1 ∧ U' * U'ᴴ = 1 ∧
    ((Nsi.make 1 U).run [.setMixing U']).op ≠ rotate ((Nsi.make 1 U).run [.setMixing U']).mix (muTau ((Nsi.make 1 U).run [.setMixing U']).eps) := by
  refine ⟨1, swap01, by simp, ?_, ?_⟩
  · ext a b
    fin_cases a <;> fin_cases b <;> simp [swap01, Matrix.mul_apply, Fin.sum_univ_three]
  · intro h
    have := congrFun (congrFun h 1) 2
    simp [Nsi.run, Nsi.step, Nsi.make, Nsi.setMixing, rotate, nsiMatrix_eq, muTau, swap01, Matrix.mul_apply, Fin.sum_univ_three] at this

/-- C88 fails when a file is read: the strength is taken from it, but not the operator. -/
theorem c88_nsi_file_violated : ∃ e e' : ℝ, ((Nsi.make e 1).run [.read e' 1]).eps = e' ∧
    ((Nsi.make e 1).run [.read e' 1]).op ≠ rotate 1 (muTau e') := by
  refine ⟨1, 2, rfl, ?_⟩
  intro h
  have := congrFun (congrFun h 1) 2
  simp [Nsi.run, Nsi.step, Nsi.make, Nsi.read, rotate, nsiMatrix_eq, muTau] at this

/-! ## Lorentz violation -/

theorem lvMatrix_eq (emu mutau : ℂ) : lvMatrix emu mutau = lorentz emu mutau := by
  ext a b
  fin_cases a <;> fin_cases b <;> simp [lvMatrix, lorentz, put]

theorem setMixing_fold (l : List Op) (U : Op) (s : Lv) : (l ++ [U]).foldl Lv.setMixing s = { s with mix := U, isSet := false } := by
  induction l generalizing s with
  | nil => rfl
  | cons a l ih => exact ih (s.setMixing a)

theorem setInitial_eq (s : Lv) (f : List Op) : s.setInitial f = s := by
  unfold Lv.setInitial
  dsimp only
  rw [setMixing_fold]

/-- The state of the object matches what was given. -/
def Matches (s : Lv) (A : Option Op) : Prop :=
  match A with
  | none => s.isSet = false
  | some A => s.isSet = true ∧ s.op = rotate s.mix A

theorem lv_run (h : List LvCall) : ∀ (s : Lv) (A : Option Op), Matches s A →
    Matches (s.run h) (given h A) ∧ (s.run h).mix = lvMix h s.mix ∧ (s.run h).power = lvPower h s.power := by
  induction h with
  | nil => intro s A hm; exact ⟨hm, rfl, rfl⟩
  | cons c h ih =>
    intro s A hm
    cases c with
    | setParams a b => exact ih (s.setParams a b) _ ⟨rfl, by simp [Lv.setParams, lvMatrix_eq]⟩
    | setMatrix M => exact ih (s.setMatrix M) _ ⟨rfl, rfl⟩
    | setOperator B => exact ih (s.setOperator B) _ ⟨rfl, rfl⟩
    | setPower n =>
      refine ih (s.setPower n) A ?_
      cases A with
      | none => exact hm
      | some A => exact hm
    | setMixing U => exact ih (s.setMixing U) none rfl
    | setInitial f =>
      have := ih (s.setInitial f) A (by rw [setInitial_eq]; exact hm)
      rw [setInitial_eq] at this
      have e : s.run (.setInitial f :: h) = s.run h := by
        show Lv.run (s.setInitial f) h = _
        rw [setInitial_eq]
      rw [e]
      exact this

/-- C88: whatever was called before, the evolution uses the flavour operator given last with the current mixing, and refuses to start if none was given or
the mixing was changed after it. -/
theorem c88_lv_current (U : Op) (emu mutau : ℂ) (op : Op) (h : List LvCall) (W : Nat → ℝ → Op) (x : ℝ) :
    ((Lv.make U emu mutau op).run h).preDerive W x = match given h none with
      | none => .throws
      | some A => .ok fun ei => W ei x * (lvMix h U * A * (lvMix h U)ᴴ) * (W ei x)ᴴ := by
  obtain ⟨h1, h2, -⟩ := lv_run h (Lv.make U emu mutau op) none rfl
  unfold Lv.preDerive
  cases hg : given h none with
  | none =>
    rw [hg] at h1
    rw [show ((Lv.make U emu mutau op).run h).isSet = false from h1]
    rfl
  | some A =>
    rw [hg] at h1
    rw [h1.1]
    simp only [Bool.not_true, if_neg Bool.false_ne_true, evolve]
    rw [h1.2, h2]
    rfl

example : given [.setParams 1 0, .setMixing 1] none = none ∧ given [.setMixing 1, .setMatrix 1, .setPower 2, .setInitial [1]] none = some 1 := ⟨rfl, rfl⟩

/-- C88: the term grows with the power of the energy given last, and has the opposite sign for antineutrinos. -/
theorem c88_lv_term (U : Op) (emu mutau : ℂ) (op : Op) (h : List LvCall) (E : ℝ) (base ev : Op) :
    ((Lv.make U emu mutau op).run h).HI .neutrino 0 E base ev = base + ((E ^ lvPower h 1 : ℝ) : ℂ) • ev ∧
    ((Lv.make U emu mutau op).run h).HI .antineutrino 0 E base ev = base - ((E ^ lvPower h 1 : ℝ) : ℂ) • ev ∧
    ((Lv.make U emu mutau op).run h).HI .both 0 E base ev = base + ((E ^ lvPower h 1 : ℝ) : ℂ) • ev ∧
    ((Lv.make U emu mutau op).run h).HI .both 1 E base ev = base - ((E ^ lvPower h 1 : ℝ) : ℂ) • ev := by
  obtain ⟨-, -, h3⟩ := lv_run h (Lv.make U emu mutau op) none rfl
  unfold Lv.HI
  rw [h3, show (Lv.make U emu mutau op).power = 1 from rfl]
  refine ⟨?_, ?_, ?_, ?_⟩ <;> simp [sub_eq_add_neg]

example : lvPower [.setPower 2, .setMixing 1] 1 = 2 := rfl

/-- C88: the operator of two parameters is hermitian. -/
theorem c88_lv_hermitian (emu mutau : ℂ) (U : Op) : Matrix.IsHermitian (rotate U (lvMatrix emu mutau)) := by
  rw [lvMatrix_eq]
  refine Matrix.isHermitian_mul_mul_conjTranspose U ?_
  ext a b
  fin_cases a <;> fin_cases b <;> simp [lorentz]

example : lvMatrix I 2 0 1 = -I ∧ lvMatrix I 2 1 0 = I := by
  rw [lvMatrix_eq]
  simp [lorentz]

/-- C88, partial: if the file has an object `c_values`, the parameters saved are read back and the operator is theirs. Missing: nobody makes that object
(`c88_lv_file_violated`), and an operator given as such is not saved (`c88_lv_operator_violated`). -/
theorem c88_lv_file_partial (s t : Lv) (l : List (String × ℝ)) : ∃ r, t.read (s.write (some l)) = .ok r ∧ r.emu = s.emu ∧ r.mutau = s.mutau ∧
    r.isSet = true ∧ r.op = rotate t.mix (lorentz s.emu s.mutau) := by
  refine ⟨_, rfl, rfl, rfl, rfl, ?_⟩
  show rotate t.mix (lvMatrix _ _) = _
  rw [lvMatrix_eq]

example : ∃ r, (Lv.make 1 0 0 0).read (((Lv.make 1 0 0 0).setParams 1 I).write (some [])) = .ok r ∧ r.mutau = I :=
  (c88_lv_file_partial ((Lv.make 1 0 0 0).setParams 1 I) (Lv.make 1 0 0 0) []).imp fun _ h => ⟨h.1, h.2.2.1⟩

/-- The parameters given last; an operator given as such has none. -/
noncomputable def lvParams : List LvCall → ℂ × ℂ → ℂ × ℂ
  | [], p => p
  | .setParams a b :: h, _ => lvParams h (a, b)
  | .setMatrix M :: h, _ => lvParams h (M 1 0, M 2 1)
  | _ :: h, p => lvParams h p

/-- C88: the parameters that are saved are those given last, by themselves or in a matrix. -/
theorem c88_lv_parameters (U : Op) (emu mutau : ℂ) (op : Op) (h : List LvCall) :
    (((Lv.make U emu mutau op).run h).emu, ((Lv.make U emu mutau op).run h).mutau) = lvParams h (emu, mutau) := by
  have key : ∀ (h : List LvCall) (s : Lv), ((s.run h).emu, (s.run h).mutau) = lvParams h (s.emu, s.mutau) := by
    intro h
    induction h with
    | nil => intro s; rfl
    | cons c h ih =>
      intro s
      cases c with
      | setInitial f =>
        have := ih (s.setInitial f)
        have e : s.run (.setInitial f :: h) = (s.setInitial f).run h := rfl
        rw [e, this, setInitial_eq]
        rfl
      | setParams a b => exact ih (s.setParams a b)
      | setMatrix M => exact ih (s.setMatrix M)
      | setOperator A => exact ih (s.setOperator A)
      | setPower n => exact ih (s.setPower n)
      | setMixing V => exact ih (s.setMixing V)
  exact key h _

/-- C88, partial: a matrix with these two parameters only is read back as the same operator, if the file has an object `c_values`. -/
theorem c88_lv_matrix_partial (U : Op) (s : Lv) (emu mutau : ℂ) (l : List (String × ℝ)) (hU : s.mix = U) :
    ∃ r, s.read ((s.setMatrix (lorentz emu mutau)).write (some l)) = .ok r ∧ r.emu = emu ∧ r.mutau = mutau ∧
      r.op = (s.setMatrix (lorentz emu mutau)).op ∧ r.op = U * lorentz emu mutau * Uᴴ := by
  obtain ⟨r, h1, h2, h3, -, h5⟩ := c88_lv_file_partial (s.setMatrix (lorentz emu mutau)) s l
  have e1 : (s.setMatrix (lorentz emu mutau)).emu = emu := by simp [Lv.setMatrix, lorentz]
  have e2 : (s.setMatrix (lorentz emu mutau)).mutau = mutau := by simp [Lv.setMatrix, lorentz]
  refine ⟨r, h1, h2.trans e1, h3.trans e2, ?_, ?_⟩
  · rw [h5, e1, e2]; rfl
  · rw [h5, e1, e2, ← hU]; rfl

example : lvParams [.setParams 1 2, .setMixing 1, .setMatrix (lorentz 3 I), .setOperator 1] (0, 0) = (3, I) := by
  simp [lvParams, lorentz]

/-- C88 fails for every file written by the code: nothing is saved, and reading uses variables that were never set. -/
theorem c88_lv_file_violated (s t : Lv) : s.write none = none ∧ t.read (s.write none) = .ub := ⟨rfl, rfl⟩

example : ((Lv.make 1 0 0 0).setParams 1 I).write none = none := rfl

/-- C88 fails for an operator given as such: the parameters saved are those of an earlier call. -/
theorem c88_lv_operator_violated : ∃ (s : Lv) (A : Op), s.isSet = true ∧ s.mix = 1 ∧ Matrix.IsHermitian A ∧
    ∃ r, s.read ((s.setOperator A).write (some [])) = .ok r ∧ r.op ≠ (s.setOperator A).op := by
  refine ⟨(Lv.make 1 0 0 0).setParams 0 0, lorentz 1 0, rfl, rfl, ?_, ?_⟩
  · ext a b
    fin_cases a <;> fin_cases b <;> simp [lorentz]
  · obtain ⟨r, h1, -, -, -, h2⟩ := c88_lv_file_partial (((Lv.make 1 0 0 0).setParams 0 0).setOperator (lorentz 1 0)) ((Lv.make 1 0 0 0).setParams 0 0) []
    refine ⟨r, h1, ?_⟩
    rw [h2]
    intro h
    have := congrFun (congrFun h 1) 0
    simp [rotate, lorentz, Lv.make, Lv.setParams, Lv.setOperator] at this

/-- C88 fails for the probabilities printed for antineutrinos: there are none. -/
theorem c88_lv_dump_violated (numneu : Nat) (eval : Nat → Nat → ℝ) : dumpLine .antineutrino numneu eval = [] := by
  simp [dumpLine]

example : dumpLine .neutrino 2 (fun f _ => f) = [0, 0, 1, 0] := by
  simp [dumpLine, List.range_succ]

end Verif.NewPhys
