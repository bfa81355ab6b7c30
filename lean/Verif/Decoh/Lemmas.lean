import Verif.Decoh.Spec
import Mathlib.Tactic.Ring
import Mathlib.Tactic.Abel
import Mathlib.Tactic.FinCases
import Mathlib.Tactic.NormNum
import Mathlib.Tactic.Linarith

/-!
# Lemmas on decoherence
-/

namespace Verif.Decoh

open Complex Matrix

theorem foldl_sum (f : Nat → ℝ) (n : Nat) : (List.range n).foldl (fun acc j => acc + f j) 0 = ∑ j ∈ Finset.range n, f j := by
  induction n with
  | zero => simp
  | succ n ih => rw [List.range_succ, List.foldl_append, ih, Finset.sum_range_succ]; rfl

theorem drho_eq (s : Nsq) (E : ℝ) (rho : Nat → ℝ) (i : Nat) :
    drho s E rho i = (E / s.scale) ^ s.index * ∑ j ∈ Finset.range s.nb, s.gamma i j * rho j := by
  unfold drho
  rw [foldl_sum (fun j => s.gamma i j * rho j * (E / s.scale) ^ s.index), Finset.mul_sum]
  exact Finset.sum_congr rfl fun j _ => by ring

theorem mem_pairs {nb i j : Nat} : (i, j) ∈ pairs nb ↔ i < nb ∧ j < nb := by
  unfold pairs
  simp [List.mem_flatMap, List.mem_map]

/-- What the loops write when the indices are mapped by `f`. -/
theorem setLoop_spec (dmat : Nat → Nat → ℝ) (g : Bool) (f : Nat → Nat) (nu : Nat) (hlt : ∀ i < nu ^ 2, f i < nu ^ 2)
    (hinj : ∀ i < nu ^ 2, ∀ j < nu ^ 2, f i = f j → i = j)
    (hone : ∀ s : Nsq, s.numneu = nu → ∀ i < nu ^ 2, ∀ j < nu ^ 2, setOne s dmat g i j = s.write (f i) (f j) (dmat i j)) :
    ∀ (ps : List (Nat × Nat)) (s : Nsq), s.numneu = nu → (∀ p ∈ ps, p.1 < nu ^ 2 ∧ p.2 < nu ^ 2) →
      ∃ G, setLoop dmat g ps s = ({ s with gamma := G }, .ok ()) ∧
        ∀ i < nu ^ 2, ∀ j < nu ^ 2, G (f i) (f j) = if (i, j) ∈ ps then dmat i j else s.gamma (f i) (f j) := by
  intro ps
  induction ps with
  | nil => intro s _ _; exact ⟨s.gamma, rfl, by simp⟩
  | cons p ps ih =>
    intro s hs hp
    obtain ⟨a, b⟩ := p
    have hab := hp (a, b) (by simp)
    have hw : s.write (f a) (f b) (dmat a b) =
        ({ s with gamma := fun x y => if x = f a ∧ y = f b then dmat a b else s.gamma x y }, .ok ()) := by
      unfold Nsq.write Nsq.nb
      rw [hs, if_pos ⟨hlt a hab.1, hlt b hab.2⟩]
    obtain ⟨G, e1, e2⟩ := ih { s with gamma := fun x y => if x = f a ∧ y = f b then dmat a b else s.gamma x y } hs
      (fun q hq => hp q (by simp [hq]))
    refine ⟨G, ?_, ?_⟩
    · unfold setLoop
      rw [hone s hs a hab.1 b hab.2, hw]
      exact e1
    · intro i hi j hj
      rw [e2 i hi j hj]
      by_cases hm : (i, j) ∈ ps
      · simp [hm]
      · simp only [hm, if_false, List.mem_cons, or_false, Prod.mk.injEq]
        by_cases h : i = a ∧ j = b
        · rw [if_pos ⟨by rw [h.1], by rw [h.2]⟩, if_pos h, h.1, h.2]
        · rw [if_neg, if_neg h]
          rintro ⟨h1, h2⟩
          exact h ⟨hinj i hi a hab.1 h1, hinj j hj b hab.2 h2⟩

/-- The order of the basis of SQuIDS for three flavours. -/
def perm3 : Nat → Nat
  | 2 => 3
  | 3 => 4
  | 4 => 2
  | 5 => 6
  | 6 => 5
  | i => i

theorem mapBasis_two {i : Nat} (h : i < 4) : mapBasis 2 i = .ok i := by
  match i, h with
  | 0, _ => rfl
  | 1, _ => rfl
  | 2, _ => rfl
  | 3, _ => rfl

theorem mapBasis_three {i : Nat} (h : i < 9) : mapBasis 3 i = .ok (perm3 i) := by
  match i, h with
  | 0, _ => rfl
  | 1, _ => rfl
  | 2, _ => rfl
  | 3, _ => rfl
  | 4, _ => rfl
  | 5, _ => rfl
  | 6, _ => rfl
  | 7, _ => rfl
  | 8, _ => rfl

theorem perm3_lt : ∀ i < 9, perm3 i < 9 := by decide
theorem perm3_inj : ∀ i < 9, ∀ j < 9, perm3 i = perm3 j → i = j := by decide

/-- The sign between a Gell-Mann matrix and its counterpart. -/
def sgn : Nat → ℝ
  | 2 => -1
  | 5 => -1
  | 7 => -1
  | _ => 1

theorem sgn_mul (i : Nat) : sgn i * sgn i = 1 := by
  unfold sgn
  split <;> norm_num

theorem gen_gellMann : ∀ i < 9, gen 3 (perm3 i) = (sgn i : ℂ) • gellMann i := by
  have e2 : (Real.sqrt 2 : ℂ) / (Real.sqrt 2 * Real.sqrt 3) = (Real.sqrt 3 : ℂ)⁻¹ := by
    have h2 : (Real.sqrt 2 : ℂ) ≠ 0 := by
      rw [Ne, Complex.ofReal_eq_zero]
      positivity
    rw [div_mul_eq_div_div, div_self h2, one_div]
  intro i hi
  match i, hi with
  | 0, _ => ext a b; fin_cases a <;> fin_cases b <;> simp [gen, gellMann, perm3, sgn]
  | 1, _ => ext a b; fin_cases a <;> fin_cases b <;> simp [gen, gellMann, perm3, sgn]
  | 2, _ => ext a b; fin_cases a <;> fin_cases b <;> simp [gen, gellMann, perm3, sgn]
  | 3, _ =>
    ext a b
    fin_cases a <;> fin_cases b <;> simp [gen, gellMann, perm3, sgn, -Nat.cast_ofNat] <;> norm_num
  | 4, _ => ext a b; fin_cases a <;> fin_cases b <;> simp [gen, gellMann, perm3, sgn]
  | 5, _ => ext a b; fin_cases a <;> fin_cases b <;> simp [gen, gellMann, perm3, sgn]
  | 6, _ => ext a b; fin_cases a <;> fin_cases b <;> simp [gen, gellMann, perm3, sgn]
  | 7, _ => ext a b; fin_cases a <;> fin_cases b <;> simp [gen, gellMann, perm3, sgn]
  | 8, _ => ext a b; fin_cases a <;> fin_cases b <;> simp [gen, gellMann, perm3, sgn] <;> norm_num [e2]

/-- A sum in the order of SQuIDS is a sum in the order of Gell-Mann. -/
theorem sum_perm3 {M : Type} [AddCommMonoid M] (f : Nat → M) : ∑ k ∈ Finset.range 9, f k = ∑ i ∈ Finset.range 9, f (perm3 i) := by
  simp only [Finset.sum_range_succ, Finset.sum_range_zero, perm3]
  abel

theorem mat3 (v : Nat → ℝ) : mat 3 v = ∑ i ∈ Finset.range 9, ((sgn i * v (perm3 i) : ℝ) : ℂ) • gellMann i := by
  unfold mat
  rw [show 3 ^ 2 = 9 from rfl, sum_perm3]
  refine Finset.sum_congr rfl fun i hi => ?_
  rw [gen_gellMann i (Finset.mem_range.1 hi), smul_smul]
  push_cast
  rw [mul_comm]

/-- The Gell-Mann matrices are independent. -/
theorem gellMann_indep (a b : Nat → ℝ) (h : ∑ i ∈ Finset.range 9, (a i : ℂ) • gellMann i = ∑ i ∈ Finset.range 9, (b i : ℂ) • gellMann i) :
    ∀ i < 9, a i = b i := by
  have hs : Real.sqrt 3 / 3 ≠ 0 := by positivity
  have e : ∀ x y : Fin 3, (∑ i ∈ Finset.range 9, (a i : ℂ) • gellMann i) x y = (∑ i ∈ Finset.range 9, (b i : ℂ) • gellMann i) x y := by
    intro x y
    rw [h]
  simp only [Finset.sum_range_succ, Finset.sum_range_zero, gellMann, Matrix.add_apply, Matrix.smul_apply] at e
  have e00 := e 0 0
  have e01 := e 0 1
  have e02 := e 0 2
  have e11 := e 1 1
  have e12 := e 1 2
  have e22 := e 2 2
  clear e
  simp only [Complex.ext_iff] at e00 e01 e02 e11 e12 e22
  simp at e00 e01 e02 e11 e12 e22
  generalize Real.sqrt 3 / 3 = t at e00 e11 e22 hs
  have h8 : a 8 = b 8 := mul_right_cancel₀ hs (by linarith)
  have h0 : a 0 = b 0 := by rw [h8] at e22; linarith
  have h3 : a 3 = b 3 := by linarith
  intro i hi
  match i, hi with
  | 0, _ => exact h0
  | 1, _ => exact e01.1
  | 2, _ => exact e01.2
  | 3, _ => exact h3
  | 4, _ => exact e02.1
  | 5, _ => exact e02.2
  | 6, _ => exact e12.1
  | 7, _ => exact e12.2
  | 8, _ => exact h8

/-- The populations do not change the trace. -/
theorem sum_balance (n r : Nat) (h : r < n) : ∑ a ∈ Finset.range n, (if a < r then (1 : ℂ) else if a = r then -(r : ℂ) else 0) = 0 := by
  obtain ⟨m, rfl⟩ : ∃ m, n = r + 1 + m := ⟨n - (r + 1), by omega⟩
  rw [Finset.sum_range_add, Finset.sum_range_succ]
  have h1 : ∑ a ∈ Finset.range r, (if a < r then (1 : ℂ) else if a = r then -(r : ℂ) else 0) = r := by
    rw [Finset.sum_congr rfl fun a ha => if_pos (Finset.mem_range.1 ha)]
    simp
  have h2 : ∑ x ∈ Finset.range m, (if r + 1 + x < r then (1 : ℂ) else if r + 1 + x = r then -(r : ℂ) else 0) = 0 :=
    Finset.sum_eq_zero fun x _ => by rw [if_neg (by omega), if_neg (by omega)]
  rw [h1, h2]
  simp

theorem trace_gen {n k : Nat} (hk : k < n ^ 2) (h0 : k ≠ 0) : (gen n k).trace = 0 := by
  have hr : k / n < n := Nat.div_lt_of_lt_mul (by rwa [pow_two] at hk)
  unfold gen Matrix.trace
  dsimp only [Matrix.diag, Matrix.of_apply]
  simp only [if_neg h0, if_true]
  by_cases h1 : k / n < k % n
  · refine Finset.sum_eq_zero fun a _ => ?_
    rw [if_pos h1, if_neg (by omega)]
  · by_cases h2 : k % n < k / n
    · refine Finset.sum_eq_zero fun a _ => ?_
      rw [if_neg h1, if_pos h2, if_neg (by omega), if_neg (by omega)]
    · simp only [if_neg h1, if_neg h2]
      rw [← Finset.mul_sum, Fin.sum_univ_eq_sum_range (fun a => if a < k / n then (1 : ℂ) else if a = k / n then -((k / n : Nat) : ℂ) else 0) n,
        sum_balance n _ hr, mul_zero]

theorem gen_zero (n : Nat) : gen n 0 = 1 := by
  ext a b
  simp [gen, Matrix.one_apply]

theorem mat_trace {n : Nat} (hn : 0 < n) (v : Nat → ℝ) : (mat n v).trace = n * v 0 := by
  unfold mat
  rw [Matrix.trace_sum]
  have hpos : 0 < n ^ 2 := by positivity
  rw [Finset.sum_eq_single_of_mem 0 (Finset.mem_range.2 hpos)]
  · rw [Matrix.trace_smul, gen_zero, Matrix.trace_one]
    simp [mul_comm]
  · intro k hk h0
    rw [Matrix.trace_smul, trace_gen (Finset.mem_range.1 hk) h0, smul_zero]

end Verif.Decoh
