import Verif.Interp.BiCubic
import Verif.Interp.AkimaLemmas
import Mathlib.Topology.Instances.Real.Lemmas

/-! Lemmas shared by the bicubic and the tricubic interpolator: filling tables, spline derivatives of a slice, the cell
search and continuity of functions defined piecewise along an axis. -/

set_option linter.unusedSectionVars false

namespace Verif.Interp

variable {K : Type} [Field K] [LinearOrder K] [IsStrictOrderedRing K]

theorem tabulate_ok {β : Type} {d : β} {m : Nat} {f : Nat → Outcome β} {g : Nat → β} (h : ∀ i, i < m → f i = .ok (g i)) :
    ∃ t, tabulate d m f = .ok t ∧ ∀ i, i < m → t i = g i := by
  induction m with
  | zero => exact ⟨_, rfl, fun i hi => absurd hi (by omega)⟩
  | succ m ih =>
    obtain ⟨t, ht, hv⟩ := ih fun i hi => h i (by omega)
    refine ⟨fun i => if i = m then g m else t i, ?_, ?_⟩
    · simp only [tabulate, ht, Outcome.bind_ok, h m (by omega)]
    · intro i hi
      by_cases e : i = m
      · simp only [e, if_true]
      · simp only [if_neg e]; exact hv i (by omega)

theorem tabulate_inv {β : Type} {d : β} {m : Nat} {f : Nat → Outcome β} {t : Nat → β} (h : tabulate d m f = .ok t) :
    ∀ i, i < m → f i = .ok (t i) := by
  induction m generalizing t with
  | zero => intro i hi; omega
  | succ m ih =>
    simp only [tabulate] at h
    cases ht : tabulate d m f with
    | throws => rw [ht] at h; cases h
    | ub => rw [ht] at h; cases h
    | ok t' =>
      rw [ht, Outcome.bind_ok] at h
      cases hf : f m with
      | throws => rw [hf] at h; cases h
      | ub => rw [hf] at h; cases h
      | ok b =>
        rw [hf, Outcome.bind_ok] at h
        cases h
        intro i hi
        by_cases e : i = m
        · simp only [e, if_true]; exact hf
        · simp only [if_neg e]; exact ih ht i (by omega)

theorem tabulate_throws {β : Type} {d : β} {m : Nat} {f : Nat → Outcome β} (hm : 0 < m) (h : ∀ i, i < m → f i = .throws) :
    tabulate d m f = .throws := by
  induction m with
  | zero => omega
  | succ m ih =>
    simp only [tabulate]
    rcases Nat.eq_zero_or_pos m with e | e
    · subst e; simp only [tabulate, Outcome.bind_ok, h 0 (by omega)]; rfl
    · rw [ih e fun i hi => h i (by omega)]; rfl

/-- A coordinate axis the splines accept. -/
def Usable (xs : List K) : Prop := 3 ≤ xs.length ∧ Increasing (xs.getD · 0) xs.length

theorem sliceDerivs_ok {x v : Nat → K} {n : Nat} (hn : 3 ≤ n) (hi : Increasing x n) :
    ∃ d, sliceDerivs x v n = .ok d := by
  simp only [sliceDerivs]
  rw [akimaInit_spec, if_pos ⟨hn, hi⟩, Outcome.bind_ok]
  simp only [Spline.derivs]
  cases hl : ((List.range (n - 1)).map (segAt x v n)).getLast? with
  | none =>
    rw [List.getLast?_eq_none_iff, List.map_eq_nil_iff, List.range_eq_nil] at hl
    omega
  | some l => exact ⟨_, rfl⟩

theorem sliceDerivs_throws {x v : Nat → K} {n : Nat} (h : ¬ (3 ≤ n ∧ Increasing x n)) : sliceDerivs x v n = .throws := by
  simp only [sliceDerivs]
  rw [akimaInit_spec, if_neg h]
  rfl

theorem sliceDerivs_line {x v : Nat → K} {n : Nat} {p q : K} {d : Nat → K} (h : sliceDerivs x v n = .ok d)
    (hv : ∀ i, i < n → v i = p + q * x i) : ∀ i, i < n → d i = q := by
  by_cases hc : 3 ≤ n ∧ Increasing x n
  · simp only [sliceDerivs] at h
    rw [akimaInit_spec, if_pos hc, Outcome.bind_ok] at h
    have hmap : (List.range (n - 1)).map (segAt x v n) =
        (List.range (n - 1)).map fun i => ⟨x i, p + q * x i, q, 0, 0⟩ :=
      List.map_congr_left fun i hi' => segAt_line hc.1 hc.2 hv (by have := List.mem_range.1 hi'; omega)
    have hlast : ((List.range (n - 1)).map (segAt x v n)).getLast? =
        some ⟨x (n - 2), p + q * x (n - 2), q, 0, 0⟩ := by
      rw [hmap, List.getLast?_eq_getElem?]
      have : n - 1 - 1 = n - 2 := by omega
      simp [this, show n - 2 < n - 1 by omega]
    simp only [Spline.derivs, hlast, Outcome.bind_ok] at h
    rw [hmap] at h
    cases h
    intro i hi
    by_cases e : i < n - 1
    · simp [List.getElem?_append_left, e]
    · have : i = n - 1 := by omega
      rw [this]
      simp [Seg.derivative]
  · rw [sliceDerivs_throws hc] at h; cases h

/-! ### Cell search -/

theorem cell_spec {xs : List K} (h : Usable xs) (v : K) : ∃ i, cell xs v = some i ∧ i + 1 < xs.length ∧
    (xs.getD i 0 ≤ v ∨ i = 0) ∧ (v < xs.getD (i + 1) 0 ∨ i + 2 = xs.length) := by
  obtain ⟨hn, hi⟩ := h
  have hlist : (List.range xs.length).map (xs.getD · 0) = xs := by
    apply List.ext_getElem?
    intro i
    by_cases hi : i < xs.length
    · simp [hi]
    · rw [List.getElem?_eq_none (by simpa using hi), List.getElem?_eq_none (by simpa using hi)]
  by_cases h0 : v < xs.getD 0 0
  · refine ⟨0, ?_, by omega, Or.inr rfl, Or.inl (lt_trans h0 (hi 0 (by omega)))⟩
    simp only [cell, if_pos h0, Option.bind_some]
    rw [if_neg (by omega)]
  · by_cases hl : xs.getD (xs.length - 1) 0 ≤ v
    · have hub : upperBound xs v = xs.length := by
        have := takeWhile_range_length (x := (xs.getD · 0)) (n := xs.length) v xs.length (Nat.le_refl _) (by
          intro j hj
          by_cases e : j = xs.length - 1
          · rw [e]; exact hl
          · exact le_trans (le_of_lt (hi.lt (show j < xs.length - 1 by omega) (by omega))) hl)
          (fun h => absurd h (by omega))
        rwa [hlist] at this
      refine ⟨xs.length - 2, ?_, by omega, Or.inl ?_, Or.inr (by omega)⟩
      · simp only [cell, if_neg h0, hub]
        rw [if_neg (by omega)]
        simp only [Option.bind_some, if_true]
        rw [if_neg (by omega)]
        congr 1
      · exact le_trans (le_of_lt (hi.lt (show xs.length - 2 < xs.length - 1 by omega) (by omega))) hl
    · obtain ⟨k, hk, h1, h2⟩ := exists_segment (x := (xs.getD · 0)) (n := xs.length) (by omega) v (not_lt.1 h0)
      have h3 : v < xs.getD (k + 1) 0 := by
        by_cases e : k + 2 < xs.length
        · exact h2 e
        · have e' : k + 1 = xs.length - 1 := by omega
          rw [e']; exact not_le.1 hl
      have hub : upperBound xs v = k + 1 := by
        have := takeWhile_range_length (x := (xs.getD · 0)) (n := xs.length) v (k + 1) (by omega) (by
          intro j hj
          rcases Nat.eq_or_lt_of_le (Nat.lt_succ_iff.1 hj) with e | e
          · rw [e]; exact h1
          · exact le_trans (le_of_lt (hi.lt e (by omega))) h1) (fun _ => h3)
        rwa [hlist] at this
      refine ⟨k, ?_, hk, Or.inl h1, Or.inl h3⟩
      simp only [cell, if_neg h0, hub]
      rw [if_neg (by omega)]
      simp only [Option.bind_some]
      rw [if_neg (by omega)]
      congr 1

/-- At a node the chosen cell has the node as its left or its right end. -/
theorem cell_node {xs : List K} (h : Usable xs) {a : Nat} (ha : a < xs.length) :
    ∃ i, cell xs (xs.getD a 0) = some i ∧ i + 1 < xs.length ∧
      ((i = a ∧ (xs.getD a 0 - xs.getD i 0) / (xs.getD (i + 1) 0 - xs.getD i 0) = 0) ∨
       (i + 1 = a ∧ (xs.getD a 0 - xs.getD i 0) / (xs.getD (i + 1) 0 - xs.getD i 0) = 1)) := by
  obtain ⟨i, hc, hi, h1, h2⟩ := cell_spec h (xs.getD a 0)
  refine ⟨i, hc, hi, ?_⟩
  have hle : i ≤ a := by
    rcases h1 with h1 | h1
    · by_contra hlt
      have := h.2.lt (show a < i by omega) (by omega)
      exact absurd h1 (not_le.2 this)
    · omega
  have hge : a ≤ i + 1 := by
    rcases h2 with h2 | h2
    · by_contra hlt
      have := h.2.lt (show i + 1 < a by omega) ha
      exact absurd h2 (not_lt.2 (le_of_lt this))
    · omega
  by_cases e : i = a
  · left; refine ⟨e, ?_⟩; rw [e, sub_self, zero_div]
  · right
    have e' : i + 1 = a := by omega
    refine ⟨e', ?_⟩
    have hne : xs.getD (i + 1) 0 - xs.getD i 0 ≠ 0 := by
      have := h.2 i hi
      intro h0
      exact absurd (sub_eq_zero.1 h0) (ne_of_gt this)
    rw [← e', div_self hne]

/-! ### Piecewise continuity -/

/-- Pieces `P 0, P 1, …` glued along the level sets `φ = c k`. -/
noncomputable def glue {X : Type} (φ : X → ℝ) (c : Nat → ℝ) (P : Nat → X → ℝ) : Nat → X → ℝ
  | 0 => P 0
  | k + 1 => fun p => if c (k + 1) ≤ φ p then P (k + 1) p else glue φ c P k p

theorem glue_top {X : Type} (φ : X → ℝ) (c : Nat → ℝ) (P : Nat → X → ℝ) (k : Nat) (p : X) (h : c k ≤ φ p) :
    glue φ c P k p = P k p := by
  cases k with
  | zero => rfl
  | succ k => simp only [glue]; rw [if_pos h]

theorem glue_continuous {X : Type} [TopologicalSpace X] {φ : X → ℝ} (hφ : Continuous φ) {c : Nat → ℝ} {P : Nat → X → ℝ}
    {k : Nat} (hc : ∀ j, j + 1 ≤ k → c j < c (j + 1)) (hP : ∀ j, j ≤ k → Continuous (P j))
    (hg : ∀ j p, j + 1 ≤ k → φ p = c (j + 1) → P j p = P (j + 1) p) : Continuous (glue φ c P k) := by
  induction k with
  | zero => exact hP 0 (Nat.le_refl 0)
  | succ k ih =>
    have ih := ih (fun j hj => hc j (by omega)) (fun j hj => hP j (by omega)) (fun j p hj => hg j p (by omega))
    refine Continuous.if_le (hP (k + 1) (Nat.le_refl _)) ih continuous_const hφ ?_
    intro p hp
    rw [glue_top _ _ _ _ _ (le_of_lt (hp ▸ hc k (Nat.le_refl _)))]
    exact (hg k p (Nat.le_refl _) hp.symm).symm

/-- Selecting piece `i` of the glued function. -/
theorem glue_eq {X : Type} (φ : X → ℝ) (c : Nat → ℝ) (P : Nat → X → ℝ) (k i : Nat) (p : X) (hik : i ≤ k)
    (hc : ∀ j, j + 1 ≤ k → c j < c (j + 1)) (h1 : c i ≤ φ p ∨ i = 0) (h2 : φ p < c (i + 1) ∨ i = k) :
    glue φ c P k p = P i p := by
  induction k with
  | zero => have : i = 0 := by omega
            rw [this]; rfl
  | succ k ih =>
    by_cases e : i = k + 1
    · rcases h1 with h1 | h1
      · rw [e] at h1 ⊢; exact glue_top _ _ _ _ _ h1
      · omega
    · have h2 : φ p < c (i + 1) := by rcases h2 with h2 | h2; exacts [h2, absurd h2 e]
      have hlt : φ p < c (k + 1) := by
        have : ∀ m, i + 1 ≤ m → m ≤ k + 1 → c (i + 1) ≤ c m := by
          intro m hm
          induction m with
          | zero => omega
          | succ m ihm =>
            intro hm'
            rcases Nat.eq_or_lt_of_le hm with e | e
            · rw [e]
            · exact le_trans (ihm (by omega) (by omega)) (le_of_lt (hc m hm'))
        exact lt_of_lt_of_le h2 (this (k + 1) (by omega) (Nat.le_refl _))
      simp only [glue]
      rw [if_neg (not_le.2 hlt)]
      exact ih (by omega) (fun j hj => hc j (by omega)) (Or.inl h2)

end Verif.Interp
