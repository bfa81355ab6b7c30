import Mathlib.Tactic.Linarith
import Mathlib.Tactic.Positivity
import Verif.Interact.UpdateProps

/-!
What one step of the transport equation adds to and takes from a weighted sum of the fluxes (used for C98).
-/

namespace Verif.Update

open Matter (NT)

set_option linter.unusedSectionVars false

variable {K : Type} [Field K] [LinearOrder K] [IsStrictOrderedRing K] {V : Type} [AddCommGroup V] [Module K V]

/-- A weight of the nodes that no reaction increases: with `W e = delE (e - 1)` it counts neutrinos and the conditions say that the spectra
are not normalised to more than one neutrino; with `W e = E e * delE (e - 1)` it is the energy they carry. -/
structure Balanced (n : Net K V) (W : Nat → K) : Prop where
  nonneg : ∀ e, 0 ≤ W e
  nc : ∀ trg r a e, trg < n.fractions.length → r < n.nrhos → a < 3 → 1 ≤ e → e < n.ne →
    (∑ k ∈ Finset.range e, W k * n.dNdE_NC trg r a e k) * n.delE (e - 1) ≤ W e
  glashow : n.gr = true → ∀ e, 1 ≤ e → e < n.ne → 3 * (∑ k ∈ Finset.range e, W k * n.dNdE_GR e k) * n.delE (e - 1) ≤ W e
  tau : n.tau = true → ∀ trg r e, trg < n.fractions.length → r < n.nrhos → 1 ≤ e → e < n.ne →
    (∑ et ∈ Finset.Ico 1 e, n.dNdE_CC trg r 2 e et * n.delE (et - 1) *
      ∑ k ∈ Finset.range et, W k * (n.tauAll r et k + 2 * n.tauLep r et k)) * n.delE (e - 1) ≤ W e

theorem fractions_cases (n : Net K V) : n.fractions = [1] ∨ n.fractions = [n.ye, 1 - n.ye] := by
  unfold Net.fractions Matter.fractions
  split
  · exact Or.inl rfl
  · exact Or.inr rfl

theorem tsum_one (x : K) (g : Nat → K → K) : tsum [x] g = g 0 x := by simp [tsum]

theorem tsum_two (x y : K) (g : Nat → K → K) : tsum [x, y] g = g 0 x + g 1 y := by simp [tsum]

/-- An average over the targets is at most a bound of its terms. -/
theorem frac_le {n : Net K V} (h : NonNeg n) (X : Nat → K) (M : K) (hX : ∀ t, t < n.fractions.length → X t ≤ M) :
    tsum n.fractions (fun t d => d * X t) ≤ M := by
  rcases fractions_cases n with hf | hf <;> rw [hf] at hX ⊢
  · rw [tsum_one, one_mul]; exact hX 0 (by simp)
  · rw [tsum_two]
    have h0 := mul_le_mul_of_nonneg_left (hX 0 (by simp)) h.ye0
    have h1 := mul_le_mul_of_nonneg_left (hX 1 (by simp)) (sub_nonneg.2 h.ye1)
    calc _ ≤ n.ye * M + (1 - n.ye) * M := add_le_add h0 h1
      _ = M := by ring

theorem sum_tsum (n : Net K V) (s : Finset Nat) (c : Nat → K) (g : Nat → Nat → K → K) :
    ∑ k ∈ s, c k * tsum n.fractions (g k) = tsum n.fractions fun t d => ∑ k ∈ s, c k * g k t d := by
  rcases fractions_cases n with hf | hf <;> rw [hf]
  · simp only [tsum_one]
  · simp only [tsum_two, mul_add, Finset.sum_add_distrib]

theorem swap_below (m : Nat) (W : Nat → K) (F : Nat → Nat → K) :
    ∑ k ∈ Finset.range m, W k * ∑ e ∈ Finset.Ico 1 m, (if k < e then F e k else 0) =
      ∑ e ∈ Finset.Ico 1 m, ∑ k ∈ Finset.range e, W k * F e k := by
  simp only [Finset.mul_sum]
  rw [Finset.sum_comm]
  refine Finset.sum_congr rfl fun e he => ?_
  simp only [mul_ite, mul_zero]
  rw [← Finset.sum_filter]
  refine Finset.sum_congr ?_ fun _ _ => rfl
  ext k
  have := Finset.mem_Ico.1 he
  simp only [Finset.mem_filter, Finset.mem_range]
  omega

theorem nc_balance {n : Net K V} (h : NonNeg n) {W : Nat → K} (hW : Balanced n W) (old : K) (φ : Nat → Nat → Nat → K) {r a : Nat}
    (hφ : ∀ e, 0 ≤ φ e r a) (hr : r < n.nrhos) (ha : a < 3) :
    ∑ k ∈ Finset.range n.ne, W k * n.ncSum old φ r a k ≤ ∑ e ∈ Finset.range n.ne, W e * (n.invNC old r a e * φ e r a) := by
  unfold Net.ncSum
  rw [swap_below n.ne W fun e k => n.ncPart old (φ e r a) r a e k]
  refine le_trans (Finset.sum_le_sum (g := fun e => W e * (n.invNC old r a e * φ e r a)) fun e he => ?_)
    (Finset.sum_le_sum_of_subset_of_nonneg (fun e he => ?_) fun e _ _ => ?_)
  · have he' := Finset.mem_Ico.1 he
    unfold Net.ncPart
    rw [sum_tsum]
    have e1 : (fun t d => ∑ k ∈ Finset.range e, W k * (d * (φ e r a * (n.invNC old r a e * n.delE (e - 1))) * n.dNdE_NC t r a e k)) =
        fun t d => d * ((n.invNC old r a e * φ e r a) * ((∑ k ∈ Finset.range e, W k * n.dNdE_NC t r a e k) * n.delE (e - 1))) := by
      funext t d
      simp only [Finset.mul_sum, Finset.sum_mul]
      exact Finset.sum_congr rfl fun k _ => by ring
    rw [e1]
    refine frac_le h _ _ fun t ht => ?_
    rw [mul_comm (W e)]
    exact mul_le_mul_of_nonneg_left (hW.nc t r a e ht hr ha he'.1 he'.2) (mul_nonneg (invNC_nonneg h old r a e) (hφ e))
  · have := Finset.mem_Ico.1 he; exact Finset.mem_range.2 this.2
  · exact mul_nonneg (hW.nonneg e) (mul_nonneg (invNC_nonneg h old r a e) (hφ e))

theorem gr_balance {n : Net K V} (h : NonNeg n) {W : Nat → K} (hW : Balanced n W) (hg : n.gr = true) (φ : Nat → Nat → Nat → K)
    (hφ : ∀ e, 0 ≤ φ e n.grRho 0) :
    3 * ∑ k ∈ Finset.range n.ne, W k * n.grSum φ k ≤ ∑ e ∈ Finset.range n.ne, W e * (n.invGR e * φ e n.grRho 0) := by
  unfold Net.grSum
  rw [swap_below n.ne W fun e k => φ e n.grRho 0 * n.invGR e * n.delE (e - 1) * n.dNdE_GR e k, Finset.mul_sum]
  refine le_trans (Finset.sum_le_sum (g := fun e => W e * (n.invGR e * φ e n.grRho 0)) fun e he => ?_)
    (Finset.sum_le_sum_of_subset_of_nonneg (fun e he => ?_) fun e _ _ => ?_)
  · have he' := Finset.mem_Ico.1 he
    have e1 : 3 * ∑ k ∈ Finset.range e, W k * (φ e n.grRho 0 * n.invGR e * n.delE (e - 1) * n.dNdE_GR e k) =
        (n.invGR e * φ e n.grRho 0) * (3 * (∑ k ∈ Finset.range e, W k * n.dNdE_GR e k) * n.delE (e - 1)) := by
      simp only [Finset.mul_sum, Finset.sum_mul]
      exact Finset.sum_congr rfl fun k _ => by ring
    rw [e1, mul_comm (W e)]
    exact mul_le_mul_of_nonneg_left (hW.glashow hg e he'.1 he'.2) (mul_nonneg (invGR_nonneg h e) (hφ e))
  · have := Finset.mem_Ico.1 he; exact Finset.mem_range.2 this.2
  · exact mul_nonneg (hW.nonneg e) (mul_nonneg (invGR_nonneg h e) (hφ e))

/-- For fluxes that are not negative the shortcut for nodes without flux changes nothing. -/
theorem tauPart_nonneg_eq (n : Net K V) (old : K) (φ : Nat → Nat → Nat → K) (h0 : ∀ e, 0 ≤ φ e 0 2) (h1 : ∀ e, 0 ≤ φ e 1 2) {r : Nat} (hr : r < 2) (en et : Nat) :
    n.tauPart old φ r en et = tsum n.fractions fun trg tF => if 1 ≤ et ∧ et < en then
      φ en r 2 * n.invCC old r 2 en * n.delE (en - 1) * tF * n.dNdE_CC trg r 2 en et * n.delE (et - 1) else 0 := by
  unfold Net.tauPart
  split
  · rename_i hz
    have hz' : φ en r 2 = 0 := by
      have : r = 0 ∨ r = 1 := by omega
      rcases this with rfl | rfl
      · exact le_antisymm hz.1 (h0 en)
      · exact le_antisymm hz.2 (h1 en)
    rw [hz']
    simp [tsum]
  · rfl

theorem tau_balance {n : Net K V} (h : NonNeg n) {W : Nat → K} (hW : Balanced n W) (ht : n.tau = true) (old : K) (φ : Nat → Nat → Nat → K)
    (hφ : ∀ e r a, a < 3 → 0 ≤ φ e r a) {r : Nat} (hr : r < n.nrhos) (h2 : r < 2) :
    ∑ k ∈ Finset.range n.ne, W k * (n.allSum old φ r k + 2 * n.lepSum old φ r k) ≤ ∑ e ∈ Finset.range n.ne, W e * (n.invCC old r 2 e * φ e r 2) := by
  have e1 : ∀ k, n.allSum old φ r k + 2 * n.lepSum old φ r k =
      ∑ et ∈ Finset.Ico 1 n.ne, if k < et then n.tauSum old φ r et * (n.tauAll r et k + 2 * n.tauLep r et k) else 0 := by
    intro k
    unfold Net.allSum Net.lepSum
    rw [Finset.mul_sum, ← Finset.sum_add_distrib]
    refine Finset.sum_congr rfl fun et _ => ?_
    split <;> ring
  simp only [e1]
  rw [swap_below n.ne W fun et k => n.tauSum old φ r et * (n.tauAll r et k + 2 * n.tauLep r et k)]
  have e2 : ∀ et, ∑ k ∈ Finset.range et, W k * (n.tauSum old φ r et * (n.tauAll r et k + 2 * n.tauLep r et k)) =
      ∑ en ∈ Finset.Ico 1 n.ne, n.tauPart old φ r en et * ∑ k ∈ Finset.range et, W k * (n.tauAll r et k + 2 * n.tauLep r et k) := by
    intro et
    rw [← Finset.sum_mul]
    unfold Net.tauSum
    rw [Finset.mul_sum]
    exact Finset.sum_congr rfl fun k _ => by ring
  simp only [e2]
  rw [Finset.sum_comm]
  refine le_trans (Finset.sum_le_sum (g := fun e => W e * (n.invCC old r 2 e * φ e r 2)) fun e he => ?_)
    (Finset.sum_le_sum_of_subset_of_nonneg (fun e he => ?_) fun e _ _ => ?_)
  · have he' := Finset.mem_Ico.1 he
    simp only [tauPart_nonneg_eq n old φ (fun e => hφ e 0 2 (by omega)) (fun e => hφ e 1 2 (by omega)) h2]
    have e3 : ∀ et, tsum n.fractions (fun trg tF => if 1 ≤ et ∧ et < e then
          φ e r 2 * n.invCC old r 2 e * n.delE (e - 1) * tF * n.dNdE_CC trg r 2 e et * n.delE (et - 1) else 0) *
          (∑ k ∈ Finset.range et, W k * (n.tauAll r et k + 2 * n.tauLep r et k)) =
        (∑ k ∈ Finset.range et, W k * (n.tauAll r et k + 2 * n.tauLep r et k)) * tsum n.fractions (fun trg tF => if 1 ≤ et ∧ et < e then
          φ e r 2 * n.invCC old r 2 e * n.delE (e - 1) * tF * n.dNdE_CC trg r 2 e et * n.delE (et - 1) else 0) := fun et => mul_comm _ _
    simp only [e3]
    rw [sum_tsum]
    have e4 : (fun (t : Nat) (d : K) => ∑ et ∈ Finset.Ico 1 n.ne, (∑ k ∈ Finset.range et, W k * (n.tauAll r et k + 2 * n.tauLep r et k)) *
          (if 1 ≤ et ∧ et < e then φ e r 2 * n.invCC old r 2 e * n.delE (e - 1) * d * n.dNdE_CC t r 2 e et * n.delE (et - 1) else 0)) =
        fun t d => d * ((n.invCC old r 2 e * φ e r 2) * ((∑ et ∈ Finset.Ico 1 e, n.dNdE_CC t r 2 e et * n.delE (et - 1) *
          ∑ k ∈ Finset.range et, W k * (n.tauAll r et k + 2 * n.tauLep r et k)) * n.delE (e - 1))) := by
      funext t d
      simp only [mul_ite, mul_zero]
      rw [← Finset.sum_filter]
      have : (Finset.Ico 1 n.ne).filter (fun et => 1 ≤ et ∧ et < e) = Finset.Ico 1 e := by
        ext x; simp only [Finset.mem_filter, Finset.mem_Ico]; omega
      rw [this, Finset.sum_mul, Finset.mul_sum, Finset.mul_sum]
      exact Finset.sum_congr rfl fun et _ => by ring
    rw [e4]
    refine frac_le h _ _ fun t htt => ?_
    rw [mul_comm (W e)]
    exact mul_le_mul_of_nonneg_left (hW.tau ht t r e htt hr he'.1 he'.2) (mul_nonneg (invCC_nonneg h old r 2 e) (hφ e r 2 (by omega)))
  · have := Finset.mem_Ico.1 he; exact Finset.mem_range.2 this.2
  · exact mul_nonneg (hW.nonneg e) (mul_nonneg (invCC_nonneg h old r 2 e) (hφ e r 2 (by omega)))

/-- What the reactions bring in is at most what they take away. -/
theorem total_balance {n : Net K V} (hs : Shape n) (h : NonNeg n) {W : Nat → K} (hW : Balanced n W) (old : K) (φ : Nat → Nat → Nat → K)
    (hφ : ∀ e r a, a < 3 → 0 ≤ φ e r a) :
    ∑ r ∈ Finset.range n.nrhos, ∑ a ∈ Finset.range 3, ∑ e ∈ Finset.range n.ne, W e * n.total old φ r a e ≤
      ∑ r ∈ Finset.range n.nrhos, ∑ a ∈ Finset.range 3, ∑ e ∈ Finset.range n.ne, W e * (n.invINT old old r a e * φ e r a) := by
  -- the charged-current rate of each flavour is not negative
  have hcc : ∀ r a, a < 3 → 0 ≤ ∑ e ∈ Finset.range n.ne, W e * (n.invCC old r a e * φ e r a) := fun r a ha =>
    Finset.sum_nonneg fun e _ => mul_nonneg (hW.nonneg e) (mul_nonneg (invCC_nonneg h old r a e) (hφ e r a ha))
  have hnc : ∀ r a, r < n.nrhos → a < 3 → _ := fun r a hr ha => nc_balance h hW old φ (fun e => hφ e r a ha) hr ha
  have htot : ∀ r a, ∑ e ∈ Finset.range n.ne, W e * n.total old φ r a e =
      ∑ e ∈ Finset.range n.ne, W e * n.ncSum old φ r a e +
      (if n.tau then (if a = 2 then ∑ e ∈ Finset.range n.ne, W e * n.allSum old φ (if r = 0 then 0 else 1) e
        else ∑ e ∈ Finset.range n.ne, W e * n.lepSum old φ (if r = 0 then 1 else 0) e) else 0) +
      (if n.gr && decide (r = n.grRho) then ∑ e ∈ Finset.range n.ne, W e * n.grSum φ e else 0) := by
    intro r a
    unfold Net.total
    simp only [mul_add, Finset.sum_add_distrib]
    congr 1
    · congr 1
      by_cases h1 : n.tau = true <;> by_cases h2 : a = 2 <;> simp [h1, h2]
    · split <;> simp
  have hint : ∀ r a, ∑ e ∈ Finset.range n.ne, W e * (n.invINT old old r a e * φ e r a) =
      ∑ e ∈ Finset.range n.ne, W e * (n.invNC old r a e * φ e r a) + ∑ e ∈ Finset.range n.ne, W e * (n.invCC old r a e * φ e r a) +
      (if n.gr && decide (r = n.grRho) && decide (a = 0) then ∑ e ∈ Finset.range n.ne, W e * (n.invGR e * φ e r a) else 0) := by
    intro r a
    unfold Net.invINT
    dsimp only
    split
    · rw [← Finset.sum_add_distrib, ← Finset.sum_add_distrib]; exact Finset.sum_congr rfl fun e _ => by ring
    · rw [add_zero, ← Finset.sum_add_distrib]; exact Finset.sum_congr rfl fun e _ => by ring
  have htau : n.tau = true → ∀ r, r < n.nrhos → r < 2 → ∑ e ∈ Finset.range n.ne, W e * n.allSum old φ r e + 2 * ∑ e ∈ Finset.range n.ne, W e * n.lepSum old φ r e ≤
      ∑ e ∈ Finset.range n.ne, W e * (n.invCC old r 2 e * φ e r 2) := by
    intro ht r hr h2
    have := tau_balance h hW ht old φ hφ hr h2
    simp only [mul_add, Finset.sum_add_distrib] at this
    refine le_trans (le_of_eq ?_) this
    congr 1
    rw [Finset.mul_sum]
    exact Finset.sum_congr rfl fun e _ => by ring
  have hgr : n.gr = true → _ := fun hg => gr_balance h hW hg φ (fun e => hφ e n.grRho 0 (by omega))
  simp only [htot, hint]
  by_cases hb : n.nt = .both
  · have hn2 : n.nrhos = 2 := by rw [hs.nrhos, if_pos hb]
    have hg1 : n.grRho = 1 := if_pos hb
    rw [hn2] at hnc htau ⊢
    simp only [Finset.sum_range_succ (n := 2), Finset.sum_range_succ (n := 1), Finset.sum_range_succ (n := 0), Finset.sum_range_zero, zero_add]
    have a1 := hnc 0 0 (by omega) (by omega); have a2 := hnc 0 1 (by omega) (by omega); have a3 := hnc 0 2 (by omega) (by omega)
    have a4 := hnc 1 0 (by omega) (by omega); have a5 := hnc 1 1 (by omega) (by omega); have a6 := hnc 1 2 (by omega) (by omega)
    have b1 := hcc 0 0 (by omega); have b2 := hcc 0 1 (by omega); have b3 := hcc 0 2 (by omega)
    have b4 := hcc 1 0 (by omega); have b5 := hcc 1 1 (by omega); have b6 := hcc 1 2 (by omega)
    rw [hg1] at hgr ⊢
    by_cases ht : n.tau = true <;> by_cases hg : n.gr = true
    · have t0 := htau ht 0 (by omega) (by omega)
      have t1 := htau ht 1 (by omega) (by omega)
      have g := hgr hg
      simp only [ht, hg]
      simp
      linarith
    · have t0 := htau ht 0 (by omega) (by omega)
      have t1 := htau ht 1 (by omega) (by omega)
      simp only [ht, hg]
      simp
      linarith
    · have g := hgr hg
      simp only [ht, hg]
      simp
      linarith
    · simp only [ht, hg]
      simp
      linarith
  · have hn1 : n.nrhos = 1 := by rw [hs.nrhos, if_neg hb]
    have hg0 : n.grRho = 0 := if_neg hb
    have ht : ¬ n.tau = true := fun h => hb (hs.tau h)
    rw [hn1] at hnc ⊢
    simp only [Finset.sum_range_succ (n := 2), Finset.sum_range_succ (n := 1), Finset.sum_range_succ (n := 0), Finset.sum_range_zero, zero_add]
    have a1 := hnc 0 0 (by omega) (by omega); have a2 := hnc 0 1 (by omega) (by omega); have a3 := hnc 0 2 (by omega) (by omega)
    have b1 := hcc 0 0 (by omega); have b2 := hcc 0 1 (by omega); have b3 := hcc 0 2 (by omega)
    rw [hg0] at hgr ⊢
    by_cases hg : n.gr = true
    · have g := hgr hg
      simp only [ht, hg]
      simp
      linarith
    · simp only [ht, hg]
      simp
      linarith

/-- The gain is linear in fluxes that are not negative. -/
theorem total_linear (n : Net K V) (old : K) (x y : K) (φ ψ : Nat → Nat → Nat → K) (hx : 0 ≤ x) (hy : 0 ≤ y) (hφ : ∀ e r, 0 ≤ φ e r 2)
    (hψ : ∀ e r, 0 ≤ ψ e r 2) (r a k : Nat) :
    n.total old (fun e r a => x * φ e r a + y * ψ e r a) r a k = x * n.total old φ r a k + y * n.total old ψ r a k := by
  have ht : ∀ g g1 g2 : Nat → K → K, (∀ t d, g t d = x * g1 t d + y * g2 t d) → tsum n.fractions g = x * tsum n.fractions g1 + y * tsum n.fractions g2 := by
    intro g g1 g2 hg
    rcases fractions_cases n with hf | hf <;> rw [hf]
    · simp only [tsum_one]; exact hg _ _
    · simp only [tsum_two, hg]; ring
  have hnc : n.ncSum old (fun e r a => x * φ e r a + y * ψ e r a) r a k = x * n.ncSum old φ r a k + y * n.ncSum old ψ r a k := by
    unfold Net.ncSum
    rw [Finset.mul_sum, Finset.mul_sum, ← Finset.sum_add_distrib]
    refine Finset.sum_congr rfl fun e _ => ?_
    split
    · exact ht _ _ _ fun t d => by ring
    · ring
  have htau : ∀ r, r < 2 → ∀ et, n.tauSum old (fun e r a => x * φ e r a + y * ψ e r a) r et = x * n.tauSum old φ r et + y * n.tauSum old ψ r et := by
    intro r hr et
    unfold Net.tauSum
    rw [Finset.mul_sum, Finset.mul_sum, ← Finset.sum_add_distrib]
    refine Finset.sum_congr rfl fun e _ => ?_
    have hp : ∀ e r, 0 ≤ x * φ e r 2 + y * ψ e r 2 := fun e r => add_nonneg (mul_nonneg hx (hφ e r)) (mul_nonneg hy (hψ e r))
    rw [tauPart_nonneg_eq n old _ (fun e => hp e 0) (fun e => hp e 1) hr, tauPart_nonneg_eq n old φ (fun e => hφ e 0) (fun e => hφ e 1) hr,
      tauPart_nonneg_eq n old ψ (fun e => hψ e 0) (fun e => hψ e 1) hr]
    refine ht _ _ _ fun t d => ?_
    split <;> ring
  have hall : ∀ r, r < 2 → n.allSum old (fun e r a => x * φ e r a + y * ψ e r a) r k = x * n.allSum old φ r k + y * n.allSum old ψ r k := by
    intro r hr
    unfold Net.allSum
    rw [Finset.mul_sum, Finset.mul_sum, ← Finset.sum_add_distrib]
    refine Finset.sum_congr rfl fun e _ => ?_
    rw [htau r hr]
    split <;> ring
  have hlep : ∀ r, r < 2 → n.lepSum old (fun e r a => x * φ e r a + y * ψ e r a) r k = x * n.lepSum old φ r k + y * n.lepSum old ψ r k := by
    intro r hr
    unfold Net.lepSum
    rw [Finset.mul_sum, Finset.mul_sum, ← Finset.sum_add_distrib]
    refine Finset.sum_congr rfl fun e _ => ?_
    rw [htau r hr]
    split <;> ring
  have hgr : n.grSum (fun e r a => x * φ e r a + y * ψ e r a) k = x * n.grSum φ k + y * n.grSum ψ k := by
    unfold Net.grSum
    rw [Finset.mul_sum, Finset.mul_sum, ← Finset.sum_add_distrib]
    refine Finset.sum_congr rfl fun e _ => ?_
    split <;> ring
  unfold Net.total
  rw [hnc, hgr, hall _ (by split <;> omega), hlep _ (by split <;> omega)]
  split <;> (try split) <;> (try split) <;> (try split) <;> ring

end Verif.Update
