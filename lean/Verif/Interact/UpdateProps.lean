import Mathlib.Algebra.Order.Field.Rat
import Verif.Interact.UpdateLemmas
import Verif.Interact.MatterProps

namespace Verif.Update

open Matter (NT Targets Consts)

set_option linter.unusedSectionVars false

variable {K : Type} [Field K] [LinearOrder K] [IsStrictOrderedRing K] {V : Type} [AddCommGroup V] [Module K V]

/-! ## Lemmas -/

theorem linAcc_eq (old : K) (l : List K) (hl : l ≠ []) (f : Nat → K → K) : linAcc old l f = tsum l f := by
  have key : ∀ (z : List (K × Nat)) (acc : K), (∀ x ∈ z, x.2 ≠ 0) →
      z.foldl (fun s x => if x.2 = 0 then f x.2 x.1 else s + f x.2 x.1) acc = acc + (z.map fun x => f x.2 x.1).sum := by
    intro z
    induction z with
    | nil => intro acc _; simp
    | cons x z ih =>
      intro acc hz
      simp only [List.foldl_cons, List.map_cons, List.sum_cons]
      rw [if_neg (hz x (by simp)), ih _ (fun y hy => hz y (by simp [hy])), add_assoc]
  cases l with
  | nil => exact absurd rfl hl
  | cons d ds =>
    unfold linAcc forTargets tsum
    simp only [List.zipIdx_cons, List.foldl_cons, if_true, List.map_cons, List.sum_cons]
    rw [key]
    intro x hx
    have := List.le_snd_of_mem_zipIdx hx
    omega

theorem densities_ne (n : Net K V) : n.densities ≠ [] := by
  unfold Net.densities Matter.densities
  dsimp only
  split
  · split <;> simp
  · split <;> simp

/-- All inputs have the sign they have physically. -/
structure NonNeg (n : Net K V) : Prop where
  delE : ∀ e, 0 ≤ n.delE e
  sigmaNC : ∀ t r a e, 0 ≤ n.sigmaNC t r a e
  sigmaCC : ∀ t r a e, 0 ≤ n.sigmaCC t r a e
  sigmaGR : ∀ e, 0 ≤ n.sigmaGR e
  dNdE_NC : ∀ t r a e k, 0 ≤ n.dNdE_NC t r a e k
  dNdE_CC : ∀ t r a e k, 0 ≤ n.dNdE_CC t r a e k
  dNdE_GR : ∀ e k, 0 ≤ n.dNdE_GR e k
  tauAll : ∀ r e k, 0 ≤ n.tauAll r e k
  tauLep : ∀ r e k, 0 ≤ n.tauLep r e k
  me : 0 ≤ n.consts.me
  mp : 0 < n.consts.mp
  mn : 0 < n.consts.mn
  na : 0 ≤ n.consts.na * n.consts.cm3
  density : 0 ≤ n.consts.gr * n.consts.cm3 * n.density
  ye0 : 0 ≤ n.ye
  ye1 : n.ye ≤ 1

theorem densities_nonneg {n : Net K V} (h : NonNeg n) : ∀ d ∈ n.densities, 0 ≤ d := by
  intro d hd
  unfold Net.densities at hd
  cases ht : n.targets
  · rw [ht] at hd
    unfold Matter.densities at hd
    dsimp only at hd
    split at hd
    · simp only [List.mem_singleton] at hd
      rw [hd]
      exact mul_nonneg h.na (by positivity)
    · rename_i hn
      simp only [List.mem_singleton] at hd
      rw [hd]
      have : (0 : K) ≤ 1 / 10 ^ 10 := by positivity
      exact le_trans this (not_lt.1 hn)
  · rw [ht] at hd
    obtain ⟨np, nn, e, _, _, h1, h2, _⟩ := Matter.c51_composition n.consts n.density n.ye h.me h.mp h.mn h.ye0 h.ye1 h.density
    rw [e] at hd
    simp only [List.mem_cons, List.not_mem_nil, or_false] at hd
    rcases hd with rfl | rfl
    · exact h1
    · exact h2

theorem fractions_nonneg {n : Net K V} (h : NonNeg n) : ∀ d ∈ n.fractions, 0 ≤ d := by
  intro d hd
  unfold Net.fractions Matter.fractions at hd
  split at hd
  · simp only [List.mem_singleton] at hd
    rw [hd]; exact zero_le_one
  · simp only [List.mem_cons, List.not_mem_nil, or_false] at hd
    rcases hd with rfl | rfl
    · exact h.ye0
    · exact sub_nonneg.2 h.ye1

theorem tsum_nonneg (l : List K) (g : Nat → K → K) (h : ∀ t, ∀ d ∈ l, 0 ≤ g t d) : 0 ≤ tsum l g := by
  unfold tsum
  apply List.sum_nonneg
  intro x hx
  rw [List.mem_map] at hx
  obtain ⟨y, hy, rfl⟩ := hx
  have := List.fst_mem_of_mem_zipIdx hy
  exact h _ _ this

theorem invNC_nonneg {n : Net K V} (h : NonNeg n) (old : K) (r a e : Nat) : 0 ≤ n.invNC old r a e := by
  unfold Net.invNC
  rw [linAcc_eq _ _ (densities_ne n)]
  exact tsum_nonneg _ _ fun t d hd => mul_nonneg (h.sigmaNC t r a e) (densities_nonneg h d hd)

theorem invCC_nonneg {n : Net K V} (h : NonNeg n) (old : K) (r a e : Nat) : 0 ≤ n.invCC old r a e := by
  unfold Net.invCC
  rw [linAcc_eq _ _ (densities_ne n)]
  exact tsum_nonneg _ _ fun t d hd => mul_nonneg (h.sigmaCC t r a e) (densities_nonneg h d hd)

theorem invGR_nonneg {n : Net K V} (h : NonNeg n) (e : Nat) : 0 ≤ n.invGR e := by
  unfold Net.invGR
  refine mul_nonneg (h.sigmaGR e) ?_
  have hd := densities_nonneg h
  unfold Net.numE
  split
  · rename_i d he
    exact mul_nonneg (hd d (by rw [he]; simp)) h.ye0
  · rename_i d l _ he
    exact hd d (by rw [he]; simp)
  · exact le_refl _

theorem tauSum_nonneg {n : Net K V} (h : NonNeg n) (old : K) (φ : Nat → Nat → Nat → K) (hφ : ∀ e r, 0 ≤ φ e r 2) (r et : Nat) :
    0 ≤ n.tauSum old φ r et := by
  unfold Net.tauSum
  refine Finset.sum_nonneg fun en _ => ?_
  unfold Net.tauPart
  split
  · exact le_refl _
  · refine tsum_nonneg _ _ fun t d hd => ?_
    split
    · have h1 := hφ en r
      have h2 := invCC_nonneg h old r 2 en
      have h3 := h.delE (en - 1)
      have h4 := fractions_nonneg h d hd
      have h5 := h.dNdE_CC t r 2 en et
      have h6 := h.delE (et - 1)
      positivity
    · exact le_refl _

theorem total_nonneg {n : Net K V} (h : NonNeg n) (old : K) (φ : Nat → Nat → Nat → K) (hφ : ∀ e r a, a < 3 → 0 ≤ φ e r a) (r a k : Nat)
    (ha : a < 3) : 0 ≤ n.total old φ r a k := by
  have h2 : ∀ e r, 0 ≤ φ e r 2 := fun e r => hφ e r 2 (by omega)
  unfold Net.total
  refine add_nonneg (add_nonneg ?_ ?_) ?_
  · unfold Net.ncSum
    refine Finset.sum_nonneg fun e2 _ => ?_
    split
    · unfold Net.ncPart
      refine tsum_nonneg _ _ fun t d hd => ?_
      have h1 := hφ e2 r a ha
      have h2 := invNC_nonneg h old r a e2
      have h3 := h.delE (e2 - 1)
      have h4 := fractions_nonneg h d hd
      have h5 := h.dNdE_NC t r a e2 k
      positivity
    · exact le_refl _
  · split
    · split
      · unfold Net.allSum
        refine Finset.sum_nonneg fun et _ => ?_
        split
        · exact mul_nonneg (tauSum_nonneg h old φ h2 _ et) (h.tauAll _ _ _)
        · exact le_refl _
      · unfold Net.lepSum
        refine Finset.sum_nonneg fun et _ => ?_
        split
        · exact mul_nonneg (tauSum_nonneg h old φ h2 _ et) (h.tauLep _ _ _)
        · exact le_refl _
    · exact le_refl _
  · split
    · unfold Net.grSum
      refine Finset.sum_nonneg fun e2 _ => ?_
      split
      · have h1 := hφ e2 n.grRho 0 (by omega)
        have h2 := invGR_nonneg h e2
        have h3 := h.delE (e2 - 1)
        have h5 := h.dNdE_GR e2 k
        positivity
      · exact le_refl _
    · exact le_refl _

/-- The factor of a node depends on the fluxes of higher nodes only. -/
theorem total_congr (n : Net K V) (old : K) (φ ψ : Nat → Nat → Nat → K) (r a k : Nat) (h : ∀ e r a, k < e → φ e r a = ψ e r a) :
    n.total old φ r a k = n.total old ψ r a k := by
  have ht : ∀ r et, k < et → n.tauSum old φ r et = n.tauSum old ψ r et := by
    intro r et het
    unfold Net.tauSum
    refine Finset.sum_congr rfl fun en _ => ?_
    unfold Net.tauPart
    by_cases hen : et < en
    · have hk : k < en := lt_trans het hen
      rw [h en 0 2 hk, h en 1 2 hk, h en r 2 hk]
    · have h0 : ∀ (c : K → Nat → K → K) (x : K), (tsum n.fractions fun trg tF => if 1 ≤ et ∧ et < en then c x trg tF else 0) = 0 := by
        intro c x
        unfold tsum
        simp [hen]
      rw [h0 (fun x trg tF => x * n.invCC old r 2 en * n.delE (en - 1) * tF * n.dNdE_CC trg r 2 en et * n.delE (et - 1)),
        h0 (fun x trg tF => x * n.invCC old r 2 en * n.delE (en - 1) * tF * n.dNdE_CC trg r 2 en et * n.delE (et - 1)), ite_self, ite_self]
  unfold Net.total
  have e1 : n.ncSum old φ r a k = n.ncSum old ψ r a k := by
    unfold Net.ncSum
    refine Finset.sum_congr rfl fun e2 _ => ?_
    split
    · rename_i hk; rw [h e2 r a hk]
    · rfl
  have e2 : ∀ r, n.allSum old φ r k = n.allSum old ψ r k := by
    intro r
    unfold Net.allSum
    refine Finset.sum_congr rfl fun et _ => ?_
    split
    · rename_i hk; rw [ht r et hk]
    · rfl
  have e3 : ∀ r, n.lepSum old φ r k = n.lepSum old ψ r k := by
    intro r
    unfold Net.lepSum
    refine Finset.sum_congr rfl fun et _ => ?_
    split
    · rename_i hk; rw [ht r et hk]
    · rfl
  have e4 : n.grSum φ k = n.grSum ψ k := by
    unfold Net.grSum
    refine Finset.sum_congr rfl fun e2 _ => ?_
    split
    · rename_i hk; rw [h e2 _ _ hk]
    · rfl
  rw [e1, e2, e3, e4]

theorem total_top (n : Net K V) (old : K) (φ : Nat → Nat → Nat → K) (r a k : Nat) (hk : n.ne ≤ k + 1) : n.total old φ r a k = 0 := by
  have hno : ∀ (g : Nat → K), (∑ e ∈ Finset.Ico 1 n.ne, if k < e then g e else 0) = 0 := by
    intro g
    refine Finset.sum_eq_zero fun e he => ?_
    rw [if_neg]
    have := (Finset.mem_Ico.1 he).2
    omega
  unfold Net.total Net.ncSum Net.allSum Net.lepSum Net.grSum
  simp only [hno, ite_self, add_zero]

/-! ## C48 -/

/-- C48: the interaction term at an energy node depends on the state at strictly higher nodes only, in both code paths and whatever the
buffers held before. -/
theorem c48_only_from_above (n : Net K V) (hs : Shape n) (old : K) (st : Nat → Nat → V) (e1 rho : Nat) (hr : rho < n.nrhos)
    (he : e1 < n.ne) (hst : ∀ e r, e1 < e → st e r = n.state e r) :
    ({ n with state := st } : Net K V).termOsc old e1 rho = n.termOsc old e1 rho ∧
    ({ n with state := st } : Net K V).termNoOsc old e1 rho = n.termNoOsc old e1 rho := by
  have hs' : Shape ({ n with state := st } : Net K V) := ⟨hs.nrhos, hs.tau, hs.flavours⟩
  have hf : ∀ a, ({ n with state := st } : Net K V).total old ({ n with state := st } : Net K V).flux rho a e1 = n.total old n.flux rho a e1 := by
    intro a
    have h1 : ({ n with state := st } : Net K V).total old ({ n with state := st } : Net K V).flux rho a e1 =
        n.total old ({ n with state := st } : Net K V).flux rho a e1 := rfl
    rw [h1]
    refine total_congr n old _ _ rho a e1 ?_
    intro e r a' hk
    simp only [Net.flux, hst e r hk]
  have hf0 : ∀ a, ({ n with state := st } : Net K V).total old ({ n with state := st } : Net K V).flux0 rho a e1 = n.total old n.flux0 rho a e1 := by
    intro a
    have h1 : ({ n with state := st } : Net K V).total old ({ n with state := st } : Net K V).flux0 rho a e1 =
        n.total old ({ n with state := st } : Net K V).flux0 rho a e1 := rfl
    rw [h1]
    refine total_congr n old _ _ rho a e1 ?_
    intro e r a' hk
    simp only [Net.flux0, hst e r hk]
  constructor
  · rw [termOsc_spec _ hs' old e1 rho hr he, termOsc_spec n hs old e1 rho hr he, hf, hf, hf]
    rfl
  · rw [termNoOsc_spec _ hs' old e1 rho hr he, termNoOsc_spec n hs old e1 rho hr he, hf0, hf0, hf0]
    rfl

/-- C48: with non-negative tables, widths, densities, fluxes and sources, the inverse interaction lengths are non-negative and the
interaction term is a combination of the flavour projectors with non-negative weights, in both code paths (without oscillations for
projectors that do not depend on energy, as that path assumes). -/
theorem c48_nonnegative (n : Net K V) (hs : Shape n) (hn : NonNeg n) (old : K) (e1 rho : Nat) (hr : rho < n.nrhos) (he : e1 < n.ne)
    (hflux : ∀ e r a, a < 3 → 0 ≤ n.dot (n.proj r a e) (n.state e r)) (hext : ∀ e r a, 0 ≤ n.ext e r a) :
    (∀ r a e, 0 ≤ n.invNC old r a e ∧ 0 ≤ n.invCC old r a e ∧ 0 ≤ n.invGR e ∧ 0 ≤ n.invINT old old r a e) ∧
    (∃ w : Nat → K, (∀ a, 0 ≤ w a) ∧ n.termOsc old e1 rho = ∑ a ∈ Finset.range n.numneu, w a • n.proj rho a e1) ∧
    ((∀ r a e, n.proj r a e = n.proj r a 0) →
      ∃ w : Nat → K, (∀ a, 0 ≤ w a) ∧ n.termNoOsc old e1 rho = ∑ a ∈ Finset.range n.numneu, w a • n.proj rho a e1) := by
  have hsum : ∀ (f g : Nat → K) (m : K), (∑ a ∈ Finset.range n.numneu, ((if a < 3 then f a else 0) + m * g a) • n.proj rho a e1) =
      f 0 • n.proj rho 0 e1 + f 1 • n.proj rho 1 e1 + f 2 • n.proj rho 2 e1 + m • ∑ a ∈ Finset.range n.numneu, g a • n.proj rho a e1 := by
    intro f g m
    simp only [add_smul, mul_smul]
    rw [Finset.sum_add_distrib, ← Finset.smul_sum]
    congr 1
    rw [← Finset.sum_range_add_sum_Ico _ hs.flavours]
    have : ∑ k ∈ Finset.Ico 3 n.numneu, (if k < 3 then f k else 0) • n.proj rho k e1 = 0 := by
      refine Finset.sum_eq_zero fun a ha => ?_
      rw [if_neg (by have := (Finset.mem_Ico.1 ha).1; omega), zero_smul]
    rw [this, add_zero, Finset.sum_range_succ, Finset.sum_range_succ, Finset.sum_range_succ, Finset.sum_range_zero]
    simp
  refine ⟨?_, ?_, ?_⟩
  · intro r a e
    have h1 := invNC_nonneg hn old r a e
    have h2 := invCC_nonneg hn old r a e
    have h3 := invGR_nonneg hn e
    refine ⟨h1, h2, h3, ?_⟩
    unfold Net.invINT
    dsimp only
    split
    · exact add_nonneg (add_nonneg h1 h2) h3
    · exact add_nonneg h1 h2
  · refine ⟨fun a => (if a < 3 then n.total old n.flux rho a e1 else 0) + (if n.sources then 1 else 0) * n.ext e1 rho a, ?_, ?_⟩
    · intro a
      refine add_nonneg ?_ (mul_nonneg (by split <;> simp) (hext _ _ _))
      split
      · rename_i ha; exact total_nonneg hn old _ (fun e r a h => hflux e r a h) rho a e1 ha
      · exact le_refl _
    · rw [hsum (fun a => n.total old n.flux rho a e1), termOsc_spec n hs old e1 rho hr he]
      congr 1
      cases n.sources <;> simp [Net.sourceTerm]
  · intro hc
    have hff : n.flux0 = n.flux := by
      funext e r a
      simp only [Net.flux, Net.flux0, hc r a e]
    refine ⟨fun a => (if a < 3 then n.total old n.flux rho a e1 else 0) + (if n.sources then (n.nrhos : K) else 0) * n.ext e1 rho a, ?_, ?_⟩
    · intro a
      refine add_nonneg ?_ (mul_nonneg (by split <;> simp) (hext _ _ _))
      split
      · rename_i ha; exact total_nonneg hn old _ (fun e r a h => hflux e r a h) rho a e1 ha
      · exact le_refl _
    · rw [hsum (fun a => n.total old n.flux rho a e1), termNoOsc_spec n hs old e1 rho hr he, hff, hc rho 0 e1, hc rho 1 e1, hc rho 2 e1]
      congr 1
      cases n.sources
      · simp
      · simp only [if_true, Net.sourceTerm]
        rw [Nat.cast_smul_eq_nsmul]

/-- C48: the highest node receives nothing but sources. -/
theorem c48_top_node (n : Net K V) (hs : Shape n) (old : K) (rho : Nat) (hr : rho < n.nrhos) (hne : 1 ≤ n.ne) (hso : n.sources = false) :
    n.termOsc old (n.ne - 1) rho = 0 ∧ n.termNoOsc old (n.ne - 1) rho = 0 := by
  have he : n.ne - 1 < n.ne := by omega
  rw [termOsc_spec n hs old _ rho hr he, termNoOsc_spec n hs old _ rho hr he]
  have ht : ∀ φ a, n.total old φ rho a (n.ne - 1) = 0 := fun φ a => total_top n old φ rho a _ (by omega)
  simp [ht, hso]

/-- Three nodes, both types, everything on; the numbers are small integers. -/
def demo (sources : Bool) : Net ℚ ℚ where
  ne := 3
  nrhos := 2
  numneu := 3
  nt := .both
  tau := true
  glashow := true
  sources := sources
  delE := fun _ => 1
  sigmaNC := fun t _ _ _ => t + 1
  sigmaCC := fun _ _ _ _ => 1
  sigmaGR := fun _ => 1
  dNdE_NC := fun _ _ _ _ _ => 1
  dNdE_CC := fun _ _ _ _ _ => 1
  dNdE_GR := fun _ _ => 1
  tauAll := fun _ _ _ => 1
  tauLep := fun _ _ _ => 2
  consts := ⟨1, 1, 1, 2, 3, 6⟩
  targets := .protonNeutron
  density := 6
  ye := 1 / 2
  proj := fun _ a _ => a + 1
  state := fun e _ => e
  dot := fun p s => p * s
  ext := fun _ _ _ => 1

example : Shape (demo false) := ⟨rfl, fun _ => rfl, by decide⟩

example : NonNeg (demo false) := by
  constructor <;> intros <;> simp [demo] <;> first | positivity | norm_num

/-- The lowest node gets something from both nodes above, the middle one from the highest, the highest nothing. -/
example : ((List.range 3).map fun e1 => (demo false).termOsc 9 e1 0) = [234, 84, 0] ∧
    ((List.range 3).map fun e1 => (demo false).termNoOsc 9 e1 0) = [234, 84, 0] := by decide +kernel

/-! ## C49 -/

/-- C49, partial: with projectors that do not depend on energy, the interaction term computed without oscillations is that computed with
them, including tau regeneration and the Glashow resonance; with sources only if there is one particle type. Missing: sources with both
types (`c49_sources_violated`). -/
theorem c49_same_term_partial (n : Net K V) (hs : Shape n) (hc : ∀ r a e, n.proj r a e = n.proj r a 0) (old : K) (e1 rho : Nat)
    (hr : rho < n.nrhos) (he : e1 < n.ne) (hso : n.sources = false ∨ n.nt ≠ .both) : n.termNoOsc old e1 rho = n.termOsc old e1 rho := by
  have hff : n.flux0 = n.flux := by
    funext e r a
    simp only [Net.flux, Net.flux0, hc r a e]
  rw [termOsc_spec n hs old e1 rho hr he, termNoOsc_spec n hs old e1 rho hr he, hff, hc rho 0 e1, hc rho 1 e1, hc rho 2 e1]
  congr 1
  rcases hso with h | h
  · rw [h]; rfl
  · have := hs.nrhos
    rw [if_neg h] at this
    rw [this]; simp

/-- The same numbers without the antineutrinos, with sources. -/
example : ({ demo true with nt := .neutrino, nrhos := 1, tau := false } : Net ℚ ℚ).termNoOsc 9 0 0 =
    ({ demo true with nt := .neutrino, nrhos := 1, tau := false } : Net ℚ ℚ).termOsc 9 0 0 := by decide +kernel

/-- C49, disagreement: with neutrinos and antineutrinos the path without oscillations adds the external sources twice: the loop over
sources sits inside the loop over particle types. -/
theorem c49_sources_violated :
    (∀ n : Net K V, Shape n → (∀ r a e, n.proj r a e = n.proj r a 0) → n.sources = true → n.nt = .both → ∀ old e1 rho, rho < n.nrhos → e1 < n.ne →
      n.termNoOsc old e1 rho = n.termOsc old e1 rho + ∑ i ∈ Finset.range n.numneu, n.ext e1 rho i • n.proj rho i e1) ∧
    ((demo true).termNoOsc 9 0 0 = 246 ∧ (demo true).termOsc 9 0 0 = 240) := by
  constructor
  · intro n hs hc hso hnt old e1 rho hr he
    have hff : n.flux0 = n.flux := by
      funext e r a
      simp only [Net.flux, Net.flux0, hc r a e]
    rw [termOsc_spec n hs old e1 rho hr he, termNoOsc_spec n hs old e1 rho hr he, hff, hc rho 0 e1, hc rho 1 e1, hc rho 2 e1, hso]
    have := hs.nrhos
    rw [if_pos hnt] at this
    rw [this, if_pos rfl, if_pos rfl, two_nsmul, ← add_assoc]
    rfl
  · decide +kernel

/-! ## C50 -/

/-- Neutral-current in-scattering into node `e1` with each target weighted by its own rate: over all higher nodes and all targets, number
density times cross section times spectrum times flux times width. -/
def inScatter (n : Net K V) (flux : Nat → K) (rho a e1 : Nat) : K :=
  ∑ e2 ∈ Finset.Ico (e1 + 1) n.ne, (n.densities.zipIdx.map fun x =>
    x.1 * n.sigmaNC x.2 rho a e2 * n.dNdE_NC x.2 rho a e2 e1 * flux e2 * n.delE (e2 - 1)).sum

/-- The net without neutral-current spectra. -/
def noNC (n : Net K V) : Net K V := { n with dNdE_NC := fun _ _ _ _ _ => 0 }

theorem ncSum_noNC (n : Net K V) (old : K) (φ : Nat → Nat → Nat → K) (r a k : Nat) : (noNC n).ncSum old φ r a k = 0 := by
  unfold Net.ncSum
  refine Finset.sum_eq_zero fun e2 _ => ?_
  unfold Net.ncPart tsum noNC
  simp

theorem total_noNC (n : Net K V) (old : K) (φ : Nat → Nat → Nat → K) (r a k : Nat) :
    n.total old φ r a k = n.ncSum old φ r a k + (noNC n).total old φ r a k := by
  have h : (noNC n).total old φ r a k = (noNC n).ncSum old φ r a k +
    (if n.tau then (if a = 2 then n.allSum old φ (if r = 0 then 0 else 1) k else n.lepSum old φ (if r = 0 then 1 else 0) k) else 0) +
    (if n.gr && decide (r = n.grRho) then n.grSum φ k else 0) := rfl
  rw [h, ncSum_noNC]
  unfold Net.total
  ring

/-- Per node, the code's weights are those of the claim when there is one target or the targets have the same cross section. -/
theorem ncPart_own (n : Net K V) (hp : 0 ≤ n.consts.me ∧ 0 < n.consts.mp ∧ 0 < n.consts.mn ∧ 0 ≤ n.consts.gr * n.consts.cm3 * n.density)
    (hy : 0 ≤ n.ye ∧ n.ye ≤ 1) (old φ : K) (r a e2 k : Nat)
    (h : n.targets = .isoscalar ∨ n.sigmaNC 0 r a e2 = n.sigmaNC 1 r a e2) :
    n.ncPart old φ r a e2 k = (n.densities.zipIdx.map fun x =>
      x.1 * n.sigmaNC x.2 r a e2 * n.dNdE_NC x.2 r a e2 k * φ * n.delE (e2 - 1)).sum := by
  have hi : n.invNC old r a e2 = tsum n.densities fun t d => n.sigmaNC t r a e2 * d := by
    unfold Net.invNC; exact linAcc_eq _ _ (densities_ne n) _
  unfold Net.ncPart
  rw [hi]
  cases ht : n.targets
  · have hf : n.fractions = [1] := by unfold Net.fractions; rw [ht]; rfl
    have hd : ∃ d, n.densities = [d] := by
      unfold Net.densities Matter.densities
      rw [ht]
      dsimp only
      split <;> exact ⟨_, rfl⟩
    obtain ⟨d, hd⟩ := hd
    rw [hf, hd]
    simp [tsum]
    ring
  · rcases h with h | h
    · rw [ht] at h; simp at h
    · have hf : n.fractions = [n.ye, 1 - n.ye] := by unfold Net.fractions; rw [ht]; rfl
      obtain ⟨np, nn, hd, _, _, _, _, _, _, _, _, e1, e2'⟩ :=
        Matter.c51_composition n.consts n.density n.ye hp.1 hp.2.1 hp.2.2.1 hy.1 hy.2 hp.2.2.2
      have hd' : n.densities = [np, nn] := by unfold Net.densities; rw [ht]; exact hd
      rw [hf, hd']
      simp only [tsum, List.zipIdx_cons, List.zipIdx_nil, List.map_cons, List.map_nil, List.sum_cons, List.sum_nil, zero_add, add_zero]
      rw [← h]
      have k1 : n.ye * (φ * ((n.sigmaNC 0 r a e2 * np + n.sigmaNC 0 r a e2 * nn) * n.delE (e2 - 1))) =
          (n.ye * (np + nn)) * (φ * n.sigmaNC 0 r a e2 * n.delE (e2 - 1)) := by ring
      have k2 : (1 - n.ye) * (φ * ((n.sigmaNC 0 r a e2 * np + n.sigmaNC 0 r a e2 * nn) * n.delE (e2 - 1))) =
          ((1 - n.ye) * (np + nn)) * (φ * n.sigmaNC 0 r a e2 * n.delE (e2 - 1)) := by ring
      rw [k1, k2, ← e1, ← e2']
      ring

theorem ncSum_own (n : Net K V) (hp : 0 ≤ n.consts.me ∧ 0 < n.consts.mp ∧ 0 < n.consts.mn ∧ 0 ≤ n.consts.gr * n.consts.cm3 * n.density)
    (hy : 0 ≤ n.ye ∧ n.ye ≤ 1) (old : K) (φ : Nat → Nat → Nat → K) (r a k : Nat)
    (h : n.targets = .isoscalar ∨ ∀ e, n.sigmaNC 0 r a e = n.sigmaNC 1 r a e) :
    n.ncSum old φ r a k = inScatter n (fun e => φ e r a) r a k := by
  unfold Net.ncSum inScatter
  rw [← Finset.sum_filter]
  have : (Finset.Ico 1 n.ne).filter (fun e => k < e) = Finset.Ico (k + 1) n.ne := by
    ext e
    simp only [Finset.mem_filter, Finset.mem_Ico]
    omega
  rw [this]
  refine Finset.sum_congr rfl fun e2 _ => ?_
  exact ncPart_own n hp hy old _ r a e2 k (h.imp id fun h => h e2)

/-- C50, partial: the neutral-current part of the interaction term (the term less the term without neutral-current spectra) weights each
target by its own rate, in both code paths, if the medium is isoscalar or protons and neutrons have the same cross section. Missing:
different cross sections (`c50_mixed_rates_violated`). -/
theorem c50_own_rate_partial (n : Net K V) (hs : Shape n)
    (hp : 0 ≤ n.consts.me ∧ 0 < n.consts.mp ∧ 0 < n.consts.mn ∧ 0 ≤ n.consts.gr * n.consts.cm3 * n.density) (hy : 0 ≤ n.ye ∧ n.ye ≤ 1)
    (h : n.targets = .isoscalar ∨ ∀ r a e, n.sigmaNC 0 r a e = n.sigmaNC 1 r a e) (old : K) (e1 rho : Nat) (hr : rho < n.nrhos)
    (he : e1 < n.ne) :
    n.termOsc old e1 rho - (noNC n).termOsc old e1 rho =
      ∑ a ∈ Finset.range 3, inScatter n (fun e => n.dot (n.proj rho a e) (n.state e rho)) rho a e1 • n.proj rho a e1 ∧
    n.termNoOsc old e1 rho - (noNC n).termNoOsc old e1 rho =
      ∑ a ∈ Finset.range 3, inScatter n (fun e => n.dot (n.proj rho a 0) (n.state e rho)) rho a e1 • n.proj rho a 0 := by
  have hs' : Shape (noNC n) := ⟨hs.nrhos, hs.tau, hs.flavours⟩
  have hown : ∀ φ a, n.total old φ rho a e1 = inScatter n (fun e => φ e rho a) rho a e1 + (noNC n).total old φ rho a e1 := by
    intro φ a
    rw [total_noNC, ncSum_own n hp hy old φ rho a e1 (h.imp id fun h => h rho a)]
  constructor
  · rw [termOsc_spec n hs old e1 rho hr he, termOsc_spec _ hs' old e1 rho hr he, hown, hown, hown, Finset.sum_range_succ,
      Finset.sum_range_succ, Finset.sum_range_succ, Finset.sum_range_zero]
    have e1 : (noNC n).proj = n.proj := rfl
    have e2 : (noNC n).flux = n.flux := rfl
    have e3 : (noNC n).sources = n.sources := rfl
    have e4 : (noNC n).sourceTerm = n.sourceTerm := rfl
    rw [e1, e2, e3, e4]
    simp only [Net.flux]
    module
  · rw [termNoOsc_spec n hs old e1 rho hr he, termNoOsc_spec _ hs' old e1 rho hr he, hown, hown, hown, Finset.sum_range_succ,
      Finset.sum_range_succ, Finset.sum_range_succ, Finset.sum_range_zero]
    have e1 : (noNC n).proj = n.proj := rfl
    have e2 : (noNC n).flux0 = n.flux0 := rfl
    have e3 : (noNC n).sources = n.sources := rfl
    have e4 : (noNC n).sourceTerm = n.sourceTerm := rfl
    have e5 : (noNC n).nrhos = n.nrhos := rfl
    rw [e1, e2, e3, e4, e5]
    simp only [Net.flux0]
    module

/-- Isoscalar: one node above, density 2, cross section 1, spectrum 1, flux (a+1)e. -/
example : ({ demo false with targets := .isoscalar } : Net ℚ ℚ).termOsc 9 1 0 -
    (noNC ({ demo false with targets := .isoscalar } : Net ℚ ℚ)).termOsc 9 1 0 = 56 := by decide +kernel

/-- Neutrons interact twice as much as protons and only protons scatter into this node. -/
def mixed : Net ℚ ℚ := { demo false with tau := false, glashow := false, dNdE_NC := fun t _ _ _ _ => if t = 0 then 1 else 0 }

/-- C50, disagreement: with protons and neutrons of different cross section the code weights spectra by abundance and the total rate:
here protons account for a third of the interactions and half of the re-injection. -/
theorem c50_mixed_rates_violated :
    mixed.termOsc 9 1 0 - (noNC mixed).termOsc 9 1 0 = 42 ∧
    ∑ a ∈ Finset.range 3, inScatter mixed (fun e => mixed.dot (mixed.proj 0 a e) (mixed.state e 0)) 0 a 1 • mixed.proj 0 a 1 = 28 := by
  decide +kernel

end Verif.Update
