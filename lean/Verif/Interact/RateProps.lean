import Verif.Interact.UpdateProps

/-! C74: attenuation and re-injection are the sums over rates they stand for. -/

namespace Verif.Update

open Matter (NT Targets Consts)

set_option linter.unusedSectionVars false

variable {K : Type} [Field K] [LinearOrder K] [IsStrictOrderedRing K] {V : Type} [AddCommGroup V] [Module K V]

/-! ## What is meant -/

/-- Interactions per length on all targets, each with its number density. -/
def rate (n : Net K V) (sigma : Nat → K) : K := (n.densities.zipIdx.map fun x => x.1 * sigma x.2).sum

/-- The spectrum averaged over the targets by abundance. -/
def mean (n : Net K V) (spec : Nat → K) : K := (n.fractions.zipIdx.map fun x => x.1 * spec x.2).sum

/-- Electrons per volume: as many as protons, or the electron fraction of the nucleons. -/
def electrons (n : Net K V) : K :=
  match n.targets with
  | .isoscalar => n.densities.headD 0 * n.ye
  | .protonNeutron => n.densities.headD 0

/-- Antineutrinos are the type `1` next to neutrinos, or the only type. -/
def isAnti (n : Net K V) (rho : Nat) : Bool :=
  match n.nt with
  | .both => decide (rho = 1)
  | .antineutrino => true
  | .neutrino => false

/-- Taus made in the bin below node `et` by neutrinos of type `r` at all higher nodes, for fluxes `φ` of tau neutrinos by node. -/
def tausMade (n : Net K V) (φ : Nat → K) (r et : Nat) : K :=
  ∑ en ∈ Finset.Ico (et + 1) n.ne,
    φ en * rate n (fun t => n.sigmaCC t r 2 en) * n.delE (en - 1) * mean n (fun t => n.dNdE_CC t r 2 en et) * n.delE (et - 1)

/-- Neutrinos at node `e1` from the decays of taus at all higher nodes. -/
def fromTaus (n : Net K V) (φ : Nat → K) (r : Nat) (spec : Nat → Nat → K) (e1 : Nat) : K :=
  ∑ et ∈ Finset.Ico (e1 + 1) n.ne, tausMade n φ r et * spec et e1

/-- Antineutrinos of one flavour at node `e1` from the leptonic decay of W bosons made at all higher nodes. -/
def fromW (n : Net K V) (φ : Nat → K) (e1 : Nat) : K :=
  ∑ e2 ∈ Finset.Ico (e1 + 1) n.ne, φ e2 * (n.sigmaGR e2 * electrons n) * n.delE (e2 - 1) * n.dNdE_GR e2 e1

/-- What tau regeneration adds for type `rho` at node `e1`: tau neutrinos from all decays of taus of the same type, electron and muon
neutrinos from leptonic decays of taus of the other type. -/
def regenerated (n : Net K V) (φ : Nat → Nat → K) (proj : Nat → V) (rho e1 : Nat) : V :=
  fromTaus n (φ (1 - rho)) (1 - rho) (n.tauLep (1 - rho)) e1 • (proj 0 + proj 1) + fromTaus n (φ rho) rho (n.tauAll rho) e1 • proj 2

/-! ## Lemmas -/

theorem tsum_mul_left (l : List K) (c : K) (g : Nat → K → K) : tsum l (fun t d => c * g t d) = c * tsum l g := by
  unfold tsum
  induction l.zipIdx with
  | nil => simp
  | cons x z ih => simp only [List.map_cons, List.sum_cons, ih, mul_add]

theorem rate_eq (n : Net K V) (sigma : Nat → K) : rate n sigma = tsum n.densities fun t d => sigma t * d := by
  unfold rate tsum
  congr 1
  exact List.map_congr_left fun x _ => mul_comm _ _

theorem invCC_rate (n : Net K V) (old : K) (r a e : Nat) : n.invCC old r a e = rate n fun t => n.sigmaCC t r a e := by
  rw [rate_eq]; exact linAcc_eq _ _ (densities_ne n) _

theorem invNC_rate (n : Net K V) (old : K) (r a e : Nat) : n.invNC old r a e = rate n fun t => n.sigmaNC t r a e := by
  rw [rate_eq]; exact linAcc_eq _ _ (densities_ne n) _

theorem numE_eq (n : Net K V) : n.numE = electrons n := by
  have h1 : n.targets = .isoscalar → ∃ d, n.densities = [d] := by
    intro h
    unfold Net.densities Matter.densities
    rw [h]
    dsimp only
    split <;> exact ⟨_, rfl⟩
  have h2 : n.targets = .protonNeutron → ∃ d d', n.densities = [d, d'] := by
    intro h
    unfold Net.densities Matter.densities
    rw [h]
    dsimp only
    split <;> exact ⟨_, _, rfl⟩
  unfold Net.numE electrons
  cases ht : n.targets
  · obtain ⟨d, hd⟩ := h1 ht
    rw [hd]; rfl
  · obtain ⟨d, d', hd⟩ := h2 ht
    rw [hd]; rfl

theorem gr_anti (n : Net K V) (hs : Shape n) (rho : Nat) (hr : rho < n.nrhos) :
    (n.gr && decide (rho = n.grRho)) = (n.glashow && isAnti n rho) := by
  have h1 := hs.nrhos
  unfold Net.gr Net.grRho isAnti
  cases hn : n.nt
  · simp
  · rw [hn] at h1
    simp only [reduceCtorEq, if_false] at h1
    have : rho = 0 := by omega
    simp [this]
  · simp

/-- Sums over the higher nodes, written with a test or as an interval. -/
theorem sum_above (ne k : Nat) (f : Nat → K) : (∑ e ∈ Finset.Ico 1 ne, if k < e then f e else 0) = ∑ e ∈ Finset.Ico (k + 1) ne, f e := by
  rw [← Finset.sum_filter]
  refine Finset.sum_congr ?_ fun _ _ => rfl
  ext e
  simp only [Finset.mem_filter, Finset.mem_Ico]
  omega

theorem tauPart_eq (n : Net K V) (old : K) (φ : Nat → Nat → Nat → K) (r en et : Nat) (hr : r = 0 ∨ r = 1) (h1 : 1 ≤ et)
    (h0 : 0 ≤ φ en 0 2) (h0' : 0 ≤ φ en 1 2) :
    n.tauPart old φ r en et = if et < en then
      φ en r 2 * rate n (fun t => n.sigmaCC t r 2 en) * n.delE (en - 1) * mean n (fun t => n.dNdE_CC t r 2 en et) * n.delE (et - 1) else 0 := by
  have hz : φ en 0 2 ≤ 0 ∧ φ en 1 2 ≤ 0 → φ en r 2 = 0 := by
    rintro ⟨a, b⟩
    rcases hr with rfl | rfl
    · exact le_antisymm a h0
    · exact le_antisymm b h0'
  unfold Net.tauPart
  by_cases hle : φ en 0 2 ≤ 0 ∧ φ en 1 2 ≤ 0
  · rw [if_pos hle, hz hle]; simp
  · rw [if_neg hle]
    by_cases hlt : et < en
    · rw [if_pos hlt]
      have hm : mean n (fun t => n.dNdE_CC t r 2 en et) = tsum n.fractions fun t f => f * n.dNdE_CC t r 2 en et := rfl
      rw [hm, ← invCC_rate n old]
      have : (fun (trg : Nat) (tF : K) => if 1 ≤ et ∧ et < en then
          φ en r 2 * n.invCC old r 2 en * n.delE (en - 1) * tF * n.dNdE_CC trg r 2 en et * n.delE (et - 1) else 0) =
          fun trg tF => (φ en r 2 * n.invCC old r 2 en * n.delE (en - 1) * n.delE (et - 1)) * (tF * n.dNdE_CC trg r 2 en et) := by
        funext trg tF
        rw [if_pos ⟨h1, hlt⟩]; ring
      rw [this, tsum_mul_left]; ring
    · rw [if_neg hlt]
      have : (fun (trg : Nat) (tF : K) => if 1 ≤ et ∧ et < en then
          φ en r 2 * n.invCC old r 2 en * n.delE (en - 1) * tF * n.dNdE_CC trg r 2 en et * n.delE (et - 1) else 0) =
          fun _ _ => (0 : K) * 0 := by
        funext trg tF
        rw [if_neg (fun h => hlt h.2)]; ring
      rw [this, tsum_mul_left]; ring

theorem tauSum_eq (n : Net K V) (old : K) (φ : Nat → Nat → Nat → K) (r et : Nat) (hr : r = 0 ∨ r = 1) (h1 : 1 ≤ et)
    (h0 : ∀ e r, 0 ≤ φ e r 2) : n.tauSum old φ r et = tausMade n (fun e => φ e r 2) r et := by
  unfold Net.tauSum tausMade
  rw [← sum_above n.ne et]
  exact Finset.sum_congr rfl fun en _ => tauPart_eq n old φ r en et hr h1 (h0 en 0) (h0 en 1)

theorem decaySum_eq (n : Net K V) (old : K) (φ : Nat → Nat → Nat → K) (r k : Nat) (hr : r = 0 ∨ r = 1) (h0 : ∀ e r, 0 ≤ φ e r 2)
    (tab : Nat → Nat → K) :
    (∑ et ∈ Finset.Ico 1 n.ne, if k < et then n.tauSum old φ r et * tab et k else 0) = fromTaus n (fun e => φ e r 2) r tab k := by
  unfold fromTaus
  rw [← sum_above n.ne k fun et => tausMade n (fun e => φ e r 2) r et * tab et k]
  refine Finset.sum_congr rfl fun et het => ?_
  rw [tauSum_eq n old φ r et hr (Finset.mem_Ico.1 het).1 h0]

theorem grSum_eq (n : Net K V) (φ : Nat → Nat → Nat → K) (k : Nat) : n.grSum φ k = fromW n (fun e => φ e n.grRho 0) k := by
  unfold Net.grSum fromW Net.invGR
  rw [numE_eq]
  exact sum_above n.ne k fun e2 => φ e2 n.grRho 0 * (n.sigmaGR e2 * electrons n) * n.delE (e2 - 1) * n.dNdE_GR e2 k

/-- The factor in terms of the sums above. -/
theorem total_rates (n : Net K V) (hs : Shape n) (old : K) (φ : Nat → Nat → Nat → K) (rho a k : Nat) (hr : rho < n.nrhos)
    (h0 : n.tau = true → ∀ e r, 0 ≤ φ e r 2) :
    n.total old φ rho a k = n.ncSum old φ rho a k +
      (if n.tau then (if a = 2 then fromTaus n (fun e => φ e rho 2) rho (n.tauAll rho) k
        else fromTaus n (fun e => φ e (1 - rho) 2) (1 - rho) (n.tauLep (1 - rho)) k) else 0) +
      (if n.glashow && isAnti n rho then fromW n (fun e => φ e rho 0) k else 0) := by
  have hr2 : rho < 2 := by have := hs.nrhos; split at this <;> omega
  have hrr : (rho = 0 ∧ 1 - rho = 1) ∨ (rho = 1 ∧ 1 - rho = 0) := by omega
  unfold Net.total
  rw [gr_anti n hs rho hr]
  congr 1
  · congr 1
    by_cases ht : n.tau = true
    · rw [if_pos ht, if_pos ht]
      rcases hrr with ⟨h, h'⟩ | ⟨h, h'⟩
      · subst h
        simp only [if_true]
        by_cases ha : a = 2
        · rw [if_pos ha, if_pos ha]
          exact decaySum_eq n old φ 0 k (Or.inl rfl) (h0 ht) _
        · rw [if_neg ha, if_neg ha]
          exact decaySum_eq n old φ 1 k (Or.inr rfl) (h0 ht) _
      · subst h
        simp only [one_ne_zero, if_false]
        by_cases ha : a = 2
        · rw [if_pos ha, if_pos ha]
          exact decaySum_eq n old φ 1 k (Or.inr rfl) (h0 ht) _
        · rw [if_neg ha, if_neg ha]
          exact decaySum_eq n old φ 0 k (Or.inl rfl) (h0 ht) _
    · rw [if_neg ht, if_neg ht]
  · by_cases hg : (n.glashow && isAnti n rho) = true
    · rw [if_pos hg, if_pos hg, grSum_eq]
      rw [← gr_anti n hs rho hr] at hg
      have : rho = n.grRho := by
        rw [Bool.and_eq_true] at hg
        exact of_decide_eq_true hg.2
      rw [this]
    · rw [if_neg hg, if_neg hg]

/-! ## The properties -/

/-- C74: each active flavour is attenuated at half its total interaction rate - neutral and charged current on all targets, and on
electrons for electron antineutrinos with the Glashow resonance on - whatever the buffers held before; sterile states are not
attenuated, and nothing is with interactions off. -/
theorem c74_attenuation (n : Net K V) (hs : Shape n) (oldN oldC : K) (e rho : Nat) (hr : rho < n.nrhos) :
    n.gammaRho false oldN oldC e rho = 0 ∧
    n.gammaRho true oldN oldC e rho = ∑ a ∈ Finset.range 3,
      ((rate n (fun t => n.sigmaNC t rho a e) + rate n (fun t => n.sigmaCC t rho a e) +
        if n.glashow ∧ isAnti n rho ∧ a = 0 then n.sigmaGR e * electrons n else 0) / 2) • n.proj rho a e := by
  refine ⟨rfl, ?_⟩
  have hint : ∀ a, n.invINT oldN oldC rho a e = rate n (fun t => n.sigmaNC t rho a e) + rate n (fun t => n.sigmaCC t rho a e) +
        if n.glashow ∧ isAnti n rho ∧ a = 0 then n.sigmaGR e * electrons n else 0 := by
    intro a
    unfold Net.invINT
    rw [gr_anti n hs rho hr, invNC_rate, invCC_rate]
    dsimp only
    unfold Net.invGR
    rw [numE_eq]
    by_cases hc : n.glashow ∧ isAnti n rho ∧ a = 0
    · rw [if_pos hc, if_pos (by simp [hc.1, hc.2.1, hc.2.2])]
    · rw [if_neg hc, if_neg (by simpa [and_assoc] using hc), add_zero]
  unfold Net.gammaRho Net.gamma
  rw [if_pos rfl, Finset.sum_range_succ, Finset.sum_range_succ, Finset.sum_range_succ, Finset.sum_range_zero, zero_add, hint, hint, hint]
  congr 1
  · congr 1 <;> (congr 1; ring)
  · congr 1; ring

/-- Three nodes, both types, everything on, the two types and the two targets with different tables. -/
def demoRates : Net ℚ ℚ := { demo true with
  sigmaCC := fun t r _ _ => t + 2 * r + 1
  tauAll := fun r _ _ => r + 1
  tauLep := fun r _ _ => r + 3
  state := fun e r => e + r }

example : Shape demoRates := ⟨rfl, fun _ => rfl, by decide⟩

example : demoRates.gammaRho true 9 9 1 0 = 18 ∧ demoRates.gammaRho true 9 9 1 1 = 61 / 2 := by decide +kernel

/-- C74: what tau regeneration adds to the interaction term, in both code paths, for fluxes of tau neutrinos that are not negative. -/
theorem c74_tau_regeneration (n : Net K V) (hs : Shape n) (ht : n.tau = true) (old : K) (e1 rho : Nat) (hr : rho < n.nrhos)
    (he : e1 < n.ne) :
    ((∀ e r, 0 ≤ n.dot (n.proj r 2 e) (n.state e r)) →
      n.interactionsRho true true old e1 rho = ({ n with tau := false } : Net K V).interactionsRho true true old e1 rho +
        regenerated n (fun r e => n.dot (n.proj r 2 e) (n.state e r)) (fun a => n.proj rho a e1) rho e1) ∧
    ((∀ e r, 0 ≤ n.dot (n.proj r 2 0) (n.state e r)) →
      n.interactionsRho true false old e1 rho = ({ n with tau := false } : Net K V).interactionsRho true false old e1 rho +
        regenerated n (fun r e => n.dot (n.proj r 2 0) (n.state e r)) (fun a => n.proj rho a 0) rho e1) := by
  have hs' : Shape ({ n with tau := false } : Net K V) := ⟨hs.nrhos, by simp, hs.flavours⟩
  have htot : ∀ φ : Nat → Nat → Nat → K, (∀ e r, 0 ≤ φ e r 2) → ∀ a, n.total old φ rho a e1 =
      ({ n with tau := false } : Net K V).total old φ rho a e1 + if a = 2 then fromTaus n (fun e => φ e rho 2) rho (n.tauAll rho) e1
        else fromTaus n (fun e => φ e (1 - rho) 2) (1 - rho) (n.tauLep (1 - rho)) e1 := by
    intro φ h0 a
    rw [total_rates n hs old φ rho a e1 hr (fun _ => h0), total_rates _ hs' old φ rho a e1 hr (by simp), if_pos ht]
    simp only [Bool.false_eq_true, if_false]
    have e1' : ({ n with tau := false } : Net K V).ncSum old φ rho a e1 = n.ncSum old φ rho a e1 := rfl
    have e2' : fromW ({ n with tau := false } : Net K V) (fun e => φ e rho 0) e1 = fromW n (fun e => φ e rho 0) e1 := rfl
    have e3' : isAnti ({ n with tau := false } : Net K V) rho = isAnti n rho := rfl
    rw [e1', e2', e3']
    ring
  constructor
  · intro h0
    simp only [Net.interactionsRho, Bool.not_true, Bool.and_false, Bool.false_and, Bool.false_eq_true, if_false]
    rw [termOsc_spec n hs old e1 rho hr he, termOsc_spec _ hs' old e1 rho hr he, htot n.flux h0, htot n.flux h0, htot n.flux h0]
    have e2 : ({ n with tau := false } : Net K V).flux = n.flux := rfl
    have e4 : ({ n with tau := false } : Net K V).sourceTerm = n.sourceTerm := rfl
    rw [e2, e4]
    unfold regenerated
    simp only [Net.flux, if_true, OfNat.zero_ne_ofNat, OfNat.one_ne_ofNat, if_false]
    module
  · intro h0
    simp only [Net.interactionsRho, Bool.not_false, Bool.and_true, if_true]
    rw [termNoOsc_spec n hs old e1 rho hr he, termNoOsc_spec _ hs' old e1 rho hr he, htot n.flux0 h0, htot n.flux0 h0, htot n.flux0 h0]
    have e2 : ({ n with tau := false } : Net K V).flux0 = n.flux0 := rfl
    have e4 : ({ n with tau := false } : Net K V).sourceTerm = n.sourceTerm := rfl
    rw [e2, e4]
    unfold regenerated
    simp only [Net.flux0, if_true, OfNat.zero_ne_ofNat, OfNat.one_ne_ofNat, if_false]
    module

example : ∀ e r, 0 ≤ demoRates.dot (demoRates.proj r 2 e) (demoRates.state e r) := by
  intro e r
  show (0 : ℚ) ≤ ((2 : ℕ) + 1) * (e + r)
  positivity

/-- Taus make 810 of the 942 neutrinos at the lowest node and 540 of the 786 antineutrinos. -/
example : (demoRates.interactionsRho true true 9 0 0, ({ demoRates with tau := false } : Net ℚ ℚ).interactionsRho true true 9 0 0,
      demoRates.interactionsRho true true 9 0 1, ({ demoRates with tau := false } : Net ℚ ℚ).interactionsRho true true 9 0 1) =
    (942, 942 - 810, 786, 786 - 540) := by decide +kernel

/-- C74: what the Glashow resonance adds to the interaction term, in both code paths: antineutrinos of each active flavour from the decay
of the W bosons made by electron antineutrinos, and nothing for neutrinos. -/
theorem c74_glashow (n : Net K V) (hs : Shape n) (hg : n.glashow = true) (old : K) (e1 rho : Nat) (hr : rho < n.nrhos) (he : e1 < n.ne) :
    (n.interactionsRho true true old e1 rho = ({ n with glashow := false } : Net K V).interactionsRho true true old e1 rho +
      if isAnti n rho then
        fromW n (fun e => n.dot (n.proj rho 0 e) (n.state e rho)) e1 • (n.proj rho 0 e1 + n.proj rho 1 e1 + n.proj rho 2 e1) else 0) ∧
    (n.interactionsRho true false old e1 rho = ({ n with glashow := false } : Net K V).interactionsRho true false old e1 rho +
      if isAnti n rho then
        fromW n (fun e => n.dot (n.proj rho 0 0) (n.state e rho)) e1 • (n.proj rho 0 0 + n.proj rho 1 0 + n.proj rho 2 0) else 0) := by
  have hs' : Shape ({ n with glashow := false } : Net K V) := ⟨hs.nrhos, hs.tau, hs.flavours⟩
  have htot : ∀ φ : Nat → Nat → Nat → K, ∀ a, n.total old φ rho a e1 =
      ({ n with glashow := false } : Net K V).total old φ rho a e1 + if isAnti n rho then fromW n (fun e => φ e rho 0) e1 else 0 := by
    intro φ a
    have h1 := gr_anti n hs rho hr
    have h2 := gr_anti _ hs' rho hr
    rw [hg, Bool.true_and] at h1
    rw [Bool.false_and] at h2
    unfold Net.total
    rw [h1, h2]
    simp only [Bool.false_eq_true, if_false, add_zero]
    congr 1
    by_cases ha : isAnti n rho = true
    · rw [if_pos ha, if_pos ha, grSum_eq]
      rw [ha, Bool.and_eq_true] at h1
      have : rho = n.grRho := of_decide_eq_true h1.2
      rw [this]
    · rw [if_neg ha, if_neg ha]
  constructor
  · simp only [Net.interactionsRho, Bool.not_true, Bool.and_false, Bool.false_and, Bool.false_eq_true, if_false]
    rw [termOsc_spec n hs old e1 rho hr he, termOsc_spec _ hs' old e1 rho hr he, htot n.flux, htot n.flux, htot n.flux]
    have e2 : ({ n with glashow := false } : Net K V).flux = n.flux := rfl
    have e4 : ({ n with glashow := false } : Net K V).sourceTerm = n.sourceTerm := rfl
    rw [e2, e4]
    simp only [Net.flux]
    cases isAnti n rho
    · simp
    · simp only [if_true]; module
  · simp only [Net.interactionsRho, Bool.not_false, Bool.and_true, if_true]
    rw [termNoOsc_spec n hs old e1 rho hr he, termNoOsc_spec _ hs' old e1 rho hr he, htot n.flux0, htot n.flux0, htot n.flux0]
    have e2 : ({ n with glashow := false } : Net K V).flux0 = n.flux0 := rfl
    have e4 : ({ n with glashow := false } : Net K V).sourceTerm = n.sourceTerm := rfl
    rw [e2, e4]
    simp only [Net.flux0]
    cases isAnti n rho
    · simp
    · simp only [if_true]; module

/-- Antineutrinos: 5 on each of the projectors 1, 2 and 3; neutrinos: nothing. -/
example : (demoRates.interactionsRho true true 9 0 0, ({ demoRates with glashow := false } : Net ℚ ℚ).interactionsRho true true 9 0 0,
      demoRates.interactionsRho true true 9 0 1, ({ demoRates with glashow := false } : Net ℚ ℚ).interactionsRho true true 9 0 1) =
    (942, 942, 786, 786 - 30) := by decide +kernel

/-- C74: what external sources add to the interaction term, with oscillations or with interactions off: the flux of every flavour,
sterile ones included, once. -/
theorem c74_sources (n : Net K V) (hs : Shape n) (hso : n.sources = true) (iint osc : Bool) (hio : iint = false ∨ osc = true) (old : K)
    (e1 rho : Nat) (hr : rho < n.nrhos) (he : e1 < n.ne) :
    n.interactionsRho iint osc old e1 rho = ({ n with sources := false } : Net K V).interactionsRho iint osc old e1 rho +
      ∑ a ∈ Finset.range n.numneu, n.ext e1 rho a • n.proj rho a e1 := by
  have hs' : Shape ({ n with sources := false } : Net K V) := ⟨hs.nrhos, hs.tau, hs.flavours⟩
  cases iint
  · simp only [Net.interactionsRho, hso, Bool.false_and, Bool.not_false, Bool.not_true, Bool.and_false, Bool.and_self, Bool.false_eq_true,
      if_false, if_true, zero_add]
    rw [loop_add _ (fun i => n.ext e1 rho i • n.proj rho i e1) (fun _ _ => rfl),
      ← Finset.sum_range_add_sum_Ico _ (show 1 ≤ n.numneu by have := hs.flavours; omega), Finset.sum_range_one]
  · have ho : osc = true := by simpa using hio
    subst ho
    simp only [Net.interactionsRho, Bool.not_true, Bool.and_false, Bool.false_and, Bool.false_eq_true, if_false]
    rw [termOsc_spec n hs old e1 rho hr he, termOsc_spec _ hs' old e1 rho hr he, if_pos hso]
    simp only [Bool.false_eq_true, if_false, add_zero]
    rfl

example : demoRates.interactionsRho false true 9 0 0 = 6 ∧
    ({ demoRates with sources := false } : Net ℚ ℚ).interactionsRho true true 9 0 0 = 942 - 6 := by decide +kernel

end Verif.Update
