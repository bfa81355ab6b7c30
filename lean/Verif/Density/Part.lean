import Verif.Density.LayersProps
import Verif.Density.MixingProps

/-!
# A part of an object

What an object for one type of particle, or with some of the energies only, has in common with an object for both types or for all energies.
Specification and lemmas for C115; the equation of motion is that of `Transport.lean`.
-/

namespace Verif.Density

open Matrix
open Matter (NT)
open Update (Net Shape NonNeg)
open Set (Icc Ico)
open scoped ComplexOrder

variable {n : Nat}

/-! ## Specification -/

/-- Type `r` of the object is antineutrinos. -/
abbrev Obj.Anti (o : Obj n) (r : Nat) : Prop := IsAnti o.nt r

/-- Type `r₁` at node `e` of `o₁` stands for the same neutrinos as type `r` at node `μ e` of `o`: they are of the same kind, of the same energy
and with the same mixing, and are held in the same basis. -/
structure Counterpart (μ : Nat → Nat) (r r₁ : Nat) (o o₁ : Obj n) : Prop where
  node : ∀ e, e < o₁.ne → μ e < o.ne
  type : r < o.nrhos
  type₁ : r₁ < o₁.nrhos
  kind : o₁.Anti r₁ ↔ o.Anti r
  energy : ∀ e, e < o₁.ne → o₁.energies e = o.energies (μ e)
  mixing : o₁.mixing r₁ = o.mixing r
  osc : o₁.ioscillations = o.ioscillations
  basis : o₁.basis = o.basis

/-- The same with a state set: the Hamiltonian is the same, and both have been held since the same time. -/
structure PartOf (μ : Nat → Nat) (r r₁ : Nat) (o o₁ : Obj n) : Prop extends Counterpart μ r r₁ o o₁ where
  masses : o₁.dm2 = o.dm2
  since : o₁.tini = o.tini

/-- Cross sections and spectra for type `r₁` are those for type `r` with the same targets; those of the Glashow resonance are needed for
antineutrinos only. There is no tau regeneration. -/
structure SameTables (r r₁ ne : Nat) (anti : Prop) (m m₁ : Net ℝ (Mat n)) : Prop where
  noTau : m.tau = false
  noTau₁ : m₁.tau = false
  targets : m₁.targets = m.targets
  consts : m₁.consts = m.consts
  steps : ∀ e, e + 1 < ne → m₁.delE e = m.delE e
  nc : ∀ trg f e, f < 3 → e < ne → m₁.sigmaNC trg r₁ f e = m.sigmaNC trg r f e
  cc : ∀ trg f e, f < 3 → e < ne → m₁.sigmaCC trg r₁ f e = m.sigmaCC trg r f e
  spectra : ∀ trg f e e', f < 3 → e' < e → e < ne → m₁.dNdE_NC trg r₁ f e e' = m.dNdE_NC trg r f e e'
  glashow : anti → m₁.glashow = m.glashow ∧ (∀ e, e < ne → m₁.sigmaGR e = m.sigmaGR e) ∧
    ∀ e e', e' < e → e < ne → m₁.dNdE_GR e e' = m.dNdE_GR e e'

/-- The options are the same; if there are interactions, all nodes are there and the tables are the same. With interactions and without
oscillations sources are added once for every type, so there must be none, or as many types. -/
structure SameOptions (μ : Nat → Nat) (r r₁ : Nat) (s s₁ : Setting n) (o o₁ : Obj n) : Prop where
  iint : s₁.iint = s.iint
  coupling : s₁.c = s.c
  sources : s₁.tab.sources = s.tab.sources
  once : s.tab.sources = true → s.iint = true → o.ioscillations = true ∨ o₁.nrhos = o.nrhos
  whole : s.iint = true → o₁.ne = o.ne ∧ ∀ e, e < o.ne → μ e = e
  tables : s.iint = true → SameTables r r₁ o.ne (o.Anti r) s.tab s₁.tab

/-- The media are the same at all times. -/
structure SameMedium (μ : Nat → Nat) (r r₁ : Nat) (s s₁ : Setting n) (o₁ : Obj n) : Prop where
  dens : s₁.dens = s.dens
  ye : s₁.ye = s.ye
  ext : ∀ t e f, e < o₁.ne → f < n → s₁.ext t e r₁ f = s.ext t (μ e) r f

/-- The nodes of the part are read as those of the whole. -/
def ReadsAs (μ : Nat → Nat) (r r₁ : Nat) (o o₁ : Obj n) : Prop :=
  ∀ e f, e < o₁.ne → evalFlavorAtNode o₁ f e r₁ = evalFlavorAtNode o f (μ e) r ∧ evalMassAtNode o₁ f e r₁ = evalMassAtNode o f (μ e) r

/-! ## Lemmas -/

theorem PartOf.refl {o : Obj n} {r : Nat} (hr : r < o.nrhos) : PartOf id r r o o :=
  ⟨⟨fun _ h => h, hr, hr, Iff.rfl, fun _ _ => rfl, rfl, rfl, rfl⟩, rfl, rfl⟩

theorem PartOf.same {μ : Nat → Nat} {r r₁ : Nat} {o o₁ p p₁ : Obj n} (h : PartOf μ r r₁ o o₁) (k : Same o p) (k₁ : Same o₁ p₁) :
    PartOf μ r r₁ p p₁ := by
  refine ⟨⟨?_, ?_, ?_, ?_, ?_, ?_, ?_, ?_⟩, ?_, ?_⟩
  · rw [k.ne, k₁.ne]; exact h.node
  · rw [k.nrhos]; exact h.type
  · rw [k₁.nrhos]; exact h.type₁
  · unfold Obj.Anti; rw [k.nt, k₁.nt]; exact h.kind
  · rw [k.energies, k₁.energies, k₁.ne]; exact h.energy
  · rw [k.mixing, k₁.mixing]; exact h.mixing
  · rw [k.osc, k₁.osc]; exact h.osc
  · rw [k.basis, k₁.basis]; exact h.basis
  · rw [k.dm2, k₁.dm2]; exact h.masses
  · rw [k.tini, k₁.tini]; exact h.since

theorem SameOptions.same {μ : Nat → Nat} {r r₁ : Nat} {s s₁ : Setting n} {o o₁ p p₁ : Obj n} (h : SameOptions μ r r₁ s s₁ o o₁) (k : Same o p)
    (k₁ : Same o₁ p₁) : SameOptions μ r r₁ s s₁ p p₁ := by
  refine ⟨h.iint, h.coupling, h.sources, ?_, ?_, ?_⟩
  · rw [k.osc, k.nrhos, k₁.nrhos]; exact h.once
  · rw [k.ne, k₁.ne]; exact h.whole
  · unfold Obj.Anti; rw [k.ne, k.nt]; exact h.tables

theorem anti_iff (o : Obj n) (r : Nat) : Matter.anti o.nt r = true ↔ o.Anti r := by
  unfold Matter.anti Obj.Anti IsAnti
  simp only [Bool.or_eq_true, Bool.and_eq_true, decide_eq_true_eq]
  tauto

theorem PartOf.op {μ : Nat → Nat} {r r₁ : Nat} {o o₁ : Obj n} (h : PartOf μ r r₁ o o₁) (ho : Good o) (ho₁ : Good o₁) {e : Nat} (he : e < o₁.ne)
    (t : ℝ) (A B : Mat n) (f : Fin n) : op (atTime o₁ e r₁ t A) r₁ f e = op (atTime o (μ e) r t B) r f (μ e) := by
  have k : ∀ (p : Obj n) (i q : Nat) (C : Mat n), Density.op (atTime p i q t C) q f i =
      if p.basis = .mass then p.b1 q f else evolve (h0 p (p.energies i)) (t - p.tini) (p.b1 q f) := fun _ _ _ _ => rfl
  rw [k, k, ho.b1 r f h.type, ho₁.b1 r₁ f h.type₁, h.mixing, h.basis, h.since, h.energy e he]
  unfold h0
  rw [h.osc, h.masses]

theorem PartOf.proj {μ : Nat → Nat} {r r₁ : Nat} {o o₁ : Obj n} (h : PartOf μ r r₁ o o₁) (ho : AllPrepared o) (ho₁ : AllPrepared o₁) {e : Nat}
    (he : e < o₁.ne) (t : ℝ) (f : Fin n) : (preDerive o₁ t).evolB1 r₁ f e = (preDerive o t).evolB1 r f (μ e) := by
  have h1 := ho₁ e r₁ he h.type₁
  have h2 := ho (μ e) r (h.node e he) h.type
  rw [projectors_op h1 t 0 f, projectors_op h2 t 0 f, h.op h2.good h1.good he t 0 0 f]

theorem PartOf.motion {μ : Nat → Nat} {r r₁ : Nat} {o o₁ : Obj n} (h : PartOf μ r r₁ o o₁) (ho : AllPrepared o) (ho₁ : AllPrepared o₁) {e : Nat}
    (he : e < o₁.ne) (c : ℝ) (dens ye : ℝ → ℝ) (fl : Fin 3 → Fin n) (t : ℝ) :
    motion c dens ye fl o₁ e r₁ t = motion c dens ye fl o (μ e) r t := by
  have hp : ∀ f, (preDerive o₁ t).evolB1 r₁ f e = (preDerive o t).evolB1 r f (μ e) := h.proj ho ho₁ he t
  have ha : Matter.anti o₁.nt r₁ = Matter.anti o.nt r := by
    rw [Bool.eq_iff_iff, anti_iff, anti_iff]; exact h.kind
  have hh : o₁.h0s e = o.h0s (μ e) := by
    rw [(ho₁ e r₁ he h.type₁).h0s, (ho (μ e) r (h.node e he) h.type).h0s, h.energy e he]
    unfold h0
    rw [h.osc, h.masses]
  have k := preDerive_fields o t
  have k₁ := preDerive_fields o₁ t
  unfold Density.motion hamiltonian
  simp only [hp]
  rw [k, k₁]
  dsimp only
  unfold Matter.hi
  rw [h.basis, ha, hh]

/-! ### The terms of interactions -/

theorem tsum_congr (l : List ℝ) {g g' : Nat → ℝ → ℝ} (h : ∀ t d, g t d = g' t d) : Update.tsum l g = Update.tsum l g' := by
  unfold Update.tsum
  simp only [h]

/-- What the rates and the re-injected flux of one type at one set of nodes depend on. -/
structure EqualParts (r r₁ : Nat) (m m₁ : Net ℝ (Mat n)) (φ φ₁ : Nat → Nat → Nat → ℝ) : Prop where
  ne : m₁.ne = m.ne
  density : m₁.density = m.density
  ye : m₁.ye = m.ye
  gr : (m₁.gr && decide (r₁ = m₁.grRho)) = (m.gr && decide (r = m.grRho))
  tab : SameTables r r₁ m.ne ((m.gr && decide (r = m.grRho)) = true) m m₁
  flux : ∀ e f, e < m.ne → f < 3 → φ₁ e r₁ f = φ e r f

theorem EqualParts.densities {r r₁ : Nat} {m m₁ : Net ℝ (Mat n)} {φ φ₁ : Nat → Nat → Nat → ℝ} (h : EqualParts r r₁ m m₁ φ φ₁) : m₁.densities = m.densities := by
  unfold Net.densities
  rw [h.tab.consts, h.tab.targets, h.density, h.ye]

theorem EqualParts.fractions {r r₁ : Nat} {m m₁ : Net ℝ (Mat n)} {φ φ₁ : Nat → Nat → Nat → ℝ} (h : EqualParts r r₁ m m₁ φ φ₁) : m₁.fractions = m.fractions := by
  unfold Net.fractions
  rw [h.tab.targets, h.ye]

theorem EqualParts.invNC {r r₁ : Nat} {m m₁ : Net ℝ (Mat n)} {φ φ₁ : Nat → Nat → Nat → ℝ} (h : EqualParts r r₁ m m₁ φ φ₁) (x : ℝ) {f e : Nat} (hf : f < 3)
    (he : e < m.ne) : m₁.invNC x r₁ f e = m.invNC x r f e := by
  unfold Net.invNC
  rw [h.densities]
  congr 1
  funext trg d
  rw [h.tab.nc trg f e hf he]

theorem EqualParts.invCC {r r₁ : Nat} {m m₁ : Net ℝ (Mat n)} {φ φ₁ : Nat → Nat → Nat → ℝ} (h : EqualParts r r₁ m m₁ φ φ₁) (x : ℝ) {f e : Nat} (hf : f < 3)
    (he : e < m.ne) : m₁.invCC x r₁ f e = m.invCC x r f e := by
  unfold Net.invCC
  rw [h.densities]
  congr 1
  funext trg d
  rw [h.tab.cc trg f e hf he]

theorem EqualParts.invGR {r r₁ : Nat} {m m₁ : Net ℝ (Mat n)} {φ φ₁ : Nat → Nat → Nat → ℝ} (h : EqualParts r r₁ m m₁ φ φ₁)
    (hg : (m.gr && decide (r = m.grRho)) = true) {e : Nat} (he : e < m.ne) : m₁.invGR e = m.invGR e := by
  unfold Net.invGR Net.numE
  rw [h.densities, h.ye, (h.tab.glashow hg).2.1 e he]

theorem EqualParts.invINT {r r₁ : Nat} {m m₁ : Net ℝ (Mat n)} {φ φ₁ : Nat → Nat → Nat → ℝ} (h : EqualParts r r₁ m m₁ φ φ₁) (x : ℝ) {f e : Nat} (hf : f < 3)
    (he : e < m.ne) : m₁.invINT x x r₁ f e = m.invINT x x r f e := by
  unfold Net.invINT
  dsimp only
  rw [h.gr, h.invNC x hf he, h.invCC x hf he]
  by_cases hg : (m.gr && decide (r = m.grRho)) = true
  · rw [hg, h.invGR hg he]
  · have hg' : (m.gr && decide (r = m.grRho)) = false := by simpa using hg
    rw [hg']
    simp

theorem EqualParts.total {r r₁ : Nat} {m m₁ : Net ℝ (Mat n)} {φ φ₁ : Nat → Nat → Nat → ℝ} (h : EqualParts r r₁ m m₁ φ φ₁) (x : ℝ) {f k : Nat} (hf : f < 3) :
    m₁.total x φ₁ r₁ f k = m.total x φ r f k := by
  unfold Net.total
  rw [h.tab.noTau, h.tab.noTau₁]
  simp only [Bool.false_eq_true, if_false, add_zero]
  congr 1
  · unfold Net.ncSum
    rw [h.ne]
    refine Finset.sum_congr rfl fun e2 he2 => ?_
    obtain ⟨h1, h2⟩ := Finset.mem_Ico.1 he2
    by_cases hk : k < e2
    · rw [if_pos hk, if_pos hk]
      unfold Net.ncPart
      rw [h.fractions, h.flux e2 f h2 hf, h.invNC x hf h2, h.tab.steps (e2 - 1) (by omega)]
      exact tsum_congr _ fun trg d => by rw [h.tab.spectra trg f e2 k hf hk h2]
    · rw [if_neg hk, if_neg hk]
  · rw [h.gr]
    by_cases hg : (m.gr && decide (r = m.grRho)) = true
    · rw [hg, if_pos rfl, if_pos rfl]
      have h1 := hg
      have h2 := h.gr
      rw [hg] at h2
      simp only [Bool.and_eq_true, decide_eq_true_eq] at h1 h2
      unfold Net.grSum
      rw [h.ne, ← h1.2, ← h2.2]
      refine Finset.sum_congr rfl fun e2 he2 => ?_
      obtain ⟨h3, h4⟩ := Finset.mem_Ico.1 he2
      by_cases hk : k < e2
      · rw [if_pos hk, if_pos hk, h.flux e2 0 h4 (by omega), h.invGR hg h4, h.tab.steps (e2 - 1) (by omega), (h.tab.glashow hg).2.2 e2 k hk h4]
      · rw [if_neg hk, if_neg hk]
    · rw [if_neg hg, if_neg hg]

theorem gr_anti {o : Obj n} (ho : Ready o) {r : Nat} (hr : r < o.nrhos) (s : Setting n) (t : ℝ) (st : Nat → Nat → Mat n) :
    ((s.net o t st).gr && decide (r = (s.net o t st).grRho)) = true ↔ s.tab.glashow = true ∧ o.Anti r := by
  have h1 : (s.net o t st).gr = (s.tab.glashow && (decide (o.nt = .both) || decide (o.nt = .antineutrino))) := rfl
  have h2 : (s.net o t st).grRho = if o.nt = .both then 1 else 0 := rfl
  have h3 := ho.nrhos
  rw [h1, h2]
  unfold Obj.Anti IsAnti
  cases hnt : o.nt <;> rw [hnt] at h3 <;> simp at h3 ⊢
  · omega

theorem PartOf.alike {μ : Nat → Nat} {r r₁ : Nat} {s s₁ : Setting n} {o o₁ : Obj n} (hn : 3 ≤ n) (h : PartOf μ r r₁ o o₁) (hs : SameOptions μ r r₁ s s₁ o o₁)
    (hm : SameMedium μ r r₁ s s₁ o₁) (ho : AllPrepared o) (ho₁ : AllPrepared o₁) (hi : s.iint = true) (hne : 0 < o.ne) (t : ℝ) {st st₁ : Nat → Nat → Mat n}
    (hst : ∀ e, e < o₁.ne → st₁ e r₁ = st (μ e) r) :
    EqualParts r r₁ (s.net o t st) (s₁.net o₁ t st₁) (s.net o t st).flux (s₁.net o₁ t st₁).flux := by
  obtain ⟨hw1, hw2⟩ := hs.whole hi
  have ht := hs.tables hi
  have hr := (ho 0 r hne h.type).good.ready
  have hr₁ := (ho₁ 0 r₁ (by omega) h.type₁).good.ready
  have hg : ((s₁.net o₁ t st₁).gr && decide (r₁ = (s₁.net o₁ t st₁).grRho)) = ((s.net o t st).gr && decide (r = (s.net o t st).grRho)) := by
    rw [Bool.eq_iff_iff, gr_anti hr₁ h.type₁, gr_anti hr h.type, h.kind]
    exact and_congr_left fun ha => by rw [(ht.glashow ha).1]
  refine ⟨hw1, ?_, ?_, hg, ⟨ht.noTau, ht.noTau₁, ht.targets, ht.consts, ht.steps, ht.nc, ht.cc, ht.spectra, fun hh => ht.glashow ((gr_anti hr h.type s t st).1 hh).2⟩, ?_⟩
  · show s₁.dens t = s.dens t
    rw [hm.dens]
  · show s₁.ye t = s.ye t
    rw [hm.ye]
  · intro e f he hf
    have he : e < o.ne := he
    have he₁ : e < o₁.ne := by omega
    have hfn : f < n := by omega
    show dot (if h : f < n then (preDerive o₁ t).evolB1 r₁ ⟨f, h⟩ e else 0) (if e < o₁.ne ∧ r₁ < o₁.nrhos then st₁ e r₁ else 0) =
      dot (if h : f < n then (preDerive o t).evolB1 r ⟨f, h⟩ e else 0) (if e < o.ne ∧ r < o.nrhos then st e r else 0)
    rw [dif_pos hfn, dif_pos hfn, if_pos ⟨he₁, h.type₁⟩, if_pos ⟨he, h.type⟩, h.proj ho ho₁ he₁, hst e he₁, hw2 e he]

/-- The part moves as the whole does. -/
theorem PartOf.velocity {μ : Nat → Nat} {r r₁ : Nat} {s s₁ : Setting n} {o o₁ : Obj n} (hn : 3 ≤ n) (h : PartOf μ r r₁ o o₁)
    (hs : SameOptions μ r r₁ s s₁ o o₁) (hm : SameMedium μ r r₁ s s₁ o₁) (ho : AllPrepared o) (ho₁ : AllPrepared o₁)
    (htau : s.tab.tau = true → o.nt = .both) (htau₁ : s₁.tab.tau = true → o₁.nt = .both) (t : ℝ) {st st₁ : Nat → Nat → Mat n}
    (hst : ∀ e, e < o₁.ne → st₁ e r₁ = st (μ e) r) {e : Nat} (he : e < o₁.ne) :
    s₁.velocity hn o₁ t st₁ e r₁ = s.velocity hn o t st (μ e) r := by
  have he' := h.node e he
  have hproj : ∀ f, (s₁.net o₁ t st₁).proj r₁ f e = (s.net o t st).proj r f (μ e) := by
    intro f
    show (if h : f < n then (preDerive o₁ t).evolB1 r₁ ⟨f, h⟩ e else 0) = if h : f < n then (preDerive o t).evolB1 r ⟨f, h⟩ (μ e) else 0
    by_cases hf : f < n
    · rw [dif_pos hf, dif_pos hf, h.proj ho ho₁ he]
    · rw [dif_neg hf, dif_neg hf]
  have hgamma : s₁.gamma o₁ t st₁ e r₁ = s.gamma o t st (μ e) r := by
    rw [gamma_eq, gamma_eq, hs.iint]
    by_cases hi : s.iint = true
    · rw [hi, if_pos rfl, if_pos rfl]
      have hal := h.alike hn hs hm ho ho₁ hi (by omega) t hst
      have hμ := (hs.whole hi).2 e (by have := (hs.whole hi).1; omega)
      refine Finset.sum_congr rfl fun f hf => ?_
      rw [hproj f, hμ, invINT_old _ (s₁.old t) (s.old t), hal.invINT (s.old t) (Finset.mem_range.1 hf)]
      show e < o.ne
      have := (hs.whole hi).1
      omega
    · have hi' : s.iint = false := by simpa using hi
      simp only [hi', Bool.false_eq_true, if_false]
  have hgain : s₁.gain o₁ t st₁ e r₁ = s.gain o t st (μ e) r := by
    rw [gain_exact hn ho htau he' h.type t st, gain_exact hn ho₁ htau₁ he h.type₁ t st₁, hs.iint]
    congr 1
    · by_cases hi : s.iint = true
      · rw [hi, if_pos rfl, if_pos rfl]
        have hal := h.alike hn hs hm ho ho₁ hi (by omega) t hst
        have hμ := (hs.whole hi).2 e (by have := (hs.whole hi).1; omega)
        refine Finset.sum_congr rfl fun f hf => ?_
        rw [hproj f, hμ, total_old _ (s₁.old t) (s.old t), hal.total (s.old t) (Finset.mem_range.1 hf)]
      · have hi' : s.iint = false := by simpa using hi
        simp only [hi', Bool.false_eq_true, if_false]
    · have hc : s₁.copies o₁ = s.copies o := by
        unfold Setting.copies
        rw [hs.sources, hs.iint, h.osc]
        cases hsr : s.tab.sources
        · rfl
        · rw [if_pos rfl, if_pos rfl]
          cases hi : s.iint
          · rfl
          · rcases hs.once hsr hi with ho | ho
            · rw [ho]; rfl
            · rw [ho]
      rw [hc]
      congr 1
      refine Finset.sum_congr rfl fun f hf => ?_
      rw [hproj f, hm.ext t e f he (Finset.mem_range.1 hf)]
  unfold Setting.velocity
  rw [hgamma, hgain, hs.coupling, hm.dens, hm.ye, h.motion ho ho₁ he, hst e he]

/-- A type does not see the other: its derivative depends on its own states only. -/
theorem velocity_type {s : Setting n} {o : Obj n} (hn : 3 ≤ n) (ho : AllPrepared o) (hno : s.iint = true → s.tab.tau = false)
    (htau : s.tab.tau = true → o.nt = .both) {r : Nat} (hr : r < o.nrhos) (t : ℝ) {st st' : Nat → Nat → Mat n} (hst : ∀ e, e < o.ne → st' e r = st e r)
    {e : Nat} (he : e < o.ne) : s.velocity hn o t st' e r = s.velocity hn o t st e r :=
  (PartOf.refl hr).velocity hn ⟨rfl, rfl, rfl, fun _ _ => .inr rfl, fun _ => ⟨rfl, fun _ _ => rfl⟩, fun hi =>
    ⟨hno hi, hno hi, rfl, rfl, fun _ _ => rfl, fun _ _ _ _ _ => rfl, fun _ _ _ _ _ => rfl, fun _ _ _ _ _ _ _ => rfl, fun _ =>
      ⟨rfl, fun _ _ => rfl, fun _ _ _ _ => rfl⟩⟩⟩ ⟨rfl, rfl, fun _ _ _ _ _ => rfl⟩ ho ho htau htau t hst he

/-- The states of the whole, put in place of those of the part, follow the equation of the part. -/
theorem PartOf.evolves {μ : Nat → Nat} {r r₁ : Nat} {s s₁ : Setting n} {o o₁ : Obj n} {hn : 3 ≤ n} (h : PartOf μ r r₁ o o₁)
    (hs : SameOptions μ r r₁ s s₁ o o₁) (hm : SameMedium μ r r₁ s s₁ o₁) (ho : AllPrepared o) (ho₁ : AllPrepared o₁)
    (htau : s.tab.tau = true → o.nt = .both) (htau₁ : s₁.tab.tau = true → o₁.nt = .both) {ρ σ : ℝ → Nat → Nat → Mat n} {a b : ℝ}
    (hρ : Evolves s hn o ρ a b) (hσ : Evolves s₁ hn o₁ σ a b) :
    Evolves s₁ hn o₁ (fun t e q => if q = r₁ then ρ t (μ e) r else σ t e q) a b := by
  obtain ⟨S, hS, hρ⟩ := hρ
  obtain ⟨S', hS', hσ⟩ := hσ
  refine ⟨S ∪ S', hS.union hS', fun e q he hq => ?_, fun t ht hn' e q he hq => ?_, fun t ht e q he hq => ?_⟩
  · by_cases h1 : q = r₁
    · simp only [if_pos h1]
      exact hρ.cont (μ e) r (h.node e he) h.type
    · simp only [if_neg h1]
      exact hσ.cont e q he hq
  · rw [Set.mem_union, not_or] at hn'
    by_cases h1 : q = r₁
    · subst h1
      simp only [if_true]
      rw [h.velocity hn hs hm ho ho₁ htau htau₁ t (st := ρ t) (fun e _ => if_pos rfl) he]
      exact hρ.deriv t ht hn'.1 (μ e) r (h.node e he) h.type
    · simp only [if_neg h1]
      rw [velocity_type hn ho₁ (fun hi => (hs.tables (by rw [← hs.iint]; exact hi)).noTau₁) htau₁ hq t (st := σ t) (fun e _ => if_neg h1) he]
      exact hσ.deriv t ht hn'.2 e q he hq
  · by_cases h1 : q = r₁
    · simp only [if_pos h1]
      exact hρ.hermitian t ht (μ e) r (h.node e he) h.type
    · simp only [if_neg h1]
      exact hσ.hermitian t ht e q he hq

end Verif.Density
