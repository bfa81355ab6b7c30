import Verif.Density.Part

/-!
C115: an object for one type of particle, or for some of the energies, gives what an object for both types, or for all energies, gives for them.
-/

namespace Verif.Density

open Matrix
open Matter (NT)
open Update (Net Shape NonNeg)
open Set (Icc Ico)
open scoped ComplexOrder

variable {n : Nat}

/-! ## Specification -/

/-- Two tracks of the same ends through bodies that answer alike; sources go with the nodes and types. -/
structure LegAs (μ : Nat → Nat) (r r₁ ne₁ numneu : Nat) (l l₁ : Leg) : Prop where
  xini : l₁.xini = l.xini
  xend : l₁.xend = l.xend
  dens : l₁.med.dens = l.med.dens
  ye : l₁.med.ye = l.med.ye
  ext : ∀ x e f, e < ne₁ → f < numneu → l₁.med.ext x e r₁ f = l.med.ext x (μ e) r f

/-! ## Lemmas -/

theorem readsAs_state {μ : Nat → Nat} {r r₁ : Nat} {o o₁ : Obj n} (h : PartOf μ r r₁ o o₁) (ho : AllPrepared o) (ho₁ : AllPrepared o₁) {e : Nat}
    (he : e < o₁.ne) (t : ℝ) {A : Mat n} (f : Fin n) :
    evalFlavorAtNode (atTime o₁ e r₁ t A) f e r₁ = evalFlavorAtNode (atTime o (μ e) r t A) f (μ e) r ∧
      evalMassAtNode (atTime o₁ e r₁ t A) f e r₁ = evalMassAtNode (atTime o (μ e) r t A) f (μ e) r := by
  have h1 := ho₁ e r₁ he h.type₁
  have h2 := ho (μ e) r (h.node e he) h.type
  have s1 : ∀ (p : Obj n) (i q : Nat), (atTime p i q t A).state i q = A := fun p i q => if_pos ⟨rfl, rfl⟩
  constructor
  · rw [eval_eq (good_atTime h1.good e r₁ t A) h.type₁, eval_eq (good_atTime h2.good (μ e) r t A) h.type, h.op h2.good h1.good he t A A f, s1, s1]
  · have g : ∀ {p : Obj n} (_ : Good p) (q : Nat), q < p.nrhos → ¬(q ≠ 0 ∧ p.nt ≠ .both) := by
      rintro p gp q hq ⟨k1, k2⟩
      have := gp.ready.nrhos
      rw [if_neg k2] at this
      omega
    have e1 : ∀ {p : Obj n} (_ : Good p) (i q : Nat), q < p.nrhos → evalMassAtNode (atTime p i q t A) f i q =
        .ok (if p.basis = .mass then dot (projector f) A else dot A (evolve (h0 p (p.energies i)) (t - p.tini) (projector f))) := by
      intro p gp i q hq
      unfold evalMassAtNode
      rw [if_neg (show ¬(atTime p i q t A).ienergy = false by rw [show (atTime p i q t A).ienergy = true from gp.ienergy]; simp),
        if_neg (show ¬(q ≠ 0 ∧ (atTime p i q t A).nt ≠ .both) from g gp q hq)]
      unfold expectation
      rw [s1, show (atTime p i q t A).b0 f = projector f from gp.ready.b0 f]
      by_cases hb : p.basis = .mass
      · rw [if_pos (show (atTime p i q t A).basis = .mass from hb), if_pos hb]
      · rw [if_neg (show ¬(atTime p i q t A).basis = .mass from hb), if_neg hb]
        rfl
    rw [e1 h1.good e r₁ h.type₁, e1 h2.good (μ e) r h.type, h.basis, h.since, h.energy e he]
    unfold h0
    rw [h.osc, h.masses]

theorem eval_atTime (o : Obj n) (e r : Nat) (f : Fin n) :
    evalFlavorAtNode o f e r = evalFlavorAtNode (atTime o e r o.t (o.state e r)) f e r ∧
      evalMassAtNode o f e r = evalMassAtNode (atTime o e r o.t (o.state e r)) f e r := by
  have : atTime o e r o.t (o.state e r) = o := by
    unfold atTime
    have hs : (fun i q => if i = e ∧ q = r then o.state e r else o.state i q) = o.state := by
      funext i q
      by_cases hc : i = e ∧ q = r
      · rw [if_pos hc, hc.1, hc.2]
      · rw [if_neg hc]
    rw [hs]
  rw [this]
  exact ⟨rfl, rfl⟩

/-- Objects standing at the same time with the same states read alike. -/
theorem readsAs {μ : Nat → Nat} {r r₁ : Nat} {o o₁ : Obj n} (h : PartOf μ r r₁ o o₁) (ho : AllPrepared o) (ho₁ : AllPrepared o₁) (ht : o₁.t = o.t)
    (hst : ∀ e, e < o₁.ne → o₁.state e r₁ = o.state (μ e) r) : ReadsAs μ r r₁ o o₁ := by
  intro e f he
  obtain ⟨a1, a2⟩ := eval_atTime o₁ e r₁ f
  obtain ⟨b1, b2⟩ := eval_atTime o (μ e) r f
  rw [a1, a2, b1, b2, ht, hst e he]
  exact readsAs_state h ho ho₁ he o.t f

/-- Reading the only node as such or by its number is the same while the projectors have not been rotated. -/
theorem single_reading {o : Obj n} {f : Fin n} (he : o.ienergy = true) (hne : o.ne = 1) (ht : o.t = o.tini) (hp : o.evolB1 0 f 0 = o.b1 0 f) :
    evalFlavor1 o f = evalFlavorAtNode o f 0 0 := by
  unfold evalFlavor1 evalFlavorAtNode expectation
  rw [if_neg (show ¬o.ienergy = false by rw [he]; simp), if_neg (show ¬o.ne ≠ 1 by rw [hne]; simp), if_neg (show ¬o.ienergy = false by rw [he]; simp),
    if_neg (show ¬((0 : Nat) ≠ 0 ∧ o.nt ≠ .both) by simp), ht, sub_self, evolve_zero_time, hp, dot_comm]
  by_cases hb : o.basis = .mass
  · rw [if_pos hb, if_pos hb]
  · rw [if_neg hb, if_neg hb, ite_self]

/-! ## C115 -/

/-- C115: from the same states the part and the whole evolve alike, through any medium, with interactions or without, and are read alike at all
times. Missing: sources with interactions and without oscillations, which are added once for each type (`SameOptions.once`,
`c115_sources_violated`). -/
theorem c115_evolution_partial (μ : Nat → Nat) (r r₁ : Nat) (s s₁ : Setting n) (hn : 3 ≤ n) (o o₁ : Obj n) (h : PartOf μ r r₁ o o₁)
    (hs : SameOptions μ r r₁ s s₁ o o₁) (hm : SameMedium μ r r₁ s s₁ o₁) (ho : AllPrepared o) (ho₁ : AllPrepared o₁)
    (htau : s.tab.tau = true → o.nt = .both) (a b : ℝ) (hsane : Sane s₁ o₁ a b) (ρ σ : ℝ → Nat → Nat → Mat n) (hρ : Evolves s hn o ρ a b)
    (hσ : Evolves s₁ hn o₁ σ a b) (start : ∀ e, e < o₁.ne → σ a e r₁ = ρ a (μ e) r) (t : ℝ) (ht : t ∈ Icc a b) (e : Nat) (he : e < o₁.ne) (f : Fin n) :
    σ t e r₁ = ρ t (μ e) r ∧
    evalFlavorAtNode (atTime o₁ e r₁ t (σ t e r₁)) f e r₁ = evalFlavorAtNode (atTime o (μ e) r t (ρ t (μ e) r)) f (μ e) r ∧
    evalMassAtNode (atTime o₁ e r₁ t (σ t e r₁)) f e r₁ = evalMassAtNode (atTime o (μ e) r t (ρ t (μ e) r)) f (μ e) r := by
  have hk := h.evolves hs hm ho ho₁ htau hsane.tau hρ hσ
  have heq : σ t e r₁ = ρ t (μ e) r := by
    have := c98_determined s₁ hn o₁ ho₁ _ _ a b hsane hσ hk 0 (fun e q _ he hq => by
      by_cases h1 : q = r₁
      · rw [if_pos h1, h1, start e he]
      · rw [if_neg h1]) t ht e r₁ (Nat.zero_le _) he h.type₁
    rw [this]
    exact if_pos rfl
  rw [heq]
  exact ⟨rfl, readsAs_state h ho ho₁ he t f⟩

/-- C115: setting a state makes the part and the whole ready to evolve, standing at the same time, with the same states, if the values given for
them are the same. -/
theorem c115_fill (μ : Nat → Nat) (r r₁ : Nat) (o o₁ : Obj n) (h : Counterpart μ r r₁ o o₁) (ho : Ready o) (ho₁ : Ready o₁)
    (he : o.ienergy = true) (he₁ : o₁.ienergy = true) (hd : o₁.differences = o.differences) (hx : o₁.trackStart = o.trackStart)
    (v v₁ : Nat → Nat → Fin n → ℝ) (hv : ∀ e f, e < o₁.ne → v₁ e r₁ f = v (μ e) r f) (b : Basis) :
    PartOf μ r r₁ (fill o v b) (fill o₁ v₁ b) ∧ AllPrepared (fill o v b) ∧ AllPrepared (fill o₁ v₁ b) ∧ (fill o₁ v₁ b).t = (fill o v b).t ∧
      (∀ e, e < (fill o₁ v₁ b).ne → (fill o₁ v₁ b).state e r₁ = (fill o v b).state (μ e) r) ∧ ReadsAs μ r r₁ (fill o v b) (fill o₁ v₁ b) := by
  have fields : ∀ (p : Obj n) (w : Nat → Nat → Fin n → ℝ), p.ienergy = true → (fill p w b).ne = p.ne ∧ (fill p w b).nrhos = p.nrhos ∧ (fill p w b).nt = p.nt ∧
      (fill p w b).energies = p.energies ∧ (fill p w b).mixing = p.mixing ∧ (fill p w b).ioscillations = p.ioscillations ∧ (fill p w b).basis = p.basis ∧
      (fill p w b).tini = p.trackStart ∧ (fill p w b).t = p.trackStart ∧
      (fill p w b).dm2 = (List.finRange n).foldl (fun s i => if 1 ≤ i.val then s + p.differences i • p.b0 i else s) 0 := by
    intro p w hp
    unfold fill iniH0 setIniFlavorProjectors
    simp only [hp, if_true, and_self]
  obtain ⟨f1, f2, f3, f4, f5, f6, f7, f8, f9, f10⟩ := fields o v he
  obtain ⟨g1, g2, g3, g4, g5, g6, g7, g8, g9, g10⟩ := fields o₁ v₁ he₁
  have hb : o₁.b0 = o.b0 := funext fun f => by rw [ho.b0, ho₁.b0]
  have hp : PartOf μ r r₁ (fill o v b) (fill o₁ v₁ b) := by
    refine ⟨⟨?_, ?_, ?_, ?_, ?_, ?_, ?_, ?_⟩, ?_, ?_⟩
    · rw [f1, g1]; exact h.node
    · rw [f2]; exact h.type
    · rw [g2]; exact h.type₁
    · unfold Obj.Anti; rw [f3, g3]; exact h.kind
    · rw [g1, g4, f4]; exact h.energy
    · rw [g5, f5]; exact h.mixing
    · rw [g6, f6]; exact h.osc
    · rw [g7, f7]; exact h.basis
    · rw [f10, g10, hd, hb]
    · rw [g8, f8, hx]
  have hA : AllPrepared (fill o v b) := fun e q h1 h2 => c97_prepared o ho he v b e q (by rwa [f1] at h1) (by rwa [f2] at h2)
  have hA₁ : AllPrepared (fill o₁ v₁ b) := fun e q h1 h2 => c97_prepared o₁ ho₁ he₁ v₁ b e q (by rwa [g1] at h1) (by rwa [g2] at h2)
  have hst : ∀ e, e < (fill o₁ v₁ b).ne → (fill o₁ v₁ b).state e r₁ = (fill o v b).state (μ e) r := by
    intro e h1
    rw [g1] at h1
    have hm := h.node e h1
    unfold fill iniH0 setIniFlavorProjectors
    simp only [he, he₁, if_true]
    rw [if_pos ⟨h1, h.type₁⟩, if_pos ⟨hm, h.type⟩]
    cases b
    · simp only [hv e _ h1, hb]
    · rfl
    · simp only [hv e _ h1, hb, h.type, h.type₁, if_true, h.mixing]
  have ht : (fill o₁ v₁ b).t = (fill o v b).t := by rw [g9, f9, hx]
  exact ⟨hp, hA, hA₁, ht, hst, readsAs hp hA hA₁ ht hst⟩

/-- C115: where an object for both types takes an array of states, an object for one of them takes the part of the array for that type. -/
theorem c115_set (r : Nat) (o o₁ : Obj n) (h : Counterpart id r 0 o o₁) (hne : o₁.ne = o.ne) (hnt : o₁.nt ≠ .both) (ho : Ready o) (ho₁ : Ready o₁)
    (hset : o₁.itrack = true ∧ o₁.ibody = true ∧ o₁.ienergy = true) (hd : o₁.differences = o.differences) (hx : o₁.trackStart = o.trackStart)
    (len0 len1 len2 : Nat) (v : Nat → Nat → Fin n → ℝ) (b : Basis) (p : Obj n) (hp : setInitial3 o len0 len1 len2 v b = .ok p) :
    ∃ p₁, setInitial2 o₁ len0 len2 (fun e f => v e r f) b = .ok p₁ ∧ PartOf id r 0 p p₁ ∧ AllPrepared p ∧ AllPrepared p₁ ∧ p₁.t = p.t ∧
      (∀ e, e < p₁.ne → p₁.state e 0 = p.state e r) ∧ ReadsAs id r 0 p p₁ := by
  unfold setInitial3 at hp
  by_cases hc : len0 * len1 * len2 ≠ 0 ∧ len0 = o.ne ∧ len1 = o.nrhos ∧ len2 = n ∧ o.nt = .both ∧ checked o b = true
  · rw [if_pos hc] at hp
    obtain ⟨c1, c2, c3, c4, c5, c6⟩ := hc
    have hp := Outcome.ok.inj hp
    subst hp
    have hch : checked o₁ b = true := by
      unfold checked at c6 ⊢
      rw [hset.1, hset.2.1, hset.2.2]
      simp only [Bool.and_eq_true] at c6
      simp [c6.1.1.1]
    have hz : len0 * len2 ≠ 0 := by
      intro h0
      apply c1
      rcases Nat.mul_eq_zero.1 h0 with h | h <;> simp [h]
    have he : o.ienergy = true := by
      unfold checked at c6
      simp only [Bool.and_eq_true] at c6
      exact c6.2
    refine ⟨fill o₁ (fun e _ f => v e r f) b, ?_, ?_⟩
    · unfold setInitial2
      rw [if_pos ⟨hz, by rw [hne]; exact c2, c4, hnt, hch⟩]
    · exact c115_fill id r 0 o o₁ h ho ho₁ he hset.2.2 hd hx v (fun e _ f => v e r f) (fun _ _ _ => rfl) b
  · rw [if_neg hc] at hp
    exact absurd hp (by simp)

/-- C115: where an object for one type takes an array of states for many energies, an object for one of these energies takes one row. -/
theorem c115_set_node (k : Nat) (o o₁ : Obj n) (h : Counterpart (fun _ => k) 0 0 o o₁) (hne : o₁.ne = 1) (hnt : o₁.nt ≠ .both) (ho : Ready o) (ho₁ : Ready o₁)
    (hset : o₁.itrack = true ∧ o₁.ibody = true ∧ o₁.ienergy = true) (hd : o₁.differences = o.differences) (hx : o₁.trackStart = o.trackStart)
    (len0 len1 : Nat) (v : Nat → Fin n → ℝ) (b : Basis) (p : Obj n) (hp : setInitial2 o len0 len1 v b = .ok p) :
    ∃ p₁, setInitial1 o₁ len1 (v k) b = .ok p₁ ∧ PartOf (fun _ => k) 0 0 p p₁ ∧ AllPrepared p ∧ AllPrepared p₁ ∧ p₁.t = p.t ∧
      p₁.state 0 0 = p.state k 0 ∧ ∀ f, evalFlavor1 p₁ f = evalFlavorAtNode p f k 0 := by
  unfold setInitial2 at hp
  by_cases hc : len0 * len1 ≠ 0 ∧ len0 = o.ne ∧ len1 = n ∧ o.nt ≠ .both ∧ checked o b = true
  · rw [if_pos hc] at hp
    obtain ⟨c1, c2, c3, c4, c5⟩ := hc
    have hp := Outcome.ok.inj hp
    subst hp
    have hch : checked o₁ b = true := by
      unfold checked at c5 ⊢
      rw [hset.1, hset.2.1, hset.2.2]
      simp only [Bool.and_eq_true] at c5
      simp [c5.1.1.1]
    have he : o.ienergy = true := by
      unfold checked at c5
      simp only [Bool.and_eq_true] at c5
      exact c5.2
    have hl : len1 ≠ 0 := fun h0 => c1 (by rw [h0, Nat.mul_zero])
    obtain ⟨k1, k2, k3, k4, k5, k6⟩ := c115_fill (fun _ => k) 0 0 o o₁ h ho ho₁ he hset.2.2 hd hx (fun i _ j => v i j) (fun _ _ j => v k j) (fun _ _ _ => rfl) b
    have hone : (fill o₁ (fun _ _ j => v k j) b).ne = 1 := by
      unfold fill iniH0 setIniFlavorProjectors
      simp only [hset.2.2, if_true]
      exact hne
    refine ⟨fill o₁ (fun _ _ j => v k j) b, ?_, k1, k2, k3, k4, k5 0 (by omega), fun f => ?_⟩
    · unfold setInitial1
      rw [if_pos ⟨hl, c3, hnt, hne, hch⟩]
    · refine (single_reading (k3 0 0 (by omega) k1.type₁).good.ienergy hone ?_ ?_).trans (k6 0 f (by omega)).1
      · unfold fill iniH0 setIniFlavorProjectors
        simp only [hset.2.2, if_true]
      · unfold fill iniH0 setIniFlavorProjectors
        have h1 : 0 < o₁.nrhos := h.type₁
        have h2 : 0 < o₁.ne := by omega
        simp only [hset.2.2, if_true, h1, h2, and_self]
  · rw [if_neg hc] at hp
    exact absurd hp (by simp)

/-- C115: the projectors that initialisation stores for a type of one object are those stored for a type of the same kind of another with the same
angles and phases. -/
theorem c115_projectors (pairs : List (Fin n × Fin n)) (nt nt₁ : NT) (r r₁ nrhos nrhos₁ ne ne₁ : Nat) (hr : r < nrhos) (hr₁ : r₁ < nrhos₁)
    (hp : ∀ ij ∈ pairs, ij.1 < ij.2) (kind : IsAnti nt₁ r₁ ↔ IsAnti nt r) (s s₁ : Projectors n) (hb : ∀ f, s.b0 f = projector f)
    (hb₁ : ∀ f, s₁.b0 f = projector f) (hpar : s₁.params = s.params) (f : Fin n) :
    (setIniLoops pairs nt₁ nrhos₁ ne₁ s₁).b1 r₁ f = (setIniLoops pairs nt nrhos ne s).b1 r f ∧
    ∀ e e₁, e < ne → e₁ < ne₁ → (setIniLoops pairs nt₁ nrhos₁ ne₁ s₁).evolB1 r₁ f e₁ = (setIniLoops pairs nt nrhos ne s).evolB1 r f e := by
  obtain ⟨_, _, h⟩ := c76_projectors pairs hp nt nrhos ne s hb
  obtain ⟨_, _, h₁⟩ := c76_projectors pairs hp nt₁ nrhos₁ ne₁ s₁ hb₁
  by_cases ha : IsAnti nt r
  · obtain ⟨a1, a2⟩ := (h r f).2.1 hr ha
    obtain ⟨b1, b2⟩ := (h₁ r₁ f).2.1 hr₁ (kind.2 ha)
    exact ⟨by rw [a1, b1, hpar], fun e e₁ he he₁ => by rw [a2 e he, b2 e₁ he₁, hpar]⟩
  · obtain ⟨a1, a2⟩ := (h r f).1 hr ha
    obtain ⟨b1, b2⟩ := (h₁ r₁ f).1 hr₁ (fun hh => ha (kind.1 hh))
    exact ⟨by rw [a1, b1, hpar], fun e e₁ he he₁ => by rw [a2 e he, b2 e₁ he₁, hpar]⟩

/-- What the part and the whole share before and after each leg. -/
structure Together (μ : Nat → Nat) (r r₁ : Nat) (s s₁ : Setting n) (T T₁ : Traveller n) : Prop where
  part : PartOf μ r r₁ T.o T₁.o
  options : SameOptions μ r r₁ s s₁ T.o T₁.o
  clock : T₁.o.t = T.o.t
  state : ∀ e, e < T₁.o.ne → T₁.o.state e r₁ = T.o.state (μ e) r

theorem Together.leg {μ : Nat → Nat} {r r₁ : Nat} {s s₁ : Setting n} {hn : 3 ≤ n} {T T₁ U U₁ : Traveller n} {l l₁ : Leg} {ls ls₁ : List Leg}
    (h : Together μ r r₁ s s₁ T T₁) (hl : LegAs μ r r₁ T₁.o.ne n l l₁) (hg : Going s T (l :: ls)) (hg₁ : Going s₁ T₁ (l₁ :: ls₁))
    (k : EvolveState s hn l (enter l T) U) (k₁ : EvolveState s₁ hn l₁ (enter l₁ T₁) U₁) : Together μ r r₁ s s₁ U U₁ ∧ U₁.o.ne = T₁.o.ne := by
  obtain ⟨ho, ht, ha, hp⟩ := hg.entered
  obtain ⟨ho₁, ht₁, ha₁, hp₁⟩ := hg₁.entered
  obtain ⟨ρ, hev, hst, hs1, hclk, _, _, _⟩ := k.follows hp ho ht.sane.tau ha.hermitian
  obtain ⟨σ, kev, kst, ks1, kclk, _, _, _⟩ := k₁.follows hp₁ ho₁ ht₁.sane.tau ha₁.hermitian
  have hpart : PartOf μ r r₁ (enter l T).o (enter l₁ T₁).o := h.part.same (same_enter l T) (same_enter l₁ T₁)
  have hopt : SameOptions μ r r₁ s s₁ (enter l T).o (enter l₁ T₁).o := h.options.same (same_enter l T) (same_enter l₁ T₁)
  have hlen : l₁.length = l.length := by unfold Leg.length; rw [hl.xini, hl.xend]
  have hoff : (enter l₁ T₁).offset = (enter l T).offset := by
    show T₁.o.t - l₁.xini = T.o.t - l.xini
    rw [h.clock, hl.xini]
  have hck : (enter l₁ T₁).o.t = (enter l T).o.t := h.clock
  have hst0 : ∀ e, e < (enter l₁ T₁).o.ne → (enter l₁ T₁).o.state e r₁ = (enter l T).o.state (μ e) r := h.state
  obtain ⟨hlay, hsane⟩ := ht₁.times hp₁.start
  rw [hoff] at kev hlay hsane
  rw [hck, hlen] at kev kst kclk hlay hsane
  have hmed : SameMedium μ r r₁ (s.along l.med (enter l T).offset) (s₁.along l₁.med (enter l T).offset) (enter l₁ T₁).o :=
    ⟨by unfold Setting.along; dsimp only; rw [hl.dens], by unfold Setting.along; dsimp only; rw [hl.ye], fun t e f he hf => hl.ext _ e f he hf⟩
  have hopt' : SameOptions μ r r₁ (s.along l.med (enter l T).offset) (s₁.along l₁.med (enter l T).offset) (enter l T).o (enter l₁ T₁).o :=
    ⟨hopt.iint, hopt.coupling, hopt.sources, hopt.once, hopt.whole, hopt.tables⟩
  have hk := hpart.evolves hopt' hmed ho ho₁ ht.sane.tau ht₁.sane.tau hev kev
  generalize (enter l T).o.t = t₀ at *
  have hstart : ∀ e q, e < (enter l₁ T₁).o.ne → q < (enter l₁ T₁).o.nrhos → σ t₀ e q = if q = r₁ then ρ t₀ (μ e) r else σ t₀ e q := by
    intro e q he hq
    by_cases h1 : q = r₁
    · rw [if_pos h1, h1, (kst e r₁ he hpart.type₁).1, (hst (μ e) r (hpart.node e he) hpart.type).1, hst0 e he]
    · rw [if_neg h1]
  have hend : ∀ e, e < (enter l₁ T₁).o.ne → σ (t₀ + l.length) e r₁ = ρ (t₀ + l.length) (μ e) r := by
    intro e he
    have : σ (t₀ + l.length) e r₁ = if r₁ = r₁ then ρ (t₀ + l.length) (μ e) r else σ (t₀ + l.length) e r₁ := by
      by_cases hdir : 0 ≤ l.length
      · rw [min_eq_left (by linarith), max_eq_right (by linarith)] at *
        exact c98_determined _ hn _ ho₁ σ _ _ _ hsane kev hk 0 (fun e q _ he hq => hstart e q he hq) _ ⟨by linarith, le_refl _⟩ e r₁ (Nat.zero_le _) he hpart.type₁
      · rw [min_eq_right (by linarith), max_eq_left (by linarith)] at *
        obtain ⟨B, hB⟩ := hlay.bounded_all hsane
        exact Evolves.determined_back ho₁ hsane.tau kev hk B hB hstart _ ⟨le_refl _, by linarith⟩ e r₁ he hpart.type₁
    rwa [if_pos rfl] at this
  refine ⟨⟨hpart.same hs1 ks1, hopt.same hs1 ks1, by rw [kclk, hclk], fun e he => ?_⟩, ks1.ne⟩
  rw [ks1.ne] at he
  rw [(kst e r₁ he hpart.type₁).2, (hst (μ e) r (hpart.node e he) hpart.type).2, hend e he]

/-- C115: along any tracks, forwards or backwards, whether the shortcut for constant density is taken by both, one or none, the part is read as
the whole. Missing: as above. -/
theorem c115_journey_partial (μ : Nat → Nat) (r r₁ : Nat) (s s₁ : Setting n) (hn : 3 ≤ n) (ls ls₁ : List Leg) :
    ∀ T T₁ U U₁ : Traveller n, PartOf μ r r₁ T.o T₁.o → SameOptions μ r r₁ s s₁ T.o T₁.o → T₁.o.t = T.o.t →
      (∀ e, e < T₁.o.ne → T₁.o.state e r₁ = T.o.state (μ e) r) → List.Forall₂ (LegAs μ r r₁ T₁.o.ne n) ls ls₁ → Going s T ls → Going s₁ T₁ ls₁ →
      Journey s hn ls T U → Journey s₁ hn ls₁ T₁ U₁ → U₁.o.t = U.o.t ∧ ReadsAs μ r r₁ U.o U₁.o := by
  have key : ∀ (ls ls₁ : List Leg) (T T₁ U U₁ : Traveller n), Together μ r r₁ s s₁ T T₁ → List.Forall₂ (LegAs μ r r₁ T₁.o.ne n) ls ls₁ → Going s T ls →
      Going s₁ T₁ ls₁ → Journey s hn ls T U → Journey s₁ hn ls₁ T₁ U₁ → U₁.o.t = U.o.t ∧ ReadsAs μ r r₁ U.o U₁.o := by
    intro ls
    induction ls with
    | nil =>
      rintro ls₁ T T₁ U U₁ h hl hg hg₁ k k₁
      cases hl
      rw [show U = T from k, show U₁ = T₁ from k₁]
      exact ⟨h.clock, readsAs h.part hg.prepared hg₁.prepared h.clock h.state⟩
    | cons l ls ih =>
      rintro ls₁ T T₁ U U₁ h hl hg hg₁ k k₁
      cases hl with
      | @cons _ l₁ _ ls₁ h1 h2 =>
        obtain ⟨V, a1, a2⟩ := k
        obtain ⟨V₁, b1, b2⟩ := k₁
        obtain ⟨h3, h4⟩ := h.leg h1 hg hg₁ a1 b1
        exact ih ls₁ V V₁ U U₁ h3 (by rw [h4]; exact h2) (hg.step a1) (hg₁.step b1) a2 b2
  exact fun T T₁ U U₁ h1 h2 h3 h4 h5 h6 h7 k k₁ => key ls ls₁ T T₁ U U₁ ⟨h1, h2, h3, h4⟩ h5 h6 h7 k k₁

/-! ## Examples -/

/-- The objects of the examples before their states are set: both types with two nodes, and antineutrinos only with the same nodes or with one. -/
noncomputable def pair : Obj 3 := { demo .interaction with trackStart := 0 }
noncomputable def bar : Obj 3 := { demo .interaction with nt := .antineutrino, nrhos := 1, trackStart := 0 }
noncomputable def lone : Obj 3 := { demo .interaction with nt := .antineutrino, nrhos := 1, ne := 1, trackStart := 0 }

theorem pair_ready : Ready pair := ⟨(demo_ready .interaction).b0, (demo_ready .interaction).mixing, rfl⟩
theorem bar_ready : Ready bar := ⟨(demo_ready .interaction).b0, (demo_ready .interaction).mixing, rfl⟩
theorem lone_ready : Ready lone := ⟨(demo_ready .interaction).b0, (demo_ready .interaction).mixing, rfl⟩

theorem pair_bar : Counterpart id 1 0 pair bar :=
  ⟨fun _ h => h, by show 1 < 2; omega, by show 0 < 1; omega, by show IsAnti .antineutrino 0 ↔ IsAnti .both 1; simp [IsAnti], fun _ _ => rfl, rfl, rfl, rfl⟩

theorem bar_lone : Counterpart (fun _ => 1) 0 0 bar lone :=
  ⟨fun _ _ => by show 1 < 2; omega, by show 0 < 1; omega, by show 0 < 1; omega, Iff.rfl, fun _ _ => rfl, rfl, rfl, rfl⟩

/-- `fill` for the second type and for the upper node of both types. -/
example (v : Nat → Nat → Fin 3 → ℝ) : ReadsAs id 1 0 (fill pair v .flavor) (fill bar (fun e _ f => v e 1 f) .flavor) ∧
    ReadsAs (fun _ => 1) 0 0 (fill bar v .flavor) (fill lone (fun _ _ f => v 1 0 f) .flavor) :=
  ⟨(c115_fill id 1 0 pair bar pair_bar pair_ready bar_ready rfl rfl rfl rfl v _ (fun _ _ _ => rfl) .flavor).2.2.2.2.2,
    (c115_fill (fun _ => 1) 0 0 bar lone bar_lone bar_ready lone_ready rfl rfl rfl rfl v _ (fun _ _ _ => rfl) .flavor).2.2.2.2.2⟩

example (v : Nat → Nat → Fin 3 → ℝ) : ∃ p p₁, setInitial3 pair 2 2 3 v .flavor = .ok p ∧ setInitial2 bar 2 3 (fun e f => v e 1 f) .flavor = .ok p₁ ∧ ReadsAs id 1 0 p p₁ := by
  have h : setInitial3 pair 2 2 3 v .flavor = .ok (fill pair v .flavor) := if_pos ⟨by decide, rfl, rfl, rfl, rfl, rfl⟩
  obtain ⟨p₁, h1, _, _, _, _, _, h2⟩ := c115_set 1 pair bar pair_bar rfl (by show NT.antineutrino ≠ NT.both; decide) pair_ready bar_ready ⟨rfl, rfl, rfl⟩ rfl rfl
    2 2 3 v .flavor _ h
  exact ⟨_, p₁, h, h1, h2⟩

example (v : Nat → Fin 3 → ℝ) : ∃ p p₁, setInitial2 bar 2 3 v .mass = .ok p ∧ setInitial1 lone 3 (v 1) .mass = .ok p₁ ∧
    ∀ f, evalFlavor1 p₁ f = evalFlavorAtNode p f 1 0 := by
  have h : setInitial2 bar 2 3 v .mass = .ok (fill bar (fun i _ j => v i j) .mass) := if_pos ⟨by decide, rfl, rfl, by show NT.antineutrino ≠ NT.both; decide, rfl⟩
  obtain ⟨p₁, h1, _, _, _, _, _, h2⟩ := c115_set_node 1 bar lone bar_lone rfl (by show NT.antineutrino ≠ NT.both; decide) bar_ready lone_ready ⟨rfl, rfl, rfl⟩ rfl rfl
    2 3 v .mass _ h
  exact ⟨_, p₁, h, h1, h2⟩

/-- Three flavours with a phase: the second type of an object for both and the only type of one for antineutrinos. -/
example (s : Projectors 3) (hb : ∀ f, s.b0 f = projector f) : (setIniLoops [(0, 1), (0, 2), (1, 2)] .antineutrino 1 1 s).b1 0 0 =
    (setIniLoops [(0, 1), (0, 2), (1, 2)] .both 2 5 s).b1 1 0 :=
  (c115_projectors [(0, 1), (0, 2), (1, 2)] .both .antineutrino 1 0 2 1 5 1 (by omega) (by omega) (by decide) (by simp [IsAnti]) s s hb hb rfl 0).1

/-- As `walker`, for antineutrinos only. -/
noncomputable def walkerBar : Traveller 3 := ⟨fill bar (fun e _ _ => if e = 0 then 0 else 1) .flavor, 0, true, true⟩

theorem walker_together : PartOf id 1 0 walker.o walkerBar.o ∧ AllPrepared walkerBar.o ∧ walkerBar.o.t = walker.o.t ∧
    ∀ e, e < walkerBar.o.ne → walkerBar.o.state e 0 = walker.o.state e 1 := by
  obtain ⟨h1, _, h2, h3, h4, _⟩ := c115_fill id 1 0 pair bar pair_bar pair_ready bar_ready rfl rfl rfl rfl (fun e _ _ => if e = 0 then 0 else 1)
    (fun e _ _ => if e = 0 then 0 else 1) (fun _ _ _ => rfl) .flavor
  exact ⟨h1, h2, h3, h4⟩

theorem cascade_options : SameOptions id 1 0 cascade cascade walker.o walkerBar.o :=
  ⟨rfl, rfl, rfl, fun h => absurd h (by simp [cascade]), fun _ => ⟨rfl, fun _ _ => rfl⟩, fun _ =>
    ⟨rfl, rfl, rfl, rfl, fun _ _ => rfl, fun _ _ _ _ _ => rfl, fun _ _ _ _ _ => rfl, fun _ _ _ _ _ _ _ => rfl, fun _ =>
      ⟨rfl, fun _ _ => rfl, fun _ _ _ _ => rfl⟩⟩⟩

/-- With interactions: whatever `walkerBar` becomes is what is known of the second type of `walker`. -/
example (σ : ℝ → Nat → Nat → Mat 3) (h : Evolves cascade (le_refl 3) walkerBar.o σ 0 2) (h0 : ∀ e, e < 2 → σ 0 e 0 = fed 0 e 1) :
    σ 2 0 0 = fed 2 0 1 := by
  obtain ⟨k1, k2, _, _⟩ := walker_together
  exact (c115_evolution_partial id 1 0 cascade cascade (le_refl 3) walker.o walkerBar.o k1 cascade_options ⟨rfl, rfl, fun _ _ _ _ _ => rfl⟩ walker_prepared k2
    (fun h => absurd h (by simp [cascade])) 0 2 (cascade_sane _ _ _) fed σ (fed_evolves _ walker_prepared rfl 0 2) h h0 2 ⟨by norm_num, le_refl _⟩ 0
    (by show 0 < 2; omega) 0).1

/-- There and half of the way back. -/
example : ∃ U U₁, Journey cascade (le_refl 3) [stretch 0 3, stretch 3 1] walker U ∧ Journey cascade (le_refl 3) [stretch 0 3, stretch 3 1] walkerBar U₁ ∧
    ReadsAs id 1 0 U.o U₁.o := by
  obtain ⟨k1, k2, k3, k4⟩ := walker_together
  have going : ∀ T : Traveller 3, AllPrepared T.o → T.o.istate = true ∧ T.o.ienergy = true → (∀ e r, e < T.o.ne → r < T.o.nrhos → (T.o.state e r).IsHermitian) →
      T.numerics = true → Going cascade T [stretch 0 3, stretch 3 1] := by
    intro T h1 h2 h3 h4
    refine ⟨h1, h2, fun l hl => ?_, .inr ⟨h3, by simp [cascade]⟩, .inl fun l hl h => absurd h.2.1 (by simp [cascade]), .inl h4⟩
    simp only [List.mem_cons, List.not_mem_nil, or_false] at hl
    rcases hl with rfl | rfl
    · exact c105_constant cascade (stretch 0 3) 1 (1 / 2) (fun _ _ _ => 0) rfl T.o (cascade_sane _ _ _)
    · exact c105_constant cascade (stretch 3 1) 1 (1 / 2) (fun _ _ _ => 0) rfl T.o (cascade_sane _ _ _)
  have g1 := going walker walker_prepared ⟨rfl, rfl⟩ walker_hermitian rfl
  have g2 := going walkerBar k2 ⟨rfl, rfl⟩ (fun e r he hr => by
    have hr : r < 1 := hr
    have : r = 0 := by omega
    rw [this, k4 e he]
    exact walker_hermitian e 1 he (by show 1 < 2; omega)) rfl
  obtain ⟨U, hU⟩ := g1.exists (le_refl 3)
  obtain ⟨U₁, hU₁⟩ := g2.exists (le_refl 3)
  refine ⟨U, U₁, hU, hU₁, (c115_journey_partial id 1 0 cascade cascade (le_refl 3) _ _ walker walkerBar U U₁ k1 cascade_options k3 k4 ?_ g1 g2 hU hU₁).2⟩
  exact .cons ⟨rfl, rfl, rfl, rfl, fun _ _ _ _ _ => rfl⟩ (.cons ⟨rfl, rfl, rfl, rfl, fun _ _ _ _ _ => rfl⟩ .nil)

/-! ## Where C115 fails -/

/-- With sources and interactions and without oscillations: an object for neutrinos only gains one per unit length, one for both types two, from
the same source. -/
theorem c115_sources_violated (basis : Basis) :
    let o := emptyDemo basis
    let o₁ : Obj 3 := fill { demo basis with ioscillations := false, nt := .neutrino, nrhos := 1 } (fun _ _ _ => 0) .flavor
    let s := inert true fun _ _ _ f => if f = 1 then 1 else 0
    PartOf id 0 0 o o₁ ∧ AllPrepared o ∧ AllPrepared o₁ ∧ SameTables 0 0 o.ne (o.Anti 0) s.tab s.tab ∧ o₁.t = o.t ∧
      ∃ ρ σ, Evolves s (le_refl 3) o ρ 0 5 ∧ Evolves s (le_refl 3) o₁ σ 0 5 ∧ (∀ e, e < o.ne → σ 0 e 0 = ρ 0 e 0) ∧
        (∀ t, evalFlavorAtNode (atTime o 0 0 t (ρ t 0 0)) 1 0 0 = .ok (2 * t)) ∧ ∀ t, evalFlavorAtNode (atTime o₁ 0 0 t (σ t 0 0)) 1 0 0 = .ok t := by
  intro o o₁ s
  have hc : Counterpart id 0 0 { demo basis with ioscillations := false } { demo basis with ioscillations := false, nt := .neutrino, nrhos := 1 } :=
    ⟨fun _ h => h, by show 0 < 2; omega, by show 0 < 1; omega, by show IsAnti .neutrino 0 ↔ IsAnti .both 0; simp [IsAnti], fun _ _ => rfl, rfl, rfl, rfl⟩
  obtain ⟨h1, h2, h3, h4, _, _⟩ := c115_fill id 0 0 _ _ hc ⟨(demo_ready basis).b0, (demo_ready basis).mixing, rfl⟩
    ⟨(demo_ready basis).b0, (demo_ready basis).mixing, rfl⟩ rfl rfl rfl rfl (fun _ _ _ => 0) (fun _ _ _ => 0) (fun _ _ _ => rfl) .flavor
  have h1 : PartOf id 0 0 o o₁ := h1
  have h2 : AllPrepared o := h2
  have h3 : AllPrepared o₁ := h3
  have hev : ∀ (p : Obj 3) (hp : AllPrepared p) (_ : p.ioscillations = false) (k : ℝ), s.copies p = k →
      Evolves s (le_refl 3) p (fun t e r => (k * t) • p.evolB1 r 1 e) 0 5 := by
    intro p hp hosc k hk
    refine fed_by_source s p hp hosc 1 (fun _ => k) (fun t => k * t) 0 5 (fun t st e r _ _ => inert_gamma _ _ _ _ _ _ _) (fun t st e r he hr => ?_)
      fun t => by simpa using (hasDerivAt_id t).const_mul k
    have := inert_gain true (fun _ _ _ f => if f = 1 then 1 else 0) p hp hosc 1 (fun _ => 1) (fun t e r f _ _ _ => rfl) t st e r he hr
    rw [this, show (inert true fun _ _ _ f => if f = 1 then 1 else 0).copies p = k from hk, mul_one]
  have hr : ∀ t, evalFlavorAtNode (atTime o 0 0 t ((2 * t) • o.evolB1 0 1 0)) 1 0 0 = .ok (2 * t) := fun t => by
    have := emptyDemo_reading basis 1 (2 * t) t 0 0 (by norm_num) (by norm_num) 1
    rwa [if_pos rfl] at this
  have hb : o₁.evolB1 0 1 0 = o.evolB1 0 1 0 := rfl
  refine ⟨h1, h2, h3, ⟨rfl, rfl, rfl, rfl, fun _ _ => rfl, fun _ _ _ _ _ => rfl, fun _ _ _ _ _ => rfl, fun _ _ _ _ _ _ _ => rfl, fun _ =>
    ⟨rfl, fun _ _ => rfl, fun _ _ _ _ => rfl⟩⟩, h4, _, _, hev o h2 rfl 2 (by show ((2 : Nat) : ℝ) = 2; norm_num), hev o₁ h3 rfl 1 (by show ((1 : Nat) : ℝ) = 1; norm_num),
    fun e _ => by simp, hr, fun t => ?_⟩
  have k1 := (readsAs_state h1 h2 h3 (e := 0) (by show 0 < 2; omega) t (A := t • o.evolB1 0 1 0) 1).1
  have k2 := emptyDemo_reading basis 1 t t 0 0 (by norm_num) (by norm_num) 1
  rw [if_pos rfl] at k2
  show evalFlavorAtNode (atTime o₁ 0 0 t ((1 * t) • o₁.evolB1 0 1 0)) 1 0 0 = .ok t
  rw [one_mul, hb]
  exact k1.trans k2

end Verif.Density
