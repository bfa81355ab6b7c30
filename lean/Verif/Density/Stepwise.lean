import Verif.Density.Resume

/-!
# Positivised evolution

The branch of `EvolveState` (nuSQuIDS.cpp 1291-1301) taken with `Set_PositivityConstrain(true)`: the track is evolved in steps, and after each
`PositivizeFlavors` (1211-1223) is called.
-/

namespace Verif.Density

open Matrix
open Matter (NT)
open Update (Net Shape NonNeg)
open scoped ComplexOrder

variable {n : Nat}

/-! ## Model -/

/-- `Evolve(dt)` of the base class, as assumed in `Legs.lean`, in the medium `m`. -/
def EvolveBy (s : Setting n) (hn : 3 ≤ n) (m : Medium) (dt : ℝ) (T T' : Traveller n) : Prop :=
  ∃ τ ∈ Set.uIcc T.o.t (T.o.t + dt),
    if T.numerics = true then
      ∃ (old : ℝ → ℝ) (ρ : ℝ → Nat → Nat → Mat n),
        Evolves { s.along m T.offset with old := old } hn T.o ρ (min T.o.t (T.o.t + dt)) (max T.o.t (T.o.t + dt)) ∧
        (∀ e r, e < T.o.ne → r < T.o.nrhos → ρ T.o.t e r = T.o.state e r) ∧
        T' = { T with
          o := { preDerive T.o τ with
            t := T.o.t + dt
            state := fun e r => if e < T.o.ne ∧ r < T.o.nrhos then ρ (T.o.t + dt) e r else T.o.state e r } }
    else T' = { T with o := { preDerive T.o τ with t := T.o.t + dt } }

/-- `Evolve(dt); PositivizeFlavors();` (1294-1295, 1297-1298). -/
def Round (s : Setting n) (hn : 3 ≤ n) (m : Medium) (dt : ℝ) (T T' : Traveller n) : Prop :=
  ∃ U o', EvolveBy s hn m dt T U ∧ positivize U.o = .ok o' ∧ T' = { U with o := o' }

/-- The loop (1293-1296). -/
def Rounds (s : Setting n) (hn : 3 ≤ n) (m : Medium) (dt : ℝ) : Nat → Traveller n → Traveller n → Prop
  | 0, T, T' => T' = T
  | k + 1, T, T' => ∃ U, Round s hn m dt T U ∧ Rounds s hn m dt k U T'

/-- The conversion of a `double` to an `int`, towards zero; undefined if the result does not fit. -/
noncomputable def toInt (q : ℝ) : Option Int :=
  let k := if 0 ≤ q then ⌊q⌋ else ⌈q⌉
  if -2 ^ 31 ≤ k ∧ k < 2 ^ 31 then some k else none

/-- `EvolveState` (1233-1305) with positivisation of step `scale` where the shortcut is not taken: `positivization_steps` (1292), the loop,
and the last step `GetFinalX() - positivization_scale*positivization_steps` (1297). A step of zero divides by zero. -/
def EvolvePositivised (s : Setting n) (hn : 3 ≤ n) (scale : ℝ) (l : Leg) (T T' : Traveller n) : Prop :=
  T.o.ibody = true ∧ T.o.itrack = true ∧ T.o.istate = true ∧ T.o.ienergy = true ∧ ¬(l.constant = true ∧ s.iint = false ∧ T.allow = true) ∧
  scale ≠ 0 ∧ ∃ k, toInt (l.length / scale) = some k ∧ ∃ U, Rounds s hn l.med scale k.toNat T U ∧ Round s hn l.med (l.xend - scale * k) U T'

/-! ## Lemmas -/

theorem forAll_fix {α β : Type} (l : List α) (f : β → α → Outcome β) (b : β) (h : ∀ a ∈ l, f b a = .ok b) : forAll l f b = .ok b := by
  unfold forAll
  induction l with
  | nil => rfl
  | cons a l ih =>
    rw [List.foldl_cons]
    show List.foldl _ (f b a) l = _
    rw [h a List.mem_cons_self]
    exact ih fun x hx => h x (List.mem_cons_of_mem _ hx)

/-- Without negative contents `PositivizeFlavors` does nothing, whatever projectors are stored. -/
theorem positivize_none (o : Obj n) (h : ∀ e r f, e < o.ne → r < o.nrhos → ∃ c, evalFlavorAtNode o f e r = .ok c ∧ 0 ≤ c) : positivize o = .ok o := by
  refine forAll_fix _ _ _ fun r hr => forAll_fix _ _ _ fun e he => forAll_fix _ _ _ fun f _ => ?_
  obtain ⟨c, h1, h2⟩ := h e r f (List.mem_range.1 he) (List.mem_range.1 hr)
  unfold positivize1
  rw [h1]
  exact if_neg (not_lt.2 h2)

/-- `Evolve(dt)` follows the equation of motion. -/
theorem EvolveBy.follows {s : Setting n} {hn : 3 ≤ n} {m : Medium} {dt : ℝ} {T T' : Traveller n} (h : EvolveBy s hn m dt T T') (hnum : T.numerics = true)
    (hdt : 0 ≤ dt) (ho : AllPrepared T.o) (htau : s.tab.tau = true → T.o.nt = .both) :
    ∃ ρ : ℝ → Nat → Nat → Mat n, Evolves (s.along m T.offset) hn T.o ρ T.o.t (T.o.t + dt) ∧
      (∀ e r, e < T.o.ne → r < T.o.nrhos → ρ T.o.t e r = T.o.state e r ∧ T'.o.state e r = ρ (T.o.t + dt) e r) ∧
      Same T.o T'.o ∧ T'.o.t = T.o.t + dt ∧ T'.offset = T.offset ∧ T'.allow = T.allow ∧ T'.numerics = true := by
  obtain ⟨τ, _, h⟩ := h
  rw [if_pos hnum, min_eq_left (by linarith), max_eq_right (by linarith)] at h
  obtain ⟨old, ρ, hev, hst, h⟩ := h
  refine ⟨ρ, ?_, fun e r he hr => ⟨hst e r he hr, ?_⟩, ?_, by rw [h], by rw [h], by rw [h], by rw [h]; exact hnum⟩
  · exact Evolves.medium (s := { s.along m T.offset with old := old }) ho htau hev rfl rfl rfl Set.finite_empty fun t _ _ => ⟨rfl, rfl, rfl⟩
  · rw [h]
    exact if_pos ⟨he, hr⟩
  · rw [h]
    exact same_derived T.o τ _ _

/-- Such an evolution without negative states is not changed by `PositivizeFlavors`. -/
theorem EvolveBy.positive {s : Setting n} {hn : 3 ≤ n} {m : Medium} {dt : ℝ} {T T' : Traveller n} (h : EvolveBy s hn m dt T T') (hnum : T.numerics = true)
    (hdt : 0 ≤ dt) (ho : AllPrepared T.o) (hs : Sane (s.along m T.offset) T.o T.o.t (T.o.t + dt))
    (hpos : ∀ e r, e < T.o.ne → r < T.o.nrhos → (T.o.state e r).PosSemidef) :
    (∀ e r, e < T'.o.ne → r < T'.o.nrhos → (T'.o.state e r).PosSemidef) ∧ positivize T'.o = .ok T'.o := by
  obtain ⟨ρ, hev, hst, hsame, ht, _⟩ := h.follows hnum hdt ho hs.tau
  have key : ∀ e r, e < T.o.ne → r < T.o.nrhos → (T'.o.state e r).PosSemidef ∧ ∀ f, ∃ c, evalFlavorAtNode T'.o f e r = .ok c ∧ 0 ≤ c := by
    intro e r he hr
    obtain ⟨h1, h2⟩ := c98_positive (s.along m T.offset) hn T.o ho ρ T.o.t (T.o.t + dt) hs hev
      (fun e r he hr => by rw [(hst e r he hr).1]; exact hpos e r he hr) (T.o.t + dt) ⟨by linarith, le_refl _⟩ e r he hr
    have hst' := (hst e r he hr).2
    refine ⟨by rw [hst']; exact h1, fun f => ?_⟩
    have hsa : Same (atTime T.o e r (T.o.t + dt) (ρ (T.o.t + dt) e r)) T'.o := (same_atTime T.o e r _ _).symm.trans hsame
    rw [(hsa.readings (e := e) (r := r) ht (hst'.trans (if_pos ⟨rfl, rfl⟩).symm) f).1]
    exact h2 f
  refine ⟨fun e r he hr => (key e r (by rwa [← hsame.ne]) (by rwa [← hsame.nrhos])).1, positivize_none _ fun e r f he hr => ?_⟩
  exact (key e r (by rwa [← hsame.ne]) (by rwa [← hsame.nrhos])).2 f

/-- Rounds of several lengths. -/
def Chain (s : Setting n) (hn : 3 ≤ n) (m : Medium) : List ℝ → Traveller n → Traveller n → Prop
  | [], T, T' => T' = T
  | dt :: ds, T, T' => ∃ U, Round s hn m dt T U ∧ Chain s hn m ds U T'

theorem chain_rounds (s : Setting n) (hn : 3 ≤ n) (m : Medium) (dt last : ℝ) (k : Nat) : ∀ T T' : Traveller n,
    Chain s hn m (List.replicate k dt ++ [last]) T T' ↔ ∃ U, Rounds s hn m dt k T U ∧ Round s hn m last U T' := by
  induction k with
  | zero =>
    intro T T'
    constructor
    · rintro ⟨U, h, h'⟩
      have h' : T' = U := h'
      subst h'
      exact ⟨T, rfl, h⟩
    · rintro ⟨U, h, h'⟩
      have h : U = T := h
      subst h
      exact ⟨T', h', rfl⟩
  | succ k ih =>
    intro T T'
    constructor
    · rintro ⟨U, h, h'⟩
      obtain ⟨V, h1, h2⟩ := (ih U T').1 h'
      exact ⟨V, ⟨U, h, h1⟩, h2⟩
    · rintro ⟨V, ⟨U, h, h1⟩, h2⟩
      exact ⟨U, h, (ih U T').2 ⟨V, h1, h2⟩⟩

theorem sane_same {s : Setting n} {o o' : Obj n} {a b a' b' : ℝ} (h : Same o o') (ha : a ≤ a') (hb : b' ≤ b) (k : Sane s o a b) : Sane s o' a' b' :=
  ⟨fun t ht => by rw [h.net]; exact k.nonneg t ⟨ha.trans ht.1, ht.2.trans_le hb⟩, fun t ht => k.ext t ⟨ha.trans ht.1, ht.2.trans_le hb⟩, by
    rw [h.nt]; exact k.tau⟩

/-- Rounds of a state that is nowhere negative follow the equation of motion. -/
theorem Chain.follows (s : Setting n) (hn : 3 ≤ n) (m : Medium) (ds : List ℝ) : ∀ T T' : Traveller n, Chain s hn m ds T T' → T.numerics = true →
    (∀ d ∈ ds, 0 ≤ d) → AllPrepared T.o → Sane (s.along m T.offset) T.o T.o.t (T.o.t + ds.sum) →
    (∀ e r, e < T.o.ne → r < T.o.nrhos → (T.o.state e r).PosSemidef) →
    ∃ ρ : ℝ → Nat → Nat → Mat n, Evolves (s.along m T.offset) hn T.o ρ T.o.t (T.o.t + ds.sum) ∧
      (∀ e r, e < T.o.ne → r < T.o.nrhos → ρ T.o.t e r = T.o.state e r ∧ T'.o.state e r = ρ (T.o.t + ds.sum) e r) ∧
      Same T.o T'.o ∧ T'.o.t = T.o.t + ds.sum := by
  induction ds with
  | nil =>
    intro T T' h _ _ ho _ hpos
    have h : T' = T := h
    rw [h, List.sum_nil, add_zero]
    refine ⟨fun _ => T.o.state, .smooth (fun _ _ _ _ _ _ => continuousOn_const) (fun t ht => absurd ht (by simp)) (fun _ _ e r he hr => (hpos e r he hr).1),
      fun _ _ _ _ => ⟨rfl, rfl⟩, Same.refl _, rfl⟩
  | cons d ds ih =>
    rintro T T' ⟨U, ⟨V, o', h1, h2, h3⟩, h4⟩ hnum hd ho hs hpos
    have hd0 := hd d List.mem_cons_self
    have hrest : 0 ≤ ds.sum := List.sum_nonneg fun y hy => hd y (List.mem_cons_of_mem _ hy)
    rw [List.sum_cons] at *
    have hs1 : Sane (s.along m T.offset) T.o T.o.t (T.o.t + d) := sane_same (Same.refl _) (le_refl _) (by linarith) hs
    obtain ⟨ρ, r1, r2, r3, r4, r5, _, r7⟩ := h1.follows hnum hd0 ho hs.tau
    obtain ⟨p1, p2⟩ := h1.positive hnum hd0 ho hs1 hpos
    have hUV : U = V := by
      rw [h3]
      have := Outcome.ok.inj (p2.symm.trans h2)
      rw [← this]
    subst hUV
    obtain ⟨σ, q1, q2, q3, q4⟩ := ih U T' h4 r7 (fun y hy => hd y (List.mem_cons_of_mem _ hy)) (r3.prepared ho)
      (by rw [r4, r5]; exact sane_same r3 (by linarith) (by linarith) hs) p1
    rw [r4, r5, add_assoc] at q1
    rw [r4, add_assoc] at q2 q4
    refine ⟨_, r1.glue (by linarith) (by linarith) (r3.evolves q1) fun e r he hr => ?_, fun e r he hr => ⟨?_, ?_⟩, r3.trans q3, q4⟩
    · rw [(q2 e r (by rwa [r3.ne]) (by rwa [r3.nrhos])).1, (r2 e r he hr).2]
    · rw [if_pos (by linarith)]
      exact (r2 e r he hr).1
    · have hk := q2 e r (by rwa [r3.ne]) (by rwa [r3.nrhos])
      by_cases hz : T.o.t + (d + ds.sum) ≤ T.o.t + d
      · have hz' : T.o.t + (d + ds.sum) = T.o.t + d := by linarith
        rw [if_pos hz, hk.2, hz', hk.1, (r2 e r he hr).2]
      · rw [if_neg hz]
        exact hk.2

/-- A solution of the equation of motion is followed by rounds. -/
theorem Chain.exists (s : Setting n) (hn : 3 ≤ n) (m : Medium) (ds : List ℝ) : ∀ (T : Traveller n) (ρ : ℝ → Nat → Nat → Mat n), T.numerics = true →
    (∀ d ∈ ds, 0 ≤ d) → AllPrepared T.o → Sane (s.along m T.offset) T.o T.o.t (T.o.t + ds.sum) →
    (∀ e r, e < T.o.ne → r < T.o.nrhos → (T.o.state e r).PosSemidef) → Evolves (s.along m T.offset) hn T.o ρ T.o.t (T.o.t + ds.sum) →
    (∀ e r, e < T.o.ne → r < T.o.nrhos → ρ T.o.t e r = T.o.state e r) → ∃ T', Chain s hn m ds T T' := by
  induction ds with
  | nil => intro T _ _ _ _ _ _ _ _; exact ⟨T, rfl⟩
  | cons d ds ih =>
    intro T ρ hnum hd ho hs hpos hev hst
    have hd0 := hd d List.mem_cons_self
    have hrest : 0 ≤ ds.sum := List.sum_nonneg fun y hy => hd y (List.mem_cons_of_mem _ hy)
    rw [List.sum_cons] at *
    have hs1 : Sane (s.along m T.offset) T.o T.o.t (T.o.t + d) := sane_same (Same.refl _) (le_refl _) (by linarith) hs
    let U : Traveller n := { T with
      o := { preDerive T.o T.o.t with
        t := T.o.t + d
        state := fun e r => if e < T.o.ne ∧ r < T.o.nrhos then ρ (T.o.t + d) e r else T.o.state e r } }
    have hU : EvolveBy s hn m d T U := by
      refine ⟨T.o.t, Set.left_mem_uIcc, ?_⟩
      rw [if_pos hnum, min_eq_left (by linarith), max_eq_right (by linarith)]
      exact ⟨s.old, ρ, hev.within (le_refl _) (by linarith), hst, rfl⟩
    have hs3 : Same T.o U.o := same_derived _ _ _ _
    obtain ⟨p1, p2⟩ := hU.positive hnum hd0 ho hs1 hpos
    have ht : U.o.t = T.o.t + d := rfl
    obtain ⟨T', h⟩ := ih U ρ hnum (fun y hy => hd y (List.mem_cons_of_mem _ hy)) (hs3.prepared ho)
      (by rw [ht]; exact sane_same hs3 (by linarith) (by linarith) hs) p1
      (by rw [ht]; exact hs3.symm.evolves (hev.within (by linarith) (by linarith)))
      (fun e r he hr => by
        rw [hs3.ne] at he
        rw [hs3.nrhos] at hr
        exact (if_pos ⟨he, hr⟩ : (if e < T.o.ne ∧ r < T.o.nrhos then ρ (T.o.t + d) e r else T.o.state e r) = _).symm)
    exact ⟨T', U, ⟨U, U.o, hU, p2, rfl⟩, h⟩

/-- `positivization_steps`, if it fits. -/
theorem toInt_floor {q : ℝ} (h0 : 0 ≤ q) (h1 : q < 2 ^ 31) : toInt q = some ⌊q⌋ := by
  unfold toInt
  dsimp only
  rw [if_pos h0, if_pos]
  have hf : 0 ≤ ⌊q⌋ := Int.floor_nonneg.2 h0
  refine ⟨by omega, ?_⟩
  rw [Int.floor_lt]
  push_cast
  linarith

/-- The steps of a track from `0`. -/
theorem steps_sum {scale : ℝ} (hsc : 0 < scale) {x : ℝ} (hx : 0 ≤ x) :
    (∀ d ∈ List.replicate ⌊x / scale⌋.toNat scale ++ [x - scale * ⌊x / scale⌋], 0 ≤ d) ∧
      (List.replicate ⌊x / scale⌋.toNat scale ++ [x - scale * ⌊x / scale⌋]).sum = x := by
  have hf : (0 : Int) ≤ ⌊x / scale⌋ := Int.floor_nonneg.2 (by positivity)
  have hle : (⌊x / scale⌋ : ℝ) ≤ x / scale := Int.floor_le _
  have hle' : scale * ⌊x / scale⌋ ≤ x := by
    have := mul_le_mul_of_nonneg_left hle hsc.le
    rwa [mul_div_cancel₀ _ hsc.ne'] at this
  refine ⟨fun d hd => ?_, ?_⟩
  · rcases List.mem_append.1 hd with h | h
    · rw [List.eq_of_mem_replicate h]; exact hsc.le
    · rw [List.mem_singleton.1 h]; linarith
  · rw [List.sum_append, List.sum_replicate, List.sum_singleton, nsmul_eq_mul]
    have : ((⌊x / scale⌋.toNat : ℕ) : ℝ) = (⌊x / scale⌋ : ℝ) := by
      rw [← Int.cast_natCast, Int.toNat_of_nonneg hf]
    rw [this]
    ring

end Verif.Density
