import Verif.Lifecycle.Lemmas

/-! What an accepted `EvolveState` does, as a chain of calls of SQuIDS `Evolve`. -/

namespace Verif.Life

/-- The segment `evolveBy s dt` logs. -/
def segOf (s : Obj) (dt off : Rat) : Segment :=
  ⟨s.t, s.t + dt, s.t - off, s.anyNumerics, s.basis, s.h, s.body, s.track, s.b1, s.h0, s.osc, s.tables⟩

/-- The object after `evolveBy s dt`. -/
def afterBy (s : Obj) (dt off : Rat) : Obj :=
  { s with t := s.t + dt, track := s.track.map fun tr => { tr with x := s.t + dt - off }, log := s.log ++ [segOf s dt off] }

theorem evolveBy_ok {s s' : Obj} {dt : Rat} (h : evolveBy s dt = (s', .ok)) :
    ∃ off, s.offset = some off ∧ buffersOk s = true ∧ s' = afterBy s dt off := by
  unfold evolveBy at h
  split at h
  · simp at h
  · rename_i off ho
    split at h
    · rename_i hb
      simp only [Prod.mk.injEq, and_true] at h
      exact ⟨off, ho, hb, h.symm⟩
    · simp at h

/-- Consecutive calls of `Evolve` that went through, by the amounts in the list. -/
inductive Chain : Obj → List Rat → Obj → Prop where
  | nil (s : Obj) : Chain s [] s
  | cons (s s1 s2 : Obj) (dt : Rat) (dts : List Rat) (h : evolveBy s dt = (s1, .ok)) (hc : Chain s1 dts s2) : Chain s (dt :: dts) s2

theorem Chain.append {a b c : Obj} {xs ys : List Rat} (h1 : Chain a xs b) (h2 : Chain b ys c) : Chain a (xs ++ ys) c := by
  induction h1 with
  | nil s => exact h2
  | cons s s1 s2 dt dts h hc ih => exact Chain.cons s s1 _ dt _ h (ih h2)

/-- What a chain of evolutions leaves alone. -/
structure ChainSame (s s' : Obj) : Prop extends SameSetup s s' where
  basis : s'.basis = s.basis
  anyNumerics : s'.anyNumerics = s.anyNumerics
  h : s'.h = s.h
  tables : s'.tables = s.tables
  intInit : s'.intInit = s.intInit
  ncs : s'.ncs = s.ncs
  fullH : s'.fullH = s.fullH
  ncSized : s'.ncSized = s.ncSized
  tauSized : s'.tauSized = s.tauSized
  grSized : s'.grSized = s.grSized

theorem chainSame_refl (s : Obj) : ChainSame s s := ⟨SameSetup.refl s, rfl, rfl, rfl, rfl, rfl, rfl, rfl, rfl, rfl, rfl⟩

theorem chainSame_trans {a b c : Obj} (h1 : ChainSame a b) (h2 : ChainSame b c) : ChainSame a c :=
  ⟨h1.toSameSetup.trans h2.toSameSetup, h2.basis.trans h1.basis, h2.anyNumerics.trans h1.anyNumerics, h2.h.trans h1.h,
    h2.tables.trans h1.tables, h2.intInit.trans h1.intInit, h2.ncs.trans h1.ncs, h2.fullH.trans h1.fullH,
    h2.ncSized.trans h1.ncSized, h2.tauSized.trans h1.tauSized, h2.grSized.trans h1.grSized⟩

theorem evolveBy_chainSame {s s' : Obj} {dt : Rat} (h : evolveBy s dt = (s', .ok)) : ChainSame s s' := by
  have h0 := evolveBy_same s dt
  rw [h] at h0
  obtain ⟨off, _, _, rfl⟩ := evolveBy_ok h
  exact ⟨h0, rfl, rfl, rfl, rfl, rfl, rfl, rfl, rfl, rfl, rfl⟩

theorem Chain.same {s s' : Obj} {dts : List Rat} (h : Chain s dts s') : ChainSame s s' := by
  induction h with
  | nil s => exact chainSame_refl s
  | cons s s1 s2 dt dts h hc ih => exact chainSame_trans (evolveBy_chainSame h) ih

/-- What is in force during every segment of a chain. -/
structure InForce (s : Obj) (seg : Segment) : Prop where
  numeric : seg.numeric = s.anyNumerics
  basis : seg.basis = s.basis
  step : seg.step = s.h
  body : seg.body = s.body
  proj : seg.proj = s.b1
  h0 : seg.h0 = s.h0
  osc : seg.osc = s.osc
  tables : seg.tables = s.tables
  track : seg.track.map (fun t => (t.id, t.xini, t.xend)) = s.track.map (fun t => (t.id, t.xini, t.xend))

/-- A chain logs one segment per call, end to end, with the clock and position moving together. -/
theorem Chain.log {s s' : Obj} {dts : List Rat} (h : Chain s dts s') :
    ∃ new, s'.log = s.log ++ new ∧ new.length = dts.length ∧ (∀ seg ∈ new, InForce s seg) ∧
      (∀ seg ∈ new, ∃ off, s.offset = some off ∧ seg.x0 = seg.t0 - off) ∧
      (∀ seg, new.head? = some seg → seg.t0 = s.t) ∧
      (∀ seg ∈ new, buffersOk s = true) := by
  induction h with
  | nil s => exact ⟨[], by simp, rfl, by simp, by simp, by simp, by simp⟩
  | cons s s1 s2 dt dts h hc ih =>
    obtain ⟨new, h1, h2, h3, h4, h5, h6⟩ := ih
    have hsame := evolveBy_chainSame h
    obtain ⟨off, ho, hb, he⟩ := evolveBy_ok h
    have hlog : s1.log = s.log ++ [segOf s dt off] := by rw [he]; rfl
    refine ⟨segOf s dt off :: new, by rw [h1, hlog]; simp, by simp [h2], ?_, ?_, ?_, ?_⟩
    · intro seg hseg
      rcases List.mem_cons.1 hseg with rfl | hseg
      · exact ⟨rfl, rfl, rfl, rfl, rfl, rfl, rfl, rfl, rfl⟩
      · have := h3 seg hseg
        exact ⟨this.numeric.trans hsame.anyNumerics, this.basis.trans hsame.basis, this.step.trans hsame.h,
          this.body.trans hsame.body, this.proj.trans hsame.b1, this.h0.trans hsame.h0, this.osc.trans hsame.osc,
          this.tables.trans hsame.tables, this.track.trans hsame.trackIni⟩
    · intro seg hseg
      rcases List.mem_cons.1 hseg with rfl | hseg
      · exact ⟨off, ho, rfl⟩
      · obtain ⟨off', ho', hx⟩ := h4 seg hseg
        exact ⟨off', by rw [← hsame.offset]; exact ho', hx⟩
    · intro seg hseg
      simp only [List.head?_cons, Option.some.injEq] at hseg
      rw [← hseg]; rfl
    · intro _ _; exact hb

/-- A chain advances the clock by the sum of its steps, and leaves the track at the matching position. -/
theorem Chain.clock {s s' : Obj} {dts : List Rat} (h : Chain s dts s') : s'.t = s.t + dts.sum := by
  induction h with
  | nil s => simp [Rat.add_zero]
  | cons s s1 s2 dt dts h hc ih =>
    obtain ⟨off, ho, hb, he⟩ := evolveBy_ok h
    rw [ih, he]
    simp only [afterBy, List.sum_cons, Rat.add_assoc]

theorem Chain.position {s s' : Obj} {dts : List Rat} (h : Chain s dts s') (hne : dts ≠ []) :
    ∃ off, s.offset = some off ∧ ∀ tr, s'.track = some tr → tr.x = s'.t - off := by
  induction h with
  | nil s => exact absurd rfl hne
  | cons s s1 s2 dt dts h hc ih =>
    obtain ⟨off, ho, hb, he⟩ := evolveBy_ok h
    have hsame := evolveBy_chainSame h
    refine ⟨off, ho, ?_⟩
    by_cases hd : dts = []
    · subst hd
      cases hc
      intro tr htr
      rw [he] at htr ⊢
      simp only [afterBy, Option.map_eq_some_iff] at htr
      obtain ⟨t, _, rfl⟩ := htr
      rfl
    · obtain ⟨off', ho', hx⟩ := ih hd
      rw [hsame.offset, ho] at ho'
      simp only [Option.some.injEq] at ho'
      rw [ho']; exact hx

theorem evolveSteps_chain (scale : Rat) : ∀ (n : Nat) (s s' : Obj), evolveSteps scale n s = (s', .ok) →
    Chain s (List.replicate n scale) s' := by
  intro n
  induction n with
  | zero => intro s s' h; simp only [evolveSteps, Prod.mk.injEq, and_true] at h; subst h; exact Chain.nil s
  | succ n ih =>
    intro s s' h
    unfold evolveSteps at h
    split at h
    · rename_i s1 h1
      exact Chain.cons s s1 s' scale _ h1 (ih s1 s' h)
    · rename_i r hr
      rw [h] at hr
      exact absurd rfl (hr s')

/-- The object when the first `Evolve` is called: step direction and shortcut settled (1253-1266). -/
def prepared (s : Obj) (b : BodyRef) (tr : TrackRef) : Obj :=
  let s := if tr.xend < tr.xini then { s with h := -s.h } else s
  if b.isConst && !s.iint && s.allowConst then { s with fullH := true, anyNumerics := false, basis := .mass } else s

/-- The shortcut is taken. -/
def Shortcut (s : Obj) (b : BodyRef) : Prop := (b.isConst && !s.iint && s.allowConst) = true

theorem prepared_same (s : Obj) (b : BodyRef) (tr : TrackRef) : SameSetup s (prepared s b tr) := by
  unfold prepared
  have h0 : SameSetup s (if tr.xend < tr.xini then { s with h := -s.h } else s) := by
    split
    · exact withH_same s _
    · exact SameSetup.refl s
  revert h0
  generalize (if tr.xend < tr.xini then { s with h := -s.h } else s) = s1
  intro h0
  dsimp only
  split
  · exact h0.trans (shortcut_same s1)
  · exact h0

/-- The members of the prepared object that `prepared` may change, and the others it does not. -/
theorem prepared_fields (s : Obj) (b : BodyRef) (tr : TrackRef) :
    (prepared s b tr).t = s.t ∧ (prepared s b tr).track = s.track ∧ (prepared s b tr).log = s.log ∧
    (prepared s b tr).tables = s.tables ∧ (prepared s b tr).ncs = s.ncs ∧ (prepared s b tr).intInit = s.intInit ∧
    (prepared s b tr).h = (if tr.xend < tr.xini then -s.h else s.h) ∧
    (¬Shortcut s b → (prepared s b tr).anyNumerics = s.anyNumerics ∧ (prepared s b tr).basis = s.basis) ∧
    (Shortcut s b → (prepared s b tr).anyNumerics = false ∧ (prepared s b tr).basis = .mass) ∧
    (prepared s b tr).ncSized = s.ncSized ∧ (prepared s b tr).tauSized = s.tauSized ∧ (prepared s b tr).grSized = s.grSized := by
  unfold prepared Shortcut
  by_cases h1 : tr.xend < tr.xini
  · simp only [if_pos h1]
    generalize (b.isConst && !s.iint && s.allowConst) = c
    cases c <;> simp
  · simp only [if_neg h1]
    generalize (b.isConst && !s.iint && s.allowConst) = c
    cases c <;> simp

/-- The amounts by which `EvolveState` calls `Evolve`. -/
inductive Amounts (s : Obj) (b : BodyRef) (tr : TrackRef) : List Rat → Prop where
  | whole (h : Shortcut s b ∨ s.positivization = false) : Amounts s b tr [tr.xend - tr.xini]
  | pieces (scale : Rat) (n : Int) (h : ¬Shortcut s b) (hp : s.positivization = true) (hs : s.posScale = some scale) (h0 : scale ≠ 0)
      (hn : toInt ((tr.xend - tr.xini) / scale) = some n) :
      Amounts s b tr (List.replicate n.toNat scale ++ [tr.xend - scale * n])

theorem amounts_ne_nil {s : Obj} {b : BodyRef} {tr : TrackRef} {dts : List Rat} (h : Amounts s b tr dts) : dts ≠ [] := by
  cases h <;> simp

theorem evolveMain_chain (s s' : Obj) (b : BodyRef) (tr : TrackRef) (h : evolveMain s b tr = (s', .ok)) :
    ∃ dts, Amounts s b tr dts ∧ Chain (prepared s b tr) dts s' := by
  unfold evolveMain at h
  have hk : ∀ s1 : Obj, s1 = (if tr.xend < tr.xini then { s with h := -s.h } else s) →
      s1.iint = s.iint ∧ s1.allowConst = s.allowConst ∧ s1.positivization = s.positivization ∧ s1.posScale = s.posScale := by
    intro s1 h1; subst h1; split <;> exact ⟨rfl, rfl, rfl, rfl⟩
  have hp : prepared s b tr = (let s := (if tr.xend < tr.xini then { s with h := -s.h } else s);
      if b.isConst && !s.iint && s.allowConst then { s with fullH := true, anyNumerics := false, basis := .mass } else s) := rfl
  rw [hp]
  revert h
  generalize (if tr.xend < tr.xini then { s with h := -s.h } else s) = s1 at hk
  intro h
  obtain ⟨k1, k2, k3, k4⟩ := hk s1 rfl
  dsimp only at h ⊢
  split at h
  · rename_i hc
    rw [if_pos hc]
    refine ⟨_, Amounts.whole (Or.inl ?_), Chain.cons _ _ _ _ _ h (Chain.nil _)⟩
    unfold Shortcut; rw [← k1, ← k2]; exact hc
  · rename_i hc
    rw [if_neg hc]
    have hns : ¬Shortcut s b := by unfold Shortcut; rw [← k1, ← k2]; exact hc
    split at h
    · rename_i hpos
      split at h
      · simp at h
      · rename_i scale hsc
        split at h
        · simp at h
        · rename_i h0
          split at h
          · simp at h
          · rename_i n hn
            split at h
            · rename_i s2 h2
              refine ⟨_, Amounts.pieces scale n hns (by rw [← k3]; exact hpos) (by rw [← k4]; exact hsc) h0 hn, ?_⟩
              exact (evolveSteps_chain scale _ _ _ h2).append (Chain.cons _ _ _ _ _ h (Chain.nil _))
            · rename_i hr; rw [h] at hr; exact absurd rfl (hr s')
    · rename_i hpos
      exact ⟨_, Amounts.whole (Or.inr (by rw [← k3]; simpa using hpos)), Chain.cons _ _ _ _ _ h (Chain.nil _)⟩

/-- An accepted `EvolveState`: the tables made ready, then a chain. -/
theorem evolveState_chain (dflt : Option Xs) (s s' : Obj) (h : evolveState dflt s = (s', .ok)) :
    ∃ s1 b tr dts, s.body = some b ∧ s.track = some tr ∧
      (if s.iint && !s.intInit then initInteractions dflt s else (s, Status.ok)) = (s1, .ok) ∧
      Amounts s1 b tr dts ∧ Chain (prepared s1 b tr) dts s' ∧ evolveGuards s = true := by
  unfold evolveState at h
  split at h
  · rename_i hg
    split at h
    · rename_i b tr hb ht
      dsimp only at h
      split at h
      · rename_i s1 h1
        obtain ⟨dts, ha, hc⟩ := evolveMain_chain s1 s' b tr h
        exact ⟨s1, b, tr, dts, hb, ht, h1, ha, hc, hg⟩
      · rename_i hr; rw [h] at hr; exact absurd rfl (hr s')
    · simp at h
  · simp at h

/-- What making the tables ready leaves alone besides the set-up. -/
theorem init_fields (dflt : Option Xs) (s : Obj) :
    (initInteractions dflt s).1.t = s.t ∧ (initInteractions dflt s).1.track = s.track ∧ (initInteractions dflt s).1.log = s.log ∧
    (initInteractions dflt s).1.h = s.h ∧ (initInteractions dflt s).1.anyNumerics = s.anyNumerics ∧
    (initInteractions dflt s).1.basis = s.basis := by
  have hz : ∀ s : Obj, (sizeBuffers s).t = s.t ∧ (sizeBuffers s).track = s.track ∧ (sizeBuffers s).log = s.log ∧
      (sizeBuffers s).h = s.h ∧ (sizeBuffers s).anyNumerics = s.anyNumerics ∧ (sizeBuffers s).basis = s.basis := by
    intro s; unfold sizeBuffers; split <;> simp
  unfold initInteractions
  split
  · simp
  · split
    · exact hz s
    · dsimp only
      split
      · simp
      · split
        · split
          · exact hz _
          · simp
        · simp

theorem ready_fields (dflt : Option Xs) (s s1 : Obj)
    (h : (if s.iint && !s.intInit then initInteractions dflt s else (s, Status.ok)) = (s1, .ok)) :
    SameSetup s s1 ∧ s1.t = s.t ∧ s1.track = s.track ∧ s1.log = s.log ∧ s1.h = s.h ∧ s1.anyNumerics = s.anyNumerics ∧
      s1.basis = s.basis := by
  split at h
  · have h1 := initInteractions_same dflt s
    have h2 := init_fields dflt s
    rw [h] at h1 h2
    exact ⟨h1, h2⟩
  · simp only [Prod.mk.injEq, and_true] at h
    subst h
    exact ⟨SameSetup.refl s, rfl, rfl, rfl, rfl, rfl, rfl⟩

/-- The segments an accepted `EvolveState` adds. -/
theorem evolveState_log (dflt : Option Xs) (s s' : Obj) (h : evolveState dflt s = (s', .ok)) :
    ∃ new, s'.log = s.log ++ new ∧ new ≠ [] ∧
      ∀ seg ∈ new, seg.body = s.body ∧ seg.proj = s.b1 ∧ seg.h0 = s.h0 ∧ seg.osc = s.osc ∧
        seg.track.map (fun t => (t.id, t.xini, t.xend)) = s.track.map (fun t => (t.id, t.xini, t.xend)) := by
  obtain ⟨s1, b, tr, dts, hb, ht, h1, ha, hc, _⟩ := evolveState_chain dflt s s' h
  obtain ⟨r1, _, r3, r4, _⟩ := ready_fields dflt s s1 h1
  obtain ⟨new, l1, l2, l3, _⟩ := hc.log
  have hp := prepared_same s1 b tr
  refine ⟨new, ?_, ?_, ?_⟩
  · rw [l1, (prepared_fields s1 b tr).2.2.1, r4]
  · intro hn
    rw [hn] at l2
    exact amounts_ne_nil ha (List.length_eq_zero_iff.1 l2.symm)
  · intro seg hseg
    have f := l3 seg hseg
    exact ⟨f.body.trans (hp.body.trans r1.body), f.proj.trans (hp.b1.trans r1.b1), f.h0.trans (hp.h0.trans r1.h0),
      f.osc.trans (hp.osc.trans r1.osc), f.track.trans (hp.trackIni.trans r1.trackIni)⟩

end Verif.Life
