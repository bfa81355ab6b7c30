import Verif.Atm.ThreadProps
import Verif.Lifecycle.ParamProps

/-! C61: setters of the atmospheric object act on all nodes and getters report what was set. -/

namespace Verif.Atm

open Life (Status Xs BodyRef TrackRef NT Fixed set1 set2 pairOk maxDim)

/-! ## Specification -/

/-- The values the setters set. -/
structure Values where
  angle : Nat → Nat → Rat
  phase : Nat → Nat → Rat
  dm2 : Nat → Rat
  osc : Bool
  tau : Bool
  glashow : Bool
  positivity : Bool
  posStep : Option Rat
  allowConst : Bool
  body : Option BodyRef

/-- `f` with the value at `(i, j)` replaced. -/
def put2 (f : Nat → Nat → Rat) (i j : Nat) (v : Rat) : Nat → Nat → Rat := fun a b => if a = i ∧ b = j then v else f a b

def put1 (f : Nat → Rat) (i : Nat) (v : Rat) : Nat → Rat := fun a => if a = i then v else f a

/-- The standard angles, squared mass differences and phase on top of given ones. -/
def Values.standard (v : Values) : Values :=
  { v with
    angle := fun i j => if i = 0 ∧ j = 1 then 583638 / 1000000 else if i = 0 ∧ j = 2 then 149575 / 1000000
      else if i = 1 ∧ j = 2 then 855211 / 1000000 else v.angle i j
    phase := fun i j => if i = 0 ∧ j = 2 then 0 else v.phase i j
    dm2 := fun i => if i = 1 then 742 / 10000000 else if i = 2 then 2514 / 1000000 else v.dm2 i }

/-- The values after an accepted call. -/
def Values.after (v : Values) : AOp → Values
  | .setAngle i j x => { v with angle := put2 v.angle i j x }
  | .setPhase i j x => { v with phase := put2 v.phase i j x }
  | .setDm2 i x => { v with dm2 := put1 v.dm2 i x }
  | .setDefaults => v.standard
  | .setOsc b => { v with osc := b }
  | .setTau b => { v with tau := b }
  | .setGlashow b => { v with glashow := b }
  | .setPositivity b => { v with positivity := b }
  | .setPosStep x => { v with posStep := some x }
  | .setAllowConst b => { v with allowConst := b }
  | .setEarth b => { v with body := b }
  | _ => v

/-- The values of a new object. -/
def initialValues (c : Life.Ctor) (earth : BodyRef) : Values :=
  Values.standard ⟨fun _ _ => 0, fun _ _ => 0, fun _ => 0, true, false, false, false,
    (match c with | .single _ _ => none | .multi .. => some 300), false, some earth⟩

/-- The values after a history. -/
def lastValues (c : Life.Ctor) (earth : BodyRef) (tr : List (AOp × Status)) : Values :=
  tr.foldl (fun v x => if x.2 = .ok then v.after x.1 else v) (initialValues c earth)

/-- The values a node holds. -/
def held (s : Life.Obj) : Values :=
  ⟨s.params.angle, s.params.phase, s.params.dm2, s.osc, s.tauregen, s.glashow, s.positivization, s.posScale, s.allowConst, s.body⟩

/-- The number of flavours asked of the constructor. -/
def flavours : Life.Ctor → Nat
  | .single n _ => n
  | .multi _ n _ _ _ => n

/-- The last number of threads, 1 before any was chosen. -/
def lastThreads (tr : List (AOp × Status)) : Nat :=
  tr.foldl (fun n x => match x.1 with | .setThreads m hw => (if 0 < m then m else if 0 < hw then hw else 1) | _ => n) 1

/-! ## Lemmas -/

/-- Whether a node accepts a forwarded call; the same for all nodes. -/
def accepts (n : Nat) (nt : NT) (iint : Bool) : AOp → Bool
  | .setAngle i j _ => !(decide (i > n ∨ j > n)) && pairOk i j
  | .setPhase i j _ => !(decide (i > n ∨ j > n)) && pairOk i j
  | .setDm2 i _ => !(decide (i > n)) && decide (0 < i ∧ i < maxDim)
  | .setTau b => !(decide (b = true ∧ (nt ≠ .both ∨ iint = false ∨ n < 3)))
  | .setGlashow b => !(decide (b = true ∧ iint = false))
  | _ => true

theorem forward_step (dflt : Option Xs) (s : Life.Obj) (op : AOp) (o : Life.Op) (ho : op.forward = some o) (hn : 3 ≤ s.numneu) :
    if accepts s.numneu s.nt s.iint op then (Life.step dflt s o).2 = .ok ∧ held (Life.step dflt s o).1 = (held s).after op
    else Life.step dflt s o = (s, .throws) := by
  cases op <;> simp only [AOp.forward, Option.some.injEq, reduceCtorEq] at ho
  case setAngle i j v =>
    subst ho
    simp only [accepts, Life.step, Life.setAngle]
    by_cases h1 : i > s.numneu ∨ j > s.numneu
    · simp [h1]
    · by_cases h2 : pairOk i j = true
      · simp only [h1, h2, decide_false, Bool.not_false, Bool.and_true, if_true, if_false]
        exact ⟨trivial, rfl⟩
      · simp [h1, h2]
  case setPhase i j v =>
    subst ho
    simp only [accepts, Life.step, Life.setPhase]
    by_cases h1 : i > s.numneu ∨ j > s.numneu
    · simp [h1]
    · by_cases h2 : pairOk i j = true
      · simp only [h1, h2, decide_false, Bool.not_false, Bool.and_true, if_true, if_false]
        exact ⟨trivial, rfl⟩
      · simp [h1, h2]
  case setDm2 i v =>
    subst ho
    simp only [accepts, Life.step, Life.setDm2]
    by_cases h1 : i > s.numneu
    · simp [h1]
    · by_cases h2 : 0 < i ∧ i < maxDim
      · simp only [h1, h2, decide_false, decide_true, Bool.not_false, Bool.and_true, if_true, if_false, and_self]
        exact ⟨trivial, rfl⟩
      · simp [h1, h2]
  case setDefaults =>
    subst ho
    simp only [accepts, Life.step, if_true]
    rw [Life.setDefaults_eq s hn]
    refine ⟨trivial, ?_⟩
    simp only [held, Values.after, Values.standard, Life.defaultParams, Values.mk.injEq, and_true]
    refine ⟨?_, rfl, ?_⟩
    · funext i j; simp only [set2]; grind
    · funext i; simp only [set1]; grind
  case setTau b =>
    subst ho
    simp only [accepts, Life.step, Life.setTau]
    by_cases h1 : b = true ∧ (s.nt ≠ .both ∨ s.iint = false ∨ s.numneu < 3)
    · simp [h1]
    · simp only [h1, decide_false, Bool.not_false, if_true, if_false]
      exact ⟨trivial, rfl⟩
  case setGlashow b =>
    subst ho
    simp only [accepts, Life.step, Life.setGlashow]
    by_cases h1 : b = true ∧ s.iint = false
    · simp [h1]
    · simp only [h1, decide_false, Bool.not_false, if_true, if_false]
      exact ⟨trivial, rfl⟩
  all_goals
    subst ho
    exact ⟨rfl, rfl⟩

/-- Evolving and preparing do not change the values. -/
theorem held_same {s s' : Life.Obj} (h : Life.SameSetup s s') : held s' = held s := by
  unfold held
  rw [h.params, h.osc, h.tauregen, h.glashow, h.positivization, h.posScale, h.allowConst, h.body]

theorem held_setInitial (s : Life.Obj) (d : List Nat) (b : Life.Basis) : held (Life.setInitial s d b).1 = held s := by
  unfold Life.setInitial
  split
  · split
    · rfl
    · dsimp only
      rw [Life.iniProj_eq]
      rfl
  · rfl

/-- A property kept by `f` at every element is kept by the loop. -/
theorem forAll_keeps {σ : Type} (f : σ → σ × Status) (P : σ → Prop) (hf : ∀ x, P x → P (f x).1) (l : List σ) (h : ∀ x ∈ l, P x) :
    ∀ x ∈ (forAll f l).1, P x := by
  induction l with
  | nil => exact h
  | cons y ys ih =>
    intro x hx
    have hy := h y (List.mem_cons_self ..)
    have hys := fun z hz => h z (List.mem_cons_of_mem _ hz)
    have h1 := hf y hy
    rcases e : f y with ⟨y', st⟩
    rw [e] at h1
    cases st
    · simp only [forAll, e, List.mem_cons] at hx
      rcases hx with rfl | hx
      · exact h1
      · exact ih hys x hx
    · simp only [forAll, e, List.mem_cons] at hx
      rcases hx with rfl | hx
      · exact h1
      · exact hys x hx
    · simp only [forAll, e, List.mem_cons] at hx
      rcases hx with rfl | hx
      · exact h1
      · exact hys x hx

theorem inTasks_keeps {σ : Type} (f : σ → σ × Status) (P : σ → Prop) (hf : ∀ x, P x → P (f x).1) : ∀ (order : List Nat) (l : List σ),
    (∀ x ∈ l, P x) → ∀ x ∈ (inTasks f order l).1, P x := by
  intro order
  induction order with
  | nil => intro l h; exact h
  | cons j js ih =>
    intro l h
    unfold inTasks
    split
    · exact h
    · rename_i y hy
      split
      · exact h
      · rename_i y' st _ e
        refine ih _ ?_
        intro x hx
        rcases List.mem_or_eq_of_mem_set hx with hx | rfl
        · exact h x hx
        · have := hf y (h y (List.mem_of_getElem? hy))
          rw [e] at this
          exact this

theorem inTasks_length {σ : Type} (f : σ → σ × Status) : ∀ (order : List Nat) (l : List σ), (inTasks f order l).1.length = l.length := by
  intro order
  induction order with
  | nil => intro l; rfl
  | cons j js ih =>
    intro l
    unfold inTasks
    split
    · rfl
    · split
      · rfl
      · rw [ih, List.length_set]

/-- What the parts of the object that matter here are between calls. -/
structure Holds (c : Life.Ctor) (v : Values) (a : Sky) : Prop where
  nonempty : a.nodes ≠ []
  fixed : ∀ x ∈ a.nodes, Fixed (Life.construct c).1 x
  held : ∀ x ∈ a.nodes, held x = v

/-- The nodes are kept in number, construction and values. -/
theorem Holds.of_nodes {c : Life.Ctor} {v : Values} {a a' : Sky} (h : Holds c v a) (hl : a'.nodes.length = a.nodes.length)
    (hn : (∀ x ∈ a.nodes, Fixed (Life.construct c).1 x ∧ Atm.held x = v) → ∀ x ∈ a'.nodes, Fixed (Life.construct c).1 x ∧ Atm.held x = v) :
    Holds c v a' := by
  have := hn fun x hx => ⟨h.fixed x hx, h.held x hx⟩
  refine ⟨?_, fun x hx => (this x hx).1, fun x hx => (this x hx).2⟩
  intro e
  rw [e] at hl
  exact h.nonempty (List.length_eq_zero_iff.1 hl.symm)

theorem construct_flavours (c : Life.Ctor) (s : Life.Obj) (h : Life.construct c = (s, .ok)) : s.numneu = flavours c := by
  cases c with
  | single n nt =>
    simp only [Life.construct, Life.ctorSingle] at h
    split at h
    · simp at h
    · split at h
      · simp at h
      · split at h
        · simp at h
        · rename_i h1 h2
          rw [Life.setDefaults_eq _ (by simp [Life.blank]; omega)] at h
          simp only [Prod.mk.injEq, and_true] at h
          subst h
          cases nt <;> simp [Life.iniProj_eq, Life.iniH0, Life.blank, flavours]
  | multi E n nt i x =>
    simp only [Life.construct, Life.ctorMulti] at h
    split at h
    · simp at h
    · split at h
      · simp at h
      · split at h
        · simp at h
        · rename_i h1 h2 _
          rw [Life.setDefaults_eq _ (by simp [Life.blank]; omega)] at h
          simp only [Prod.mk.injEq, and_true] at h
          subst h
          simp [Life.iniProj_eq, Life.iniH0, Life.blank, flavours]

theorem construct_held (c : Life.Ctor) (s : Life.Obj) (h : Life.construct c = (s, .ok)) (earth : BodyRef) :
    { held s with body := some earth } = initialValues c earth := by
  have hd : ∀ (p : Life.Params), p = ⟨fun _ _ => 0, fun _ _ => 0, fun _ => 0⟩ →
      (Life.defaultParams p).angle = (initialValues c earth).angle ∧ (Life.defaultParams p).phase = (fun _ _ => 0) ∧
      (initialValues c earth).phase = (fun _ _ => 0) ∧ (Life.defaultParams p).dm2 = (initialValues c earth).dm2 := by
    rintro p rfl
    simp only [Life.defaultParams, initialValues, Values.standard]
    refine ⟨?_, ?_, ?_, ?_⟩
    · funext i j; simp only [set2]; grind
    · funext i j; simp only [set2]; grind
    · funext i j; grind
    · funext i; simp only [set1]; grind
  obtain ⟨d1, d2, d3, d4⟩ := hd _ rfl
  have hf := Life.construct_fresh c s h
  cases c with
  | single n nt =>
    simp only [Life.construct, Life.ctorSingle] at h
    split at h
    · simp at h
    · split at h
      · simp at h
      · split at h
        · simp at h
        · rename_i h1 h2
          rw [Life.setDefaults_eq _ (by simp [Life.blank]; omega)] at h
          have e1 : s.params.angle = (Life.defaultParams ⟨fun _ _ => 0, fun _ _ => 0, fun _ => 0⟩).angle := by
            simp only [Prod.mk.injEq, and_true] at h
            subst h
            cases nt <;> simp [Life.iniProj_eq, Life.iniH0, Life.blank]
          have e2 : s.params.dm2 = (Life.defaultParams ⟨fun _ _ => 0, fun _ _ => 0, fun _ => 0⟩).dm2 := by
            simp only [Prod.mk.injEq, and_true] at h
            subst h
            cases nt <;> simp [Life.iniProj_eq, Life.iniH0, Life.blank]
          have e3 : s.positivization = false ∧ s.posScale = none := by
            simp only [Prod.mk.injEq, and_true] at h
            subst h
            cases nt <;> simp [Life.iniProj_eq, Life.iniH0, Life.blank]
          unfold held
          rw [e1, e2, d1, d4, hf.phase, hf.osc, hf.tauregen, hf.glashow, hf.allowConst, e3.1, e3.2, ← d3]
          rfl
  | multi E n nt i x =>
    simp only [Life.construct, Life.ctorMulti] at h
    split at h
    · simp at h
    · split at h
      · simp at h
      · split at h
        · simp at h
        · rename_i h1 h2 _
          rw [Life.setDefaults_eq _ (by simp [Life.blank]; omega)] at h
          have e1 : s.params.angle = (Life.defaultParams ⟨fun _ _ => 0, fun _ _ => 0, fun _ => 0⟩).angle := by
            simp only [Prod.mk.injEq, and_true] at h
            subst h
            simp [Life.iniProj_eq, Life.iniH0, Life.blank]
          have e2 : s.params.dm2 = (Life.defaultParams ⟨fun _ _ => 0, fun _ _ => 0, fun _ => 0⟩).dm2 := by
            simp only [Prod.mk.injEq, and_true] at h
            subst h
            simp [Life.iniProj_eq, Life.iniH0, Life.blank]
          have e3 : s.positivization = false ∧ s.posScale = some 300 := by
            simp only [Prod.mk.injEq, and_true] at h
            subst h
            simp [Life.iniProj_eq, Life.iniH0, Life.blank]
          unfold held
          rw [e1, e2, d1, d4, hf.phase, hf.osc, hf.tauregen, hf.glashow, hf.allowConst, e3.1, e3.2, ← d3]
          rfl

theorem startNode_holds {c : Life.Ctor} {earth : BodyRef} {t : TrackRef} {s : Life.Obj} (h : startNode c earth t = (s, .ok)) :
    (Life.construct c).2 = .ok ∧ Fixed (Life.construct c).1 s ∧ held s = initialValues c earth ∧ s.istate = false := by
  unfold startNode at h
  rcases hc : Life.construct c with ⟨s0, st⟩
  rw [hc] at h
  cases st
  · simp only [Life.setBody, Life.setTrack, Prod.mk.injEq, and_true] at h
    subst h
    refine ⟨rfl, ⟨rfl, rfl, rfl, rfl, rfl, rfl⟩, construct_held c s0 hc earth, ?_⟩
    exact (Life.construct_fresh c s0 hc).istate
  · simp at h
  · simp at h

theorem startNodes_holds {c : Life.Ctor} {earth : BodyRef} : ∀ (trs : List TrackRef) (l : List Life.Obj), startNodes c earth trs = .ok l →
    l.length = trs.length ∧ ∀ s ∈ l, (Life.construct c).2 = .ok ∧ Fixed (Life.construct c).1 s ∧ held s = initialValues c earth ∧
      s.istate = false := by
  intro trs
  induction trs with
  | nil =>
    intro l h
    simp only [startNodes, Outcome.ok.injEq] at h
    subst h
    simp
  | cons t ts ih =>
    intro l h
    unfold startNodes at h
    split at h
    · rename_i s hs
      rcases hr : startNodes c earth ts with l' | _ | _
      · rw [hr] at h
        simp only [Outcome.map, Outcome.ok.injEq] at h
        subst h
        obtain ⟨h1, h2⟩ := ih l' hr
        refine ⟨by simp [h1], ?_⟩
        intro x hx
        rcases List.mem_cons.1 hx with rfl | hx
        · exact startNode_holds hs
        · exact h2 x hx
      · rw [hr] at h; simp [Outcome.map] at h
      · rw [hr] at h; simp [Outcome.map] at h
    · simp at h
    · simp at h

theorem create_holds {found : Option Bool} {c : Life.Ctor} {earth : BodyRef} {trs : List TrackRef} {a : Sky}
    (h : create found c earth trs = .ok a) :
    Holds c (initialValues c earth) a ∧ (Life.construct c).2 = .ok ∧ a.threads = some 1 ∧ a.iini = found ∧ a.iatm = true ∧
      a.nodes.length = trs.length ∧ ∀ x ∈ a.nodes, x.istate = false := by
  unfold create at h
  split at h
  · simp at h
  · rename_i s nodes hs
    simp only [Outcome.ok.injEq] at h
    subst h
    obtain ⟨h1, h2⟩ := startNodes_holds trs _ hs
    exact ⟨⟨by simp, fun x hx => (h2 x hx).2.1, fun x hx => (h2 x hx).2.2.1⟩, (h2 s (List.mem_cons_self ..)).1, rfl, rfl, rfl, h1,
      fun x hx => (h2 x hx).2.2.2⟩
  · simp at h
  · simp at h

theorem fixed_trans_same {c : Life.Ctor} {x y : Life.Obj} (h : Fixed (Life.construct c).1 x) (hs : Life.SameSetup x y) :
    Fixed (Life.construct c).1 y := h.trans hs.toFixed

theorem prepare_holds {dflt : Option Xs} {c : Life.Ctor} {v : Values} {a : Sky} (h : Holds c v a) : Holds c v (prepare dflt a).1 := by
  refine h.of_nodes (prepare_length dflt a) ?_
  intro hn
  unfold prepare
  split
  · exact hn
  · rename_i s l hl
    rw [hl] at hn
    split
    · rcases hi : Life.initInteractions dflt s with ⟨s', st⟩
      have hs' : Fixed (Life.construct c).1 s' ∧ held s' = v := by
        have := Life.initInteractions_same dflt s
        rw [hi] at this
        obtain ⟨g1, g2⟩ := hn s (List.mem_cons_self ..)
        exact ⟨fixed_trans_same g1 this, (held_same this).trans g2⟩
      have hn' : ∀ x ∈ s' :: l, Fixed (Life.construct c).1 x ∧ held x = v := by
        intro x hx
        rcases List.mem_cons.1 hx with rfl | hx
        · exact hs'
        · exact hn x (List.mem_cons_of_mem _ hx)
      cases st
      · dsimp only
        refine forAll_keeps _ _ ?_ _ hn'
        intro x hx
        have h1 : Life.SameSetup x { x with tables := s'.tables } :=
          ⟨⟨rfl, rfl, rfl, rfl, rfl, rfl⟩, rfl, rfl, rfl, rfl, rfl, rfl, rfl, rfl, rfl, rfl, rfl, rfl, rfl, rfl, rfl, rfl, rfl, rfl, rfl, rfl⟩
        have h2 := h1.trans (Life.initInteractions_same dflt { x with tables := s'.tables })
        exact ⟨fixed_trans_same hx.1 h2, (held_same h2).trans hx.2⟩
      · exact hn'
      · exact hn'
    · exact fun x hx => hn x (hl ▸ hx)

theorem evolve_holds {dflt : Option Xs} {c : Life.Ctor} {v : Values} {a : Sky} (order : List Nat) (h : Holds c v a) :
    Holds c v (evolve dflt a order).1 := by
  have hk : ∀ x : Life.Obj, Fixed (Life.construct c).1 x ∧ held x = v → Fixed (Life.construct c).1 (Life.evolveState dflt x).1 ∧
      held (Life.evolveState dflt x).1 = v := fun x hx =>
    ⟨fixed_trans_same hx.1 (Life.evolveState_same dflt x), (held_same (Life.evolveState_same dflt x)).trans hx.2⟩
  unfold evolve
  split
  · exact h
  · exact h
  · split
    · exact h
    · have hp := prepare_holds (dflt := dflt) h
      rcases hr : prepare dflt a with ⟨b, st⟩
      rw [hr] at hp
      cases st
      · dsimp only
        split
        · exact hp
        · dsimp only
          split
          · exact hp.of_nodes (forAll_length _ _) fun hn => forAll_keeps _ _ hk _ hn
          · exact hp.of_nodes (inTasks_length _ _ _) fun hn => inTasks_keeps _ _ hk _ _ hn
      · exact hp
      · exact hp

theorem setInitial_holds {c : Life.Ctor} {v : Values} {a : Sky} (dims : List Nat) (b : Life.Basis) (h : Holds c v a) :
    Holds c v (setInitial a dims b).1 := by
  unfold setInitial
  split
  · exact h
  · rename_i d _
    have hl := forAll_length (fun s => Life.setInitial s d b) a.nodes
    have hk : (∀ x ∈ a.nodes, Fixed (Life.construct c).1 x ∧ held x = v) →
        ∀ x ∈ (forAll (fun s => Life.setInitial s d b) a.nodes).1, Fixed (Life.construct c).1 x ∧ held x = v := fun hn =>
      forAll_keeps (fun s => Life.setInitial s d b) _ (fun x hx =>
        ⟨hx.1.trans (Life.step_fixed none x (.setInitial d b)), (held_setInitial x d b).trans hx.2⟩) _ hn
    split
    · rename_i l e
      rw [e] at hl hk
      exact h.of_nodes hl hk
    · rename_i l st _ e
      rw [e] at hl hk
      exact h.of_nodes hl hk

/-- A forwarded call: accepted by all nodes, or refused with nothing changed. -/
theorem forward_holds {dflt : Option Xs} {c : Life.Ctor} {v : Values} {a : Sky} (hc : 3 ≤ (Life.construct c).1.numneu) (h : Holds c v a)
    (op : AOp) (o : Life.Op) (ho : op.forward = some o) :
    ((forAll (fun s => Life.step dflt s o) a.nodes).2 = .ok ∧
      Holds c (v.after op) { a with nodes := (forAll (fun s => Life.step dflt s o) a.nodes).1 }) ∨
    (forAll (fun s => Life.step dflt s o) a.nodes) = (a.nodes, .throws) := by
  have hst : ∀ x ∈ a.nodes, if accepts (Life.construct c).1.numneu (Life.construct c).1.nt (Life.construct c).1.iint op then
      (Life.step dflt x o).2 = .ok ∧ held (Life.step dflt x o).1 = v.after op else Life.step dflt x o = (x, .throws) := by
    intro x hx
    have hf := h.fixed x hx
    have := forward_step dflt x op o ho (by rw [hf.numneu]; exact hc)
    rwa [hf.numneu, hf.nt, hf.iint, h.held x hx] at this
  by_cases hacc : accepts (Life.construct c).1.numneu (Life.construct c).1.nt (Life.construct c).1.iint op = true
  · left
    simp only [hacc, if_true] at hst
    have he := forAll_all_ok (fun s => Life.step dflt s o) a.nodes fun x hx => (hst x hx).1
    rw [he]
    refine ⟨rfl, ?_, ?_, ?_⟩
    · simpa using h.nonempty
    · intro x hx
      obtain ⟨y, hy, rfl⟩ := List.mem_map.1 hx
      exact (h.fixed y hy).trans (Life.step_fixed dflt y o)
    · intro x hx
      obtain ⟨y, hy, rfl⟩ := List.mem_map.1 hx
      exact (hst y hy).2
  · right
    simp only [hacc, if_false, Bool.false_eq_true] at hst
    match hn : a.nodes with
    | [] => exact absurd hn h.nonempty
    | x :: xs =>
      have := hst x (by rw [hn]; exact List.mem_cons_self ..)
      unfold forAll
      rw [this]

theorem astep_holds {dflt : Option Xs} {c : Life.Ctor} {v : Values} {a : Sky} (hc : 3 ≤ (Life.construct c).1.numneu) (h : Holds c v a)
    (op : AOp) : Holds c (if (astep dflt a op).2 = .ok then v.after op else v) (astep dflt a op).1 := by
  have hf : ∀ o, op.forward = some o → astep dflt a op = ({ a with nodes := (forAll (fun s => Life.step dflt s o) a.nodes).1 },
      (forAll (fun s => Life.step dflt s o) a.nodes).2) := by
    intro o ho
    cases op <;> simp only [AOp.forward, Option.some.injEq, reduceCtorEq] at ho <;> subst ho <;> rfl
  cases hfw : op.forward with
  | some o =>
    rw [hf o hfw]
    rcases forward_holds (dflt := dflt) hc h op o hfw with ⟨h1, h2⟩ | h1
    · rw [h1, if_pos rfl]; exact h2
    · rw [h1]
      exact h
  | none =>
    have ha : v.after op = v := by cases op <;> simp only [AOp.forward, reduceCtorEq] at hfw <;> rfl
    rw [ha, ite_self]
    cases op <;> simp only [AOp.forward, reduceCtorEq] at hfw
    case setXs x =>
      refine h.of_nodes (a' := (astep dflt a (.setXs x)).1) (forAll_length _ _) fun hn => ?_
      refine forAll_keeps (fun s => Life.setXs s x) _ (fun y hy => ?_) _ hn
      exact ⟨hy.1.trans ⟨rfl, rfl, rfl, rfl, rfl, rfl⟩, hy.2⟩
    case setThreads n hw => exact ⟨h.nonempty, h.fixed, h.held⟩
    case setInitial d b => exact setInitial_holds d b h
    case evolve order => exact evolve_holds order h

theorem construct_min {c : Life.Ctor} (h : (Life.construct c).2 = .ok) : 3 ≤ (Life.construct c).1.numneu ∧
    (Life.construct c).1.numneu = flavours c ∧ flavours c ≤ maxDim := by
  have e : Life.construct c = ((Life.construct c).1, .ok) := by rw [← h]
  have f := Life.construct_fresh c _ e
  have g := construct_flavours c _ e
  exact ⟨f.lo, g, g ▸ f.hi⟩

theorem arun_holds {dflt : Option Xs} {found : Option Bool} {c : Life.Ctor} {earth : BodyRef} {trs : List TrackRef}
    {tr : List (AOp × Status)} {a : Sky} (hr : ARun dflt found c earth trs tr a) :
    Holds c (lastValues c earth tr) a ∧ (Life.construct c).2 = .ok := by
  induction hr with
  | start a h =>
    have := create_holds h
    exact ⟨this.1, this.2.1⟩
  | call tr a a' op st hr h hst ih =>
    refine ⟨?_, ih.2⟩
    have := astep_holds (dflt := dflt) (construct_min ih.2).1 ih.1 op
    rw [h] at this
    unfold lastValues
    rw [List.foldl_append]
    exact this

theorem threads_kept (dflt : Option Xs) (a : Sky) (op : AOp) : (astep dflt a op).1.threads =
    match op with | .setThreads n hw => some (chooseThreads n hw) | _ => a.threads := by
  have hp : (prepare dflt a).1.threads = a.threads := by
    unfold prepare
    split
    · rfl
    · split
      · split <;> rfl
      · rfl
  cases op <;> try rfl
  case setInitial d b =>
    simp only [astep, setInitial]
    split
    · rfl
    · split <;> rfl
  case evolve order =>
    simp only [astep, evolve]
    split
    · rfl
    · rfl
    · split
      · rfl
      · rcases hr : prepare dflt a with ⟨b, st⟩
        rw [hr] at hp
        cases st
        · dsimp only
          split
          · exact hp
          · exact hp
        · exact hp
        · exact hp

theorem arun_threads {dflt : Option Xs} {found : Option Bool} {c : Life.Ctor} {earth : BodyRef} {trs : List TrackRef}
    {tr : List (AOp × Status)} {a : Sky} (hr : ARun dflt found c earth trs tr a) : a.threads = some (lastThreads tr) := by
  induction hr with
  | start a h => exact (create_holds h).2.2.1
  | call tr a a' op st hr h hst ih =>
    have := threads_kept dflt a op
    rw [h] at this
    rw [this]
    unfold lastThreads
    rw [List.foldl_append]
    cases op <;> try exact ih
    simp only [List.foldl_cons, List.foldl_nil, chooseThreads]
    congr 1
    grind

theorem lastThreads_pos (tr : List (AOp × Status)) : 1 ≤ lastThreads tr := by
  unfold lastThreads
  have : ∀ (n : Nat), 1 ≤ n → 1 ≤ tr.foldl (fun n (x : AOp × Status) => match x.1 with
      | .setThreads m hw => (if 0 < m then m else if 0 < hw then hw else 1) | _ => n) n := by
    induction tr with
    | nil => exact fun _ h => h
    | cons x xs ih =>
      intro n hn
      rw [List.foldl_cons]
      apply ih
      split
      · split
        · assumption
        · split
          · assumption
          · exact Nat.le_refl 1
      · exact hn
  exact this 1 (Nat.le_refl 1)

/-! ## Theorems -/

/-- C61: after every history of calls on an object made by the main constructor all nodes hold the values last set, whether or not the
object was evolved in between, and there is at least one node. -/
theorem c61_nodes_hold_last_values (dflt : Option Xs) (found : Option Bool) (c : Life.Ctor) (earth : BodyRef) (trs : List TrackRef)
    (tr : List (AOp × Status)) (a : Sky) (hr : ARun dflt found c earth trs tr a) :
    a.nodes ≠ [] ∧ ∀ x ∈ a.nodes, held x = lastValues c earth tr :=
  ⟨(arun_holds hr).1.nonempty, (arun_holds hr).1.held⟩

/-- C61: the getters return the values last set. -/
theorem c61_getters (dflt : Option Xs) (found : Option Bool) (c : Life.Ctor) (earth : BodyRef) (trs : List TrackRef)
    (tr : List (AOp × Status)) (a : Sky) (hr : ARun dflt found c earth trs tr a) (i j : Nat) (hij : i < j) (hj : j < flavours c) :
    getAngle a i j = .ok ((lastValues c earth tr).angle i j) ∧ getPhase a i j = .ok ((lastValues c earth tr).phase i j) ∧
    getDm2 a j = .ok ((lastValues c earth tr).dm2 j) := by
  obtain ⟨h, hc⟩ := arun_holds hr
  obtain ⟨_, h2, h3⟩ := construct_min hc
  unfold getAngle getPhase getDm2
  match hn : a.nodes with
  | [] => exact absurd hn h.nonempty
  | s :: l =>
    have hm : s ∈ a.nodes := by rw [hn]; exact List.mem_cons_self ..
    have hh := h.held s hm
    have hs : s.numneu = flavours c := (h.fixed s hm).numneu.trans h2
    have e1 : s.params.angle = (lastValues c earth tr).angle := by rw [← hh]; rfl
    have e2 : s.params.phase = (lastValues c earth tr).phase := by rw [← hh]; rfl
    have e3 : s.params.dm2 = (lastValues c earth tr).dm2 := by rw [← hh]; rfl
    have hp : pairOk i j = true := by unfold pairOk; simp; omega
    unfold Life.getAngle Life.getPhase Life.getDm2
    dsimp only
    rw [if_neg (by omega), if_pos hp, if_neg (by omega), if_pos hp, if_neg (by omega), if_pos (by omega), e1, e2, e3]
    exact ⟨rfl, rfl, rfl⟩

/-- C61: the number of threads is the one last chosen, and never 0. -/
theorem c61_threads_partial (dflt : Option Xs) (found : Option Bool) (c : Life.Ctor) (earth : BodyRef) (trs : List TrackRef)
    (tr : List (AOp × Status)) (a : Sky) (hr : ARun dflt found c earth trs tr a) :
    getThreads a = .ok (lastThreads tr) ∧ 1 ≤ lastThreads tr := by
  refine ⟨?_, lastThreads_pos tr⟩
  unfold getThreads
  rw [arun_threads hr]
  rfl

/-- The two-zenith object after some calls. -/
example : ∃ a, twoSky none = .ok a ∧
    (aexec none a [.setAngle 1 2 3, .setThreads 0 8, .setInitial [2, 1, 3] .flavor, .evolve [1, 0], .setPhase 0 2 4, .setTau true]).2 =
      [.ok, .ok, .ok, .ok, .ok, .throws] ∧
    getAngle (aexec none a [.setAngle 1 2 3, .setThreads 0 8, .setInitial [2, 1, 3] .flavor, .evolve [1, 0], .setPhase 0 2 4,
      .setTau true]).1 1 2 = .ok 3 ∧
    (aexec none a [.setAngle 1 2 3, .setThreads 0 8, .setInitial [2, 1, 3] .flavor, .evolve [1, 0], .setPhase 0 2 4,
      .setTau true]).1.nodes.map (fun s => (s.params.phase 0 2, s.tauregen)) = [(4, false), (4, false)] ∧
    getThreads (aexec none a [.setAngle 1 2 3, .setThreads 0 8, .setInitial [2, 1, 3] .flavor, .evolve [1, 0], .setPhase 0 2 4,
      .setTau true]).1 = .ok 8 :=
  ⟨_, rfl, by decide +kernel, by decide +kernel, by decide +kernel, by decide +kernel⟩

/-! ## Where the claim fails -/

/-- C61 fails for an object read from a file: nothing gives the number of threads a value; asking for it, or evolving, reads an
uninitialised member. -/
theorem c61_threads_violated (nodes : List Life.Obj) (nE : Nat) (tables : Option Life.Tables) : getThreads (fromFile nodes nE tables) = .ub :=
  rfl

/-- With interactions the first evolution gives the default cross sections to the first node only. -/
def xsSky : Outcome Sky :=
  create none (.multi [5, 6] 3 .neutrino true none) ⟨1, false⟩ [⟨7, 0, 100, 0⟩, ⟨8, 0, 50, 0⟩]

/-- C61 fails for the cross sections: after the first evolution with the default library the nodes do not agree on it, and the getter
of the atmospheric object still returns a null pointer. -/
theorem c61_cross_sections_violated : ∃ a, xsSky = .ok a ∧
    (aexec (some ⟨42, true, false, true, true⟩) a [.setInitial [2, 2, 3] .flavor, .evolve []]).2 = [.ok, .ok] ∧
    (aexec (some ⟨42, true, false, true, true⟩) a [.setInitial [2, 2, 3] .flavor, .evolve []]).1.nodes.map (fun s => s.ncs.map (·.id)) =
      [some 42, none] ∧
    (aexec (some ⟨42, true, false, true, true⟩) a [.setInitial [2, 2, 3] .flavor, .evolve []]).1.ncs = none :=
  ⟨_, rfl, by decide +kernel, by decide +kernel, by decide +kernel⟩

end Verif.Atm
