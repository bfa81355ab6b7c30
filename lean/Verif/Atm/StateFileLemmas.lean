import Verif.Atm.StateFile
import Verif.Atm.GridProps
import Verif.Atm.NameProps
import Verif.StateIO.Props

/-!
# Lemmas on the state files of the atmospheric object
-/

namespace Verif.Atm

open Life (Status Xs Tables BodyRef TrackRef)
open StateIO (State File Rep SameReport SameInside Settled asInteraction)

/-! ## Every node is settled between calls -/

theorem prepare_settled (dflt : Option Xs) (a : Sky) (h : ∀ x ∈ a.nodes, Settled x) : ∀ x ∈ (prepare dflt a).1.nodes, Settled x := by
  intro x hx
  obtain ⟨k, hk⟩ := List.mem_iff_getElem?.1 hx
  obtain ⟨y, hy, hp⟩ := prepare_each dflt a k x hk
  have hy := h y (List.mem_of_getElem? hy)
  have hi : ∀ z, Settled z → Settled (Life.initInteractions dflt z).1 := fun z hz => StateIO.settled_step dflt z .initInteractions hz
  rcases hp with rfl | rfl | ⟨tb, rfl | rfl⟩
  · exact hy
  · exact hi _ hy
  · exact hi _ (StateIO.settled_tables _ _ hy)
  · exact hi _ (StateIO.settled_tables _ _ (hi _ hy))

theorem astep_settled (dflt : Option Xs) (a : Sky) (op : AOp) (h : ∀ x ∈ a.nodes, Settled x) : ∀ x ∈ (astep dflt a op).1.nodes, Settled x := by
  have hf : ∀ o, op.forward = some o → ∀ x ∈ (astep dflt a op).1.nodes, Settled x := by
    intro o ho
    have : astep dflt a op = ({ a with nodes := (forAll (fun s => Life.step dflt s o) a.nodes).1 },
        (forAll (fun s => Life.step dflt s o) a.nodes).2) := by
      cases op <;> simp only [AOp.forward, Option.some.injEq, reduceCtorEq] at ho <;> subst ho <;> rfl
    rw [this]
    exact forAll_keeps (fun s => Life.step dflt s o) Settled (fun x hx => StateIO.settled_step dflt x o hx) _ h
  cases hfw : op.forward with
  | some o => exact hf o hfw
  | none =>
    cases op <;> simp only [AOp.forward, reduceCtorEq] at hfw
    case setXs x => exact forAll_keeps (fun s => Life.setXs s x) Settled (fun y hy => StateIO.settled_step dflt y (.setXs x) hy) _ h
    case setThreads n hw => exact h
    case setInitial d b =>
      simp only [astep, setInitial]
      split
      · exact h
      · rename_i d' _
        have := forAll_keeps (fun s => Life.setInitial s d' b) Settled (fun y hy => StateIO.settled_step dflt y (.setInitial d' b) hy) _ h
        split
        · rename_i e; rw [e] at this; exact this
        · rename_i e; rw [e] at this; exact this
    case evolve order =>
      have hk : ∀ x, Settled x → Settled (Life.evolveState dflt x).1 := fun x hx => StateIO.settled_step dflt x .evolve hx
      have hp := prepare_settled dflt a h
      simp only [astep, evolve]
      split
      · exact h
      · exact h
      · split
        · exact h
        · rcases hr : prepare dflt a with ⟨b, st⟩
          rw [hr] at hp
          cases st
          · dsimp only
            split
            · exact hp
            · dsimp only
              split
              · exact forAll_keeps _ _ hk _ hp
              · exact inTasks_keeps _ _ hk _ _ hp
          · exact hp
          · exact hp

theorem startNode_settled {c : Life.Ctor} {earth : BodyRef} {t : TrackRef} {s : Life.Obj} (h : startNode c earth t = (s, .ok)) : Settled s := by
  unfold startNode at h
  rcases hc : Life.construct c with ⟨s0, st⟩
  rw [hc] at h
  cases st
  · have h0 : Settled s0 := StateIO.run_settled (dflt := none) (Life.Run.start s0 hc)
    have h1 := StateIO.settled_step none s0 (.setBody (some earth)) h0
    have h2 := StateIO.settled_step none _ (.setTrack (some t)) h1
    simp only [Life.step, Life.setBody] at h h2
    rw [h] at h2
    exact h2
  · simp at h
  · simp at h

theorem startNodes_settled {c : Life.Ctor} {earth : BodyRef} : ∀ (trs : List TrackRef) (l : List Life.Obj), startNodes c earth trs = .ok l →
    ∀ x ∈ l, Settled x := by
  intro trs
  induction trs with
  | nil =>
    intro l h
    simp only [startNodes, Outcome.ok.injEq] at h
    subst h
    simp
  | cons t ts ih =>
    intro l h
    unfold startNodes at h
    split at h
    · rename_i s hs
      rcases hr : startNodes c earth ts with l' | _ | _
      · rw [hr] at h
        simp only [Outcome.map, Outcome.ok.injEq] at h
        subst h
        intro x hx
        rcases List.mem_cons.1 hx with rfl | hx
        · exact startNode_settled hs
        · exact ih l' hr x hx
      · rw [hr] at h; simp [Outcome.map] at h
      · rw [hr] at h; simp [Outcome.map] at h
    · simp at h
    · simp at h

theorem arun_settled {dflt : Option Xs} {found : Option Bool} {c : Life.Ctor} {earth : BodyRef} {trs : List TrackRef}
    {tr : List (AOp × Status)} {a : Sky} (hr : ARun dflt found c earth trs tr a) : ∀ x ∈ a.nodes, Settled x := by
  induction hr with
  | start a h =>
    unfold create at h
    split at h
    · simp at h
    · rename_i s nodes hs
      simp only [Outcome.ok.injEq] at h
      subst h
      exact startNodes_settled trs _ hs
    · simp at h
    · simp at h
  | call tr a a' op st hr h hst ih =>
    have := astep_settled dflt a op ih
    rwa [h] at this

/-! ## What is in the file -/

theorem lookup_snoc {β : Type} (l : List (List Char × β)) (k k' : List Char) (v : β) :
    (l ++ [(k', v)]).lookup k = (l.lookup k).or (if k = k' then some v else none) := by
  induction l with
  | nil =>
    by_cases h : k = k'
    · subst h; simp [List.lookup]
    · have : (k == k') = false := by simpa using h
      simp [List.lookup, this, h]
  | cons p ps ih =>
    obtain ⟨q, w⟩ := p
    simp only [List.cons_append, List.lookup]
    split
    · rfl
    · exact ih

theorem write_tables_none {dflt : Option Xs} {stray : Option Nat} {s : State} {g : File}
    (h : StateIO.write dflt false stray s = .ok g) : g.tables = none := by
  obtain ⟨_, b, tr, tabs, _, _, rfl, hnone, _⟩ := StateIO.write_ok h
  exact hnone (by simp)

/-- The nodes after the first: what was there stays, each node is under its name, and the tables are not touched. -/
theorem writeSkyNodes_rest (rnd : Rat → Int) (dflt : Option Xs) (stray : Option Nat) : ∀ (ss : List State) (xs : List Rat) (f f' : SkyFile),
    writeSkyNodes rnd dflt stray false xs ss f = .ok f' →
    f'.zeniths = f.zeniths ∧ f'.energies = f.energies ∧ f'.shared = f.shared ∧
    (∀ k g, f.groups.lookup k = some g → f'.groups.lookup k = some g) ∧
    ∀ (i : Nat) x s, xs[i]? = some x → ss[i]? = some s →
      ∃ g, StateIO.write dflt false stray s = .ok g ∧ f'.groups.lookup (nodeName rnd x) = some g := by
  intro ss
  induction ss with
  | nil =>
    intro xs f f' h
    have : writeSkyNodes rnd dflt stray false xs [] f = .ok f := by unfold writeSkyNodes; rfl
    rw [this] at h
    cases h
    exact ⟨rfl, rfl, rfl, fun _ _ h => h, fun i x s _ h => by simp at h⟩
  | cons s ss ih =>
    intro xs f f' h
    cases xs with
    | nil => simp [writeSkyNodes] at h
    | cons x xs =>
      unfold writeSkyNodes at h
      by_cases hg : Life.evolveGuards s.obj = true
      · rw [if_pos hg] at h
        cases hl : f.groups.lookup (nodeName rnd x) with
        | some g0 => rw [hl] at h; simp at h
        | none =>
          rw [hl] at h
          dsimp only at h
          rcases hw : StateIO.write dflt false stray s with g | _ | _
          · rw [hw] at h
            simp only [Outcome.bind] at h
            have hn := write_tables_none hw
            have hgg : ({ g with tables := none } : File) = g := by rw [← hn]
            rw [hn, hgg] at h
            obtain ⟨h1, h2, h3, h4, h5⟩ := ih _ _ _ h
            have hx : f'.groups.lookup (nodeName rnd x) = some g := by
              apply h4
              rw [lookup_snoc, hl]
              simp
            refine ⟨h1, h2, by simpa using h3, ?_, ?_⟩
            · intro k g' hk
              apply h4
              rw [lookup_snoc, hk]
              simp
            · intro i y s' hy hs'
              cases i with
              | zero =>
                simp only [List.getElem?_cons_zero, Option.some.injEq] at hy hs'
                subst hy; subst hs'
                exact ⟨g, hw, hx⟩
              | succ i =>
                simp only [List.getElem?_cons_succ] at hy hs'
                exact h5 i y s' hy hs'
          · rw [hw] at h; simp [Outcome.bind] at h
          · rw [hw] at h; simp [Outcome.bind] at h
      · rw [if_neg hg] at h; simp at h

/-- What is known of a file that was written. -/
theorem writeSky_ok {rnd : Rat → Int} {dflt : Option Xs} {stray : Option Nat} {ow : Bool} {a : FullSky} {f : SkyFile} {x : Rat} {xs : List Rat}
    {s : State} {ss : List State} (hx : a.costh = x :: xs) (hs : a.nodes = s :: ss) (h : writeSky rnd dflt stray ow a = .ok f) :
    f.zeniths = a.costh ∧ f.energies = a.enu ∧
    (∃ g, StateIO.write dflt true stray s = .ok g ∧ f.groups.lookup (nodeName rnd x) = some { g with tables := none } ∧ f.shared = g.tables) ∧
    ∀ (i : Nat) y s', xs[i]? = some y → ss[i]? = some s' →
      ∃ g, StateIO.write dflt false stray s' = .ok g ∧ f.groups.lookup (nodeName rnd y) = some g := by
  unfold writeSky at h
  split at h
  · simp at h
  · simp at h
  · by_cases h1 : (!a.iatm) = true
    · rw [if_pos h1] at h; simp at h
    · rw [if_neg h1] at h
      by_cases h2 : (!ow) = true
      · rw [if_pos h2] at h; simp at h
      · rw [if_neg h2, hx, hs] at h
        unfold writeSkyNodes at h
        by_cases hg : Life.evolveGuards s.obj = true
        · rw [if_pos hg] at h
          simp only [List.lookup] at h
          rcases hw : StateIO.write dflt true stray s with g | _ | _
          · rw [hw] at h
            simp only [Outcome.bind] at h
            obtain ⟨k1, k2, k3, k4, k5⟩ := writeSkyNodes_rest _ _ _ _ _ _ _ h
            refine ⟨by rw [k1, hx], k2, ⟨g, rfl, ?_, by simpa using k3⟩, k5⟩
            apply k4
            simp
          · rw [hw] at h; simp [Outcome.bind] at h
          · rw [hw] at h; simp [Outcome.bind] at h
        · rw [if_neg hg] at h; simp at h

/-! ## Reading it -/

/-- What reading gives for a node. -/
structure NodeBack (R : Rep) (t : Option Tables) (s s' : State) : Prop where
  report : SameReport R (asInteraction s) s'
  guards : Life.evolveGuards s'.obj = true
  tables : s.obj.iint = true → s'.obj.tables = t
  basis : s'.obj.basis = .interaction
  inside : SameInside R s s'
  positivization : s'.obj.positivization = false
  allowConst : s'.obj.allowConst = false

theorem readSkyNodes_ok (R : Rep) (rnd : Rat → Int) (dflt : Option Xs) (stray : Option Nat) (f : SkyFile) (iis : Option Tables) :
    ∀ (ss : List State) (xs : List Rat), xs.length = ss.length →
    (∀ (i : Nat) y s', xs[i]? = some y → ss[i]? = some s' →
      ∃ g, StateIO.write dflt false stray s' = .ok g ∧ f.groups.lookup (nodeName rnd y) = some g) →
    (∀ s ∈ ss, Settled s.obj ∧ (s.obj.ne = 1 → s.obj.nt ≠ .both) ∧ (s.obj.iint = true → iis.isSome = true)) →
    ∃ l, readSkyNodes rnd f iis xs = .ok l ∧ List.Forall₂ (NodeBack R iis) ss l := by
  intro ss
  induction ss with
  | nil =>
    intro xs hl _ _
    have : xs = [] := List.length_eq_zero_iff.1 hl
    subst this
    exact ⟨[], rfl, .nil⟩
  | cons s ss ih =>
    intro xs hl hf hs
    cases xs with
    | nil => simp at hl
    | cons x xs =>
      obtain ⟨g, hg, hlook⟩ := hf 0 x s rfl rfl
      obtain ⟨h1, h2, h3⟩ := hs s (List.mem_cons_self ..)
      obtain ⟨s', k1, k2, k3, k4, k5, k6, k7, k8⟩ := StateIO.readInternal_settled R dflt s h1 h2 stray g hg iis h3
      obtain ⟨l, hl1, hl2⟩ := ih xs (by simpa using hl) (fun i y s' hy hs' => hf (i + 1) y s' hy hs')
        fun z hz => hs z (List.mem_cons_of_mem _ hz)
      refine ⟨s' :: l, ?_, .cons ⟨k2, k3, k4, k5, k8, k6, k7⟩ hl2⟩
      unfold readSkyNodes
      rw [hlook]
      simp only [k1, hl1, Outcome.bind, Outcome.map]

/-! ## Evaluation -/

/-- A node with nothing outside its arrays. -/
noncomputable def Node.norm {n : Nat} (nd : Node n) : Node n :=
  { nd with
    state := fun ei rho => if ei < nd.ne ∧ rho < nd.nrhos then nd.state ei rho else 0
    b1 := fun rho flv => if rho < nd.nrhos then nd.b1 rho flv else 0 }

theorem norm_getState {n : Nat} (nd : Node n) (ei rho : Nat) : nd.norm.getState ei rho = nd.getState ei rho := by
  unfold Node.getState Node.norm
  by_cases h : ei < nd.ne ∧ rho < nd.nrhos <;> simp [h]

theorem norm_getProj {n : Nat} (nd : Node n) (flv rho : Nat) : nd.norm.getProj flv rho = nd.getProj flv rho := by
  unfold Node.getProj Node.norm
  by_cases h : flv < n
  · by_cases h' : rho < nd.nrhos <;> simp [h, h']
  · simp [h]

/-- `EvalFlavor` reads nothing outside the arrays. -/
theorem eval_norm {n : Nat} (a : Obj n) (ev : Density.Mat n → ℝ → Density.Mat n → Density.Mat n) (height : ℝ) (flv : Nat) (costh enu : ℝ)
    (rho : Nat) : evalWith { a with nodes := a.nodes.map Node.norm } ev height flv costh enu rho = evalWith a ev height flv costh enu rho := by
  have key : ∀ M L, interpolate { a with nodes := a.nodes.map Node.norm } ev height flv costh enu rho M L =
      interpolate a ev height flv costh enu rho M L := by
    intro M L
    unfold interpolate
    simp only [List.getElem?_map]
    cases a.nodes[M]? with
    | none => rfl
    | some nM =>
      cases a.nodes[M + 1]? with
      | none => rfl
      | some nP =>
        cases a.nodes[0]? with
        | none => rfl
        | some n0 =>
          simp only [Option.map_some, Option.bind_eq_bind, Option.bind_some, norm_getState, norm_getProj]
          rfl
  unfold evalWith
  simp only [key]

theorem nodeView_norm (R : Rep) (s s' : State) (h : SameReport R (asInteraction s) s') (hi : SameInside R s s') :
    (nodeView R s.obj.numneu s').norm = (nodeView R s.obj.numneu s).norm := by
  have e1 : s'.obj.t = s.obj.t := h.t
  have e2 : s'.obj.tIni = s.obj.tIni := h.tIni
  have e3 : s'.obj.track = s.obj.track := h.track
  have e4 : s'.obj.ne = s.obj.ne := h.ne
  have e5 : s'.obj.nrhos = s.obj.nrhos := hi.nrhos
  have e6 : s'.obj.osc = s.obj.osc := h.osc
  have e7 : dm2Mat s.obj.numneu s'.obj.dm2Key = dm2Mat s.obj.numneu s.obj.dm2Key := by
    unfold dm2Mat
    apply Finset.sum_congr rfl
    intro i _
    by_cases h1 : 1 ≤ i.val
    · rw [if_pos h1, if_pos h1, hi.dm2 i.val h1 i.isLt]
    · rw [if_neg h1, if_neg h1]
  unfold Node.norm nodeView
  simp only [e1, e2, e3, e4, e5, e6, e7, Node.mk.injEq, true_and, and_true]
  refine ⟨?_, ?_⟩
  · funext ei rho
    by_cases hc : ei < s.obj.ne ∧ rho < s.obj.nrhos
    · rw [if_pos hc, if_pos hc, hi.comps ei rho hc.1 hc.2]
    · rw [if_neg hc, if_neg hc]
  · funext rho flv
    by_cases hc : rho < s.obj.nrhos
    · rw [if_pos hc, if_pos hc, hi.proj rho flv hc flv.isLt]
    · rw [if_neg hc, if_neg hc]

end Verif.Atm
