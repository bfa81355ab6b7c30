import Verif.Atm.StateFileLemmas
import Verif.StateIO.ViolationProps

/-!
# C95: an atmospheric object read back from its file
-/

namespace Verif.Atm

open Life (Status Xs Tables BodyRef TrackRef)
open StateIO (State File Rep SameReport Settled asInteraction)

/-! ## Specification -/

/-- The object has the given history; the Earth is the one last given. -/
structure History (dflt : Option Xs) (found : Option Bool) (c : Life.Ctor) (earth : BodyRef) (trs : List TrackRef) (tr : List (AOp × Status))
    (a : FullSky) : Prop where
  run : ARun dflt found c earth trs tr a.sky
  earth : a.earth = (lastValues c earth tr).body

/-- What C95 asks of the object read back, for `n` flavours: the same grid and Earth, nodes that report the same, a state that may be
evolved, the same parameters and the same answer to every query. The basis a node was left in is not saved: its own contents are the same
if this was the interaction picture. -/
structure SameSky (R : Rep) (n : Nat) (a a' : FullSky) : Prop where
  costh : a'.costh = a.costh
  enu : a'.enu = a.enu
  earth : a'.earth = a.earth
  ready : a'.iini = some true ∧ a'.iatm = true ∧ ∀ s ∈ a'.nodes, Life.evolveGuards s.obj = true
  nodes : List.Forall₂ (fun s s' => SameReport R (asInteraction s) s' ∧ (s.obj.basis = .interaction → SameReport R s s')) a.nodes a'.nodes
  angles : ∀ i j, i < n → j < n → getAngle a'.sky i j = getAngle a.sky i j
  phases : ∀ i j, i < n → j < n → getPhase a'.sky i j = getPhase a.sky i j
  masses : ∀ i, i < n → getDm2 a'.sky i = getDm2 a.sky i
  values : ∀ length ev height flv costh enu rho,
    evalWith (view R length n a') ev height flv costh enu rho = evalWith (view R length n a) ev height flv costh enu rho

/-! ## Proofs -/

theorem as_interaction {s : State} (h : s.obj.basis = .interaction) : asInteraction s = s := by
  obtain ⟨o, cs⟩ := s
  unfold asInteraction
  simp only at h ⊢
  rw [← h]

theorem view_norm (R : Rep) (n : Nat) (t : Option Tables) : ∀ (l l' : List State), List.Forall₂ (NodeBack R t) l l' →
    (∀ s ∈ l, s.obj.numneu = n) → (l'.map (nodeView R n)).map Node.norm = (l.map (nodeView R n)).map Node.norm := by
  intro l l' h
  induction h with
  | nil => intro _; rfl
  | cons hx _ ih =>
    intro hn
    rename_i s s' l l' _
    have hs := hn s (List.mem_cons_self ..)
    subst hs
    simp only [List.map_cons]
    rw [nodeView_norm R s s' hx.report hx.inside]
    rw [ih fun z hz => hn z (List.mem_cons_of_mem _ hz)]

/-- The object read back, node by node. -/
theorem read_sky (R : Rep) (rnd : Rat → Int) (isEarthAtm : BodyRef → Bool) (dflt : Option Xs) (found : Option Bool) (c : Life.Ctor)
    (earth : BodyRef) (trs : List TrackRef) (tr : List (AOp × Status)) (a : FullSky) (h : History dflt found c earth trs tr a)
    (hearth : ∀ b, a.earth = some b → isEarthAtm b = true) (hone : ∀ s ∈ a.nodes, s.obj.ne = 1 → s.obj.nt ≠ .both) (stray : Option Nat)
    (hpad : ∀ k, stray = some k → ∀ s ∈ a.nodes, k = s.obj.ne → s.obj.ne % 4 = 0) (ow : Bool) (f : SkyFile)
    (hw : writeSky rnd dflt stray ow a = .ok f) (a0 : FullSky) :
    ∃ a', readSky rnd isEarthAtm a0 f = .ok a' ∧ SameSky R (flavours c) a a' ∧ List.Forall₂ (NodeBack R a'.tables) a.nodes a'.nodes ∧
      a'.ncs = a0.ncs ∧ a'.threads = a0.threads ∧
      ∀ s, a.nodes.head? = some s → s.obj.iint = true → a'.tables = (Life.initInteractions dflt s.obj).1.tables := by
  have hg := arun_grid h.run
  have hh := (arun_holds h.run)
  have hset : ∀ s ∈ a.nodes, Settled s.obj := fun s hs => arun_settled h.run s.obj (List.mem_map_of_mem hs)
  have hfix : ∀ s ∈ a.nodes, Life.Fixed (Life.construct c).1 s.obj := fun s hs => hh.1.fixed s.obj (List.mem_map_of_mem hs)
  have hnn : ∀ s ∈ a.nodes, s.obj.numneu = flavours c := fun s hs => by
    rw [(hfix s hs).numneu]; exact (construct_min hh.2).2.1
  have hlen : a.costh.length = a.nodes.length := by
    have h1 : a.costh.length = trs.length := hg.nCosth
    have h2 : (a.nodes.map State.obj).length = trs.length := hg.length
    rw [h1, ← h2, List.length_map]
  have hiini : a.iini = some true ∧ a.iatm = true := by
    unfold writeSky at hw
    split at hw
    · simp at hw
    · simp at hw
    · rename_i hi
      refine ⟨hi, ?_⟩
      by_cases hx : a.iatm = true
      · exact hx
      · simp [hx] at hw
  cases hnodes : a.nodes with
  | nil => exact absurd (by simp [FullSky.sky, hnodes]) hg.nonempty
  | cons s ss =>
    cases hc : a.costh with
    | nil => rw [hc, hnodes] at hlen; simp at hlen
    | cons x xs =>
      obtain ⟨w1, w2, ⟨g, wg, wl, ws⟩, wr⟩ := writeSky_ok hc hnodes hw
      have hs : s ∈ a.nodes := by rw [hnodes]; exact List.mem_cons_self ..
      have hss : ∀ z ∈ ss, z ∈ a.nodes := fun z hz => by rw [hnodes]; exact List.mem_cons_of_mem _ hz
      obtain ⟨s', k1, k2, k3, k4, k5, k6, k7, k8⟩ := StateIO.read_settled R dflt s (hset s hs) (hone s hs) true (fun _ => rfl) stray
        (fun k hk => hpad k hk s hs) g wg
      have hint : s'.obj.iint = s.obj.iint := k2.iint
      have hgg : ({ ({ g with tables := none } : File) with tables := f.shared } : File) = g := by rw [ws]
      have htab : s.obj.iint = true → (Life.initInteractions dflt s.obj).1.tables.isSome = true := by
        intro hi
        obtain ⟨_, b, tr, tabs, _, _, _, _, hsome⟩ := StateIO.write_ok wg
        obtain ⟨t, k, ht, _⟩ := hsome (by simp [hi])
        rw [ht]; rfl
      let iis := if s'.obj.iint then s'.obj.tables else a0.tables
      obtain ⟨l, hl1, hl2⟩ := readSkyNodes_ok R rnd dflt stray f iis ss xs (by rw [hc, hnodes] at hlen; simpa using hlen) wr (by
        intro z hz
        refine ⟨hset z (hss z hz), hone z (hss z hz), fun hi => ?_⟩
        have hsi : s.obj.iint = true := by
          rw [(hfix s hs).iint, ← (hfix z (hss z hz)).iint]; exact hi
        simp only [iis, hint, hsi, if_true, k4 hsi]
        exact htab hsi)
      have hbody : ∃ b, s'.obj.body = some b ∧ a.earth = some b := by
        have e1 : s'.obj.body = s.obj.body := k2.body
        have e2 : (held s.obj).body = (lastValues c earth tr).body := by rw [hh.1.held s.obj (List.mem_map_of_mem hs)]
        have e3 : s.obj.body = a.earth := by rw [h.earth]; exact e2
        obtain ⟨_, b, _, _, hb, _⟩ := StateIO.write_ok wg
        exact ⟨b, e1.trans hb, e3.symm.trans hb⟩
      obtain ⟨b, hb1, hb2⟩ := hbody
      have hback : List.Forall₂ (NodeBack R iis) (s :: ss) (s' :: l) := by
        refine .cons ⟨k2, k3, fun hi => ?_, k5, k8, k6, k7⟩ hl2
        simp only [iis, hint, hi, if_true]
      have hread : readSky rnd isEarthAtm a0 f = .ok (FullSky.mk (some true) true f.zeniths f.energies (s' :: l) (some b) a0.ncs iis
          a0.threads) := by
        unfold readSky
        rw [w1, hc]
        simp only
        rw [wl]
        simp only
        rw [hgg, k1]
        simp only [Outcome.bind]
        rw [show readSkyNodes rnd f (if s'.obj.iint = true then s'.obj.tables else a0.tables) xs = .ok l from hl1]
        simp only [hb1]
        rw [if_pos (hearth b hb2)]
      have hn1 : s.obj.numneu = flavours c := hnn s hs
      refine ⟨_, hread, ⟨w1, w2, hb2.symm, ⟨rfl, rfl, ?_⟩, ?_, ?_, ?_, ?_, ?_⟩, hback, rfl, rfl, ?_⟩
      · intro z hz
        have : ∀ (l1 l2 : List State), List.Forall₂ (NodeBack R iis) l1 l2 → ∀ z ∈ l2, Life.evolveGuards z.obj = true := by
          intro l1 l2 hf
          induction hf with
          | nil => simp
          | cons hx _ ih =>
            intro z hz
            rcases List.mem_cons.1 hz with rfl | hz
            · exact hx.guards
            · exact ih z hz
        exact this _ _ hback z hz
      · rw [hnodes]
        exact hback.imp fun _ _ hz => ⟨hz.report, fun hbas => by have := hz.report; rwa [as_interaction hbas] at this⟩
      · intro i j hi hj
        simp only [FullSky.sky, hnodes, List.map_cons, getAngle]
        exact k2.angles i j (by simpa [asInteraction, hn1] using hi) (by simpa [asInteraction, hn1] using hj)
      · intro i j hi hj
        simp only [FullSky.sky, hnodes, List.map_cons, getPhase]
        exact k2.phases i j (by simpa [asInteraction, hn1] using hi) (by simpa [asInteraction, hn1] using hj)
      · intro i hi
        simp only [FullSky.sky, hnodes, List.map_cons, getDm2]
        exact k2.masses i (by simpa [asInteraction, hn1] using hi)
      · intro length ev height flv costh enu rho
        rw [← eval_norm (view R length (flavours c) _), ← eval_norm (view R length (flavours c) a)]
        have hv := view_norm R (flavours c) iis (s :: ss) (s' :: l) hback (fun z hz => hnn z (by rw [hnodes]; exact hz))
        unfold view
        simp only [w1, w2, hb2, hiini.1, hiini.2, hnodes, hv]
      · intro z hz hi
        rw [List.head?_cons, Option.some.injEq] at hz
        subst hz
        simp only [iis, hint, hi, if_true, k4 hi]

/-- C95, partial: whatever the history, an object whose file was written is read back, into a new object or one in use, with the same
grid, Earth and parameters, nodes that report the same, and the same answer to every query. Missing: files that cannot be written, the
settings that are not saved, one energy with both types, padded tables (below). -/
theorem c95_read_back_partial (R : Rep) (rnd : Rat → Int) (isEarthAtm : BodyRef → Bool) (dflt : Option Xs) (found : Option Bool)
    (c : Life.Ctor) (earth : BodyRef) (trs : List TrackRef) (tr : List (AOp × Status)) (a : FullSky)
    (h : History dflt found c earth trs tr a) (hearth : ∀ b, a.earth = some b → isEarthAtm b = true)
    (hone : ∀ s ∈ a.nodes, s.obj.ne = 1 → s.obj.nt ≠ .both) (stray : Option Nat)
    (hpad : ∀ k, stray = some k → ∀ s ∈ a.nodes, k = s.obj.ne → s.obj.ne % 4 = 0) (ow : Bool) (f : SkyFile)
    (hw : writeSky rnd dflt stray ow a = .ok f) (a0 : FullSky) :
    ∃ a', readSky rnd isEarthAtm a0 f = .ok a' ∧ SameSky R (flavours c) a a' := by
  obtain ⟨a', h1, h2, _⟩ := read_sky R rnd isEarthAtm dflt found c earth trs tr a h hearth hone stray hpad ow f hw a0
  exact ⟨a', h1, h2⟩

/-- C95, partial: with interactions all nodes read back share the tables the first node was written with. -/
theorem c95_tables_partial (rnd : Rat → Int) (isEarthAtm : BodyRef → Bool) (dflt : Option Xs) (found : Option Bool)
    (c : Life.Ctor) (earth : BodyRef) (trs : List TrackRef) (tr : List (AOp × Status)) (a : FullSky)
    (h : History dflt found c earth trs tr a) (hearth : ∀ b, a.earth = some b → isEarthAtm b = true)
    (hone : ∀ s ∈ a.nodes, s.obj.ne = 1 → s.obj.nt ≠ .both) (stray : Option Nat)
    (hpad : ∀ k, stray = some k → ∀ s ∈ a.nodes, k = s.obj.ne → s.obj.ne % 4 = 0) (ow : Bool) (f : SkyFile)
    (hw : writeSky rnd dflt stray ow a = .ok f) (a0 : FullSky) (first : State) (hf : a.nodes.head? = some first)
    (hi : first.obj.iint = true) :
    ∃ a' t, readSky rnd isEarthAtm a0 f = .ok a' ∧ (Life.initInteractions dflt first.obj).1.tables = some t ∧ a'.tables = some t ∧
      ∀ s' ∈ a'.nodes, s'.obj.tables = some t := by
  obtain ⟨a', h1, h2, h3, _, _, h6⟩ := read_sky ⟨fun _ _ => 0, fun _ _ _ => 0⟩ rnd isEarthAtm dflt found c earth trs tr a h hearth hone stray
    hpad ow f hw a0
  have h6 := h6 first hf hi
  have hh := (arun_holds h.run)
  have hfix : ∀ s ∈ a.nodes, Life.Fixed (Life.construct c).1 s.obj := fun s hs => hh.1.fixed s.obj (List.mem_map_of_mem hs)
  have hmem : first ∈ a.nodes := List.mem_of_head? hf
  have hall : ∀ s ∈ a.nodes, s.obj.iint = true := fun s hs => by
    rw [(hfix s hs).iint, ← (hfix first hmem).iint]; exact hi
  have hsome : ∃ t, (Life.initInteractions dflt first.obj).1.tables = some t := by
    have hlen : a.costh.length = a.nodes.length := by
      have hg := arun_grid h.run
      have h1 : a.costh.length = trs.length := hg.nCosth
      have h2 : (a.nodes.map State.obj).length = trs.length := hg.length
      rw [h1, ← h2, List.length_map]
    cases hn : a.nodes with
    | nil => rw [hn] at hmem; simp at hmem
    | cons s ss =>
      cases hc : a.costh with
      | nil => rw [hc, hn] at hlen; simp at hlen
      | cons x xs =>
        obtain ⟨_, _, ⟨g, wg, _⟩, _⟩ := writeSky_ok hc hn hw
        obtain ⟨_, _, _, _, _, _, _, _, hsome⟩ := StateIO.write_ok wg
        have hs : s = first := by rw [hn] at hf; simpa using hf
        subst hs
        obtain ⟨t, k, ht, _⟩ := hsome (by simp [hi])
        exact ⟨t, ht⟩
  obtain ⟨t, ht⟩ := hsome
  rw [ht] at h6
  refine ⟨a', t, h1, ht, h6, ?_⟩
  rw [h6] at h3
  have : ∀ (l1 l2 : List State), List.Forall₂ (NodeBack ⟨fun _ _ => 0, fun _ _ _ => 0⟩ (some t)) l1 l2 → (∀ s ∈ l1, s.obj.iint = true) →
      ∀ z ∈ l2, z.obj.tables = some t := by
    intro l1 l2 hf
    induction hf with
    | nil => simp
    | cons hx _ ih =>
      intro hl z hz
      rcases List.mem_cons.1 hz with rfl | hz
      · exact hx.tables (hl _ (List.mem_cons_self ..))
      · exact ih (fun s hs => hl s (List.mem_cons_of_mem _ hs)) z hz
  exact this _ _ h3 hall

/-! ## What a query reads -/

/-- C95: the queries compared in `SameSky` read the contents of the nodes. A reading of a node in the interaction picture, by the node's own
`EvalFlavorAtNode`, is the one formed from the state, the projector, the clock and the vacuum Hamiltonian the queries take from it; the end
points are those of its track. -/
theorem c95_view (R : Rep) (s : State) (hb : s.obj.basis = .interaction) (flv ei rho : Nat) (x : ℝ)
    (h : StateIO.flavourAt R s flv ei rho = .ok x) :
    (∃ E S P, s.obj.energies[ei]? = some E ∧ (nodeView R s.obj.numneu s).getState ei rho = some S ∧
      (nodeView R s.obj.numneu s).getProj flv rho = some P ∧
      x = Density.dot S (Density.evolve ((nodeView R s.obj.numneu s).h0 E)
        ((nodeView R s.obj.numneu s).t - (nodeView R s.obj.numneu s).tIni) P)) ∧
    ∀ tr, s.obj.track = some tr → (nodeView R s.obj.numneu s).xini = tr.xini ∧ (nodeView R s.obj.numneu s).xend = tr.xend := by
  refine ⟨?_, fun tr htr => ?_⟩
  · unfold StateIO.flavourAt Life.evalAtNode at h
    by_cases h1 : (!s.obj.ienergy) = true
    · rw [if_pos h1] at h; cases h
    rw [if_neg h1] at h
    by_cases h2 : rho ≠ 0 ∧ s.obj.nt ≠ .both
    · rw [if_pos h2] at h; cases h
    rw [if_neg h2] at h
    by_cases h3 : (Life.indexOk s.obj flv rho && decide (ei < s.obj.ne)) = true
    · rw [if_pos h3] at h
      simp only [Life.indexOk, Bool.and_eq_true, decide_eq_true_eq] at h3
      obtain ⟨⟨hf, hr⟩, he⟩ := h3
      simp only [Outcome.bind] at h
      cases hE : s.obj.energies[ei]? with
      | none => rw [hE] at h; cases h
      | some E =>
        rw [hE] at h
        have h := Outcome.ok.inj h
        refine ⟨E, R.vec s.obj.numneu (StateIO.onComps s.obj.numneu (s.comps ei rho)), StateIO.keyMat R s.obj.numneu (s.obj.b1 rho flv),
          rfl, if_pos ⟨he, hr⟩, ?_, ?_⟩
        · unfold Node.getProj
          rw [dif_pos hf]
          exact if_pos hr
        · rw [← h]
          unfold StateIO.flavourValue StateIO.valueOf
          rw [hb]
          simp only [reduceCtorEq, decide_false, Bool.false_eq_true, if_false]
          have e : (((s.obj.t - s.obj.tIni : Rat)) : ℝ) = (s.obj.t : ℝ) - (s.obj.tIni : ℝ) := by push_cast; rfl
          rw [e]
          rfl
    · rw [if_neg h3] at h; cases h
  · simp only [nodeView, htr, Option.map_some, Option.getD_some, and_self]

/-- A node that has evolved for a time 1. -/
example (R : Rep) (comps : Nat → Nat → Nat → ℝ) : ∃ x, StateIO.flavourAt R ⟨StateIO.demoObj, comps⟩ 1 1 1 = .ok x ∧
    ∃ P, x = Density.dot (R.vec StateIO.demoObj.numneu (StateIO.onComps StateIO.demoObj.numneu (comps 1 1)))
      (Density.evolve ((nodeView R StateIO.demoObj.numneu ⟨StateIO.demoObj, comps⟩).h0 2) 1 P) := by
  have h1 : Life.evalAtNode StateIO.demoObj 1 1 1 = .ok () := by decide +kernel
  have h2 : StateIO.demoObj.energies[1]? = some 2 := by decide +kernel
  have h3 : StateIO.demoObj.basis = .interaction := by decide +kernel
  have h4 : StateIO.demoObj.t = 1 := by decide +kernel
  have h5 : StateIO.demoObj.tIni = 0 := by decide +kernel
  have hx : ∃ x, StateIO.flavourAt R ⟨StateIO.demoObj, comps⟩ 1 1 1 = .ok x := by
    unfold StateIO.flavourAt
    simp only [h1, Outcome.bind, h2]
    exact ⟨_, rfl⟩
  obtain ⟨x, hx⟩ := hx
  obtain ⟨⟨E, S, P, e1, e2, e3, e4⟩, _⟩ := c95_view R _ h3 _ _ _ x hx
  have hE : E = 2 := by rw [h2] at e1; exact (Option.some.inj e1).symm
  have hS : R.vec StateIO.demoObj.numneu (StateIO.onComps StateIO.demoObj.numneu (comps 1 1)) = S := by
    unfold Node.getState at e2
    split at e2
    · exact Option.some.inj e2
    · cases e2
  refine ⟨x, hx, P, ?_⟩
  rw [e4, hS, hE]
  have ht : (nodeView R StateIO.demoObj.numneu ⟨StateIO.demoObj, comps⟩).t - (nodeView R StateIO.demoObj.numneu ⟨StateIO.demoObj, comps⟩).tIni =
      (1 : ℝ) := by
    simp only [nodeView, h4, h5]; norm_num
  simp only [ht, Rat.cast_ofNat]

/-! ## Writing succeeds -/

theorem writeSkyNodes_succeeds (rnd : Rat → Int) (dflt : Option Xs) (stray : Option Nat) : ∀ (ss : List State) (xs : List Rat) (first : Bool)
    (f : SkyFile), ss.length ≤ xs.length → (xs.map (nodeName rnd)).Nodup → (∀ x ∈ xs, f.groups.lookup (nodeName rnd x) = none) →
    (∀ s ∈ ss, Life.evolveGuards s.obj = true) → (first = true → ∀ s, ss.head? = some s → ∃ g, StateIO.write dflt true stray s = .ok g) →
    ∃ f', writeSkyNodes rnd dflt stray first xs ss f = .ok f' := by
  intro ss
  induction ss with
  | nil => intro xs first f _ _ _ _ _; exact ⟨f, by unfold writeSkyNodes; rfl⟩
  | cons s ss ih =>
    intro xs first f hl hn hf hg hw
    cases xs with
    | nil => simp at hl
    | cons x xs =>
      have hgs := hg s (List.mem_cons_self ..)
      have hwr : ∃ g, StateIO.write dflt first stray s = .ok g := by
        cases first with
        | true => exact hw rfl s rfl
        | false =>
          have hgs' := hgs
          simp only [Life.evolveGuards, Bool.and_eq_true] at hgs'
          obtain ⟨b, hb⟩ := Option.isSome_iff_exists.1 hgs'.1.1.1.1.1
          obtain ⟨t, ht⟩ := Option.isSome_iff_exists.1 hgs'.1.1.1.2
          obtain ⟨g, hg, _⟩ := (StateIO.c57_written dflt s hgs b t hb ht false).1 stray (Or.inr rfl)
          exact ⟨g, hg⟩
      obtain ⟨g, hwr⟩ := hwr
      simp only [List.map_cons, List.nodup_cons] at hn
      unfold writeSkyNodes
      rw [if_pos hgs, hf x (List.mem_cons_self ..)]
      simp only [hwr, Outcome.bind]
      refine ih xs false _ (by simpa using hl) hn.2 ?_ (fun z hz => hg z (List.mem_cons_of_mem _ hz)) (by simp)
      intro y hy
      rw [lookup_snoc, hf y (List.mem_cons_of_mem _ hy)]
      have : nodeName rnd y ≠ nodeName rnd x := fun e => hn.1 (e ▸ List.mem_map_of_mem hy)
      simp [this]

/-- C95, partial: an object with an initial state at every node, and nodes more than a millionth apart, is written; with interactions if the
tables can be made and the stray read (src/nuSQuIDS.cpp 1945) yields some number. -/
theorem c95_written_partial (rnd : Rat → Int) (hr : Rounds rnd) (dflt : Option Xs) (found : Option Bool) (c : Life.Ctor) (earth : BodyRef)
    (trs : List TrackRef) (tr : List (AOp × Status)) (a : FullSky) (h : History dflt found c earth trs tr a) (hi : a.iini = some true)
    (hg : ∀ s ∈ a.nodes, Life.evolveGuards s.obj = true) (hz : a.costh.Pairwise Apart) (stray : Option Nat)
    (ht : ∀ s, a.nodes.head? = some s → s.obj.iint = true → stray.isSome = true ∧ (Life.initInteractions dflt s.obj).2 = .ok ∧
      (Life.initInteractions dflt s.obj).1.tables.isSome = true) :
    ∃ f, writeSky rnd dflt stray true a = .ok f := by
  have hgr := arun_grid h.run
  have hlen : a.nodes.length ≤ a.costh.length := by
    have h1 : a.costh.length = trs.length := hgr.nCosth
    have h2 : (a.nodes.map State.obj).length = trs.length := hgr.length
    rw [h1, ← h2, List.length_map]
  have hn : (a.costh.map (nodeName rnd)).Nodup := by
    rw [List.Nodup, List.pairwise_map]
    exact hz.imp fun {x y} hxy => c62_names_differ_partial rnd hr x y hxy
  have hatm : a.iatm = true := hgr.iatm
  unfold writeSky
  rw [hi]
  simp only [hatm, Bool.not_true, Bool.false_eq_true, if_false]
  refine writeSkyNodes_succeeds rnd dflt stray a.nodes a.costh true _ hlen hn (by simp) hg ?_
  intro _ s hs
  have hgs := hg s (List.mem_of_head? hs)
  have hgs' := hgs
  simp only [Life.evolveGuards, Bool.and_eq_true] at hgs'
  obtain ⟨b, hb⟩ := Option.isSome_iff_exists.1 hgs'.1.1.1.1.1
  obtain ⟨t, htr⟩ := Option.isSome_iff_exists.1 hgs'.1.1.1.2
  have hw := StateIO.c57_written dflt s hgs b t hb htr true
  by_cases hint : s.obj.iint = true
  · obtain ⟨h1, h2, h3⟩ := ht s hs hint
    obtain ⟨k, hk⟩ := Option.isSome_iff_exists.1 h1
    obtain ⟨tb, htb⟩ := Option.isSome_iff_exists.1 h3
    obtain ⟨g, hg, _⟩ := hw.2 k tb h2 htb
    exact ⟨g, hk ▸ hg⟩
  · obtain ⟨g, hg, _⟩ := hw.1 stray (Or.inl (by simpa using hint))
    exact ⟨g, hg⟩

end Verif.Atm
