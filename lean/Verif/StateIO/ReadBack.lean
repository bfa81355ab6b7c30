import Verif.StateIO.Settled
import Verif.StateIO.Spec

/-!
# Reading what was written
-/

namespace Verif.StateIO

open Life

theorem write_ok {dflt : Option Xs} {save : Bool} {stray : Option Nat} {s : State} {f : File}
    (h : write dflt save stray s = .ok f) :
    evolveGuards s.obj = true ∧ ∃ b tr tabs, s.obj.body = some b ∧ s.obj.track = some tr ∧ f = fileOf s b tr tabs ∧
      ((s.obj.iint && save) = false → tabs = none) ∧
      ((s.obj.iint && save) = true → ∃ t k, (initInteractions dflt s.obj).1.tables = some t ∧ stray = some k ∧
        tabs = some (if k = s.obj.ne ∧ s.obj.ne % 4 ≠ 0 then { t with complete := false } else t)) := by
  unfold write at h
  split at h
  · rename_i hg
    refine ⟨hg, ?_⟩
    split at h
    · rename_i b tr hb htr
      split at h
      · rename_i hsave
        revert h
        generalize hI : initInteractions dflt s.obj = r
        obtain ⟨o, st⟩ := r
        cases st
        · dsimp only
          split
          · rename_i t ht
            cases stray with
            | none => simp [savedTables, Outcome.map]
            | some k =>
              intro h
              simp only [savedTables, Outcome.map, Outcome.ok.injEq] at h
              exact ⟨b, tr, _, hb, htr, h.symm, by simp [hsave], fun _ => ⟨t, k, ht, rfl, rfl⟩⟩
          · simp
        · simp
        · simp
      · rename_i hsave
        simp only [Outcome.ok.injEq] at h
        exact ⟨b, tr, none, hb, htr, h.symm, fun _ => rfl, fun h' => absurd h' hsave⟩
    · simp at h
  · simp at h

theorem file_angles (s : State) (b : BodyRef) (tr : TrackRef) (tabs : Option Tables) (hn : s.obj.numneu ≤ maxDim) :
    ∀ p ∈ pairs s.obj.numneu, (fileOf s b tr tabs).angles.lookup (thLabel p.1 p.2) = some (s.obj.params.angle p.1 p.2) := by
  unfold maxDim at hn
  apply lookup_fold (fun p : Nat × Nat => thLabel p.1 p.2) (fun p => s.obj.params.angle p.1 p.2)
  intro p hp q hq h
  rw [mem_pairs] at hp hq
  have := thLabel_inj hp.1 (by omega) hq.1 (by omega) h
  exact Prod.ext this.1 this.2

theorem file_phases (s : State) (b : BodyRef) (tr : TrackRef) (tabs : Option Tables) (hn : s.obj.numneu ≤ maxDim) :
    ∀ p ∈ pairs s.obj.numneu, (fileOf s b tr tabs).phases.lookup (deltaLabel p.1 p.2) = some (s.obj.params.phase p.1 p.2) := by
  unfold maxDim at hn
  apply lookup_fold (fun p : Nat × Nat => deltaLabel p.1 p.2) (fun p => s.obj.params.phase p.1 p.2)
  intro p hp q hq h
  rw [mem_pairs] at hp hq
  have := deltaLabel_inj hp.1 (by omega) hq.1 (by omega) h
  exact Prod.ext this.1 this.2

theorem file_masses (s : State) (b : BodyRef) (tr : TrackRef) (tabs : Option Tables) :
    ∀ i ∈ masses s.obj.numneu, (fileOf s b tr tabs).masses.lookup (dmLabel i) = some (s.obj.params.dm2 i) := by
  apply lookup_fold dmLabel s.obj.params.dm2
  intro p hp q hq h
  exact dmLabel_inj h

theorem ntOfCode_ntCode (nt : NT) : ntOfCode (ntCode nt) = some nt := by cases nt <;> rfl

theorem boolInt_ne (b : Bool) : (boolInt b != 0) = b := by cases b <;> rfl

/-- The object the members of the file are stored into before `init`. -/
noncomputable def loaded (s0 : Obj) (s : State) (b : BodyRef) (tr : TrackRef) : Obj :=
  { s0 with
    numneu := s.obj.numneu, nt := s.obj.nt, iint := s.obj.iint, osc := s.obj.osc, tauregen := s.obj.tauregen,
    glashow := s.obj.glashow, body := some b, track := some tr, ne := s.obj.energies.length, energies := s.obj.energies }

theorem readInit_ok (s0 : Obj) (s : State) (b : BodyRef) (tr : TrackRef) (tabs : Option Tables) (h1 : 3 ≤ s.obj.numneu)
    (h2 : s.obj.numneu ≤ maxDim) (he : s.obj.energies ≠ []) (hb : s.obj.energies.length = 1 → s.obj.nt ≠ .both)
    (h0 : s0.inusquids = false) :
    ∃ o, readInit s0 (loaded s0 s b tr) (fileOf s b tr tabs) = .ok o ∧ Inited (loaded s0 s b tr) o s.obj.tIni := by
  have hE : (fileOf s b tr tabs).energies = s.obj.energies := rfl
  have hT : (fileOf s b tr tabs).timeInitial = s.obj.tIni := rfl
  unfold readInit
  rw [hE, hT]
  rcases hEs : s.obj.energies with _ | ⟨e, _ | ⟨e', es⟩⟩
  · exact absurd hEs he
  · obtain ⟨o, ho, hi⟩ := initSingle_ok (loaded s0 s b tr) s.obj.tIni h1 h2 (hb (by rw [hEs]; rfl)) (by simp [loaded, hEs])
    have hne : o.ne = 1 := by rw [hi.ne]; simp [loaded, hEs]
    refine ⟨{ o with energies := [e], ienergy := true, istate := false }, ?_, ?_⟩
    · simp only [h0, Bool.false_eq_true, if_false, ho, Outcome.bind, setE, hne, ne_eq, not_true_eq_false, lift]
    · exact { hi with energies := by simp [loaded, hEs] }
  · have h := initMulti_ok (loaded s0 s b tr) s.obj.tIni h1 h2 (by simp [loaded, hEs])
    have : (loaded s0 s b tr).energies = e :: e' :: es := hEs
    rw [this] at h
    exact h

theorem readCommon_of_init (s0 s : State) (b : BodyRef) (tr : TrackRef) (tabs : Option Tables) (h2 : s.obj.numneu ≤ maxDim) (o : Obj)
    (ho : readInit s0.obj (loaded s0.obj s b tr) (fileOf s b tr tabs) = .ok o) (hn : o.numneu = s.obj.numneu) :
    ∃ A P D ist, (∀ i j, i < j → j < s.obj.numneu → A i j = s.obj.params.angle i j ∧ P i j = s.obj.params.phase i j) ∧
      (∀ i, 1 ≤ i → i < s.obj.numneu → D i = s.obj.params.dm2 i) ∧
      readCommon s0 (fileOf s b tr tabs) = .ok ⟨iniH0 (iniProj { o with
          params := ⟨A, P, D⟩, istate := ist, t := s.obj.t, offset := some (s.obj.t - tr.x) }),
        readComps (fileOf s b tr tabs) s.obj.nt s0.comps⟩ := by
  obtain ⟨ist1, hp⟩ := each_pairs (fileOf s b tr tabs) s.obj.params.angle s.obj.params.phase (pairs s.obj.numneu) o
    (fun p hp => by rw [hn]; exact mem_pairs.mp hp) (by rw [hn]; exact h2) (file_angles s b tr tabs h2) (file_phases s b tr tabs h2)
  obtain ⟨ist2, hm⟩ := each_masses (fileOf s b tr tabs) s.obj.params.dm2 (masses s.obj.numneu) { o with
      params := ⟨fun a b => if (a, b) ∈ pairs s.obj.numneu then s.obj.params.angle a b else o.params.angle a b,
        fun a b => if (a, b) ∈ pairs s.obj.numneu then s.obj.params.phase a b else o.params.phase a b, o.params.dm2⟩
      istate := ist1 }
    (fun i hi => by simp only; rw [hn]; exact mem_masses.mp hi) (by simp only; rw [hn]; exact h2) (file_masses s b tr tabs)
  refine ⟨fun a b => if (a, b) ∈ pairs s.obj.numneu then s.obj.params.angle a b else o.params.angle a b,
    fun a b => if (a, b) ∈ pairs s.obj.numneu then s.obj.params.phase a b else o.params.phase a b,
    fun a => if a ∈ masses s.obj.numneu then s.obj.params.dm2 a else o.params.dm2 a, ist2, ?_, ?_, ?_⟩
  rotate_left 2
  · unfold readCommon
    have hnt : ntOfCode (fileOf s b tr tabs).nt = some s.obj.nt := ntOfCode_ntCode _
    have hl : { s0.obj with
        numneu := (fileOf s b tr tabs).numneu, nt := s.obj.nt, iint := (fileOf s b tr tabs).interactions == "True",
        osc := (fileOf s b tr tabs).oscillations != 0, tauregen := (fileOf s b tr tabs).tau != 0,
        glashow := (fileOf s b tr tabs).glashow != 0, body := some (fileOf s b tr tabs).body,
        track := some (fileOf s b tr tabs).track, ne := (fileOf s b tr tabs).energies.length,
        energies := (fileOf s b tr tabs).energies } = loaded s0.obj s b tr := by
      have hI : ((fileOf s b tr tabs).interactions == "True") = s.obj.iint := by
        have : (fileOf s b tr tabs).interactions = if s.obj.iint then "True" else "False" := rfl
        rw [this]
        cases s.obj.iint <;> rfl
      rw [hI]
      simp only [fileOf, boolInt_ne, loaded]
    rw [hnt]
    simp only
    rw [hl, ho]
    simp only [Outcome.bind]
    rw [(congrArg (fun n => each (readPair (fileOf s b tr tabs)) (pairs n) o) hn).trans hp]
    simp only
    rw [(congrArg (fun n => each (readMass (fileOf s b tr tabs)) (masses n) _) hn).trans hm]
    rfl
  · intro i j hij hj
    simp only [mem_pairs]
    exact ⟨if_pos ⟨hij, hj⟩, if_pos ⟨hij, hj⟩⟩
  · intro i h1 h2
    simp only [mem_masses]
    exact if_pos ⟨h1, h2⟩

theorem readCommon_ok (s0 s : State) (b : BodyRef) (tr : TrackRef) (tabs : Option Tables) (h1 : 3 ≤ s.obj.numneu)
    (h2 : s.obj.numneu ≤ maxDim) (he : s.obj.energies ≠ []) (hb : s.obj.energies.length = 1 → s.obj.nt ≠ .both)
    (h0 : s0.obj.inusquids = false) :
    ∃ o A P D ist, Inited (loaded s0.obj s b tr) o s.obj.tIni ∧
      (∀ i j, i < j → j < s.obj.numneu → A i j = s.obj.params.angle i j ∧ P i j = s.obj.params.phase i j) ∧
      (∀ i, 1 ≤ i → i < s.obj.numneu → D i = s.obj.params.dm2 i) ∧
      readCommon s0 (fileOf s b tr tabs) = .ok ⟨iniH0 (iniProj { o with
          params := ⟨A, P, D⟩, istate := ist, t := s.obj.t, offset := some (s.obj.t - tr.x) }),
        readComps (fileOf s b tr tabs) s.obj.nt s0.comps⟩ := by
  obtain ⟨o, ho, hi⟩ := readInit_ok s0.obj s b tr tabs h1 h2 he hb h0
  obtain ⟨A, P, D, ist, h⟩ := readCommon_of_init s0 s b tr tabs h2 o ho hi.numneu
  exact ⟨o, A, P, D, ist, hi, h⟩

theorem onPairs_cpFix (nt : NT) (n rho : Nat) (P Q : Nat → Nat → Rat) (h : ∀ i j, i < j → j < n → P i j = Q i j) :
    onPairs n (cpFix nt n rho P) = onPairs n (cpFix nt n rho Q) := by
  funext i j
  unfold onPairs
  by_cases hij : i < j ∧ j < n
  · rw [if_pos hij, if_pos hij]
    unfold cpFix
    split
    · simp only [flipPhases_eq]
      rw [if_pos hij, if_pos hij, h i j hij.1 hij.2]
    · exact h i j hij.1 hij.2
  · rw [if_neg hij, if_neg hij]

theorem onPairs_congr (n : Nat) (P Q : Nat → Nat → Rat) (h : ∀ i j, i < j → j < n → P i j = Q i j) : onPairs n P = onPairs n Q := by
  funext i j
  unfold onPairs
  by_cases hij : i < j ∧ j < n
  · rw [if_pos hij, if_pos hij, h i j hij.1 hij.2]
  · rw [if_neg hij, if_neg hij]

theorem vacuumH_congr (n : Nat) (osc : Bool) (D D' : Nat → Rat) (E : Rat) (h : ∀ i, 1 ≤ i → i < n → D i = D' i) :
    vacuumH n osc D E = vacuumH n osc D' E := by
  unfold vacuumH
  split
  · congr 1
    apply Finset.sum_congr rfl
    intro i _
    split
    · rename_i hi; rw [h i hi i.isLt]
    · rfl
  · rfl

/-- The components read are those written. -/
theorem readComps_eq (s : State) (b : BodyRef) (tr : TrackRef) (tabs : Option Tables) (old : Nat → Nat → Nat → ℝ) (ei rho : Nat)
    (hei : ei < s.obj.ne) (hrho : rho < if s.obj.nt = .both then 2 else 1) :
    onComps s.obj.numneu (readComps (fileOf s b tr tabs) s.obj.nt old ei rho) = onComps s.obj.numneu (s.comps ei rho) := by
  funext j
  unfold onComps
  by_cases hj : j < s.obj.numneu * s.obj.numneu
  · rw [if_pos hj, if_pos hj]
    unfold readComps
    have hrow : (fileOf s b tr tabs).aneustate.rows = s.obj.ne := rfl
    have hcol : (fileOf s b tr tabs).aneustate.cols = s.obj.numneu * s.obj.numneu := rfl
    rw [hrow, hcol, if_pos ⟨hei, hj⟩]
    have hneu : (fileOf s b tr tabs).neustate.get ei j = if s.obj.nt = .antineutrino then 0 else s.comps ei 0 j :=
      dataset_get _ _ _ _ _ hei hj
    have hane : (fileOf s b tr tabs).aneustate.get ei j =
        if s.obj.nt = .both then s.comps ei 1 j else if s.obj.nt = .antineutrino then s.comps ei 0 j else 0 :=
      dataset_get _ _ _ _ _ hei hj
    rw [hneu, hane]
    cases hnt : s.obj.nt <;> simp [hnt] at hrho
    · subst hrho; simp
    · subst hrho; simp
    · have : rho = 0 ∨ rho = 1 := by omega
      rcases this with rfl | rfl <;> simp
  · rw [if_neg hj, if_neg hj]

/-- The object with the same members, taken to be in the interaction picture. -/
noncomputable def asInteraction (s : State) : State := { s with obj := { s.obj with basis := .interaction } }

/-- What the contents of an object are computed from. -/
structure SameInside (R : Rep) (s s' : State) : Prop where
  nrhos : s'.obj.nrhos = s.obj.nrhos
  proj : ∀ rho flv, rho < s.obj.nrhos → flv < s.obj.numneu →
    keyMat R s.obj.numneu (s'.obj.b1 rho flv) = keyMat R s.obj.numneu (s.obj.b1 rho flv)
  comps : ∀ ei rho, ei < s.obj.ne → rho < s.obj.nrhos →
    onComps s.obj.numneu (s'.comps ei rho) = onComps s.obj.numneu (s.comps ei rho)
  dm2 : ∀ i, 1 ≤ i → i < s.obj.numneu → s'.obj.dm2Key i = s.obj.dm2Key i

/-- The part of reading that does not depend on the tables. Whatever the basis, what is read is the object as if it were in the
interaction picture. -/
theorem common_written (R : Rep) (s : State) (hr : Settled s.obj) (hone : s.obj.ne = 1 → s.obj.nt ≠ .both)
    (hg : evolveGuards s.obj = true) (b : BodyRef) (tr : TrackRef) (tabs : Option Tables) (hb : s.obj.body = some b)
    (htr : s.obj.track = some tr) :
    ∃ m, readCommon fresh (fileOf s b tr tabs) = .ok m ∧ m.obj.iint = s.obj.iint ∧ ∀ t, SameReport R (asInteraction s) (readTail m t) ∧
      SameInside R s (readTail m t) ∧ evolveGuards (readTail m t).obj = true ∧ (readTail m t).obj.basis = .interaction ∧
      (readTail m t).obj.positivization = false ∧ (readTail m t).obj.allowConst = false := by
  have hg' := hg
  simp only [evolveGuards, Bool.and_eq_true] at hg'
  obtain ⟨⟨⟨⟨⟨_, _⟩, _⟩, _⟩, hist⟩, hien⟩ := hg'
  have hn1 := hr.lo
  have hn2 := hr.hi
  have hlen := hr.energies hien
  have hne := hr.ne
  have hnr := hr.nrhos
  have hkeys := hr.b1 hist
  have hdm := hr.dm2 hist
  have hoff := hr.aligned tr htr
  have hE : s.obj.energies ≠ [] := by intro h; rw [h] at hlen; simp at hlen; omega
  obtain ⟨o, A, P, D, ist, hi, hAP, hD, hread⟩ := readCommon_ok fresh s b tr tabs hn1 hn2 hE (fun h => hone (by omega)) rfl
  generalize hC : readComps (fileOf s b tr tabs) s.obj.nt fresh.comps = C at hread
  have hi1 : o.numneu = s.obj.numneu := hi.numneu
  have hi2 : o.nt = s.obj.nt := hi.nt
  have hi3 : o.nrhos = s.obj.nrhos := hi.nrhos.trans hnr.symm
  have hi4 : o.iint = s.obj.iint := hi.iint
  have hi5 : o.osc = s.obj.osc := hi.osc
  have hi6 : o.tauregen = s.obj.tauregen := hi.tauregen
  have hi7 : o.glashow = s.obj.glashow := hi.glashow
  have hi8 : o.body = s.obj.body := hi.body.trans hb.symm
  have hi9 : o.track = s.obj.track := hi.track.trans htr.symm
  have hi10 : o.basis = .interaction := hi.basis
  have hi11 : o.energies = s.obj.energies := hi.energies
  have hi12 : o.ne = s.obj.ne := hi.ne.trans hlen
  have hi13 : o.tIni = s.obj.tIni := hi.tIni
  -- whatever the tables are, the rest of the object is as follows
  have key : ∀ t, SameReport R (asInteraction s) (readTail ⟨iniH0 (iniProj { o with
      params := ⟨A, P, D⟩, istate := ist, t := s.obj.t, offset := some (s.obj.t - tr.x) }), C⟩ t) ∧
      SameInside R s (readTail ⟨iniH0 (iniProj { o with
        params := ⟨A, P, D⟩, istate := ist, t := s.obj.t, offset := some (s.obj.t - tr.x) }), C⟩ t) := by
    intro t
    generalize hs' : readTail ⟨iniH0 (iniProj { o with
      params := ⟨A, P, D⟩, istate := ist, t := s.obj.t, offset := some (s.obj.t - tr.x) }), C⟩ t = s'
    have g1 : s'.obj.numneu = s.obj.numneu := by rw [← hs']; cases t <;> simpa [readTail, iniH0, iniProj_eq] using hi1
    have g2 : s'.obj.nt = s.obj.nt := by rw [← hs']; cases t <;> simpa [readTail, iniH0, iniProj_eq] using hi2
    have g3 : s'.obj.nrhos = s.obj.nrhos := by rw [← hs']; cases t <;> simpa [readTail, iniH0, iniProj_eq] using hi3
    have g4 : s'.obj.iint = s.obj.iint := by rw [← hs']; cases t <;> simpa [readTail, iniH0, iniProj_eq] using hi4
    have g5 : s'.obj.osc = s.obj.osc := by rw [← hs']; cases t <;> simpa [readTail, iniH0, iniProj_eq] using hi5
    have g6 : s'.obj.tauregen = s.obj.tauregen := by rw [← hs']; cases t <;> simpa [readTail, iniH0, iniProj_eq] using hi6
    have g7 : s'.obj.glashow = s.obj.glashow := by rw [← hs']; cases t <;> simpa [readTail, iniH0, iniProj_eq] using hi7
    have g8 : s'.obj.body = s.obj.body := by rw [← hs']; cases t <;> simpa [readTail, iniH0, iniProj_eq] using hi8
    have g9 : s'.obj.track = s.obj.track := by rw [← hs']; cases t <;> simpa [readTail, iniH0, iniProj_eq] using hi9
    have g10 : s'.obj.basis = .interaction := by rw [← hs']; cases t <;> simpa [readTail, iniH0, iniProj_eq] using hi10
    have g11 : s'.obj.energies = s.obj.energies := by rw [← hs']; cases t <;> simpa [readTail, iniH0, iniProj_eq] using hi11
    have g12 : s'.obj.ne = s.obj.ne := by rw [← hs']; cases t <;> simpa [readTail, iniH0, iniProj_eq] using hi12
    have g13 : s'.obj.tIni = s.obj.tIni := by rw [← hs']; cases t <;> simpa [readTail, iniH0, iniProj_eq] using hi13
    have g14 : s'.obj.t = s.obj.t := by rw [← hs']; cases t <;> simp [readTail, iniH0, iniProj_eq]
    have g15 : s'.obj.offset = some (s.obj.t - tr.x) := by rw [← hs']; cases t <;> simp [readTail, iniH0, iniProj_eq]
    have g16 : s'.obj.params = ⟨A, P, D⟩ := by rw [← hs']; cases t <;> simp [readTail, iniH0, iniProj_eq]
    have g17 : s'.obj.dm2Key = D := by rw [← hs']; cases t <;> simp [readTail, iniH0, iniProj_eq]
    have g18 : s'.comps = C := by rw [← hs']; cases t <;> rfl
    have g19 : s'.obj.ienergy = true := by rw [← hs']; cases t <;> simp [readTail, iniH0]
    have g20 : ∀ rho flv, rho < s.obj.nrhos → flv < s.obj.numneu →
        s'.obj.b1 rho flv = ⟨A, cpFix s.obj.nt s.obj.numneu rho P, flv⟩ := by
      intro rho flv h1 h2
      rw [← hs']
      cases t <;> simp [readTail, iniH0, iniProj_eq, hi1, hi2, hi3, h1, h2]
    clear hs'
    have hnode : ∀ flv ei rho, evalAtNode s'.obj flv ei rho = evalAtNode s.obj flv ei rho := by
      intro flv ei rho
      unfold evalAtNode indexOk
      rw [g1, g2, g3, g12, g19, hien]
    have hnodeI : ∀ flv ei rho, evalAtNode (asInteraction s).obj flv ei rho = evalAtNode s.obj flv ei rho := fun _ _ _ => rfl
    have hnodeOk : ∀ flv ei rho u, evalAtNode s.obj flv ei rho = .ok u → flv < s.obj.numneu ∧ rho < s.obj.nrhos ∧ ei < s.obj.ne := by
      intro flv ei rho u
      unfold evalAtNode indexOk
      split
      · simp
      · split
        · simp
        · split
          · rename_i hx
            simp only [Bool.and_eq_true, decide_eq_true_eq] at hx
            intro _; exact ⟨hx.1.1, hx.1.2, hx.2⟩
          · simp
    have hcomps : ∀ ei rho, ei < s.obj.ne → rho < s.obj.nrhos →
        onComps s.obj.numneu (s'.comps ei rho) = onComps s.obj.numneu (s.comps ei rho) := by
      intro ei rho h1 h2
      rw [g18, ← hC]
      exact readComps_eq s b tr tabs _ ei rho h1 (hnr ▸ h2)
    have hH : ∀ E, vacuumH s.obj.numneu s.obj.osc s'.obj.dm2Key E = vacuumH s.obj.numneu s.obj.osc s.obj.dm2Key E := by
      intro E
      rw [g17, hdm]
      exact vacuumH_congr _ _ _ _ _ hD
    have hproj : ∀ rho flv, rho < s.obj.nrhos → flv < s.obj.numneu →
        keyMat R s.obj.numneu (s'.obj.b1 rho flv) = keyMat R s.obj.numneu (s.obj.b1 rho flv) := by
      intro rho flv h1 h2
      rw [g20 rho flv h1 h2, hkeys rho flv h1 h2]
      unfold keyMat
      simp only
      rw [onPairs_congr _ _ _ (fun i j h1 h2 => (hAP i j h1 h2).1), onPairs_cpFix _ _ _ _ _ (fun i j h1 h2 => (hAP i j h1 h2).2)]
    refine ⟨?_, g3, hproj, hcomps, fun i h1 h2 => by rw [g17, hdm]; exact hD i h1 h2⟩
    constructor
    · exact g1
    · exact g2
    · exact g12
    · exact g11
    · intro i j hi hj
      change getAngle s'.obj i j = getAngle s.obj i j
      change j < s.obj.numneu at hj
      simp only [getAngle, g1, g16]
      by_cases hp : pairOk i j = true
      · simp only [pairOk, Bool.and_eq_true, decide_eq_true_eq] at hp
        rw [(hAP i j hp.1 hj).1]
      · simp [hp]
    · intro i j hi hj
      change getPhase s'.obj i j = getPhase s.obj i j
      change j < s.obj.numneu at hj
      simp only [getPhase, g1, g16]
      by_cases hp : pairOk i j = true
      · simp only [pairOk, Bool.and_eq_true, decide_eq_true_eq] at hp
        rw [(hAP i j hp.1 hj).2]
      · simp [hp]
    · intro i hi
      change getDm2 s'.obj i = getDm2 s.obj i
      change i < s.obj.numneu at hi
      simp only [getDm2, g1, g16]
      by_cases hp : 0 < i ∧ i < maxDim
      · rw [hD i hp.1 hi]
      · simp [hp]
    · exact g4
    · exact g5
    · exact g6
    · exact g7
    · exact g8
    · exact g9
    · exact g14
    · exact g13
    · exact g15.trans hoff.symm
    · intro flv ei rho
      unfold flavourAt
      rw [hnode, hnodeI]
      generalize hev : evalAtNode s.obj flv ei rho = ev
      cases ev with
      | ok u =>
        obtain ⟨q1, q2, q3⟩ := hnodeOk _ _ _ _ hev
        simp only [Outcome.bind, g1, g5, g10, g11, g13, g14, asInteraction]
        simp only [flavourValue, valueOf, hcomps ei rho q3 q2, hproj rho flv q2 q1, hH]
        rfl
      | throws => rfl
      | ub => rfl
    · intro flv ei rho
      unfold massAt
      rw [hnode, hnodeI]
      generalize hev : evalAtNode s.obj flv ei rho = ev
      cases ev with
      | ok u =>
        obtain ⟨q1, q2, q3⟩ := hnodeOk _ _ _ _ hev
        simp only [Outcome.bind, g1, g5, g10, g11, g13, g14, asInteraction]
        simp only [massValue, valueOf, hcomps ei rho q3 q2, hH]
        rfl
      | throws => rfl
      | ub => rfl
  have hflags : ∀ t, evolveGuards (readTail ⟨iniH0 (iniProj { o with
      params := ⟨A, P, D⟩, istate := ist, t := s.obj.t, offset := some (s.obj.t - tr.x) }), C⟩ t).obj = true := by
    intro t
    cases t <;> simp [readTail, iniH0, iniProj_eq, evolveGuards, hi8, hb, hi9, htr]
  have hrest : ∀ t, ∀ s', readTail ⟨iniH0 (iniProj { o with
      params := ⟨A, P, D⟩, istate := ist, t := s.obj.t, offset := some (s.obj.t - tr.x) }), C⟩ t = s' →
      s'.obj.basis = .interaction ∧ s'.obj.positivization = false ∧ s'.obj.allowConst = false := by
    rintro t s' rfl
    have p1 : o.positivization = false := hi.positivization
    have p2 : o.allowConst = false := hi.allowConst
    cases t <;> simp [readTail, iniH0, iniProj_eq, hi10, p1, p2]
  refine ⟨_, hread, by simpa [iniH0, iniProj_eq] using hi4, fun t => ?_⟩
  obtain ⟨r1, r2, r3⟩ := hrest t _ rfl
  exact ⟨(key t).1, (key t).2, hflags t, r1, r2, r3⟩

/-- Whatever the basis, what is read is the object as if it were in the interaction picture. -/
theorem read_settled (R : Rep) (dflt : Option Xs) (s : State) (hr : Settled s.obj)
    (hone : s.obj.ne = 1 → s.obj.nt ≠ .both)
    (save : Bool) (hsave : s.obj.iint = true → save = true)
    (stray : Option Nat) (hpad : ∀ k, stray = some k → k = s.obj.ne → s.obj.ne % 4 = 0)
    (f : File) (hw : write dflt save stray s = .ok f) :
    ∃ s', read fresh f = .ok s' ∧ SameReport R (asInteraction s) s' ∧ evolveGuards s'.obj = true ∧
      (s.obj.iint = true → s'.obj.tables = (initInteractions dflt s.obj).1.tables) ∧ s'.obj.basis = .interaction ∧
      s'.obj.positivization = false ∧ s'.obj.allowConst = false ∧ SameInside R s s' := by
  obtain ⟨hg, b, tr, tabs, hb, htr, rfl, hnone, hsome⟩ := write_ok hw
  obtain ⟨m, hm, hint, key⟩ := common_written R s hr hone hg b tr tabs hb htr
  unfold read
  rw [hm]
  simp only [Outcome.bind]
  rw [hint]
  cases hI : s.obj.iint
  · obtain ⟨k1, k2, k3, k4, k5, k6⟩ := key none
    exact ⟨_, by simp, k1, k3, by simp, k4, k5, k6, k2⟩
  · have hs := hsave hI
    subst hs
    obtain ⟨t, k, ht, hk, htabs⟩ := hsome (by simp [hI])
    have hpad' : ¬(k = s.obj.ne ∧ s.obj.ne % 4 ≠ 0) := fun hx => hx.2 (hpad k hk hx.1)
    rw [if_neg hpad'] at htabs
    subst htabs
    obtain ⟨k1, k2, k3, k4, k5, k6⟩ := key (some t)
    refine ⟨_, by simp [fileOf], k1, k3, fun _ => ?_, k4, k5, k6, k2⟩
    rw [ht]
    simp [readTail, iniH0]

/-- The same for objects with a history. -/
theorem read_written (R : Rep) (dflt : Option Xs) (c : Ctor) (h : List (Op × Status)) (s : State) (hr : Run dflt c h s.obj)
    (hone : s.obj.ne = 1 → s.obj.nt ≠ .both)
    (save : Bool) (hsave : s.obj.iint = true → save = true)
    (stray : Option Nat) (hpad : ∀ k, stray = some k → k = s.obj.ne → s.obj.ne % 4 = 0)
    (f : File) (hw : write dflt save stray s = .ok f) :
    ∃ s', read fresh f = .ok s' ∧ SameReport R (asInteraction s) s' ∧ evolveGuards s'.obj = true ∧
      (s.obj.iint = true → s'.obj.tables = (initInteractions dflt s.obj).1.tables) ∧ s'.obj.basis = .interaction ∧
      s'.obj.positivization = false ∧ s'.obj.allowConst = false := by
  obtain ⟨s', h1, h2, h3, h4, h5, h6, h7, _⟩ := read_settled R dflt s (run_settled hr) hone save hsave stray hpad f hw
  exact ⟨s', h1, h2, h3, h4, h5, h6, h7⟩

/-- A node of an atmospheric object, written without its tables and read with shared ones. -/
theorem readInternal_settled (R : Rep) (dflt : Option Xs) (s : State) (hr : Settled s.obj) (hone : s.obj.ne = 1 → s.obj.nt ≠ .both)
    (stray : Option Nat) (f : File) (hw : write dflt false stray s = .ok f) (iis : Option Tables)
    (hiis : s.obj.iint = true → iis.isSome = true) :
    ∃ s', readInternal iis fresh f = .ok s' ∧ SameReport R (asInteraction s) s' ∧ evolveGuards s'.obj = true ∧
      (s.obj.iint = true → s'.obj.tables = iis) ∧ s'.obj.basis = .interaction ∧
      s'.obj.positivization = false ∧ s'.obj.allowConst = false ∧ SameInside R s s' := by
  obtain ⟨hg, b, tr, tabs, hb, htr, rfl, hnone, hsome⟩ := write_ok hw
  obtain ⟨m, hm, hint, key⟩ := common_written R s hr hone hg b tr tabs hb htr
  unfold readInternal
  rw [hm]
  simp only [Outcome.bind]
  rw [hint]
  cases hI : s.obj.iint
  · obtain ⟨k1, k2, k3, k4, k5, k6⟩ := key none
    exact ⟨_, by simp, k1, k3, by simp, k4, k5, k6, k2⟩
  · cases iis with
    | none => simp [hI] at hiis
    | some t =>
      obtain ⟨k1, k2, k3, k4, k5, k6⟩ := key (some t)
      exact ⟨_, by simp, k1, k3, fun _ => by simp [readTail, iniH0], k4, k5, k6, k2⟩

end Verif.StateIO
