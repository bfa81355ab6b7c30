import Verif.StateIO.LabelProps
import Verif.Lifecycle.ParamProps

/-!
# Lemmas about state files
-/

namespace Verif.StateIO

open Life

/-! ## Attributes -/

theorem mem_pairs {n : Nat} {p : Nat × Nat} : p ∈ pairs n ↔ p.1 < p.2 ∧ p.2 < n := by
  obtain ⟨i, j⟩ := p
  simp only [pairs, List.mem_flatMap, List.mem_range, List.mem_map, List.mem_range'_1, Prod.mk.injEq]
  constructor
  · rintro ⟨a, ha, b, hb, rfl, rfl⟩; omega
  · rintro ⟨h1, h2⟩; exact ⟨i, by omega, j, by omega, rfl, rfl⟩

theorem mem_masses {n i : Nat} : i ∈ masses n ↔ 1 ≤ i ∧ i < n := by
  simp only [masses, List.mem_range'_1]; omega

theorem lookup_setAttr (l : Attrs) (k k' : String) (v : Rat) :
    (setAttr l k v).lookup k' = if k' = k then some v else l.lookup k' := by
  unfold setAttr
  by_cases h : k' = k
  · subst h; simp
  · rw [if_neg h, List.lookup_cons]
    have : (k' == k) = false := by simpa using h
    rw [this]
    simp only
    induction l with
    | nil => rfl
    | cons p l ih =>
      obtain ⟨a, b⟩ := p
      by_cases hp : a = k
      · subst hp
        simp only [List.filter_cons, bne_self_eq_false, Bool.false_eq_true, if_false, List.lookup_cons, this]
        exact ih
      · have hp' : (a != k) = true := by simpa using hp
        simp only [List.filter_cons, hp', if_true, List.lookup_cons]
        cases hq : (k' == a)
        · exact ih
        · rfl

/-- Values stored under different names are all there at the end. -/
theorem lookup_fold {α : Type} (name : α → String) (val : α → Rat) (l : List α) : ∀ (init : Attrs),
    (∀ a ∈ l, ∀ b ∈ l, name a = name b → a = b) →
    ∀ a ∈ l, (l.foldl (fun m b => setAttr m (name b) (val b)) init).lookup (name a) = some (val a) := by
  intro init hinj a ha
  suffices h : ∀ (l : List α) (init : Attrs), (∀ b ∈ l, name a = name b → a = b) →
      (l.foldl (fun m b => setAttr m (name b) (val b)) init).lookup (name a) =
        if (∃ b ∈ l, name a = name b) then some (val a) else init.lookup (name a) by
    rw [h l init (fun b hb e => hinj a ha b hb e), if_pos ⟨a, ha, rfl⟩]
  intro l
  induction l with
  | nil => intro init _; simp
  | cons b l ih =>
    intro init hinj
    rw [List.foldl_cons, ih _ (fun c hc => hinj c (List.mem_cons_of_mem _ hc)), lookup_setAttr]
    by_cases h1 : ∃ c ∈ l, name a = name c
    · rw [if_pos h1, if_pos (h1.imp fun c hc => ⟨List.mem_cons_of_mem _ hc.1, hc.2⟩)]
    · rw [if_neg h1]
      by_cases h2 : name a = name b
      · rw [if_pos h2, if_pos ⟨b, List.mem_cons_self, h2⟩, hinj b List.mem_cons_self h2]
      · rw [if_neg h2, if_neg]
        rintro ⟨c, hc, e⟩
        rcases List.mem_cons.mp hc with rfl | hc
        · exact h2 e
        · exact h1 ⟨c, hc, e⟩

/-! ## Datasets -/

theorem flatMap_get {α β : Type} (f : α → List β) (c : Nat) : ∀ (l : List α) (i j : Nat), (∀ a ∈ l, (f a).length = c) → j < c →
    (l.flatMap f)[i * c + j]? = l[i]?.bind fun a => (f a)[j]? := by
  intro l
  induction l with
  | nil => intro i j _ _; simp
  | cons a l ih =>
    intro i j h hj
    have ha := h a List.mem_cons_self
    rw [List.flatMap_cons]
    cases i with
    | zero => rw [List.getElem?_append_left (by omega)]; simp
    | succ i =>
      rw [List.getElem?_append_right (by rw [ha]; calc c ≤ (i + 1) * c := Nat.le_mul_of_pos_left _ (by omega)
                                              _ ≤ _ := Nat.le_add_right _ _)]
      have : (i + 1) * c + j - (f a).length = i * c + j := by rw [ha, Nat.succ_mul]; omega
      rw [this, ih i j (fun b hb => h b (List.mem_cons_of_mem _ hb)) hj]
      simp

theorem dataset_get (ne cols : Nat) (v : Nat → Nat → ℝ) (i j : Nat) (hi : i < ne) (hj : j < cols) :
    (dataset ne cols v).get i j = v i j := by
  simp only [Dataset.get, dataset, List.getD_eq_getElem?_getD]
  rw [flatMap_get _ cols _ _ _ (by simp) hj]
  simp [hi, hj]

/-! ## Reading the parameters -/

theorem each_pairs (f : File) (A P : Nat → Nat → Rat) : ∀ (l : List (Nat × Nat)) (o : Obj),
    (∀ p ∈ l, p.1 < p.2 ∧ p.2 < o.numneu) → o.numneu ≤ maxDim →
    (∀ p ∈ l, f.angles.lookup (thLabel p.1 p.2) = some (A p.1 p.2)) →
    (∀ p ∈ l, f.phases.lookup (deltaLabel p.1 p.2) = some (P p.1 p.2)) →
    ∃ ist, each (readPair f) l o = .ok { o with
      params := ⟨fun a b => if (a, b) ∈ l then A a b else o.params.angle a b,
        fun a b => if (a, b) ∈ l then P a b else o.params.phase a b, o.params.dm2⟩,
      istate := ist } := by
  intro l
  induction l with
  | nil => intro o _ _ _ _; exact ⟨o.istate, by simp [each]⟩
  | cons p l ih =>
    obtain ⟨i, j⟩ := p
    intro o hv hn hA hP
    obtain ⟨h1, h2⟩ := hv (i, j) List.mem_cons_self
    simp only at h1 h2
    have hA0 := hA (i, j) List.mem_cons_self
    have hP0 := hP (i, j) List.mem_cons_self
    simp only at hA0 hP0
    have hpair : pairOk i j = true := by simp [pairOk, h1]; omega
    have hle : ¬(i > o.numneu ∨ j > o.numneu) := by omega
    obtain ⟨ist, h⟩ := ih { o with
        params := { o.params with angle := set2 o.params.angle i j (A i j), phase := set2 o.params.phase i j (P i j) }
        istate := false }
      (fun p hp => hv p (List.mem_cons_of_mem _ hp)) hn (fun p hp => hA p (List.mem_cons_of_mem _ hp))
      (fun p hp => hP p (List.mem_cons_of_mem _ hp))
    have hstep : readPair f o (i, j) = .ok { o with
        params := { o.params with angle := set2 o.params.angle i j (A i j), phase := set2 o.params.phase i j (P i j) }
        istate := false } := by
      simp only [readPair, hA0, hP0, setAngle, setPhase, if_neg hle, hpair, if_true, lift, Outcome.bind]
    refine ⟨ist, ?_⟩
    rw [each, hstep]
    simp only [Outcome.bind]
    rw [h]
    have e1 : (fun a b => if (a, b) ∈ l then A a b else set2 o.params.angle i j (A i j) a b) =
        fun a b => if (a, b) ∈ (i, j) :: l then A a b else o.params.angle a b := by
      funext a b
      by_cases hm : (a, b) ∈ l
      · rw [if_pos hm, if_pos (List.mem_cons_of_mem _ hm)]
      · by_cases he : a = i ∧ b = j
        · obtain ⟨rfl, rfl⟩ := he; simp [set2]
        · simp [set2, he, hm]
    have e2 : (fun a b => if (a, b) ∈ l then P a b else set2 o.params.phase i j (P i j) a b) =
        fun a b => if (a, b) ∈ (i, j) :: l then P a b else o.params.phase a b := by
      funext a b
      by_cases hm : (a, b) ∈ l
      · rw [if_pos hm, if_pos (List.mem_cons_of_mem _ hm)]
      · by_cases he : a = i ∧ b = j
        · obtain ⟨rfl, rfl⟩ := he; simp [set2]
        · simp [set2, he, hm]
    simp only [e1, e2]

theorem each_masses (f : File) (D : Nat → Rat) : ∀ (l : List Nat) (o : Obj), (∀ i ∈ l, 1 ≤ i ∧ i < o.numneu) → o.numneu ≤ maxDim →
    (∀ i ∈ l, f.masses.lookup (dmLabel i) = some (D i)) →
    ∃ ist, each (readMass f) l o = .ok { o with
      params := ⟨o.params.angle, o.params.phase, fun a => if a ∈ l then D a else o.params.dm2 a⟩, istate := ist } := by
  intro l
  induction l with
  | nil => intro o _ _ _; exact ⟨o.istate, by simp [each]⟩
  | cons i l ih =>
    intro o hv hn hD
    obtain ⟨h1, h2⟩ := hv i List.mem_cons_self
    have hle : ¬(i > o.numneu) := by omega
    have hr : 0 < i ∧ i < maxDim := by omega
    obtain ⟨ist, h⟩ := ih { o with params := { o.params with dm2 := set1 o.params.dm2 i (D i) }, istate := false }
      (fun p hp => hv p (List.mem_cons_of_mem _ hp)) hn (fun p hp => hD p (List.mem_cons_of_mem _ hp))
    refine ⟨ist, ?_⟩
    rw [each]
    simp only [readMass, hD i List.mem_cons_self, setDm2, if_neg hle, if_pos hr, lift, Outcome.bind]
    rw [h]
    have e1 : (fun a => if a ∈ l then D a else set1 o.params.dm2 i (D i) a) = fun a => if a ∈ i :: l then D a else o.params.dm2 a := by
      funext a
      by_cases hm : a ∈ l
      · rw [if_pos hm, if_pos (List.mem_cons_of_mem _ hm)]
      · by_cases he : a = i
        · subst he; simp [set1]
        · simp [set1, he, hm]
    simp only [e1]

/-! ## Initialising -/

/-- What the two `init` leave of an object, apart from the parameters. -/
structure Inited (s o : Obj) (x : Rat) : Prop where
  numneu : o.numneu = s.numneu
  nt : o.nt = s.nt
  nrhos : o.nrhos = if s.nt = .both then 2 else 1
  iint : o.iint = s.iint
  osc : o.osc = s.osc
  tauregen : o.tauregen = s.tauregen
  glashow : o.glashow = s.glashow
  body : o.body = s.body
  track : o.track = s.track
  basis : o.basis = s.basis
  energies : o.energies = s.energies
  ne : o.ne = s.energies.length
  tIni : o.tIni = x
  positivization : o.positivization = s.positivization
  allowConst : o.allowConst = s.allowConst

theorem initSingle_ok (s : Obj) (x : Rat) (h1 : 3 ≤ s.numneu) (h2 : s.numneu ≤ maxDim) (h3 : s.nt ≠ .both)
    (he : s.energies.length = 1) : ∃ o, initSingle s x = .ok o ∧ Inited s o x := by
  unfold initSingle
  simp only [if_neg h3, if_neg (show ¬ s.numneu > maxDim by omega), if_neg (show ¬ s.numneu < 3 by omega)]
  rw [setDefaults_eq _ (by simpa using h1)]
  refine ⟨_, rfl, ?_⟩
  by_cases ha : s.nt = .antineutrino
  · simp only [if_pos ha, iniProj_eq, iniH0]
    constructor <;> simp [he, h3]
  · simp only [if_neg ha, iniProj_eq, iniH0]
    constructor <;> simp [he, h3]

theorem initMulti_ok (s : Obj) (x : Rat) (h1 : 3 ≤ s.numneu) (h2 : s.numneu ≤ maxDim) (he : s.energies ≠ []) :
    ∃ o, initMulti s s.energies x = .ok o ∧ Inited s o x := by
  unfold initMulti
  simp only [if_neg (show ¬ s.numneu > maxDim by omega), if_neg (show ¬ s.numneu < 3 by omega), if_neg he]
  rw [setDefaults_eq _ (by simpa using h1)]
  refine ⟨_, rfl, ?_⟩
  simp only [iniProj_eq, iniH0]
  constructor <;> simp

/-! ## Invariants of histories -/

/-- The clock offset belongs to the place of the track. -/
def Aligned (s : Obj) : Prop := ∀ tr, s.track = some tr → s.offset = some (s.t - tr.x)

theorem aligned_congr {s s' : Obj} (h : Aligned s) (h1 : s'.track = s.track) (h2 : s'.offset = s.offset) (h3 : s'.t = s.t) :
    Aligned s' := by
  intro tr htr; rw [h1] at htr; rw [h2, h3]; exact h tr htr

theorem evolveBy_aligned (s : Obj) (dt : Rat) (h : Aligned s) : Aligned (evolveBy s dt).1 := by
  unfold evolveBy
  split
  · exact h
  · rename_i off hoff
    split
    · intro tr htr
      simp only [Option.map_eq_some_iff] at htr
      obtain ⟨tr0, h0, rfl⟩ := htr
      simp only [hoff, Option.some.injEq]
      grind
    · exact h

theorem evolveSteps_aligned (scale : Rat) : ∀ (n : Nat) (s : Obj), Aligned s → Aligned (evolveSteps scale n s).1 := by
  intro n
  induction n with
  | zero => intro s h; exact h
  | succ n ih =>
    intro s h
    have h1 := evolveBy_aligned s scale h
    unfold evolveSteps
    revert h1
    generalize evolveBy s scale = r
    obtain ⟨s1, st⟩ := r
    intro h1
    cases st
    · exact ih s1 h1
    · exact h1
    · exact h1

theorem evolveMain_aligned (s : Obj) (b : BodyRef) (tr : TrackRef) (h : Aligned s) : Aligned (evolveMain s b tr).1 := by
  unfold evolveMain
  have h0 : Aligned (if tr.xend < tr.xini then { s with h := -s.h } else s) := by
    split
    · exact aligned_congr h rfl rfl rfl
    · exact h
  revert h0
  generalize (if tr.xend < tr.xini then { s with h := -s.h } else s) = s1
  intro h0
  dsimp only
  split
  · exact evolveBy_aligned _ _ (aligned_congr h0 rfl rfl rfl)
  · split
    · split
      · exact h0
      · split
        · exact h0
        · split
          · exact h0
          · rename_i scale _ _ _ n _
            have h1 := evolveSteps_aligned scale n.toNat s1 h0
            revert h1
            generalize evolveSteps scale n.toNat s1 = r
            obtain ⟨s2, st⟩ := r
            intro h1
            cases st
            · exact evolveBy_aligned _ _ h1
            · exact h1
            · exact h1
    · exact evolveBy_aligned _ _ h0

theorem initInteractions_place (dflt : Option Xs) (s : Obj) :
    (initInteractions dflt s).1.track = s.track ∧ (initInteractions dflt s).1.t = s.t ∧
      (initInteractions dflt s).1.offset = s.offset := by
  unfold initInteractions
  split
  · simp
  · split
    · unfold sizeBuffers; split <;> simp
    · dsimp only
      split
      · simp
      · split
        · split
          · unfold sizeBuffers; split <;> simp
          · simp
        · simp

theorem evolveState_aligned (dflt : Option Xs) (s : Obj) (h : Aligned s) : Aligned (evolveState dflt s).1 := by
  unfold evolveState
  split
  · split
    · dsimp only
      have ha : Aligned (if s.iint && !s.intInit then initInteractions dflt s else (s, .ok)).1 := by
        split
        · obtain ⟨h1, h2, h3⟩ := initInteractions_place dflt s
          exact aligned_congr h h1 h3 h2
        · exact h
      revert ha
      generalize (if s.iint && !s.intInit then initInteractions dflt s else (s, .ok)) = r
      obtain ⟨s1, st⟩ := r
      intro ha
      cases st
      · exact evolveMain_aligned _ _ _ ha
      · exact ha
      · exact ha
    · exact h
  · exact h

theorem step_aligned (dflt : Option Xs) (s : Obj) (op : Op) (hn : 3 ≤ s.numneu) (h : Aligned s) : Aligned (step dflt s op).1 := by
  cases op <;> simp only [step]
  case setE e => unfold setE; split <;> exact aligned_congr h rfl rfl rfl
  case setTrack tr =>
    unfold setTrack
    split
    · exact h
    · intro tr htr
      simp only [Option.some.injEq] at htr ⊢
      subst htr; rfl
  case setInitial d b =>
    unfold setInitial
    split
    · split
      · exact h
      · intro tr htr
        simp only [iniH0, iniProj_eq, Option.some.injEq] at htr ⊢
        subst htr
        grind
    · exact h
  case evolve => exact evolveState_aligned dflt s h
  case setAngle i j v => unfold setAngle; split; · exact h
                         split <;> exact aligned_congr h rfl rfl rfl
  case setPhase i j v => unfold setPhase; split; · exact h
                         split <;> exact aligned_congr h rfl rfl rfl
  case setDm2 i v => unfold setDm2; split; · exact h
                     split <;> exact aligned_congr h rfl rfl rfl
  case setDefaults => rw [setDefaults_eq s hn]; exact aligned_congr h rfl rfl rfl
  case setBasis b => unfold setBasis; split <;> exact aligned_congr h rfl rfl rfl
  case setTau b => unfold setTau; split <;> exact aligned_congr h rfl rfl rfl
  case setGlashow b => unfold setGlashow; split <;> exact aligned_congr h rfl rfl rfl
  case initInteractions =>
    obtain ⟨h1, h2, h3⟩ := initInteractions_place dflt s
    exact aligned_congr h h1 h3 h2
  all_goals exact aligned_congr h rfl rfl rfl

theorem run_aligned {dflt : Option Xs} {c : Ctor} {tr : List (Op × Status)} {s : Obj} (hr : Run dflt c tr s) : Aligned s := by
  induction hr with
  | start s h => intro tr htr; rw [(construct_fresh c s h).track] at htr; simp at htr
  | call tr s s' op st hr hstep hst ih =>
    have := step_aligned dflt s op (run_sizes hr).1 ih
    rwa [hstep] at this

/-- Each call sets a new initial state, invalidates the state, or leaves the mass differences alone. -/
theorem step_dm2 (dflt : Option Xs) (s : Obj) (op : Op) (hn : 3 ≤ s.numneu) (h : s.istate = true → s.dm2Key = s.params.dm2) :
    (step dflt s op).1.istate = true → (step dflt s op).1.dm2Key = (step dflt s op).1.params.dm2 := by
  cases op <;> simp only [step]
  case setE e =>
    unfold setE
    split
    · exact h
    · simp
  case setTrack tr => unfold setTrack; split <;> exact h
  case setInitial d b =>
    unfold setInitial
    split
    · split
      · exact h
      · simp [iniH0, iniProj_eq]
    · exact h
  case evolve =>
    have hs := evolveState_same dflt s
    rw [hs.istate, hs.dm2Key, hs.params]; exact h
  case setAngle i j v => unfold setAngle; split; · exact h
                         split
                         · simp
                         · exact h
  case setPhase i j v => unfold setPhase; split; · exact h
                         split
                         · simp
                         · exact h
  case setDm2 i v => unfold setDm2; split; · exact h
                     split
                     · simp
                     · exact h
  case setDefaults => rw [setDefaults_eq s hn]; simp
  case setBasis b => unfold setBasis; split <;> exact h
  case setTau b => unfold setTau; split <;> exact h
  case setGlashow b => unfold setGlashow; split <;> exact h
  case initInteractions =>
    have hs := initInteractions_same dflt s
    rw [hs.istate, hs.dm2Key, hs.params]; exact h
  all_goals exact h

theorem run_dm2 {dflt : Option Xs} {c : Ctor} {tr : List (Op × Status)} {s : Obj} (hr : Run dflt c tr s) :
    s.istate = true → s.dm2Key = s.params.dm2 := by
  induction hr with
  | start s h => intro hs; rw [(construct_fresh c s h).istate] at hs; simp at hs
  | call tr s s' op st hr hstep hst ih =>
    have := step_dm2 dflt s op (run_sizes hr).1 ih
    rwa [hstep] at this

theorem step_energies (dflt : Option Xs) (s : Obj) (op : Op) (hn : 3 ≤ s.numneu)
    (h : s.ienergy = true → s.energies.length = s.ne) :
    (step dflt s op).1.ienergy = true → (step dflt s op).1.energies.length = (step dflt s op).1.ne := by
  cases op <;> simp only [step]
  case setE e =>
    unfold setE
    split
    · exact h
    · rename_i hne; simp at hne; simp [hne]
  case setTrack tr => unfold setTrack; split <;> exact h
  case setInitial d b =>
    unfold setInitial
    split
    · split
      · exact h
      · simpa [iniH0, iniProj_eq] using h
    · exact h
  case evolve =>
    have hs := evolveState_same dflt s
    rw [hs.ienergy, hs.energies, hs.ne]; exact h
  case setAngle i j v => unfold setAngle; split; · exact h
                         split <;> exact h
  case setPhase i j v => unfold setPhase; split; · exact h
                         split <;> exact h
  case setDm2 i v => unfold setDm2; split; · exact h
                     split <;> exact h
  case setDefaults => rw [setDefaults_eq s hn]; exact h
  case setBasis b => unfold setBasis; split <;> exact h
  case setTau b => unfold setTau; split <;> exact h
  case setGlashow b => unfold setGlashow; split <;> exact h
  case initInteractions =>
    have hs := initInteractions_same dflt s
    rw [hs.ienergy, hs.energies, hs.ne]; exact h
  all_goals exact h

theorem run_energies {dflt : Option Xs} {c : Ctor} {tr : List (Op × Status)} {s : Obj} (hr : Run dflt c tr s) :
    s.ienergy = true → s.energies.length = s.ne := by
  induction hr with
  | start s h => exact (construct_fresh c s h).energiesLen
  | call tr s s' op st hr hstep hst ih =>
    have := step_energies dflt s op (run_sizes hr).1 ih
    rwa [hstep] at this

theorem construct_ne {c : Ctor} {s : Obj} (h : construct c = (s, .ok)) : 1 ≤ s.ne := by
  cases c with
  | single n nt =>
    simp only [construct, ctorSingle] at h
    split at h
    · simp at h
    · split at h
      · simp at h
      · split at h
        · simp at h
        · rw [setDefaults_eq _ (by simp [blank]; omega)] at h
          simp only [Prod.mk.injEq, and_true] at h
          subst h
          split <;> simp [iniProj_eq, iniH0]
  | multi E n nt i x =>
    simp only [construct, ctorMulti] at h
    split at h
    · simp at h
    · split at h
      · simp at h
      · split at h
        · simp at h
        · rename_i hE
          rw [setDefaults_eq _ (by simp [blank]; omega)] at h
          simp only [Prod.mk.injEq, and_true] at h
          subst h
          simp only [iniProj_eq, iniH0]
          exact List.length_pos_iff.mpr hE

theorem run_shape {dflt : Option Xs} {c : Ctor} {tr : List (Op × Status)} {s : Obj} (hr : Run dflt c tr s) :
    1 ≤ s.ne ∧ s.nrhos = if s.nt = .both then 2 else 1 := by
  induction hr with
  | start s h => exact ⟨construct_ne h, (construct_fresh c s h).nrhos⟩
  | call tr s s' op st hr hstep hst ih =>
    have := step_fixed dflt s op
    rw [hstep] at this
    rw [this.ne, this.nrhos, this.nt]
    exact ih

end Verif.StateIO
