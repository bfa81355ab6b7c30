import Verif.Lifecycle.EvolutionProps

/-! C43: the interaction tables and the settings in force. -/

namespace Verif.Life

/-- The members the tables depend on. -/
structure SameTables (s s' : Obj) : Prop where
  tables : s'.tables = s.tables
  intInit : s'.intInit = s.intInit
  ncs : s'.ncs = s.ncs
  tauregen : s'.tauregen = s.tauregen
  glashow : s'.glashow = s.glashow
  ncSized : s'.ncSized = s.ncSized
  tauSized : s'.tauSized = s.tauSized
  grSized : s'.grSized = s.grSized

theorem SameTables.refl (s : Obj) : SameTables s s := ⟨rfl, rfl, rfl, rfl, rfl, rfl, rfl, rfl⟩

/-- Calls that neither configure nor use the tables leave them alone. -/
theorem step_keeps_tables (dflt : Option Xs) (s : Obj) (op : Op) (hn : 3 ≤ s.numneu) (h1 : ¬Configures op) (h2 : ¬UsesTables op) :
    SameTables s (step dflt s op).1 := by
  cases op <;> simp only [step]
  case evolve => exact absurd trivial h2
  case initInteractions => exact absurd trivial h2
  case setXs x => exact absurd trivial h1
  case setTau x => exact absurd trivial h1
  case setGlashow x => exact absurd trivial h1
  case setDefaults => rw [setDefaults_eq s hn]; exact ⟨rfl, rfl, rfl, rfl, rfl, rfl, rfl, rfl⟩
  case setE e => unfold setE; split <;> exact ⟨rfl, rfl, rfl, rfl, rfl, rfl, rfl, rfl⟩
  case setTrack t => unfold setTrack; split <;> exact ⟨rfl, rfl, rfl, rfl, rfl, rfl, rfl, rfl⟩
  case setInitial d b =>
    unfold setInitial
    split
    · split
      · exact SameTables.refl s
      · simp only [iniH0, iniProj_eq]; exact ⟨rfl, rfl, rfl, rfl, rfl, rfl, rfl, rfl⟩
    · exact SameTables.refl s
  case setAngle i j v =>
    unfold setAngle
    split
    · exact SameTables.refl s
    · split <;> exact ⟨rfl, rfl, rfl, rfl, rfl, rfl, rfl, rfl⟩
  case setPhase i j v =>
    unfold setPhase
    split
    · exact SameTables.refl s
    · split <;> exact ⟨rfl, rfl, rfl, rfl, rfl, rfl, rfl, rfl⟩
  case setDm2 i v =>
    unfold setDm2
    split
    · exact SameTables.refl s
    · split <;> exact ⟨rfl, rfl, rfl, rfl, rfl, rfl, rfl, rfl⟩
  case setBasis b => unfold setBasis; split <;> exact ⟨rfl, rfl, rfl, rfl, rfl, rfl, rfl, rfl⟩
  all_goals exact ⟨rfl, rfl, rfl, rfl, rfl, rfl, rfl, rfl⟩

/-- The tables are there, complete, computed from `x` and for the processes that are on, and so are the buffers. -/
structure Good (x : Xs) (s : Obj) : Prop where
  intInit : s.intInit = true
  ncs : s.ncs = some x
  tables : s.tables = some ⟨x.id, true, s.glashow && decide (s.nt ≠ .neutrino)⟩
  tau : s.iint = true → s.tauregen = true → s.tauSized = true
  gr : s.iint = true → s.glashow = true → s.grSized = true
  nc : s.iint = true → s.ncSized = true
  supplied : Supplies x s.glashow s.nt

theorem good_of_same {x : Xs} {s s' : Obj} (h : Good x s) (k : SameTables s s') (f : Fixed s s') : Good x s' where
  intInit := by rw [k.intInit]; exact h.intInit
  ncs := by rw [k.ncs]; exact h.ncs
  tables := by rw [k.tables, k.glashow, f.nt]; exact h.tables
  tau := by rw [f.iint, k.tauregen, k.tauSized]; exact h.tau
  gr := by rw [f.iint, k.glashow, k.grSized]; exact h.gr
  nc := by rw [f.iint, k.ncSized]; exact h.nc
  supplied := by rw [k.glashow, f.nt]; exact h.supplied

/-- A first initialisation that goes through makes the tables good for the library in force. -/
theorem init_good (dflt : Option Xs) (s s' : Obj) (hi : s.intInit = false) (ht : s.tables = none)
    (h : initInteractions dflt s = (s', .ok)) :
    ∃ x, (match s.ncs with | some x => some x | none => dflt) = some x ∧ Good x s' := by
  unfold initInteractions at h
  rw [hi, ht] at h
  simp only [Bool.false_eq_true, if_false] at h
  split at h
  · simp at h
  · rename_i x hx
    refine ⟨x, hx, ?_⟩
    split at h
    · rename_i hnuc
      split at h
      · rename_i hfill
        have hsup : Supplies x s.glashow s.nt := by
          unfold fillOk at hfill
          simp only [Bool.or_eq_true, Bool.and_eq_true, Bool.not_eq_true', Bool.and_eq_false_iff, decide_eq_false_iff_not] at hfill hnuc
          refine ⟨hfill.1, hnuc, fun hg hn => ?_⟩
          rcases hfill.2 with (h | h) | h
          · rw [hg] at h; cases h
          · exact absurd hn h
          · exact h
        simp only [Prod.mk.injEq, and_true] at h
        subst h
        unfold sizeBuffers
        dsimp only
        cases hii : s.iint
        · exact ⟨rfl, rfl, rfl, fun h => by simp at h, fun h => by simp at h, fun h => by simp at h, hsup⟩
        · refine ⟨rfl, rfl, rfl, ?_, ?_, ?_, hsup⟩
          · intro _ ht; dsimp only at ht ⊢; simp only [if_true] at ht ⊢; rw [ht]; simp
          · intro _ ht; dsimp only at ht ⊢; simp only [if_true] at ht ⊢; rw [ht]; simp
          · intro _; simp
      · simp at h
    · simp at h

theorem chosenXs_snoc (c : Ctor) (tr : List (Op × Status)) (x : Op × Status) :
    chosenXs c (tr ++ [x]) = match x with | (.setXs y, .ok) => y | _ => chosenXs c tr := by
  unfold chosenXs
  rw [List.foldl_append, List.foldl_cons, List.foldl_nil]
  rfl

theorem construct_ncs (c : Ctor) (s : Obj) (h : construct c = (s, .ok)) : s.ncs = chosenXs c [] := by
  cases c with
  | single n nt =>
    simp only [construct, ctorSingle] at h
    split at h
    · simp at h
    · split at h
      · simp at h
      · split at h
        · simp at h
        · rename_i h1 h2
          rw [setDefaults_eq _ (by simp [blank]; omega)] at h
          simp only [iniProj_eq, iniH0, blank, Prod.mk.injEq, and_true] at h
          subst h
          split <;> rfl
  | multi E n nt i x =>
    simp only [construct, ctorMulti] at h
    split at h
    · simp at h
    · split at h
      · simp at h
      · rename_i h1 h2
        split at h
        · simp at h
        · rw [setDefaults_eq _ (by simp [blank]; omega)] at h
          simp only [iniProj_eq, iniH0, blank, Prod.mk.injEq, and_true] at h
          subst h
          rfl

/-- While nothing used the tables there are none, and the library is the chosen one. -/
theorem run_before {dflt : Option Xs} {c : Ctor} {tr : List (Op × Status)} {s : Obj} (hr : Run dflt c tr s) :
    (∀ x ∈ tr, ¬UsesTables x.1) → s.tables = none ∧ s.intInit = false ∧ s.ncs = chosenXs c tr := by
  induction hr with
  | start s h => intro _; have f := construct_fresh c s h; exact ⟨f.tables, f.intInit, construct_ncs c s h⟩
  | call tr s s' op st hr hstep hst ih =>
    intro hall
    obtain ⟨i1, i2, i3⟩ := ih (fun x hx => hall x (by simp [hx]))
    have hu : ¬UsesTables op := hall (op, st) (by simp)
    rw [chosenXs_snoc]
    by_cases hc : Configures op
    · cases op <;> simp only [Configures] at hc
      · simp only [step, setTau] at hstep
        split at hstep <;> simp only [Prod.mk.injEq] at hstep <;> obtain ⟨rfl, rfl⟩ := hstep <;> exact ⟨i1, i2, i3⟩
      · simp only [step, setGlashow] at hstep
        split at hstep <;> simp only [Prod.mk.injEq] at hstep <;> obtain ⟨rfl, rfl⟩ := hstep <;> exact ⟨i1, i2, i3⟩
      · simp only [step, setXs, Prod.mk.injEq] at hstep
        obtain ⟨rfl, rfl⟩ := hstep
        exact ⟨i1, rfl, rfl⟩
    · have hk := step_keeps_tables dflt s op (run_sizes hr).1 hc hu
      rw [hstep] at hk
      refine ⟨by rw [hk.tables]; exact i1, by rw [hk.intInit]; exact i2, ?_⟩
      rw [hk.ncs, i3]
      cases op <;> first | rfl | exact absurd trivial hc

/-- An accepted evolution leaves good tables good. -/
theorem evolve_good {x : Xs} {s1 s' : Obj} {b : BodyRef} {t : TrackRef} {dts : List Rat}
    (hg : Good x s1) (hc : Chain (prepared s1 b t) dts s') : Good x s' := by
  have pf := prepared_fields s1 b t
  have ps := prepared_same s1 b t
  have k : SameTables s1 (prepared s1 b t) :=
    ⟨pf.2.2.2.1, pf.2.2.2.2.2.1, pf.2.2.2.2.1, ps.tauregen, ps.glashow, pf.2.2.2.2.2.2.2.2.2.1, pf.2.2.2.2.2.2.2.2.2.2.1,
      pf.2.2.2.2.2.2.2.2.2.2.2⟩
  have hs := hc.same
  have k2 : SameTables (prepared s1 b t) s' :=
    ⟨hs.tables, hs.intInit, hs.ncs, hs.tauregen, hs.glashow, hs.ncSized, hs.tauSized, hs.grSized⟩
  exact good_of_same (good_of_same hg k ps.toFixed) k2 hs.toFixed

/-- History with the configuration first: afterwards there are no tables yet, or good ones. -/
theorem run_after {dflt : Option Xs} {c : Ctor} {pre : List (Op × Status)} : ∀ (n : Nat) (post : List (Op × Status)) (s : Obj),
    post.length = n → Run dflt c (pre ++ post) s → (∀ x ∈ pre, ¬UsesTables x.1) → (∀ x ∈ post, ¬Configures x.1) →
    (∀ x ∈ post, UsesTables x.1 → x.2 = .ok) →
    chosenXs c (pre ++ post) = chosenXs c pre ∧
    ((s.tables = none ∧ s.intInit = false ∧ s.ncs = chosenXs c pre) ∨ ∃ x, xsInForce dflt c pre = some x ∧ Good x s) := by
  intro n
  induction n with
  | zero =>
    intro post s hl hr h1 h2 h3
    have : post = [] := List.length_eq_zero_iff.1 hl
    subst this
    rw [List.append_nil] at hr ⊢
    exact ⟨rfl, Or.inl (run_before hr h1)⟩
  | succ n ih =>
    intro post s' hl hr h1 h2 h3
    rcases List.eq_nil_or_concat post with rfl | ⟨post', y, rfl⟩
    · simp at hl
    · simp only [List.concat_eq_append] at hl hr h2 h3 ⊢
      generalize hT : pre ++ (post' ++ [y]) = T at hr
      cases hr with
      | start s' h => simp at hT
      | call tr s s' op st hr hstep hst =>
        have hT' : (pre ++ post') ++ [y] = tr ++ [(op, st)] := by rw [← hT]; simp
        have := List.append_inj' hT' (by simp)
        simp only [List.cons.injEq, and_true] at this
        obtain ⟨rfl, rfl⟩ := this
        obtain ⟨i0, i⟩ := ih post' s (by simp at hl; exact hl) hr h1 (fun x hx => h2 x (by simp [hx]))
          (fun x hx => h3 x (by simp [hx]))
        have hnc : ¬Configures op := h2 (op, st) (by simp)
        constructor
        · rw [chosenXs_snoc, i0]
          cases op <;> first | rfl | exact absurd trivial hnc
        · by_cases hu : UsesTables op
          · have hok : st = .ok := h3 (op, st) (by simp) hu
            subst hok
            cases op <;> simp only [UsesTables] at hu
            · simp only [step] at hstep
              obtain ⟨s1, b, t, dts, hb, ht, hi, ha, hc, _⟩ := evolveState_chain dflt s s' hstep
              split at hi
              · rename_i hcond
                rcases i with ⟨j1, j2, j3⟩ | ⟨x, hx, hg⟩
                · obtain ⟨x, hx, hg⟩ := init_good dflt s s1 j2 j1 hi
                  rw [j3] at hx
                  exact Or.inr ⟨x, hx, evolve_good hg hc⟩
                · rw [hg.intInit] at hcond; simp at hcond
              · rename_i hcond
                simp only [Prod.mk.injEq, and_true] at hi
                subst hi
                rcases i with ⟨j1, j2, j3⟩ | ⟨x, hx, hg⟩
                · have pf := prepared_fields s b t
                  have hs := hc.same
                  refine Or.inl ⟨?_, ?_, ?_⟩
                  · rw [hs.tables, pf.2.2.2.1]; exact j1
                  · rw [hs.intInit, pf.2.2.2.2.2.1]; exact j2
                  · rw [hs.ncs, pf.2.2.2.2.1]; exact j3
                · exact Or.inr ⟨x, hx, evolve_good hg hc⟩
            · simp only [step] at hstep
              rcases i with ⟨j1, j2, j3⟩ | ⟨x, hx, hg⟩
              · obtain ⟨x, hx, hg⟩ := init_good dflt s s' j2 j1 hstep
                rw [j3] at hx
                exact Or.inr ⟨x, hx, hg⟩
              · unfold initInteractions at hstep
                rw [hg.intInit] at hstep
                simp only [if_true, Prod.mk.injEq, and_true] at hstep
                subst hstep
                exact Or.inr ⟨x, hx, hg⟩
          · have hk := step_keeps_tables dflt s op (run_sizes hr).1 hnc hu
            have hf := step_fixed dflt s op
            rw [hstep] at hk hf
            rcases i with ⟨j1, j2, j3⟩ | ⟨x, hx, hg⟩
            · exact Or.inl ⟨by rw [hk.tables]; exact j1, by rw [hk.intInit]; exact j2, by rw [hk.ncs]; exact j3⟩
            · exact Or.inr ⟨x, hx, good_of_same hg hk hf⟩

/-- C43, partial: in every history in which the cross sections and processes are chosen before the tables are first needed, and no
attempt to prepare or use the tables failed, an accepted `EvolveState` with interactions uses complete tables computed from the cross
sections in force (which have valid values, and electrons if needed), with the Glashow tables if the resonance is on for antineutrinos, and with the buffers of the processes that are on.
Missing: choices made later (`c43_late_cross_sections_violated`, `c43_late_process_violated`) and attempts after a failure
(`c43_failed_initialisation_violated`). -/
theorem c43_tables_follow_settings_partial (dflt : Option Xs) (c : Ctor) (pre post : List (Op × Status)) (s s' : Obj)
    (hr : Run dflt c (pre ++ post) s) (h1 : ∀ x ∈ pre, ¬UsesTables x.1) (h2 : ∀ x ∈ post, ¬Configures x.1)
    (h3 : ∀ x ∈ post, UsesTables x.1 → x.2 = .ok) (hint : s.iint = true) (he : evolveState dflt s = (s', .ok)) :
    ∃ x new, xsInForce dflt c (pre ++ post) = some x ∧ Supplies x s.glashow s.nt ∧ s'.log = s.log ++ new ∧ new ≠ [] ∧
      (∀ seg ∈ new, ∃ t, seg.tables = some t ∧ t.xs = x.id ∧ t.complete = true ∧
        (t.glashow = true ↔ s.glashow = true ∧ s.nt ≠ .neutrino)) ∧
      (s.tauregen = true → s'.tauSized = true) ∧ (s.glashow = true → s'.grSized = true) := by
  obtain ⟨i0, i⟩ := run_after post.length post s rfl hr h1 h2 h3
  obtain ⟨s1, b, t, dts, hb, ht, hi, ha, hc, _⟩ := evolveState_chain dflt s s' he
  obtain ⟨r1, r2, r3, r4, _⟩ := ready_fields dflt s s1 hi
  have hgood : ∃ x, xsInForce dflt c pre = some x ∧ Good x s1 := by
    split at hi
    · rename_i hcond
      rcases i with ⟨j1, j2, j3⟩ | ⟨x, hx, hg⟩
      · obtain ⟨x, hx, hg⟩ := init_good dflt s s1 j2 j1 hi
        rw [j3] at hx
        exact ⟨x, hx, hg⟩
      · rw [hg.intInit] at hcond; simp at hcond
    · rename_i hcond
      simp only [Prod.mk.injEq, and_true] at hi
      subst hi
      rcases i with ⟨j1, j2, j3⟩ | ⟨x, hx, hg⟩
      · rw [hint, j2] at hcond; simp at hcond
      · exact ⟨x, hx, hg⟩
  obtain ⟨x, hx, hg⟩ := hgood
  have hg' := evolve_good hg hc
  obtain ⟨new, l1, l2, l3, _⟩ := hc.log
  have pf := prepared_fields s1 b t
  have hs := hc.same
  have ps := prepared_same s1 b t
  refine ⟨x, new, ?_, ?_, by rw [l1, pf.2.2.1, r4], ?_, ?_, ?_, ?_⟩
  · unfold xsInForce at hx ⊢; rw [i0]; exact hx
  · have := hg.supplied
    rw [r1.glashow, r1.nt] at this
    exact this
  · intro hn; rw [hn] at l2; exact amounts_ne_nil ha (List.length_eq_zero_iff.1 l2.symm)
  · intro seg hseg
    refine ⟨⟨x.id, true, s1.glashow && decide (s1.nt ≠ .neutrino)⟩, ?_, rfl, rfl, ?_⟩
    · rw [(l3 seg hseg).tables, pf.2.2.2.1, hg.tables]
    · simp [r1.glashow, r1.nt]
  · intro htau
    exact hg'.tau (by rw [hs.iint, ps.iint, r1.iint]; exact hint) (by rw [hs.tauregen, ps.tauregen, r1.tauregen]; exact htau)
  · intro hgl
    exact hg'.gr (by rw [hs.iint, ps.iint, r1.iint]; exact hint) (by rw [hs.glashow, ps.glashow, r1.glashow]; exact hgl)

/-- Two usable libraries and one that yields invalid values. -/
def xsA : Xs := ⟨1, true, false, true, true⟩
def xsB : Xs := ⟨2, true, false, true, true⟩
def xsBad : Xs := ⟨3, true, false, true, false⟩

def bothModes (x : Xs) : Ctor := .multi [1, 2, 4] 3 .both true (some x)

/-- Body, track, state. -/
def setUp : List Op := [.setBody (some ⟨1, false⟩), .setTrack (some ⟨7, 0, 100, 0⟩), .setInitial [3, 2, 3] .flavor]

/-- The library replaced and the processes switched on before evolving: the tables follow. -/
example : (exec none (construct (bothModes xsA)).1 ([.setXs (some xsB), .setTau true, .setGlashow true] ++ setUp ++ [.evolve])).2 =
      List.replicate 7 .ok ∧
    ((exec none (construct (bothModes xsA)).1 ([.setXs (some xsB), .setTau true, .setGlashow true] ++ setUp ++ [.evolve])).1.log.map
      fun g => g.tables) = [some ⟨2, true, true⟩] := by decide +kernel

/-- C43, disagreement: cross sections replaced after an evolution are ignored: the next evolution uses the old tables. -/
theorem c43_late_cross_sections_violated :
    ∃ tr s, Run none (bothModes xsA) tr s ∧ xsInForce none (bothModes xsA) tr = some xsB ∧
      s.log.map (fun g => g.tables.map (·.xs)) = [some 1, some 1] ∧ tr.getLast? = some (.evolve, .ok) :=
  ⟨_, _, run_exec none (bothModes xsA) (setUp ++ [.evolve, .setXs (some xsB), .evolve]) (by decide +kernel) (by decide +kernel),
    by decide +kernel, by decide +kernel, by decide +kernel⟩

/-- C43, disagreement: with oscillations, tau regeneration or the Glashow resonance switched on after the tables were prepared makes
the next evolution index buffers that were never sized. Without oscillations the resonance is silently missing. -/
theorem c43_late_process_violated :
    (∃ tr s, Run none (bothModes xsA) tr s ∧ s.tauregen = true ∧ (evolveState none s).2 = .ub) ∧
    (∃ tr s, Run none (bothModes xsA) tr s ∧ s.glashow = true ∧ (evolveState none s).2 = .ub) ∧
    (∃ tr s, Run none (bothModes xsA) tr s ∧ s.glashow = true ∧ (evolveState none s).2 = .ok ∧
      ((evolveState none s).1.log.map fun g => g.tables) = [some ⟨1, true, false⟩]) :=
  ⟨⟨_, _, run_exec none (bothModes xsA) (setUp ++ [.initInteractions, .setTau true]) (by decide +kernel) (by decide +kernel),
      by decide +kernel, by decide +kernel⟩,
   ⟨_, _, run_exec none (bothModes xsA) (setUp ++ [.initInteractions, .setGlashow true]) (by decide +kernel) (by decide +kernel),
      by decide +kernel, by decide +kernel⟩,
   ⟨_, _, run_exec none (bothModes xsA) ([.setOsc false] ++ setUp ++ [.initInteractions, .setGlashow true]) (by decide +kernel)
      (by decide +kernel), by decide +kernel, by decide +kernel, by decide +kernel⟩⟩

/-- C43, disagreement: after an initialisation that threw, the next `EvolveState` takes the unfinished tables for complete. -/
theorem c43_failed_initialisation_violated :
    ∃ tr s, Run none (bothModes xsBad) tr s ∧ tr.drop 4 = [(.setOsc false, .ok), (.evolve, .throws), (.evolve, .ok)] ∧
      s.log.map (fun g => g.tables.map (·.complete)) = [some false] :=
  ⟨_, _, run_exec none (bothModes xsBad) ([.setOsc true] ++ setUp ++ [.setOsc false, .evolve, .evolve]) (by decide +kernel)
    (by decide +kernel), by decide +kernel, by decide +kernel⟩

end Verif.Life
