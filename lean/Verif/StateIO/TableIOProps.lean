import Verif.StateIO.TableIOLemmas
import Mathlib.Data.Rat.Defs

/-!
# C94: interaction tables survive the state file entry by entry
-/

namespace Verif.TableIO

open Marr (MArray InRange rowMajor)

variable {K : Type} [Zero K]

/-! ## Properties -/

/-- The entry of a loaded table, and of the dataset it was loaded from. -/
theorem Loaded.entries {lead : List Nat} {ne r : Nat} {d : Data K} {a : MArray K} (h : Loaded lead ne r d a) (hd : d.WF)
    (hp : d.dims.prod = lead.prod * ne) (idx : List Nat) (e : Nat) (hi : InRange lead idx) (he : e < ne) :
    ∃ v, d.data[rowMajor lead idx * ne + e]? = some v ∧ a.at (idx ++ [e]) = .ok v := by
  have hq := Marr.rowMajor_lt hi
  have hlt : rowMajor lead idx * ne + e < d.data.length := by rw [hd, hp]; exact pair_lt _ _ _ _ hq he
  obtain ⟨h1, -, h3, -⟩ := h
  refine ⟨_, List.getElem?_eq_getElem hlt, ?_⟩
  have := at_snoc lead idx r e a.total a.data hi
  rw [← h1] at this
  rw [this, h3 _ _ hq he, List.getElem?_eq_getElem hlt]
  rfl

/-- C94: the tables are stored without their padding: each under its own name, with the sizes of the object, and with the entry of the table at
every index. -/
theorem c94_stored_partial (c : Sizes) (t : Tables K) (hs : Shaped c t) (k : Nat) (hk : k = c.ne → c.ne % 4 = 0) :
    ∃ g, writeTables (some k) c t = .ok g ∧ g.targets = some t.targets ∧ ∀ w : Which, ∃ d, g.sets.lookup w.name = some d ∧
      d.dims = w.lead c t.targets.length ++ [c.ne] ∧ d.WF ∧ SameEntries (w.lead c t.targets.length) c.ne (t.get w).at d.entry := by
  obtain ⟨f, h1, h2⟩ := write_ok c t hs k hk
  refine ⟨_, h1, rfl, fun w => ⟨f w, groupOf_lookup _ f w, (h2 w).1, (h2 w).2.1, ?_⟩⟩
  intro idx e hi he
  obtain ⟨hd, hw, hv⟩ := h2 w
  have hq := Marr.rowMajor_lt hi
  have hlt : rowMajor (w.lead c t.targets.length) idx * Cache.roundUp c.ne + e < (t.get w).data.length := by
    rw [hs.length w]; exact pair_lt _ _ _ _ hq (Nat.lt_of_lt_of_le he (le_roundUp _))
  refine ⟨(t.get w).data[rowMajor (w.lead c t.targets.length) idx * Cache.roundUp c.ne + e], ?_, ?_⟩
  · have := at_snoc _ idx (Cache.roundUp c.ne) e (t.get w).total (t.get w).data hi
    rw [← (hs w).1] at this
    rw [this, List.getElem?_eq_getElem hlt]
    rfl
  · unfold Data.entry
    rw [hd, at_snoc _ _ _ _ _ _ hi, hv _ _ hq he, List.getElem?_eq_getElem hlt]
    rfl

/-- C94: what was stored is read back: the same targets, tables of the same sizes, the same entry at every index, and zeros in the padding.
Missing: the write in which the test for padding finds the number of nodes in a place that does not exist
(`c94_padding_test_violated`). -/
theorem c94_round_trip_partial (iso : Int) (c : Sizes) (t : Tables K) (hs : Shaped c t) (hT : t.targets ≠ []) (k : Nat)
    (hk : k = c.ne → c.ne % 4 = 0) :
    ∃ g t', writeTables (some k) c t = .ok g ∧ readTables false iso c g = .ok t' ∧ t'.targets = t.targets ∧ Shaped c t' ∧
      ∀ w : Which, SameEntries (w.lead c t.targets.length) c.ne (t.get w).at (t'.get w).at ∧
        ZeroPadding (w.lead c t.targets.length) c.ne (Cache.roundUp c.ne) (t'.get w).at := by
  obtain ⟨f, h1, h2⟩ := write_ok c t hs k hk
  have hp : ∀ w, (f w).dims.prod = (w.lead c t.targets.length).prod * c.ne := by
    intro w
    rw [(h2 w).1]
    simp
  have hT' : ¬t.targets.length < 1 := by
    have := List.length_pos_iff.2 hT
    omega
  obtain ⟨a, b, ht, la, lb⟩ := readTau_three c t.targets (f .tauAll) (f .tauLep) (by rw [(h2 .tauAll).1]; rfl) (h2 .tauAll).2.1
    (h2 .tauLep).2.1 (hp .tauAll) (hp .tauLep)
  obtain ⟨t', r1, r2, r3, r4, r5⟩ := read_ok false iso c (groupOf t.targets f) f (groupOf_lookup _ f) t.targets
    (by unfold readTargets groupOf; simp [hT']) (by rw [(h2 .sigmaCC).1]; simp [Which.lead]) (by rw [(h2 .dNdECC).1]; simp [Which.lead])
    (fun w _ => (h2 w).2.1) (fun w _ => hp w) a b ht
  have hall : ∀ w : Which, Loaded (w.lead c t.targets.length) c.ne (Cache.roundUp c.ne) (f w) (t'.get w) := by
    intro w
    by_cases hw : NotTau w
    · exact r5 w hw
    · cases w <;> first | exact absurd ⟨by decide, by decide⟩ hw | skip
      · show Loaded _ _ _ _ t'.tauAll
        rw [r3]; exact la
      · show Loaded _ _ _ _ t'.tauLep
        rw [r4]; exact lb
  refine ⟨_, t', h1, r1, r2, fun w => ?_, fun w => ⟨?_, ?_⟩⟩
  · rw [r2]
    exact ⟨(hall w).1, (hall w).2.1⟩
  · intro idx e hi he
    obtain ⟨v, e1, e2⟩ := (hall w).entries (h2 w).2.1 (hp w) idx e hi he
    refine ⟨v, ?_, e2⟩
    have := at_snoc _ idx (Cache.roundUp c.ne) e (t.get w).total (t.get w).data hi
    rw [← (hs w).1] at this
    rw [this, ← (h2 w).2.2 _ _ (Marr.rowMajor_lt hi) he, e1]
    rfl
  · intro idx e hi he her
    have := at_snoc _ idx (Cache.roundUp c.ne) e (t'.get w).total (t'.get w).data hi
    rw [← (hall w).1] at this
    rw [this, (hall w).2.2.2 _ _ (Marr.rowMajor_lt hi) he her]
    rfl

/-- Two targets, one type, three flavours, five nodes: rows of eight. -/
def demoSizes : Sizes := ⟨5, 1, 3⟩

/-- An array whose elements are numbered, padding included. -/
def numbered (dims : List Nat) : MArray Rat := ⟨dims, dims.prod, (List.range dims.prod).map fun (k : Nat) => (k : Rat) + 1⟩

def demoTables (c : Sizes) : Tables Rat :=
  let r := Cache.roundUp c.ne
  ⟨[2212, 2112], numbered [2, c.nrhos, c.numneu, r], numbered [2, c.nrhos, c.numneu, r], numbered [r],
    numbered [2, c.nrhos, c.numneu, c.ne, r], numbered [2, c.nrhos, c.numneu, c.ne, r], numbered [c.ne, r],
    numbered [c.nrhos, c.ne, r], numbered [c.nrhos, c.ne, r]⟩

theorem demo_shaped (c : Sizes) : Shaped c (demoTables c) := by
  intro w
  cases w <;> exact ⟨rfl, rfl, by simp [demoTables, numbered, Tables.get]⟩

/-- Five nodes: the second row starts at the eighth element in memory and at the fifth in the file, and comes back without its padding. -/
example : ((writeTables (some 0) demoSizes (demoTables demoSizes)).bind fun g => (readTables false 81 demoSizes g).bind fun t =>
      (g.open_ "sigmacc").bind fun d => .ok (d.data.take 7, t.sigmaCC.data.take 14, t.targets)) =
    .ok ([1, 2, 3, 4, 5, 9, 10], [1, 2, 3, 4, 5, 0, 0, 0, 9, 10, 11, 12, 13, 0], [2212, 2112]) := by
  decide +kernel

/-! ### The test for padding -/

/-- C94, disagreement: writing reads an extent that does not exist (1945), so strictly it is undefined. If what is found there is the number of
nodes although the rows are padded, the entry of a differential table is taken from the place it would have without padding: row q starts
after q·ne elements of a buffer whose rows are longer. -/
theorem c94_padding_test_violated (iso : Int) (c : Sizes) (t : Tables K) (hs : Shaped c t) (hT : t.targets ≠ []) :
    writeTables none c t = .ub ∧
    ∃ g t', writeTables (some c.ne) c t = .ok g ∧ readTables false iso c g = .ok t' ∧
      ∀ w, (w = .dNdECC ∨ w = .dNdENC ∨ w = .dNdEGR) → ∀ idx e, InRange (w.lead c t.targets.length) idx → e < c.ne →
        (t'.get w).at (idx ++ [e]) = .ofOption (t.get w).data[rowMajor (w.lead c t.targets.length) idx * c.ne + e]? := by
  have key : ∀ (w : Which) (b : Bool), (b = true → c.ne % 4 = 0) → ∃ d : Data K,
      store b (w.lead c t.targets.length ++ [c.ne]) (w.lead c t.targets.length ++ [Cache.roundUp c.ne])
        (slabsOf (w.lead c t.targets.length) c.ne) (t.get w) = .ok d ∧ d.dims = w.lead c t.targets.length ++ [c.ne] ∧ d.WF :=
    fun w b hb => by
      obtain ⟨d, h1, h2, h3, -⟩ := store_spec b _ _ _ (le_roundUp c.ne) (fun h => roundUp_eq.2 (hb h)) _ (hs.length w)
      exact ⟨d, h1, h2, h3⟩
  have hbk : (c.ne == c.ne) = true := by simp
  have raw : ∀ w : Which, ∃ d : Data K,
      store (c.ne == c.ne) (w.lead c t.targets.length ++ [c.ne]) (w.lead c t.targets.length ++ [Cache.roundUp c.ne])
        (slabsOf (w.lead c t.targets.length) c.ne) (t.get w) = .ok d ∧ d.dims = w.lead c t.targets.length ++ [c.ne] ∧ d.WF ∧
        ∀ j, j < (w.lead c t.targets.length ++ [c.ne]).prod → d.data[j]? = (t.get w).data[j]? :=
    fun w => by
     rw [hbk]
     exact store_raw _ _ _ _ (by
      rw [hs.length w]
      simp only [List.prod_append, List.prod_cons, List.prod_nil, Nat.mul_one]
      exact Nat.mul_le_mul_left _ (le_roundUp _))
  have hb4 : (Cache.roundUp c.ne == c.ne) = true → c.ne % 4 = 0 := fun h => roundUp_eq.1 (by simpa using h)
  obtain ⟨d1, a1, b1⟩ := key .sigmaCC _ hb4
  obtain ⟨d2, a2, b2⟩ := key .sigmaNC _ hb4
  obtain ⟨d3, a3, b3⟩ := key .sigmaGR _ hb4
  obtain ⟨d4, a4, b4, c4, e4⟩ := raw .dNdECC
  obtain ⟨d5, a5, b5, c5, e5⟩ := raw .dNdENC
  obtain ⟨d6, a6, b6, c6, e6⟩ := raw .dNdEGR
  obtain ⟨d7, a7, b7⟩ := key .tauAll _ hb4
  obtain ⟨d8, a8, b8⟩ := key .tauLep _ hb4
  let f : Which → Data K := fun w => match w with
    | .sigmaCC => d1 | .sigmaNC => d2 | .sigmaGR => d3 | .dNdECC => d4 | .dNdENC => d5 | .dNdEGR => d6 | .tauAll => d7 | .tauLep => d8
  have hf : ∀ w, (f w).dims = w.lead c t.targets.length ++ [c.ne] ∧ (f w).WF := by
    intro w
    cases w <;> first | assumption | exact ⟨b4, c4⟩ | exact ⟨b5, c5⟩ | exact ⟨b6, c6⟩
  have hp : ∀ w, (f w).dims.prod = (w.lead c t.targets.length).prod * c.ne := by
    intro w
    rw [(hf w).1]
    simp
  have x1 : t.sigmaCC.extents = [t.targets.length, c.nrhos, c.numneu, Cache.roundUp c.ne] := (hs .sigmaCC).1
  have x2 : t.dNdECC.extents = [t.targets.length, c.nrhos, c.numneu, c.ne, Cache.roundUp c.ne] := (hs .dNdECC).1
  have x3 : t.tauAll.extents = [c.nrhos, c.ne, Cache.roundUp c.ne] := (hs .tauAll).1
  have hw : writeTables (some c.ne) c t = .ok (groupOf t.targets f) := by
    unfold writeTables
    simp only [x1, x2, x3]
    erw [a1, Outcome.bind_ok, a2, Outcome.bind_ok, a3, Outcome.bind_ok, Outcome.ofOption_some, Outcome.bind_ok, a4, Outcome.bind_ok, a5,
      Outcome.bind_ok, a6, Outcome.bind_ok, a7, Outcome.bind_ok, a8, Outcome.bind_ok]
    rfl
  refine ⟨?_, ?_⟩
  · unfold writeTables
    simp only [x1, x2, x3]
    erw [a1, Outcome.bind_ok, a2, Outcome.bind_ok, a3, Outcome.bind_ok]
    rfl
  have hT' : ¬t.targets.length < 1 := by
    have := List.length_pos_iff.2 hT
    omega
  obtain ⟨a, b, ht, la, lb⟩ := readTau_three c t.targets (f .tauAll) (f .tauLep) (by rw [(hf .tauAll).1]; rfl) (hf .tauAll).2
    (hf .tauLep).2 (hp .tauAll) (hp .tauLep)
  obtain ⟨t', r1, r2, r3, r4, r5⟩ := read_ok false iso c (groupOf t.targets f) f (groupOf_lookup _ f) t.targets
    (by unfold readTargets groupOf; simp [hT']) (by rw [(hf .sigmaCC).1]; simp [Which.lead]) (by rw [(hf .dNdECC).1]; simp [Which.lead])
    (fun w _ => (hf w).2) (fun w _ => hp w) a b ht
  refine ⟨_, t', hw, r1, ?_⟩
  have fin : ∀ w, NotTau w → (∀ j, j < (w.lead c t.targets.length ++ [c.ne]).prod → (f w).data[j]? = (t.get w).data[j]?) →
      ∀ idx e, InRange (w.lead c t.targets.length) idx → e < c.ne →
        (t'.get w).at (idx ++ [e]) = .ofOption (t.get w).data[rowMajor (w.lead c t.targets.length) idx * c.ne + e]? := by
    intro w hnt hv idx e hi he
    obtain ⟨v, e1, e2⟩ := (r5 w hnt).entries (hf w).2 (hp w) idx e hi he
    rw [e2, ← hv _ (by
      simp only [List.prod_append, List.prod_cons, List.prod_nil, Nat.mul_one]
      exact pair_lt _ _ _ _ (Marr.rowMajor_lt hi) he), e1]
    rfl
  rintro w (rfl | rfl | rfl)
  · exact fin .dNdECC ⟨by decide, by decide⟩ e4
  · exact fin .dNdENC ⟨by decide, by decide⟩ e5
  · exact fin .dNdEGR ⟨by decide, by decide⟩ e6

/-- With five nodes the entry for incoming node 1 and outgoing node 0 is 9 (the first of the second row of eight); it comes back as 6, which is
padding of the first row. -/
example : (demoTables demoSizes).dNdEGR.at [1, 0] = .ok 9 ∧
    ((writeTables (some 5) demoSizes (demoTables demoSizes)).bind fun g => (readTables false 81 demoSizes g).bind fun t =>
      t.dNdEGR.at [1, 0]) = .ok 6 := by
  decide +kernel

/-- C94, disagreement: so for every number of nodes that is not a multiple of four there are tables that come back changed. -/
theorem c94_padding_lost_violated (iso : Int) (c : Sizes) (h4 : c.ne % 4 ≠ 0) (h2 : 2 ≤ c.ne) :
    ∃ (t : Tables Rat) (g : Group Rat) (t' : Tables Rat), Shaped c t ∧ writeTables (some c.ne) c t = .ok g ∧
      readTables false iso c g = .ok t' ∧ t'.dNdEGR.at [1, 0] ≠ t.dNdEGR.at [1, 0] := by
  obtain ⟨-, g, t', h1, h3, h5⟩ := c94_padding_test_violated iso c (demoTables c) (demo_shaped c) (by simp [demoTables])
  refine ⟨demoTables c, g, t', demo_shaped c, h1, h3, ?_⟩
  have hr : c.ne < Cache.roundUp c.ne := by
    have := le_roundUp c.ne
    have h : Cache.roundUp c.ne ≠ c.ne := fun h => h4 (roundUp_eq.1 h)
    omega
  have hm : Cache.roundUp c.ne < c.ne * Cache.roundUp c.ne := by
    have := Nat.mul_le_mul_right (Cache.roundUp c.ne) h2
    omega
  have a := h5 .dNdEGR (Or.inr (Or.inr rfl)) [1] 0 (by simp [Which.lead, InRange]; omega) (by omega)
  have b := at_snoc [c.ne] [1] (Cache.roundUp c.ne) 0 [c.ne, Cache.roundUp c.ne].prod (demoTables c).dNdEGR.data
    (by simp [InRange]; omega)
  have b' : (demoTables c).dNdEGR.at [1, 0] = _ := b
  have a' : t'.dNdEGR.at [1, 0] = _ := a
  rw [a', b']
  have hd : ∀ k, k < c.ne * Cache.roundUp c.ne → (demoTables c).dNdEGR.data[k]? = some ((k : Rat) + 1) := by
    intro k hk
    simp [demoTables, numbered, hk]
  have ra : rowMajor (Which.dNdEGR.lead c (demoTables c).targets.length) [1] * c.ne + 0 = c.ne := by simp [Which.lead, rowMajor]
  have rb : rowMajor [c.ne] [1] * Cache.roundUp c.ne + 0 = Cache.roundUp c.ne := by simp [rowMajor]
  rw [ra, rb, hd _ hm]
  show Outcome.ofOption (demoTables c).dNdEGR.data[c.ne]? ≠ _
  rw [hd _ (by omega)]
  intro h
  simp only [Outcome.ofOption_some, Outcome.ok.injEq, add_left_inj, Nat.cast_inj] at h
  omega

example : demoSizes.ne % 4 ≠ 0 ∧ 2 ≤ demoSizes.ne := by decide

/-! ### Files of other sizes -/

/-- C94, partial: if the rows are padded, a file is read exactly if every table has as many elements as the object needs, and refused otherwise.
Missing: rows without padding (`c94_wrong_size_violated`). -/
theorem c94_sizes_partial (iso : Int) (c : Sizes) (h4 : c.ne % 4 ≠ 0) (g : Group K) (f : Which → Data K) (hg : Provides g f)
    (hd : ∀ w, (f w).WF) (l : List Int) (hl : g.targets = some l) (hl1 : l ≠ []) (hr4 : (f .sigmaCC).dims.length = 4)
    (hr5 : (f .dNdECC).dims.length = 5) (hr3 : (f .tauAll).dims.length = 3) :
    ((∀ w : Which, (f w).dims.prod = (w.lead c l.length).prod * c.ne) → ∃ t', readTables false iso c g = .ok t') ∧
    ((∃ w : Which, (f w).dims.prod ≠ (w.lead c l.length).prod * c.ne) → readTables false iso c g = .throws) := by
  have hlen := List.length_pos_iff.2 hl1
  have hT : readTargets false iso g = .ok l := by
    unfold readTargets
    rw [hl]
    simp only
    rw [if_neg (by simp), if_neg (by omega)]
  refine ⟨fun hp => ?_, fun ⟨w0, hw0⟩ => ?_⟩
  · obtain ⟨a, b, ht, -, -⟩ := readTau_three c l (f .tauAll) (f .tauLep) hr3 (hd _) (hd _) (hp .tauAll) (hp .tauLep)
    obtain ⟨t', r1, -⟩ := read_ok false iso c g f hg l hT (by simp [hr4]) (by simp [hr5]) (fun w _ => hd w) (fun w _ => hp w) a b ht
    exact ⟨t', r1⟩
  have hsimple : (Cache.roundUp c.ne == c.ne) = false := by
    simp only [beq_eq_false_iff_ne, ne_eq]
    exact fun h => h4 (roundUp_eq.1 h)
  have key : ∀ w : Which, ((f w).dims.prod = (w.lead c l.length).prod * c.ne ∧
        ∃ x, load false (f w) (w.lead c l.length ++ [Cache.roundUp c.ne]) (slabsOf (w.lead c l.length) c.ne)
          (zeroArray (w.lead c l.length ++ [Cache.roundUp c.ne])) = .ok x) ∨
      load false (f w) (w.lead c l.length ++ [Cache.roundUp c.ne]) (slabsOf (w.lead c l.length) c.ne)
          (zeroArray (w.lead c l.length ++ [Cache.roundUp c.ne])) = .throws := by
    intro w
    by_cases h : (f w).dims.prod = (w.lead c l.length).prod * c.ne
    · obtain ⟨x, hx, -⟩ := load_loaded false _ _ _ (le_roundUp c.ne) (fun h => by cases h) (f w) (hd w) h
      exact Or.inl ⟨h, x, hx⟩
    · exact Or.inr (load_padded _ _ _ _ h _)
  have o1 := hg.open_ .sigmaCC
  have o2 := hg.open_ .sigmaNC
  have o3 := hg.open_ .sigmaGR
  have o4 := hg.open_ .dNdECC
  have o5 := hg.open_ .dNdENC
  have o6 := hg.open_ .dNdEGR
  have o7 := hg.open_ .tauAll
  have o8 := hg.open_ .tauLep
  have i1 : infoFits g "sigmacc" 4 = true := by
    unfold infoFits
    have : g.sets.lookup "sigmacc" = _ := hg .sigmaCC
    rw [this]
    simp [hr4]
  have i2 : infoFits g "dNdEcc" 5 = true := by
    unfold infoFits
    have : g.sets.lookup "dNdEcc" = _ := hg .dNdECC
    rw [this]
    simp [hr5]
  have s4 : ([l.length, c.nrhos, c.numneu, Cache.roundUp c.ne].getD 3 0 == c.ne) = false := hsimple
  have s5 : ([l.length, c.nrhos, c.numneu, c.ne, Cache.roundUp c.ne].getD 4 0 == c.ne) = false := hsimple
  have s3 : ([c.nrhos, c.ne, Cache.roundUp c.ne].getD 2 0 == c.ne) = false := hsimple
  unfold readTables readTau
  rw [hT, Outcome.bind_ok]
  simp only [Bool.false_eq_true, if_false]
  rw [i1, i2]
  simp only [Which.name] at o1 o2 o3 o4 o5 o6 o7 o8
  simp only [o1, o2, o3, o4, o5, o6, o7, o8, Outcome.bind_ok, initVectors, zeroArray, s3, s4, s5, hr3]
  rcases key .sigmaCC with ⟨p1, d1, a1⟩ | a1
  swap
  · erw [a1]; rfl
  erw [a1, Outcome.bind_ok]
  rcases key .sigmaNC with ⟨p2, d2, a2⟩ | a2
  swap
  · erw [a2]; rfl
  erw [a2, Outcome.bind_ok]
  rcases key .sigmaGR with ⟨p3, d3, a3⟩ | a3
  swap
  · erw [a3]; rfl
  erw [a3, Outcome.bind_ok]
  rcases key .dNdECC with ⟨p4, d4, a4⟩ | a4
  swap
  · erw [a4]; rfl
  erw [a4, Outcome.bind_ok]
  rcases key .dNdENC with ⟨p5, d5, a5⟩ | a5
  swap
  · erw [a5]; rfl
  erw [a5, Outcome.bind_ok]
  rcases key .dNdEGR with ⟨p6, d6, a6⟩ | a6
  swap
  · erw [a6]; rfl
  erw [a6, Outcome.bind_ok]
  rcases key .tauAll with ⟨p7, d7, a7⟩ | a7
  swap
  · erw [a7]; rfl
  erw [a7, Outcome.bind_ok]
  rcases key .tauLep with ⟨p8, d8, a8⟩ | a8
  swap
  · erw [a8]; rfl
  exact absurd (by cases w0 <;> assumption) hw0

/-- The file of the example is read with five nodes; with six it is refused. -/
example : ((writeTables (some 0) demoSizes (demoTables demoSizes)).bind fun g => (readTables false 81 ⟨6, 1, 3⟩ g).map fun _ => ()) =
    .throws := by
  decide +kernel

/-- A file for an object with four nodes, except that the first table is `d`. -/
def fourNodes (d : Data Rat) : Group Rat :=
  let z : List Nat → Data Rat := fun l => ⟨l, List.replicate l.prod 0⟩
  ⟨some [2212], [("sigmacc", d), ("sigmanc", z [1, 1, 3, 4]), ("sigmagr", z [4]), ("dNdEcc", z [1, 1, 3, 4, 4]),
    ("dNdEnc", z [1, 1, 3, 4, 4]), ("dNdEgr", z [4, 4]), ("dNdEtauall", z [1, 4, 4]), ("dNdEtaulep", z [1, 4, 4])]⟩

/-- C94, disagreement: with rows that need no padding the size of a table in the file is compared with nothing. A longer one is written past
the end of the buffer; a shorter one is accepted, and the entry of another flavour and energy is found at some index. -/
theorem c94_wrong_size_violated :
    readTables false 81 ⟨4, 1, 3⟩ (fourNodes ⟨[1, 1, 3, 5], List.replicate 15 1⟩) = .ub ∧
    ((readTables false 81 ⟨4, 1, 3⟩ (fourNodes ⟨[1, 1, 3, 3], [0, 1, 2, 10, 11, 12, 20, 21, 22]⟩)).bind fun t =>
      t.sigmaCC.at [0, 0, 1, 0]) = .ok 11 := by
  constructor
  · have h : (readTables false 81 ⟨4, 1, 3⟩ (fourNodes ⟨[1, 1, 3, 5], List.replicate 15 1⟩)).map (fun _ => ()) = .ub := by decide +kernel
    revert h
    cases readTables false 81 ⟨4, 1, 3⟩ (fourNodes ⟨[1, 1, 3, 5], List.replicate 15 1⟩) <;> simp [Outcome.map]
  · decide +kernel

/-! ### Files without targets -/

/-- C94: a file of the current version without its list of targets, or with an empty one, is refused; one without any of the eight tables is not
accepted; and a file that is read gives its own targets. -/
theorem c94_all_required (iso : Int) (c : Sizes) (g : Group K) :
    (g.targets = none ∨ g.targets = some [] → readTables false iso c g = .throws) ∧
    (∀ legacy t', readTables legacy iso c g = .ok t' →
      (∀ w : Which, g.sets.lookup w.name ≠ none) ∧ t'.targets = if legacy then [iso] else g.targets.getD []) := by
  constructor
  · rintro (h | h) <;> (unfold readTables readTargets; rw [h]; rfl)
  · intro legacy t' ht
    have hb : ∀ {α β : Type} {x : Outcome α} {k : α → Outcome β} {y : β}, x.bind k = .ok y → ∃ v, x = .ok v ∧ k v = .ok y := by
      intro α β x k y h
      cases x with
      | ok v => exact ⟨v, rfl, h⟩
      | throws => cases h
      | ub => cases h
    have hm : ∀ {α β : Type} {x : Outcome α} {k : α → β} {y : β}, x.map k = .ok y → ∃ v, k v = y := by
      intro α β x k y h
      cases x with
      | ok v => exact ⟨v, by simpa using h⟩
      | throws => cases h
      | ub => cases h
    have ho : ∀ {name : String} {d : Data K}, g.open_ name = .ok d → g.sets.lookup name ≠ none := by
      intro name d h
      unfold Group.open_ at h
      split at h
      · simp_all
      · cases h
    unfold readTables at ht
    obtain ⟨l, hT, ht⟩ := hb ht
    by_cases hi : (!(infoFits g "sigmacc" (if legacy = true then 3 else 4) && infoFits g "dNdEcc" (if legacy = true then 4 else 5))) = true
    · rw [if_pos hi] at ht
      cases ht
    · rw [if_neg hi] at ht
      dsimp only at ht
      obtain ⟨_, o1, ht⟩ := hb ht
      obtain ⟨_, o2, ht⟩ := hb ht
      obtain ⟨_, o3, ht⟩ := hb ht
      obtain ⟨_, -, ht⟩ := hb ht
      obtain ⟨_, -, ht⟩ := hb ht
      obtain ⟨_, -, ht⟩ := hb ht
      obtain ⟨_, o4, ht⟩ := hb ht
      obtain ⟨_, o5, ht⟩ := hb ht
      obtain ⟨_, o6, ht⟩ := hb ht
      obtain ⟨_, -, ht⟩ := hb ht
      obtain ⟨_, -, ht⟩ := hb ht
      obtain ⟨_, -, ht⟩ := hb ht
      obtain ⟨_, o7, ht⟩ := hb ht
      obtain ⟨_, o8, ht⟩ := hb ht
      obtain ⟨_, rfl⟩ := hm ht
      refine ⟨fun w => ?_, ?_⟩
      · cases w
        · exact ho o1
        · exact ho o2
        · exact ho o3
        · exact ho o4
        · exact ho o5
        · exact ho o6
        · exact ho o7
        · exact ho o8
      · show l = _
        unfold readTargets at hT
        by_cases hleg : legacy = true
        · rw [if_pos hleg] at hT ⊢
          cases hT
          rfl
        · rw [if_neg hleg] at hT ⊢
          split at hT
          · cases hT
          · rename_i l' hl'
            rw [hl']
            split at hT
            · cases hT
            · cases hT
              rfl

/-- The file of four nodes keeps its only target; with its targets removed it is refused. -/
example : ((readTables false 81 ⟨4, 1, 3⟩ (fourNodes ⟨[1, 1, 3, 4], List.replicate 12 1⟩)).map fun t => t.targets) = .ok [2212] ∧
    ((readTables false 81 ⟨4, 1, 3⟩ { fourNodes ⟨[1, 1, 3, 4], List.replicate 12 1⟩ with targets := none }).map fun t => t.targets) = .throws := by
  decide +kernel

/-! ### Old files -/

/-- C94: a file of a version before 1.11 has one target and one table for the tau. Every entry of its tables is found at the same indices of the
isoscalar nucleon; the spectrum of the tau at incoming node e₁ and outgoing node e₂ is found at both types for e₂ < e₁, and is zero elsewhere. -/
theorem c94_old_files (iso : Int) (c : Sizes) (g : Group K) (f : Which → Data K) (hg : Provides g f) (hd : ∀ w, (f w).WF)
    (h1 : ∀ w, w = .sigmaCC ∨ w = .sigmaNC → (f w).dims = [c.nrhos, c.numneu, c.ne])
    (h2 : ∀ w, w = .dNdECC ∨ w = .dNdENC → (f w).dims = [c.nrhos, c.numneu, c.ne, c.ne])
    (h3 : (f .sigmaGR).dims = [c.ne]) (h4 : (f .dNdEGR).dims = [c.ne, c.ne])
    (h5 : ∀ w, w = .tauAll ∨ w = .tauLep → (f w).dims = [c.ne, c.ne]) :
    ∃ t', readTables true iso c g = .ok t' ∧ t'.targets = [iso] ∧
      (∀ w, w = .sigmaCC ∨ w = .sigmaNC → SameEntries [c.nrhos, c.numneu] c.ne (fun i => (t'.get w).at (0 :: i)) (f w).entry) ∧
      (∀ w, w = .dNdECC ∨ w = .dNdENC → SameEntries [c.nrhos, c.numneu, c.ne] c.ne (fun i => (t'.get w).at (0 :: i)) (f w).entry) ∧
      SameEntries [] c.ne t'.sigmaGR.at (f .sigmaGR).entry ∧ SameEntries [c.ne] c.ne t'.dNdEGR.at (f .dNdEGR).entry ∧
      (∀ w, w = .tauAll ∨ w = .tauLep → ∀ rho e1 e2, rho < c.nrhos → e1 < c.ne → e2 < c.ne →
        (t'.get w).at [rho, e1, e2] = if e2 < e1 then (f w).entry [e1, e2] else .ok 0) := by
  have hl : ∀ w, w = Which.tauAll ∨ w = .tauLep → (f w).data.length = c.ne * c.ne := by
    intro w hw
    rw [hd w, h5 w hw]
    simp
  obtain ⟨a, a1, a2, a3, a4⟩ := legacyTau_spec c _ (hl .tauAll (Or.inl rfl))
  obtain ⟨b, b1, b2, b3, b4⟩ := legacyTau_spec c _ (hl .tauLep (Or.inr rfl))
  have ht : readTau c (f .tauAll) (f .tauLep) (initVectors c [iso] [iso].length) = .ok (a, b) := by
    unfold readTau
    have hlen : (f .tauAll).dims.length = 2 := by rw [h5 _ (Or.inl rfl)]; rfl
    rw [if_neg (by omega), if_pos hlen, if_neg (by rw [hl _ (Or.inl rfl), hl _ (Or.inr rfl)]; omega)]
    erw [a1, Outcome.bind_ok, b1]
    rfl
  have hp : ∀ w, NotTau w → (f w).dims.prod = (w.lead c [iso].length).prod * c.ne := by
    intro w hw
    cases w with
    | sigmaCC => rw [h1 _ (Or.inl rfl)]; simp [Which.lead, Nat.mul_assoc]
    | sigmaNC => rw [h1 _ (Or.inr rfl)]; simp [Which.lead, Nat.mul_assoc]
    | dNdECC => rw [h2 _ (Or.inl rfl)]; simp [Which.lead, Nat.mul_assoc]
    | dNdENC => rw [h2 _ (Or.inr rfl)]; simp [Which.lead, Nat.mul_assoc]
    | sigmaGR => rw [h3]; simp [Which.lead]
    | dNdEGR => rw [h4]; simp [Which.lead]
    | tauAll => exact absurd rfl hw.1
    | tauLep => exact absurd rfl hw.2
  obtain ⟨t', r1, r2, r3, r4, r5⟩ := read_ok true iso c g f hg [iso] rfl (by rw [h1 _ (Or.inl rfl)]; simp) (by rw [h2 _ (Or.inl rfl)]; simp)
    (fun w _ => hd w) hp a b ht
  have same : ∀ (w : Which) (lead : List Nat), NotTau w → (f w).dims = lead ++ [c.ne] → ∀ pre : List Nat,
      (∀ idx, InRange lead idx → InRange (w.lead c [iso].length) (pre ++ idx) ∧
        rowMajor (w.lead c [iso].length) (pre ++ idx) = rowMajor lead idx) →
      SameEntries lead c.ne (fun i => (t'.get w).at (pre ++ i)) (f w).entry := by
    intro w lead hw hdim pre hpre idx e hi he
    obtain ⟨p1, p2⟩ := hpre idx hi
    obtain ⟨v, e1, e2⟩ := (r5 w hw).entries (hd w) (hp w hw) (pre ++ idx) e p1 he
    refine ⟨v, by show (t'.get w).at (pre ++ (idx ++ [e])) = _; rw [← List.append_assoc]; exact e2, ?_⟩
    unfold Data.entry
    rw [hdim, at_snoc _ _ _ _ _ _ hi, ← p2, e1]
    rfl
  have one : ∀ lead idx : List Nat, InRange lead idx → InRange (1 :: lead) ([0] ++ idx) ∧ rowMajor (1 :: lead) ([0] ++ idx) = rowMajor lead idx := by
    intro lead idx h
    exact ⟨List.Forall₂.cons (by omega) h, by simp [rowMajor]⟩
  refine ⟨t', r1, r2, ?_, ?_, ?_, ?_, ?_⟩
  · rintro w (rfl | rfl)
    · exact same .sigmaCC _ ⟨by decide, by decide⟩ (h1 _ (Or.inl rfl)) [0] (one _)
    · exact same .sigmaNC _ ⟨by decide, by decide⟩ (h1 _ (Or.inr rfl)) [0] (one _)
  · rintro w (rfl | rfl)
    · exact same .dNdECC _ ⟨by decide, by decide⟩ (h2 _ (Or.inl rfl)) [0] (one _)
    · exact same .dNdENC _ ⟨by decide, by decide⟩ (h2 _ (Or.inr rfl)) [0] (one _)
  · exact same .sigmaGR [] ⟨by decide, by decide⟩ h3 [] (fun idx h => ⟨h, rfl⟩)
  · exact same .dNdEGR [c.ne] ⟨by decide, by decide⟩ h4 [] (fun idx h => ⟨h, rfl⟩)
  · have fin : ∀ w, w = Which.tauAll ∨ w = .tauLep → ∀ e1 e2, e1 < c.ne → e2 < c.ne →
        (f w).entry [e1, e2] = .ofOption (f w).data[e1 * c.ne + e2]? := by
      intro w hw e1 e2 g1 g2
      unfold Data.entry
      rw [h5 w hw]
      have := at_snoc [c.ne] [e1] c.ne e2 [c.ne, c.ne].prod (f w).data (by simp [InRange]; omega)
      simpa [rowMajor] using this
    have hle := le_roundUp c.ne
    rintro w (rfl | rfl) rho e1 e2 g1 g2 g3
    · show t'.tauAll.at _ = _
      rw [r3, a4 _ _ _ g1 g2 (by omega), fin _ (Or.inl rfl) _ _ g2 g3]
    · show t'.tauLep.at _ = _
      rw [r4, b4 _ _ _ g1 g2 (by omega), fin _ (Or.inr rfl) _ _ g2 g3]

/-- An old file for five nodes, two types and three flavours, with numbered entries. -/
def oldFile : Group Rat :=
  let z : List Nat → Data Rat := fun l => ⟨l, (List.range l.prod).map fun (k : Nat) => (k : Rat) + 1⟩
  ⟨none, [("sigmacc", z [2, 3, 5]), ("sigmanc", z [2, 3, 5]), ("sigmagr", z [5]), ("dNdEcc", z [2, 3, 5, 5]),
    ("dNdEnc", z [2, 3, 5, 5]), ("dNdEgr", z [5, 5]), ("dNdEtauall", z [5, 5]), ("dNdEtaulep", z [5, 5])]⟩

example : (readTables true 81 ⟨5, 2, 3⟩ oldFile).bind (fun t => (t.sigmaCC.at [0, 1, 2, 4]).bind fun x => (t.tauAll.at [1, 3, 1]).bind fun y =>
    (t.tauAll.at [1, 3, 3]).map fun z => (t.targets, x, y, z)) = .ok ([81], 30, 17, 0) := by
  decide +kernel

end Verif.TableIO
