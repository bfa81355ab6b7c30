import Verif.XS.FilesProps

/-! C67: the ways in which tables do not survive a file. -/

namespace Verif.XS

open Verif.Interp

/-! ## Tables to write -/

theorem line_spline (x : List ℝ) (h3 : 3 ≤ x.length) (hinc : x.Pairwise (· < ·)) (p q : ℝ) :
    ∃ s, ofVectors x (x.map fun a => p + q * a) = .ok s ∧ ∀ v, s.eval v = .ok (p + q * v) := by
  have h := c24_rejects_exactly x (x.map fun a => p + q * a)
  cases e : ofVectors x (x.map fun a => p + q * a) with
  | ok s =>
    refine ⟨s, rfl, fun v => (c23_lines_exact x _ s e p q ?_ v).1⟩
    intro i a b ha hb
    rw [List.getElem?_map, ha] at hb
    exact (Option.some.inj hb).symm
  | ub => exact absurd e h.2
  | throws =>
    rcases h.1.1 e with hc | hc | hc
    · exact absurd (by simp) hc
    · omega
    · exact absurd hinc hc

theorem plane_grid (xs ys : List ℝ) (h3 : 3 ≤ xs.length) (hinc : xs.Pairwise (· < ·)) (h3' : 3 ≤ ys.length) (hinc' : ys.Pairwise (· < ·))
    (p q r : ℝ) :
    ∃ b, BiCubic.make ⟨ys.length, xs.length, fun j i => p + q * xs.getD i 0 + r * ys.getD j 0⟩ xs ys = .ok b ∧
      ∀ x y, b.eval x y = .ok (p + q * x + r * y) := by
  have h := c25_constructor_throws_iff ⟨ys.length, xs.length, fun j i => p + q * xs.getD i 0 + r * ys.getD j 0⟩ xs ys
  cases e : BiCubic.make ⟨ys.length, xs.length, fun j i => p + q * xs.getD i 0 + r * ys.getD j 0⟩ xs ys with
  | ok b =>
    refine ⟨b, rfl, fun x y => ?_⟩
    have := c25_bilinear_exact _ xs ys b e (Or.inl (by dsimp only; omega)) p q r 0 (by intro i j _ _; ring) x y
    rw [this]
    congr 1
    ring
  | ub => exact absurd e h.2
  | throws =>
    rcases h.1.1 e with hc | hc | ⟨-, hc | hc⟩
    · exact absurd rfl hc
    · exact absurd rfl hc
    · exact absurd ⟨h3, hinc⟩ hc
    · exact absurd ⟨h3', hinc'⟩ hc

/-- The energies (logarithms, eV) and z values of the witnesses. -/
noncomputable def en0 : List ℝ := [9, 10, 13]
noncomputable def zs0 : List ℝ := [0, 1 / 4, 1]
noncomputable def zsEven : List ℝ := [0, 1 / 2, 1]

theorem en0_inc : en0.Pairwise (· < ·) := by
  simp only [en0, List.pairwise_cons, List.mem_cons, List.not_mem_nil, or_false]
  norm_num

theorem zs0_inc : zs0.Pairwise (· < ·) := by
  simp only [zs0, List.pairwise_cons, List.mem_cons, List.not_mem_nil, or_false]
  norm_num

theorem zsEven_inc : zsEven.Pairwise (· < ·) := by
  simp only [zsEven, List.pairwise_cons, List.mem_cons, List.not_mem_nil, or_false]
  norm_num

/-- A flavour with the total 10^v everywhere and differentials 10^(a + b·log E + c·z)/E. -/
theorem some_flavour (zs : List ℝ) (hz : zs.length = 3) (hinc : zs.Pairwise (· < ·)) (v a b c : ℝ) :
    ∃ p : PerFlavor, OnGrid en0 zs p ∧ Square p ∧ Over 9 13 p ∧ (∀ k x, (p.s k).eval x = .ok v) ∧
      (∀ k x y, (p.d k).eval x y = .ok (a + b * x + c * y)) ∧ (∀ k, (p.d k).xs = en0 ∧ (p.d k).ys = zs) ∧
      ∀ k i j, (p.d k).data.at_ j i = a + b * en0.getD i 0 + c * zs.getD j 0 := by
  obtain ⟨s, hs, hse⟩ := line_spline en0 (by simp [en0]) en0_inc v 0
  obtain ⟨g, hg, hge⟩ := plane_grid en0 zs (by simp [en0]) en0_inc (by omega) hinc a b c
  obtain ⟨md, mx, my, -⟩ := made_sizes hg
  refine ⟨⟨fun _ => s, fun _ => g⟩, ⟨fun _ => ⟨_, hs⟩, fun _ => ⟨_, hg⟩⟩, ?_, ?_, ?_, fun _ => hge, fun _ => ⟨mx, my⟩, ?_⟩
  · intro k
    dsimp only
    rw [md]
    simp [hz, en0]
  · exact ⟨fun _ => ⟨_, _, hs, rfl, rfl⟩, fun _ => ⟨_, _, _, hg, rfl, rfl⟩⟩
  · intro k x
    rw [hse]
    simp
  · intro k i j
    dsimp only
    rw [md]

/-- The differential cross section inside the tables, for outgoing energies at the lower edge or above. -/
theorem single_value {t : Tables} {f : Nat} {p : PerFlavor} (hf : f < 3) (hp : t.data f = some p) (nt : NType) (c : Cur) {l E2 v : ℝ}
    (h0 : 0 < t.Emin) (h1 : t.Emin < pow10 l) (h2 : pow10 l ≤ t.Emax) (h3 : t.Emin ≤ E2)
    (hv : (p.d (which nt c)).eval l ((E2 - t.Emin) / (pow10 l - t.Emin)) = .ok v) :
    single t f nt c (pow10 l) E2 = .ok (pow10 v / (pow10 l / GeV)) := by
  unfold single
  rw [if_neg (not_not.2 (active hf)), if_neg (not_lt.2 h2), if_neg (not_le.2 h1), getFlavor, hp]
  dsimp only [Outcome.bind_ok]
  rw [log10, if_pos (lt_trans h0 h1), log_pow10]
  dsimp only [Outcome.bind_ok]
  rw [hv]
  dsimp only [Outcome.bind_ok]
  by_cases hE : E2 ≤ t.Emin
  · have : E2 = t.Emin := le_antisymm hE h3
    rw [if_pos hE]
    rw [this, sub_self, zero_div] at hv
    rw [hv]
    simp
  · rw [if_neg hE]
    rfl

theorem pow10_lt {x y : ℝ} (h : x < y) : pow10 x < pow10 y := by
  unfold pow10
  exact Real.rpow_lt_rpow_of_exponent_lt (by norm_num) h

/-- The total cross section inside the tables. -/
theorem total_value {t : Tables} {f : Nat} {p : PerFlavor} (hf : f < 3) (hp : t.data f = some p) (nt : NType) (c : Cur) {l v : ℝ}
    (h1 : t.Emin ≤ pow10 l) (h2 : pow10 l ≤ t.Emax) (h3 : t.Emin ≤ 10 * GeV) (hv : (p.s (which nt c)).eval l = .ok v) :
    total t f nt c (pow10 l) = .ok (pow10 v) := by
  unfold total totalWith
  rw [if_neg (not_not.2 (active hf)), if_neg (not_lt.2 h2), if_neg (fun h => absurd h.2 (not_lt.2 h3)), if_neg (not_lt.2 h1), getFlavor, hp]
  dsimp only [Outcome.bind_ok]
  rw [log10, if_pos (pow10_pos l), log_pow10]
  dsimp only [Outcome.bind_ok]
  rw [hv]
  rfl

theorem pow10_nine : pow10 9 = GeV := by
  unfold pow10 GeV
  rw [show (9 : ℝ) = ((9 : ℕ) : ℝ) by norm_num, Real.rpow_natCast]

/-- The object with three flavours between 1 GeV and 10 TeV. -/
noncomputable def object (e m t : PerFlavor) : Tables := ⟨pow10 9, pow10 13, three e m t⟩

/-! ## Text files -/

/-- C67 fails through text files: a differential cross section that depends on z only comes back with the roles of energy and z exchanged. The
tables are square and over evenly spaced z values, and all numbers are printed exactly. -/
theorem c67_text_violated : ∃ (t : Tables) (files : TextFiles) (t' : Tables), writeText id t = .ok files ∧ fromText files = .ok t' ∧
    (∀ f nt c E2, f < 3 → t.Emin ≤ E2 → single t f nt c (pow10 10) E2 =
      .ok (pow10 (-38 + (E2 - t.Emin) / (pow10 10 - t.Emin)) / (pow10 10 / GeV))) ∧
    ∀ f nt c, f < 3 → single t' f nt c (pow10 10) t.Emin = .ok (pow10 (-75 / 2) / (pow10 10 / GeV)) := by
  obtain ⟨p, hg, hsq, hov, -, hd, hxy, -⟩ := some_flavour zsEven rfl zsEven_inc (-38) (-38) 0 1
  obtain ⟨files, t', p', hw, hr, h1, h2, -, hn⟩ := c67_text_turns (object p p p) 9 13 rfl rfl (fun _ => p) (by
    intro f hf
    match f, hf with
    | 0, _ => exact ⟨rfl, hov, hsq⟩
    | 1, _ => exact ⟨rfl, hov, hsq⟩
    | 2, _ => exact ⟨rfl, hov, hsq⟩)
  have b1 : (object p p p).Emin < pow10 10 := pow10_lt (by norm_num)
  have b2 : pow10 10 ≤ (object p p p).Emax := (pow10_lt (by norm_num)).le
  refine ⟨_, files, t', hw, hr, ?_, ?_⟩
  · intro f nt c E2 hf hE
    have hdat : (object p p p).data f = some p := by
      match f, hf with
      | 0, _ => rfl
      | 1, _ => rfl
      | 2, _ => rfl
    refine single_value hf hdat nt c (pow10_pos _) b1 b2 hE ?_
    rw [hd]
    congr 1
    ring
  · intro f nt c hf
    obtain ⟨hdat, -, hnode⟩ := hn f hf
    rw [← h1]
    refine single_value hf hdat nt c (by rw [h1]; exact pow10_pos _) (by rw [h1]; exact b1) (by rw [h2]; exact b2) (le_refl _) ?_
    rw [sub_self, zero_div]
    have := hnode (which nt c) 1 0 10 9 (1 / 2) (by rw [(hxy _).1]; rfl) (by rw [(hxy _).1]; rfl) (by rw [(hxy _).2]; rfl)
    rw [Nat.cast_zero, zero_div] at this
    rw [this, hd]
    norm_num

/-- C67 fails through text files for z values that are not evenly spaced, also for symmetric tables: the z values are not read. -/
theorem c67_text_z_violated : ∃ (t : Tables) (files : TextFiles) (t' : Tables) (E2 : ℝ), writeText id t = .ok files ∧ fromText files = .ok t' ∧
    (∀ f p k i j, t.data f = some p → i < 3 → j < 3 → (p.d k).data.at_ i j = (p.d k).data.at_ j i) ∧
    ∀ f nt c, f < 3 → single t f nt c (pow10 10) E2 = .ok (pow10 (-149 / 4) / (pow10 10 / GeV)) ∧
      single t' f nt c (pow10 10) E2 = .ok (pow10 (-75 / 2) / (pow10 10 / GeV)) := by
  obtain ⟨p, hg, hsq, hov, -, hd, hxy, hat⟩ := some_flavour zs0 rfl zs0_inc (-38) (-38 - 9 / 4) (1 / 4) 1
  obtain ⟨files, t', p', hw, hr, h1, h2, -, hn⟩ := c67_text_turns (object p p p) 9 13 rfl rfl (fun _ => p) (by
    intro f hf
    match f, hf with
    | 0, _ => exact ⟨rfl, hov, hsq⟩
    | 1, _ => exact ⟨rfl, hov, hsq⟩
    | 2, _ => exact ⟨rfl, hov, hsq⟩)
  have b1 : pow10 9 < pow10 10 := pow10_lt (by norm_num)
  have b2 : pow10 10 ≤ pow10 13 := (pow10_lt (by norm_num)).le
  have hz : ((pow10 9 + pow10 10) / 2 - pow10 9) / (pow10 10 - pow10 9) = 1 / 2 := by
    rw [div_eq_iff (sub_ne_zero.2 b1.ne')]
    ring
  have hE : pow10 9 ≤ (pow10 9 + pow10 10) / 2 := by linarith
  refine ⟨_, files, t', (pow10 9 + pow10 10) / 2, hw, hr, ?_, ?_⟩
  · intro f q k i j hq hi hj
    have hqp : q = p := by
      match f, hq with
      | 0, hq => exact (Option.some.inj hq).symm
      | 1, hq => exact (Option.some.inj hq).symm
      | 2, hq => exact (Option.some.inj hq).symm
    subst hqp
    rw [hat, hat]
    have key : ∀ i, i < 3 → en0.getD i 0 = 9 + 4 * zs0.getD i 0 := by
      intro i hi
      match i, hi with
      | 0, _ => simp [en0, zs0]
      | 1, _ => simp [en0, zs0]; norm_num
      | 2, _ => simp [en0, zs0]; norm_num
    rw [key i hi, key j hj]
    ring
  · intro f nt c hf
    constructor
    · have hdat : (object p p p).data f = some p := by
        match f, hf with
        | 0, _ => rfl
        | 1, _ => rfl
        | 2, _ => rfl
      refine single_value hf hdat nt c (pow10_pos _) b1 b2 hE ?_
      rw [show (object p p p).Emin = pow10 9 from rfl, hz, hd]
      norm_num
    · obtain ⟨hdat, -, hnode⟩ := hn f hf
      refine single_value hf hdat nt c (by rw [h1]; exact pow10_pos _) (by rw [h1]; exact b1) (by rw [h2]; exact b2)
        (by rw [h1]; exact hE) ?_
      rw [h1, show (object p p p).Emin = pow10 9 from rfl, hz]
      have := hnode (which nt c) 1 1 10 10 (1 / 4) (by rw [(hxy _).1]; rfl) (by rw [(hxy _).1]; rfl) (by rw [(hxy _).2]; rfl)
      rw [(hxy _).1] at this
      simp only [en0, List.length_cons, List.length_nil] at this
      norm_num at this
      rw [this, hd]
      norm_num

/-- C67 fails through text files for tables with more energies than z values: writing reads beyond the table. -/
theorem c67_text_not_square_violated : ∃ t : Tables, Usable t ∧ ∀ fmt, writeText fmt t = .ub := by
  obtain ⟨s, hs, -⟩ := line_spline [9, 10, 11, 13] (by simp)
    (by simp only [List.pairwise_cons, List.mem_cons, List.not_mem_nil, or_false]; norm_num) (-38) 0
  obtain ⟨b, hb, -⟩ := plane_grid [9, 10, 11, 13] zsEven (by simp)
    (by simp only [List.pairwise_cons, List.mem_cons, List.not_mem_nil, or_false]; norm_num) (by simp [zsEven]) zsEven_inc (-38) 0 0
  obtain ⟨md, mx, my, -⟩ := made_sizes hb
  refine ⟨object ⟨fun _ => s, fun _ => b⟩ ⟨fun _ => s, fun _ => b⟩ ⟨fun _ => s, fun _ => b⟩, ⟨pow10_pos _, (pow10_lt (by norm_num)).le, ?_⟩, ?_⟩
  · intro f hf
    refine ⟨⟨fun _ => s, fun _ => b⟩, ?_, fun _ => ⟨_, _, hs⟩, fun _ => ⟨_, _, _, hb⟩⟩
    match f, hf with
    | 0, _ => rfl
    | 1, _ => rfl
    | 2, _ => rfl
  · intro fmt
    have hw : write2D fmt b = .ub := by
      unfold write2D
      rw [md, mx, my]
      simp [zsEven, writeRows, writeRow, cellAt, List.zipIdx, Outcome.map]
    simp [writeText, getFlavor, object, three, writeFlavor, hw]

/-- C67 fails through text files when two energies agree in the digits that are printed: what was written is refused. -/
theorem c67_text_precision_violated (fmt : ℝ → ℝ) (hpos : ∀ x, 0 < x → 0 < fmt x) (h : fmt 1 = fmt (1 + 1 / 10 ^ 7)) :
    ∃ s, MadeSpline s ∧ read1D (write1D fmt s) = .throws := by
  have hlt : (9 : ℝ) < Real.logb 10 ((1 + 1 / 10 ^ 7) * GeV) := by
    rw [Real.lt_logb_iff_rpow_lt (by norm_num) (mul_pos (by norm_num) GeV_pos)]
    have := pow10_nine
    unfold pow10 at this
    rw [this]
    have := GeV_pos
    nlinarith
  have hlt2 : Real.logb 10 ((1 + 1 / 10 ^ 7) * GeV) < 13 := by
    rw [Real.logb_lt_iff_lt_rpow (by norm_num) (mul_pos (by norm_num) GeV_pos)]
    unfold GeV
    rw [show (13 : ℝ) = ((13 : ℕ) : ℝ) by norm_num, Real.rpow_natCast]
    norm_num
  obtain ⟨s, hs, -⟩ := line_spline [9, Real.logb 10 ((1 + 1 / 10 ^ 7) * GeV), 13] (by simp) (by
    simp only [List.pairwise_cons, List.mem_cons, List.not_mem_nil, or_false]
    refine ⟨?_, ?_, by simp, List.Pairwise.nil⟩
    · rintro a (rfl | rfl)
      · exact hlt
      · norm_num
    · rintro a rfl
      exact hlt2) (-38) 0
  refine ⟨s, ⟨_, _, hs⟩, ?_⟩
  obtain ⟨ha, ho⟩ := c21_accessors _ _ s hs
  have e1 : pow10 9 / GeV = 1 := by rw [pow10_nine, div_self GeV_pos.ne']
  have e2 : pow10 (Real.logb 10 ((1 + 1 / 10 ^ 7) * GeV)) / GeV = 1 + 1 / 10 ^ 7 := by
    rw [pow10_log (mul_pos (by norm_num) GeV_pos), mul_div_assoc, div_self GeV_pos.ne', mul_one]
  unfold write1D
  rw [ha, ho]
  simp only [List.map_cons, List.map_nil, List.zip_cons_cons, List.zip_nil_right, e1, e2, ← h]
  unfold read1D
  rw [if_neg (by simp)]
  have p1 := hpos 1 one_pos
  have p2 := hpos (pow10 13 / GeV) (div_pos (pow10_pos _) GeV_pos)
  have p3 := fun x => hpos (pow10 x) (pow10_pos x)
  rw [logs_spec, Outcome.bind_ok, logs_spec, Outcome.bind_ok]
  · have : ofVectors (List.map (fun x => Real.logb 10 (x * GeV)) (List.map (fun x => x.getD 0 0)
        [[fmt 1, fmt (pow10 (-38 + 0 * 9))], [fmt 1, fmt (pow10 (-38 + 0 * Real.logb 10 ((1 + 1 / 10 ^ 7) * GeV)))],
          [fmt (pow10 13 / GeV), fmt (pow10 (-38 + 0 * 13))]]))
        (List.map (fun x => Real.logb 10 (x * 1)) (List.map (fun x => x.getD 1 0)
        [[fmt 1, fmt (pow10 (-38 + 0 * 9))], [fmt 1, fmt (pow10 (-38 + 0 * Real.logb 10 ((1 + 1 / 10 ^ 7) * GeV)))],
          [fmt (pow10 13 / GeV), fmt (pow10 (-38 + 0 * 13))]])) = .throws := by
      rw [(c24_rejects_exactly _ _).1]
      right
      right
      simp
    rw [this]
    rfl
  · intro a ha
    simp only [List.map_cons, List.map_nil, List.mem_cons, List.not_mem_nil, or_false] at ha
    rcases ha with rfl | rfl | rfl <;> simpa using p3 _
  · intro a ha
    simp only [List.map_cons, List.map_nil, List.mem_cons, List.not_mem_nil, or_false] at ha
    rcases ha with rfl | rfl | rfl
    · simpa using mul_pos p1 GeV_pos
    · simpa using mul_pos p1 GeV_pos
    · simpa using mul_pos p2 GeV_pos

/-! ## HDF5 files -/

theorem stored_exact (zs : List ℝ) (e : PerFlavor) (hge : OnGrid en0 zs e) (hq : Square e) (ta : PerFlavor) :
    ∃ pe, fromHDF (stored id e e ta 0) = .ok ⟨pow10 9, pow10 13, three pe pe pe⟩ ∧ SamePer e pe := by
  obtain ⟨pe, re, se⟩ := flavour_hdf (fl := id) hge hq ⟨fun _ _ _ => rfl, fun _ _ _ _ _ => rfl⟩
  refine ⟨pe, ?_, se⟩
  obtain ⟨g, hm⟩ := hge.d 0
  obtain ⟨-, mx, my, -⟩ := made_sizes hm
  unfold fromHDF stored
  simp only [List.map_id, mx, my]
  simp only [en0] at re
  simp [fin3, re, en0]

/-- C67 fails through HDF5 files: the muon and, if it shares its tables with the muon, the tau come back with the tables of the electron. The
tables are square and over the same energies and z values, and all numbers are stored exactly. -/
theorem c67_hdf_flavours_violated : ∃ (t : Tables) (first : PerFlavor) (x : H5File) (t' : Tables),
    writeHDF id (false, true) first t = .ok x ∧ fromHDF x = .ok t' ∧ t.data 1 = t.data 2 ∧ t.data 0 = some first ∧
    ∀ f nt c, f = 1 ∨ f = 2 → total t f nt c (pow10 10) = .ok (pow10 (-37)) ∧ total t' f nt c (pow10 10) = .ok (pow10 (-38)) := by
  obtain ⟨e, hge, hq, -, hs, -⟩ := some_flavour zsEven rfl zsEven_inc (-38) (-38) 0 0
  obtain ⟨m, -, -, -, hs', -⟩ := some_flavour zsEven rfl zsEven_inc (-37) (-38) 0 0
  obtain ⟨pe, hr, hse⟩ := stored_exact zsEven e hge hq m
  have b1 : pow10 9 ≤ pow10 10 := (pow10_lt (by norm_num)).le
  have b2 : pow10 10 ≤ pow10 13 := (pow10_lt (by norm_num)).le
  have b3 : pow10 9 ≤ 10 * GeV := by rw [pow10_nine]; have := GeV_pos; linarith
  refine ⟨object e m m, e, stored id e e m 0, _, rfl, hr, rfl, rfl, ?_⟩
  intro f nt c hf
  constructor
  · refine total_value (p := m) (by omega) ?_ nt c b1 b2 b3 (hs' _ _)
    rcases hf with rfl | rfl <;> rfl
  · refine total_value (p := pe) (by omega) ?_ nt c b1 b2 b3 ?_
    · rcases hf with rfl | rfl <;> rfl
    · rw [(hse _).1]
      exact hs _ _

/-- C67 fails through HDF5 files for tables that are not square, whatever they hold: they are written and refused on reading. -/
theorem c67_hdf_not_square_violated : ∃ t : Tables, Usable t ∧ ∀ same first, t.data 0 = some first →
    ∃ x, writeHDF id same first t = .ok x ∧ fromHDF x = .throws := by
  obtain ⟨s, hs, -⟩ := line_spline [9, 10, 11, 13] (by simp)
    (by simp only [List.pairwise_cons, List.mem_cons, List.not_mem_nil, or_false]; norm_num) (-38) 0
  obtain ⟨b, hb, -⟩ := plane_grid [9, 10, 11, 13] zsEven (by simp)
    (by simp only [List.pairwise_cons, List.mem_cons, List.not_mem_nil, or_false]; norm_num) (by simp [zsEven]) zsEven_inc (-38) 0 0
  obtain ⟨md, mx, my, -⟩ := made_sizes hb
  refine ⟨object ⟨fun _ => s, fun _ => b⟩ ⟨fun _ => s, fun _ => b⟩ ⟨fun _ => s, fun _ => b⟩, ⟨pow10_pos _, (pow10_lt (by norm_num)).le, ?_⟩, ?_⟩
  · intro f hf
    refine ⟨⟨fun _ => s, fun _ => b⟩, ?_, fun _ => ⟨_, _, hs⟩, fun _ => ⟨_, _, _, hb⟩⟩
    match f, hf with
    | 0, _ => rfl
    | 1, _ => rfl
    | 2, _ => rfl
  · intro same first hfirst
    have hfe : first = ⟨fun _ => s, fun _ => b⟩ := (Option.some.inj hfirst).symm
    subst hfe
    refine ⟨stored id ⟨fun _ => s, fun _ => b⟩ ⟨fun _ => s, fun _ => b⟩ ⟨fun _ => s, fun _ => b⟩
      (if same.1 then 0 else if same.2 then 0 else 2), ?_, ?_⟩
    · unfold writeHDF stored
      simp only [getFlavor, object, three, Outcome.bind_ok, Outcome.ofOption_some]
      cases same.1 <;> rfl
    · have hrt : readTotal [9, 10, 11, 13] s.ordinates = .ok s := by
        obtain ⟨-, ho⟩ := c21_accessors _ _ s hs
        rw [ho]
        unfold readTotal
        rw [if_neg (by simp)]
        unfold ofVectors at hs
        rw [if_pos (by simp)] at hs
        exact hs
      have hf : readFlavorHDF5 [9, 10, 11, 13] zsEven (writeFlavorHDF5 id ⟨fun _ => s, fun _ => b⟩) = .throws := by
        unfold readFlavorHDF5 writeFlavorHDF5
        simp only [List.map_id, hrt, Outcome.bind_ok]
        unfold readDifferential
        rw [if_pos (by rw [md]; simp [zsEven])]
        rfl
      unfold fromHDF stored
      simp only [List.map_id, mx, my, fin3]
      simp [hf]

/-- C67 fails through HDF5 files when the totals are tabulated at other energies than the differentials (text files may do that): the totals are
read back at the energies of the differentials. -/
theorem c67_hdf_energies_violated : ∃ (t : Tables) (first : PerFlavor) (x : H5File) (t' : Tables),
    writeHDF id (true, true) first t = .ok x ∧ fromHDF x = .ok t' ∧ t.data 0 = some first ∧ Over 9 13 first ∧
    ∀ f nt c, f < 3 → total t f nt c (pow10 10) = .ok (pow10 (-37)) ∧ total t' f nt c (pow10 10) = .ok (pow10 (-36)) := by
  obtain ⟨s, hs, hse⟩ := line_spline [9, 11, 13] (by simp)
    (by simp only [List.pairwise_cons, List.mem_cons, List.not_mem_nil, or_false]; norm_num) (-47) 1
  obtain ⟨b, hb, -⟩ := plane_grid en0 zsEven (by simp [en0]) en0_inc (by simp [zsEven]) zsEven_inc (-38) 0 0
  obtain ⟨md, mx, my, -⟩ := made_sizes hb
  have hnew : ∃ s', ofVectors en0 s.ordinates = .ok s' := by
    obtain ⟨-, ho⟩ := c21_accessors _ _ s hs
    have h := c24_rejects_exactly en0 s.ordinates
    cases e : ofVectors en0 s.ordinates with
    | ok s' => exact ⟨s', rfl⟩
    | ub => exact absurd e h.2
    | throws =>
      rcases h.1.1 e with hc | hc | hc
      · rw [ho] at hc
        exact absurd (by simp [en0]) hc
      · exact absurd hc (by simp [en0])
      · exact absurd en0_inc hc
  obtain ⟨s', hs'⟩ := hnew
  have hval : s'.eval 10 = .ok (-36) := by
    obtain ⟨-, ho⟩ := c21_accessors _ _ s hs
    refine c21_passes_through_nodes en0 s.ordinates s' hs' 1 10 (-36) rfl ?_
    rw [ho]
    norm_num
  have hrt : readTotal en0 s.ordinates = .ok s' := by
    obtain ⟨-, ho⟩ := c21_accessors _ _ s hs
    unfold ofVectors at hs'
    have hl : en0.length = s.ordinates.length := by rw [ho]; simp [en0]
    rw [if_pos hl] at hs'
    unfold readTotal
    rw [if_neg (by omega)]
    exact hs'
  have hrd : readDifferential en0 zsEven b.data = .ok b := by
    rw [md]
    unfold readDifferential
    rw [if_neg (by simp [zsEven, en0]), if_neg (by simp [zsEven, en0])]
    exact hb
  have hrf : readFlavorHDF5 en0 zsEven (writeFlavorHDF5 id ⟨fun _ => s, fun _ => b⟩) = .ok ⟨fun _ => s', fun _ => b⟩ := by
    unfold readFlavorHDF5 writeFlavorHDF5
    simp only [List.map_id, hrt, Outcome.bind_ok, id, hrd]
    rw [fin4_eta (fun _ => s'), fin4_eta (fun _ => b)]
  have b1 : pow10 9 ≤ pow10 10 := (pow10_lt (by norm_num)).le
  have b2 : pow10 10 ≤ pow10 13 := (pow10_lt (by norm_num)).le
  have b3 : pow10 9 ≤ 10 * GeV := by rw [pow10_nine]; have := GeV_pos; linarith
  refine ⟨object ⟨fun _ => s, fun _ => b⟩ ⟨fun _ => s, fun _ => b⟩ ⟨fun _ => s, fun _ => b⟩, ⟨fun _ => s, fun _ => b⟩,
    stored id ⟨fun _ => s, fun _ => b⟩ ⟨fun _ => s, fun _ => b⟩ ⟨fun _ => s, fun _ => b⟩ 0,
    object ⟨fun _ => s', fun _ => b⟩ ⟨fun _ => s', fun _ => b⟩ ⟨fun _ => s', fun _ => b⟩, rfl, ?_, rfl, ?_, ?_⟩
  · unfold fromHDF stored
    simp only [List.map_id, mx, my, fin3]
    simp only [en0] at hrf
    simp [hrf, en0, object]
  · exact ⟨fun _ => ⟨_, _, hs, rfl, rfl⟩, fun _ => ⟨_, _, _, hb, rfl, rfl⟩⟩
  · intro f nt c hf
    constructor
    · refine total_value (p := ⟨fun _ => s, fun _ => b⟩) hf ?_ nt c b1 b2 b3 ?_
      · match f, hf with
        | 0, _ => rfl
        | 1, _ => rfl
        | 2, _ => rfl
      · rw [hse]
        norm_num
    · refine total_value (p := ⟨fun _ => s', fun _ => b⟩) hf ?_ nt c b1 b2 b3 hval
      match f, hf with
      | 0, _ => rfl
      | 1, _ => rfl
      | 2, _ => rfl

/-! ## Examples for the positive statements in `FilesProps` -/

theorem zsEven_evenly : zsEven = evenly 3 := by
  simp only [zsEven, evenly, List.range, List.range.loop, List.map_cons, List.map_nil]
  norm_num

/-- Hypotheses of `c67_text_turns` and `c67_text_partial`: constant tables over three energies. -/
example : ∃ (t : Tables) (p : Nat → PerFlavor), pow10 9 = t.Emin ∧ pow10 13 = t.Emax ∧
    ∀ f, f < 3 → t.data f = some (p f) ∧ Over 9 13 (p f) ∧ Square (p f) ∧ ∀ k, ((p f).d k).ys = evenly ((p f).d k).ys.length ∧
      ∀ i j, i < ((p f).d k).data.n0 → j < ((p f).d k).data.n0 → ((p f).d k).data.at_ i j = ((p f).d k).data.at_ j i := by
  obtain ⟨p, -, hsq, hov, -, -, hxy, hat⟩ := some_flavour zsEven rfl zsEven_inc (-38) (-38) 0 0
  refine ⟨object p p p, fun _ => p, rfl, rfl, ?_⟩
  intro f hf
  refine ⟨?_, hov, hsq, fun k => ⟨?_, fun i j _ _ => by rw [hat, hat]; ring⟩⟩
  · match f, hf with
    | 0, _ => rfl
    | 1, _ => rfl
    | 2, _ => rfl
  · rw [(hxy k).2]
    exact zsEven_evenly

/-- Hypotheses of `c67_hdf_partial`: different tables for electron and tau, exact storage. -/
example : ∃ (t : Tables) (e ta : PerFlavor), e ≠ ta ∧ t.data 0 = some e ∧ t.data 1 = some e ∧ t.data 2 = some ta ∧
    OnGrid en0 zs0 e ∧ OnGrid en0 zs0 ta ∧ Square e ∧ Square ta ∧ Exact id e ∧ Exact id ta ∧ (∀ v ∈ en0.head?, pow10 v = t.Emin) ∧
    ∀ v ∈ en0.getLast?, pow10 v = t.Emax := by
  obtain ⟨e, ge, qe, -, se, -⟩ := some_flavour zs0 rfl zs0_inc (-38) (-38) 0 0
  obtain ⟨ta, gt, qt, -, st, -⟩ := some_flavour zs0 rfl zs0_inc (-37) (-38) 0 1
  refine ⟨object e e ta, e, ta, ?_, rfl, rfl, rfl, ge, gt, qe, qt, ⟨fun _ _ _ => rfl, fun _ _ _ _ _ => rfl⟩,
    ⟨fun _ _ _ => rfl, fun _ _ _ _ _ => rfl⟩, by simp [en0, object], by simp [en0, object]⟩
  rintro rfl
  have h := (se 0 0).symm.trans (st 0 0)
  injection h with h
  norm_num at h

end Verif.XS
