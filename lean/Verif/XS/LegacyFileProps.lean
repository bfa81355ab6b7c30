import Verif.XS.LegacyProps
import Verif.XS.FilesLemmas

/-!
# Property C67 for the legacy tables
-/

namespace Verif.XS

/-- Complete tables: every extent is the number of energies, and Emin and Emax are the first and the last energy. The energies may be spaced in
any way. -/
structure Whole (t : Legacy) (lo hi : ℝ) : Prop where
  length : t.logE.length = t.div
  first : t.logE.head? = some lo
  last : t.logE.getLast? = some hi
  Emin : t.Emin = Real.exp lo * GeV
  Emax : t.Emax = Real.exp hi * GeV
  sCC : t.sCC.n0 = 2 ∧ t.sCC.n1 = 3 ∧ t.sCC.n2 = t.div
  sNC : t.sNC.n0 = 2 ∧ t.sNC.n1 = 3 ∧ t.sNC.n2 = t.div
  dCC : t.dCC.n0 = 2 ∧ t.dCC.n1 = 3 ∧ t.dCC.n2 = t.div ∧ t.dCC.n3 = t.div
  dNC : t.dNC.n0 = 2 ∧ t.dNC.n1 = 3 ∧ t.dNC.n2 = t.div ∧ t.dNC.n3 = t.div

/-- The same cross sections at all energies. -/
def LegacySame (t t' : Legacy) : Prop :=
  (∀ f nt c E, t'.total f nt c E = t.total f nt c E) ∧ ∀ f nt c E1 E2, t'.single f nt c E1 E2 = t.single f nt c E1 E2

/-! ## Lemmas -/

theorem same_of_cells {t t' : Legacy} (h1 : t'.Emin = t.Emin) (h2 : t'.Emax = t.Emax) (h3 : t'.div = t.div) (h4 : t'.logE = t.logE)
    (s1 : t'.sCC.get = t.sCC.get) (s2 : t'.sNC.get = t.sNC.get) (d1 : t'.dCC.get = t.dCC.get) (d2 : t'.dNC.get = t.dNC.get) :
    LegacySame t t' := by
  have hn : t'.node = t.node := by funext i; rw [Legacy.node, Legacy.node, h4]
  have hi : t'.index = t.index := by funext l; rw [Legacy.index, Legacy.index, hn]
  have hs : ∀ c, (t'.sigma c).get = (t.sigma c).get := by
    intro c
    cases c
    · exact s1
    · exact s2
    · exact s2
  have hint : t'.interpolate = t.interpolate := by
    funext f nt c E
    unfold Legacy.interpolate
    rw [hi, hn, hs, h3]
  have hw : ∀ a, Legacy.totalWith a t' = Legacy.totalWith a t := by
    intro a
    funext f nt c E
    unfold Legacy.totalWith
    rw [h1, h2, hint]
  refine ⟨fun f nt c E => ?_, fun f nt c E1 E2 => ?_⟩
  · unfold Legacy.total
    rw [hw, hw]
  · have hc : ∀ d d' : T4, d'.get = d.get → ∀ l1 l2 m1 m2, t'.corners d' f nt l1 l2 m1 m2 = t.corners d f nt l1 l2 m1 m2 := by
      intro d d' hd l1 l2 m1 m2
      unfold Legacy.corners
      rw [hd, hn, h3]
    unfold Legacy.single
    rw [h1, h2, h3, hi]
    cases c
    · simp only [hc _ _ d1]
    · simp only [hc _ _ d2]
    · rfl

theorem T3.get_congr {a b : T3} (h0 : a.n0 = b.n0) (h1 : a.n1 = b.n1) (h2 : a.n2 = b.n2)
    (h : ∀ i j k, i < b.n0 → j < b.n1 → k < b.n2 → a.at_ i j k = b.at_ i j k) : a.get = b.get := by
  funext i j k
  unfold T3.get
  rw [h0, h1, h2]
  by_cases hc : i < b.n0 ∧ j < b.n1 ∧ k < b.n2
  · rw [if_pos hc, if_pos hc, h i j k hc.1 hc.2.1 hc.2.2]
  · rw [if_neg hc, if_neg hc]

theorem T4.get_congr {a b : T4} (h0 : a.n0 = b.n0) (h1 : a.n1 = b.n1) (h2 : a.n2 = b.n2) (h3 : a.n3 = b.n3)
    (h : ∀ i j k l, i < b.n0 → j < b.n1 → k < b.n2 → l < b.n3 → a.at_ i j k l = b.at_ i j k l) : a.get = b.get := by
  funext i j k l
  unfold T4.get
  rw [h0, h1, h2, h3]
  by_cases hc : i < b.n0 ∧ j < b.n1 ∧ k < b.n2 ∧ l < b.n3
  · rw [if_pos hc, if_pos hc, h i j k l hc.1 hc.2.1 hc.2.2.1 hc.2.2.2]
  · rw [if_neg hc, if_neg hc]

/-- Where a value is in a line with `b` numbers before. -/
theorem lineOf_get (before : List ℝ) (v : Nat → Nat → ℝ) {nt f : Nat} (hn : nt < 2) (hf : f < 3) :
    (lineOf id before v)[before.length + 2 * f + nt]? = some (v nt f) := by
  unfold lineOf
  rw [List.map_id, List.getElem?_append_right (by omega), show before.length + 2 * f + nt - before.length = 2 * f + nt by omega]
  match nt, f, hn, hf with
  | 0, 0, _, _ => rfl
  | 1, 0, _, _ => rfl
  | 0, 1, _, _ => rfl
  | 1, 1, _, _ => rfl
  | 0, 2, _, _ => rfl
  | 1, 2, _, _ => rfl

theorem writeTotals_spec {t : T3} {logE : List ℝ} (h0 : t.n0 = 2) (h1 : t.n1 = 3) (h2 : t.n2 = logE.length) :
    ∃ rows, writeTotals id t logE = .ok rows ∧ rows.length = logE.length ∧
      (∀ i l, logE[i]? = some l → rows[i]? = some (lineOf id [Real.exp l] fun pt fl => t.at_ pt fl i)) := by
  refine ⟨_, by rw [writeTotals, if_pos (Or.inr ⟨by omega, by omega, by omega⟩)], by simp, ?_⟩
  intro i l hl
  rw [List.getElem?_map, List.getElem?_zipIdx, hl]
  simp

theorem writeDifferentials_spec {t : T4} {logE : List ℝ} (h0 : t.n0 = 2) (h1 : t.n1 = 3) (h2 : t.n2 = logE.length) (h3 : t.n3 = logE.length) :
    ∃ rows, writeDifferentials id t logE = .ok rows ∧
      ∀ i j nt f, i < logE.length → j < logE.length → nt < 2 → f < 3 →
        rawCell rows (i * logE.length + j) (2 + 2 * f + nt) = some (t.at_ nt f i j) := by
  refine ⟨_, by rw [writeDifferentials, if_pos (Or.inr ⟨by omega, by omega, by omega, by omega⟩)], ?_⟩
  intro i j nt f hi hj hn hf
  rw [zipIdx_eq, List.flatMap_map]
  simp only [List.map_map]
  have := flat_get (fun i j => lineOf id [Real.exp (logE.getD i 0), Real.exp (logE.getD j 0)] fun pt fl => t.at_ pt fl i j) logE.length
    logE.length i j hi hj
  unfold rawCell
  erw [this]
  exact lineOf_get [Real.exp (logE.getD i 0), Real.exp (logE.getD j 0)] _ hn hf

theorem firstColumn_spec : ∀ (rows : List (List ℝ)) (logE : List ℝ), rows.length = logE.length →
    (∀ (i : Nat) (l : ℝ), logE[i]? = some l → rawCell rows i 0 = some (Real.exp l)) → firstColumn rows = .ok logE := by
  intro rows
  induction rows with
  | nil => intro logE h _; cases logE with
    | nil => rfl
    | cons => simp at h
  | cons row rest ih =>
    intro logE h hv
    cases logE with
    | nil => simp at h
    | cons l ls =>
      have h0 : row[0]? = some (Real.exp l) := hv 0 l rfl
      have := ih ls (by simpa using h) fun i x hx => hv (i + 1) x (by simpa using hx)
      simp only [firstColumn, h0, Outcome.ofOption_some, Outcome.bind_ok, ln, if_pos (Real.exp_pos l), Real.log_exp, this, Outcome.map]

/-! ## Theorems -/

/-- C67 for the legacy class: complete tables written to text files (numbers printed exactly) and read again give the same cross sections. -/
theorem c67_legacy_text (t : Legacy) (lo hi : ℝ) (h : Whole t lo hi) :
    ∃ x t', legacyWriteText id t = .ok x ∧ legacyFromText x = .ok t' ∧ t'.Emin = t.Emin ∧ t'.Emax = t.Emax ∧ t'.logE = t.logE ∧
      LegacySame t t' := by
  have hl := h.length
  obtain ⟨s1, w1, l1, v1⟩ := writeTotals_spec (logE := t.logE) h.sCC.1 h.sCC.2.1 (by rw [h.sCC.2.2, hl])
  obtain ⟨s2, w2, l2, v2⟩ := writeTotals_spec (logE := t.logE) h.sNC.1 h.sNC.2.1 (by rw [h.sNC.2.2, hl])
  obtain ⟨d1, w3, v3⟩ := writeDifferentials_spec (logE := t.logE) h.dCC.1 h.dCC.2.1 (by rw [h.dCC.2.2.1, hl]) (by rw [h.dCC.2.2.2, hl])
  obtain ⟨d2, w4, v4⟩ := writeDifferentials_spec (logE := t.logE) h.dNC.1 h.dNC.2.1 (by rw [h.dNC.2.2.1, hl]) (by rw [h.dNC.2.2.2, hl])
  rw [hl] at v3 v4
  have cell : ∀ {rows : List (List ℝ)} {T : T3}, (∀ i l, t.logE[i]? = some l → rows[i]? = some (lineOf id [Real.exp l] fun pt fl => T.at_ pt fl i)) →
      ∀ i nt f, i < t.div → nt < 2 → f < 3 → rawCell rows i (1 + 2 * f + nt) = some (T.at_ nt f i) := by
    intro rows T hv i nt f hi hn hf
    have hg : t.logE[i]? = some (t.logE[i]'(by omega)) := List.getElem?_eq_getElem (by omega)
    unfold rawCell
    rw [hv i _ hg]
    exact lineOf_get [_] (fun pt fl => T.at_ pt fl i) hn hf
  have col : ∀ i l, t.logE[i]? = some l → rawCell s1 i 0 = some (Real.exp l) := by
    intro i l hi
    unfold rawCell
    rw [v1 i l hi]
    rfl
  have c0 : rawCell s1 0 0 = some (Real.exp lo) := col 0 lo (by rw [← List.head?_eq_getElem?]; exact h.first)
  have c1 : rawCell s1 (s1.length - 1) 0 = some (Real.exp hi) := col _ hi (by rw [l1, ← List.getLast?_eq_getElem?]; exact h.last)
  have hcov : Covered t.div s1 s2 d1 d2 := by
    intro nt f hn hf e1 he1
    refine ⟨by rw [cell v1 e1 nt f he1 hn hf]; rfl, by rw [cell v2 e1 nt f he1 hn hf]; rfl, fun e2 he2 => ⟨?_, ?_⟩⟩
    · rw [v3 e1 e2 nt f he1 he2 hn hf]; rfl
    · rw [v4 e1 e2 nt f he1 he2 hn hf]; rfl
  refine ⟨⟨some d1, some d2, some s1, some s2⟩,
    ⟨Real.exp lo * GeV, Real.exp hi * GeV, t.div, t.logE,
      ⟨2, 3, t.div, fun nt f e => (rawCell s1 e (1 + 2 * f + nt)).getD 0⟩,
      ⟨2, 3, t.div, fun nt f e => (rawCell s2 e (1 + 2 * f + nt)).getD 0⟩,
      ⟨2, 3, t.div, t.div, fun nt f e1 e2 => (rawCell d1 (e1 * t.div + e2) (2 + 2 * f + nt)).getD 0⟩,
      ⟨2, 3, t.div, t.div, fun nt f e1 e2 => (rawCell d2 (e1 * t.div + e2) (2 + 2 * f + nt)).getD 0⟩⟩, ?_, ?_, h.Emin.symm, h.Emax.symm, rfl, ?_⟩
  · unfold legacyWriteText
    rw [w1, Outcome.bind_ok, w2, Outcome.bind_ok, w3, Outcome.bind_ok, w4, Outcome.bind_ok]
  · unfold legacyFromText
    dsimp only
    rw [if_neg (by simp [l1, l2]), firstColumn_spec s1 t.logE l1 col, Outcome.bind_ok, c0, Outcome.ofOption_some, Outcome.bind_ok, c1,
      Outcome.ofOption_some, Outcome.bind_ok, l1, hl, if_pos hcov]
  · refine same_of_cells h.Emin.symm h.Emax.symm rfl rfl ?_ ?_ ?_ ?_
    · refine T3.get_congr h.sCC.1.symm h.sCC.2.1.symm h.sCC.2.2.symm fun i j k hi hj hk => ?_
      dsimp only
      rw [cell v1 k i j (h.sCC.2.2 ▸ hk) (h.sCC.1 ▸ hi) (h.sCC.2.1 ▸ hj)]
      rfl
    · refine T3.get_congr h.sNC.1.symm h.sNC.2.1.symm h.sNC.2.2.symm fun i j k hi hj hk => ?_
      dsimp only
      rw [cell v2 k i j (h.sNC.2.2 ▸ hk) (h.sNC.1 ▸ hi) (h.sNC.2.1 ▸ hj)]
      rfl
    · refine T4.get_congr h.dCC.1.symm h.dCC.2.1.symm h.dCC.2.2.1.symm h.dCC.2.2.2.symm fun i j k l hi hj hk hl => ?_
      dsimp only
      rw [v3 k l i j (h.dCC.2.2.1 ▸ hk) (h.dCC.2.2.2 ▸ hl) (h.dCC.1 ▸ hi) (h.dCC.2.1 ▸ hj)]
      rfl
    · refine T4.get_congr h.dNC.1.symm h.dNC.2.1.symm h.dNC.2.2.1.symm h.dNC.2.2.2.symm fun i j k l hi hj hk hl => ?_
      dsimp only
      rw [v4 k l i j (h.dNC.2.2.1 ▸ hk) (h.dNC.2.2.2 ▸ hl) (h.dNC.1 ▸ hi) (h.dNC.2.1 ▸ hj)]
      rfl

/-- C67 for the legacy class, HDF5: uniform tables come back with the same cross sections. -/
theorem c67_legacy_hdf_partial (junk : ℝ) (t : Legacy) (a d : ℝ) (h : Uniform t a d) :
    ∃ t', legacyFromHDF junk (legacyWriteHDF t) = .ok t' ∧ t'.Emin = t.Emin ∧ t'.Emax = t.Emax ∧ t'.logE = t.logE ∧ LegacySame t t' := by
  have two := h.two
  have p0 : 0 < t.Emin / GeV := div_pos h.Emin_pos GeV_pos
  have p1 : 0 < t.Emax / GeV := div_pos (by rw [h.Emax]; exact exp_energy_pos _) GeV_pos
  obtain ⟨l, hl, hlen, -, -, hn⟩ := Tools.c27_logspace junk (t.Emin / GeV) (t.Emax / GeV) t.div two p0 p1
  have e0 : Real.log (t.Emin / GeV) = a := by rw [h.Emin, log_energy]
  have e1 : Real.log (t.Emax / GeV) = a + ((t.div - 1 : Nat) : ℝ) * d := by rw [h.Emax, log_energy]
  have hn1 : (t.div : ℝ) - 1 ≠ 0 := by
    have : (2 : ℝ) ≤ t.div := by exact_mod_cast two
    linarith
  have hgrid : l.map Real.log = t.logE := by
    apply List.ext_getElem?
    intro i
    by_cases hi : i < t.div
    · obtain ⟨y, hy, -, hlog⟩ := hn i hi
      rw [List.getElem?_map, hy, Option.map_some, hlog, h.node i hi, e0, e1, Nat.cast_sub (by omega), Nat.cast_one]
      congr 1
      field_simp
      ring
    · rw [List.getElem?_eq_none (by simp; omega), List.getElem?_eq_none (by have := h.length; omega)]
  refine ⟨⟨t.Emin, t.Emax, t.dCC.n2, l.map Real.log, t.sCC, t.sNC, t.dCC, t.dNC⟩, ?_, rfl, rfl, hgrid,
    same_of_cells rfl rfl h.dCC.2.2.1 hgrid rfl rfl rfl rfl⟩
  unfold legacyFromHDF legacyWriteHDF
  dsimp only
  obtain ⟨c0, c1, c2, c3⟩ := h.dCC
  obtain ⟨n0, n1, n2, n3⟩ := h.dNC
  rw [if_pos ⟨by omega, by omega, by omega, c0, n0, c1, n1⟩, if_pos ⟨p0, p1⟩, c2, hl]
  rfl

/-- Complete tables at 1 GeV, e GeV and e⁴ GeV with the totals 1, 2 and 3. -/
noncomputable def skewLegacy : Legacy where
  Emin := Real.exp 0 * GeV
  Emax := Real.exp 4 * GeV
  div := 3
  logE := [0, 1, 4]
  sCC := ⟨2, 3, 3, fun _ _ e => e + 1⟩
  sNC := ⟨2, 3, 3, fun _ _ e => e + 1⟩
  dCC := ⟨2, 3, 3, 3, fun _ _ _ _ => 0⟩
  dNC := ⟨2, 3, 3, 3, fun _ _ _ _ => 0⟩

/-- The same tables over evenly spaced logarithms. -/
noncomputable def evenedLegacy : Legacy :=
  ⟨skewLegacy.Emin, skewLegacy.Emax, 3, [0, 2, 4], skewLegacy.sCC, skewLegacy.sNC, skewLegacy.dCC, skewLegacy.dNC⟩

/-- Tables as in `c67_legacy_text`. -/
theorem skewLegacy_whole : Whole skewLegacy 0 4 :=
  ⟨rfl, rfl, rfl, rfl, rfl, ⟨rfl, rfl, rfl⟩, ⟨rfl, rfl, rfl⟩, ⟨rfl, rfl, rfl, rfl⟩, ⟨rfl, rfl, rfl, rfl⟩⟩

example : Whole skewLegacy 0 4 ∧ Uniform someLegacy 0 1 := ⟨skewLegacy_whole, someLegacy_uniform⟩

/-- C67 fails for the legacy class and HDF5 when the energies are not evenly spaced, which text files allow: the energies are not stored. The
cross section at the energy e GeV, where the table has the value 2, comes back as 3/2. -/
theorem c67_legacy_hdf_violated (junk : ℝ) : ∃ (t t' : Legacy), Whole t 0 4 ∧ legacyFromHDF junk (legacyWriteHDF t) = .ok t' ∧
    ∀ f nt c, f < 3 → t.total f nt c (GeV * Real.exp 1) = .ok 2 ∧ t'.total f nt c (GeV * Real.exp 1) = .ok (3 / 2) := by
  have g0 : skewLegacy.Emin / GeV = Real.exp 0 := mul_div_cancel_right₀ _ GeV_pos.ne'
  have g1 : skewLegacy.Emax / GeV = Real.exp 4 := mul_div_cancel_right₀ _ GeV_pos.ne'
  obtain ⟨l, hl, hlen, -, -, hn⟩ := Tools.c27_logspace junk (skewLegacy.Emin / GeV) (skewLegacy.Emax / GeV) 3 (by norm_num)
    (by rw [g0]; exact Real.exp_pos _) (by rw [g1]; exact Real.exp_pos _)
  have hgrid : l.map Real.log = [0, 2, 4] := by
    apply List.ext_getElem?
    intro i
    match i with
    | 0 =>
      obtain ⟨y, hy, -, hlog⟩ := hn 0 (by norm_num)
      rw [List.getElem?_map, hy, Option.map_some, hlog, g0, g1]
      simp
    | 1 =>
      obtain ⟨y, hy, -, hlog⟩ := hn 1 (by norm_num)
      rw [List.getElem?_map, hy, Option.map_some, hlog, g0, g1]
      simp
      norm_num
    | 2 =>
      obtain ⟨y, hy, -, hlog⟩ := hn 2 (by norm_num)
      rw [List.getElem?_map, hy, Option.map_some, hlog, g0, g1]
      simp
      norm_num
    | k + 3 => rw [List.getElem?_eq_none (by simp; omega), List.getElem?_eq_none (by simp)]
  refine ⟨skewLegacy, evenedLegacy,
    skewLegacy_whole, ?_, ?_⟩
  · unfold legacyFromHDF
    rw [if_pos (by simp [legacyWriteHDF, skewLegacy]), if_pos ⟨by
      show 0 < skewLegacy.Emin / GeV
      rw [g0]; exact Real.exp_pos _, by
      show 0 < skewLegacy.Emax / GeV
      rw [g1]; exact Real.exp_pos _⟩]
    refine (congrArg (fun o => Outcome.bind o _) hl).trans ?_
    rw [Outcome.bind_ok, hgrid]
    rfl
  · intro f nt c hf
    have b1 : skewLegacy.Emin ≤ GeV * Real.exp 1 := by
      show Real.exp 0 * GeV ≤ _
      rw [mul_comm]
      exact mul_le_mul_of_nonneg_left (Real.exp_le_exp.2 (by norm_num)) GeV_pos.le
    have b2 : GeV * Real.exp 1 ≤ skewLegacy.Emax := by
      show _ ≤ Real.exp 4 * GeV
      rw [mul_comm (Real.exp 4)]
      exact mul_le_mul_of_nonneg_left (Real.exp_le_exp.2 (by norm_num)) GeV_pos.le
    have hnt := nt.idx_lt
    have fl2 : ⌊(1 / 2 : ℝ)⌋₊ = 0 := by
      rw [Nat.floor_eq_zero]
      norm_num
    constructor
    · rw [Legacy.total_inside hf nt c b1 b2, Legacy.interpolate, ln_ok (exp_energy_pos _), log_energy, Outcome.bind_ok]
      have hi : skewLegacy.index 1 = .ok 1 := by
        unfold Legacy.index Legacy.node quot toSize
        simp [skewLegacy]
        norm_num
      rw [hi, Outcome.bind_ok]
      have hsig : ∀ k, k < 3 → (skewLegacy.sigma c).get nt.idx f k = .ok (k + 1) := by
        intro k hk
        cases c <;> simp [Legacy.sigma, skewLegacy, T3.get, hnt, hf, hk]
      dsimp only
      rw [if_neg (by decide), hsig 1 (by norm_num), hsig (1 + 1) (by norm_num)]
      simp [Legacy.node, skewLegacy, linInter, quot, Outcome.map]
      norm_num
    · rw [Legacy.total_inside (t := evenedLegacy) hf nt c b1 b2, Legacy.interpolate, ln_ok (exp_energy_pos _), log_energy, Outcome.bind_ok]
      have hi : evenedLegacy.index 1 = .ok 0 := by
        unfold Legacy.index Legacy.node quot toSize
        simp only [evenedLegacy, List.getElem?_cons_succ, List.getElem?_cons_zero, Outcome.ofOption_some, Outcome.bind_ok, sub_zero]
        rw [if_neg (by norm_num), Outcome.bind_ok, if_pos ⟨by norm_num, by norm_num⟩, fl2]
      rw [hi, Outcome.bind_ok]
      have hsig : ∀ k, k < 3 → (evenedLegacy.sigma c).get nt.idx f k = .ok (k + 1) := by
        intro k hk
        cases c <;> simp [Legacy.sigma, evenedLegacy, skewLegacy, T3.get, hnt, hf, hk]
      dsimp only
      rw [if_neg (by decide), hsig 0 (by norm_num), hsig (0 + 1) (by norm_num)]
      simp [Legacy.node, evenedLegacy, linInter, quot, Outcome.map]
      norm_num

end Verif.XS
