import Verif.XS.Legacy
import Verif.XS.TablesProps
import Verif.Tools.GridProps
import Mathlib.Analysis.SpecialFunctions.Log.Deriv
import Mathlib.Analysis.Complex.ExponentialBounds

/-!
# Property C66: interpolation in the legacy tables
-/

namespace Verif.XS

/-! ## Specification -/

/-- Complete tables over at least two logarithmically spaced energies, the case the class is documented for (xsections.h 201-209): the natural
logarithms of the energies in GeV are a, a+d, a+2d, … -/
structure Uniform (t : Legacy) (a d : ℝ) : Prop where
  step : 0 < d
  two : 2 ≤ t.div
  fits : t.div < 2 ^ 32
  length : t.logE.length = t.div
  node : ∀ i, i < t.div → t.logE[i]? = some (a + i * d)
  Emin : t.Emin = GeV * Real.exp a
  Emax : t.Emax = GeV * Real.exp (a + ((t.div - 1 : Nat) : ℝ) * d)
  sCC : t.sCC.n0 = 2 ∧ t.sCC.n1 = 3 ∧ t.sCC.n2 = t.div
  sNC : t.sNC.n0 = 2 ∧ t.sNC.n1 = 3 ∧ t.sNC.n2 = t.div
  dCC : t.dCC.n0 = 2 ∧ t.dCC.n1 = 3 ∧ t.dCC.n2 = t.div ∧ t.dCC.n3 = t.div
  dNC : t.dNC.n0 = 2 ∧ t.dNC.n1 = 3 ∧ t.dNC.n2 = t.div ∧ t.dNC.n3 = t.div

/-- Energy number `i` of the table. -/
noncomputable def energy (a d : ℝ) (i : Nat) : ℝ := GeV * Real.exp (a + i * d)

/-- The table of differential cross sections for a current. -/
def Legacy.diff (t : Legacy) : Cur → T4
  | .CC => t.dCC
  | _ => t.dNC

/-! ## Lemmas -/

theorem log_energy {x : ℝ} : Real.log (GeV * Real.exp x / GeV) = x := by
  rw [mul_div_assoc, mul_comm, div_mul_cancel₀ _ GeV_pos.ne', Real.log_exp]

theorem le_log_iff {a E : ℝ} (hE : 0 < E) : a ≤ Real.log (E / GeV) ↔ GeV * Real.exp a ≤ E := by
  rw [Real.le_log_iff_exp_le (div_pos hE GeV_pos), le_div_iff₀ GeV_pos, mul_comm]

theorem log_lt_iff {a E : ℝ} (hE : 0 < E) : Real.log (E / GeV) < a ↔ E < GeV * Real.exp a := by
  rw [Real.log_lt_iff_lt_exp (div_pos hE GeV_pos), div_lt_iff₀ GeV_pos, mul_comm]

theorem exp_energy_pos (x : ℝ) : 0 < GeV * Real.exp x := mul_pos GeV_pos (Real.exp_pos _)

theorem Uniform.Emin_pos {t : Legacy} {a d : ℝ} (h : Uniform t a d) : 0 < t.Emin := by
  rw [h.Emin]
  exact exp_energy_pos _

theorem ln_ok {E : ℝ} (hE : 0 < E) : ln (E / GeV) = .ok (Real.log (E / GeV)) := by
  rw [ln, if_pos (div_pos hE GeV_pos)]

/-- Position of a number from the first node on: number `i`, counted in steps. -/
theorem locate {a d l : ℝ} (hd : 0 < d) (hl : a ≤ l) : ∃ i : Nat, a + i * d ≤ l ∧ l < a + ((i + 1 : Nat) : ℝ) * d := by
  refine ⟨⌊(l - a) / d⌋₊, ?_, ?_⟩
  · have := Nat.floor_le (div_nonneg (sub_nonneg.2 hl) hd.le)
    rw [le_div_iff₀ hd] at this
    linarith
  · have := Nat.lt_floor_add_one ((l - a) / d)
    rw [div_lt_iff₀ hd] at this
    push_cast
    linarith

theorem index_at {t : Legacy} {a d l : ℝ} (h : Uniform t a d) {i : Nat} (hi : i < 2 ^ 32) (h1 : a + i * d ≤ l)
    (h2 : l < a + ((i + 1 : Nat) : ℝ) * d) : t.index l = .ok i := by
  have two := h.two
  have hd := h.step
  unfold Legacy.index Legacy.node
  rw [h.node 1 (by omega), h.node 0 (by omega)]
  simp only [Outcome.ofOption_some, Outcome.bind_ok, Nat.cast_zero, zero_mul, add_zero, Nat.cast_one, one_mul, add_sub_cancel_left]
  rw [quot, if_neg hd.ne', Outcome.bind_ok, toSize]
  have q1 : (i : ℝ) ≤ (l - a) / d := by
    rw [le_div_iff₀ hd]
    linarith
  have q2 : (l - a) / d < i + 1 := by
    rw [div_lt_iff₀ hd]
    push_cast at h2
    linarith
  have q0 : (0 : ℝ) ≤ i := Nat.cast_nonneg i
  have q3 : (i : ℝ) + 1 ≤ 2 ^ 64 := by
    have : i + 1 ≤ 2 ^ 64 := by omega
    exact_mod_cast this
  rw [if_pos ⟨by linarith, by linarith⟩]
  congr 1
  rw [Nat.floor_eq_iff (by linarith)]
  exact ⟨q1, q2⟩

theorem index_below {t : Legacy} {a d l : ℝ} (h : Uniform t a d) (hl : l ≤ a - d) : t.index l = .ub := by
  have two := h.two
  have hd := h.step
  unfold Legacy.index Legacy.node
  rw [h.node 1 (by omega), h.node 0 (by omega)]
  simp only [Outcome.ofOption_some, Outcome.bind_ok, Nat.cast_zero, zero_mul, add_zero, Nat.cast_one, one_mul, add_sub_cancel_left]
  rw [quot, if_neg hd.ne', Outcome.bind_ok, toSize, if_neg]
  rintro ⟨hc, -⟩
  rw [lt_div_iff₀ hd] at hc
  linarith

/-- Between two nodes the interpolated value is a mean of the two values. -/
theorem linInter_mean {x xM xP yM yP : ℝ} (h : xM < xP) (h1 : xM ≤ x) (h2 : x ≤ xP) :
    ∃ w, 0 ≤ w ∧ w ≤ 1 ∧ linInter x xM xP yM yP = .ok ((1 - w) * yM + w * yP) := by
  have hp : 0 < xP - xM := by linarith
  refine ⟨(x - xM) / (xP - xM), div_nonneg (by linarith) hp.le, (div_le_one hp).2 (by linarith), ?_⟩
  rw [linInter, quot, if_neg hp.ne']
  simp only [Outcome.map]
  congr 1
  field_simp
  ring

theorem mean_between {w x y lo hi : ℝ} (h0 : 0 ≤ w) (h1 : w ≤ 1) (hx : lo ≤ x ∧ x ≤ hi) (hy : lo ≤ y ∧ y ≤ hi) :
    lo ≤ (1 - w) * x + w * y ∧ (1 - w) * x + w * y ≤ hi := by
  constructor <;> nlinarith [hx.1, hx.2, hy.1, hy.2]

theorem Legacy.total_inside {t : Legacy} {f : Nat} (hf : f < 3) (nt : NType) (c : Cur) {E : ℝ} (h1 : t.Emin ≤ E) (h2 : E ≤ t.Emax) :
    t.total f nt c E = t.interpolate f nt c E := by
  unfold Legacy.total Legacy.totalWith
  rw [if_neg (not_not.2 (active hf)), if_neg (not_lt.2 h2), if_neg (fun h => absurd (h.1.trans h.2) (not_lt.2 h1)), if_neg (not_lt.2 h1)]

theorem NType.idx_lt (nt : NType) : nt.idx < 2 := by cases nt <;> decide

theorem Uniform.sigma {t : Legacy} {a d : ℝ} (h : Uniform t a d) (c : Cur) :
    (t.sigma c).n0 = 2 ∧ (t.sigma c).n1 = 3 ∧ (t.sigma c).n2 = t.div := by
  cases c
  · exact h.sCC
  · exact h.sNC
  · exact h.sNC

theorem Uniform.sigma_get {t : Legacy} {a d : ℝ} (h : Uniform t a d) (c : Cur) (nt : NType) {f i : Nat} (hf : f < 3) (hi : i < t.div) :
    (t.sigma c).get nt.idx f i = .ok ((t.sigma c).at_ nt.idx f i) := by
  obtain ⟨s0, s1, s2⟩ := h.sigma c
  have := nt.idx_lt
  rw [T3.get, if_pos (by omega)]

theorem Uniform.node_ok {t : Legacy} {a d : ℝ} (h : Uniform t a d) {i : Nat} (hi : i < t.div) : t.node i = .ok (a + i * d) := by
  rw [Legacy.node, h.node i hi]
  rfl

/-! ## Total cross sections -/

/-- C66 for the total cross section, without the upper end: on uniform tables and for Emin ≤ E < Emax all accesses are inside, and the value lies
between the values of the table at the energies next to E. -/
theorem c66_total_partial (t : Legacy) (a d : ℝ) (h : Uniform t a d) (f : Nat) (hf : f < 3) (nt : NType) (c : Cur) (E : ℝ) (h1 : t.Emin ≤ E)
    (h2 : E < t.Emax) :
    ∃ i v, i + 1 < t.div ∧ energy a d i ≤ E ∧ E < energy a d (i + 1) ∧ t.total f nt c E = .ok v ∧
      ∀ lo hi, (∀ j, j = i ∨ j = i + 1 → lo ≤ (t.sigma c).at_ nt.idx f j ∧ (t.sigma c).at_ nt.idx f j ≤ hi) → lo ≤ v ∧ v ≤ hi := by
  have hE : 0 < E := lt_of_lt_of_le h.Emin_pos h1
  have hd := h.step
  have l1 : a ≤ Real.log (E / GeV) := (le_log_iff hE).2 (h.Emin ▸ h1)
  have l2 : Real.log (E / GeV) < a + ((t.div - 1 : Nat) : ℝ) * d := (log_lt_iff hE).2 (h.Emax ▸ h2)
  obtain ⟨i, i1, i2⟩ := locate hd l1
  have hi : i < t.div - 1 := by
    have : (i : ℝ) < ((t.div - 1 : Nat) : ℝ) := by
      have : (i : ℝ) * d < ((t.div - 1 : Nat) : ℝ) * d := by linarith
      exact lt_of_mul_lt_mul_right this hd.le
    exact_mod_cast this
  have fits := h.fits
  have hlt : a + (i : ℝ) * d < a + ((i + 1 : Nat) : ℝ) * d := lt_of_le_of_lt i1 i2
  obtain ⟨w, w0, w1, hv⟩ := linInter_mean (yM := (t.sigma c).at_ nt.idx f i) (yP := (t.sigma c).at_ nt.idx f (i + 1)) hlt i1 i2.le
  refine ⟨i, (1 - w) * (t.sigma c).at_ nt.idx f i + w * (t.sigma c).at_ nt.idx f (i + 1), by omega, (le_log_iff hE).1 i1, (log_lt_iff hE).1 i2,
    ?_, ?_⟩
  · rw [Legacy.total_inside hf nt c h1 h2.le, Legacy.interpolate, ln_ok hE, Outcome.bind_ok, index_at h (by omega) i1 i2, Outcome.bind_ok]
    dsimp only
    rw [if_neg (by omega), h.node_ok (by omega), Outcome.bind_ok, h.node_ok (by omega), Outcome.bind_ok, h.sigma_get c nt hf (by omega),
      Outcome.bind_ok, h.sigma_get c nt hf (by omega), Outcome.bind_ok]
    exact hv
  · intro lo hi hb
    exact mean_between w0 w1 (hb i (Or.inl rfl)) (hb (i + 1) (Or.inr rfl))

/-- C66 fails at the upper end of every uniform table: the highest accepted energy reads beyond the energies (the test of line 628 compares
with the number of energies, one too late). -/
theorem c66_total_top_violated (t : Legacy) (a d : ℝ) (h : Uniform t a d) (f : Nat) (hf : f < 3) (nt : NType) (c : Cur) :
    t.total f nt c t.Emax = .ub := by
  have two := h.two
  have fits := h.fits
  have hd := h.step
  have hE : 0 < t.Emax := by
    rw [h.Emax]
    exact exp_energy_pos _
  have hle : t.Emin ≤ t.Emax := by
    rw [h.Emin, h.Emax]
    refine mul_le_mul_of_nonneg_left (Real.exp_le_exp.2 ?_) GeV_pos.le
    have : (0 : ℝ) ≤ ((t.div - 1 : Nat) : ℝ) * d := mul_nonneg (Nat.cast_nonneg _) hd.le
    linarith
  have hl : Real.log (t.Emax / GeV) = a + ((t.div - 1 : Nat) : ℝ) * d := by rw [h.Emax, log_energy]
  rw [Legacy.total_inside hf nt c hle (le_refl _), Legacy.interpolate, ln_ok hE, Outcome.bind_ok, hl,
    index_at h (i := t.div - 1) (by omega) (le_refl _) (by push_cast; linarith), Outcome.bind_ok]
  dsimp only
  rw [if_neg (by omega), h.node_ok (by omega), Outcome.bind_ok]
  have : t.node (t.div - 1 + 1) = .ub := by
    rw [Legacy.node, List.getElem?_eq_none (by have := h.length; omega)]
    rfl
  rw [this]
  rfl

/-! ## Differential cross sections -/

theorem Uniform.diff {t : Legacy} {a d : ℝ} (h : Uniform t a d) (c : Cur) :
    (t.diff c).n0 = 2 ∧ (t.diff c).n1 = 3 ∧ (t.diff c).n2 = t.div ∧ (t.diff c).n3 = t.div := by
  cases c
  · exact h.dCC
  · exact h.dNC
  · exact h.dNC

theorem Uniform.diff_get {t : Legacy} {a d : ℝ} (h : Uniform t a d) (c : Cur) (nt : NType) {f i j : Nat} (hf : f < 3) (hi : i < t.div)
    (hj : j < t.div) : (t.diff c).get nt.idx f i j = .ok ((t.diff c).at_ nt.idx f i j) := by
  obtain ⟨s0, s1, s2, s3⟩ := h.diff c
  have := nt.idx_lt
  rw [T4.get, if_pos (by omega)]

/-- Inside the triangle the interpolated value is a mean of the values at the corners. -/
theorem triLinInter_mean {x y x0 y0 d : ℝ} {z1 z2 z3 : ℝ} (hd : 0 < d) (h1 : x ≤ x0 + d) (h2 : y0 ≤ y) (h3 : y - y0 ≤ x - x0) :
    ∃ w1 w2 w3, 0 ≤ w1 ∧ 0 ≤ w2 ∧ 0 ≤ w3 ∧ w1 + w2 + w3 = 1 ∧
      triLinInter x y x0 y0 z1 (x0 + d) y0 z2 (x0 + d) (y0 + d) z3 = .ok (w1 * z1 + w2 * z2 + w3 * z3) := by
  have den : (y0 - (y0 + d)) * (x0 - (x0 + d)) + (x0 + d - (x0 + d)) * (y0 - (y0 + d)) = d * d := by ring
  have hdd : d * d ≠ 0 := (mul_pos hd hd).ne'
  refine ⟨1 - (x - x0) / d, (x - x0) / d - (y - y0) / d, (y - y0) / d, ?_, ?_, ?_, by ring, ?_⟩
  · rw [sub_nonneg, div_le_one hd]
    linarith
  · rw [sub_nonneg]
    exact div_le_div_of_nonneg_right h3 hd.le
  · exact div_nonneg (by linarith) hd.le
  · unfold triLinInter
    dsimp only
    rw [den, quot, if_neg hdd, Outcome.bind_ok, quot, if_neg hdd, Outcome.bind_ok]
    congr 1
    field_simp
    ring

theorem mean3_between {w1 w2 w3 x y z lo hi : ℝ} (h1 : 0 ≤ w1) (h2 : 0 ≤ w2) (h3 : 0 ≤ w3) (hs : w1 + w2 + w3 = 1) (hx : lo ≤ x ∧ x ≤ hi)
    (hy : lo ≤ y ∧ y ≤ hi) (hz : lo ≤ z ∧ z ≤ hi) : lo ≤ w1 * x + w2 * y + w3 * z ∧ w1 * x + w2 * y + w3 * z ≤ hi := by
  have e : w1 = 1 - w2 - w3 := by linarith
  subst e
  constructor <;> nlinarith [mul_le_mul_of_nonneg_left hx.1 h1, mul_le_mul_of_nonneg_left hx.2 h1, mul_le_mul_of_nonneg_left hy.1 h2,
    mul_le_mul_of_nonneg_left hy.2 h2, mul_le_mul_of_nonneg_left hz.1 h3, mul_le_mul_of_nonneg_left hz.2 h3]

theorem Legacy.corners_spec {t : Legacy} {a d : ℝ} (h : Uniform t a d) (c : Cur) {f : Nat} (hf : f < 3) (nt : NType) {l1 l2 : ℝ} {i j : Nat}
    (hi : i < t.div) (hj : j + 1 < t.div) (i1 : a + i * d ≤ l1) (i2 : l1 < a + ((i + 1 : Nat) : ℝ) * d) (j1 : a + j * d ≤ l2)
    (j2 : l2 < a + ((j + 1 : Nat) : ℝ) * d) (hl : l2 ≤ l1) :
    ∃ v, t.corners (t.diff c) f nt l1 l2 i j = .ok v ∧
      ∀ lo hi, (∀ i' j', (i' = i ∨ i' = i + 1) → (j' = j ∨ j' = j + 1) → i' < t.div →
        lo ≤ (t.diff c).at_ nt.idx f i' j' ∧ (t.diff c).at_ nt.idx f i' j' ≤ hi) → lo ≤ v ∧ v ≤ hi := by
  have hd := h.step
  unfold Legacy.corners
  rw [h.diff_get c nt hf hi (by omega), Outcome.bind_ok, h.diff_get c nt hf hi hj, Outcome.bind_ok]
  by_cases he : i = t.div - 1
  · rw [if_pos he, h.node_ok (by omega), Outcome.bind_ok, h.node_ok hj, Outcome.bind_ok]
    obtain ⟨w, w0, w1, hv⟩ := linInter_mean (yM := (t.diff c).at_ nt.idx f i j) (yP := (t.diff c).at_ nt.idx f i (j + 1))
      (lt_of_le_of_lt j1 j2) j1 j2.le
    refine ⟨_, hv, fun lo hi' hb => mean_between w0 w1 (hb i j (Or.inl rfl) (Or.inl rfl) hi) (hb i (j + 1) (Or.inl rfl) (Or.inr rfl) hi)⟩
  · have hi' : i + 1 < t.div := by omega
    rw [if_neg he, h.diff_get c nt hf hi' (by omega), Outcome.bind_ok, h.diff_get c nt hf hi' hj, Outcome.bind_ok, h.node_ok hi, Outcome.bind_ok,
      h.node_ok hi', Outcome.bind_ok, h.node_ok (by omega), Outcome.bind_ok, h.node_ok hj, Outcome.bind_ok]
    by_cases hc : i = j ∧ (t.diff c).at_ nt.idx f i (j + 1) = 0
    · rw [if_pos hc]
      obtain ⟨rfl, -⟩ := hc
      obtain ⟨w1, w2, w3, p1, p2, p3, ps, hv⟩ := triLinInter_mean (x := l1) (y := l2) (x0 := a + (i : ℝ) * d) (y0 := a + (i : ℝ) * d)
        (z1 := (t.diff c).at_ nt.idx f i i) (z2 := (t.diff c).at_ nt.idx f (i + 1) i) (z3 := (t.diff c).at_ nt.idx f (i + 1) (i + 1)) hd
        (by push_cast at i2; linarith) j1 (by linarith)
      have e : a + ((i + 1 : Nat) : ℝ) * d = a + (i : ℝ) * d + d := by push_cast; ring
      rw [e]
      exact ⟨_, hv, fun lo hi'' hb => mean3_between p1 p2 p3 ps (hb i i (Or.inl rfl) (Or.inl rfl) hi) (hb (i + 1) i (Or.inr rfl) (Or.inl rfl) hi')
        (hb (i + 1) (i + 1) (Or.inr rfl) (Or.inr rfl) hi')⟩
    · rw [if_neg hc]
      obtain ⟨w, w0, w1, hv⟩ := linInter_mean (yM := (t.diff c).at_ nt.idx f i j) (yP := (t.diff c).at_ nt.idx f i (j + 1))
        (lt_of_le_of_lt j1 j2) j1 j2.le
      obtain ⟨w', w0', w1', hv'⟩ := linInter_mean (yM := (t.diff c).at_ nt.idx f (i + 1) j) (yP := (t.diff c).at_ nt.idx f (i + 1) (j + 1))
        (lt_of_le_of_lt j1 j2) j1 j2.le
      rw [hv, Outcome.bind_ok, hv', Outcome.bind_ok]
      obtain ⟨u, u0, u1, hu⟩ := linInter_mean (yM := (1 - w) * (t.diff c).at_ nt.idx f i j + w * (t.diff c).at_ nt.idx f i (j + 1))
        (yP := (1 - w') * (t.diff c).at_ nt.idx f (i + 1) j + w' * (t.diff c).at_ nt.idx f (i + 1) (j + 1)) (lt_of_le_of_lt i1 i2) i1 i2.le
      refine ⟨_, hu, fun lo hi'' hb => mean_between u0 u1
        (mean_between w0 w1 (hb i j (Or.inl rfl) (Or.inl rfl) hi) (hb i (j + 1) (Or.inl rfl) (Or.inr rfl) hi))
        (mean_between w0' w1' (hb (i + 1) j (Or.inr rfl) (Or.inl rfl) hi') (hb (i + 1) (j + 1) (Or.inr rfl) (Or.inr rfl) hi'))⟩

/-- C66 for the differential cross section of CC and NC interactions: on uniform tables and for incoming energies from Emin up to and including
Emax and outgoing energies from Emin up to the incoming one, all accesses are inside and the value lies between the values of the table at the
neighbouring pairs of energies. At and above the incoming energy the value is zero as long as it is at most Emax. -/
theorem c66_differential_partial (t : Legacy) (a d : ℝ) (h : Uniform t a d) (f : Nat) (hf : f < 3) (nt : NType) (c : Cur) (hc : c ≠ .GR)
    (E1 E2 : ℝ) (h1 : t.Emin ≤ E1) (h1' : E1 ≤ t.Emax) (h2 : t.Emin ≤ E2) (h2' : E2 ≤ t.Emax) :
    (E1 ≤ E2 → t.single f nt c E1 E2 = .ok 0) ∧
    (E2 < E1 → ∃ i j v, i < t.div ∧ j + 1 < t.div ∧ energy a d i ≤ E1 ∧ E1 < energy a d (i + 1) ∧ energy a d j ≤ E2 ∧ E2 < energy a d (j + 1) ∧
      t.single f nt c E1 E2 = .ok v ∧
      ∀ lo hi, (∀ i' j', (i' = i ∨ i' = i + 1) → (j' = j ∨ j' = j + 1) → i' < t.div →
        lo ≤ (t.diff c).at_ nt.idx f i' j' ∧ (t.diff c).at_ nt.idx f i' j' ≤ hi) → lo ≤ v ∧ v ≤ hi) := by
  have hE1 : 0 < E1 := lt_of_lt_of_le h.Emin_pos h1
  have hE2 : 0 < E2 := lt_of_lt_of_le h.Emin_pos h2
  have hd := h.step
  have two := h.two
  have fits := h.fits
  have key : ∀ E, 0 < E → t.Emin ≤ E → E ≤ t.Emax → ∃ i : Nat, i < t.div ∧ a + i * d ≤ Real.log (E / GeV) ∧
      Real.log (E / GeV) < a + ((i + 1 : Nat) : ℝ) * d := by
    intro E hE hlo hhi
    obtain ⟨i, i1, i2⟩ := locate hd ((le_log_iff hE).2 (h.Emin ▸ hlo))
    refine ⟨i, ?_, i1, i2⟩
    have hle : Real.log (E / GeV) ≤ a + ((t.div - 1 : Nat) : ℝ) * d := by
      rw [h.Emax] at hhi
      rw [← log_energy (x := a + ((t.div - 1 : Nat) : ℝ) * d)]
      exact Real.log_le_log (div_pos hE GeV_pos) (div_le_div_of_nonneg_right hhi GeV_pos.le)
    have : (i : ℝ) ≤ ((t.div - 1 : Nat) : ℝ) := by
      have : (i : ℝ) * d ≤ ((t.div - 1 : Nat) : ℝ) * d := by linarith
      exact le_of_mul_le_mul_right this hd
    have : i ≤ t.div - 1 := by exact_mod_cast this
    omega
  obtain ⟨i, hi, i1, i2⟩ := key E1 hE1 h1 h1'
  obtain ⟨j, hj, j1, j2⟩ := key E2 hE2 h2 h2'
  have hopen : t.single f nt c E1 E2 = if j > t.div - 1 ∨ i > t.div - 1 ∨ E2 / GeV ≥ E1 / GeV then .ok 0
      else t.corners (t.diff c) f nt (Real.log (E1 / GeV)) (Real.log (E2 / GeV)) i j := by
    unfold Legacy.single
    rw [if_neg (not_not.2 (active hf)), if_neg (not_lt.2 h1'), if_neg (not_lt.2 h1), ln_ok hE1, Outcome.bind_ok, ln_ok hE2, Outcome.bind_ok,
      index_at h (by omega) i1 i2, Outcome.bind_ok, index_at h (by omega) j1 j2, Outcome.bind_ok]
    cases c
    · rfl
    · rfl
    · exact absurd rfl hc
  rw [hopen]
  constructor
  · intro hle
    rw [if_pos (Or.inr (Or.inr (div_le_div_of_nonneg_right hle GeV_pos.le)))]
  · intro hlt
    have hll : Real.log (E2 / GeV) < Real.log (E1 / GeV) :=
      Real.log_lt_log (div_pos hE2 GeV_pos) (div_lt_div_of_pos_right hlt GeV_pos)
    have hj' : j + 1 < t.div := by
      have : Real.log (E2 / GeV) < a + ((t.div - 1 : Nat) : ℝ) * d := (log_lt_iff hE2).2 (h.Emax ▸ lt_of_lt_of_le hlt h1')
      have : (j : ℝ) * d < ((t.div - 1 : Nat) : ℝ) * d := by linarith
      have : (j : ℝ) < ((t.div - 1 : Nat) : ℝ) := lt_of_mul_lt_mul_right this hd.le
      have : j < t.div - 1 := by exact_mod_cast this
      omega
    rw [if_neg (by
      rintro (hx | hx | hx)
      · omega
      · omega
      · exact absurd (div_lt_div_of_pos_right hlt GeV_pos) (not_lt.2 hx))]
    obtain ⟨v, hv, hb⟩ := Legacy.corners_spec h c hf nt hi hj' i1 i2 j1 j2 hll.le
    exact ⟨i, j, v, hi, hj', (le_log_iff hE1).1 i1, (log_lt_iff hE1).1 i2, (le_log_iff hE2).1 j1, (log_lt_iff hE2).1 j2, hv, hb⟩

/-- C66 fails for outgoing energies a step or more below the tables, which are not refused: a negative number is converted to an index. -/
theorem c66_differential_low_violated (t : Legacy) (a d : ℝ) (h : Uniform t a d) (f : Nat) (hf : f < 3) (nt : NType) (c : Cur)
    (E1 E2 : ℝ) (h1 : t.Emin ≤ E1) (h1' : E1 < t.Emax) (h2 : 0 < E2) (h2' : E2 < GeV * Real.exp (a - d)) :
    t.single f nt c E1 E2 = .ub := by
  have hE1 : 0 < E1 := lt_of_lt_of_le h.Emin_pos h1
  have hd := h.step
  have fits := h.fits
  obtain ⟨i, i1, i2⟩ := locate hd ((le_log_iff hE1).2 (h.Emin ▸ h1))
  have hi : i < t.div := by
    have : Real.log (E1 / GeV) < a + ((t.div - 1 : Nat) : ℝ) * d := (log_lt_iff hE1).2 (h.Emax ▸ h1')
    have : (i : ℝ) * d < ((t.div - 1 : Nat) : ℝ) * d := by linarith
    have : (i : ℝ) < ((t.div - 1 : Nat) : ℝ) := lt_of_mul_lt_mul_right this hd.le
    have : i < t.div - 1 := by exact_mod_cast this
    omega
  unfold Legacy.single
  rw [if_neg (not_not.2 (active hf)), if_neg (not_lt.2 h1'.le), if_neg (not_lt.2 h1), ln_ok hE1, Outcome.bind_ok, ln_ok h2, Outcome.bind_ok,
    index_at h (by omega) i1 i2, Outcome.bind_ok, index_below h ((log_lt_iff h2).2 h2').le]
  rfl

/-! ## Which tables are uniform -/

/-- Tables read from an HDF5 file are uniform, if the total cross sections (whose extents are not looked at) have the extents of the others. -/
theorem c66_hdf_uniform (junk : ℝ) (x : LegacyH5) (t : Legacy) (h : legacyFromHDF junk x = .ok t) (h0 : 0 < x.Emin) (h1 : x.Emin < x.Emax)
    (h2 : 2 ≤ x.dCC.n2) (h3 : x.dCC.n2 < 2 ^ 32) (hs : x.sCC.n0 = 2 ∧ x.sCC.n1 = 3 ∧ x.sCC.n2 = x.dCC.n2)
    (hs' : x.sNC.n0 = 2 ∧ x.sNC.n1 = 3 ∧ x.sNC.n2 = x.dCC.n2) :
    Uniform t (Real.log (x.Emin / GeV)) ((Real.log (x.Emax / GeV) - Real.log (x.Emin / GeV)) / ((x.dCC.n2 : ℝ) - 1)) := by
  unfold legacyFromHDF at h
  split at h
  swap
  · cases h
  rename_i hsh
  have p0 := div_pos h0 GeV_pos
  have p1 := div_pos (h0.trans h1) GeV_pos
  rw [if_pos ⟨p0, p1⟩] at h
  obtain ⟨l, hl, hlen, -, -, hn⟩ := Tools.c27_logspace junk (x.Emin / GeV) (x.Emax / GeV) x.dCC.n2 h2 p0 p1
  rw [hl, Outcome.bind_ok] at h
  injection h with h
  subst h
  have hn1 : (0 : ℝ) < (x.dCC.n2 : ℝ) - 1 := by
    have : (2 : ℝ) ≤ x.dCC.n2 := by exact_mod_cast h2
    linarith
  obtain ⟨e1, e2, e3, e4, e5, e6, e7⟩ := hsh
  refine ⟨?_, h2, h3, ?_, ?_, ?_, ?_, hs, hs', ⟨e4, e6, rfl, e1.symm⟩, ⟨e5, e7, e3.symm, by dsimp only; omega⟩⟩
  · exact div_pos (sub_pos.2 (Real.log_lt_log p0 (div_lt_div_of_pos_right h1 GeV_pos))) hn1
  · simpa using hlen
  · intro i hi
    obtain ⟨y, hy, -, hlog⟩ := hn i hi
    dsimp only
    rw [List.getElem?_map, hy, Option.map_some, hlog]
  · dsimp only
    rw [Real.exp_log p0, mul_div_cancel₀ _ GeV_pos.ne']
  · dsimp only
    rw [Nat.cast_sub (by omega), Nat.cast_one, mul_div_cancel₀ _ hn1.ne', add_sub_cancel, Real.exp_log p1, mul_div_cancel₀ _ GeV_pos.ne']

/-- A file of total cross sections at 1, 10 and 100000 GeV. -/
def oddRows : List (List ℝ) := [[1, 0, 0, 0, 0, 0, 0], [10, 0, 0, 0, 0, 0, 0], [100000, 0, 0, 0, 0, 0, 0]]

/-- A file of differential cross sections with nine lines. -/
def zeroRows : List (List ℝ) := List.replicate 9 (List.replicate 8 0)

/-- What is read from them. -/
noncomputable def oddLegacy : Legacy :=
  ⟨1 * GeV, 100000 * GeV, 3, [Real.log 1, Real.log 10, Real.log 100000],
    ⟨2, 3, 3, fun nt f e => (rawCell oddRows e (1 + 2 * f + nt)).getD 0⟩, ⟨2, 3, 3, fun nt f e => (rawCell oddRows e (1 + 2 * f + nt)).getD 0⟩,
    ⟨2, 3, 3, 3, fun nt f e1 e2 => (rawCell zeroRows (e1 * 3 + e2) (2 + 2 * f + nt)).getD 0⟩,
    ⟨2, 3, 3, 3, fun nt f e1 e2 => (rawCell zeroRows (e1 * 3 + e2) (2 + 2 * f + nt)).getD 0⟩⟩

theorem odd_covered : Covered 3 oddRows oddRows zeroRows zeroRows := by
  have key : ∀ i j, i < 9 → j < 8 → (rawCell zeroRows i j).isSome := by
    intro i j hi hj
    unfold rawCell zeroRows
    rw [List.getElem?_replicate, if_pos hi, Option.bind_some, List.getElem?_replicate, if_pos hj]
    rfl
  have key' : ∀ i j, i < 3 → j < 7 → (rawCell oddRows i j).isSome := by
    intro i j hi hj
    match i, hi with
    | 0, _ => simp [rawCell, oddRows, hj]
    | 1, _ => simp [rawCell, oddRows, hj]
    | 2, _ => simp [rawCell, oddRows, hj]
  intro nt f hnt hf e1 he1
  exact ⟨key' _ _ he1 (by omega), key' _ _ he1 (by omega), fun e2 he2 => ⟨key _ _ (by omega) (by omega), key _ _ (by omega) (by omega)⟩⟩

theorem odd_read : legacyFromText ⟨some zeroRows, some zeroRows, some oddRows, some oddRows⟩ = .ok oddLegacy := by
  unfold legacyFromText
  dsimp only
  rw [if_neg (by simp)]
  have hfc : firstColumn oddRows = .ok [Real.log 1, Real.log 10, Real.log 100000] := by
    simp [oddRows, firstColumn, ln, Outcome.map]
  have hlen : oddRows.length = 3 := rfl
  have c0 : Outcome.ofOption (rawCell oddRows 0 0) = .ok 1 := rfl
  have c1 : Outcome.ofOption (rawCell oddRows (3 - 1) 0) = .ok 100000 := rfl
  rw [hfc, Outcome.bind_ok, hlen, c0, Outcome.bind_ok, c1, Outcome.bind_ok, if_pos odd_covered]
  rfl

theorem odd_index : oddLegacy.index (Real.log 90000) = .ok 4 := by
  have h10 : 0 < Real.log 10 := Real.log_pos (by norm_num)
  have q1 : 4 ≤ Real.log 90000 / Real.log 10 := by
    rw [le_div_iff₀ h10, ← Real.log_rpow (by norm_num)]
    exact Real.log_le_log (by positivity) (by norm_num)
  have q2 : Real.log 90000 / Real.log 10 < 5 := by
    rw [div_lt_iff₀ h10, ← Real.log_rpow (by norm_num)]
    exact Real.log_lt_log (by positivity) (by norm_num)
  unfold Legacy.index Legacy.node quot toSize
  simp only [oddLegacy, List.getElem?_cons_succ, List.getElem?_cons_zero, Outcome.ofOption_some, Outcome.bind_ok, Real.log_one, sub_zero]
  rw [if_neg h10.ne', Outcome.bind_ok, if_pos ⟨by linarith, by linarith [show (5 : ℝ) < 2 ^ 64 by norm_num]⟩]
  congr 1
  rw [Nat.floor_eq_iff (by linarith)]
  exact ⟨by exact_mod_cast q1, by push_cast; linarith⟩

/-- C66 fails for text files with energies that are not evenly spaced: with energies of 1, 10 and 100000 GeV, the accepted energy 90000 GeV reads
beyond the tables. The file is accepted. -/
theorem c66_text_violated : ∃ (x : LegacyText) (t : Legacy), legacyFromText x = .ok t ∧ t.Emin = 1 * GeV ∧ t.Emax = 100000 * GeV ∧
    ∀ f nt c, f < 3 → t.total f nt c (90000 * GeV) = .ub := by
  refine ⟨_, oddLegacy, odd_read, rfl, rfl, ?_⟩
  intro f nt c hf
  have hG := GeV_pos
  rw [Legacy.total_inside hf nt c (by show 1 * GeV ≤ _; nlinarith) (by show _ ≤ 100000 * GeV; nlinarith), Legacy.interpolate,
    ln_ok (by positivity), Outcome.bind_ok, mul_div_cancel_right₀ _ hG.ne', odd_index]
  rfl

/-! ## Examples -/

/-- Uniform tables with three energies (1 GeV, e GeV, e² GeV). -/
noncomputable def someLegacy : Legacy where
  Emin := GeV * Real.exp 0
  Emax := GeV * Real.exp (0 + ((2 : Nat) : ℝ) * 1)
  div := 3
  logE := [0, 1, 2]
  sCC := ⟨2, 3, 3, fun _ _ e => e + 1⟩
  sNC := ⟨2, 3, 3, fun _ _ e => e + 2⟩
  dCC := ⟨2, 3, 3, 3, fun _ _ e1 e2 => if e2 < e1 then 1 else 0⟩
  dNC := ⟨2, 3, 3, 3, fun _ _ e1 e2 => if e2 < e1 then 2 else 0⟩

theorem someLegacy_uniform : Uniform someLegacy 0 1 := by
  refine ⟨one_pos, by decide, by decide, rfl, ?_, rfl, rfl, ⟨rfl, rfl, rfl⟩, ⟨rfl, rfl, rfl⟩, ⟨rfl, rfl, rfl, rfl⟩, ⟨rfl, rfl, rfl, rfl⟩⟩
  intro i hi
  match i, hi with
  | 0, _ => simp [someLegacy]
  | 1, _ => simp [someLegacy]
  | 2, _ => simp [someLegacy]

/-- An energy inside, as in `c66_total_partial` and `c66_differential_partial`. -/
example : Uniform someLegacy 0 1 ∧ someLegacy.Emin ≤ GeV * Real.exp 1 ∧ GeV * Real.exp 1 < someLegacy.Emax := by
  refine ⟨someLegacy_uniform, ?_, ?_⟩
  · exact mul_le_mul_of_nonneg_left (Real.exp_le_exp.2 (by norm_num)) GeV_pos.le
  · exact mul_lt_mul_of_pos_left (Real.exp_lt_exp.2 (by norm_num)) GeV_pos

/-- An outgoing energy below the tables, as in `c66_differential_low_violated`. -/
example : 0 < GeV * Real.exp (-2) ∧ GeV * Real.exp (-2) < GeV * Real.exp (0 - 1) :=
  ⟨exp_energy_pos _, mul_lt_mul_of_pos_left (Real.exp_lt_exp.2 (by norm_num)) GeV_pos⟩

/-- A file as in `c66_hdf_uniform`. -/
example : ∃ t, legacyFromHDF 0 (legacyWriteHDF someLegacy) = .ok t := by
  obtain ⟨l, hl, -⟩ := Tools.c27_logspace 0 (someLegacy.Emin / GeV) (someLegacy.Emax / GeV) 3 (by norm_num)
    (div_pos (exp_energy_pos _) GeV_pos) (div_pos (exp_energy_pos _) GeV_pos)
  refine ⟨⟨someLegacy.Emin, someLegacy.Emax, 3, l.map Real.log, someLegacy.sCC, someLegacy.sNC, someLegacy.dCC, someLegacy.dNC⟩, ?_⟩
  unfold legacyFromHDF
  rw [if_pos (by simp [legacyWriteHDF, someLegacy]), if_pos ⟨div_pos (exp_energy_pos _) GeV_pos, div_pos (exp_energy_pos _) GeV_pos⟩]
  exact congrArg (fun o => Outcome.bind o _) hl

end Verif.XS
