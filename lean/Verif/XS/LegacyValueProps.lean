import Verif.XS.LegacyProps

/-!
# Property C66: the interpolated values
-/

namespace Verif.XS

/-- Entry of the table of total cross sections: first index 0 for neutrinos and 1 for antineutrinos. -/
def Legacy.totalEntry (t : Legacy) (f : Nat) (nt : NType) (c : Cur) (i : Nat) : ℝ :=
  match nt, c with
  | .neutrino, .CC => t.sCC.at_ 0 f i
  | .antineutrino, .CC => t.sCC.at_ 1 f i
  | .neutrino, _ => t.sNC.at_ 0 f i
  | .antineutrino, _ => t.sNC.at_ 1 f i

/-- Entry of the table of differential cross sections: incoming energy `i`, outgoing energy `j`. -/
def Legacy.diffEntry (t : Legacy) (f : Nat) (nt : NType) (c : Cur) (i j : Nat) : ℝ :=
  match nt, c with
  | .neutrino, .CC => t.dCC.at_ 0 f i j
  | .antineutrino, .CC => t.dCC.at_ 1 f i j
  | .neutrino, _ => t.dNC.at_ 0 f i j
  | .antineutrino, _ => t.dNC.at_ 1 f i j

/-- The energy a part `w` of the way from energy `i` to the next, on a logarithmic scale. -/
noncomputable def between (a d : ℝ) (i : Nat) (w : ℝ) : ℝ := GeV * Real.exp (a + (i + w) * d)

theorem Legacy.totalEntry_eq (t : Legacy) (f : Nat) (nt : NType) (c : Cur) (i : Nat) :
    (t.sigma c).at_ nt.idx f i = t.totalEntry f nt c i := by
  cases nt <;> cases c <;> rfl

theorem Legacy.diffEntry_eq (t : Legacy) (f : Nat) (nt : NType) (c : Cur) (i j : Nat) :
    (t.diff c).at_ nt.idx f i j = t.diffEntry f nt c i j := by
  cases nt <;> cases c <;> rfl

theorem linInter_part {x0 d w yM yP : ℝ} (hd : 0 < d) : linInter (x0 + w * d) x0 (x0 + d) yM yP = .ok ((1 - w) * yM + w * yP) := by
  have e : x0 + d - x0 = d := by ring
  rw [linInter, quot, e, if_neg hd.ne']
  simp only [Outcome.map]
  congr 1
  field_simp
  ring

section
variable {t : Legacy} {a d : ℝ} (h : Uniform t a d)
include h

theorem Uniform.between_ge (i : Nat) {w : ℝ} (hw : 0 ≤ w) : t.Emin ≤ between a d i w := by
  rw [h.Emin]
  refine mul_le_mul_of_nonneg_left (Real.exp_le_exp.2 ?_) GeV_pos.le
  have := mul_nonneg (add_nonneg (Nat.cast_nonneg (α := ℝ) i) hw) h.step.le
  linarith

theorem Uniform.between_le {i : Nat} {w : ℝ} (hw : (i : ℝ) + w ≤ ((t.div - 1 : Nat) : ℝ)) : between a d i w ≤ t.Emax := by
  rw [h.Emax]
  refine mul_le_mul_of_nonneg_left (Real.exp_le_exp.2 ?_) GeV_pos.le
  have := mul_le_mul_of_nonneg_right hw h.step.le
  linarith

theorem Uniform.index_between {i : Nat} (hi : i < t.div) {w : ℝ} (h0 : 0 ≤ w) (h1 : w < 1) : t.index (a + (i + w) * d) = .ok i := by
  have fits := h.fits
  have hd := h.step
  refine index_at h (by omega) ?_ ?_
  · have := mul_nonneg h0 hd.le
    linarith [add_mul (i : ℝ) w d]
  · have := mul_lt_mul_of_pos_right h1 hd
    push_cast
    linarith [add_mul (i : ℝ) w d, add_mul (i : ℝ) 1 d]

omit h in
theorem ln_between (i : Nat) (w : ℝ) : ln (between a d i w / GeV) = .ok (a + (i + w) * d) := by
  rw [between, ln_ok (exp_energy_pos _), log_energy]

end

/-- C66, the value: the total cross section is interpolated linearly in the logarithm of the energy; at an energy of the table it is the
value of the table. Missing: the highest energy (`c66_total_top_violated`). -/
theorem c66_total_value_partial (t : Legacy) (a d : ℝ) (h : Uniform t a d) (f : Nat) (hf : f < 3) (nt : NType) (c : Cur) (i : Nat)
    (hi : i + 1 < t.div) (w : ℝ) (h0 : 0 ≤ w) (h1 : w < 1) :
    t.total f nt c (between a d i w) = .ok ((1 - w) * t.totalEntry f nt c i + w * t.totalEntry f nt c (i + 1)) := by
  have le : between a d i w ≤ t.Emax := h.between_le (by
    have : ((i + 1 : Nat) : ℝ) ≤ ((t.div - 1 : Nat) : ℝ) := by exact_mod_cast (by omega : i + 1 ≤ t.div - 1)
    push_cast at this
    linarith)
  rw [Legacy.total_inside hf nt c (h.between_ge i h0) le, Legacy.interpolate, ln_between, Outcome.bind_ok,
    h.index_between (by omega) h0 h1, Outcome.bind_ok]
  dsimp only
  rw [if_neg (by omega), h.node_ok (by omega), Outcome.bind_ok, h.node_ok (by omega), Outcome.bind_ok, h.sigma_get c nt hf (by omega),
    Outcome.bind_ok, h.sigma_get c nt hf (by omega), Outcome.bind_ok, Legacy.totalEntry_eq, Legacy.totalEntry_eq]
  have e1 : a + ((i : ℝ) + w) * d = a + (i : ℝ) * d + w * d := by ring
  have e2 : a + ((i + 1 : Nat) : ℝ) * d = a + (i : ℝ) * d + d := by push_cast; ring
  rw [e1, e2]
  exact linInter_part h.step

/-- C66, the value of the differential cross section, for an outgoing energy below the incoming one. At the highest incoming energy it is
interpolated linearly in the logarithm of the outgoing energy; elsewhere in both logarithms, except next to the diagonal if the table is zero
above it: there the three other corners are used. -/
theorem c66_differential_value_partial (t : Legacy) (a d : ℝ) (h : Uniform t a d) (f : Nat) (hf : f < 3) (nt : NType) (c : Cur) (hc : c ≠ .GR)
    (i j : Nat) (u w : ℝ) (u0 : 0 ≤ u) (u1 : u < 1) (w0 : 0 ≤ w) (w1 : w < 1) (hlt : (j : ℝ) + w < i + u) :
    (i + 1 = t.div → u = 0 → t.single f nt c (between a d i 0) (between a d j w) =
      .ok ((1 - w) * t.diffEntry f nt c i j + w * t.diffEntry f nt c i (j + 1))) ∧
    (i + 1 < t.div → ¬(i = j ∧ t.diffEntry f nt c i (i + 1) = 0) → t.single f nt c (between a d i u) (between a d j w) =
      .ok ((1 - u) * ((1 - w) * t.diffEntry f nt c i j + w * t.diffEntry f nt c i (j + 1)) +
        u * ((1 - w) * t.diffEntry f nt c (i + 1) j + w * t.diffEntry f nt c (i + 1) (j + 1)))) ∧
    (i + 1 < t.div → i = j → t.diffEntry f nt c i (i + 1) = 0 → t.single f nt c (between a d i u) (between a d j w) =
      .ok ((1 - u) * t.diffEntry f nt c i i + (u - w) * t.diffEntry f nt c (i + 1) i + w * t.diffEntry f nt c (i + 1) (i + 1))) := by
  have hd := h.step
  have two := h.two
  have ji : j ≤ i := by
    have : (j : ℝ) < ((i + 1 : Nat) : ℝ) := by push_cast; linarith
    have : j < i + 1 := by exact_mod_cast this
    omega
  have topj : i + 1 = t.div → u = 0 → j < i := by
    intro _ hu
    have : (j : ℝ) < i := by linarith
    exact_mod_cast this
  have hopen : i < t.div → ∀ u, 0 ≤ u → u < 1 → (i : ℝ) + u ≤ ((t.div - 1 : Nat) : ℝ) → (j : ℝ) + w < i + u →
      t.single f nt c (between a d i u) (between a d j w) =
      t.corners (t.diff c) f nt (a + (i + u) * d) (a + (j + w) * d) i j := by
    intro hi u u0 u1 hu hlt
    have lt : between a d j w < between a d i u :=
      mul_lt_mul_of_pos_left (Real.exp_lt_exp.2 (by have := mul_lt_mul_of_pos_right hlt hd; linarith)) GeV_pos
    unfold Legacy.single
    rw [if_neg (not_not.2 (active hf)), if_neg (not_lt.2 (h.between_le hu)), if_neg (not_lt.2 (h.between_ge i u0)), ln_between,
      Outcome.bind_ok, ln_between, Outcome.bind_ok, h.index_between hi u0 u1, Outcome.bind_ok, h.index_between (by omega) w0 w1, Outcome.bind_ok,
      if_neg (by
        rintro (hx | hx | hx)
        · omega
        · omega
        · exact absurd (div_lt_div_of_pos_right lt GeV_pos) (not_lt.2 hx))]
    cases c
    · rfl
    · rfl
    · exact absurd rfl hc
  have e1 : ∀ (k : Nat) (v : ℝ), a + ((k : ℝ) + v) * d = a + (k : ℝ) * d + v * d := fun k v => by ring
  have e2 : ∀ k : Nat, a + ((k + 1 : Nat) : ℝ) * d = a + (k : ℝ) * d + d := fun k => by push_cast; ring
  refine ⟨?_, ?_, ?_⟩
  · intro top hu
    have hj := topj top hu
    subst hu
    rw [hopen (by omega) 0 (le_refl _) (by norm_num) (by
        rw [add_zero]; exact_mod_cast (by omega : i ≤ t.div - 1)) hlt]
    unfold Legacy.corners
    rw [h.diff_get c nt hf (by omega) (by omega), Outcome.bind_ok, h.diff_get c nt hf (by omega) (by omega), Outcome.bind_ok,
      if_pos (by omega), h.node_ok (by omega), Outcome.bind_ok, h.node_ok (by omega), Outcome.bind_ok, Legacy.diffEntry_eq,
      Legacy.diffEntry_eq, e1 j w, e2 j]
    exact linInter_part hd
  · intro hi hne
    rw [hopen (by omega) u u0 u1 (by
      have : ((i + 1 : Nat) : ℝ) ≤ ((t.div - 1 : Nat) : ℝ) := by exact_mod_cast (by omega : i + 1 ≤ t.div - 1)
      push_cast at this
      linarith) hlt]
    unfold Legacy.corners
    rw [h.diff_get c nt hf (by omega) (by omega), Outcome.bind_ok, h.diff_get c nt hf (by omega) (by omega), Outcome.bind_ok,
      if_neg (by omega), h.diff_get c nt hf (by omega) (by omega), Outcome.bind_ok, h.diff_get c nt hf (by omega) (by omega), Outcome.bind_ok,
      h.node_ok (by omega), Outcome.bind_ok, h.node_ok (by omega), Outcome.bind_ok, h.node_ok (by omega), Outcome.bind_ok,
      h.node_ok (by omega), Outcome.bind_ok]
    simp only [Legacy.diffEntry_eq]
    rw [if_neg (by rintro ⟨rfl, hz⟩; exact hne ⟨rfl, hz⟩), e1 j w, e2 j, linInter_part hd, Outcome.bind_ok, linInter_part hd, Outcome.bind_ok,
      e1 i u, e2 i]
    exact linInter_part hd
  · intro hi hij hz
    subst hij
    rw [hopen (by omega) u u0 u1 (by
      have : ((i + 1 : Nat) : ℝ) ≤ ((t.div - 1 : Nat) : ℝ) := by exact_mod_cast (by omega : i + 1 ≤ t.div - 1)
      push_cast at this
      linarith) hlt]
    unfold Legacy.corners
    rw [h.diff_get c nt hf (by omega) (by omega), Outcome.bind_ok, h.diff_get c nt hf (by omega) (by omega), Outcome.bind_ok,
      if_neg (by omega), h.diff_get c nt hf (by omega) (by omega), Outcome.bind_ok, h.diff_get c nt hf (by omega) (by omega), Outcome.bind_ok,
      h.node_ok (by omega), Outcome.bind_ok, h.node_ok (by omega), Outcome.bind_ok]
    simp only [Legacy.diffEntry_eq, Outcome.bind_ok]
    rw [if_pos ⟨trivial, hz⟩, e1 i u, e1 i w, e2 i]
    have den : (a + (i : ℝ) * d - (a + (i : ℝ) * d + d)) * (a + (i : ℝ) * d - (a + (i : ℝ) * d + d)) +
        (a + (i : ℝ) * d + d - (a + (i : ℝ) * d + d)) * (a + (i : ℝ) * d - (a + (i : ℝ) * d + d)) = d * d := by ring
    have hdd : d * d ≠ 0 := (mul_pos hd hd).ne'
    unfold triLinInter
    dsimp only
    rw [den, quot, if_neg hdd, Outcome.bind_ok, quot, if_neg hdd, Outcome.bind_ok]
    congr 1
    field_simp
    ring

/-- Energies and parts as in the theorems, on the uniform tables `someLegacy`. -/
example : Uniform someLegacy 0 1 ∧ 0 + 1 < someLegacy.div ∧ ((0 : Nat) : ℝ) + 1 / 4 < (1 : Nat) + 1 / 2 :=
  ⟨someLegacy_uniform, by decide, by norm_num⟩

end Verif.XS
