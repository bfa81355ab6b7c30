import Verif.Example.Earth
import Verif.Interp.AkimaLemmas
import Mathlib.Tactic.NormNum

/-!
# C90: an Earth with rescaled layers has the densities of its file times the factors
-/

namespace Verif.Example

open Verif.Bodies Verif.Interp

/-- The rows with their densities multiplied: the core and the two mantles by a factor each, the rest by one. -/
def Rescaled (rows : Rows) (f1 f2 f3 : ℝ) (t : Tab) : Prop :=
  t.xs.length = rows.length ∧ t.rho.length = rows.length ∧ t.ye.length = rows.length ∧
  ∀ i, ∀ h : i < rows.length, t.xs[i]? = some rows[i].1 ∧ t.ye[i]? = some rows[i].2.2 ∧
    (i < 39 → t.rho[i]? = some (f1 * rows[i].2.1)) ∧ (39 ≤ i → i < 110 → t.rho[i]? = some (f2 * rows[i].2.1)) ∧
    (110 ≤ i → i < 201 → t.rho[i]? = some (f3 * rows[i].2.1)) ∧ (201 ≤ i → t.rho[i]? = some rows[i].2.1)

theorem make_columns {xs rho ye : List ℝ} {t : Tab} (h : Tab.make xs rho ye = .ok t) : t.xs = xs ∧ t.rho = rho ∧ t.ye = ye := by
  unfold Tab.make at h
  cases h1 : ofVectors xs rho with
  | throws => rw [h1] at h; cases h
  | ub => rw [h1] at h; cases h
  | ok a =>
    cases h2 : ofVectors xs ye with
    | throws => rw [h1, h2] at h; cases h
    | ub => rw [h1, h2] at h; cases h
    | ok b =>
      rw [h1, h2] at h
      cases h
      exact ⟨rfl, rfl, rfl⟩

theorem fill_rescaled {rows : Rows} {f1 f2 f3 : ℝ} {t : Tab} (h : fill rows f1 f2 f3 = .ok t) : Rescaled rows f1 f2 f3 t := by
  unfold fill at h
  dsimp only at h
  by_cases h0 : rows.length = 0
  · rw [if_pos h0] at h; cases h
  · rw [if_neg h0] at h
    obtain ⟨e1, e2, e3⟩ := make_columns h
    refine ⟨by simp [e1], by simp [e2], by simp [e3], ?_⟩
    intro i hi
    have hg : rows.getD i (0, 0, 0) = rows[i] := by simp [hi]
    refine ⟨?_, ?_, ?_, ?_, ?_, ?_⟩
    · rw [e1, List.getElem?_map, List.getElem?_range hi]
      simp [hi]
    · rw [e3, List.getElem?_map, List.getElem?_range hi]
      simp [hi]
    all_goals
      intros
      rw [e2, List.getElem?_map, List.getElem?_range hi]
      simp only [Option.map_some, hg, factor]
    · rw [if_pos (by assumption)]
    · rw [if_neg (by omega), if_pos (by omega)]
    · rw [if_neg (by omega), if_neg (by omega), if_pos (by omega)]
    · rw [if_neg (by omega), if_neg (by omega), if_neg (by omega), one_mul]

theorem tab_make_ok (xs rho ye : List ℝ) (h1 : rho.length = xs.length) (h2 : ye.length = xs.length) (h3 : 3 ≤ xs.length)
    (hi : Increasing (xs.getD · 0) xs.length) : ∃ t, Tab.make xs rho ye = .ok t := by
  unfold Tab.make ofVectors
  rw [if_pos h1.symm, if_pos h2.symm, akimaInit_spec, akimaInit_spec, if_pos ⟨h3, hi⟩, if_pos ⟨h3, hi⟩]
  exact ⟨_, rfl⟩

/-- Rows at the radii 0, 1, 2, … with one density. -/
def plain (n : Nat) (rho : ℝ) : Rows := (List.range n).map fun (i : Nat) => ((i : ℝ), rho, 1)

theorem plain_fst (n : Nat) (rho : ℝ) : (List.range (plain n rho).length).map (fun i => ((plain n rho).getD i (0, 0, 0)).1) = (List.range n).map fun (i : Nat) => (i : ℝ) := by
  have hl : (plain n rho).length = n := by simp [plain]
  rw [hl]
  refine List.map_congr_left fun i hi => ?_
  have := List.mem_range.1 hi
  simp [plain, this]

theorem range_increasing (n : Nat) : Increasing (((List.range n).map fun (i : Nat) => (i : ℝ)).getD · 0) ((List.range n).map fun (i : Nat) => (i : ℝ)).length := by
  intro j hj
  rw [List.length_map, List.length_range] at hj
  have h1 : j < n := by omega
  simp [h1, hj]

theorem plain_make (n m : Nat) (hn : 3 ≤ n) (hm : 3 ≤ m) (r s f1 f2 f3 : ℝ) : ∃ e, EarthMod.make (plain n r) (plain m s) f1 f2 f3 = .ok e := by
  have hl : ∀ k x, (plain k x).length = k := by intro k x; simp [plain]
  have hb : ∃ e, baseMake (plain n r) = .ok e := by
    unfold baseMake
    rw [if_neg (by rw [hl]; omega)]
    have e1 : (plain n r).map (fun x => x.1) = (List.range n).map fun (i : Nat) => (i : ℝ) := by simp [plain]
    obtain ⟨t, ht⟩ := tab_make_ok ((plain n r).map fun x => x.1) ((plain n r).map fun x => x.2.1) ((plain n r).map fun x => x.2.2) (by simp) (by simp)
      (by simp [hl, hn]) (by rw [e1]; exact range_increasing n)
    rw [ht]
    exact ⟨_, rfl⟩
  have hf : ∃ t, fill (plain m s) f1 f2 f3 = .ok t := by
    unfold fill
    dsimp only
    rw [if_neg (by rw [hl]; omega), plain_fst]
    exact tab_make_ok _ _ _ (by simp [hl]) (by simp [hl]) (by simpa using hm) (range_increasing m)
  obtain ⟨e, he⟩ := hb
  obtain ⟨t, ht⟩ := hf
  unfold EarthMod.make
  rw [he, Outcome.bind_ok, ht]
  exact ⟨_, rfl⟩

/-- C90: an Earth made from a file has the densities of the file times the factors of the layers. -/
theorem c90_layers (prem rows : Rows) (f1 f2 f3 : ℝ) (e : EarthMod) (h : EarthMod.make prem rows f1 f2 f3 = .ok e) :
    Rescaled rows f1 f2 f3 e.tab ∧ e.radius = 6371 ∧ e.atmHeight = 20 ∧ e.earthWithAtmRadius = e.radius + e.atmHeight := by
  unfold EarthMod.make at h
  cases hb : baseMake prem with
  | throws => rw [hb] at h; cases h
  | ub => rw [hb] at h; cases h
  | ok b =>
    rw [hb, Outcome.bind_ok] at h
    cases hf : fill rows f1 f2 f3 with
    | throws => rw [hf] at h; cases h
    | ub => rw [hf] at h; cases h
    | ok t =>
      rw [hf] at h
      cases h
      exact ⟨fill_rescaled hf, rfl, rfl, rfl⟩

example : ∃ e, EarthMod.make (plain 201 4) (plain 250 4) 1.1 0.9 1 = .ok e := plain_make _ _ (by decide) (by decide) _ _ _ _ _

/-- C90, partial: new factors on an Earth made from the default file give the Earth that has these factors from the start. Missing: an Earth made from
another file gets the default one (`c90_mod_violated`). -/
theorem c90_mod_partial (prem : Rows) (f1 f2 f3 g1 g2 g3 : ℝ) (e : EarthMod) (h : EarthMod.make prem prem f1 f2 f3 = .ok e) :
    e.mod prem g1 g2 g3 = EarthMod.make prem prem g1 g2 g3 := by
  unfold EarthMod.make at h ⊢
  unfold EarthMod.mod
  cases hb : baseMake prem with
  | throws => rw [hb] at h; cases h
  | ub => rw [hb] at h; cases h
  | ok b =>
    rw [hb, Outcome.bind_ok] at h
    rw [Outcome.bind_ok]
    cases hf : fill prem f1 f2 f3 with
    | throws => rw [hf] at h; cases h
    | ub => rw [hf] at h; cases h
    | ok t =>
      rw [hf] at h
      cases h
      cases fill prem g1 g2 g3 <;> rfl

example : ∃ e, EarthMod.make (plain 201 4) (plain 201 4) 1 1 1 = .ok e := plain_make _ _ (by decide) (by decide) _ _ _ _ _

/-- C90 fails for an Earth made from another file: new factors give the default densities. -/
theorem c90_mod_violated : ∃ (prem rows : Rows) (e e' : EarthMod), EarthMod.make prem rows 1 1 1 = .ok e ∧ e.mod prem 1 1 1 = .ok e' ∧
    e.tab.rho[0]? = some 5 ∧ e'.tab.rho[0]? = some 4 := by
  obtain ⟨e, he⟩ := plain_make 3 3 (by decide) (by decide) 4 5 1 1 1
  obtain ⟨d, hd⟩ := plain_make 3 3 (by decide) (by decide) 4 4 1 1 1
  have h1 := c90_layers _ _ _ _ _ e he
  have hm : ∃ e', e.mod (plain 3 4) 1 1 1 = .ok e' ∧ Rescaled (plain 3 4) 1 1 1 e'.tab := by
    unfold EarthMod.mod
    cases hf : fill (plain 3 4) 1 1 1 with
    | ok t => exact ⟨_, rfl, fill_rescaled hf⟩
    | throws =>
      unfold EarthMod.make at hd
      rw [hf] at hd
      cases hb : baseMake (plain 3 4) <;> rw [hb] at hd <;> cases hd
    | ub =>
      unfold EarthMod.make at hd
      rw [hf] at hd
      cases hb : baseMake (plain 3 4) <;> rw [hb] at hd <;> cases hd
  obtain ⟨e', he', hr⟩ := hm
  refine ⟨plain 3 4, plain 3 5, e, e', he, he', ?_, ?_⟩
  · have := (h1.1.2.2.2 0 (by simp [plain])).2.2.1 (by decide)
    rw [this]
    simp [plain]
  · have := (hr.2.2.2 0 (by simp [plain])).2.2.1 (by decide)
    rw [this]
    simp [plain]

theorem arraysize_prem {prem rows : Rows} {f1 f2 f3 : ℝ} {e : EarthMod} (h : EarthMod.make prem rows f1 f2 f3 = .ok e) : e.arraysize = prem.length := by
  unfold EarthMod.make baseMake at h
  by_cases h0 : prem.length = 0
  · rw [if_pos h0] at h; cases h
  · rw [if_neg h0] at h
    cases hb : Tab.make (prem.map fun r => r.1) (prem.map fun r => r.2.1) (prem.map fun r => r.2.2) with
    | throws => rw [hb] at h; cases h
    | ub => rw [hb] at h; cases h
    | ok b =>
      rw [hb] at h
      cases hf : fill rows f1 f2 f3 with
      | throws => rw [hf] at h; cases h
      | ub => rw [hf] at h; cases h
      | ok t =>
        rw [hf] at h
        cases h
        rfl

/-- C90, partial: an Earth from a file with as many rows as the default one is saved completely. Missing: other numbers of rows
(`c90_save_short_violated`, `c90_save_long_violated`). -/
theorem c90_save_partial (prem rows : Rows) (f1 f2 f3 : ℝ) (e : EarthMod) (h : EarthMod.make prem rows f1 f2 f3 = .ok e)
    (hl : rows.length = prem.length) : e.serialize = .ok (e.tab.xs, e.tab.rho, e.tab.ye) := by
  have hr := (c90_layers prem rows f1 f2 f3 e h).1
  obtain ⟨l1, l2, l3, -⟩ := hr
  have ha := arraysize_prem h
  unfold EarthMod.serialize
  rw [ha, ← hl, if_pos ⟨l1.ge, l2.ge, l3.ge⟩]
  nth_rw 1 [← l1]
  nth_rw 1 [← l2]
  nth_rw 1 [← l3]
  simp only [List.take_length]

example : ∃ e, EarthMod.make (plain 201 4) (plain 201 5) 2 1 1 = .ok e := plain_make _ _ (by decide) (by decide) _ _ _ _ _

/-- C90 fails for every file with fewer rows than the default one: saving reads past the end of the columns. -/
theorem c90_save_short_violated (prem rows : Rows) (f1 f2 f3 : ℝ) (e : EarthMod) (h : EarthMod.make prem rows f1 f2 f3 = .ok e)
    (hl : rows.length < prem.length) : e.serialize = .ub := by
  have hr := (c90_layers prem rows f1 f2 f3 e h).1
  unfold EarthMod.serialize
  rw [arraysize_prem h, if_neg]
  rintro ⟨h1, -⟩
  have := hr.1
  omega

example : ∃ e, EarthMod.make (plain 201 4) (plain 100 4) 1 1 1 = .ok e := plain_make _ _ (by decide) (by decide) _ _ _ _ _

/-- C90 fails for every file with more rows than the default one: the last ones are not saved. -/
theorem c90_save_long_violated (prem rows : Rows) (f1 f2 f3 : ℝ) (e : EarthMod) (h : EarthMod.make prem rows f1 f2 f3 = .ok e)
    (hl : prem.length < rows.length) : ∃ xs rho ye, e.serialize = .ok (xs, rho, ye) ∧ xs.length < e.tab.xs.length ∧ rho.length < e.tab.rho.length := by
  obtain ⟨l1, l2, l3, -⟩ := (c90_layers prem rows f1 f2 f3 e h).1
  refine ⟨_, _, _, if_pos ?_, ?_, ?_⟩
  · rw [arraysize_prem h, l1, l2, l3]
    exact ⟨hl.le, hl.le, hl.le⟩
  · rw [arraysize_prem h, List.length_take, l1]
    omega
  · rw [arraysize_prem h, List.length_take, l2]
    omega

example : ∃ e, EarthMod.make (plain 201 4) (plain 300 4) 1 1 1 = .ok e := plain_make _ _ (by decide) (by decide) _ _ _ _ _

end Verif.Example
