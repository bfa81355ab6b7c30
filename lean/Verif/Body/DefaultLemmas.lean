import Verif.Body.Default
import Verif.Body.DefaultTame
import Verif.Body.ProfileProps
import Verif.Interp.AkimaBound
import Mathlib.Data.Real.Basic

namespace Verif.Bodies

open Verif.Interp

/-- A column between two bounds: at every row and between the rows. -/
structure Between (lo hi : ℝ) (xs col : List ℝ) (s : Spline ℝ) : Prop where
  ok : ofVectors xs col = .ok s
  first_lo : lo ≤ first col
  first_hi : first col ≤ hi
  last_lo : lo ≤ last col
  last_hi : last col ≤ hi
  inside : ∀ v, first xs ≤ v → v ≤ last xs → ∃ w, s.eval v = .ok w ∧ lo ≤ w ∧ w ≤ hi

theorem between_of_tame {lo hi : Rat} (l : List (Rat × Rat)) (h : tameTableQ lo hi l = true) :
    ∃ s, Between (lo : ℝ) (hi : ℝ) (l.map fun r => ((r.1 : Rat) : ℝ)) (l.map fun r => ((r.2 : Rat) : ℝ)) s := by
  have ht := tameTable_cast (K := ℝ) l h
  obtain ⟨s, hs, hb⟩ := tame_between _ ht
  have e1 : (l.map (castRow (K := ℝ))).map Prod.fst = l.map fun r => ((r.1 : Rat) : ℝ) := by rw [List.map_map]; rfl
  have e2 : (l.map (castRow (K := ℝ))).map Prod.snd = l.map fun r => ((r.2 : Rat) : ℝ) := by rw [List.map_map]; rfl
  rw [e1] at hb
  rw [e1, e2] at hs
  have hrow : ∀ i, i + 1 < l.length → ∃ m0 m1 m2, Held (lo : ℝ) (hi : ℝ) ((l.map (castRow (K := ℝ))).getD i 0)
      ((l.map (castRow (K := ℝ))).getD (i + 1) 0) m0 m1 m2 := by
    intro i hi'
    match l, ht, hi' with
    | p :: q :: r :: rest, ht, hi' => exact ⟨_, _, _, Tame.get _ _ ht i (by simpa using hi')⟩
  have hlen : 3 ≤ l.length := by
    match l, h with
    | p :: q :: r :: rest, _ => simp
  have g : ∀ i, i < l.length → (l.map fun r => ((r.2 : Rat) : ℝ)).getD i 0 = ((l.map (castRow (K := ℝ))).getD i 0).2 := by
    intro i hi'
    simp only [List.getD_eq_getElem?_getD, List.getElem?_map, List.getElem?_eq_getElem hi', Option.map_some, Option.getD_some]
    rfl
  have h0 : first (l.map fun r => ((r.2 : Rat) : ℝ)) = ((l.map (castRow (K := ℝ))).getD 0 0).2 := g 0 (by omega)
  have h1 : last (l.map fun r => ((r.2 : Rat) : ℝ)) = ((l.map (castRow (K := ℝ))).getD (l.length - 2 + 1) 0).2 := by
    rw [last, List.length_map, show l.length - 2 + 1 = l.length - 1 by omega]
    exact g _ (by omega)
  obtain ⟨_, _, _, a⟩ := hrow 0 (by omega)
  obtain ⟨_, _, _, b⟩ := hrow (l.length - 2) (by omega)
  exact ⟨s, hs, by rw [h0]; exact a.p_lo, by rw [h0]; exact a.p_hi, by rw [h1]; exact b.q_lo, by rw [h1]; exact b.q_hi, hb⟩

theorem premRho_between : ∃ s, Between (102 / 100) (130886 / 10000) premXs premRho s := by
  obtain ⟨s, h⟩ := between_of_tame _ premRho_tame
  refine ⟨s, ?_⟩
  have e1 : (premRhoQ.map fun r => ((r.1 : Rat) : ℝ)) = premXs := by
    rw [premRhoQ, premXs, List.map_map]; exact List.map_congr_left fun r _ => by simp
  have e2 : (premRhoQ.map fun r => ((r.2 : Rat) : ℝ)) = premRho := by
    rw [premRhoQ, premRho, List.map_map]; exact List.map_congr_left fun r _ => by simp
  rw [e1, e2] at h
  push_cast at h
  exact h

theorem premYe_between : ∃ s, Between (4555 / 10000) (5058 / 10000) premXs premYe s := by
  obtain ⟨s, h⟩ := between_of_tame _ premYe_tame
  refine ⟨s, ?_⟩
  have e1 : (premYeQ.map fun r => ((r.1 : Rat) : ℝ)) = premXs := by
    rw [premYeQ, premXs, List.map_map]; exact List.map_congr_left fun r _ => by simp
  have e2 : (premYeQ.map fun r => ((r.2 : Rat) : ℝ)) = premYe := by
    rw [premYeQ, premYe, List.map_map]; exact List.map_congr_left fun r _ => by simp
  rw [e1, e2] at h
  push_cast at h
  exact h

theorem sunRho_between : ∃ s, Between (945 / 1000000) (1506 / 10) sunXs sunRho s := by
  obtain ⟨s, h⟩ := between_of_tame _ sunRho_tame
  refine ⟨s, ?_⟩
  have e1 : (sunRhoQ.map fun r => ((r.1 : Rat) : ℝ)) = sunXs := by
    rw [sunRhoQ, sunXs, List.map_map]; exact List.map_congr_left fun r _ => by simp
  have e2 : (sunRhoQ.map fun r => ((r.2 : Rat) : ℝ)) = sunRho := by
    rw [sunRhoQ, sunRho, List.map_map]; exact List.map_congr_left fun r _ => by simp
  rw [e1, e2] at h
  push_cast at h
  exact h

theorem sunXh_between : ∃ s, Between (3646 / 10000) (7584 / 10000) sunXs sunXh s := by
  obtain ⟨s, h⟩ := between_of_tame _ sunXh_tame
  refine ⟨s, ?_⟩
  have e1 : (sunXhQ.map fun r => ((r.1 : Rat) : ℝ)) = sunXs := by
    rw [sunXhQ, sunXs, List.map_map]; exact List.map_congr_left fun r _ => by simp
  have e2 : (sunXhQ.map fun r => ((r.2 : Rat) : ℝ)) = sunXh := by
    rw [sunXhQ, sunXh, List.map_map]; exact List.map_congr_left fun r _ => by simp
  rw [e1, e2] at h
  push_cast at h
  exact h

theorem premXs_last : last premXs = 1 := by
  have h : premRows.length = 201 ∧ (premRows.getD 200 0).1 = 10 ^ 21 := by decide +kernel
  have e : last premXs = ((premRows.getD 200 0).1 : ℝ) / 10 ^ 21 := by
    rw [last, premXs, List.length_map, h.1]
    simp only [List.getD_eq_getElem?_getD, List.getElem?_map]
    rw [List.getElem?_eq_getElem (by rw [h.1]; omega)]
    rfl
  rw [e, h.2]
  norm_num

theorem premXs_first : first premXs = 0 := by
  have h : (premRows.getD 0 0).1 = 0 ∧ 0 < premRows.length := by decide +kernel
  have e : first premXs = ((premRows.getD 0 0).1 : ℝ) / 10 ^ 21 := by
    rw [first, premXs]
    simp only [List.getD_eq_getElem?_getD, List.getElem?_map]
    rw [List.getElem?_eq_getElem h.2]
    rfl
  rw [e, h.1]
  norm_num

theorem sunXs_last : last sunXs = 98308 / 100000 := by
  have h : sunRows.length = 1284 ∧ (sunRows.getD 1283 0).1 = 98308 := by decide +kernel
  have e : last sunXs = ((sunRows.getD 1283 0).1 : ℝ) / 10 ^ 5 := by
    rw [last, sunXs, List.length_map, h.1]
    simp only [List.getD_eq_getElem?_getD, List.getElem?_map]
    rw [List.getElem?_eq_getElem (by rw [h.1]; omega)]
    rfl
  rw [e, h.2]
  norm_num

theorem Between.clamped {lo hi : ℝ} {xs col : List ℝ} {s : Spline ℝ} (h : Between lo hi xs col s) (v : ℝ) :
    ∃ w, clampedLookup xs col s v = .ok w ∧ lo ≤ w ∧ w ≤ hi := by
  unfold clampedLookup
  by_cases h0 : v < first xs
  · exact ⟨_, if_pos h0, h.first_lo, h.first_hi⟩
  rw [if_neg h0]
  by_cases h1 : v > last xs
  · exact ⟨_, if_pos h1, h.last_lo, h.last_hi⟩
  rw [if_neg h1]
  exact h.inside v (not_lt.1 h0) (not_lt.1 h1)

theorem Between.sun {lo hi : ℝ} {xs col : List ℝ} {s : Spline ℝ} (h : Between lo hi xs col s) (v : ℝ) :
    (v ≤ last xs → ∃ w, sunLookup xs col s v = .ok w ∧ lo ≤ w ∧ w ≤ hi) ∧
    (last xs < v → first xs ≤ last xs → sunLookup xs col s v = .ok 0) := by
  unfold sunLookup
  constructor
  · intro hv
    by_cases h0 : v < first xs
    · exact ⟨_, if_pos h0, h.first_lo, h.first_hi⟩
    rw [if_neg h0, if_neg (not_lt.2 hv)]
    exact h.inside v (not_lt.1 h0) hv
  · intro hv hle
    rw [if_neg (not_lt.2 (hle.trans hv.le)), if_pos hv]

/-- Below or at the surface the atmospheric object looks the table up, clamped, if the table ends at 1. -/
theorem Between.atm {lo hi : ℝ} {xs col : List ℝ} {s : Spline ℝ} (h : Between lo hi xs col s) (hl : last xs = 1) (R ewa r above : ℝ)
    (hR : 0 < R) (hw : R ≤ ewa) (hr : r ≤ R) : ∃ w, atmLookup xs col s R ewa r above = .ok w ∧ lo ≤ w ∧ w ≤ hi := by
  unfold atmLookup
  dsimp only
  by_cases h0 : r / ewa < first xs
  · exact ⟨_, if_pos h0, h.first_lo, h.first_hi⟩
  have h1 : r / ewa ≤ last xs := by rw [hl, div_le_one (by linarith)]; linarith
  rw [if_neg h0, if_neg (fun c => absurd c.1 (not_lt.2 h1)), if_neg (not_lt.2 hr)]
  exact h.inside _ (not_lt.1 h0) h1

theorem Between.above {lo hi : ℝ} {xs col : List ℝ} {s : Spline ℝ} (_ : Between lo hi xs col s) (hl : first xs = 0) (R ewa r above : ℝ)
    (hR : 0 < R) (hw : R ≤ ewa) (hr : R < r) : atmLookup xs col s R ewa r above = .ok above := by
  unfold atmLookup
  dsimp only
  have h0 : ¬ r / ewa < first xs := by rw [hl, not_lt]; exact div_nonneg (by linarith) (by linarith)
  rw [if_neg h0, if_neg (fun c => absurd c.2 (not_lt.2 hr.le)), if_pos hr]

theorem Between.ordered {lo hi : ℝ} {xs col : List ℝ} {s : Spline ℝ} (h : Between lo hi xs col s) : first xs ≤ last xs := by
  obtain ⟨_, h3, _⟩ := ofVectors_ok h.ok
  exact abscissas_mono h.ok (get_first (by omega)) (get_last (by omega)) (by omega)

theorem tab_of_between {lo hi lo' hi' : ℝ} {xs rho ye : List ℝ} {s s' : Spline ℝ} (h : Between lo hi xs rho s)
    (h' : Between lo' hi' xs ye s') : Tab.make xs rho ye = .ok ⟨xs, rho, ye, s, s'⟩ := by
  rw [Tab.make, h.ok, Outcome.bind, h'.ok]; rfl

end Verif.Bodies
