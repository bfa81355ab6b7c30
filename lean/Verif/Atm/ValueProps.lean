import Verif.Atm.EvalProps
import Verif.Density.Average
import Verif.Density.AverageProps

/-!
# Values of the atmospheric `EvalFlavor`: C59 (formula) and C84 (totals)
-/

namespace Verif.Atm

open Density Matrix

variable {n : Nat}

/-- The part of its track a node has done. -/
noncomputable def Node.part (nd : Node n) : ℝ := (nd.t - nd.tIni) / (nd.xend - nd.xini)

/-- Linear interpolation with weight `w` of the second value. -/
def mix (w p q : ℝ) : ℝ := (1 - w) * p + w * q

/-- C59, the value: inside the grid it is the bilinear interpolation, in cos(zenith) and energy, of what the four surrounding states contain
of the projector of the first node evolved with the energy asked for over the track of the zenith asked for, as far along as the two
surrounding nodes are on the average. Missing: that this is the interpolation of the values at the nodes (`c59_between_violated`). -/
theorem c59_value_partial (a : Obj n) (r : Nat) (ha : Ready a r) (ev : Mat n → ℝ → Mat n → Mat n) (height : ℝ) (flv : Fin n)
    (M L : Nat) (nM nP n0 : Node n) (cM cP eM eP u w : ℝ) (rho : Nat) (hrho : rho < r) (hrho2 : rho < 2)
    (hM : a.nodes[M]? = some nM) (hP : a.nodes[M + 1]? = some nP) (h0 : a.nodes[0]? = some n0) (hcM : a.costh[M]? = some cM)
    (hcP : a.costh[M + 1]? = some cP) (heM : a.enu[L]? = some eM) (heP : a.enu[L + 1]? = some eP)
    (hu0 : 0 < u) (hu1 : u < 1) (hw0 : 0 < w) (hw1 : w < 1) :
    let P := ev (n0.h0 (mix u eM eP)) ((a.length (mix w cM cP) + height) * ((nM.part + nP.part) / 2)) (n0.b1 rho flv)
    evalWith a ev height flv (mix w cM cP) (mix u eM eP) rho =
      .ok (mix w (mix u (dot (nM.state L rho) P) (dot (nM.state (L + 1) rho) P))
        (mix u (dot (nP.state L rho) P) (dot (nP.state (L + 1) rho) P))) := by
  intro P
  have hcc := get_lt ha.costhInc (Nat.lt_succ_self M) hcM hcP
  have hee := get_lt ha.enuInc (Nat.lt_succ_self L) heM heP
  have bet : ∀ {x y v : ℝ}, x < y → 0 < v → v < 1 → x < mix v x y ∧ mix v x y < y := by
    intro x y v h h1 h2
    unfold mix
    constructor <;> nlinarith
  have bc := bet hcc hw0 hw1
  have be := bet hee hu0 hu1
  have hci : Inside a.costh (mix w cM cP) :=
    ⟨⟨cM, List.mem_of_getElem? hcM, bc.1.le⟩, cP, List.mem_of_getElem? hcP, bc.2.le⟩
  have hei : Inside a.enu (mix u eM eP) :=
    ⟨⟨eM, List.mem_of_getElem? heM, be.1.le⟩, eP, List.mem_of_getElem? heP, be.2.le⟩
  obtain ⟨M', L', nM', nP', n0', cM', cP', eM', eP', _, _, k1, k2, k3, k4, k5, k6, k7, l1, l2, _, l3, l4, _, hv⟩ :=
    eval_inside a r ha ev height flv _ _ rho hrho hrho2 hci hei
  have uniq : ∀ {l : List ℝ} (_ : l.Pairwise (· < ·)) {i j : Nat} {x y x' y' v : ℝ}, l[i]? = some x → l[i + 1]? = some y →
      l[j]? = some x' → l[j + 1]? = some y' → x < v → v < y → x' ≤ v → v ≤ y' → i = j := by
    intro l hl i j x y x' y' v a1 a2 b1 b2 h1 h2 h3 h4
    rcases Nat.lt_trichotomy i j with h | h | h
    · exfalso
      rcases Nat.lt_or_ge (i + 1) j with g | g
      · have := get_lt hl g a2 b1
        linarith
      · have : i + 1 = j := by omega
        subst this
        rw [a2] at b1
        cases b1
        linarith
    · exact h
    · exfalso
      rcases Nat.lt_or_ge (j + 1) i with g | g
      · have := get_lt hl g b2 a1
        linarith
      · have : j + 1 = i := by omega
        subst this
        rw [b2] at a1
        cases a1
        linarith
  have hMM := uniq ha.costhInc hcM hcP k4 k5 bc.1 bc.2 l1 l2
  have hLL := uniq ha.enuInc heM heP k6 k7 be.1 be.2 l3 l4
  subst hMM hLL
  rw [hM] at k1; rw [hP] at k2; rw [h0] at k3; rw [hcM] at k4; rw [hcP] at k5; rw [heM] at k6; rw [heP] at k7
  cases k1; cases k2; cases k3; cases k4; cases k5; cases k6; cases k7
  have frac : ∀ {x y v : ℝ}, x < y → (mix v x y - x) / (y - x) = v := by
    intro x y v h
    have : y - x ≠ 0 := (sub_pos.2 h).ne'
    unfold mix
    field_simp
    ring
  have ht : tInter (a.length (mix w cM cP) + height) nM nP = (a.length (mix w cM cP) + height) * ((nM.part + nP.part) / 2) := by
    unfold tInter Node.part
    ring
  dsimp only at hv
  rw [frac hcc, frac hee, ht] at hv
  exact hv

/-- What adds up: evolutions of projectors that are additive and keep the identity. -/
structure Additive (ev : Mat n → ℝ → Mat n → Mat n) : Prop where
  sum : ∀ (H : Mat n) (t : ℝ) (P : Fin n → Mat n), ev H t (∑ f, P f) = ∑ f, ev H t (P f)
  one : ∀ (H : Mat n) (t : ℝ), ev H t 1 = 1

/-- Both evolutions in use are: the plain one and the averaged one with any scale. -/
theorem additive_evolve : Additive (evolve (n := n)) :=
  ⟨fun H t P => evolve_sum Finset.univ H t P, fun H t => evolve_one H t⟩

theorem additive_averaged (scale : ℝ) : Additive (fun H t (A : Mat n) => averagedEvolve H t scale A) :=
  ⟨fun H t P => averagedEvolve_sum H t scale Finset.univ P, fun H t => averagedEvolve_one H t scale⟩

/-- The total content of a node's state. -/
noncomputable def Node.total (nd : Node n) (k rho : Nat) : ℝ := (nd.state k rho).trace.re

/-- C84: inside the grid the contents of all flavours add up to a number between the totals of the four surrounding nodes, in both
overloads, whatever the time, the random height and the averaging scale. -/
theorem c84_total (a : Obj n) (r : Nat) (ha : Ready a r) (ev : Mat n → ℝ → Mat n → Mat n) (hev : Additive ev) (height : ℝ)
    (costh enu : ℝ) (rho : Nat) (hrho : rho < r) (hrho2 : rho < 2) (hc : Inside a.costh costh) (he : Inside a.enu enu)
    (hproj : ∀ n0, a.nodes[0]? = some n0 → ∑ f, n0.b1 rho f = 1) :
    ∃ (M L : Nat) (nM nP : Node n) (c : Fin n → ℝ), Surrounds a.costh M costh ∧ Surrounds a.enu L enu ∧ a.nodes[M]? = some nM ∧
      a.nodes[M + 1]? = some nP ∧ (∀ f : Fin n, evalWith a ev height f costh enu rho = .ok (c f)) ∧
      Among (∑ f, c f) (nM.total L rho) (nM.total (L + 1) rho) (nP.total L rho) (nP.total (L + 1) rho) := by
  obtain ⟨M, hM, ⟨cM, cP, hcM, hcP, hc1, hc2⟩, _⟩ := bracket_spec ha.costhInc ha.costhTwo hc
  obtain ⟨L, hL, ⟨eM, eP, heM, heP, he1, he2⟩, _⟩ := bracket_spec ha.enuInc ha.enuTwo he
  have hMl := (List.getElem?_eq_some_iff.1 hcP).1
  have hcnt := ha.count
  obtain ⟨nM, hnM⟩ : ∃ z, a.nodes[M]? = some z := ⟨_, List.getElem?_eq_getElem (by omega)⟩
  obtain ⟨nP, hnP⟩ : ∃ z, a.nodes[M + 1]? = some z := ⟨_, List.getElem?_eq_getElem (by omega)⟩
  obtain ⟨n0, hn0⟩ : ∃ z, a.nodes[0]? = some z := ⟨_, List.getElem?_eq_getElem (by omega)⟩
  have hf := fraction he1 he2 (get_lt ha.enuInc (Nat.lt_succ_self L) heM heP)
  have hg := fraction hc1 hc2 (get_lt ha.costhInc (Nat.lt_succ_self M) hcM hcP)
  generalize hu : (enu - eM) / (eP - eM) = u at hf
  generalize hw : (costh - cM) / (cP - cM) = w at hg
  let P : Fin n → Mat n := fun f => ev (n0.h0 enu) (tInter (a.length costh + height) nM nP) (n0.b1 rho f)
  let D : Mat n → Fin n → ℝ := fun A f => dot A (P f)
  have hval : ∀ f : Fin n, evalWith a ev height f costh enu rho =
      .ok ((1 - w) * ((1 - u) * D (nM.state L rho) f + u * D (nM.state (L + 1) rho) f) +
        w * ((1 - u) * D (nP.state L rho) f + u * D (nP.state (L + 1) rho) f)) := by
    intro f
    obtain ⟨M', L', nM', nP', n0', cM', cP', eM', eP', b1, b2, k1, k2, k3, k4, k5, k6, k7, _, _, _, _, _, _, hv⟩ :=
      eval_inside a r ha ev height f _ _ rho hrho hrho2 hc he
    rw [hM] at b1; rw [hL] at b2
    cases b1; cases b2
    rw [hnM] at k1; rw [hnP] at k2; rw [hn0] at k3; rw [hcM] at k4; rw [hcP] at k5; rw [heM] at k6; rw [heP] at k7
    cases k1; cases k2; cases k3; cases k4; cases k5; cases k6; cases k7
    dsimp only at hv
    rw [hu, hw] at hv
    exact hv
  have hD : ∀ A : Mat n, ∑ f, D A f = A.trace.re := by
    intro A
    show ∑ f, dot A (P f) = A.trace.re
    rw [← dot_sum, show ∑ f, P f = 1 from by
      rw [show ∑ f, P f = ev (n0.h0 enu) (tInter (a.length costh + height) nM nP) (∑ f, n0.b1 rho f) from (hev.sum _ _ _).symm,
        hproj n0 hn0, hev.one], dot, Matrix.mul_one]
  refine ⟨M, L, nM, nP, _, ⟨cM, cP, hcM, hcP, hc1, hc2⟩, ⟨eM, eP, heM, heP, he1, he2⟩, hnM, hnP, hval, ?_⟩
  rw [Finset.sum_add_distrib, ← Finset.mul_sum, ← Finset.mul_sum, Finset.sum_add_distrib, Finset.sum_add_distrib, ← Finset.mul_sum,
    ← Finset.mul_sum, ← Finset.mul_sum, ← Finset.mul_sum, hD, hD, hD, hD]
  exact convex_among hf.1 hf.2 hg.1 hg.2 _ _ _ _

/-- C84: if every node's state has the same total, that is what the contents of all flavours add up to, anywhere in the grid. -/
theorem c84_constant_total (a : Obj n) (r : Nat) (ha : Ready a r) (ev : Mat n → ℝ → Mat n → Mat n) (hev : Additive ev) (height : ℝ)
    (costh enu : ℝ) (rho : Nat) (hrho : rho < r) (hrho2 : rho < 2) (hc : Inside a.costh costh) (he : Inside a.enu enu)
    (hproj : ∀ n0, a.nodes[0]? = some n0 → ∑ f, n0.b1 rho f = 1) (total : ℝ)
    (ht : ∀ nd ∈ a.nodes, ∀ k, k < a.enu.length → nd.total k rho = total) :
    ∃ c : Fin n → ℝ, (∀ f : Fin n, evalWith a ev height f costh enu rho = .ok (c f)) ∧ ∑ f, c f = total := by
  obtain ⟨M, L, nM, nP, c, _, ⟨x, y, h1, h2, _⟩, h3, h4, h5, h6⟩ := c84_total a r ha ev hev height costh enu rho hrho hrho2 hc he hproj
  have l1 := (List.getElem?_eq_some_iff.1 h1).1
  have l2 := (List.getElem?_eq_some_iff.1 h2).1
  rw [ht nM (List.mem_of_getElem? h3) L l1, ht nM (List.mem_of_getElem? h3) (L + 1) l2, ht nP (List.mem_of_getElem? h4) L l1,
    ht nP (List.mem_of_getElem? h4) (L + 1) l2] at h6
  refine ⟨c, h5, le_antisymm ?_ ?_⟩
  · rcases h6.2 with h | h | h | h <;> exact h
  · rcases h6.1 with h | h | h | h <;> exact h

theorem rot_unitary (θ : ℝ) : Unitary (rot θ) := by
  have h : (Real.cos θ : ℂ) * Real.cos θ + Real.sin θ * Real.sin θ = 1 := by
    rw [← Complex.ofReal_mul, ← Complex.ofReal_mul, ← Complex.ofReal_add, ← sq, ← sq, Real.cos_sq_add_sin_sq, Complex.ofReal_one]
  unfold Unitary
  ext i j
  fin_cases i <;> fin_cases j <;>
    simp [rot, Matrix.mul_apply, Fin.sum_univ_three, Matrix.conjTranspose_apply, -Complex.ofReal_cos, -Complex.ofReal_sin]
  · exact h
  · ring
  · ring
  · rw [add_comm]; exact h

/-- The two-node object of C59 after its nodes have moved by different amounts, averaged with scale 1: the contents add up to one. -/
example : ∃ c : Fin 3 → ℝ, (∀ f : Fin 3, evalWith (demoSky 2 3 (demoNode 3 3 true fun _ => flavour0) (demoNode 1 3 true fun _ => flavour0))
    (fun H t A => averagedEvolve H t 1 A) 0 f (1 / 2) (3 / 2) 0 = .ok (c f)) ∧ ∑ f, c f = 1 := by
  refine c84_constant_total _ 1 (demo_ready 2 3 3 1 3 true true _ _ (by norm_num)) _ (additive_averaged 1) 0 _ _ 0 Nat.zero_lt_one
    Nat.zero_lt_two (by constructor <;> simp [demoSky] <;> norm_num) (by constructor <;> simp [demoSky] <;> norm_num) ?_ 1 ?_
  · intro n0 h0
    have : n0 = demoNode 3 3 true fun _ => flavour0 := by simpa [demoSky, eq_comm] using h0
    subst this
    exact sum_b1 (rot_unitary _)
  · intro nd hnd k _
    have ht : flavour0.trace.re = 1 := by
      unfold flavour0 toB1
      rw [Matrix.trace_mul_cycle, (rot_unitary (1 / 2)).star_mul, Matrix.one_mul, projector, Matrix.trace_single_eq_same]
      rfl
    simp only [demoSky, List.mem_cons, List.not_mem_nil, or_false] at hnd
    rcases hnd with rfl | rfl <;> exact ht

/-- In the middle of the cell: the mean of the four contents. -/
example (flv : Fin 3) : ∃ P : Mat 3, evalFlavor (demoSky 2 3 (demoNode 3 3 true fun _ => flavour0) (demoNode 1 3 true fun _ => flavour0)) 0 flv
    (mix (1 / 2) (-1) 1) (mix (1 / 2) 1 2) 0 = .ok (mix (1 / 2) (mix (1 / 2) (dot flavour0 P) (dot flavour0 P)) (mix (1 / 2) (dot flavour0 P) (dot flavour0 P))) := by
  have h := c59_value_partial (demoSky 2 3 (demoNode 3 3 true fun _ => flavour0) (demoNode 1 3 true fun _ => flavour0)) 1
    (demo_ready 2 3 3 1 3 true true _ _ (by norm_num)) evolve 0 flv 0 0 (demoNode 3 3 true fun _ => flavour0)
    (demoNode 1 3 true fun _ => flavour0) (demoNode 3 3 true fun _ => flavour0) (-1) 1 1 2 (1 / 2) (1 / 2) 0 Nat.zero_lt_one
    Nat.zero_lt_two (by simp [demoSky]) (by simp [demoSky]) (by simp [demoSky]) (by simp [demoSky]) (by simp [demoSky]) (by simp [demoSky])
    (by simp [demoSky]) (by norm_num) (by norm_num) (by norm_num) (by norm_num)
  exact ⟨_, h⟩

end Verif.Atm
