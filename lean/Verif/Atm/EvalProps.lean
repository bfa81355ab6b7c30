import Verif.Atm.Eval
import Verif.Density.Rotation
import Mathlib.Tactic.Linarith
import Mathlib.Tactic.FieldSimp

/-!
# Interpolation between the nodes of the atmospheric object (C59)
-/

namespace Verif.Atm

open Density

variable {n : Nat}

/-! ## Specification -/

/-- An object that is ready to be evaluated: two or more nodes on each axis, in increasing order, one nuSQUIDS object per zenith, each with
all energies and `r` density matrices. -/
structure Ready (a : Obj n) (r : Nat) : Prop where
  ini : a.iinistate = some true
  valid : a.inusquidsatm = true
  costhInc : a.costh.Pairwise (· < ·)
  enuInc : a.enu.Pairwise (· < ·)
  costhTwo : 2 ≤ a.costh.length
  enuTwo : 2 ≤ a.enu.length
  count : a.nodes.length = a.costh.length
  sizes : ∀ nd ∈ a.nodes, nd.ne = a.enu.length ∧ nd.nrhos = r

/-- `v` is between the first and the last element. -/
def Inside (l : List ℝ) (v : ℝ) : Prop := (∃ x ∈ l, x ≤ v) ∧ ∃ x ∈ l, v ≤ x

/-- Elements `k` and `k+1` surround `v`. -/
def Surrounds (l : List ℝ) (k : Nat) (v : ℝ) : Prop := ∃ x y, l[k]? = some x ∧ l[k + 1]? = some y ∧ x ≤ v ∧ v ≤ y

/-- `EvalFlavorAtNode` of a nuSQUIDS object in the interaction picture (src/nuSQuIDS.cpp 1520-1528). -/
noncomputable def nodeValue (nd : Node n) (flv : Fin n) (ei rho : Nat) (E : ℝ) : ℝ :=
  dot (nd.state ei rho) (evolve (nd.h0 E) (nd.t - nd.tIni) (nd.b1 rho flv))

/-- All nodes have the projectors and masses of the first. -/
def SameSetup (a : Obj n) : Prop :=
  ∀ nd ∈ a.nodes, ∀ n0, a.nodes[0]? = some n0 → nd.osc = n0.osc ∧ nd.dm2 = n0.dm2 ∧ nd.b1 = n0.b1

/-- All nodes are the same part of the way along the track the Earth makes for them. -/
def Together (a : Obj n) : Prop :=
  ∃ part : ℝ, ∀ (i : Nat) (nd : Node n) (c : ℝ), a.nodes[i]? = some nd → a.costh[i]? = some c →
    nd.xend - nd.xini = a.length c ∧ a.length c ≠ 0 ∧ nd.t - nd.tIni = part * a.length c

/-- `v` is not outside the range of four numbers. -/
def Among (v p q r s : ℝ) : Prop := (p ≤ v ∨ q ≤ v ∨ r ≤ v ∨ s ≤ v) ∧ (v ≤ p ∨ v ≤ q ∨ v ≤ r ∨ v ≤ s)

/-! ## Finding the nodes -/

theorem lowerBound_spec : ∀ (l : List ℝ) (v : ℝ), lowerBound l v ≤ l.length ∧
    (∀ (i : Nat) (x : ℝ), l[i]? = some x → i < lowerBound l v → x < v) ∧ (∀ x : ℝ, l[lowerBound l v]? = some x → v ≤ x)
  | [], v => by simp [lowerBound]
  | y :: l, v => by
    obtain ⟨h1, h2, h3⟩ := lowerBound_spec l v
    by_cases hy : y < v
    · have e : lowerBound (y :: l) v = lowerBound l v + 1 := by simp [lowerBound, hy]
      rw [e]
      refine ⟨by simpa using h1, ?_, ?_⟩
      · intro i x hx hi
        cases i with
        | zero => simp only [List.getElem?_cons_zero, Option.some.injEq] at hx; rw [← hx]; exact hy
        | succ i => exact h2 i x (by simpa using hx) (by omega)
      · intro x hx
        exact h3 x (by simpa using hx)
    · have e : lowerBound (y :: l) v = 0 := by simp [lowerBound, hy]
      rw [e]
      refine ⟨Nat.zero_le _, fun i x _ hi => absurd hi (Nat.not_lt_zero _), ?_⟩
      intro x hx
      simp only [List.getElem?_cons_zero, Option.some.injEq] at hx
      rw [← hx]; exact not_lt.1 hy

theorem get_lt {l : List ℝ} (h : l.Pairwise (· < ·)) {i j : Nat} {x y : ℝ} (hij : i < j) (hx : l[i]? = some x) (hy : l[j]? = some y) :
    x < y := by
  obtain ⟨hi, rfl⟩ := List.getElem?_eq_some_iff.1 hx
  obtain ⟨hj, rfl⟩ := List.getElem?_eq_some_iff.1 hy
  exact List.pairwise_iff_getElem.1 h i j hi hj hij

theorem get_le {l : List ℝ} (h : l.Pairwise (· < ·)) {i j : Nat} {x y : ℝ} (hij : i ≤ j) (hx : l[i]? = some x) (hy : l[j]? = some y) :
    x ≤ y := by
  rcases Nat.eq_or_lt_of_le hij with rfl | hij
  · rw [hx] at hy; exact le_of_eq (Option.some.inj hy)
  · exact le_of_lt (get_lt h hij hx hy)

theorem bracket_spec {l : List ℝ} (hs : l.Pairwise (· < ·)) (h2 : 2 ≤ l.length) {v : ℝ} (hv : Inside l v) :
    ∃ M, bracket l v = some M ∧ Surrounds l M v ∧ ∀ k, l[k]? = some v → k = M ∨ k = M + 1 := by
  obtain ⟨⟨x, hx, hxv⟩, y, hy, hvy⟩ := hv
  obtain ⟨i, hi⟩ := List.mem_iff_getElem?.1 hx
  obtain ⟨j, hj⟩ := List.mem_iff_getElem?.1 hy
  obtain ⟨b1, b2, b3⟩ := lowerBound_spec l v
  have hjl := (List.getElem?_eq_some_iff.1 hj).1
  have hlt : lowerBound l v < l.length := by
    rcases Nat.lt_or_ge (lowerBound l v) l.length with h | h
    · exact h
    · exact absurd (b2 j y hj (by omega)) (not_lt.2 hvy)
  obtain ⟨z, hz⟩ : ∃ z, l[lowerBound l v]? = some z := ⟨_, List.getElem?_eq_getElem hlt⟩
  have hvz := b3 z hz
  refine ⟨lowerBound l v - 1, ?_, ?_, ?_⟩
  · unfold bracket
    rw [if_neg (by omega)]
  · by_cases h0 : lowerBound l v = 0
    · rw [h0] at hz
      rw [h0]
      obtain ⟨w, hw⟩ : ∃ w, l[1]? = some w := ⟨_, List.getElem?_eq_getElem (by omega)⟩
      have hzx := get_le hs (Nat.zero_le i) hz hi
      exact ⟨z, w, hz, hw, le_trans hzx hxv, le_trans hvz (get_le hs (Nat.zero_le 1) hz hw)⟩
    · obtain ⟨w, hw⟩ : ∃ w, l[lowerBound l v - 1]? = some w := ⟨_, List.getElem?_eq_getElem (by omega)⟩
      refine ⟨w, z, hw, ?_, le_of_lt (b2 _ w hw (by omega)), hvz⟩
      rw [show lowerBound l v - 1 + 1 = lowerBound l v by omega]
      exact hz
  · intro k hk
    have h1 : ¬ k < lowerBound l v := fun h => absurd (b2 k v hk h) (lt_irrefl v)
    have h2 : ¬ lowerBound l v < k := fun h => absurd (get_lt hs h hz hk) (not_lt.2 hvz)
    omega

theorem head_le {l : List ℝ} (hs : l.Pairwise (· < ·)) {v c0 c1 : ℝ} (h0 : l.head? = some c0) (h1 : l.getLast? = some c1) :
    (v < c0 ∨ c1 < v) ↔ ¬ Inside l v := by
  have e0 : l[0]? = some c0 := by rw [← h0]; cases l <;> rfl
  have e1 : l[l.length - 1]? = some c1 := by rw [← h1, List.getLast?_eq_getElem?]
  constructor
  · rintro (h | h) ⟨⟨x, hx, hxv⟩, y, hy, hvy⟩
    · obtain ⟨i, hi⟩ := List.mem_iff_getElem?.1 hx
      exact absurd (lt_of_le_of_lt hxv h) (not_lt.2 (get_le hs (Nat.zero_le i) e0 hi))
    · obtain ⟨i, hi⟩ := List.mem_iff_getElem?.1 hy
      have := (List.getElem?_eq_some_iff.1 hi).1
      exact absurd (lt_of_lt_of_le h hvy) (not_lt.2 (get_le hs (by omega) hi e1))
  · intro h
    by_contra hc
    rw [not_or, not_lt, not_lt] at hc
    exact h ⟨⟨c0, List.mem_of_getElem? e0, hc.1⟩, c1, List.mem_of_getElem? e1, hc.2⟩

theorem ends {l : List ℝ} (h : 2 ≤ l.length) : ∃ a b, l.head? = some a ∧ l.getLast? = some b := by
  have hne : l ≠ [] := by rintro rfl; simp at h
  exact ⟨l.head hne, l.getLast hne, List.head?_eq_some_head hne, List.getLast?_eq_some_getLast hne⟩

/-! ## The interpolation formula -/

/-- What the two surrounding nodes on each axis contribute: the fractions are between 0 and 1. -/
theorem eval_inside (a : Obj n) (r : Nat) (ha : Ready a r) (ev : Mat n → ℝ → Mat n → Mat n) (height : ℝ) (flv : Fin n) (costh enu : ℝ)
    (rho : Nat) (hrho : rho < r) (hrho2 : rho < 2) (hc : Inside a.costh costh) (he : Inside a.enu enu) :
    ∃ M L nM nP n0 cM cP eM eP, bracket a.costh costh = some M ∧ bracket a.enu enu = some L ∧
      a.nodes[M]? = some nM ∧ a.nodes[M + 1]? = some nP ∧ a.nodes[0]? = some n0 ∧
      a.costh[M]? = some cM ∧ a.costh[M + 1]? = some cP ∧ a.enu[L]? = some eM ∧ a.enu[L + 1]? = some eP ∧
      cM ≤ costh ∧ costh ≤ cP ∧ cM < cP ∧ eM ≤ enu ∧ enu ≤ eP ∧ eM < eP ∧
      let op := ev (n0.h0 enu) (tInter (a.length costh + height) nM nP) (n0.b1 rho flv)
      let f := (enu - eM) / (eP - eM)
      let g := (costh - cM) / (cP - cM)
      evalWith a ev height flv costh enu rho = .ok ((1 - g) * ((1 - f) * dot (nM.state L rho) op + f * dot (nM.state (L + 1) rho) op) +
        g * ((1 - f) * dot (nP.state L rho) op + f * dot (nP.state (L + 1) rho) op)) := by
  obtain ⟨M, hM, ⟨cM, cP, hcM, hcP, hc1, hc2⟩, _⟩ := bracket_spec ha.costhInc ha.costhTwo hc
  obtain ⟨L, hL, ⟨eM, eP, heM, heP, he1, he2⟩, _⟩ := bracket_spec ha.enuInc ha.enuTwo he
  have hMl := (List.getElem?_eq_some_iff.1 hcP).1
  have hLl := (List.getElem?_eq_some_iff.1 heP).1
  have hcnt := ha.count
  obtain ⟨nM, hnM⟩ : ∃ z, a.nodes[M]? = some z := ⟨_, List.getElem?_eq_getElem (by omega)⟩
  obtain ⟨nP, hnP⟩ : ∃ z, a.nodes[M + 1]? = some z := ⟨_, List.getElem?_eq_getElem (by omega)⟩
  obtain ⟨n0, hn0⟩ : ∃ z, a.nodes[0]? = some z := ⟨_, List.getElem?_eq_getElem (by omega)⟩
  refine ⟨M, L, nM, nP, n0, cM, cP, eM, eP, hM, hL, hnM, hnP, hn0, hcM, hcP, heM, heP, hc1, hc2,
    get_lt ha.costhInc (Nat.lt_succ_self M) hcM hcP, he1, he2, get_lt ha.enuInc (Nat.lt_succ_self L) heM heP, ?_⟩
  dsimp only
  obtain ⟨c0, c1, hc0, hc1'⟩ := ends ha.costhTwo
  obtain ⟨e0, e1, he0, he1'⟩ := ends ha.enuTwo
  have sM := ha.sizes nM (List.mem_of_getElem? hnM)
  have sP := ha.sizes nP (List.mem_of_getElem? hnP)
  have s0 := ha.sizes n0 (List.mem_of_getElem? hn0)
  have g1 : n0.getProj flv rho = some (n0.b1 rho flv) := by
    unfold Node.getProj
    rw [dif_pos flv.2, if_pos (by rw [s0.2]; exact hrho)]
  have g2 : nM.getState L rho = some (nM.state L rho) := if_pos ⟨by omega, by omega⟩
  have g3 : nM.getState (L + 1) rho = some (nM.state (L + 1) rho) := if_pos ⟨by omega, by omega⟩
  have g4 : nP.getState L rho = some (nP.state L rho) := if_pos ⟨by omega, by omega⟩
  have g5 : nP.getState (L + 1) rho = some (nP.state (L + 1) rho) := if_pos ⟨by omega, by omega⟩
  have d : ∀ (x y : ℝ) (A B C : Mat n), dot (x • A + y • B) C = x * dot A C + y * dot B C := by
    intro x y A B C
    rw [dot_comm, dot_add, dot_smul, dot_smul, dot_comm C, dot_comm C]
  unfold evalWith
  rw [ha.ini]
  simp only [ha.valid, Bool.not_true, Bool.false_eq_true, if_false, hc0, hc1', he0, he1']
  rw [if_neg (by omega), if_neg (by rw [head_le ha.costhInc hc0 hc1']; exact not_not.2 hc),
    if_neg (by rw [head_le ha.enuInc he0 he1']; exact not_not.2 he), hM, hL]
  simp only [interpolate, hnM, hnP, hn0, g1, heM, heP, g2, g3, g4, g5, hcM, hcP, Option.bind_eq_bind, Option.bind_some,
    Outcome.ofOption_some, linInter, d]

/-! ## C59 -/

/-- C59, access: inside the grid, on an object that is ready, nothing outside the arrays is read, in both overloads. Missing: grids with one
node on an axis and antineutrinos asked of an object that has none, for which this fails (below). -/
theorem c59_in_range_partial (a : Obj n) (r : Nat) (ha : Ready a r) (ev : Mat n → ℝ → Mat n → Mat n) (height : ℝ) (flv : Fin n)
    (costh enu : ℝ) (rho : Nat) (hrho : rho < r) (hrho2 : rho < 2) (hc : Inside a.costh costh) (he : Inside a.enu enu) :
    ∃ v, evalWith a ev height flv costh enu rho = .ok v := by
  obtain ⟨M, L, nM, nP, n0, cM, cP, eM, eP, _, _, _, _, _, _, _, _, _, _, _, _, _, _, _, h⟩ :=
    eval_inside a r ha ev height flv costh enu rho hrho hrho2 hc he
  exact ⟨_, h⟩

/-- C59, outside the grid: the call throws. -/
theorem c59_outside_throws (a : Obj n) (r : Nat) (ha : Ready a r) (ev : Mat n → ℝ → Mat n → Mat n) (height : ℝ) (flv : Nat)
    (costh enu : ℝ) (rho : Nat) (hout : ¬ Inside a.costh costh ∨ ¬ Inside a.enu enu) :
    evalWith a ev height flv costh enu rho = .throws := by
  obtain ⟨c0, c1, hc0, hc1⟩ := ends ha.costhTwo
  obtain ⟨e0, e1, he0, he1⟩ := ends ha.enuTwo
  unfold evalWith
  rw [ha.ini]
  simp only [ha.valid, Bool.not_true, Bool.false_eq_true, if_false, hc0, hc1, he0, he1]
  by_cases hr : ¬(rho = 0 ∨ rho = 1)
  · rw [if_pos hr]
  · rw [if_neg hr]
    by_cases hc : Inside a.costh costh
    · rw [if_neg (fun h => (head_le ha.costhInc hc0 hc1).1 h hc),
        if_pos ((head_le ha.enuInc he0 he1).2 (hout.resolve_left (not_not.2 hc)))]
    · rw [if_pos ((head_le ha.costhInc hc0 hc1).2 hc)]

theorem tInter_together (a : Obj n) (r : Nat) (ha : Ready a r) (ht : Together a) {M : Nat} {nM nP : Node n} (hM : a.nodes[M]? = some nM)
    (hP : a.nodes[M + 1]? = some nP) : ∃ part : ℝ, (∀ dt, tInter dt nM nP = part * dt) ∧
      ∀ (i : Nat) (nd : Node n) (c : ℝ), a.nodes[i]? = some nd → a.costh[i]? = some c → nd.t - nd.tIni = part * a.length c := by
  obtain ⟨part, hp⟩ := ht
  refine ⟨part, ?_, fun i nd c h1 h2 => (hp i nd c h1 h2).2.2⟩
  intro dt
  have hl := (List.getElem?_eq_some_iff.1 hP).1
  have hcnt := ha.count
  obtain ⟨cM, hcM⟩ : ∃ z, a.costh[M]? = some z := ⟨_, List.getElem?_eq_getElem (by omega)⟩
  obtain ⟨cP, hcP⟩ : ∃ z, a.costh[M + 1]? = some z := ⟨_, List.getElem?_eq_getElem (by omega)⟩
  obtain ⟨m1, m2, m3⟩ := hp M nM cM hM hcM
  obtain ⟨p1, p2, p3⟩ := hp (M + 1) nP cP hP hcP
  unfold tInter
  rw [m1, m3, p1, p3]
  field_simp
  ring

/-- C59, at a node: if all nodes are the same part of their way (for instance all evolved, or none) and have the same projectors, the value
at a node of the grid is the value the nuSQUIDS object of that zenith gives. Missing: objects whose nodes were moved separately, whose Earth
was replaced, or that are in the mass basis, for which this fails (below); the random height. -/
theorem c59_node_value_partial (a : Obj n) (r : Nat) (ha : Ready a r) (hs : SameSetup a) (ht : Together a) (flv : Fin n)
    (i k : Nat) (nd : Node n) (c e : ℝ) (hnd : a.nodes[i]? = some nd) (hc : a.costh[i]? = some c) (he : a.enu[k]? = some e)
    (rho : Nat) (hrho : rho < r) (hrho2 : rho < 2) :
    evalFlavor a 0 flv c e rho = .ok (nodeValue nd flv k rho e) := by
  have hci : Inside a.costh c := ⟨⟨c, List.mem_of_getElem? hc, le_refl c⟩, c, List.mem_of_getElem? hc, le_refl c⟩
  have hei : Inside a.enu e := ⟨⟨e, List.mem_of_getElem? he, le_refl e⟩, e, List.mem_of_getElem? he, le_refl e⟩
  obtain ⟨M', hM', _, hiM⟩ := bracket_spec ha.costhInc ha.costhTwo hci
  obtain ⟨L', hL', _, hkL⟩ := bracket_spec ha.enuInc ha.enuTwo hei
  obtain ⟨M, L, nM, nP, n0, cM, cP, eM, eP, hM, hL, hnM, hnP, hn0, hcM, hcP, heM, heP, _, _, hcc, _, _, hee, hv⟩ :=
    eval_inside a r ha evolve 0 flv c e rho hrho hrho2 hci hei
  rw [hM] at hM'; rw [hL] at hL'
  cases hM'; cases hL'
  dsimp only at hv
  unfold evalFlavor
  rw [hv]
  obtain ⟨part, hp1, hp2⟩ := tInter_together a r ha ht hnM hnP
  obtain ⟨s1, s2, s3⟩ := hs nd (List.mem_of_getElem? hnd) n0 hn0
  have hop : evolve (n0.h0 e) (tInter (a.length c + 0) nM nP) (n0.b1 rho flv) = evolve (nd.h0 e) (nd.t - nd.tIni) (nd.b1 rho flv) := by
    rw [hp1, add_zero, hp2 i nd c hnd hc, s3]
    unfold Node.h0
    rw [s1, s2]
  rw [hop]
  unfold nodeValue
  generalize evolve (nd.h0 e) (nd.t - nd.tIni) (nd.b1 rho flv) = op
  have hc0 : cP - cM ≠ 0 := ne_of_gt (sub_pos.2 hcc)
  have he0 : eP - eM ≠ 0 := ne_of_gt (sub_pos.2 hee)
  congr 1
  rcases hiM i hc with rfl | rfl <;> rcases hkL k he with rfl | rfl
  · rw [hcM] at hc; rw [heM] at he; rw [hnM] at hnd; cases hc; cases he; cases hnd
    simp
  · rw [hcM] at hc; rw [heP] at he; rw [hnM] at hnd; cases hc; cases he; cases hnd
    rw [div_self he0]; simp
  · rw [hcP] at hc; rw [heM] at he; rw [hnP] at hnd; cases hc; cases he; cases hnd
    rw [div_self hc0]; simp
  · rw [hcP] at hc; rw [heP] at he; rw [hnP] at hnd; cases hc; cases he; cases hnd
    rw [div_self hc0, div_self he0]; simp

theorem convex_among {f g : ℝ} (hf0 : 0 ≤ f) (hf1 : f ≤ 1) (hg0 : 0 ≤ g) (hg1 : g ≤ 1) (p q r s : ℝ) :
    Among ((1 - g) * ((1 - f) * p + f * q) + g * ((1 - f) * r + f * s)) p q r s := by
  have two : ∀ {w : ℝ} (_ : 0 ≤ w) (_ : w ≤ 1) (x y : ℝ), (x ≤ (1 - w) * x + w * y ∨ y ≤ (1 - w) * x + w * y) ∧
      ((1 - w) * x + w * y ≤ x ∨ (1 - w) * x + w * y ≤ y) := by
    intro w h0 h1 x y
    rcases le_total x y with h | h
    · exact ⟨.inl (by nlinarith), .inr (by nlinarith)⟩
    · exact ⟨.inr (by nlinarith), .inl (by nlinarith)⟩
  obtain ⟨a1, a2⟩ := two hf0 hf1 p q
  obtain ⟨b1, b2⟩ := two hf0 hf1 r s
  obtain ⟨c1, c2⟩ := two hg0 hg1 ((1 - f) * p + f * q) ((1 - f) * r + f * s)
  constructor
  · rcases c1 with c | c
    · rcases a1 with h | h
      · exact .inl (le_trans h c)
      · exact .inr (.inl (le_trans h c))
    · rcases b1 with h | h
      · exact .inr (.inr (.inl (le_trans h c)))
      · exact .inr (.inr (.inr (le_trans h c)))
  · rcases c2 with c | c
    · rcases a2 with h | h
      · exact .inl (le_trans c h)
      · exact .inr (.inl (le_trans c h))
    · rcases b2 with h | h
      · exact .inr (.inr (.inl (le_trans c h)))
      · exact .inr (.inr (.inr (le_trans c h)))

theorem fraction {x y v : ℝ} (h1 : x ≤ v) (h2 : v ≤ y) (h : x < y) : 0 ≤ (v - x) / (y - x) ∧ (v - x) / (y - x) ≤ 1 :=
  ⟨div_nonneg (by linarith) (by linarith), (div_le_one (by linarith)).2 (by linarith)⟩

/-- C59, between nodes: the result is not outside the range of what the four surrounding states contain of one and the same evolved
projector, that for the energy and zenith of the query. Missing: that these are the values at the nodes. With oscillations they are not
(`c59_between_violated`). -/
theorem c59_between_partial (a : Obj n) (r : Nat) (ha : Ready a r) (ev : Mat n → ℝ → Mat n → Mat n) (height : ℝ) (flv : Fin n)
    (costh enu : ℝ) (rho : Nat) (hrho : rho < r) (hrho2 : rho < 2) (hc : Inside a.costh costh) (he : Inside a.enu enu) :
    ∃ M L nM nP n0 t v, Surrounds a.costh M costh ∧ Surrounds a.enu L enu ∧ a.nodes[M]? = some nM ∧ a.nodes[M + 1]? = some nP ∧
      a.nodes[0]? = some n0 ∧ evalWith a ev height flv costh enu rho = .ok v ∧
      Among v (dot (nM.state L rho) (ev (n0.h0 enu) t (n0.b1 rho flv))) (dot (nM.state (L + 1) rho) (ev (n0.h0 enu) t (n0.b1 rho flv)))
        (dot (nP.state L rho) (ev (n0.h0 enu) t (n0.b1 rho flv))) (dot (nP.state (L + 1) rho) (ev (n0.h0 enu) t (n0.b1 rho flv))) := by
  obtain ⟨M, L, nM, nP, n0, cM, cP, eM, eP, hM, hL, hnM, hnP, hn0, hcM, hcP, heM, heP, hc1, hc2, hcc, he1, he2, hee, hv⟩ :=
    eval_inside a r ha ev height flv costh enu rho hrho hrho2 hc he
  have hf := fraction he1 he2 hee
  have hg := fraction hc1 hc2 hcc
  exact ⟨M, L, nM, nP, n0, _, _, ⟨cM, cP, hcM, hcP, hc1, hc2⟩, ⟨eM, eP, heM, heP, he1, he2⟩, hnM, hnP, hn0, hv,
    convex_among hf.1 hf.2 hg.1 hg.2 _ _ _ _⟩

/-- C59, between nodes, without oscillations: the result is not outside the range of the values at the four surrounding nodes. -/
theorem c59_between_without_oscillations_partial (a : Obj n) (r : Nat) (ha : Ready a r) (hs : SameSetup a)
    (hosc : ∀ nd ∈ a.nodes, nd.osc = false) (height : ℝ) (flv : Fin n)
    (costh enu : ℝ) (rho : Nat) (hrho : rho < r) (hrho2 : rho < 2) (hc : Inside a.costh costh) (he : Inside a.enu enu) :
    ∃ M L nM nP eM eP v, Surrounds a.costh M costh ∧ Surrounds a.enu L enu ∧ a.nodes[M]? = some nM ∧ a.nodes[M + 1]? = some nP ∧
      a.enu[L]? = some eM ∧ a.enu[L + 1]? = some eP ∧ evalFlavor a height flv costh enu rho = .ok v ∧
      Among v (nodeValue nM flv L rho eM) (nodeValue nM flv (L + 1) rho eP) (nodeValue nP flv L rho eM)
        (nodeValue nP flv (L + 1) rho eP) := by
  obtain ⟨M, L, nM, nP, n0, t, v, h1, h2, h3, h4, h5, h6, h7⟩ :=
    c59_between_partial a r ha evolve height flv costh enu rho hrho hrho2 hc he
  obtain ⟨eM, eP, heM, heP, _⟩ := h2
  have z : ∀ (t : ℝ) (P : Mat n), evolve 0 t P = P := by
    intro t P
    unfold evolve
    rw [phase_zero_matrix, phase_zero_matrix, Matrix.one_mul, Matrix.mul_one]
  have hh : ∀ nd ∈ a.nodes, ∀ E, nd.h0 E = 0 := by
    intro nd hnd E
    unfold Node.h0
    rw [hosc nd hnd]
    rfl
  have hv : ∀ nd ∈ a.nodes, ∀ k E, nodeValue nd flv k rho E = dot (nd.state k rho) (n0.b1 rho flv) := by
    intro nd hnd k E
    unfold nodeValue
    rw [hh nd hnd, z, (hs nd hnd n0 h5).2.2]
  refine ⟨M, L, nM, nP, eM, eP, v, h1, ⟨eM, eP, heM, heP, by assumption⟩, h3, h4, heM, heP, h6, ?_⟩
  rw [hv nM (List.mem_of_getElem? h3), hv nM (List.mem_of_getElem? h3), hv nP (List.mem_of_getElem? h4), hv nP (List.mem_of_getElem? h4)]
  rwa [hh n0 (List.mem_of_getElem? h5), z] at h7

/-! ## Concrete objects -/

/-- The first flavour in two mixed states, on a track of length `len` of which `t` is done. -/
noncomputable def demoNode (t len : ℝ) (osc : Bool) (state : Nat → Mat 3) : Node 3 where
  t := t
  tIni := 0
  xini := 0
  xend := len
  ne := 2
  nrhos := 1
  state := fun k _ => state k
  b1 := fun _ f => toB1 (rot (1 / 2)) (projector f)
  osc := osc
  dm2 := (2 : ℝ) • projector 1

noncomputable def flavour0 : Mat 3 := toB1 (rot (1 / 2)) (projector 0)

/-- Two zeniths, two energies. -/
noncomputable def demoSky (e1 len' : ℝ) (m p : Node 3) : Obj 3 := ⟨some true, true, [-1, 1], [1, e1], [m, p], fun _ => len'⟩

theorem demo_ready (e1 len' t0 t1 len : ℝ) (o0 o1 : Bool) (s0 s1 : Nat → Mat 3) (he : 1 < e1) :
    Ready (demoSky e1 len' (demoNode t0 len o0 s0) (demoNode t1 len o1 s1)) 1 where
  ini := rfl
  valid := rfl
  costhInc := by simp [demoSky]
  enuInc := by simpa [demoSky] using he
  costhTwo := le_refl 2
  enuTwo := le_refl 2
  count := rfl
  sizes := by
    intro nd hnd
    simp only [demoSky, List.mem_cons, List.not_mem_nil, or_false] at hnd
    rcases hnd with rfl | rfl <;> exact ⟨rfl, rfl⟩

theorem demo_setup (e1 len' t0 t1 len : ℝ) (o : Bool) (s0 s1 : Nat → Mat 3) :
    SameSetup (demoSky e1 len' (demoNode t0 len o s0) (demoNode t1 len o s1)) := by
  intro nd hnd n0 hn0
  simp only [demoSky, List.mem_cons, List.not_mem_nil, or_false] at hnd
  have : n0 = demoNode t0 len o s0 := by simpa [demoSky, eq_comm] using hn0
  subst this
  rcases hnd with rfl | rfl <;> exact ⟨rfl, rfl, rfl⟩

theorem demo_together (e1 t len : ℝ) (o : Bool) (s0 s1 : Nat → Mat 3) (hl : len ≠ 0) :
    Together (demoSky e1 len (demoNode t len o s0) (demoNode t len o s1)) := by
  refine ⟨t / len, ?_⟩
  intro i nd c hnd hc
  have h : nd.xend - nd.xini = len ∧ nd.t - nd.tIni = t := by
    have := List.mem_of_getElem? hnd
    simp only [demoSky, List.mem_cons, List.not_mem_nil, or_false] at this
    rcases this with rfl | rfl <;> simp [demoNode]
  refine ⟨h.1, hl, ?_⟩
  rw [h.2]
  simp only [demoSky]
  field_simp

theorem evolve_smul (H : Mat n) (x t : ℝ) (A : Mat n) : evolve (x • H) t A = evolve H (x * t) A := by
  have h : ∀ t : ℝ, phase (x • H) t = phase H (x * t) := by
    intro t
    unfold phase
    congr 1
    rw [← Complex.coe_smul, smul_smul]
    congr 1
    push_cast
    ring
  unfold evolve
  rw [h, h, mul_neg]

theorem demo_op (t0 len E t : ℝ) (s : Nat → Mat 3) :
    evolve ((demoNode t0 len true s).h0 E) t ((demoNode t0 len true s).b1 0 0) = evolve (projector 1) (t / E) flavour0 := by
  unfold Node.h0 flavour0
  simp only [demoNode, if_true]
  rw [smul_smul, evolve_smul]
  congr 1
  ring

/-- The value of a node of the example. -/
theorem demo_nodeValue (t len E : ℝ) (k : Nat) : nodeValue (demoNode t len true fun _ => flavour0) 0 k 0 E =
    1 - 2 * (Real.cos (1 / 2) * Real.sin (1 / 2)) ^ 2 * (1 - Real.cos (t / E)) := by
  unfold nodeValue
  rw [demo_op]
  have := rot_contents (1 / 2) 0 (t / E)
  rw [evolve_zero_time, sub_zero] at this
  rw [← this]
  simp [demoNode, flavour0]

/-- The value the atmospheric object of the example gives. -/
theorem demo_value (e1 len' t0 t1 len costh enu : ℝ) (he1 : 1 < e1) (hc : Inside [-1, 1] costh) (he : Inside [1, e1] enu) :
    evalFlavor (demoSky e1 len' (demoNode t0 len true fun _ => flavour0) (demoNode t1 len true fun _ => flavour0)) 0 0 costh enu 0 =
      .ok (1 - 2 * (Real.cos (1 / 2) * Real.sin (1 / 2)) ^ 2 *
        (1 - Real.cos (1 / 2 * (len' * t0 / len + len' * t1 / len) / enu))) := by
  obtain ⟨M, L, nM, nP, n0, cM, cP, eM, eP, hM, hL, hnM, hnP, hn0, hcM, hcP, heM, heP, hc1, hc2, hcc, he1, he2, hee, hv⟩ :=
    eval_inside _ 1 (demo_ready e1 len' t0 t1 len true true (fun _ => flavour0) (fun _ => flavour0) he1) evolve 0 0 costh enu 0
      Nat.zero_lt_one Nat.zero_lt_two hc he
  have hM0 : M = 0 := by
    have := (List.getElem?_eq_some_iff.1 hnP).1
    simp only [demoSky, List.length_cons, List.length_nil] at this
    omega
  subst hM0
  have e0 : nM = demoNode t0 len true fun _ => flavour0 := by simpa [demoSky, eq_comm] using hnM
  have e1' : nP = demoNode t1 len true fun _ => flavour0 := by simpa [demoSky, eq_comm] using hnP
  have e2 : n0 = demoNode t0 len true fun _ => flavour0 := by simpa [demoSky, eq_comm] using hn0
  subst e0 e1' e2
  dsimp only at hv
  unfold evalFlavor
  refine hv.trans ?_
  rw [demo_op]
  have := rot_contents (1 / 2) 0 (tInter (len' + 0) (demoNode t0 len true fun _ => flavour0) (demoNode t1 len true fun _ => flavour0) / enu)
  rw [evolve_zero_time, sub_zero] at this
  have hst : ∀ (t : ℝ) k, (demoNode t len true fun _ => flavour0).state k 0 = flavour0 := fun _ _ => rfl
  rw [hst, hst, hst, hst]
  change Outcome.ok _ = _
  congr 1
  have h2 : tInter (len' + 0) (demoNode t0 len true fun _ => flavour0) (demoNode t1 len true fun _ => flavour0) =
      1 / 2 * (len' * t0 / len + len' * t1 / len) := by simp [tInter, demoNode]
  have h3 : ∀ x g f : ℝ, (1 - g) * ((1 - f) * x + f * x) + g * ((1 - f) * x + f * x) = x := by intros; ring
  rw [h3]
  refine Eq.trans this ?_
  rw [h2]

/-- Between the nodes, oscillations included. -/
example : evalFlavor (demoSky 2 3 (demoNode 3 3 true fun _ => flavour0) (demoNode 3 3 true fun _ => flavour0)) 0 0 (1 / 2) (3 / 2) 0 =
    .ok (1 - 2 * (Real.cos (1 / 2) * Real.sin (1 / 2)) ^ 2 * (1 - Real.cos 2)) := by
  rw [demo_value 2 3 3 3 3 (1 / 2) (3 / 2) (by norm_num) (by constructor <;> simp <;> norm_num) (by constructor <;> simp <;> norm_num)]
  norm_num

/-- At a node. -/
example : evalFlavor (demoSky 2 3 (demoNode 3 3 true fun _ => flavour0) (demoNode 3 3 true fun _ => flavour0)) 0 0 1 2 0 =
    .ok (nodeValue (demoNode 3 3 true fun _ => flavour0) 0 1 0 2) :=
  c59_node_value_partial _ 1 (demo_ready 2 3 3 3 3 true true _ _ (by norm_num)) (demo_setup 2 3 3 3 3 true _ _)
    (demo_together 2 3 3 true _ _ (by norm_num)) 0 1 1 _ 1 2 rfl rfl rfl 0 Nat.zero_lt_one Nat.zero_lt_two

/-- Outside. -/
example : evalFlavor (demoSky 2 3 (demoNode 3 3 true fun _ => flavour0) (demoNode 3 3 true fun _ => flavour0)) 0 0 1 3 0 = .throws :=
  c59_outside_throws _ 1 (demo_ready 2 3 3 3 3 true true _ _ (by norm_num)) evolve 0 0 1 3 0
    (.inr (by rintro ⟨_, x, hx, h⟩; simp [demoSky] at hx; rcases hx with rfl | rfl <;> norm_num at h))

/-- Without oscillations. -/
example (s0 s1 : Nat → Mat 3) : ∃ v, evalFlavor (demoSky 2 3 (demoNode 3 3 false s0) (demoNode 3 3 false s1)) 0 0 0 (3 / 2) 0 = .ok v ∧
    Among v (nodeValue (demoNode 3 3 false s0) 0 0 0 1) (nodeValue (demoNode 3 3 false s0) 0 1 0 2)
      (nodeValue (demoNode 3 3 false s1) 0 0 0 1) (nodeValue (demoNode 3 3 false s1) 0 1 0 2) := by
  obtain ⟨M, L, nM, nP, eM, eP, v, _, _, h3, h4, h5, h6, h7, h8⟩ := c59_between_without_oscillations_partial _ 1
    (demo_ready 2 3 3 3 3 false false s0 s1 (by norm_num)) (demo_setup 2 3 3 3 3 false s0 s1)
    (by intro nd hnd; simp [demoSky] at hnd; rcases hnd with rfl | rfl <;> rfl) 0 0 0 (3 / 2) 0 Nat.zero_lt_one Nat.zero_lt_two
    (by constructor <;> simp [demoSky]) (by constructor <;> simp [demoSky] <;> norm_num)
  have hM : M = 0 := by
    have := (List.getElem?_eq_some_iff.1 h4).1
    simp only [demoSky, List.length_cons, List.length_nil] at this
    omega
  have hL : L = 0 := by
    have := (List.getElem?_eq_some_iff.1 h6).1
    simp only [demoSky, List.length_cons, List.length_nil] at this
    omega
  subst hM hL
  have e0 : nM = demoNode 3 3 false s0 := by simpa [demoSky, eq_comm] using h3
  have e1 : nP = demoNode 3 3 false s1 := by simpa [demoSky, eq_comm] using h4
  have e2 : eM = 1 := by simpa [demoSky, eq_comm] using h5
  have e3 : eP = 2 := by simpa [demoSky, eq_comm] using h6
  subst e0 e1 e2 e3
  exact ⟨v, h7, h8⟩

/-! ## Where the claim fails -/

/-- C59 fails between nodes with oscillations: all four surrounding values are 1 and the result is smaller. -/
theorem c59_between_violated : ∃ (a : Obj 3) (costh enu v : ℝ), Ready a 1 ∧ SameSetup a ∧ Together a ∧ Inside a.costh costh ∧
    Inside a.enu enu ∧ (∀ nd ∈ a.nodes, ∀ (k : Nat) (e : ℝ), a.enu[k]? = some e → nodeValue nd 0 k 0 e = 1) ∧
    evalFlavor a 0 0 costh enu 0 = .ok v ∧ v < 1 := by
  have hp := Real.pi_pos
  have hc : Inside [-1, 1] (0 : ℝ) := by constructor <;> simp
  have he : Inside [1, 2] (4 / 3 : ℝ) := by constructor <;> simp <;> norm_num
  refine ⟨demoSky 2 (4 * Real.pi) (demoNode (4 * Real.pi) (4 * Real.pi) true fun _ => flavour0)
    (demoNode (4 * Real.pi) (4 * Real.pi) true fun _ => flavour0), 0, 4 / 3, _, demo_ready _ _ _ _ _ _ _ _ _ (by norm_num),
    demo_setup _ _ _ _ _ _ _ _, demo_together _ _ _ _ _ _ (by positivity), hc, he, ?_,
    demo_value 2 (4 * Real.pi) (4 * Real.pi) (4 * Real.pi) (4 * Real.pi) 0 (4 / 3) (by norm_num) hc he, ?_⟩
  · intro nd hnd k e hk
    simp only [demoSky, List.mem_cons, List.not_mem_nil, or_false, or_self] at hnd
    subst hnd
    rw [demo_nodeValue]
    have hke := List.mem_of_getElem? hk
    simp only [demoSky, List.mem_cons, List.not_mem_nil, or_false] at hke
    rcases hke with rfl | rfl
    · rw [show 4 * Real.pi / 1 = ((2 : ℕ) : ℝ) * (2 * Real.pi) by push_cast; ring, Real.cos_nat_mul_two_pi]; ring
    · rw [show 4 * Real.pi / 2 = 2 * Real.pi by ring, Real.cos_two_pi]; ring
  · have e : 1 / 2 * (4 * Real.pi * (4 * Real.pi) / (4 * Real.pi) + 4 * Real.pi * (4 * Real.pi) / (4 * Real.pi)) / (4 / 3) =
        Real.pi + 2 * Real.pi := by field_simp; ring
    rw [e, Real.cos_add_two_pi, Real.cos_pi]
    nlinarith [half_facts]

/-- C59 fails at a node when the nodes were moved separately: the first is at the end of its track, its neighbour at the start. -/
theorem c59_node_value_violated : ∃ (a : Obj 3) (nd : Node 3) (c e v : ℝ), Ready a 1 ∧ SameSetup a ∧ a.nodes[0]? = some nd ∧
    a.costh[0]? = some c ∧ a.enu[0]? = some e ∧ nodeValue nd 0 0 0 e = 1 ∧ evalFlavor a 0 0 c e 0 = .ok v ∧ v < 1 := by
  have hp := Real.pi_pos
  have hc : Inside [-1, 1] (-1 : ℝ) := by constructor <;> simp
  have he : Inside [1, 2] (1 : ℝ) := by constructor <;> simp
  refine ⟨demoSky 2 (2 * Real.pi) (demoNode (2 * Real.pi) (2 * Real.pi) true fun _ => flavour0)
    (demoNode 0 (2 * Real.pi) true fun _ => flavour0), demoNode (2 * Real.pi) (2 * Real.pi) true fun _ => flavour0, -1, 1, _,
    demo_ready _ _ _ _ _ _ _ _ _ (by norm_num), demo_setup _ _ _ _ _ _ _ _, rfl, rfl, rfl, ?_,
    demo_value 2 (2 * Real.pi) (2 * Real.pi) 0 (2 * Real.pi) (-1) 1 (by norm_num) hc he, ?_⟩
  · rw [demo_nodeValue, div_one, Real.cos_two_pi]; ring
  · have e : 1 / 2 * (2 * Real.pi * (2 * Real.pi) / (2 * Real.pi) + 2 * Real.pi * 0 / (2 * Real.pi)) / 1 = Real.pi := by
      field_simp; ring
    rw [e, Real.cos_pi]
    nlinarith [half_facts]

/-- C59 fails at a node after the Earth was replaced by one with another atmosphere (`Set_EarthModel`, 1894-1899): the tracks of the nodes
stay as they were, and the time is scaled by the ratio of the lengths. -/
theorem c59_earth_replaced_violated : ∃ (a : Obj 3) (nd : Node 3) (c e v : ℝ), Ready a 1 ∧ SameSetup a ∧ a.nodes[0]? = some nd ∧
    a.costh[0]? = some c ∧ a.enu[0]? = some e ∧ (∀ nd ∈ a.nodes, nd.t - nd.tIni = nd.xend - nd.xini) ∧ nodeValue nd 0 0 0 e = 1 ∧
    evalFlavor a 0 0 c e 0 = .ok v ∧ v < 1 := by
  have hp := Real.pi_pos
  have hc : Inside [-1, 1] (-1 : ℝ) := by constructor <;> simp
  have he : Inside [1, 2] (1 : ℝ) := by constructor <;> simp
  refine ⟨demoSky 2 (3 * Real.pi) (demoNode (2 * Real.pi) (2 * Real.pi) true fun _ => flavour0)
    (demoNode (2 * Real.pi) (2 * Real.pi) true fun _ => flavour0), demoNode (2 * Real.pi) (2 * Real.pi) true fun _ => flavour0, -1, 1, _,
    demo_ready _ _ _ _ _ _ _ _ _ (by norm_num), demo_setup _ _ _ _ _ _ _ _, rfl, rfl, rfl, ?_, ?_,
    demo_value 2 (3 * Real.pi) (2 * Real.pi) (2 * Real.pi) (2 * Real.pi) (-1) 1 (by norm_num) hc he, ?_⟩
  · intro nd hnd
    simp only [demoSky, List.mem_cons, List.not_mem_nil, or_false, or_self] at hnd
    subst hnd
    rfl
  · rw [demo_nodeValue, div_one, Real.cos_two_pi]; ring
  · have e : 1 / 2 * (3 * Real.pi * (2 * Real.pi) / (2 * Real.pi) + 3 * Real.pi * (2 * Real.pi) / (2 * Real.pi)) / 1 =
        Real.pi + 2 * Real.pi := by field_simp; ring
    rw [e, Real.cos_add_two_pi, Real.cos_pi]
    nlinarith [half_facts]

/-- C59 fails at a node in the mass basis: a nuSQUIDS object in that basis does not evolve its projectors (src/nuSQuIDS.cpp 1514-1517,
1524-1525), the atmospheric object does. -/
theorem c59_mass_basis_violated : ∃ (a : Obj 3) (nd : Node 3) (c e v : ℝ), Ready a 1 ∧ SameSetup a ∧ Together a ∧ a.nodes[0]? = some nd ∧
    a.costh[0]? = some c ∧ a.enu[0]? = some e ∧ dot (nd.b1 0 0) (nd.state 0 0) = 1 ∧ evalFlavor a 0 0 c e 0 = .ok v ∧ v < 1 := by
  have hp := Real.pi_pos
  have hc : Inside [-1, 1] (-1 : ℝ) := by constructor <;> simp
  have he : Inside [1, 2] (1 : ℝ) := by constructor <;> simp
  refine ⟨demoSky 2 Real.pi (demoNode Real.pi Real.pi true fun _ => flavour0)
    (demoNode Real.pi Real.pi true fun _ => flavour0), demoNode Real.pi Real.pi true fun _ => flavour0, -1, 1, _,
    demo_ready _ _ _ _ _ _ _ _ _ (by norm_num), demo_setup _ _ _ _ _ _ _ _, demo_together _ _ _ _ _ _ (by positivity), rfl, rfl, rfl, ?_,
    demo_value 2 Real.pi Real.pi Real.pi Real.pi (-1) 1 (by norm_num) hc he, ?_⟩
  · have := rot_contents (1 / 2) 0 0
    rw [evolve_zero_time, sub_zero, Real.cos_zero, sub_self, mul_zero, sub_zero] at this
    exact this
  · have e : 1 / 2 * (Real.pi * Real.pi / Real.pi + Real.pi * Real.pi / Real.pi) / 1 = Real.pi := by
      field_simp; ring
    rw [e, Real.cos_pi]
    nlinarith [half_facts]

/-- C59 fails for one zenith: the value at the only node reads beyond the arrays. -/
theorem c59_single_node_violated : ∃ (a : Obj 3), a.iinistate = some true ∧ a.inusquidsatm = true ∧ a.nodes.length = a.costh.length ∧
    a.costh = [0] ∧ a.enu = [1, 2] ∧ evalFlavor a 0 0 0 1 0 = .ub := by
  refine ⟨⟨some true, true, [0], [1, 2], [demoNode 1 1 true fun _ => flavour0], fun _ => 1⟩, rfl, rfl, rfl, rfl, rfl, ?_⟩
  simp [evalFlavor, evalWith, bracket, lowerBound, interpolate]

/-- C59 fails for antineutrinos asked of an object that has neutrinos only: the projectors of a density matrix that is not there are
read. -/
theorem c59_missing_rho_violated : ∃ (a : Obj 3), Ready a 1 ∧ evalFlavor a 0 0 (-1) 1 1 = .ub := by
  refine ⟨demoSky 2 1 (demoNode 1 1 true fun _ => flavour0) (demoNode 1 1 true fun _ => flavour0),
    demo_ready _ _ _ _ _ _ _ _ _ (by norm_num), ?_⟩
  simp [evalFlavor, evalWith, bracket, lowerBound, interpolate, demoSky, demoNode, Node.getProj]

/-- The documentation of `EvalFlavor` (1331, 1424) has the interpolation linear in the logarithm of the energy. It is linear in the energy:
at the geometric mean of 1 and 100, between contents 0 and 1, the result is 1/11 and not 1/2. -/
theorem c59_log_energy_violated : ∃ (a : Obj 3), Ready a 1 ∧ a.enu = [1, 100] ∧
    (∀ nd ∈ a.nodes, nodeValue nd 0 0 0 1 = 0 ∧ nodeValue nd 0 1 0 100 = 1) ∧ evalFlavor a 0 0 (-1) 10 0 = .ok (1 / 11) := by
  have hA : dot (toB1 (rot (1 / 2)) (projector 0)) (toB1 (rot (1 / 2)) (projector 0)) = 1 := by
    have := rot_contents (1 / 2) 0 0
    rwa [evolve_zero_time, sub_zero, Real.cos_zero, sub_self, mul_zero, sub_zero] at this
  have z : ∀ (t : ℝ) (P : Mat 3), evolve 0 t P = P := by
    intro t P
    unfold evolve
    rw [phase_zero_matrix, phase_zero_matrix, Matrix.one_mul, Matrix.mul_one]
  have hd : ∀ P : Mat 3, dot 0 P = 0 := fun P => by rw [dot_comm, dot_zero]
  have hr := demo_ready 100 1 1 1 1 false false (fun k => if k = 0 then 0 else flavour0) (fun k => if k = 0 then 0 else flavour0)
    (by norm_num)
  refine ⟨_, hr, rfl, ?_, ?_⟩
  · intro nd hnd
    simp only [demoSky, List.mem_cons, List.not_mem_nil, or_false, or_self] at hnd
    subst hnd
    constructor
    · simp [nodeValue, demoNode, hd]
    · simpa [nodeValue, demoNode, Node.h0, z, flavour0] using hA
  · obtain ⟨M, L, nM, nP, n0, cM, cP, eM, eP, hM, hL, hnM, hnP, hn0, hcM, hcP, heM, heP, hc1, hc2, hcc, he1, he2, hee, hv⟩ :=
      eval_inside _ 1 hr evolve 0 0 (-1) 10 0 Nat.zero_lt_one Nat.zero_lt_two (by constructor <;> simp [demoSky])
        (by constructor <;> simp [demoSky]; norm_num)
    have hM0 : M = 0 := by
      have := (List.getElem?_eq_some_iff.1 hnP).1
      simp only [demoSky, List.length_cons, List.length_nil] at this
      omega
    have hL0 : L = 0 := by
      have := (List.getElem?_eq_some_iff.1 heP).1
      simp only [demoSky, List.length_cons, List.length_nil] at this
      omega
    subst hM0 hL0
    have a1 : nM = n0 := by rw [hn0] at hnM; exact (Option.some.inj hnM).symm
    have a2 : n0 = demoNode 1 1 false fun k => if k = 0 then 0 else flavour0 := by simpa [demoSky, eq_comm] using hn0
    have a3 : cM = -1 := by simpa [demoSky, eq_comm] using hcM
    have a5 : eM = 1 := by simpa [demoSky, eq_comm] using heM
    have a6 : eP = 100 := by simpa [demoSky, eq_comm] using heP
    subst a1 a3 a5 a6
    subst a2
    dsimp only at hv
    refine hv.trans ?_
    congr 1
    have h1 : ∀ E, (demoNode 1 1 false fun k => if k = 0 then 0 else flavour0).h0 E = 0 := fun _ => rfl
    rw [h1, z, sub_self, zero_div]
    simp only [demoNode, if_true, hd]
    norm_num [flavour0, hA]

end Verif.Atm
