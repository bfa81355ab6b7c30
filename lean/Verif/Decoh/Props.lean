import Verif.Decoh.Lemmas
import Mathlib.LinearAlgebra.Matrix.ConjTranspose
import Mathlib.LinearAlgebra.Matrix.NonsingularInverse

/-!
# C87: decoherence does what its matrix and its models say
-/

namespace Verif.Decoh

open Complex Matrix

/-! ## Numbering of the basis -/

/-- C87: with three flavours every Gell-Mann matrix is sent to the place where SQuIDS has it, up to the sign, and different ones to different places. -/
theorem c87_numbering_three : (∀ i < 9, ∃ k < 9, mapBasis 3 i = .ok k ∧ (gen 3 k = gellMann i ∨ gen 3 k = -gellMann i)) ∧
    ∀ i < 9, ∀ j < 9, mapBasis 3 i = mapBasis 3 j → i = j := by
  constructor
  · intro i hi
    refine ⟨perm3 i, perm3_lt i hi, mapBasis_three hi, ?_⟩
    rw [gen_gellMann i hi]
    unfold sgn
    split
    all_goals simp
  · intro i hi j hj h
    rw [mapBasis_three hi, mapBasis_three hj] at h
    exact perm3_inj i hi j hj (by injection h)

example : mapBasis 3 4 = .ok 2 := rfl

/-- C87: with two flavours the same for the Pauli matrices. -/
theorem c87_numbering_two : ∀ i < 4, mapBasis 2 i = .ok i ∧ (gen 2 i = pauli i ∨ gen 2 i = -pauli i) := by
  intro i hi
  refine ⟨mapBasis_two hi, ?_⟩
  match i, hi with
  | 0, _ => left; ext a b; fin_cases a <;> fin_cases b <;> simp [gen, pauli]
  | 1, _ => left; ext a b; fin_cases a <;> fin_cases b <;> simp [gen, pauli]
  | 2, _ => right; ext a b; fin_cases a <;> fin_cases b <;> simp [gen, pauli]
  | 3, _ => left; ext a b; fin_cases a <;> fin_cases b <;> simp [gen, pauli, -Nat.cast_ofNat] <;> norm_num

example : mapBasis 2 2 = .ok 2 := rfl

/-! ## Setting and getting -/

/-- C87: a matrix in the numbering of SQuIDS is given back as it was set, for every number of flavours. -/
theorem c87_set_get (s : Nsq) (dmat : Nat → Nat → ℝ) : ∃ s', setMatrix s s.nb s.nb dmat false = (s', .ok ()) ∧
    (∀ i < s.nb, ∀ j < s.nb, getMatrix s' i j = dmat i j) ∧
    s'.numneu = s.numneu ∧ s'.index = s.index ∧ s'.scale = s.scale ∧ s'.enabled = s.enabled := by
  obtain ⟨G, h1, h2⟩ := setLoop_spec dmat false id s.numneu (fun i h => h) (fun i _ j _ h => h) (fun t _ i _ j _ => by simp [setOne])
    (pairs s.nb) s rfl (fun p hp => mem_pairs.1 hp)
  refine ⟨{ s with gamma := G }, ?_, ?_, rfl, rfl, rfl, rfl⟩
  · unfold setMatrix
    rw [if_neg (by simp), if_neg (by simp)]
    exact h1
  · intro i hi j hj
    have := h2 i hi j hj
    rw [if_pos (mem_pairs.2 ⟨hi, hj⟩)] at this
    exact this

example : ∃ s', setMatrix (init 4 1) 16 16 (fun i j => i + 2 * j) false = (s', .ok ()) ∧ getMatrix s' 3 5 = 13 := by
  obtain ⟨s', h1, h2, -⟩ := c87_set_get (init 4 1) (fun i j => i + 2 * j)
  refine ⟨s', h1, ?_⟩
  rw [h2 3 (by decide) 5 (by decide)]
  norm_num

/-- C87: a matrix in the numbering of Gell-Mann or Pauli is stored with its entries at the places of the numbering. -/
theorem c87_set_get_gellMann (s : Nsq) (hs : s.numneu = 2 ∨ s.numneu = 3) (dmat : Nat → Nat → ℝ) :
    ∃ s', setMatrix s s.nb s.nb dmat true = (s', .ok ()) ∧
      (∀ i < s.nb, ∀ j < s.nb, ∃ m n, mapBasis s.numneu i = .ok m ∧ mapBasis s.numneu j = .ok n ∧ getMatrix s' m n = dmat i j) ∧
      s'.numneu = s.numneu ∧ s'.index = s.index ∧ s'.scale = s.scale ∧ s'.enabled = s.enabled := by
  have key : ∃ f : Nat → Nat, (∀ i < s.numneu ^ 2, mapBasis s.numneu i = .ok (f i)) ∧ (∀ i < s.numneu ^ 2, f i < s.numneu ^ 2) ∧
      ∀ i < s.numneu ^ 2, ∀ j < s.numneu ^ 2, f i = f j → i = j := by
    rcases hs with h | h
    · rw [h]
      exact ⟨id, fun i hi => mapBasis_two hi, fun i hi => hi, fun i _ j _ e => e⟩
    · rw [h]
      exact ⟨perm3, fun i hi => mapBasis_three hi, perm3_lt, perm3_inj⟩
  obtain ⟨f, k1, k2, k3⟩ := key
  obtain ⟨G, h1, h2⟩ := setLoop_spec dmat true f s.numneu k2 k3 (by
      intro t ht i hi j hj
      unfold setOne
      rw [ht, k1 i hi, k1 j hj]
      rfl) (pairs s.nb) s rfl (fun p hp => mem_pairs.1 hp)
  refine ⟨{ s with gamma := G }, ?_, ?_, rfl, rfl, rfl, rfl⟩
  · unfold setMatrix
    rw [if_neg (by simp), if_neg (by simp)]
    exact h1
  · intro i hi j hj
    refine ⟨f i, f j, k1 i hi, k1 j hj, ?_⟩
    have := h2 i hi j hj
    rw [if_pos (mem_pairs.2 ⟨hi, hj⟩)] at this
    exact this

example : ∃ s', setMatrix (init 3 1) 9 9 (fun i j => i + 2 * j) true = (s', .ok ()) ∧ getMatrix s' 3 4 = 8 := by
  obtain ⟨s', h1, h2, -⟩ := c87_set_get_gellMann (init 3 1) (Or.inr rfl) (fun i j => i + 2 * j)
  refine ⟨s', h1, ?_⟩
  obtain ⟨m, n, e1, e2, e3⟩ := h2 2 (by decide) 3 (by decide)
  cases e1
  cases e2
  rw [e3]
  norm_num

/-- C87: a matrix of the wrong shape is refused, and one in the numbering of Gell-Mann if there is none for the number of flavours; nothing changes. -/
theorem c87_refused (s : Nsq) (rows cols : Nat) (dmat : Nat → Nat → ℝ) (gm : Bool)
    (h : rows ≠ s.nb ∨ cols ≠ s.nb ∨ (gm = true ∧ s.numneu ≠ 0 ∧ s.numneu ≠ 2 ∧ s.numneu ≠ 3)) :
    setMatrix s rows cols dmat gm = (s, .throws) := by
  unfold setMatrix
  by_cases h1 : rows ≠ s.nb
  · rw [if_pos h1]
  · by_cases h2 : cols ≠ s.nb
    · rw [if_neg h1, if_pos h2]
    · rw [if_neg h1, if_neg h2]
      obtain ⟨hg, h0, h3, h4⟩ : gm = true ∧ s.numneu ≠ 0 ∧ s.numneu ≠ 2 ∧ s.numneu ≠ 3 := by tauto
      have hpos : 0 < s.nb := Nat.pow_pos (Nat.pos_of_ne_zero h0)
      have hm : mapBasis s.numneu 0 = .throws := by
        unfold mapBasis
        rw [if_neg (by omega), if_neg h3, if_neg h4]
      have hp : ∃ ps, pairs s.nb = (0, 0) :: ps := by
        unfold pairs
        obtain ⟨k, hk⟩ : ∃ k, s.nb = k + 1 := ⟨s.nb - 1, by omega⟩
        rw [hk, List.range_succ_eq_map, List.flatMap_cons, List.map_cons, List.cons_append]
        exact ⟨_, rfl⟩
      obtain ⟨ps, hp⟩ := hp
      rw [hp]
      unfold setLoop setOne
      rw [hg, hm]
      rfl

example : setMatrix (init 4 1) 16 16 (fun _ _ => 0) true = (init 4 1, .throws) :=
  c87_refused _ _ _ _ _ (Or.inr (Or.inr ⟨rfl, by decide, by decide, by decide⟩))

/-- C87: a diagonal is the matrix with zeros elsewhere, and refused if it has the wrong length. -/
theorem c87_diagonal (s : Nsq) (len : Nat) (d : Nat → ℝ) (gm : Bool) :
    (len ≠ s.nb → setDiagonal s len d gm = (s, .throws)) ∧
    (len = s.nb → setDiagonal s len d gm = setMatrix s s.nb s.nb (fun i j => if i = j then d i else 0) gm) := by
  unfold setDiagonal
  exact ⟨fun h => if_pos h, fun h => if_neg (by simp [h])⟩

example : setDiagonal (init 3 1) 8 (fun _ => 1) true = (init 3 1, .throws) := (c87_diagonal _ _ _ _).1 (by decide)

/-! ## The operator -/

/-- C87: what is taken away from the right-hand side is the operator of the matrix in the basis of SQuIDS, scaled with the power of the energy; with
decoherence switched off nothing is. -/
theorem c87_operator (s : Nsq) (E : ℝ) (base rho : Nat → ℝ) : mat s.numneu (interactionsRho s E base rho) = mat s.numneu base -
    if s.enabled then (((E / s.scale) ^ s.index : ℝ) : ℂ) • apply (gen s.numneu) (s.numneu ^ 2) s.gamma rho else 0 := by
  unfold interactionsRho
  cases s.enabled with
  | false => simp
  | true =>
    simp only [if_true, mat, apply]
    rw [Finset.smul_sum, ← Finset.sum_sub_distrib]
    refine Finset.sum_congr rfl fun i _ => ?_
    rw [drho_eq, smul_smul, ← sub_smul]
    push_cast
    rfl

example : interactionsRho (enable (init 3 1) false) 7 (fun _ => 5) (fun _ => 2) 4 = 5 := rfl

/-- C87: at the energy scale the matrix acts as it was given, whatever the power. -/
theorem c87_scale (s : Nsq) (hs : s.scale ≠ 0) (rho : Nat → ℝ) (i : Nat) :
    drho s s.scale rho i = ∑ j ∈ Finset.range s.nb, s.gamma i j * rho j := by
  rw [drho_eq, div_self hs, Real.one_rpow, one_mul]

example : (init 3 10).scale ≠ 0 := by norm_num [init]

/-- C87: the number of neutrinos is conserved, whatever the state, exactly if the first row of the matrix is zero. -/
theorem c87_trace (s : Nsq) (h0 : 0 < s.numneu) (E : ℝ) (hE : 0 < E) (hs : 0 < s.scale) :
    (∀ rho, (mat s.numneu (drho s E rho)).trace = 0) ↔ ∀ j < s.nb, s.gamma 0 j = 0 := by
  have hp : (E / s.scale) ^ s.index ≠ 0 := (Real.rpow_pos_of_pos (div_pos hE hs) _).ne'
  have hn : (s.numneu : ℂ) ≠ 0 := by exact_mod_cast h0.ne'
  constructor
  · intro h j hj
    have := h fun k => if k = j then 1 else 0
    rw [mat_trace h0, mul_eq_zero, Complex.ofReal_eq_zero, drho_eq, mul_eq_zero] at this
    rcases this with h | h | h
    · exact absurd h hn
    · exact absurd h hp
    · rw [Finset.sum_eq_single_of_mem j (Finset.mem_range.2 hj) (by intro k _ hk; rw [if_neg hk, mul_zero]), if_pos rfl, mul_one] at h
      exact h
  · intro h rho
    rw [mat_trace h0, drho_eq, Finset.sum_eq_zero]
    · simp
    · intro j hj
      rw [h j (Finset.mem_range.1 hj), zero_mul]

example : ∀ j < (init 3 1).nb, (init 3 1).gamma 0 j = 0 := fun _ _ => rfl

/-- C87, partial: a matrix in the numbering of Gell-Mann acts as the operator with that matrix in the Gell-Mann basis, in particular every diagonal
one. Missing: entries that connect one of the matrices 2, 5, 7 with one of the others act with the opposite sign (`c87_gellMann_violated`). -/
theorem c87_gellMann_partial (s s' : Nsq) (h3 : s.numneu = 3) (dmat : Nat → Nat → ℝ)
    (hd : ∀ i < 9, ∀ j < 9, (i ∈ [2, 5, 7]) ≠ (j ∈ [2, 5, 7]) → dmat i j = 0) (h : setMatrix s 9 9 dmat true = (s', .ok ()))
    (E : ℝ) (rho a : Nat → ℝ) (ha : Components gellMann 9 a (mat 3 rho)) :
    mat 3 (drho s' E rho) = (((E / s.scale) ^ s.index : ℝ) : ℂ) • apply gellMann 9 dmat a := by
  have hnb : s.nb = 9 := by unfold Nsq.nb; rw [h3]; rfl
  obtain ⟨t, e1, e2, e3, e4, e5, -⟩ := c87_set_get_gellMann s (Or.inr h3) dmat
  rw [hnb, h] at e1
  cases e1
  have hnb' : s'.nb = 9 := by unfold Nsq.nb; rw [e3, h3]; rfl
  have hr : ∀ i < 9, sgn i * rho (perm3 i) = a i := gellMann_indep _ _ (by rw [← mat3]; exact ha)
  have hg : ∀ i < 9, ∀ j < 9, s'.gamma (perm3 i) (perm3 j) = dmat i j := by
    intro i hi j hj
    obtain ⟨m, n, k1, k2, k3⟩ := e2 i (by rw [hnb]; exact hi) j (by rw [hnb]; exact hj)
    rw [h3, mapBasis_three hi] at k1
    rw [h3, mapBasis_three hj] at k2
    cases k1
    cases k2
    exact k3
  rw [mat3]
  unfold apply
  rw [Finset.smul_sum]
  refine Finset.sum_congr rfl fun i hi => ?_
  have hi := Finset.mem_range.1 hi
  rw [smul_smul]
  congr 1
  rw [drho_eq, hnb', sum_perm3, e4, e5, ← Complex.ofReal_mul]
  congr 1
  rw [mul_left_comm, Finset.mul_sum]
  congr 1
  refine Finset.sum_congr rfl fun j hj => ?_
  have hj := Finset.mem_range.1 hj
  rw [hg i hi j hj, ← hr j hj]
  by_cases hc : (i ∈ [2, 5, 7]) ≠ (j ∈ [2, 5, 7])
  · rw [hd i hi j hj hc]
    ring
  · have : sgn i = sgn j := by
      have h1 : ∀ k, sgn k = if k ∈ [2, 5, 7] then -1 else 1 := by
        intro k
        unfold sgn
        split <;> simp_all
      rw [h1, h1]
      have := not_not.1 hc
      simp only [this]
    rw [this]
    ring

example : ∃ s', setMatrix (init 3 1) 9 9 (fun i j => if i = j then (i : ℝ) else 0) true = (s', .ok ()) ∧
    ∀ i < 9, ∀ j < 9, (i ∈ [2, 5, 7]) ≠ (j ∈ [2, 5, 7]) → (if i = j then (i : ℝ) else 0) = 0 := by
  obtain ⟨s', h, -⟩ := c87_set_get_gellMann (init 3 1) (Or.inr rfl) (fun i j => if i = j then (i : ℝ) else 0)
  refine ⟨s', h, ?_⟩
  intro i _ j _ hc
  rw [if_neg]
  rintro rfl
  exact hc rfl

/-- C87 fails for other matrices: the signs noted in the code are not applied. With the entry between the matrices 1 and 2 set, the state of the second
gives the first one with the wrong sign. -/
theorem c87_gellMann_violated : ∃ (dmat : Nat → Nat → ℝ) (s' : Nsq) (rho a : Nat → ℝ), setMatrix (init 3 1) 9 9 dmat true = (s', .ok ()) ∧
    Components gellMann 9 a (mat 3 rho) ∧ mat 3 (drho s' 1 rho) = -apply gellMann 9 dmat a ∧ apply gellMann 9 dmat a ≠ 0 := by
  obtain ⟨s', h1, h2, h3, h4, h5, -⟩ := c87_set_get_gellMann (init 3 1) (Or.inr rfl) (fun i j => if i = 1 ∧ j = 2 then 1 else 0)
  have hg : ∀ i < 9, ∀ j < 9, s'.gamma (perm3 i) (perm3 j) = if i = 1 ∧ j = 2 then 1 else 0 := by
    intro i hi j hj
    obtain ⟨m, n, k1, k2, k3⟩ := h2 i hi j hj
    rw [show (init 3 1).numneu = 3 from rfl, mapBasis_three hi] at k1
    rw [show (init 3 1).numneu = 3 from rfl, mapBasis_three hj] at k2
    cases k1
    cases k2
    exact k3
  have happ : apply gellMann 9 (fun i j => if i = 1 ∧ j = 2 then 1 else 0) (fun i => if i = 2 then 1 else 0) = gellMann 1 := by
    unfold apply
    rw [Finset.sum_eq_single_of_mem 1 (by decide)]
    · simp
    · intro i _ hi
      simp [hi]
  refine ⟨fun i j => if i = 1 ∧ j = 2 then 1 else 0, s', fun k => if k = 3 then -1 else 0, fun i => if i = 2 then 1 else 0, h1, ?_, ?_, ?_⟩
  · unfold Components
    rw [mat3]
    refine Finset.sum_congr rfl fun i hi => ?_
    match i, Finset.mem_range.1 hi with
    | 0, _ => simp [perm3]
    | 1, _ => simp [perm3]
    | 2, _ => simp [perm3, sgn]
    | 3, _ => simp [perm3]
    | 4, _ => simp [perm3]
    | 5, _ => simp [perm3]
    | 6, _ => simp [perm3]
    | 7, _ => simp [perm3]
    | 8, _ => simp [perm3]
  · have hnb : s'.nb = 9 := by unfold Nsq.nb; rw [h3]; rfl
    have hd : ∀ i < 9, drho s' 1 (fun k => if k = 3 then -1 else 0) (perm3 i) = if i = 1 then -1 else 0 := by
      intro i hi
      rw [drho_eq, hnb, h4, h5, show (init 3 1).index = 0 from rfl, Real.rpow_zero, one_mul,
        Finset.sum_eq_single_of_mem 3 (by decide) (by intro b _ hb; rw [if_neg hb, mul_zero])]
      have := hg i hi 2 (by decide)
      rw [show perm3 2 = 3 from rfl] at this
      rw [this]
      by_cases h : i = 1 <;> simp [h]
    rw [happ, mat3, Finset.sum_eq_single_of_mem 1 (by decide)]
    · rw [hd 1 (by decide)]
      simp [sgn]
    · intro i hi hne
      rw [hd i (Finset.mem_range.1 hi), if_neg hne]
      simp
  · rw [happ]
    intro h
    have := congrFun (congrFun h 0) 1
    simp [gellMann] at this

/-! ## Pre-built models -/

/-- A diagonal in the numbering of SQuIDS damps every component by itself. -/
theorem set_diag (s : Nsq) (d : Nat → ℝ) : ∃ s', setDiagonal s s.nb d false = (s', .ok ()) ∧
    ∀ E rho, ∀ i < s.nb, drho s' E rho i = (E / s.scale) ^ s.index * (d i * rho i) := by
  obtain ⟨s', h1, h2, h3, h4, h5, -⟩ := c87_set_get s fun i j => if i = j then d i else 0
  refine ⟨s', by rw [(c87_diagonal s s.nb d false).2 rfl]; exact h1, ?_⟩
  intro E rho i hi
  have hnb : s'.nb = s.nb := by unfold Nsq.nb; rw [h3]
  rw [drho_eq, hnb, h4, h5, Finset.sum_eq_single_of_mem i (Finset.mem_range.2 hi)]
  · have := h2 i hi i hi
    rw [if_pos rfl] at this
    rw [show s'.gamma i i = getMatrix s' i i from rfl, this]
  · intro j hj hne
    have := h2 i hi j (Finset.mem_range.1 hj)
    rw [if_neg (Ne.symm hne)] at this
    rw [show s'.gamma i j = getMatrix s' i j from rfl, this, zero_mul]

/-- C87: neutrino loss damps the whole state. -/
theorem c87_loss (s : Nsq) (g : ℝ) : ∃ s', setModel s .neutrinoLoss g = (s', .ok ()) ∧
    ∀ E rho, mat s.numneu (drho s' E rho) = (((E / s.scale) ^ s.index * g : ℝ) : ℂ) • mat s.numneu rho := by
  obtain ⟨s', h1, h2⟩ := set_diag s fun _ => g
  refine ⟨s', h1, ?_⟩
  intro E rho
  unfold mat
  rw [Finset.smul_sum]
  refine Finset.sum_congr rfl fun i hi => ?_
  rw [h2 E rho i (Finset.mem_range.1 hi), smul_smul]
  push_cast
  rw [mul_assoc]

example : ∃ s', setModel (init 2 1) .neutrinoLoss 5 = (s', .ok ()) := (c87_loss (init 2 1) 5).imp fun _ h => h.1

/-- C87: randomised states damp everything but the number of neutrinos: the state approaches equal populations without coherence. -/
theorem c87_state (s : Nsq) (h0 : 0 < s.numneu) (g : ℝ) : ∃ s', setModel s .randomizeState g = (s', .ok ()) ∧
    ∀ E rho, mat s.numneu (drho s' E rho) = (((E / s.scale) ^ s.index * g : ℝ) : ℂ) • (mat s.numneu rho -
      ((mat s.numneu rho).trace / s.numneu) • (1 : Matrix (Fin s.numneu) (Fin s.numneu) ℂ)) := by
  have hpos : 0 < s.nb := Nat.pow_pos h0
  obtain ⟨s', h1, h2⟩ := set_diag s fun a => if a = 0 then 0 else g
  refine ⟨s', ?_, ?_⟩
  · unfold setModel prebuilt put
    dsimp only
    rw [if_pos hpos]
    exact h1
  intro E rho
  have hn : (s.numneu : ℂ) ≠ 0 := by exact_mod_cast h0.ne'
  rw [mat_trace h0, mul_div_cancel_left₀ _ hn, ← gen_zero]
  have e : ∀ f : Nat → Matrix (Fin s.numneu) (Fin s.numneu) ℂ, ∑ k ∈ Finset.range (s.numneu ^ 2), f k =
      f 0 + ∑ k ∈ (Finset.range (s.numneu ^ 2)).erase 0, f k :=
    fun f => (Finset.add_sum_erase _ f (Finset.mem_range.2 hpos)).symm
  unfold mat
  rw [e, e, add_sub_cancel_left, h2 E rho 0 hpos, if_pos rfl, Finset.smul_sum]
  simp only [zero_mul, mul_zero, Complex.ofReal_zero, zero_smul, zero_add]
  refine Finset.sum_congr rfl fun i hi => ?_
  have hi := Finset.mem_erase.1 hi
  rw [h2 E rho i (Finset.mem_range.1 hi.2), if_neg hi.1, smul_smul]
  push_cast
  rw [mul_assoc]

example : 0 < (init 3 1).numneu := by decide

/-- C87: neither of these models depends on the basis the state is written in, nor on the phases of the interaction picture. -/
theorem c87_any_basis (s : Nsq) (h0 : 0 < s.numneu) (g : ℝ) (model : Prebuilt) (hm : model ≠ .randomizePhase) :
    ∃ s', setModel s model g = (s', .ok ()) ∧ ∀ (U : Matrix (Fin s.numneu) (Fin s.numneu) ℂ), U * Uᴴ = 1 → ∀ E rho rho',
      mat s.numneu rho' = U * mat s.numneu rho * Uᴴ → mat s.numneu (drho s' E rho') = U * mat s.numneu (drho s' E rho) * Uᴴ := by
  cases model with
  | randomizePhase => exact absurd rfl hm
  | neutrinoLoss =>
    obtain ⟨s', h1, h2⟩ := c87_loss s g
    refine ⟨s', h1, ?_⟩
    intro U _ E rho rho' h
    rw [h2, h2, h, Matrix.mul_smul, Matrix.smul_mul]
  | randomizeState =>
    obtain ⟨s', h1, h2⟩ := c87_state s h0 g
    refine ⟨s', h1, ?_⟩
    intro U hU E rho rho' h
    have ht : (mat s.numneu rho').trace = (mat s.numneu rho).trace := by
      rw [h, Matrix.trace_mul_comm, ← Matrix.mul_assoc, mul_eq_one_comm.1 hU, Matrix.one_mul]
    rw [h2, h2, ht, h, Matrix.mul_smul, Matrix.smul_mul, Matrix.mul_sub, Matrix.sub_mul, Matrix.mul_smul, Matrix.smul_mul, Matrix.mul_one, hU]

example : (1 : Matrix (Fin 3) (Fin 3) ℂ) * (1 : Matrix (Fin 3) (Fin 3) ℂ)ᴴ = 1 := by simp

/-- C87, partial: with three flavours randomised phases conserve the number of neutrinos and damp five of the six parts of the coherences, and leave the
population of the third state alone. Missing: the imaginary part of the coherence between the first two states is left alone and the difference of their
populations is damped instead (`c87_phase_violated`). -/
theorem c87_phase_partial (s : Nsq) (h3 : s.numneu = 3) (g : ℝ) : ∃ s', setModel s .randomizePhase g = (s', .ok ()) ∧
    ∀ E rho, drho s' E rho 0 = 0 ∧ drho s' E rho 8 = 0 ∧ ∀ k ∈ [1, 2, 5, 6, 7], drho s' E rho k = (E / s.scale) ^ s.index * (g * rho k) := by
  have hnb : s.nb = 9 := by unfold Nsq.nb; rw [h3]; rfl
  obtain ⟨s', h1, h2⟩ := set_diag s fun a => if a = 0 then 0 else if a = 8 then 0 else if a = 3 then 0 else if a = 0 then 0 else g
  refine ⟨s', ?_, ?_⟩
  · unfold setModel prebuilt put
    rw [hnb] at h1 ⊢
    exact h1
  · intro E rho
    refine ⟨?_, ?_, ?_⟩
    · rw [h2 E rho 0 (by rw [hnb]; decide)]
      simp
    · rw [h2 E rho 8 (by rw [hnb]; decide)]
      simp
    · intro k hk
      simp only [List.mem_cons, List.not_mem_nil, or_false] at hk
      rw [h2 E rho k (by rw [hnb]; omega), if_neg (by omega), if_neg (by omega), if_neg (by omega), if_neg (by omega)]

example : (init 3 1).numneu = 3 := rfl

/-- C87 fails for randomised phases: there is a state with a coherence only that is not damped, and one with populations only that is. -/
theorem c87_phase_violated (g : ℝ) : ∃ s', setModel (init 3 1) .randomizePhase g = (s', .ok ()) ∧
    (∃ rho, mat 3 rho = !![0, I, 0; -I, 0, 0; 0, 0, 0] ∧ ∀ E, mat 3 (drho s' E rho) = 0) ∧
    ∃ rho, mat 3 rho = !![1, 0, 0; 0, -1, 0; 0, 0, 0] ∧ ∀ E, mat 3 (drho s' E rho) = (g : ℂ) • mat 3 rho := by
  obtain ⟨s', h1, h2⟩ := set_diag (init 3 1) fun a => if a = 0 then 0 else if a = 8 then 0 else if a = 3 then 0 else if a = 0 then 0 else g
  have hu : ∀ i < 9, ∀ f : Nat → ℝ, (∀ k < 9, f k = if k = perm3 i then sgn i else 0) → mat 3 f = gellMann i := by
    intro i hi f hf
    rw [mat3, Finset.sum_eq_single_of_mem i (Finset.mem_range.2 hi)]
    · rw [hf _ (perm3_lt i hi), if_pos rfl, sgn_mul]
      simp
    · intro j hj hne
      have hj := Finset.mem_range.1 hj
      rw [hf _ (perm3_lt j hj), if_neg fun h => hne (perm3_inj j hj i hi h)]
      simp
  have hz : ∀ f : Nat → ℝ, (∀ k < 9, f k = 0) → mat 3 f = 0 := by
    intro f hf
    unfold mat
    refine Finset.sum_eq_zero fun k hk => ?_
    rw [hf k (Finset.mem_range.1 hk)]
    simp
  refine ⟨s', h1, ⟨fun k => if k = 3 then 1 else 0, ?_, ?_⟩, fun k => if k = 4 then 1 else 0, ?_, ?_⟩
  · have := hu 2 (by decide) (fun k => -(if k = 3 then 1 else 0)) (by
      intro k _
      by_cases h : k = 3 <;> simp [h, perm3, sgn])
    have e : mat 3 (fun k => if k = 3 then (1 : ℝ) else 0) = -mat 3 (fun k => -(if k = 3 then (1 : ℝ) else 0)) := by
      unfold mat
      rw [← Finset.sum_neg_distrib]
      refine Finset.sum_congr rfl fun k _ => ?_
      rw [Complex.ofReal_neg, neg_smul, neg_neg]
    rw [e, this]
    ext a b
    fin_cases a <;> fin_cases b <;> simp [gellMann]
  · intro E
    refine hz _ fun k hk => ?_
    rw [h2 E _ k hk]
    by_cases h : k = 3 <;> simp [h]
  · exact hu 3 (by decide) _ (by
      intro k _
      by_cases h : k = 4 <;> simp [h, perm3, sgn])
  · intro E
    unfold mat
    rw [Finset.smul_sum]
    refine Finset.sum_congr rfl fun k hk => ?_
    rw [h2 E _ k (Finset.mem_range.1 hk), smul_smul, show (init 3 1).index = 0 from rfl, Real.rpow_zero, one_mul]
    by_cases h : k = 4 <;> simp [h]

/-- C87 fails for randomised phases also because the term is computed from the state in the interaction picture: a phase of the first state, as the
free evolution gives it, changes a coherence that is damped into one that is not. -/
theorem c87_any_basis_violated (g : ℝ) : ∃ s', setModel (init 3 1) .randomizePhase g = (s', .ok ()) ∧
    ∃ (U : Matrix (Fin 3) (Fin 3) ℂ) (rho rho' : Nat → ℝ), U = Matrix.diagonal ![I, 1, 1] ∧ U * Uᴴ = 1 ∧ mat 3 rho' = U * mat 3 rho * Uᴴ ∧
      ∀ E, mat 3 (drho s' E rho') = 0 ∧ mat 3 (drho s' E rho) = (g : ℂ) • gellMann 1 := by
  obtain ⟨s', h1, h2⟩ := set_diag (init 3 1) fun a => if a = 0 then 0 else if a = 8 then 0 else if a = 3 then 0 else if a = 0 then 0 else g
  have e1 : ∀ c : ℝ, mat 3 (fun k => if k = 1 then c else 0) = (c : ℂ) • gellMann 1 := by
    intro c
    rw [mat3, Finset.sum_eq_single_of_mem 1 (by decide)]
    · simp [perm3, sgn]
    · intro j hj hne
      have hj := Finset.mem_range.1 hj
      rw [if_neg fun h : perm3 j = 1 => hne (perm3_inj j hj 1 (by decide) h)]
      simp
  have e3 : mat 3 (fun k => if k = 3 then 1 else 0) = -gellMann 2 := by
    rw [mat3, Finset.sum_eq_single_of_mem 2 (by decide)]
    · simp [perm3, sgn]
    · intro j hj hne
      have hj := Finset.mem_range.1 hj
      rw [if_neg fun h : perm3 j = 3 => hne (perm3_inj j hj 2 (by decide) h)]
      simp
  refine ⟨s', h1, _, fun k => if k = 1 then 1 else 0, fun k => if k = 3 then 1 else 0, rfl, ?_, ?_, ?_⟩
  · ext a b
    fin_cases a <;> fin_cases b <;> simp [Matrix.mul_apply, Matrix.diagonal]
  · rw [e1, e3]
    ext a b
    fin_cases a <;> fin_cases b <;> simp [Matrix.mul_apply, Fin.sum_univ_three, Matrix.diagonal, gellMann]
  · intro E
    constructor
    · unfold mat
      refine Finset.sum_eq_zero fun k hk => ?_
      rw [h2 E _ k (Finset.mem_range.1 hk)]
      by_cases h : k = 3 <;> simp [h]
    · rw [← e1]
      unfold mat
      refine Finset.sum_congr rfl fun k hk => ?_
      rw [h2 E _ k (Finset.mem_range.1 hk), show (init 3 1).index = 0 from rfl, Real.rpow_zero, one_mul]
      by_cases h : k = 1 <;> simp [h]

/-- C87 fails for randomised phases with two flavours: the ninth of four entries is written. -/
theorem c87_phase_two_violated (s : Nsq) (h2 : s.numneu = 2) (g : ℝ) : setModel s .randomizePhase g = (s, .ub) := by
  have hnb : s.nb = 4 := by unfold Nsq.nb; rw [h2]; rfl
  unfold setModel prebuilt put
  rw [hnb]
  rfl

example : (init 2 1).numneu = 2 := rfl

end Verif.Decoh
