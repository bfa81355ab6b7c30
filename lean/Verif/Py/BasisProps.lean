import Verif.Py.BasisLemmas
import Mathlib.LinearAlgebra.Matrix.FiniteDimensional
import Mathlib.LinearAlgebra.Matrix.Hermitian
import Mathlib.LinearAlgebra.FiniteDimensional.Lemmas

/-! # C108: the basis of SU(N) in Python -/

namespace Verif.Py.Su

open Complex Decoh

/-- `SUBasis` gives one matrix for each component, and each is the complex conjugate of the matrix that SQuIDS has this component of. -/
theorem c108_basis_partial (n : Nat) : ∃ l, suBasis n = .ok l ∧ l.length = n ^ 2 ∧
    ∀ k < n ^ 2, ∃ A, l[k]? = some A ∧ A.matrix n = (gen n k).map (starRingEnd ℂ) := by
  have hall : ∀ x ∈ (List.range n).flatMap (fun i => (List.range n).map fun j => fArray j i n), ∃ A, x = .ok A := by
    intro x hx
    obtain ⟨i, hi, hx⟩ := List.mem_flatMap.1 hx
    obtain ⟨j, hj, rfl⟩ := List.mem_map.1 hx
    obtain ⟨A, hA, _⟩ := fArray_gen (List.mem_range.1 hi) (List.mem_range.1 hj)
    exact ⟨A, hA⟩
  obtain ⟨r, hr, hl, he⟩ := collect_ok hall
  refine ⟨stack r, by unfold suBasis; rw [hr]; rfl, ?_, ?_⟩
  · unfold stack
    rw [List.length_map, hl]
    simp [List.length_flatMap, sq]
  · intro k hk
    have hn : 0 < n := by
      rcases Nat.eq_zero_or_pos n with h | h
      · subst h; simp at hk
      · exact h
    have hi : k / n < n := Nat.div_lt_of_lt_mul (by rw [← sq]; exact hk)
    have hj : k % n < n := Nat.mod_lt _ hn
    obtain ⟨A, hA, _, hm⟩ := fArray_gen hi hj
    have hki : k / n * n + k % n = k := Nat.div_add_mod' k n
    have hg := grid_get (fun i j => fArray j i n) n n (k / n) (k % n) hi hj
    rw [hki, hA] at hg
    rw [hki] at hm
    refine ⟨_, by unfold stack; rw [List.getElem?_map, he k A hg]; rfl, ?_⟩
    rw [← hm]
    rfl

/-- Full statement: the matrices of `SUBasis` are those of SQuIDS. The ones below the diagonal have the other sign. -/
theorem c108_sign_violated (n : Nat) (hn : 2 ≤ n) : ∃ l A, suBasis n = .ok l ∧ l[n]? = some A ∧ A.matrix n = -gen n n ∧ gen n n ≠ 0 := by
  obtain ⟨l, hl, _, h⟩ := c108_basis_partial n
  obtain ⟨A, hA, hm⟩ := h n (by nlinarith)
  have hdiv : n / n = 1 := Nat.div_self (by omega)
  have hmod : n % n = 0 := Nat.mod_self n
  have hn0 : ¬n = 0 := by omega
  refine ⟨l, A, hl, hA, ?_, ?_⟩
  · rw [hm]
    ext a b
    simp only [Matrix.map_apply, Matrix.neg_apply, gen, Matrix.of_apply, hdiv, hmod, if_neg hn0, not_lt_zero, if_false, zero_lt_one, if_true]
    split
    · simp
    · split <;> simp
  · intro h
    have := congrFun (congrFun h ⟨0, by omega⟩) ⟨1, by omega⟩
    simp [gen, hdiv, hmod, hn0] at this

example : ∃ l, suBasis 3 = .ok l ∧ l.length = 9 := by
  obtain ⟨l, h, hl, _⟩ := c108_basis_partial 3
  exact ⟨l, h, hl⟩

/-- The matrix with a number. -/
noncomputable def member (l : List Arr) (n k : Nat) : Matrix (Fin n) (Fin n) ℂ := (l[k]?.map fun A => A.matrix n).getD 0

theorem member_eq {n : Nat} {l : List Arr} (h : suBasis n = .ok l) {k : Nat} (hk : k < n ^ 2) : member l n k = (gen n k).map (starRingEnd ℂ) := by
  obtain ⟨l', hl', _, he⟩ := c108_basis_partial n
  rw [h] at hl'
  cases hl'
  obtain ⟨A, hA, hm⟩ := he k hk
  unfold member
  rw [hA]
  exact hm

/-- All matrices are hermitian, and all but the first, which is the identity, have no trace. -/
theorem c108_hermitian (n : Nat) (l : List Arr) (h : suBasis n = .ok l) : ∀ k < n ^ 2, (member l n k).IsHermitian ∧
    (k = 0 → member l n k = 1) ∧ (k ≠ 0 → (member l n k).trace = 0) := by
  intro k hk
  rw [member_eq h hk]
  refine ⟨?_, ?_, ?_⟩
  · have := gen_hermitian n k
    ext a b
    have e := congrFun (congrFun this a) b
    rw [Matrix.conjTranspose_apply] at e ⊢
    rw [Matrix.map_apply, Matrix.map_apply, ← e]
    rfl
  · rintro rfl
    rw [gen_zero]
    exact Matrix.map_one _ (map_zero _) (map_one _)
  · intro h0
    have := trace_gen hk h0
    rw [show ((gen n k).map (starRingEnd ℂ)).trace = starRingEnd ℂ (gen n k).trace from (AddMonoidHom.map_trace (starRingEnd ℂ).toAddMonoidHom _).symm,
      this, map_zero]

example : ∃ l, suBasis 2 = .ok l ∧ (member l 2 3).IsHermitian ∧ (member l 2 3).trace = 0 := by
  obtain ⟨l, h, _, _⟩ := c108_basis_partial 2
  exact ⟨l, h, (c108_hermitian 2 l h 3 (by norm_num)).1, (c108_hermitian 2 l h 3 (by norm_num)).2.2 (by norm_num)⟩

/-- Different matrices do not overlap; each overlaps with itself by two, the identity by the number of flavours. -/
theorem c108_orthogonal (n : Nat) (l : List Arr) (h : suBasis n = .ok l) : ∀ k < n ^ 2, ∀ m < n ^ 2,
    (member l n k * member l n m).trace = if k = m then (if k = 0 then (n : ℂ) else 2) else 0 := by
  intro k hk m hm
  rw [member_eq h hk, member_eq h hm, ← Matrix.map_mul,
    show ((gen n k * gen n m).map (starRingEnd ℂ)).trace = starRingEnd ℂ (gen n k * gen n m).trace from
      (AddMonoidHom.map_trace (starRingEnd ℂ).toAddMonoidHom _).symm, trace_gen_mul hk hm]
  unfold norm2
  split
  · split
    · simp
    · exact Complex.conj_ofNat 2
  · simp

example : ∃ l, suBasis 3 = .ok l ∧ (member l 3 4 * member l 3 8).trace = 0 ∧ (member l 3 8 * member l 3 8).trace = 2 := by
  obtain ⟨l, h, _, _⟩ := c108_basis_partial 3
  refine ⟨l, h, ?_, ?_⟩
  · rw [c108_orthogonal 3 l h 4 (by norm_num) 8 (by norm_num)]; norm_num
  · rw [c108_orthogonal 3 l h 8 (by norm_num) 8 (by norm_num)]; norm_num

/-- Every hermitian matrix has components, and they are unique. -/
theorem c108_complete (n : Nat) (l : List Arr) (h : suBasis n = .ok l) (H : Matrix (Fin n) (Fin n) ℂ) (hH : H.IsHermitian) :
    ∃! v : Fin (n ^ 2) → ℝ, H = ∑ k, (v k : ℂ) • member l n k := by
  rcases Nat.eq_zero_or_pos n with hn | hn
  · subst hn
    exact ⟨fun _ => 0, Subsingleton.elim _ _, fun w _ => funext fun k => absurd k.2 (by simp)⟩
  · have hN : ∀ k : Fin (n ^ 2), (if k.val = 0 then (n : ℂ) else 2) ≠ 0 := by
      intro k
      split
      · exact_mod_cast hn.ne'
      · norm_num
    have hproj : ∀ (g : Fin (n ^ 2) → ℂ) (k : Fin (n ^ 2)), (member l n k * ∑ m, g m • member l n m).trace = g k * (if k.val = 0 then (n : ℂ) else 2) := by
      intro g k
      rw [Matrix.mul_sum, Matrix.trace_sum, Finset.sum_eq_single k]
      · rw [Matrix.mul_smul, Matrix.trace_smul, c108_orthogonal n l h k k.2 k k.2, if_pos rfl, smul_eq_mul]
      · intro m _ hm
        rw [Matrix.mul_smul, Matrix.trace_smul, c108_orthogonal n l h k k.2 m m.2, if_neg (fun e => hm (Fin.ext e.symm)), smul_zero]
      · intro h; exact absurd (Finset.mem_univ _) h
    have hli : LinearIndependent ℂ (fun k : Fin (n ^ 2) => member l n k) := by
      rw [Fintype.linearIndependent_iff]
      intro g hg k
      have := hproj g k
      rw [hg, Matrix.mul_zero, Matrix.trace_zero] at this
      exact (mul_eq_zero.1 this.symm).resolve_right (hN k)
    have hcard : Fintype.card (Fin (n ^ 2)) = Module.finrank ℂ (Matrix (Fin n) (Fin n) ℂ) := by
      rw [Fintype.card_fin, Module.finrank_matrix, Fintype.card_fin, Module.finrank_self]; ring
    have : Nonempty (Fin (n ^ 2)) := ⟨⟨0, by positivity⟩⟩
    obtain ⟨g, hg⟩ : ∃ g : Fin (n ^ 2) → ℂ, ∑ k, g k • member l n k = H := by
      have hs := hli.span_eq_top_of_card_eq_finrank hcard
      have : H ∈ Submodule.span ℂ (Set.range fun k : Fin (n ^ 2) => member l n k) := by rw [hs]; trivial
      exact (Submodule.mem_span_range_iff_exists_fun ℂ).1 this
    have hreal : ∀ k, starRingEnd ℂ (g k) = g k := by
      intro k
      have e := hproj g k
      rw [hg] at e
      have e' : starRingEnd ℂ (member l n k * H).trace = (member l n k * H).trace := by
        have : star (member l n k * H).trace = (member l n k * H).conjTranspose.trace := (Matrix.trace_conjTranspose _).symm
        rw [starRingEnd_apply, this, Matrix.conjTranspose_mul, hH.eq, (c108_hermitian n l h k k.2).1.eq, Matrix.trace_mul_comm]
      rw [e, map_mul] at e'
      have c : starRingEnd ℂ (if k.val = 0 then (n : ℂ) else 2) = if k.val = 0 then (n : ℂ) else 2 := by
        split
        · simp
        · exact Complex.conj_ofNat 2
      rw [c] at e'
      exact mul_right_cancel₀ (hN k) e'
    refine ⟨fun k => (g k).re, ?_, ?_⟩
    · show H = ∑ k, (((g k).re : ℝ) : ℂ) • member l n k
      rw [← hg]
      exact Finset.sum_congr rfl fun k _ => by rw [Complex.conj_eq_iff_re.1 (hreal k)]
    · intro w hw
      funext k
      have e1 := hproj g k
      have e2 := hproj (fun k => (w k : ℂ)) k
      rw [hg] at e1
      rw [← hw, e1] at e2
      have := mul_right_cancel₀ (hN k) e2
      rw [this, Complex.ofReal_re]

example : ∃ l, suBasis 2 = .ok l ∧ ∃! v : Fin (2 ^ 2) → ℝ, (!![1, I; -I, 0] : Matrix (Fin 2) (Fin 2) ℂ) = ∑ k, (v k : ℂ) • member l 2 k := by
  obtain ⟨l, h, _, _⟩ := c108_basis_partial 2
  refine ⟨l, h, c108_complete 2 l h _ ?_⟩
  ext a b
  fin_cases a <;> fin_cases b <;> simp [Matrix.conjTranspose_apply]

theorem stack_cplx {l : List Arr} {A : Arr} (hA : A ∈ l) (hc : A.cplx = true) : ∀ B ∈ stack l, B.cplx = true := by
  intro B hB
  unfold stack at hB
  obtain ⟨C, _, rfl⟩ := List.mem_map.1 hB
  exact List.any_eq_true.2 ⟨A, hA, hc⟩

theorem basis_cplx {n : Nat} (hn : 2 ≤ n) {l : List Arr} (h : suBasis n = .ok l) : ∀ B ∈ l, B.cplx = true := by
  have hall : ∀ x ∈ (List.range n).flatMap (fun i => (List.range n).map fun j => fArray j i n), ∃ A, x = .ok A := by
    intro x hx
    obtain ⟨i, hi, hx⟩ := List.mem_flatMap.1 hx
    obtain ⟨j, hj, rfl⟩ := List.mem_map.1 hx
    obtain ⟨A, hA, _⟩ := fArray_gen (List.mem_range.1 hi) (List.mem_range.1 hj)
    exact ⟨A, hA⟩
  obtain ⟨r, hr, _, he⟩ := collect_ok hall
  have e : suBasis n = .ok (stack r) := by unfold suBasis; rw [hr]; rfl
  rw [h] at e
  cases e
  obtain ⟨A, hA, hc, _⟩ := fArray_gen (show 1 < n by omega) (show 0 < n by omega)
  have hg := grid_get (fun i j => fArray j i n) n n 1 0 (by omega) (by omega)
  rw [hA] at hg
  exact stack_cplx (List.mem_of_getElem? (he _ A hg)) (hc.2 (by norm_num))

/-- Full statement: the vector with components `c` is printed as the matrix `∑ c_k F_k`. For two flavours or more, printing fails for every vector. -/
theorem c108_print_violated (n : Nat) (hn : 2 ≤ n) (c : List ℝ) (hc : c.length = n ^ 2) : printSUVector n c = .throws := by
  obtain ⟨l, h, hlen, _⟩ := c108_basis_partial n
  have hpos : 0 < n ^ 2 := by positivity
  have stuck : ∀ xs : List (ℝ × Nat), xs.foldl (fun (acc : Outcome Arr) c => acc.bind fun A => match l[c.2]? with
      | some B => A.addInPlace (B.scale c.1)
      | none => .throws) .throws = .throws := by
    intro xs
    induction xs with
    | nil => rfl
    | cons x xs ih => exact ih
  obtain ⟨x, xs, rfl⟩ : ∃ x xs, c = x :: xs := by
    cases c with
    | nil => simp at hc; omega
    | cons x xs => exact ⟨x, xs, rfl⟩
  obtain ⟨B, bs, rfl⟩ : ∃ B bs, l = B :: bs := by
    cases l with
    | nil => simp at hlen; omega
    | cons x xs => exact ⟨x, xs, rfl⟩
  have hB := basis_cplx hn h B List.mem_cons_self
  unfold printSUVector
  rw [h]
  show List.foldl _ _ _ = _
  rw [List.zipIdx_cons, List.foldl_cons]
  have first : Arr.addInPlace ⟨n, n, false, fun _ _ => 0⟩ (B.scale x) = .throws := if_pos ⟨hB, rfl⟩
  show List.foldl _ (Arr.addInPlace ⟨n, n, false, fun _ _ => 0⟩ (B.scale x)) _ = _
  rw [first]
  exact stuck _

/-- So does printing a state, at each node. -/
theorem c108_state_violated (n : Nat) (hn : 2 ≤ n) (states : List (List (List ℝ))) (ie rho : Nat) (s : List (List ℝ)) (c : List ℝ)
    (hs : states[ie]? = some s) (hc : s[rho]? = some c) (hl : c.length = n ^ 2) : printState n states ie rho = .throws := by
  have : readState states ie rho = (false, .ok c) := by
    have hlt : ie < states.length := (List.getElem?_eq_some_iff.1 hs).1
    unfold readState pyGetState2 through getState
    rw [if_neg (by omega), if_pos rfl, Int.toNat_natCast, hs]
    simp only [hc, Prod.mk.injEq, decide_eq_false_iff_not, and_true]
    omega
  unfold printState
  rw [this]
  exact c108_print_violated n hn c hl

example : printSUVector 2 [1, 0, 0, 0] = .throws := c108_print_violated 2 (by norm_num) _ rfl

example : printState 2 [[[1, 0, 0, 0]]] 0 0 = .throws := c108_state_violated 2 (by norm_num) _ 0 0 _ _ rfl rfl rfl

/-- The states of the nodes are read without complaint. -/
theorem c108_node_partial {α : Type} (states : List (List α)) (ie rho : Nat) (s : List α) (v : α) (hs : states[ie]? = some s) (hv : s[rho]? = some v) :
    readState states ie rho = (false, .ok v) ∧ pyGetState2 states ie rho = .ok v := by
  have hlt : ie < states.length := (List.getElem?_eq_some_iff.1 hs).1
  have e : pyGetState2 states ie rho = .ok v := by
    unfold pyGetState2 through getState
    rw [if_pos rfl, hs]
    simp only [hv]
  refine ⟨?_, e⟩
  unfold readState
  rw [if_neg (by omega), Int.toNat_natCast, e]
  simp only [Prod.mk.injEq, decide_eq_false_iff_not, and_true]
  omega

example : readState [[7], [8]] 1 0 = (false, .ok 8) := (c108_node_partial [[7], [8]] 1 0 [8] 8 rfl rfl).1

/-- Full statement: a number that is no node is refused. The number of nodes itself is not, and beyond it the message does not end the function. -/
theorem c108_node_violated {α : Type} (states : List (List α)) (rho : Nat) : readState states states.length rho = (false, .ub) ∧
    ∀ ie : Nat, states.length < ie → readState states ie rho = (true, .ub) := by
  have key : ∀ ie : Nat, states.length ≤ ie → pyGetState2 states ie rho = .ub := by
    intro ie h
    unfold pyGetState2 through getState
    rw [if_pos rfl, List.getElem?_eq_none h]
  constructor
  · unfold readState
    rw [if_neg (by omega), Int.toNat_natCast, key _ le_rfl]
    simp only [Prod.mk.injEq, decide_eq_false_iff_not, and_true]
    omega
  · intro ie h
    unfold readState
    rw [if_neg (by omega), Int.toNat_natCast, key _ h.le]
    simp only [Prod.mk.injEq, decide_eq_true_eq, and_true]
    omega

example : readState [[7], [8]] 2 0 = (false, (.ub : Outcome Nat)) := (c108_node_violated [[7], [8]] 0).1

/-- Full statement: `GetState(ie)` of Python gives what it gives in C++, the first state of the node. It is called through a pointer of another type,
so that nothing gives the second argument a value. -/
theorem c108_cast_violated {α : Type} (states : List (List α)) (ie : Nat) (s : List α) (v : α) (hs : states[ie]? = some s) (hv : s[0]? = some v) :
    getState states ie 0 = .ok v ∧ pyGetState1 states ie = .ub := by
  constructor
  · unfold getState
    rw [hs]
    simp only [hv]
  · unfold pyGetState1 through
    rw [if_neg (by decide)]

example : getState [[7], [8]] 1 0 = .ok 8 ∧ pyGetState1 [[7], [8]] 1 = .ub := c108_cast_violated [[7], [8]] 1 [8] 8 rfl rfl

end Verif.Py.Su
