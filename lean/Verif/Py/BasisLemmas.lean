import Verif.Py.Basis
import Verif.Decoh.Lemmas

/-! # Lemmas on the basis of SU(N) -/

namespace Verif.Py.Su

open Complex Decoh

/-- The components of a matrix that `SUBasis` should give: the basis of SQuIDS. -/
noncomputable def Arr.matrix (A : Arr) (n : Nat) : Matrix (Fin n) (Fin n) ℂ := Matrix.of fun a b => A.entry a b

/-- The entries of the diagonal members. -/
noncomputable def ladder (r a : Nat) : ℝ := Real.sqrt (2 / ((r + 1 : ℝ) * r)) * (if a < r then 1 else if a = r then -(r : ℝ) else 0)

theorem fArray_zero (d : Nat) (hd : 0 < d) : ∃ A, fArray 0 0 d = .ok A ∧ A.rows = d ∧ A.cols = d ∧ A.cplx = false ∧
    ∀ a b, a < d → b < d → A.entry a b = if a = b then 1 else 0 := by
  match d, hd with
  | 1, _ => exact ⟨one 1, rfl, rfl, rfl, rfl, fun a b ha hb => by rw [if_pos (by omega)]; simp [one]⟩
  | n + 2, _ =>
    refine ⟨identity (n + 2), ?_, rfl, rfl, rfl, fun _ _ _ _ => rfl⟩
    unfold fArray
    rw [if_neg (by simp), if_neg (by simp), if_pos ⟨rfl, rfl⟩]

theorem fArray_diag (r : Nat) (hr : 0 < r) : ∀ d, r < d → ∃ A, fArray r r d = .ok A ∧ A.rows = d ∧ A.cols = d ∧ A.cplx = false ∧
    ∀ a b, a < d → b < d → A.entry a b = if a = b then ((ladder r a : ℝ) : ℂ) else 0 := by
  intro d
  induction d with
  | zero => intro h; exact absurd h (Nat.not_lt_zero _)
  | succ d ih =>
    intro hd
    cases d with
    | zero => omega
    | succ d =>
      by_cases hlast : r = d + 1
      · subst hlast
        have c1 : ¬(d + 1 = d + 1 ∧ d + 1 ≠ d + 1 ∧ d + 1 ≠ 0) := by simp
        obtain ⟨I, hI, hr1, hc1, _, he⟩ := fArray_zero (d + 1) (by omega)
        refine ⟨_, by unfold fArray; rw [if_neg c1, if_pos ⟨rfl, rfl⟩, hI]; rfl, by show I.rows + 1 = _; rw [hr1], by show I.cols + 1 = _; rw [hc1], rfl, ?_⟩
        intro a b ha hb
        show ((Real.sqrt _ : ℝ) : ℂ) * (directSum I _).entry a b = _
        unfold directSum
        simp only [hr1, hc1]
        unfold ladder
        have e2 : ((d + 2 : ℝ) * ((d + 2 : ℝ) - 1)) = (((d + 1 : ℕ) : ℝ) + 1) * ((d + 1 : ℕ) : ℝ) := by push_cast; ring
        rw [e2]
        by_cases hin : a < d + 1 ∧ b < d + 1
        · rw [if_pos hin]
          have hz : ¬(d + 1 = 1 ∧ b ≠ 0) := by omega
          have he' : (if d + 1 = 1 ∧ b = 0 then ((I.entry a 0).re : ℂ) else if d + 1 = 1 ∧ b ≠ 0 then 0 else ((I.entry a b).re : ℂ)) =
              if a = b then 1 else 0 := by
            by_cases h1 : d + 1 = 1 ∧ b = 0
            · rw [if_pos h1, he a 0 hin.1 (by omega), h1.2]
              by_cases h0 : a = 0 <;> simp [h0]
            · rw [if_neg h1, if_neg hz, he a b hin.1 hin.2]
              by_cases h0 : a = b <;> simp [h0]
          rw [he']
          by_cases hab : a = b
          · rw [if_pos hab, if_pos hab, if_pos hin.1, mul_one, mul_one]
          · rw [if_neg hab, if_neg hab, mul_zero]
        · rw [if_neg hin]
          by_cases hcorner : a ≥ d + 1 ∧ b ≥ d + 1
          · have ha' : a = d + 1 := by omega
            have hb' : b = d + 1 := by omega
            rw [if_pos hcorner, if_pos ⟨rfl, hb'⟩, if_pos (ha'.trans hb'.symm), if_neg (by omega), if_pos ha']
            simp only [one, Complex.ofReal_re]
            push_cast
            ring
          · rw [if_neg hcorner, if_neg (by omega), mul_zero]
      · obtain ⟨A, hA, hr1, hc1, hcp, he⟩ := ih (by omega)
        have c1 : r = r ∧ r ≠ d + 1 ∧ r ≠ 0 := ⟨rfl, hlast, by omega⟩
        refine ⟨directSum A (one 0), by unfold fArray; rw [if_pos c1, hA]; rfl, by show A.rows + 1 = _; rw [hr1],
          by show A.cols + 1 = _; rw [hc1], rfl, ?_⟩
        intro a b ha hb
        unfold directSum
        simp only [hr1, hc1]
        by_cases hin : a < d + 1 ∧ b < d + 1
        · rw [if_pos hin, if_neg (by omega), if_neg (by omega), he a b hin.1 hin.2]
          by_cases hab : a = b
          · rw [if_pos hab, Complex.ofReal_re]
          · rw [if_neg hab]; simp
        · rw [if_neg hin]
          by_cases hcorner : a ≥ d + 1 ∧ b ≥ d + 1
          · have ha' : a = d + 1 := by omega
            have hb' : b = d + 1 := by omega
            rw [if_pos hcorner, if_pos ⟨rfl, hb'⟩, if_pos (ha'.trans hb'.symm)]
            have : ladder r a = 0 := by unfold ladder; rw [if_neg (by omega), if_neg (by omega), mul_zero]
            rw [this]
            simp [one]
          · rw [if_neg hcorner, if_neg (by omega)]

/-- One member: the complex conjugate of the member of SQuIDS. -/
theorem fArray_gen {n i j : Nat} (hi : i < n) (hj : j < n) : ∃ A, fArray j i n = .ok A ∧ (A.cplx = true ↔ j < i) ∧
    A.matrix n = (gen n (i * n + j)).map (starRingEnd ℂ) := by
  have hdiv : (i * n + j) / n = i := by
    rw [Nat.mul_comm, Nat.mul_add_div (by omega), Nat.div_eq_of_lt hj, Nat.add_zero]
  have hmod : (i * n + j) % n = j := by rw [Nat.mul_comm, Nat.mul_add_mod, Nat.mod_eq_of_lt hj]
  have hk : i * n + j = 0 ↔ i = 0 ∧ j = 0 := by
    constructor
    · intro h
      have := Nat.eq_zero_of_add_eq_zero h
      exact ⟨(Nat.mul_eq_zero.1 this.1).resolve_right (by omega), this.2⟩
    · rintro ⟨rfl, rfl⟩; simp
  by_cases hij : j = i
  · subst hij
    by_cases h0 : j = 0
    · subst h0
      obtain ⟨A, hA, _, _, hc, he⟩ := fArray_zero n hi
      refine ⟨A, hA, by simp [hc], ?_⟩
      ext a b
      simp only [Arr.matrix, Matrix.of_apply, Matrix.map_apply, gen, he a b a.2 b.2, Fin.ext_iff]
      by_cases hab : (a : Nat) = b <;> simp [hab]
    · obtain ⟨A, hA, _, _, hc, he⟩ := fArray_diag j (by omega) n hi
      refine ⟨A, hA, by simp [hc], ?_⟩
      have h00 : ¬(j * n + j = 0) := by rw [hk]; omega
      ext a b
      simp only [Arr.matrix, Matrix.of_apply, Matrix.map_apply, gen, he a b a.2 b.2, hdiv, hmod, if_neg h00, lt_irrefl, if_false, Fin.ext_iff]
      by_cases hab : (a : Nat) = b
      · rw [if_pos hab, if_pos hab, map_mul, Complex.conj_ofReal, ladder]
        rw [mul_comm ((j : ℝ) + 1)]
        push_cast
        congr 1
        by_cases h1 : (a : Nat) < j
        · simp [h1]
        · by_cases h2 : (a : Nat) = j <;> simp [h1, h2]
      · rw [if_neg hab, if_neg hab, map_zero]
  · have h00 : ¬(i * n + j = 0) := by rw [hk]; omega
    match n, hi, hj, hdiv, hmod, h00 with
    | 1, hi, hj, _, _, _ => omega
    | n + 2, hi, hj, hdiv, hmod, h00 =>
      have e1 : eArray j i (n + 2) = .ok ⟨n + 2, n + 2, false, fun a b => if a = j ∧ b = i then 1 else 0⟩ := if_pos ⟨hj, hi⟩
      have e2 : eArray i j (n + 2) = .ok ⟨n + 2, n + 2, false, fun a b => if a = i ∧ b = j then 1 else 0⟩ := if_pos ⟨hi, hj⟩
      by_cases hlt : i < j
      · refine ⟨_, by unfold fArray; rw [if_neg (fun h => hij h.1), if_neg (fun h => hij h.1), if_neg (fun h => hij h.1), if_pos hlt, e1, e2]; rfl,
          by simp [Arr.add]; omega, ?_⟩
        ext a b
        simp only [Arr.matrix, Arr.add, Matrix.of_apply, Matrix.map_apply, gen, hdiv, hmod, if_neg h00, if_pos hlt]
        by_cases h1 : (a : Nat) = j ∧ (b : Nat) = i
        · have h2 : ¬((a : Nat) = i ∧ (b : Nat) = j) := by omega
          simp [h1]; omega
        · by_cases h2 : (a : Nat) = i ∧ (b : Nat) = j
          · rw [if_neg h1, if_pos h2, if_pos (.inl h2)]; simp
          · rw [if_neg h1, if_neg h2, if_neg (by tauto)]; simp
      · have hgt : j < i := by omega
        refine ⟨_, by unfold fArray; rw [if_neg (fun h => hij h.1), if_neg (fun h => hij h.1), if_neg (fun h => hij h.1), if_neg hlt, e1, e2]; rfl,
          by simp [Arr.cscale, hgt], ?_⟩
        ext a b
        simp only [Arr.matrix, Arr.cscale, Arr.sub, Matrix.of_apply, Matrix.map_apply, gen, hdiv, hmod, if_neg h00, if_neg hlt, if_pos hgt]
        by_cases h1 : (a : Nat) = j ∧ (b : Nat) = i
        · have h2 : ¬((a : Nat) = i ∧ (b : Nat) = j) := by omega
          rw [if_pos h1, if_neg h2, if_pos h1]; simp
        · by_cases h2 : (a : Nat) = i ∧ (b : Nat) = j
          · rw [if_neg h1, if_pos h2, if_neg h1, if_pos h2]; simp
          · rw [if_neg h1, if_neg h2, if_neg h1, if_neg h2]; simp

theorem collect_ok {l : List (Outcome Arr)} (h : ∀ x ∈ l, ∃ A, x = .ok A) : ∃ r, collect l = .ok r ∧ r.length = l.length ∧
    ∀ (k : Nat) (A : Arr), l[k]? = some (Outcome.ok A) → r[k]? = some A := by
  induction l with
  | nil => exact ⟨[], rfl, rfl, fun k A h => by simp at h⟩
  | cons x l ih =>
    obtain ⟨A, rfl⟩ := h x List.mem_cons_self
    obtain ⟨r, hr, hl, he⟩ := ih (fun x hx => h x (List.mem_cons_of_mem _ hx))
    refine ⟨A :: r, by show (collect l).map _ = _; rw [hr]; rfl, by simp [hl], ?_⟩
    intro k B hk
    cases k with
    | zero =>
      simp only [List.getElem?_cons_zero, Option.some.injEq] at hk
      rw [Outcome.ok.inj hk]; rfl
    | succ k =>
      simp only [List.getElem?_cons_succ] at hk ⊢
      exact he k B hk

theorem grid_get {α : Type} (f : Nat → Nat → α) (n m i j : Nat) (hi : i < m) (hj : j < n) :
    ((List.range m).flatMap fun i => (List.range n).map fun j => f i j)[i * n + j]? = some (f i j) := by
  induction m with
  | zero => omega
  | succ m ih =>
    have hlen : ((List.range m).flatMap fun i => (List.range n).map fun j => f i j).length = m * n := by simp [List.length_flatMap]
    rw [List.range_succ, List.flatMap_append, List.flatMap_singleton]
    by_cases him : i < m
    · rw [List.getElem?_append_left, ih him]
      rw [hlen]
      calc i * n + j < i * n + n := by omega
        _ = (i + 1) * n := by ring
        _ ≤ m * n := Nat.mul_le_mul_right _ him
    · have : i = m := by omega
      subst this
      rw [List.getElem?_append_right (by rw [hlen]; omega), hlen, Nat.add_sub_cancel_left]
      simp [hj]


/-! ## Traces of products -/

theorem gen_entry_sym {n k : Nat} (h : k / n < k % n) (a b : Fin n) :
    gen n k a b = if (a.val = k / n ∧ b.val = k % n) ∨ (a.val = k % n ∧ b.val = k / n) then 1 else 0 := by
  have h0 : k ≠ 0 := by rintro rfl; simp at h
  simp only [gen, Matrix.of_apply, if_neg h0, if_pos h]

theorem gen_entry_anti {n k : Nat} (h : k % n < k / n) (a b : Fin n) :
    gen n k a b = if a.val = k % n ∧ b.val = k / n then I else if a.val = k / n ∧ b.val = k % n then -I else 0 := by
  have h0 : k ≠ 0 := by rintro rfl; simp at h
  simp only [gen, Matrix.of_apply, if_neg h0, if_neg (show ¬k / n < k % n by omega), if_pos h]

/-- The diagonal of a diagonal member. -/
noncomputable def dia (r a : Nat) : ℂ := if r = 0 then 1 else (ladder r a : ℂ)

theorem gen_entry_diag {n k : Nat} (h : k % n = k / n) (a b : Fin n) : gen n k a b = if a = b then dia (k / n) a else 0 := by
  by_cases h0 : k = 0
  · subst h0
    simp [gen, dia]
  · have hr : ¬k / n = 0 := by
      intro hz
      have := Nat.div_add_mod k n
      rw [h, hz] at this
      simp at this
      omega
    simp only [gen, Matrix.of_apply, if_neg h0, if_neg (show ¬k / n < k % n by omega), if_neg (show ¬k % n < k / n by omega), dia, if_neg hr, ladder]
    by_cases hab : a = b
    · rw [if_pos hab, if_pos hab, mul_comm ((((k / n : Nat) : ℝ)) + 1)]
      push_cast
      congr 1
      by_cases h1 : (a : Nat) < k / n
      · simp [h1]
      · by_cases h2 : (a : Nat) = k / n <;> simp [h1, h2]
    · rw [if_neg hab, if_neg hab]

theorem gen_sym {n k : Nat} (hk : k < n ^ 2) (h : k / n < k % n) : ∃ r c : Fin n, r.val = k / n ∧ c.val = k % n ∧
    gen n k = Matrix.single r c 1 + Matrix.single c r 1 := by
  have hn : 0 < n := Nat.pos_of_ne_zero (by rintro rfl; simp at hk)
  have hr : k / n < n := Nat.div_lt_of_lt_mul (by rwa [pow_two] at hk)
  have hc : k % n < n := Nat.mod_lt _ hn
  refine ⟨⟨k / n, hr⟩, ⟨k % n, hc⟩, rfl, rfl, ?_⟩
  ext a b
  rw [gen_entry_sym h]
  simp only [Matrix.add_apply, Matrix.single_apply, Fin.ext_iff]
  by_cases h1 : (a : Nat) = k / n ∧ (b : Nat) = k % n
  · rw [if_pos (.inl h1), if_pos ⟨h1.1.symm, h1.2.symm⟩, if_neg (by omega), add_zero]
  · by_cases h2 : (a : Nat) = k % n ∧ (b : Nat) = k / n
    · rw [if_pos (.inr h2), if_neg (by omega), if_pos ⟨h2.1.symm, h2.2.symm⟩, zero_add]
    · rw [if_neg (by tauto), if_neg (by omega), if_neg (by omega), add_zero]

theorem gen_anti {n k : Nat} (hk : k < n ^ 2) (h : k % n < k / n) : ∃ r c : Fin n, r.val = k / n ∧ c.val = k % n ∧
    gen n k = Matrix.single c r I + Matrix.single r c (-I) := by
  have hn : 0 < n := Nat.pos_of_ne_zero (by rintro rfl; simp at hk)
  have hr : k / n < n := Nat.div_lt_of_lt_mul (by rwa [pow_two] at hk)
  have hc : k % n < n := Nat.mod_lt _ hn
  refine ⟨⟨k / n, hr⟩, ⟨k % n, hc⟩, rfl, rfl, ?_⟩
  ext a b
  rw [gen_entry_anti h]
  simp only [Matrix.add_apply, Matrix.single_apply, Fin.ext_iff]
  by_cases h1 : (a : Nat) = k % n ∧ (b : Nat) = k / n
  · rw [if_pos h1, if_pos ⟨h1.1.symm, h1.2.symm⟩, if_neg (by omega), add_zero]
  · by_cases h2 : (a : Nat) = k / n ∧ (b : Nat) = k % n
    · rw [if_neg h1, if_pos h2, if_neg (by omega), if_pos ⟨h2.1.symm, h2.2.symm⟩, zero_add]
    · rw [if_neg h1, if_neg h2, if_neg (by omega), if_neg (by omega), add_zero]

theorem eq_of_rows {n k m : Nat} (h1 : k / n = m / n) (h2 : k % n = m % n) : k = m := by
  rw [← Nat.div_add_mod k n, ← Nat.div_add_mod m n, h1, h2]

/-- How much a member overlaps with itself. -/
noncomputable def norm2 (n k : Nat) : ℂ := if k = 0 then n else 2

theorem trace_sym {n k m : Nat} (hk : k < n ^ 2) (h : k / n < k % n) : (gen n k * gen n m).trace = if k = m then norm2 n k else 0 := by
  obtain ⟨r, c, hr, hc, e⟩ := gen_sym hk h
  rw [e, Matrix.add_mul, Matrix.trace_add, Matrix.trace_single_mul, Matrix.trace_single_mul, one_smul, one_smul]
  have h0 : k ≠ 0 := by rintro rfl; simp at h
  rcases lt_trichotomy (m / n) (m % n) with g | g | g
  · rw [gen_entry_sym g, gen_entry_sym g]
    by_cases hkm : k = m
    · subst hkm
      rw [if_pos (by omega), if_pos (by omega), if_pos rfl, norm2, if_neg h0]; norm_num
    · have : ¬(k / n = m / n ∧ k % n = m % n) := fun h => hkm (eq_of_rows h.1 h.2)
      rw [if_neg (by omega), if_neg (by omega), if_neg hkm, add_zero]
  · rw [gen_entry_diag g.symm, gen_entry_diag g.symm, if_neg (by rw [Fin.ext_iff]; omega), if_neg (by rw [Fin.ext_iff]; omega),
      if_neg (by rintro rfl; omega), add_zero]
  · rw [gen_entry_anti g, gen_entry_anti g, if_neg (show ¬k = m by rintro rfl; omega)]
    by_cases h1 : k / n = m % n ∧ k % n = m / n
    · rw [if_neg (by omega), if_pos (by omega), if_pos (by omega)]; ring
    · rw [if_neg (by omega), if_neg (by omega), if_neg (by omega), if_neg (by omega), add_zero]

theorem trace_anti {n k m : Nat} (hk : k < n ^ 2) (h : k % n < k / n) : (gen n k * gen n m).trace = if k = m then norm2 n k else 0 := by
  obtain ⟨r, c, hr, hc, e⟩ := gen_anti hk h
  rw [e, Matrix.add_mul, Matrix.trace_add, Matrix.trace_single_mul, Matrix.trace_single_mul, smul_eq_mul, smul_eq_mul]
  have h0 : k ≠ 0 := by rintro rfl; simp at h
  rcases lt_trichotomy (m / n) (m % n) with g | g | g
  · rw [gen_entry_sym g, gen_entry_sym g, if_neg (show ¬k = m by rintro rfl; omega)]
    by_cases h1 : k / n = m % n ∧ k % n = m / n
    · rw [if_pos (by omega), if_pos (by omega)]; ring
    · rw [if_neg (by omega), if_neg (by omega)]; ring
  · rw [gen_entry_diag g.symm, gen_entry_diag g.symm, if_neg (by rw [Fin.ext_iff]; omega), if_neg (by rw [Fin.ext_iff]; omega),
      if_neg (by rintro rfl; omega)]
    ring
  · rw [gen_entry_anti g, gen_entry_anti g]
    by_cases hkm : k = m
    · subst hkm
      rw [if_neg (by omega), if_pos (by omega), if_pos (by omega), if_pos rfl, norm2, if_neg h0]
      linear_combination (-2 : ℂ) * I_mul_I
    · have : ¬(k / n = m / n ∧ k % n = m % n) := fun h => hkm (eq_of_rows h.1 h.2)
      rw [if_neg (by omega), if_neg (by omega), if_neg (by omega), if_neg (by omega), if_neg hkm]
      ring

theorem ladder_cross {n r s : Nat} (hrs : r < s) (hs : s < n) : ∑ a ∈ Finset.range n, ladder r a * ladder s a = 0 := by
  have e : ∀ a ∈ Finset.range n, ladder r a * ladder s a =
      (Real.sqrt (2 / ((r + 1 : ℝ) * r)) * Real.sqrt (2 / ((s + 1 : ℝ) * s))) * (if a < r then 1 else if a = r then -(r : ℝ) else 0) := by
    intro a _
    unfold ladder
    by_cases h1 : a < r
    · rw [if_pos h1, if_pos (by omega)]; ring
    · by_cases h2 : a = r
      · rw [if_neg h1, if_pos h2, if_pos (by omega)]; ring
      · rw [if_neg h1, if_neg h2]; ring
  rw [Finset.sum_congr rfl e, ← Finset.mul_sum]
  have h := sum_balance n r (by omega)
  have h' : ((∑ a ∈ Finset.range n, (if a < r then 1 else if a = r then -(r : ℝ) else 0) : ℝ) : ℂ) = 0 := by
    rw [← h, Complex.ofReal_sum]
    refine Finset.sum_congr rfl fun a _ => ?_
    split
    · simp
    · split <;> simp
  rw [Complex.ofReal_eq_zero.1 h', mul_zero]

theorem ladder_self {n r : Nat} (hr : 0 < r) (hn : r < n) : ∑ a ∈ Finset.range n, ladder r a * ladder r a = 2 := by
  have hr' : (0 : ℝ) < r := by exact_mod_cast hr
  have hpos : (0 : ℝ) ≤ 2 / ((r + 1 : ℝ) * r) := by positivity
  have e : ∀ a ∈ Finset.range n, ladder r a * ladder r a = (2 / ((r + 1 : ℝ) * r)) * (if a < r then 1 else if a = r then (r : ℝ) ^ 2 else 0) := by
    intro a _
    unfold ladder
    rw [mul_mul_mul_comm, Real.mul_self_sqrt hpos]
    by_cases h1 : a < r
    · simp [h1]
    · by_cases h2 : a = r
      · rw [if_neg h1, if_pos h2, if_neg h1, if_pos h2]; ring
      · simp [h1, h2]
  rw [Finset.sum_congr rfl e, ← Finset.mul_sum]
  obtain ⟨m, rfl⟩ : ∃ m, n = r + 1 + m := ⟨n - (r + 1), by omega⟩
  rw [Finset.sum_range_add, Finset.sum_range_succ]
  have h1 : ∑ a ∈ Finset.range r, (if a < r then (1 : ℝ) else if a = r then (r : ℝ) ^ 2 else 0) = r := by
    rw [Finset.sum_congr rfl fun a ha => if_pos (Finset.mem_range.1 ha)]
    simp
  have h2 : ∑ x ∈ Finset.range m, (if r + 1 + x < r then (1 : ℝ) else if r + 1 + x = r then (r : ℝ) ^ 2 else 0) = 0 :=
    Finset.sum_eq_zero fun x _ => by rw [if_neg (by omega), if_neg (by omega)]
  rw [h1, h2, if_neg (lt_irrefl _), if_pos rfl]
  field_simp
  ring

theorem trace_diag {n k m : Nat} (hk : k < n ^ 2) (hm : m < n ^ 2) (h : k % n = k / n) (g : m % n = m / n) :
    (gen n k * gen n m).trace = if k = m then norm2 n k else 0 := by
  by_cases hk0 : k = 0
  · subst hk0
    rw [gen_zero, Matrix.one_mul]
    by_cases hm0 : m = 0
    · subst hm0
      rw [gen_zero, Matrix.trace_one, if_pos rfl, norm2, if_pos rfl, Fintype.card_fin]
    · rw [trace_gen hm hm0, if_neg (Ne.symm hm0)]
  · by_cases hm0 : m = 0
    · subst hm0
      rw [gen_zero, Matrix.mul_one, trace_gen hk hk0, if_neg hk0]
    · have pos : ∀ {x : Nat}, x ≠ 0 → x % n = x / n → 0 < x / n := by
        intro x hx hxn
        rcases Nat.eq_zero_or_pos (x / n) with hz | hz
        · have := Nat.div_add_mod x n
          rw [hxn, hz] at this
          simp at this
          omega
        · exact hz
      have hkr := pos hk0 h
      have hmr := pos hm0 g
      have hkn : k / n < n := Nat.div_lt_of_lt_mul (by rwa [pow_two] at hk)
      have hmn : m / n < n := Nat.div_lt_of_lt_mul (by rwa [pow_two] at hm)
      have e : (gen n k * gen n m).trace = ((∑ a ∈ Finset.range n, ladder (k / n) a * ladder (m / n) a : ℝ) : ℂ) := by
        rw [← Fin.sum_univ_eq_sum_range (fun a => ladder (k / n) a * ladder (m / n) a) n]
        push_cast
        refine Finset.sum_congr rfl fun a _ => ?_
        rw [Matrix.diag_apply, Matrix.mul_apply, Finset.sum_eq_single a]
        · rw [gen_entry_diag h, gen_entry_diag g, if_pos rfl, if_pos rfl, dia, dia, if_neg (by omega), if_neg (by omega)]
        · intro b _ hb
          rw [gen_entry_diag h, if_neg (Ne.symm hb), zero_mul]
        · intro h; exact absurd (Finset.mem_univ _) h
      rw [e]
      rcases lt_trichotomy (k / n) (m / n) with hlt | heq | hgt
      · rw [ladder_cross hlt hmn, if_neg (by rintro rfl; omega), Complex.ofReal_zero]
      · have hkm : k = m := eq_of_rows heq (by omega)
        subst hkm
        rw [ladder_self hkr hkn, if_pos rfl, norm2, if_neg hk0]; norm_num
      · rw [Finset.sum_congr rfl fun a _ => mul_comm (ladder (k / n) a) _, ladder_cross hgt hkn, if_neg (by rintro rfl; omega),
          Complex.ofReal_zero]

/-- Members of the basis do not overlap. -/
theorem trace_gen_mul {n k m : Nat} (hk : k < n ^ 2) (hm : m < n ^ 2) : (gen n k * gen n m).trace = if k = m then norm2 n k else 0 := by
  have hsym : (if m = k then norm2 n m else 0) = if k = m then norm2 n k else 0 := by
    by_cases h : k = m
    · subst h; rfl
    · rw [if_neg h, if_neg (Ne.symm h)]
  rcases lt_trichotomy (k / n) (k % n) with h | h | h
  · exact trace_sym hk h
  · rcases lt_trichotomy (m / n) (m % n) with g | g | g
    · rw [Matrix.trace_mul_comm, trace_sym hm g, hsym]
    · exact trace_diag hk hm h.symm g.symm
    · rw [Matrix.trace_mul_comm, trace_anti hm g, hsym]
  · exact trace_anti hk h

theorem gen_hermitian (n k : Nat) : (gen n k).conjTranspose = gen n k := by
  ext a b
  rw [Matrix.conjTranspose_apply]
  rcases lt_trichotomy (k / n) (k % n) with h | h | h
  · rw [gen_entry_sym h, gen_entry_sym h]
    by_cases h1 : (a.val = k / n ∧ b.val = k % n) ∨ (a.val = k % n ∧ b.val = k / n)
    · rw [if_pos h1, if_pos (by tauto)]; simp
    · rw [if_neg h1, if_neg (by tauto)]; simp
  · rw [gen_entry_diag h.symm, gen_entry_diag h.symm]
    by_cases hab : a = b
    · subst hab
      rw [if_pos rfl]
      unfold dia
      split
      · simp
      · simp
    · rw [if_neg hab, if_neg (Ne.symm hab)]; simp
  · rw [gen_entry_anti h, gen_entry_anti h]
    by_cases h1 : b.val = k % n ∧ a.val = k / n
    · rw [if_pos h1, if_neg (by omega), if_pos (by omega)]; simp
    · by_cases h2 : b.val = k / n ∧ a.val = k % n
      · rw [if_neg h1, if_pos h2, if_pos (by omega)]; simp
      · rw [if_neg h1, if_neg h2, if_neg (by omega), if_neg (by omega)]; simp

end Verif.Py.Su
