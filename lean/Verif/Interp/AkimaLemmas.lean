import Verif.Interp.Akima
import Mathlib.Tactic.Ring
import Mathlib.Tactic.FieldSimp
import Mathlib.Tactic.Linarith

/-! Closed form of the segments built by `AkimaSpline::initialize`. -/

set_option linter.unusedSectionVars false

namespace Verif.Interp

variable {K : Type} [Field K] [LinearOrder K] [IsStrictOrderedRing K]

/-- Node derivative used on the right of node `i`. -/
def tRight (x y : Nat → K) (n : Nat) (i : Nat) : K :=
  let m := mHelper x y n
  let L := |m (i - 2) - m (i - 1)|
  let NE := L + |m i - m (i + 1)|
  if NE > 0 then (1 - L / NE) * m (i - 1) + L / NE * m i else m i

/-- Node derivative used on the left of node `i+1`. -/
def tLeft (x y : Nat → K) (n : Nat) (i : Nat) : K :=
  let m := mHelper x y n
  let L := |m (i - 1) - m i|
  let NE := L + |m (i + 1) - m (i + 2)|
  if NE > 0 then (1 - L / NE) * m i + L / NE * m (i + 1) else m i

def segAt (x y : Nat → K) (n : Nat) (i : Nat) : Seg K :=
  let m := mHelper x y n i
  let h := x (i + 1) - x i
  { x := x i, a0 := y i, a1 := tRight x y n i
    a2 := (3 * m - 2 * tRight x y n i - tLeft x y n i) / h
    a3 := (tRight x y n i + tLeft x y n i - 2 * m) / (h * h) }

/-- What the carried variables hold at the start of iteration `i`. -/
def CarryOk (x y : Nat → K) (n : Nat) (i : Nat) (c : Carry K) : Prop :=
  let m := mHelper x y n
  (i = 0 ∧ c.L = -1) ∨
  (i ≠ 0 ∧ c.L = |m (i - 2) - m (i - 1)| ∧ c.NE = c.L + |m i - m (i + 1)| ∧
    c.mim2 = m (i - 2) ∧ c.mim1 = m (i - 1) ∧ c.mi = m i ∧ c.mip1 = m (i + 1))

theorem body_ok {x y : Nat → K} {n i : Nat} {c : Carry K} (hc : CarryOk x y n i c) (h : x i < x (i + 1)) :
    ∃ c', body x y n i c = .ok (segAt x y n i, c') ∧ CarryOk x y n (i + 1) c' := by
  have h1 : ¬ (x (i + 1) - x i < 0) := by linarith
  have h2 : ¬ (x (i + 1) - x i = 0) := by intro h0; linarith
  rcases hc with ⟨hi, hL⟩ | ⟨hi, hL, hNE, e1, e2, e3, e4⟩
  · subst hi
    have h3 : ¬ (c.L ≥ 0) := by rw [hL]; intro h; linarith
    simp only [body, if_neg h1, if_neg h2, if_neg h3, if_true]
    refine ⟨_, rfl, Or.inr ⟨by omega, ?_⟩⟩
    norm_num
  · have h3 : c.L ≥ 0 := by rw [hL]; exact abs_nonneg _
    simp only [body, if_neg h1, if_neg h2, if_pos h3, if_neg hi]
    refine ⟨{ L := |c.mim1 - c.mi|, NE := |c.mim1 - c.mi| + |c.mip1 - mHelper x y n (i + 2)|, mim2 := c.mim1,
              mim1 := c.mi, mi := c.mip1, mip1 := mHelper x y n (i + 2) }, ?_, Or.inr ⟨by omega, ?_⟩⟩
    · rw [hNE, hL, e2, e3, e4]; rfl
    · simp only [e2, e3, e4]
      have a1 : ((i + 1 : Nat) : Int) - 2 = i - 1 := by omega
      have a2 : ((i + 1 : Nat) : Int) - 1 = i := by omega
      have a3 : ((i + 1 : Nat) : Int) = i + 1 := by omega
      have a4 : (i : Int) + 1 + 1 = i + 2 := by omega
      rw [a1, a2, a3, a4]
      exact ⟨rfl, rfl, rfl, rfl, rfl, rfl⟩

theorem body_throws {x y : Nat → K} {n i : Nat} {c : Carry K} (h : ¬ x i < x (i + 1)) :
    body x y n i c = .throws := by
  by_cases h1 : x (i + 1) - x i < 0
  · simp only [body, if_pos h1]
  · have h2 : x (i + 1) - x i = 0 := by linarith
    simp only [body, if_neg h1, if_pos h2]

theorem loop_spec {x y : Nat → K} {n : Nat} (k i : Nat) (c : Carry K) (hc : CarryOk x y n i c) :
    loop x y n k i c =
      if ∀ j, i ≤ j → j < i + k → x j < x (j + 1) then .ok ((List.range' i k).map (segAt x y n)) else .throws := by
  induction k generalizing i c with
  | zero => simp only [loop]; rw [if_pos (by intro j h1 h2; omega)]; rfl
  | succ k ih =>
    simp only [loop]
    by_cases h : x i < x (i + 1)
    · obtain ⟨c', hb, hc'⟩ := body_ok hc h
      rw [hb, Outcome.bind_ok, ih _ _ hc']
      by_cases ha : ∀ j, i + 1 ≤ j → j < i + 1 + k → x j < x (j + 1)
      · have hb : ∀ j, i ≤ j → j < i + (k + 1) → x j < x (j + 1) := by
          intro j h1 h2
          rcases Nat.eq_or_lt_of_le h1 with h3 | h3
          · subst h3; exact h
          · exact ha j h3 (by omega)
        rw [if_pos ha, if_pos hb]
        rfl
      · have hb : ¬ ∀ j, i ≤ j → j < i + (k + 1) → x j < x (j + 1) :=
          fun hh => ha fun j h1 h2 => hh j (by omega) (by omega)
        rw [if_neg ha, if_neg hb]; rfl
    · rw [body_throws h, if_neg (fun hh => h (hh i (Nat.le_refl i) (by omega)))]; rfl

/-- A usable table. -/
def Increasing (x : Nat → K) (n : Nat) : Prop := ∀ j, j + 1 < n → x j < x (j + 1)

theorem Increasing.lt {x : Nat → K} {n : Nat} (h : Increasing x n) {i j : Nat} (hij : i < j) (hj : j < n) :
    x i < x j := by
  induction j with
  | zero => omega
  | succ j ih =>
    have := h j hj
    rcases Nat.eq_or_lt_of_le (Nat.lt_succ_iff.1 hij) with e | e
    · subst e; exact this
    · exact lt_trans (ih e (by omega)) this

open scoped Classical in
theorem akimaInit_spec (x y : Nat → K) (n : Nat) : akimaInit x y n =
    if 3 ≤ n ∧ Increasing x n then .ok ⟨(List.range (n - 1)).map (segAt x y n), x (n - 1), y (n - 1)⟩
    else .throws := by
  simp only [akimaInit]
  by_cases hn : n < 3
  · rw [if_pos hn, if_neg (by rintro ⟨h, _⟩; omega)]
  · rw [if_neg hn, loop_spec _ _ _ (Or.inl ⟨rfl, rfl⟩)]
    by_cases hi : Increasing x n
    · have h' : ∀ j, 0 ≤ j → j < 0 + (n - 1) → x j < x (j + 1) := fun j _ h => hi j (by omega)
      rw [if_pos h', if_pos ⟨by omega, hi⟩, List.range_eq_range']
      rfl
    · have h' : ¬ ∀ j, 0 ≤ j → j < 0 + (n - 1) → x j < x (j + 1) :=
        fun hh => hi fun j h => hh j (by omega) (by omega)
      rw [if_neg h', if_neg (fun hh => hi hh.2)]
      rfl

theorem mHelper_nat {x y : Nat → K} {n i : Nat} (h : i + 1 < n) : mHelper x y n i = chord x y i := by
  simp only [mHelper]
  rw [if_neg (by omega), if_neg (by omega), if_neg (by omega), if_neg (by omega)]
  rfl

theorem segAt_end {x y : Nat → K} {n i : Nat} (hi : i + 1 < n) (h : x i < x (i + 1)) :
    (segAt x y n i).eval (x (i + 1)) = y (i + 1) := by
  have hx : x (i + 1) - x i ≠ 0 := by intro h0; linarith
  simp only [Seg.eval, segAt, mHelper_nat hi, chord]
  generalize x (i + 1) - x i = d at *
  field_simp
  ring

theorem segAt_deriv_end {x y : Nat → K} {n i : Nat} (h : x i < x (i + 1)) :
    (segAt x y n i).derivative (x (i + 1)) = tLeft x y n i := by
  have hx : x (i + 1) - x i ≠ 0 := by intro h0; linarith
  simp only [Seg.derivative, segAt]
  generalize x (i + 1) - x i = d at *
  field_simp
  ring

theorem segAt_start (x y : Nat → K) (n i : Nat) : (segAt x y n i).eval (x i) = y i := by
  simp [Seg.eval, segAt]

theorem segAt_deriv_start (x y : Nat → K) (n i : Nat) : (segAt x y n i).derivative (x i) = tRight x y n i := by
  simp [Seg.derivative, segAt]

/-- `initialize` reads only the first `n` cells. -/
theorem chord_congr {x y x' y' : Nat → K} {n i : Nat} (hx : ∀ j, j < n → x j = x' j) (hy : ∀ j, j < n → y j = y' j)
    (hi : i + 1 < n) : chord x y i = chord x' y' i := by
  simp only [chord]
  rw [hx i (by omega), hx (i + 1) hi, hy i (by omega), hy (i + 1) hi]

theorem mHelper_congr {x y x' y' : Nat → K} {n : Nat} {i : Int} (hn : 3 ≤ n) (hx : ∀ j, j < n → x j = x' j)
    (hy : ∀ j, j < n → y j = y' j) (_ : -2 ≤ i) (_ : i ≤ n) : mHelper x y n i = mHelper x' y' n i := by
  have c : ∀ j, j + 1 < n → chord x y j = chord x' y' j := fun j hj => chord_congr hx hy hj
  simp only [mHelper]
  rw [c 0 (by omega), c 1 (by omega), c (n - 2) (by omega), c (n - 3) (by omega)]
  split
  · rfl
  split
  · rfl
  split
  · rfl
  split
  · rfl
  · exact c _ (by omega)

theorem segAt_congr {x y x' y' : Nat → K} {n i : Nat} (hn : 3 ≤ n) (hx : ∀ j, j < n → x j = x' j)
    (hy : ∀ j, j < n → y j = y' j) (hi : i + 1 < n) : segAt x y n i = segAt x' y' n i := by
  have m : ∀ j : Int, -2 ≤ j → j ≤ n → mHelper x y n j = mHelper x' y' n j :=
    fun j h1 h2 => mHelper_congr hn hx hy h1 h2
  simp only [segAt, tRight, tLeft]
  rw [hx i (by omega), hx (i + 1) hi, hy i (by omega), m i (by omega) (by omega), m (i - 2) (by omega) (by omega),
    m (i - 1) (by omega) (by omega), m (i + 1) (by omega) (by omega), m (i + 2) (by omega) (by omega)]

theorem akimaInit_congr {x y x' y' : Nat → K} {n : Nat} (hx : ∀ j, j < n → x j = x' j)
    (hy : ∀ j, j < n → y j = y' j) : akimaInit x y n = akimaInit x' y' n := by
  rw [akimaInit_spec, akimaInit_spec]
  have hi : Increasing x n ↔ Increasing x' n := by
    simp only [Increasing]
    constructor
    · intro h j hj; rw [← hx j (by omega), ← hx (j + 1) hj]; exact h j hj
    · intro h j hj; rw [hx j (by omega), hx (j + 1) hj]; exact h j hj
  by_cases h : 3 ≤ n ∧ Increasing x n
  · rw [if_pos h, if_pos ⟨h.1, hi.1 h.2⟩, hx (n - 1) (by omega), hy (n - 1) (by omega)]
    have : (List.range (n - 1)).map (segAt x y n) = (List.range (n - 1)).map (segAt x' y' n) :=
      List.map_congr_left fun j hj => segAt_congr h.1 hx hy (by have := List.mem_range.1 hj; omega)
    rw [this]
  · rw [if_neg h, if_neg (fun hh => h ⟨hh.1, hi.2 hh.2⟩)]

/-! ### Evaluation -/

theorem takeWhile_range_length {x : Nat → K} {n : Nat} (v : K) (k : Nat) (hk : k ≤ n)
    (h1 : ∀ j, j < k → x j ≤ v) (h2 : k < n → v < x k) :
    upperBound ((List.range n).map x) v = k := by
  have : (List.range n).map x = (List.range k).map x ++ (List.range' k (n - k)).map x := by
    rw [← List.map_append, List.range_eq_range', List.range_eq_range']
    congr 1
    have := @List.range'_append_1 0 k (n - k)
    rw [Nat.zero_add] at this
    rw [this]
    congr 1
    omega
  simp only [upperBound]
  rw [this, List.takeWhile_append_of_pos]
  · rw [List.length_append, List.length_map, List.length_range]
    have : List.takeWhile (fun a => decide (a ≤ v)) ((List.range' k (n - k)).map x) = [] := by
      by_cases hkn : k < n
      · obtain ⟨m, hm⟩ : ∃ m, n - k = m + 1 := ⟨n - k - 1, by omega⟩
        rw [hm, List.range'_succ, List.map_cons, List.takeWhile_cons_of_neg]
        simpa using h2 hkn
      · have : n - k = 0 := by omega
        rw [this]; rfl
    rw [this]; simp
  · intro a ha
    simp only [List.mem_map, List.mem_range] at ha
    obtain ⟨j, hj, rfl⟩ := ha
    simpa using h1 j hj

/-- A query in `[x k, x (k+1))` uses segment `k`; the last segment also takes everything beyond its end. -/
theorem eval_segment {x y : Nat → K} {n : Nat} (hn : 3 ≤ n) (hi : Increasing x n) {s : Spline K}
    (hs : akimaInit x y n = .ok s) {v : K} {k : Nat} (hk : k + 1 < n) (h1 : x k ≤ v)
    (h2 : k + 2 < n → v < x (k + 1)) : s.eval v = .ok ((segAt x y n k).eval v) := by
  rw [akimaInit_spec, if_pos ⟨hn, hi⟩] at hs
  cases hs
  have hne : (List.range (n - 1)).map (segAt x y n) = segAt x y n 0 :: (List.range' 1 (n - 2)).map (segAt x y n) := by
    obtain ⟨m, rfl⟩ : ∃ m, n = m + 2 := ⟨n - 2, by omega⟩
    rw [List.range_eq_range', show m + 2 - 1 = m + 1 from rfl, List.range'_succ]
    rfl
  have hx0 : ¬ v < x 0 := by
    rcases Nat.eq_zero_or_pos k with e | e
    · subst e; exact not_lt.2 h1
    · exact not_lt.2 (le_trans (le_of_lt (hi.lt e (by omega))) h1)
  have hub : upperBound (((List.range (n - 1)).map (segAt x y n)).map Seg.x) v = k + 1 := by
    rw [List.map_map]
    refine takeWhile_range_length (x := x) (n := n - 1) v (k + 1) (by omega) ?_ ?_
    · intro j hj
      rcases Nat.eq_or_lt_of_le (Nat.lt_succ_iff.1 hj) with e | e
      · subst e; exact h1
      · exact le_trans (le_of_lt (hi.lt e (by omega))) h1
    · intro h; exact h2 (by omega)
  simp only [Spline.eval]
  rw [hub]
  simp only [hne]
  rw [if_neg (show ¬ v < (segAt x y n 0).x from hx0), ← hne]
  simp [List.getElem?_range (show k < n - 1 by omega)]

theorem eval_before {x y : Nat → K} {n : Nat} {s : Spline K}
    (hs : akimaInit x y n = .ok s) {v : K} (h : v < x 0) : s.eval v = .ok ((segAt x y n 0).eval v) := by
  rw [akimaInit_spec] at hs
  split at hs
  · rename_i hc
    cases hs
    have hne : (List.range (n - 1)).map (segAt x y n) = segAt x y n 0 :: (List.range' 1 (n - 2)).map (segAt x y n) := by
      obtain ⟨m, rfl⟩ : ∃ m, n = m + 2 := ⟨n - 2, by omega⟩
      rw [List.range_eq_range', show m + 2 - 1 = m + 1 from rfl, List.range'_succ]
      rfl
    simp only [Spline.eval, hne]
    rw [if_pos (show v < (segAt x y n 0).x from h)]
  · cases hs

/-- Which segment a query uses. -/
theorem exists_segment {x : Nat → K} {n : Nat} (hn : 2 ≤ n) (v : K) (h0 : x 0 ≤ v) :
    ∃ k, k + 1 < n ∧ x k ≤ v ∧ (k + 2 < n → v < x (k + 1)) := by
  have : ∀ m, m + 1 < n → (∃ k, k ≤ m ∧ x k ≤ v ∧ (k < m → v < x (k + 1))) := by
    intro m
    induction m with
    | zero => intro _; exact ⟨0, Nat.le_refl 0, h0, fun h => absurd h (by omega)⟩
    | succ m ih =>
      intro hm
      obtain ⟨k, h1, h2, h3⟩ := ih (by omega)
      by_cases hkm : k < m
      · exact ⟨k, by omega, h2, fun _ => h3 hkm⟩
      · have : k = m := by omega
        subst this
        by_cases hv : x (k + 1) ≤ v
        · exact ⟨k + 1, Nat.le_refl _, hv, fun h => absurd h (by omega)⟩
        · exact ⟨k, by omega, h2, fun _ => not_le.1 hv⟩
  obtain ⟨k, h1, h2, h3⟩ := this (n - 2) (by omega)
  exact ⟨k, by omega, h2, fun h => h3 (by omega)⟩

/-! ### Straight lines -/

theorem mHelper_line {x y : Nat → K} {n : Nat} {p q : K} (hn : 3 ≤ n) (hi : Increasing x n)
    (hy : ∀ j, j < n → y j = p + q * x j) {i : Int} (_ : -2 ≤ i) (_ : i ≤ n) : mHelper x y n i = q := by
  have c : ∀ j, j + 1 < n → chord x y j = q := by
    intro j hj
    have hx : x (j + 1) - x j ≠ 0 := by intro h0; have := hi j hj; linarith
    simp only [chord]
    rw [hy j (by omega), hy (j + 1) hj]
    field_simp
    ring
  simp only [mHelper]
  rw [c 0 (by omega), c 1 (by omega), c (n - 2) (by omega), c (n - 3) (by omega)]
  split
  · ring
  split
  · ring
  split
  · ring
  split
  · ring
  · exact c _ (by omega)

theorem segAt_line {x y : Nat → K} {n : Nat} {p q : K} (hn : 3 ≤ n) (hi : Increasing x n)
    (hy : ∀ j, j < n → y j = p + q * x j) {i : Nat} (h : i + 1 < n) :
    segAt x y n i = ⟨x i, p + q * x i, q, 0, 0⟩ := by
  have m : ∀ j : Int, -2 ≤ j → j ≤ n → mHelper x y n j = q := fun j h1 h2 => mHelper_line hn hi hy h1 h2
  simp only [segAt, tRight, tLeft]
  rw [hy i (by omega), m i (by omega) (by omega), m (i - 2) (by omega) (by omega),
    m (i - 1) (by omega) (by omega), m (i + 1) (by omega) (by omega), m (i + 2) (by omega) (by omega)]
  have e1 : 3 * q - 2 * q - q = 0 := by ring
  have e2 : q + q - 2 * q = 0 := by ring
  simp [e1, e2]

end Verif.Interp
