import Verif.Interp.AkimaExact
import Verif.Interp.Tame
import Mathlib.Data.Rat.Cast.Order

/-!
# A table whose Akima spline stays between two bounds

A cubic on an interval lies between the least and the greatest of its four control points: the two end values, the start value plus
a third of the interval times the slope at the start, and the end value minus a third of the interval times the slope at the end. The
slopes of an Akima spline lie between the slopes of neighbouring chords, so the bounds can be checked row by row.
-/

set_option linter.unusedSectionVars false

namespace Verif.Interp

section General

variable {K : Type} [Field K] [LinearOrder K] [IsStrictOrderedRing K]

def slope (p q : K × K) : K := (q.2 - p.2) / (q.1 - p.1)

/-- One interval, from row `p` to row `q`, with the slopes of the chords before it, of its own and after it. -/
structure Held (lo hi : K) (p q : K × K) (m0 m1 m2 : K) : Prop where
  inc : p.1 < q.1
  p_lo : lo ≤ p.2
  p_hi : p.2 ≤ hi
  q_lo : lo ≤ q.2
  q_hi : q.2 ≤ hi
  p0_lo : lo ≤ p.2 + (q.1 - p.1) * m0 / 3
  p0_hi : p.2 + (q.1 - p.1) * m0 / 3 ≤ hi
  p1_lo : lo ≤ p.2 + (q.1 - p.1) * m1 / 3
  p1_hi : p.2 + (q.1 - p.1) * m1 / 3 ≤ hi
  q1_lo : lo ≤ q.2 - (q.1 - p.1) * m1 / 3
  q1_hi : q.2 - (q.1 - p.1) * m1 / 3 ≤ hi
  q2_lo : lo ≤ q.2 - (q.1 - p.1) * m2 / 3
  q2_hi : q.2 - (q.1 - p.1) * m2 / 3 ≤ hi

/-- Every interval of a list of rows; `m0` is the slope before the first, and the one after the last is extrapolated. -/
def Tame (lo hi : K) : K → List (K × K) → Prop
  | m0, p :: q :: r :: rest => Held lo hi p q m0 (slope p q) (slope q r) ∧ Tame lo hi (slope p q) (q :: r :: rest)
  | m0, [p, q] => Held lo hi p q m0 (slope p q) (2 * slope p q - m0)
  | _, _ => True

/-- The whole table, the slope before the first row extrapolated. -/
def TameTable (lo hi : K) : List (K × K) → Prop
  | p :: q :: r :: rest => Tame lo hi (2 * slope p q - slope q r) (p :: q :: r :: rest)
  | _ => False

theorem Tame.get {lo hi : K} (l : List (K × K)) (m0 : K) (h : Tame lo hi m0 l) (i : Nat) (hi' : i + 1 < l.length) :
    Held lo hi (l.getD i 0) (l.getD (i + 1) 0) (if i = 0 then m0 else slope (l.getD (i - 1) 0) (l.getD i 0))
      (slope (l.getD i 0) (l.getD (i + 1) 0))
      (if i + 2 < l.length then slope (l.getD (i + 1) 0) (l.getD (i + 2) 0)
        else 2 * slope (l.getD i 0) (l.getD (i + 1) 0) - (if i = 0 then m0 else slope (l.getD (i - 1) 0) (l.getD i 0))) := by
  induction l generalizing m0 i with
  | nil => simp at hi'
  | cons p l ih =>
    match l, h with
    | [], _ => simp at hi'
    | [q], h =>
      have : i = 0 := by simp at hi'; omega
      subst this
      simpa [Tame] using h
    | q :: r :: rest, h =>
      obtain ⟨h1, h2⟩ := h
      cases i with
      | zero => simpa using h1
      | succ i =>
        have := ih (slope p q) h2 i (by simpa using hi')
        cases i with
        | zero => simpa using this
        | succ j =>
          simp only [Nat.add_eq_zero_iff, one_ne_zero, and_false, if_false, Nat.add_sub_cancel] at this ⊢
          simpa using this

/-- A cubic between its control points. -/
theorem cubic_between (lo hi c0 c1 c2 c3 t : K) (h0 : 0 ≤ t) (h1 : t ≤ 1) (a0 : lo ≤ c0) (b0 : c0 ≤ hi) (a1 : lo ≤ c1)
    (b1 : c1 ≤ hi) (a2 : lo ≤ c2) (b2 : c2 ≤ hi) (a3 : lo ≤ c3) (b3 : c3 ≤ hi) :
    lo ≤ (1 - t) ^ 3 * c0 + 3 * t * (1 - t) ^ 2 * c1 + 3 * t ^ 2 * (1 - t) * c2 + t ^ 3 * c3 ∧
    (1 - t) ^ 3 * c0 + 3 * t * (1 - t) ^ 2 * c1 + 3 * t ^ 2 * (1 - t) * c2 + t ^ 3 * c3 ≤ hi := by
  have hs : 0 ≤ 1 - t := sub_nonneg.2 h1
  have w0 : 0 ≤ (1 - t) ^ 3 := by positivity
  have w1 : 0 ≤ 3 * t * (1 - t) ^ 2 := by positivity
  have w2 : 0 ≤ 3 * t ^ 2 * (1 - t) := by positivity
  have w3 : 0 ≤ t ^ 3 := by positivity
  have one : (1 - t) ^ 3 + 3 * t * (1 - t) ^ 2 + 3 * t ^ 2 * (1 - t) + t ^ 3 = 1 := by ring
  generalize (1 - t) ^ 3 = u0 at *
  generalize 3 * t * (1 - t) ^ 2 = u1 at *
  generalize 3 * t ^ 2 * (1 - t) = u2 at *
  generalize t ^ 3 = u3 at *
  constructor
  · have := mul_le_mul_of_nonneg_left a0 w0
    have := mul_le_mul_of_nonneg_left a1 w1
    have := mul_le_mul_of_nonneg_left a2 w2
    have := mul_le_mul_of_nonneg_left a3 w3
    have e : lo = u0 * lo + u1 * lo + u2 * lo + u3 * lo := by rw [← add_mul, ← add_mul, ← add_mul, one, one_mul]
    linarith
  · have := mul_le_mul_of_nonneg_left b0 w0
    have := mul_le_mul_of_nonneg_left b1 w1
    have := mul_le_mul_of_nonneg_left b2 w2
    have := mul_le_mul_of_nonneg_left b3 w3
    have e : hi = u0 * hi + u1 * hi + u2 * hi + u3 * hi := by rw [← add_mul, ← add_mul, ← add_mul, one, one_mul]
    linarith

theorem scaled_between {lo hi c h u w m : K} (hh : 0 ≤ h) (u1 : lo ≤ c + h * u / 3) (u2 : c + h * u / 3 ≤ hi)
    (w1 : lo ≤ c + h * w / 3) (w2 : c + h * w / 3 ≤ hi) (m1 : min u w ≤ m) (m2 : m ≤ max u w) :
    lo ≤ c + h * m / 3 ∧ c + h * m / 3 ≤ hi := by
  constructor
  · rcases min_choice u w with e | e <;> rw [e] at m1 <;> have := mul_le_mul_of_nonneg_left m1 hh <;> linarith
  · rcases max_choice u w with e | e <;> rw [e] at m2 <;> have := mul_le_mul_of_nonneg_left m2 hh <;> linarith

/-- The cubic of one interval of the spline. -/
theorem segAt_between {x y : Nat → K} {n i : Nat} {lo hi v : K} (hi' : i + 1 < n)
    (h : Held lo hi (x i, y i) (x (i + 1), y (i + 1)) (mHelper x y n (i - 1)) (mHelper x y n i) (mHelper x y n (i + 1)))
    (h1 : x i ≤ v) (h2 : v ≤ x (i + 1)) : lo ≤ (segAt x y n i).eval v ∧ (segAt x y n i).eval v ≤ hi := by
  have hd : 0 < x (i + 1) - x i := sub_pos.2 h.inc
  have r := weighted_between |mHelper x y n (i - 2) - mHelper x y n (i - 1)| |mHelper x y n i - mHelper x y n (i + 1)|
    (mHelper x y n (i - 1)) (mHelper x y n i) (abs_nonneg _) (abs_nonneg _)
  have l : min (mHelper x y n i) (mHelper x y n (i + 1)) ≤ tLeft x y n i ∧
      tLeft x y n i ≤ max (mHelper x y n i) (mHelper x y n (i + 1)) := by
    have w := weighted_between |mHelper x y n (i - 1) - mHelper x y n i| |mHelper x y n (i + 1) - mHelper x y n (i + 2)|
      (mHelper x y n i) (mHelper x y n (i + 1)) (abs_nonneg _) (abs_nonneg _)
    by_cases c : |mHelper x y n (i - 1) - mHelper x y n i| + |mHelper x y n (i + 1) - mHelper x y n (i + 2)| > 0
    · rw [if_pos c] at w
      simp only [tLeft]; rw [if_pos c]; exact w
    · simp only [tLeft]; rw [if_neg c]
      exact ⟨min_le_left _ _, le_max_left _ _⟩
  have r' : min (mHelper x y n (i - 1)) (mHelper x y n i) ≤ tRight x y n i ∧
      tRight x y n i ≤ max (mHelper x y n (i - 1)) (mHelper x y n i) := r
  obtain ⟨s1, s2⟩ := scaled_between hd.le h.p0_lo h.p0_hi h.p1_lo h.p1_hi r'.1 r'.2
  obtain ⟨s3, s4⟩ : lo ≤ y (i + 1) - (x (i + 1) - x i) * tLeft x y n i / 3 ∧
      y (i + 1) - (x (i + 1) - x i) * tLeft x y n i / 3 ≤ hi := by
    have := scaled_between (lo := -hi) (hi := -lo) (c := -y (i + 1)) (h := x (i + 1) - x i) hd.le
      (by have := h.q1_hi; simp only at this; linarith) (by have := h.q1_lo; simp only at this; linarith)
      (by have := h.q2_hi; simp only at this; linarith) (by have := h.q2_lo; simp only at this; linarith) l.1 l.2
    constructor <;> linarith [this.1, this.2]
  have t0 : 0 ≤ (v - x i) / (x (i + 1) - x i) := div_nonneg (by linarith) hd.le
  have t1 : (v - x i) / (x (i + 1) - x i) ≤ 1 := (div_le_one hd).2 (by linarith)
  have := cubic_between lo hi _ _ _ _ _ t0 t1 h.p_lo h.p_hi s1 s2 s3 s4 h.q_lo h.q_hi
  have e : (segAt x y n i).eval v = (1 - (v - x i) / (x (i + 1) - x i)) ^ 3 * y i +
      3 * ((v - x i) / (x (i + 1) - x i)) * (1 - (v - x i) / (x (i + 1) - x i)) ^ 2 *
        (y i + (x (i + 1) - x i) * tRight x y n i / 3) +
      3 * ((v - x i) / (x (i + 1) - x i)) ^ 2 * (1 - (v - x i) / (x (i + 1) - x i)) *
        (y (i + 1) - (x (i + 1) - x i) * tLeft x y n i / 3) +
      ((v - x i) / (x (i + 1) - x i)) ^ 3 * y (i + 1) := by
    have hx : x (i + 1) - x i ≠ 0 := hd.ne'
    simp only [Seg.eval, segAt, mHelper_nat hi', chord]
    generalize x (i + 1) - x i = d at *
    generalize v - x i = z at *
    field_simp
    ring
  rw [e]
  exact this

/-- The spline of a tame table is accepted and stays between the bounds. -/
theorem tame_between {lo hi : K} (l : List (K × K)) (h : TameTable lo hi l) :
    ∃ s, ofVectors (l.map Prod.fst) (l.map Prod.snd) = .ok s ∧
      ∀ v, (l.map Prod.fst).getD 0 0 ≤ v → v ≤ (l.map Prod.fst).getD ((l.map Prod.fst).length - 1) 0 →
        ∃ w, s.eval v = .ok w ∧ lo ≤ w ∧ w ≤ hi := by
  match l, h with
  | p :: q :: r :: rest, h =>
    generalize hl : p :: q :: r :: rest = l
    have hn : 3 ≤ l.length := by rw [← hl]; simp
    have h : Tame lo hi (2 * slope (l.getD 0 0) (l.getD 1 0) - slope (l.getD 1 0) (l.getD 2 0)) l := by
      subst hl; exact h
    have fst : ∀ j, (l.map Prod.fst).getD j 0 = (l.getD j 0).1 := by
      intro j; simp only [List.getD_eq_getElem?_getD, List.getElem?_map]; cases l[j]? <;> rfl
    have snd : ∀ j, (l.map Prod.snd).getD j 0 = (l.getD j 0).2 := by
      intro j; simp only [List.getD_eq_getElem?_getD, List.getElem?_map]; cases l[j]? <;> rfl
    have held := h.get
    have inc : Increasing (fun j => (l.map Prod.fst).getD j 0) l.length := by
      intro j hj
      simp only [fst]
      exact (held j hj).inc
    have ch : ∀ j, chord (fun j => (l.map Prod.fst).getD j 0) (fun j => (l.map Prod.snd).getD j 0) j =
        slope (l.getD j 0) (l.getD (j + 1) 0) := by
      intro j; simp only [chord, fst, snd, slope]
    have hs : ∃ s, akimaInit (fun j => (l.map Prod.fst).getD j 0) (fun j => (l.map Prod.snd).getD j 0) l.length = .ok s := by
      rw [akimaInit_spec, if_pos ⟨hn, inc⟩]; exact ⟨_, rfl⟩
    obtain ⟨s, hs⟩ := hs
    refine ⟨s, ?_, fun v h0 h1 => ?_⟩
    · rw [ofVectors, if_pos (by simp), List.length_map]; exact hs
    obtain ⟨k, hk, hk1, hk2⟩ := exists_segment (x := fun j => (l.map Prod.fst).getD j 0) (n := l.length) (by omega) v h0
    refine ⟨_, eval_segment hn inc hs hk hk1 hk2, ?_⟩
    have hv : v ≤ (l.map Prod.fst).getD (k + 1) 0 := by
      by_cases c : k + 2 < l.length
      · exact (hk2 c).le
      · rw [List.length_map] at h1
        rwa [show k + 1 = l.length - 1 by omega]
    refine segAt_between hk ?_ hk1 hv
    have hh := held k hk
    have e1 : mHelper (fun j => (l.map Prod.fst).getD j 0) (fun j => (l.map Prod.snd).getD j 0) l.length ((k : Int) - 1) =
        if k = 0 then 2 * slope (l.getD 0 0) (l.getD 1 0) - slope (l.getD 1 0) (l.getD 2 0)
          else slope (l.getD (k - 1) 0) (l.getD k 0) := by
      by_cases c : k = 0
      · subst c
        rw [if_pos rfl, mHelper, if_neg (by omega), if_pos (by omega), ch, ch]
      · obtain ⟨j, rfl⟩ : ∃ j, k = j + 1 := ⟨k - 1, by omega⟩
        rw [if_neg c, show ((j + 1 : Nat) : Int) - 1 = (j : Int) by omega, mHelper_nat (by omega), ch]
        rfl
    have e2 : mHelper (fun j => (l.map Prod.fst).getD j 0) (fun j => (l.map Prod.snd).getD j 0) l.length (k : Int) =
        slope (l.getD k 0) (l.getD (k + 1) 0) := by rw [mHelper_nat hk, ch]
    have e3 : mHelper (fun j => (l.map Prod.fst).getD j 0) (fun j => (l.map Prod.snd).getD j 0) l.length ((k : Int) + 1) =
        if k + 2 < l.length then slope (l.getD (k + 1) 0) (l.getD (k + 2) 0)
        else 2 * slope (l.getD k 0) (l.getD (k + 1) 0) -
          (if k = 0 then 2 * slope (l.getD 0 0) (l.getD 1 0) - slope (l.getD 1 0) (l.getD 2 0)
            else slope (l.getD (k - 1) 0) (l.getD k 0)) := by
      by_cases c : k + 2 < l.length
      · rw [if_pos c, show (k : Int) + 1 = ((k + 1 : Nat) : Int) by omega, mHelper_nat (by omega), ch]
      · have hk' : k + 2 = l.length := by omega
        rw [if_neg c, if_neg (by omega : ¬ k = 0), mHelper, if_neg (by omega), if_neg (by omega), if_pos (by omega), ch, ch]
        rw [← hk', show k + 2 - 2 = k by omega, show k + 2 - 3 = k - 1 by omega, show k - 1 + 1 = k by omega]
    rw [e1, e2, e3]
    simp only [fst, snd]
    exact hh

end General

section Cast

variable {K : Type} [Field K] [LinearOrder K] [IsStrictOrderedRing K]

def castRow (p : Rat × Rat) : K × K := ((p.1 : K), (p.2 : K))

theorem slope_cast (p q : Rat × Rat) : slope (castRow p : K × K) (castRow q) = ((slopeQ p q : Rat) : K) := by
  simp only [slope, slopeQ, castRow]; push_cast; rfl

theorem held_cast {lo hi : Rat} {p q : Rat × Rat} {m0 m1 m2 : Rat} (h : heldQ lo hi p q m0 m1 m2 = true) :
    Held (lo : K) (hi : K) (castRow p) (castRow q) (m0 : K) (m1 : K) (m2 : K) := by
  simp only [heldQ, within, Bool.and_eq_true, decide_eq_true_eq] at h
  obtain ⟨⟨⟨⟨⟨⟨h1, h2⟩, h3⟩, h4⟩, h5⟩, h6⟩, h7⟩ := h
  have e : ∀ a b m : Rat, a + b * m / 3 = a + b / 3 * m := fun a b m => by ring
  have e' : ∀ a b m : Rat, a - b * m / 3 = a - b / 3 * m := fun a b m => by ring
  refine ⟨?_, ?_, ?_, ?_, ?_, ?_, ?_, ?_, ?_, ?_, ?_, ?_, ?_⟩ <;> simp only [castRow]
  · exact_mod_cast h1
  · exact_mod_cast h2.1
  · exact_mod_cast h2.2
  · exact_mod_cast h3.1
  · exact_mod_cast h3.2
  · have := h4.1; rw [← e] at this; exact_mod_cast this
  · have := h4.2; rw [← e] at this; exact_mod_cast this
  · have := h5.1; rw [← e] at this; exact_mod_cast this
  · have := h5.2; rw [← e] at this; exact_mod_cast this
  · have := h6.1; rw [← e'] at this; exact_mod_cast this
  · have := h6.2; rw [← e'] at this; exact_mod_cast this
  · have := h7.1; rw [← e'] at this; exact_mod_cast this
  · have := h7.2; rw [← e'] at this; exact_mod_cast this

theorem tame_cast {lo hi : Rat} (l : List (Rat × Rat)) (m0 : Rat) (h : tameQ lo hi m0 l = true) :
    Tame (lo : K) (hi : K) (m0 : K) (l.map castRow) := by
  induction l generalizing m0 with
  | nil => trivial
  | cons p l ih =>
    match l, h with
    | [], _ => trivial
    | [q], h =>
      have := held_cast (K := K) (h : heldQ lo hi p q m0 (slopeQ p q) (2 * slopeQ p q - m0) = true)
      simp only [List.map_cons, List.map_nil, Tame, slope_cast]
      push_cast at this
      exact this
    | q :: r :: rest, h =>
      simp only [tameQ, Bool.and_eq_true] at h
      simp only [List.map_cons, Tame, slope_cast]
      exact ⟨held_cast h.1, ih _ h.2⟩

theorem tameTable_cast {lo hi : Rat} (l : List (Rat × Rat)) (h : tameTableQ lo hi l = true) :
    TameTable (lo : K) (hi : K) (l.map castRow) := by
  match l, h with
  | p :: q :: r :: rest, h =>
    have := tame_cast (K := K) _ _ (h : tameQ lo hi (2 * slopeQ p q - slopeQ q r) (p :: q :: r :: rest) = true)
    simp only [List.map_cons, TameTable, slope_cast]
    push_cast at this
    exact this

end Cast

end Verif.Interp
