import Verif.Py.Model
import Verif.MArray.Props

/-! Lemmas on walking over row-major arrays. -/

namespace Verif.Py

open Verif.Marr

theorem size_pos {t : NpType} (h : accepted t = true) : 0 < t.size := by
  cases t <;> simp [accepted, NpType.size] at h ⊢

/-- In a row-major array the elements follow each other. -/
theorem dot_contig {size : Nat} : ∀ {shape : List Nat} {strides : List Int} {idx : List Nat}, contigFrom size shape strides = true →
    InRange shape idx → dot idx strides = ((rowMajor shape idx * size : Nat) : Int) := by
  intro shape
  induction shape with
  | nil =>
    intro strides idx _ hi
    rw [InRange.nil_iff] at hi
    subst hi
    simp [dot, rowMajor]
  | cons n ns ih =>
    intro strides idx h hi
    cases strides with
    | nil => simp [contigFrom] at h
    | cons s ss =>
      cases hi with
      | cons hlt hr =>
        rename_i i is
        simp only [contigFrom, Bool.and_eq_true, Bool.or_eq_true, decide_eq_true_eq] at h
        obtain ⟨h1, h2⟩ := h
        simp only [dot, rowMajor, ih h2 hr]
        rcases h1 with h1 | h1
        · have : i = 0 := by omega
          subst this
          simp
        · rw [h1]
          push_cast
          ring

theorem contig_cStrides (size : Nat) : ∀ shape : List Nat, contigFrom size shape (cStrides size shape) = true := by
  intro shape
  induction shape with
  | nil => rfl
  | cons n ns ih => simp [contigFrom, cStrides, ih]

theorem drop_flatMap {α : Type u} {β : Type v} {f : α → List β} {m : Nat} : ∀ (l : List α) (p : Nat) (h : p < l.length),
    (∀ a ∈ l, (f a).length = m) → ((l.flatMap f).drop (p * m)).take m = f l[p] := by
  intro l
  induction l with
  | nil => intro p h; simp at h
  | cons a l ih =>
    intro p h hl
    have ha := hl a (by simp)
    cases p with
    | zero => simp [← ha]
    | succ p =>
      have e : (p + 1) * m = (f a).length + p * m := by rw [ha]; ring
      simp only [List.flatMap_cons, List.getElem_cons_succ]
      rw [e, List.drop_length_add_append]
      exact ih p (by simpa using h) fun b hb => hl b (by simp [hb])

theorem flatMap_len {α : Type u} {β : Type v} {f : α → List β} {m : Nat} {l : List α} (h : ∀ a ∈ l, (f a).length = m) : (l.flatMap f).length = l.length * m := by
  induction l with
  | nil => simp
  | cons a l ih =>
    simp only [List.flatMap_cons, List.length_append, List.length_cons]
    rw [h a (by simp), ih fun b hb => h b (by simp [hb])]
    ring

theorem bytes_length {a : NpArray} {p : Int} {b : List UInt8} (h : a.bytes p = some b) : b.length = a.typ.size := by
  unfold NpArray.bytes at h
  by_cases hc : 0 ≤ p ∧ p + a.typ.size ≤ a.mem.length
  · rw [if_pos hc] at h
    cases h
    simp
    omega
  · rw [if_neg hc] at h
    cases h

/-- The element with row-major number `p`. -/
def NpArray.nth (a : NpArray) (p : Nat) : Option (List UInt8) := a.bytes (a.addr (unflat a.shape p))

theorem nth_contig {a : NpArray} (hc : contigFrom a.typ.size a.shape a.strides = true) {p : Nat} (hp : p < a.shape.prod) :
    a.bytes (a.offset + ((p * a.typ.size : Nat) : Int)) = a.nth p := by
  unfold NpArray.nth NpArray.addr
  rw [dot_contig hc (unflat_inRange _ _ hp), rowMajor_unflat _ _ hp]

theorem nth_copy {a : NpArray} (hv : ∀ q, q < a.shape.prod → (a.nth q).isSome) (base : Nat) {p : Nat} (hp : p < a.shape.prod) :
    (a.copy base).bytes (((p * a.typ.size : Nat) : Int)) = a.nth p := by
  have hlen : ∀ q ∈ List.range a.shape.prod, ((a.nth q).getD []).length = a.typ.size := by
    intro q hq
    obtain ⟨b, hb⟩ := Option.isSome_iff_exists.1 (hv q (List.mem_range.1 hq))
    rw [hb]
    exact bytes_length hb
  have hl := flatMap_len hlen
  rw [List.length_range] at hl
  have hb : (p + 1) * a.typ.size ≤ a.shape.prod * a.typ.size := Nat.mul_le_mul_right _ hp
  unfold NpArray.bytes NpArray.copy
  dsimp only
  have e : (List.range a.shape.prod).flatMap (fun p => (a.bytes (a.addr (unflat a.shape p))).getD []) =
      (List.range a.shape.prod).flatMap (fun p => (a.nth p).getD []) := rfl
  rw [e, if_pos (by rw [hl]; push_cast; constructor <;> [positivity; (have := Int.ofNat_le.2 hb; push_cast at this; linarith)])]
  rw [Int.toNat_natCast, drop_flatMap _ p (by simpa using hp) hlen, List.getElem_range]
  obtain ⟨b, hb⟩ := Option.isSome_iff_exists.1 (hv p hp)
  rw [hb]
  rfl

section
variable {K : Type u}

theorem innerLoop_spec (dec : NpType → List UInt8 → K) (c : NpArray) (vals : Nat → K) (n : Nat)
    (hr : ∀ p, p < n → readAs dec c (c.offset + ((p * c.typ.size : Nat) : Int)) = .ok (vals p)) : ∀ (count it : Nat) (xs : List K),
    xs.length = n → it + count ≤ n → ∃ ys, innerLoop dec c c.typ.size count (c.offset + ((it * c.typ.size : Nat) : Int)) xs it = .ok (ys, it + count) ∧
      ys.length = n ∧ ∀ q, q < n → ys[q]? = if it ≤ q ∧ q < it + count then some (vals q) else xs[q]? := by
  intro count
  induction count with
  | zero =>
    intro it xs hx hl
    refine ⟨xs, rfl, hx, ?_⟩
    intro q _
    rw [if_neg (by omega)]
  | succ count ih =>
    intro it xs hx hl
    have hs : store xs it (vals it) = .ok (xs.set it (vals it), it + 1) := if_pos (by omega)
    obtain ⟨ys, h1, h2, h3⟩ := ih (it + 1) (xs.set it (vals it)) (by simpa using hx) (by omega)
    refine ⟨ys, ?_, h2, ?_⟩
    · unfold innerLoop
      rw [hr it (by omega)]
      dsimp only [Outcome.bind_ok]
      rw [hs]
      dsimp only [Outcome.bind_ok]
      have e : c.offset + ((it * c.typ.size : Nat) : Int) + (c.typ.size : Int) = c.offset + (((it + 1) * c.typ.size : Nat) : Int) := by
        push_cast; ring
      rw [e, h1]
      congr 2
      omega
    · intro q hq
      rw [h3 q hq]
      by_cases c1 : it + 1 ≤ q ∧ q < it + 1 + count
      · rw [if_pos c1, if_pos (by omega)]
      · rw [if_neg c1]
        by_cases c2 : q = it
        · subst c2
          rw [if_pos (by omega), List.getElem?_set_self (by omega)]
        · rw [if_neg (by omega), List.getElem?_set_ne (by omega)]

theorem outerLoop_spec (dec : NpType → List UInt8 → K) (c : NpArray) (vals : Nat → K) (n : Nat)
    (hr : ∀ p, p < n → readAs dec c (c.offset + ((p * c.typ.size : Nat) : Int)) = .ok (vals p)) (inner : Nat) : ∀ (k j : Nat) (xs : List K),
    xs.length = n → (j + k) * inner ≤ n →
    ∃ ys, outerLoop dec c c.typ.size inner ((List.range' j k).map fun j => c.offset + ((j * inner * c.typ.size : Nat) : Int)) xs (j * inner) =
        .ok (ys, (j + k) * inner) ∧ ys.length = n ∧
      ∀ q, q < n → ys[q]? = if j * inner ≤ q ∧ q < (j + k) * inner then some (vals q) else xs[q]? := by
  intro k
  induction k with
  | zero =>
    intro j xs hx _
    refine ⟨xs, rfl, hx, ?_⟩
    intro q _
    rw [if_neg (by simp)]
  | succ k ih =>
    intro j xs hx hl
    have e1 : (j + 1) * inner = j * inner + inner := by ring
    have e2 : (j + (k + 1)) * inner = (j + 1 + k) * inner := by ring
    have e3 : (j + 1) * inner ≤ (j + 1 + k) * inner := Nat.mul_le_mul_right _ (by omega)
    obtain ⟨ys, h1, h2, h3⟩ := innerLoop_spec dec c vals n hr inner (j * inner) xs hx (by omega)
    obtain ⟨zs, g1, g2, g3⟩ := ih (j + 1) ys h2 (by omega)
    refine ⟨zs, ?_, g2, ?_⟩
    · rw [List.range'_succ, List.map_cons]
      unfold outerLoop
      rw [h1]
      dsimp only [Outcome.bind_ok]
      rw [← e1, g1, e2]
    · intro q hq
      rw [g3 q hq, h3 q hq, e2]
      by_cases c1 : (j + 1) * inner ≤ q ∧ q < (j + 1 + k) * inner
      · rw [if_pos c1, if_pos (by omega)]
      · rw [if_neg c1]
        by_cases c2 : j * inner ≤ q ∧ q < j * inner + inner
        · rw [if_pos c2, if_pos (by omega)]
        · rw [if_neg c2, if_neg (by omega)]

end

end Verif.Py
