import Verif.MArray.Lemmas
import Verif.MArray.Exc

/-! Lemmas for C07. -/

namespace Verif.Marr

theorem moveSeg_spec (xs : List α) : ∀ (k : Nat) (rest : List (Option α)) (new : List α),
    moveSeg xs.length ⟨List.replicate k none ++ xs.map some ++ rest, new, k⟩ =
      some ⟨List.replicate (k + xs.length) none ++ rest, new ++ xs, k + xs.length⟩ := by
  induction xs with
  | nil => intro k rest new; simp [moveSeg]
  | cons x xs ih =>
    intro k rest new
    have hget : (List.replicate k none ++ (x :: xs).map some ++ rest)[k]? = some (some x) := by simp
    have hset : (List.replicate k none ++ (x :: xs).map some ++ rest).set k none =
        List.replicate (k + 1) none ++ xs.map some ++ rest := by
      rw [List.replicate_succ']
      simp
    simp only [List.length_cons, moveSeg, hget, hset, ih]
    congr 2
    · congr 1; congr 1; omega
    · simp
    · omega

theorem fillSeg_spec (val : α) (n : Nat) : ∀ (j : Nat) (b : Option Nat) (new : List α),
    (∃ b', fillSeg val n j b new = (new ++ List.replicate n val, j + n, b', false) ∧
        (∀ m, b = some m → n ≤ m ∧ b' = some (m - n)) ∧ (b = none → b' = none)) ∨
    (∃ m, b = some m ∧ m < n ∧ fillSeg val n j b new = (new ++ List.replicate m val, j + m, some 0, true)) := by
  induction n with
  | zero =>
    intro j b new
    left
    refine ⟨b, by simp [fillSeg], ?_, fun h => h⟩
    intro m h; exact ⟨by omega, by simpa using h⟩
  | succ n ih =>
    intro j b new
    match b with
    | some 0 => right; exact ⟨0, rfl, by omega, by simp [fillSeg]⟩
    | some (b + 1) =>
      rcases ih (j + 1) (some b) (new ++ [val]) with ⟨b', h1, h2, h3⟩ | ⟨m, h1, h2, h3⟩
      · left
        obtain ⟨h4, h5⟩ := h2 b rfl
        refine ⟨b', ?_, ?_, by simp⟩
        · simp only [fillSeg, h1, List.replicate_succ]; simp; omega
        · intro m hm
          have : m = b + 1 := by simpa using hm.symm
          subst this
          exact ⟨by omega, by rw [h5]; congr 1; omega⟩
      · right
        have : b = m := by simpa using h1
        subst this
        refine ⟨b + 1, rfl, by omega, ?_⟩
        simp only [fillSeg, h3, List.replicate_succ]; simp; omega
    | none =>
      rcases ih (j + 1) none (new ++ [val]) with ⟨b', h1, h2, h3⟩ | ⟨m, h1, _, _⟩
      · left
        refine ⟨b', ?_, by simp, fun _ => h3 rfl⟩
        simp only [fillSeg, h1, List.replicate_succ]; simp; omega
      · simp at h1

theorem putBack_spec (xs : List α) : ∀ (P Q : List (Option α)) (new : List α), xs.length ≤ Q.length →
    putBack xs.length ⟨P ++ Q, xs ++ new, P.length⟩ =
      some ⟨P ++ xs.map some ++ Q.drop xs.length, new, P.length + xs.length⟩ := by
  induction xs with
  | nil => intro P Q new _; simp [putBack]
  | cons x xs ih =>
    intro P Q new hQ
    cases Q with
    | nil => simp at hQ
    | cons q Q =>
      have hlt : P.length < (P ++ q :: Q).length := by simp
      have hset : (P ++ q :: Q).set P.length (some x) = (P ++ [some x]) ++ Q := by simp
      simp only [List.length_cons, List.cons_append, putBack, if_pos hlt, hset]
      have h1 : P.length + 1 = (P ++ [some x]).length := by simp
      rw [h1, ih (P ++ [some x]) Q new (by simpa using hQ)]
      simp; omega

/-- Contents of the new buffer after `k` complete iterations. -/
def packed (posC numC remC : Nat) (val : α) : Nat → List α → List α
  | 0, _ => []
  | k + 1, D => D.take posC ++ List.replicate numC val ++ (D.drop posC).take remC ++
      packed posC numC remC val k ((D.drop posC).drop remC)

theorem insertLoop_packed (posC numC remC : Nat) (val : α) (k : Nat) : ∀ (D : List α), k * (posC + remC) ≤ D.length →
    insertLoop posC numC remC val k D = some (packed posC numC remC val k D) := by
  induction k with
  | zero => intro D _; rfl
  | succ k ih =>
    intro D h
    have hh : (k + 1) * (posC + remC) = k * (posC + remC) + posC + remC := by ring
    have h1 : posC ≤ D.length := by omega
    have h2 : remC ≤ (D.drop posC).length := by rw [List.length_drop]; omega
    have h3 : k * (posC + remC) ≤ ((D.drop posC).drop remC).length := by
      rw [List.length_drop, List.length_drop]; omega
    simp only [insertLoop, takeExact_of_le h1, takeExact_of_le h2, ih _ h3]
    rfl

/-- The construction loop: either it finishes with the new contents, or it stops in some iteration `i` after `m` copies
of the value, everything read so far being moved out. -/
theorem moveLoop_spec (posC numC remC : Nat) (val : α) (left : Nat) : ∀ (D : List α) (i rd : Nat) (b : Option Nat)
    (new : List α), left * (posC + remC) ≤ D.length →
    (∃ s, moveLoop posC numC remC val left i b ⟨List.replicate rd none ++ D.map some, new, rd⟩ = .finished s ∧
        s.new = new ++ packed posC numC remC val left D ∧ (∀ m, b = some m → left * numC ≤ m)) ∨
    (∃ j m, j < left ∧ m < numC ∧ b = some (j * numC + m) ∧
      moveLoop posC numC remC val left i b ⟨List.replicate rd none ++ D.map some, new, rd⟩ =
        .threwAt (i + j) m ⟨List.replicate (rd + (j * (posC + remC) + posC)) none ++
            (D.drop (j * (posC + remC) + posC)).map some,
          new ++ packed posC numC remC val j D ++ (D.drop (j * (posC + remC))).take posC ++ List.replicate m val,
          rd + (j * (posC + remC) + posC)⟩) := by
  induction left with
  | zero =>
    intro D i rd b new _
    left
    exact ⟨_, rfl, by simp [packed], by simp⟩
  | succ left ih =>
    intro D i rd b new h
    have hh : (left + 1) * (posC + remC) = left * (posC + remC) + posC + remC := by ring
    have h1 : posC ≤ D.length := by omega
    have h2 : remC ≤ (D.drop posC).length := by rw [List.length_drop]; omega
    have h3 : left * (posC + remC) ≤ ((D.drop posC).drop remC).length := by
      rw [List.length_drop, List.length_drop]; omega
    have hm1 : moveSeg posC ⟨List.replicate rd none ++ D.map some, new, rd⟩ =
        some ⟨List.replicate (rd + posC) none ++ (D.drop posC).map some, new ++ D.take posC, rd + posC⟩ := by
      have := moveSeg_spec (D.take posC) rd ((D.drop posC).map some) new
      rw [List.length_take, Nat.min_eq_left h1, List.append_assoc, ← List.map_append, List.take_append_drop] at this
      exact this
    have hm2 : ∀ new2, moveSeg remC ⟨List.replicate (rd + posC) none ++ (D.drop posC).map some, new2, rd + posC⟩ =
        some ⟨List.replicate (rd + posC + remC) none ++ ((D.drop posC).drop remC).map some,
          new2 ++ (D.drop posC).take remC, rd + posC + remC⟩ := by
      intro new2
      have := moveSeg_spec ((D.drop posC).take remC) (rd + posC) (((D.drop posC).drop remC).map some) new2
      rw [List.length_take, Nat.min_eq_left h2, List.append_assoc, ← List.map_append, List.take_append_drop] at this
      exact this
    rcases fillSeg_spec val numC 0 b (new ++ D.take posC) with ⟨b', hf, hb1, hb2⟩ | ⟨m, hb, hm, hf⟩
    · rcases ih ((D.drop posC).drop remC) (i + 1) (rd + posC + remC) b'
        (new ++ D.take posC ++ List.replicate numC val ++ (D.drop posC).take remC) h3 with
        ⟨s, hs, hsn, hsb⟩ | ⟨j, m, hj, hm, hb, hs⟩
      · left
        refine ⟨s, ?_, ?_, ?_⟩
        · simp only [moveLoop, hm1, hf, hm2, hs]
        · rw [hsn]; simp [packed]
        · intro m hm
          obtain ⟨q1, q2⟩ := hb1 m hm
          have := hsb _ q2
          rw [Nat.add_mul]; omega
      · right
        have hbm : ∃ m0, b = some m0 := by
          cases b with
          | none => rw [hb2 rfl] at hb; cases hb
          | some m0 => exact ⟨m0, rfl⟩
        obtain ⟨m0, rfl⟩ := hbm
        obtain ⟨q1, q2⟩ := hb1 m0 rfl
        rw [q2] at hb
        have q3 : m0 - numC = j * numC + m := by simpa using hb
        have e1 : (j + 1) * (posC + remC) = j * (posC + remC) + posC + remC := by ring
        refine ⟨j + 1, m, by omega, hm, ?_, ?_⟩
        · congr 1; rw [Nat.add_mul]; omega
        · simp only [moveLoop, hm1, hf, hm2, hs]
          have a0 : i + 1 + j = i + (j + 1) := by omega
          have a1 : rd + posC + remC + (j * (posC + remC) + posC) = rd + ((j + 1) * (posC + remC) + posC) := by omega
          have a2 : ((D.drop posC).drop remC).drop (j * (posC + remC) + posC) =
              D.drop ((j + 1) * (posC + remC) + posC) := by
            rw [List.drop_drop, List.drop_drop]; congr 1; omega
          have a3 : ((D.drop posC).drop remC).drop (j * (posC + remC)) = D.drop ((j + 1) * (posC + remC)) := by
            rw [List.drop_drop, List.drop_drop]; congr 1; omega
          rw [a0, a1, a2, a3]
          simp only [packed, List.append_assoc]
    · right
      refine ⟨0, m, by omega, hm, by simpa using hb, ?_⟩
      simp only [moveLoop, hm1, hf]
      simp [packed]

/-- The rollback restores the cells and destroys everything that was constructed. -/
theorem rollback_spec (posC numC remC m : Nat) (val : α) (j : Nat) : ∀ (D : List α) (P Q : List (Option α)),
    j * (posC + remC) + posC ≤ D.length → j * (posC + remC) + posC ≤ Q.length →
    rollback posC numC remC m j ⟨P ++ Q, packed posC numC remC val j D ++
        (D.drop (j * (posC + remC))).take posC ++ List.replicate m val, P.length⟩ =
      some ⟨P ++ (D.take (j * (posC + remC) + posC)).map some ++ Q.drop (j * (posC + remC) + posC), [],
        P.length + (j * (posC + remC) + posC)⟩ := by
  induction j with
  | zero =>
    intro D P Q hD hQ
    simp only [Nat.zero_mul, Nat.zero_add, List.drop_zero, packed, List.nil_append] at *
    have := putBack_spec (D.take posC) P Q (List.replicate m val) (by simp; omega)
    rw [List.length_take, Nat.min_eq_left hD] at this
    simp only [rollback, this, Option.bind_some, destroySeg]
    simp
  | succ j ih =>
    intro D P Q hD hQ
    have hh : (j + 1) * (posC + remC) = j * (posC + remC) + posC + remC := by ring
    rw [hh] at hD hQ ⊢
    have h1 : posC ≤ D.length := by omega
    have h2 : remC ≤ (D.drop posC).length := by rw [List.length_drop]; omega
    have p1 := putBack_spec (D.take posC) P Q (List.replicate numC val ++ ((D.drop posC).take remC ++
      (packed posC numC remC val j ((D.drop posC).drop remC) ++
        ((D.drop (j * (posC + remC) + posC + remC)).take posC ++ List.replicate m val)))) (by simp; omega)
    rw [List.length_take, Nat.min_eq_left h1] at p1
    have p2 := putBack_spec ((D.drop posC).take remC) (P ++ (D.take posC).map some) (Q.drop posC)
      (packed posC numC remC val j ((D.drop posC).drop remC) ++
        ((D.drop (j * (posC + remC) + posC + remC)).take posC ++ List.replicate m val)) (by simp; omega)
    rw [List.length_take, Nat.min_eq_left h2] at p2
    have p3 := ih ((D.drop posC).drop remC) (P ++ (D.take posC).map some ++ ((D.drop posC).take remC).map some)
      ((Q.drop posC).drop remC) (by rw [List.length_drop, List.length_drop]; omega)
      (by rw [List.length_drop, List.length_drop]; omega)
    have hl1 : (P ++ (D.take posC).map some).length = P.length + posC := by simp; omega
    have hl2 : (P ++ (D.take posC).map some ++ ((D.drop posC).take remC).map some).length = P.length + posC + remC := by
      rw [List.length_append, hl1, List.length_map, List.length_take]; omega
    rw [hl1] at p2
    rw [hl2] at p3
    clear hl1 hl2
    simp only [rollback, packed, List.append_assoc] at p1 p2 p3 ⊢
    rw [p1]
    simp only [Option.bind_some, destroySeg, List.length_append, List.length_replicate]
    rw [if_pos (by omega)]
    simp only [Option.bind_some, List.drop_left' (List.length_replicate ..)]
    rw [p2]
    simp only [Option.bind_some]
    have e1 : ((D.drop posC).drop remC).drop (j * (posC + remC)) = D.drop (j * (posC + remC) + posC + remC) := by
      rw [List.drop_drop, List.drop_drop]; congr 1; omega
    rw [e1] at p3
    rw [p3]
    congr 2
    · congr 1
      have e2 : D.take (j * (posC + remC) + posC + remC + posC) =
          D.take posC ++ ((D.drop posC).take remC ++ ((D.drop posC).drop remC).take (j * (posC + remC) + posC)) := by
        have a1 : j * (posC + remC) + posC + remC + posC = posC + (remC + (j * (posC + remC) + posC)) := by omega
        rw [a1, List.take_add, List.take_add]
      have e3 : ((Q.drop posC).drop remC).drop (j * (posC + remC) + posC) =
          Q.drop (j * (posC + remC) + posC + remC + posC) := by
        rw [List.drop_drop, List.drop_drop]; congr 1; omega
      rw [e2, e3]
      simp only [List.map_append, List.append_assoc]
    · omega

theorem copySeg_spec (src : List α) : ∀ (b : Option Nat) (new : List α) (w : Nat),
    (∃ b', copySeg src b new w = (new ++ src, w + src.length, b', false) ∧
      (∀ m, b = some m → src.length ≤ m ∧ b' = some (m - src.length)) ∧ (b = none → b' = none)) ∨
    (∃ m, b = some m ∧ m < src.length ∧ copySeg src b new w = (new ++ src.take m, w + m, some 0, true)) := by
  induction src with
  | nil =>
    intro b new w; left
    refine ⟨b, by simp [copySeg], ?_, fun h => h⟩
    intro m h; exact ⟨by simp, by simpa using h⟩
  | cons v src ih =>
    intro b new w
    match b with
    | some 0 => right; exact ⟨0, rfl, by simp, by simp [copySeg]⟩
    | some (b + 1) =>
      rcases ih (some b) (new ++ [v]) (w + 1) with ⟨b', h1, h2, h3⟩ | ⟨m, h1, h2, h3⟩
      · left
        obtain ⟨h4, h5⟩ := h2 b rfl
        refine ⟨b', ?_, ?_, by simp⟩
        · simp only [copySeg, h1]; simp; omega
        · intro m hm
          have : m = b + 1 := by simpa using hm.symm
          subst this
          exact ⟨by simp; omega, by rw [h5]; simp⟩
      · right
        have : b = m := by simpa using h1
        subst this
        exact ⟨b + 1, rfl, by simp; omega, by simp only [copySeg, h3]; simp; omega⟩
    | none =>
      rcases ih none (new ++ [v]) (w + 1) with ⟨b', h1, h2, h3⟩ | ⟨m, h1, _, _⟩
      · left
        refine ⟨b', ?_, by simp, fun _ => h3 rfl⟩
        simp only [copySeg, h1]; simp; omega
      · simp at h1

theorem copyLoop_spec (posC numC remC : Nat) (val : α) (left : Nat) : ∀ (D : List α) (b : Option Nat) (new : List α)
    (w : Nat), w = new.length → left * (posC + remC) ≤ D.length →
    (∃ w', copyLoop posC numC remC val left D b new w = some (new ++ packed posC numC remC val left D, w', false) ∧
      (∀ m, b = some m → left * (posC + numC + remC) ≤ m)) ∨
    (∃ new' m, copyLoop posC numC remC val left D b new w = some (new', new'.length, true) ∧ b = some m ∧
      m < left * (posC + numC + remC)) := by
  induction left with
  | zero => intro D b new w hw h; left; exact ⟨w, by simp [copyLoop, packed], by simp⟩
  | succ left ih =>
    intro D b new w hw h
    have hh : (left + 1) * (posC + remC) = left * (posC + remC) + posC + remC := by ring
    have h1 : posC ≤ D.length := by omega
    have h2 : remC ≤ (D.drop posC).length := by rw [List.length_drop]; omega
    have h3 : left * (posC + remC) ≤ ((D.drop posC).drop remC).length := by
      rw [List.length_drop, List.length_drop]; omega
    have hlen : (D.take posC ++ List.replicate numC val ++ (D.drop posC).take remC).length = posC + numC + remC := by
      simp only [List.length_append, List.length_take, List.length_replicate]; omega
    rcases copySeg_spec (D.take posC ++ List.replicate numC val ++ (D.drop posC).take remC) b new w with
      ⟨b', hc, hb1, hb2⟩ | ⟨m, hb, hm, hc⟩
    · rw [hlen] at hc hb1
      rcases ih ((D.drop posC).drop remC) b' (new ++ (D.take posC ++ List.replicate numC val ++ (D.drop posC).take remC))
        (w + (posC + numC + remC)) (by rw [List.length_append, hlen, hw]) h3 with ⟨w', hs, hsb⟩ | ⟨new', m, hs, hb, hm⟩
      · left
        refine ⟨w', ?_, ?_⟩
        · simp only [copyLoop, takeExact_of_le h1, takeExact_of_le h2, Option.bind_some, hc, hs]
          simp [packed]
        · intro m hm
          obtain ⟨q1, q2⟩ := hb1 m hm
          have := hsb _ q2
          rw [Nat.add_mul]; omega
      · right
        cases b with
        | none => rw [hb2 rfl] at hb; cases hb
        | some m0 =>
          obtain ⟨q1, q2⟩ := hb1 m0 rfl
          rw [q2] at hb
          have q3 : m0 - (posC + numC + remC) = m := by simpa using hb
          refine ⟨new', m0, ?_, rfl, by rw [Nat.add_mul]; omega⟩
          simp only [copyLoop, takeExact_of_le h1, takeExact_of_le h2, Option.bind_some, hc, hs]
    · right
      rw [hlen] at hm
      refine ⟨new ++ (D.take posC ++ List.replicate numC val ++ (D.drop posC).take remC).take m, m, ?_, hb,
        by rw [Nat.add_mul]; omega⟩
      have hl : (new ++ (D.take posC ++ List.replicate numC val ++ (D.drop posC).take remC).take m).length = w + m := by
        rw [List.length_append, List.length_take, hlen, hw]; omega
      simp only [copyLoop, takeExact_of_le h1, takeExact_of_le h2, Option.bind_some, hc, hl]

theorem mod_prod_le (A B e : Nat) (a b : Nat) (ha : a ≤ A) (hb : b ≤ B) : a * (e * b) ≤ A * (e * B) :=
  Nat.mul_le_mul ha (Nat.mul_le_mul_left _ hb)

end Verif.Marr
