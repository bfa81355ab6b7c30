import Verif.MArray.Spec
import Mathlib.Tactic.Ring
import Mathlib.Tactic.Linarith
import Mathlib.Data.List.Forall2

/-! Helper lemmas for the array properties. -/

namespace Verif.Marr

/-! ### Row-major position -/

/-- Row-major position of a multi-index. -/
def rowMajor : List Nat → List Nat → Nat
  | _ :: es, i :: is => i * es.prod + rowMajor es is
  | _, _ => 0

/-- Multi-index of a row-major position. -/
def unflat : List Nat → Nat → List Nat
  | [], _ => []
  | _ :: es, p => p / es.prod :: unflat es (p % es.prod)

theorem chain_eq (exts idx : List Nat) (h : idx.length = exts.length) (off : Nat) :
    chain exts idx off = off * exts.prod + rowMajor exts idx := by
  induction exts generalizing idx off with
  | nil => cases idx <;> simp_all [chain, rowMajor]
  | cons e es ih =>
    cases idx with
    | nil => simp at h
    | cons j js =>
      simp only [List.length_cons, Nat.add_right_cancel_iff] at h
      simp only [chain, rowMajor, ih js h, List.prod_cons]
      ring

theorem chainedOffset_eq (exts idx : List Nat) (h : idx.length = exts.length) :
    chainedOffset exts idx = rowMajor exts idx := by
  cases exts with
  | nil => cases idx <;> simp_all [chainedOffset, rowMajor]
  | cons e es =>
    cases idx with
    | nil => simp at h
    | cons i is =>
      simp only [List.length_cons, Nat.add_right_cancel_iff] at h
      simp [chainedOffset, rowMajor, chain_eq es is h]

theorem InRange.length_eq {exts idx : List Nat} (h : InRange exts idx) : idx.length = exts.length :=
  List.Forall₂.length_eq h

@[simp] theorem inRange_nil : InRange [] [] := List.Forall₂.nil

@[simp] theorem inRange_cons {e i : Nat} {es is : List Nat} :
    InRange (e :: es) (i :: is) ↔ i < e ∧ InRange es is := by
  simp [InRange, List.forall₂_cons]

theorem InRange.nil_iff {idx : List Nat} : InRange [] idx ↔ idx = [] := by
  simp [InRange]

theorem rowMajor_lt {exts idx : List Nat} (h : InRange exts idx) : rowMajor exts idx < exts.prod := by
  induction exts generalizing idx with
  | nil =>
    rw [InRange.nil_iff] at h; subst h; simp [rowMajor]
  | cons e es ih =>
    cases idx with
    | nil => simp [InRange] at h
    | cons i is =>
      rw [inRange_cons] at h
      have h2 := ih h.2
      simp only [rowMajor, List.prod_cons]
      calc i * es.prod + rowMajor es is < i * es.prod + es.prod := by omega
        _ = (i + 1) * es.prod := by ring
        _ ≤ e * es.prod := Nat.mul_le_mul_right _ h.1

theorem prod_pos_of_inRange {exts idx : List Nat} (h : InRange exts idx) : 0 < exts.prod :=
  Nat.lt_of_le_of_lt (Nat.zero_le _) (rowMajor_lt h)

theorem unflat_inRange (exts : List Nat) (p : Nat) (h : p < exts.prod) : InRange exts (unflat exts p) := by
  induction exts generalizing p with
  | nil => simp [unflat]
  | cons e es ih =>
    simp only [List.prod_cons] at h
    have hp : 0 < es.prod := by
      rcases Nat.eq_zero_or_pos es.prod with h0 | h0
      · simp [h0] at h
      · exact h0
    simp only [unflat, inRange_cons]
    exact ⟨(Nat.div_lt_iff_lt_mul hp).2 h, ih _ (Nat.mod_lt _ hp)⟩

theorem rowMajor_unflat (exts : List Nat) (p : Nat) (h : p < exts.prod) :
    rowMajor exts (unflat exts p) = p := by
  induction exts generalizing p with
  | nil => simp at h; simp [rowMajor, h]
  | cons e es ih =>
    simp only [List.prod_cons] at h
    have hp : 0 < es.prod := by
      rcases Nat.eq_zero_or_pos es.prod with h0 | h0
      · simp [h0] at h
      · exact h0
    simp only [unflat, rowMajor, ih _ (Nat.mod_lt p hp)]
    exact Nat.div_add_mod' p es.prod

theorem unflat_rowMajor {exts idx : List Nat} (h : InRange exts idx) :
    unflat exts (rowMajor exts idx) = idx := by
  induction exts generalizing idx with
  | nil => rw [InRange.nil_iff] at h; subst h; simp [unflat]
  | cons e es ih =>
    cases idx with
    | nil => simp [InRange] at h
    | cons i is =>
      rw [inRange_cons] at h
      have hlt := rowMajor_lt h.2
      have hp := prod_pos_of_inRange h.2
      simp only [unflat, rowMajor]
      have h1 : (i * es.prod + rowMajor es is) / es.prod = i := by
        rw [Nat.add_comm, Nat.add_mul_div_right _ _ hp, Nat.div_eq_of_lt hlt, Nat.zero_add]
      have h2 : (i * es.prod + rowMajor es is) % es.prod = rowMajor es is := by
        rw [Nat.add_comm, Nat.add_mul_mod_self_right, Nat.mod_eq_of_lt hlt]
      rw [h1, h2, ih h.2]

theorem rowMajor_inj {exts i j : List Nat} (hi : InRange exts i) (hj : InRange exts j)
    (h : rowMajor exts i = rowMajor exts j) : i = j := by
  rw [← unflat_rowMajor hi, ← unflat_rowMajor hj, h]

/-! ### Products -/

theorem foldl_mul_mod (l : List Nat) (m c : Nat) :
    l.foldl (fun acc e => acc * e % m) (c % m) = c * l.prod % m := by
  induction l generalizing c with
  | nil => simp
  | cons e es ih =>
    simp only [List.foldl_cons, List.prod_cons]
    rw [Nat.mod_mul_mod, ih (c * e), Nat.mul_assoc]

theorem accU32_eq (l : List Nat) : accU32 l = l.prod % 2 ^ 32 := by
  have := foldl_mul_mod l (2 ^ 32) 1
  simpa [accU32] using this

theorem accU32_of_lt {l : List Nat} (h : l.prod < 2 ^ 32) : accU32 l = l.prod := by
  rw [accU32_eq, Nat.mod_eq_of_lt h]

theorem accU64_eq (l : List Nat) : accU64 l = l.prod := by
  have : ∀ c, l.foldl (fun acc e => acc * e) c = c * l.prod := by
    induction l with
    | nil => simp
    | cons e es ih => intro c; simp only [List.foldl_cons, List.prod_cons, ih]; ring
  simpa [accU64] using this 1

theorem truncInt_of_lt {x : Nat} (h : x < 2 ^ 31) : truncInt x = x := by
  unfold truncInt
  have : x % 2 ^ 32 = x := Nat.mod_eq_of_lt (by omega)
  rw [this, if_pos h]

theorem prod_pos_of_forall {l : List Nat} (h : ∀ x ∈ l, 0 < x) : 0 < l.prod := by
  induction l with
  | nil => simp
  | cons e es ih =>
    simp only [List.prod_cons]
    exact Nat.mul_pos (h e (by simp)) (ih (fun x hx => h x (by simp [hx])))

theorem accInt_of_lt {l : List Nat} (h : l.prod < 2 ^ 31) (hpos : ∀ x ∈ l, 0 < x) : accInt l = l.prod := by
  have : ∀ (l : List Nat) (c : Nat), (∀ x ∈ l, 0 < x) → c * l.prod < 2 ^ 31 →
      l.foldl (fun acc e => truncInt (acc * e)) c = c * l.prod := by
    intro l
    induction l with
    | nil => intro c _ _; simp
    | cons e es ih =>
      intro c hp hlt
      simp only [List.foldl_cons, List.prod_cons] at *
      have hes : 0 < es.prod := prod_pos_of_forall (fun x hx => hp x (by simp [hx]))
      have h1 : c * e < 2 ^ 31 := by
        calc c * e ≤ c * e * es.prod := Nat.le_mul_of_pos_right _ hes
          _ = c * (e * es.prod) := by ring
          _ < _ := hlt
      rw [truncInt_of_lt h1, ih (c * e) (fun x hx => hp x (by simp [hx])) (by rw [Nat.mul_assoc]; exact hlt)]
      ring
  have h2 := this l 1 hpos (by simpa using h)
  simpa [accInt] using h2

theorem prod_take_drop (l : List Nat) (d : Nat) (h : d < l.length) :
    l.prod = (l.take d).prod * (l[d] * (l.drop (d + 1)).prod) := by
  conv_lhs => rw [← List.take_append_drop d l]
  rw [List.prod_append, List.drop_eq_getElem_cons h, List.prod_cons]

/-! ### Index-list subscript -/

theorem listLoop_eq (rest idx : List Nat) (hpos : ∀ x ∈ rest, 0 < x) (hl : idx.length = rest.length + 1)
    (off : Nat) :
    listLoop rest idx rest.prod off = some (off + rowMajor (1 :: rest) idx) := by
  induction rest generalizing idx off with
  | nil =>
    match idx, hl with
    | [i], _ => simp [listLoop, rowMajor]
  | cons e es ih =>
    cases idx with
    | nil => simp at hl
    | cons i is =>
      simp only [List.length_cons, Nat.add_right_cancel_iff] at hl
      have he : 0 < e := hpos e (by simp)
      have hne : e ≠ 0 := by omega
      simp only [listLoop, hne, if_false, List.prod_cons, rowMajor]
      rw [Nat.mul_div_cancel_left _ he, ih is (fun x hx => hpos x (by simp [hx])) hl]
      cases is with
      | nil => simp at hl
      | cons j js => simp only [rowMajor]; congr 1; ring

theorem rowMajor_cons_extent (e e' : Nat) (es idx : List Nat) : rowMajor (e :: es) idx = rowMajor (e' :: es) idx := by
  cases idx <;> simp [rowMajor]

theorem InRange.pos {exts idx : List Nat} (h : InRange exts idx) : ∀ x ∈ exts, 0 < x := by
  induction exts generalizing idx with
  | nil => simp
  | cons e es ih =>
    cases idx with
    | nil => simp [InRange] at h
    | cons i is =>
      rw [inRange_cons] at h
      intro x hx
      rcases List.mem_cons.1 hx with rfl | hx
      · omega
      · exact ih h.2 x hx

theorem listOffset_eq {exts idx : List Nat} (h : InRange exts idx) (hne : exts ≠ [])
    (hb : exts.tail.prod < 2 ^ 31) : listOffset exts idx = some (rowMajor exts idx) := by
  cases exts with
  | nil => exact absurd rfl hne
  | cons e es =>
    have hpos : ∀ x ∈ es, 0 < x := fun x hx => h.pos x (by simp [hx])
    simp only [List.tail_cons] at hb
    simp only [listOffset, List.tail_cons, accInt_of_lt hb hpos]
    rw [listLoop_eq es idx hpos (by simpa using h.length_eq) 0, Nat.zero_add,
      rowMajor_cons_extent 1 e]

/-! ### getCoordinate -/

theorem coordLoop_eq {exts idx : List Nat} (h : InRange exts idx) (dim : Nat) (hd : dim < exts.length) :
    coordLoop exts dim (rowMajor exts idx) exts.prod = idx[dim]? := by
  induction exts generalizing idx dim with
  | nil => simp at hd
  | cons e es ih =>
    cases idx with
    | nil => simp [InRange] at h
    | cons i is =>
      rw [inRange_cons] at h
      have hp := prod_pos_of_inRange h.2
      have hlt := rowMajor_lt h.2
      have he : 0 < e := by omega
      have hdiv : (e * es.prod) / e = es.prod := Nat.mul_div_cancel_left _ he
      have hg : ¬ (e = 0 ∨ es.prod = 0) := by omega
      cases dim with
      | zero =>
        simp only [coordLoop, List.prod_cons, hdiv, if_neg hg, rowMajor, List.getElem?_cons_zero]
        congr 1
        rw [Nat.add_comm, Nat.add_mul_div_right _ _ hp, Nat.div_eq_of_lt hlt, Nat.zero_add]
      | succ d =>
        simp only [coordLoop, List.prod_cons, hdiv, if_neg hg, rowMajor, List.getElem?_cons_succ]
        have h2 : (i * es.prod + rowMajor es is) % es.prod = rowMajor es is := by
          rw [Nat.add_comm, Nat.add_mul_mod_self_right, Nat.mod_eq_of_lt hlt]
        rw [h2]
        exact ih h.2 d (by simpa using hd)

/-! ### Splitting a multi-index at a dimension -/

theorem rowMajor_append (A B ia ib : List Nat) (h : ia.length = A.length) :
    rowMajor (A ++ B) (ia ++ ib) = rowMajor A ia * B.prod + rowMajor B ib := by
  induction A generalizing ia with
  | nil => cases ia <;> simp_all [rowMajor]
  | cons e es ih =>
    cases ia with
    | nil => simp at h
    | cons i is =>
      simp only [List.length_cons, Nat.add_right_cancel_iff] at h
      simp only [List.cons_append, rowMajor, List.prod_append, ih is h]
      ring

theorem InRange.append_iff {A B ia ib : List Nat} (h : ia.length = A.length) :
    InRange (A ++ B) (ia ++ ib) ↔ InRange A ia ∧ InRange B ib := by
  induction A generalizing ia with
  | nil => cases ia <;> simp_all
  | cons e es ih =>
    cases ia with
    | nil => simp at h
    | cons i is =>
      simp only [List.length_cons, Nat.add_right_cancel_iff] at h
      simp [ih h, and_assoc]

/-- Cut an index of the right length at dimension `A.length`. -/
theorem split_idx (A B : List Nat) (e : Nat) (idx : List Nat) (h : idx.length = (A ++ e :: B).length) :
    ∃ ia k ib, idx = ia ++ k :: ib ∧ ia.length = A.length ∧ ib.length = B.length := by
  have hlen : A.length < idx.length := by simp at h; omega
  refine ⟨idx.take A.length, idx[A.length], idx.drop (A.length + 1), ?_, ?_, ?_⟩
  · rw [← List.drop_eq_getElem_cons hlen, List.take_append_drop]
  · simp; omega
  · simp at h ⊢; omega

/-! ### The copy loops -/

theorem takeExact_of_le {n : Nat} {l : List α} (h : n ≤ l.length) : takeExact n l = some (l.take n) := by
  simp [takeExact, h]

theorem insertLoop_spec (posC numC remC : Nat) (val : α) (iters : Nat) (rd : List α)
    (h : rd.length = iters * (posC + remC)) :
    ∃ out, insertLoop posC numC remC val iters rd = some out ∧
      out.length = iters * (posC + numC + remC) ∧
      ∀ i t, i < iters → t < posC + numC + remC →
        out[i * (posC + numC + remC) + t]? =
          if t < posC then rd[i * (posC + remC) + t]?
          else if t < posC + numC then some val
          else rd[i * (posC + remC) + (t - numC)]? := by
  induction iters generalizing rd with
  | zero => exact ⟨[], by simp [insertLoop]⟩
  | succ n ih =>
    have h1 : posC ≤ rd.length := by rw [h]; nlinarith
    have h2 : remC ≤ (rd.drop posC).length := by
      rw [List.length_drop, h]; have : (n + 1) * (posC + remC) = n * (posC + remC) + posC + remC := by ring
      omega
    have h3 : ((rd.drop posC).drop remC).length = n * (posC + remC) := by
      rw [List.length_drop, List.length_drop, h]
      have : (n + 1) * (posC + remC) = n * (posC + remC) + posC + remC := by ring
      omega
    obtain ⟨out, ho, hlen, hget⟩ := ih _ h3
    have hA : (rd.take posC).length = posC := by simp; omega
    have hB : ((rd.drop posC).take remC).length = remC := by rw [List.length_take]; omega
    refine ⟨rd.take posC ++ List.replicate numC val ++ (rd.drop posC).take remC ++ out, ?_, ?_, ?_⟩
    · simp only [insertLoop, takeExact_of_le h1, takeExact_of_le h2, ho]; rfl
    · simp only [List.length_append, hA, hB, List.length_replicate, hlen]; ring
    · intro i t hi ht
      cases i with
      | zero =>
        simp only [Nat.zero_mul, Nat.zero_add]
        by_cases c1 : t < posC
        · rw [if_pos c1, List.append_assoc, List.append_assoc, List.getElem?_append_left (by rw [hA]; exact c1),
            List.getElem?_take_of_lt c1]
        · rw [if_neg c1, List.append_assoc, List.append_assoc, List.getElem?_append_right (by rw [hA]; omega), hA]
          by_cases c2 : t < posC + numC
          · rw [if_pos c2, List.getElem?_append_left (by simp; omega), List.getElem?_replicate]
            rw [if_pos (by omega)]
          · rw [if_neg c2, List.getElem?_append_right (by simp; omega), List.length_replicate,
              List.getElem?_append_left (by rw [hB]; omega), List.getElem?_take_of_lt (by omega),
              List.getElem?_drop]
            congr 1; omega
      | succ i =>
        have hpre : (rd.take posC ++ List.replicate numC val ++ (rd.drop posC).take remC).length =
            posC + numC + remC := by
          simp only [List.length_append, hA, hB, List.length_replicate]
        have e1 : (i + 1) * (posC + numC + remC) + t = (posC + numC + remC) + (i * (posC + numC + remC) + t) := by ring
        rw [List.getElem?_append_right (by rw [hpre, e1]; omega), hpre, e1, Nat.add_sub_cancel_left,
          hget i t (by omega) ht]
        simp only [List.getElem?_drop]
        have e2 : ∀ s, posC + (remC + (i * (posC + remC) + s)) = (i + 1) * (posC + remC) + s := by
          intro s; ring
        simp only [e2]

theorem eraseLoop_spec (posC numC remC : Nat) (iters : Nat) (rd : List α)
    (h : rd.length = iters * (posC + numC + remC)) :
    ∃ out, eraseLoop posC numC remC iters rd = some out ∧
      out.length = iters * (posC + remC) ∧
      ∀ i t, i < iters → t < posC + remC →
        out[i * (posC + remC) + t]? =
          if t < posC then rd[i * (posC + numC + remC) + t]?
          else rd[i * (posC + numC + remC) + (t + numC)]? := by
  induction iters generalizing rd with
  | zero => exact ⟨[], by simp [eraseLoop]⟩
  | succ n ih =>
    have hh : (n + 1) * (posC + numC + remC) = n * (posC + numC + remC) + posC + numC + remC := by ring
    have h1 : posC ≤ rd.length := by rw [h]; omega
    have h2 : remC ≤ ((rd.drop posC).drop numC).length := by
      rw [List.length_drop, List.length_drop, h]; omega
    have h3 : (((rd.drop posC).drop numC).drop remC).length = n * (posC + numC + remC) := by
      rw [List.length_drop, List.length_drop, List.length_drop, h]; omega
    obtain ⟨out, ho, hlen, hget⟩ := ih _ h3
    have hA : (rd.take posC).length = posC := by simp; omega
    have hB : (((rd.drop posC).drop numC).take remC).length = remC := by rw [List.length_take]; omega
    refine ⟨rd.take posC ++ ((rd.drop posC).drop numC).take remC ++ out, ?_, ?_, ?_⟩
    · simp only [eraseLoop, takeExact_of_le h1, takeExact_of_le h2, ho]; rfl
    · simp only [List.length_append, hA, hB, hlen]; ring
    · intro i t hi ht
      cases i with
      | zero =>
        simp only [Nat.zero_mul, Nat.zero_add]
        by_cases c1 : t < posC
        · rw [if_pos c1, List.append_assoc, List.getElem?_append_left (by rw [hA]; exact c1),
            List.getElem?_take_of_lt c1]
        · rw [if_neg c1, List.append_assoc, List.getElem?_append_right (by rw [hA]; omega), hA,
              List.getElem?_append_left (by rw [hB]; omega), List.getElem?_take_of_lt (by omega),
              List.getElem?_drop, List.getElem?_drop]
          congr 1; omega
      | succ i =>
        have hpre : (rd.take posC ++ ((rd.drop posC).drop numC).take remC).length = posC + remC := by
          simp only [List.length_append, hA, hB]
        have e1 : (i + 1) * (posC + remC) + t = (posC + remC) + (i * (posC + remC) + t) := by ring
        rw [List.getElem?_append_right (by rw [hpre, e1]; omega), hpre, e1, Nat.add_sub_cancel_left,
          hget i t (by omega) ht]
        simp only [List.getElem?_drop]
        have e2 : ∀ s, posC + (numC + (remC + (i * (posC + numC + remC) + s))) = (i + 1) * (posC + numC + remC) + s := by
          intro s; ring
        simp only [e2]

/-! ### Reading elements -/

theorem at_eq (a : MArray α) (idx : List Nat) (h : idx.length = a.extents.length) :
    a.at idx = .ofOption a.data[rowMajor a.extents idx]? := by
  simp only [MArray.at, if_pos h, chainedOffset_eq _ _ h]

theorem at_ok {a : MArray α} (hwf : a.WF) {idx : List Nat} (h : InRange a.extents idx) :
    ∃ (hb : rowMajor a.extents idx < a.data.length), a.at idx = .ok a.data[rowMajor a.extents idx] := by
  have hb : rowMajor a.extents idx < a.data.length := by
    rw [hwf.2, hwf.1]; exact rowMajor_lt h
  refine ⟨hb, ?_⟩
  rw [at_eq a idx h.length_eq, List.getElem?_eq_getElem hb, Outcome.ofOption]

theorem getElem?_eq_of_ofOption {x y : Option α} (h : Outcome.ofOption x = Outcome.ofOption y) : x = y := by
  cases x <;> cases y <;> simp_all [Outcome.ofOption]

/-- Two well formed arrays of the same shape with the same elements are equal. -/
theorem MArray.ext_at {a b : MArray α} (ha : a.WF) (hb : b.WF) (he : a.extents = b.extents)
    (h : ∀ idx, InRange a.extents idx → a.at idx = b.at idx) : a = b := by
  have hd : a.data = b.data := by
    apply List.ext_getElem?
    intro p
    by_cases hp : p < a.extents.prod
    · have hin := unflat_inRange a.extents p hp
      have h2 := h _ hin
      rw [at_eq a _ hin.length_eq, at_eq b _ (by rw [← he]; exact hin.length_eq), ← he, rowMajor_unflat _ _ hp] at h2
      exact getElem?_eq_of_ofOption h2
    · rw [List.getElem?_eq_none, List.getElem?_eq_none]
      · rw [hb.2, hb.1, ← he]; omega
      · rw [ha.2, ha.1]; omega
  have ht : a.total = b.total := by rw [ha.1, hb.1, he]
  cases a; cases b
  dsimp only at he hd ht
  rw [he, hd, ht]

theorem idx_mul_lt {i n t m : Nat} (hi : i < n) (ht : t < m) : i * m + t < n * m := by
  calc i * m + t < i * m + m := by omega
    _ = (i + 1) * m := by ring
    _ ≤ n * m := Nat.mul_le_mul_right _ hi

theorem split_exts (l : List Nat) (d : Nat) (h : d < l.length) : l = l.take d ++ l[d] :: l.drop (d + 1) := by
  rw [← List.drop_eq_getElem_cons h, List.take_append_drop]

/-! ### insert -/

/-- `insert` on a shape written as `A ++ e :: B`. -/
theorem insert_split (A B : List Nat) (e pos num : Nat) (val : α) (a : MArray α) (hwf : a.WF)
    (he : a.extents = A ++ e :: B) (hA : A.prod < 2 ^ 32) (hB : B.prod < 2 ^ 32) (hpos : pos ≤ e) :
    ∃ b, a.insert A.length pos num val = .ok b ∧ b.extents = A ++ (e + num) :: B ∧ b.WF ∧
      ∀ ia k ib, InRange A ia → k < e + num → InRange B ib →
        b.data[rowMajor (A ++ (e + num) :: B) (ia ++ k :: ib)]? =
          if k < pos then a.data[rowMajor (A ++ e :: B) (ia ++ k :: ib)]?
          else if k < pos + num then some val
          else a.data[rowMajor (A ++ e :: B) (ia ++ (k - num) :: ib)]? := by
  have hd : A.length < a.extents.length := by rw [he]; simp
  have hge : a.extents[A.length] = e := by simp [he]
  have hta : a.extents.take A.length = A := by simp [he]
  have hdr : a.extents.drop (A.length + 1) = B := by
    rw [he]; simp [List.drop_append]
  have hsplit : pos * B.prod + (e - pos) * B.prod = e * B.prod := by
    rw [← Nat.add_mul]; congr 1; omega
  have hlen : a.data.length = A.prod * (pos * B.prod + (e - pos) * B.prod) := by
    rw [hwf.2, hwf.1, he, hsplit]; simp
  obtain ⟨out, ho, holen, hget⟩ := insertLoop_spec (pos * B.prod) (num * B.prod) ((e - pos) * B.prod) val A.prod a.data hlen
  have hnew : pos * B.prod + num * B.prod + (e - pos) * B.prod = (e + num) * B.prod := by
    rw [← Nat.add_mul, ← Nat.add_mul]; congr 1; omega
  rw [hnew] at holen hget
  refine ⟨⟨A ++ (e + num) :: B, A.prod * (e + num) * B.prod, out⟩, ?_, rfl, ?_, ?_⟩
  · have hset : a.extents.set A.length (e + num) = A ++ (e + num) :: B := by simp [he]
    simp only [MArray.insert, dif_pos hd, hge, if_pos hpos, hta, hdr, accU32_of_lt hA, accU32_of_lt hB, ho, hset]
  · refine ⟨?_, ?_⟩
    · simp [Nat.mul_assoc]
    · simp only [holen]; ring
  · intro ia k ib hia hk hib
    have hr := rowMajor_lt hib
    have hi := rowMajor_lt hia
    rw [rowMajor_append _ _ _ _ hia.length_eq, rowMajor_append _ _ _ _ hia.length_eq,
      rowMajor_append _ _ _ _ hia.length_eq]
    simp only [rowMajor, List.prod_cons]
    have ht : k * B.prod + rowMajor B ib < (e + num) * B.prod := idx_mul_lt hk hr
    rw [hget _ _ hi ht, hsplit]
    by_cases c1 : k < pos
    · have : k * B.prod + rowMajor B ib < pos * B.prod := idx_mul_lt c1 hr
      rw [if_pos this, if_pos c1]
    · have h1 : pos * B.prod ≤ k * B.prod := Nat.mul_le_mul_right _ (by omega)
      rw [if_neg (by omega), if_neg c1]
      by_cases c2 : k < pos + num
      · have : k * B.prod + rowMajor B ib < (pos + num) * B.prod := idx_mul_lt c2 hr
        rw [Nat.add_mul] at this
        rw [if_pos this, if_pos c2]
      · have h2 : (pos + num) * B.prod ≤ k * B.prod := Nat.mul_le_mul_right _ (by omega)
        rw [Nat.add_mul] at h2
        rw [if_neg (by omega), if_neg c2, Nat.sub_mul]
        congr 2
        omega

/-- `erase` on a shape written as `A ++ e :: B`. -/
theorem erase_split (A B : List Nat) (e pos num : Nat) (a : MArray α) (hwf : a.WF)
    (he : a.extents = A ++ e :: B) (hA : A.prod < 2 ^ 32) (hB : B.prod < 2 ^ 32) (hpos : pos < e)
    (hnum : pos + num ≤ e) :
    ∃ b, a.erase A.length pos num = .ok b ∧ b.extents = A ++ (e - num) :: B ∧ b.WF ∧
      ∀ ia k ib, InRange A ia → k < e - num → InRange B ib →
        b.data[rowMajor (A ++ (e - num) :: B) (ia ++ k :: ib)]? =
          if k < pos then a.data[rowMajor (A ++ e :: B) (ia ++ k :: ib)]?
          else a.data[rowMajor (A ++ e :: B) (ia ++ (k + num) :: ib)]? := by
  have hd : A.length < a.extents.length := by rw [he]; simp
  have hge : a.extents[A.length] = e := by simp [he]
  have hta : a.extents.take A.length = A := by simp [he]
  have hdr : a.extents.drop (A.length + 1) = B := by
    rw [he]; simp [List.drop_append]
  have hsplit : pos * B.prod + num * B.prod + (e - (pos + num)) * B.prod = e * B.prod := by
    rw [← Nat.add_mul, ← Nat.add_mul]; congr 1; omega
  have hlen : a.data.length = A.prod * (pos * B.prod + num * B.prod + (e - (pos + num)) * B.prod) := by
    rw [hwf.2, hwf.1, he, hsplit]; simp
  obtain ⟨out, ho, holen, hget⟩ := eraseLoop_spec (pos * B.prod) (num * B.prod) ((e - (pos + num)) * B.prod) A.prod a.data hlen
  have hnew : pos * B.prod + (e - (pos + num)) * B.prod = (e - num) * B.prod := by
    rw [← Nat.add_mul]; congr 1; omega
  rw [hnew] at holen hget
  refine ⟨⟨A ++ (e - num) :: B, A.prod * (e - num) * B.prod, out⟩, ?_, rfl, ?_, ?_⟩
  · have hset : a.extents.set A.length (e - num) = A ++ (e - num) :: B := by simp [he]
    simp only [MArray.erase, dif_pos hd, hge, if_pos (And.intro hpos hnum), hta, hdr, accU32_of_lt hA,
      accU32_of_lt hB, ho, hset]
  · refine ⟨?_, ?_⟩
    · simp [Nat.mul_assoc]
    · simp only [holen]; ring
  · intro ia k ib hia hk hib
    have hr := rowMajor_lt hib
    have hi := rowMajor_lt hia
    rw [rowMajor_append _ _ _ _ hia.length_eq, rowMajor_append _ _ _ _ hia.length_eq,
      rowMajor_append _ _ _ _ hia.length_eq]
    simp only [rowMajor, List.prod_cons]
    have ht : k * B.prod + rowMajor B ib < (e - num) * B.prod := idx_mul_lt hk hr
    rw [hget _ _ hi ht, hsplit]
    by_cases c1 : k < pos
    · have : k * B.prod + rowMajor B ib < pos * B.prod := idx_mul_lt c1 hr
      rw [if_pos this, if_pos c1]
    · have h1 : pos * B.prod ≤ k * B.prod := Nat.mul_le_mul_right _ (by omega)
      rw [if_neg (by omega), if_neg c1, Nat.add_mul]
      congr 2
      omega

/-! ### resize -/

theorem resizeDim_split [Inhabited α] (A B : List Nat) (e size : Nat) (a : MArray α) (hwf : a.WF)
    (he : a.extents = A ++ e :: B) (hA : A.prod < 2 ^ 32) (hB : B.prod < 2 ^ 32) :
    ∃ b, a.resizeDim A.length size = .ok b ∧ b.extents = A ++ size :: B ∧ b.WF ∧
      ∀ ia k ib, InRange A ia → k < size → InRange B ib →
        b.data[rowMajor (A ++ size :: B) (ia ++ k :: ib)]? =
          if k < e then a.data[rowMajor (A ++ e :: B) (ia ++ k :: ib)]? else some default := by
  have hd : A.length < a.extents.length := by rw [he]; simp
  have hge : a.extents[A.length] = e := by simp [he]
  rcases Nat.lt_trichotomy size e with hlt | heq | hgt
  · obtain ⟨b, hb, hbe, hbw, hbg⟩ := erase_split A B e size (e - size) a hwf he hA hB hlt (by omega)
    have hs : e - (e - size) = size := by omega
    rw [hs] at hbe hbg
    refine ⟨b, by simp only [MArray.resizeDim, dif_pos hd, hge, if_pos hlt, hb], hbe, hbw, ?_⟩
    intro ia k ib hia hk hib
    rw [hbg ia k ib hia hk hib, if_pos hk, if_pos (by omega)]
  · subst heq
    refine ⟨a, by simp [MArray.resizeDim, hd, hge], he, hwf, ?_⟩
    intro ia k ib _ hk _
    rw [if_pos hk]
  · obtain ⟨b, hb, hbe, hbw, hbg⟩ := insert_split A B e e (size - e) default a hwf he hA hB (Nat.le_refl _)
    have hs : e + (size - e) = size := by omega
    rw [hs] at hbe hbg
    refine ⟨b, by simp only [MArray.resizeDim, dif_pos hd, hge, if_neg (show ¬ size < e by omega), if_pos hgt, hb],
      hbe, hbw, ?_⟩
    intro ia k ib hia hk hib
    rw [hbg ia k ib hia hk hib, if_pos hk]

theorem resizeLoop_split [Inhabited α] (S : List Nat) : ∀ (A O : List Nat) (a : MArray α), a.WF →
    a.extents = A ++ O → O.length = S.length →
    (∀ d < S.length, (A ++ S.take d).prod < 2 ^ 32 ∧ (O.drop (d + 1)).prod < 2 ^ 32) →
    ∃ b, resizeLoop A.length S a = .ok b ∧ b.extents = A ++ S ∧ b.WF ∧
      ∀ ia io, InRange A ia → InRange S io →
        b.data[rowMajor (A ++ S) (ia ++ io)]? =
          if InRange O io then a.data[rowMajor (A ++ O) (ia ++ io)]? else some default := by
  induction S with
  | nil =>
    intro A O a hwf he hl _
    have hO : O = [] := List.length_eq_zero_iff.1 (by simpa using hl)
    subst hO
    refine ⟨a, by simp [resizeLoop], he, hwf, ?_⟩
    intro ia io _ hio
    rw [if_pos hio]
  | cons s S ih =>
    intro A O a hwf he hl hfit
    cases O with
    | nil => simp at hl
    | cons e O =>
      simp only [List.length_cons, Nat.add_right_cancel_iff] at hl
      have hf0 := hfit 0 (by simp)
      simp only [List.take_zero, List.append_nil, Nat.zero_add, List.drop_succ_cons, List.drop_zero] at hf0
      obtain ⟨m, hm, hme, hmw, hmg⟩ := resizeDim_split A O e s a hwf he hf0.1 hf0.2
      have hme' : m.extents = (A ++ [s]) ++ O := by rw [hme]; simp
      obtain ⟨b, hb, hbe, hbw, hbg⟩ := ih (A ++ [s]) O m hmw hme' hl (by
        intro d hd
        have := hfit (d + 1) (by simpa using hd)
        simpa using this)
      refine ⟨b, ?_, by simpa using hbe, hbw, ?_⟩
      · have h1 : (A ++ [s]).length = A.length + 1 := by simp
        rw [h1] at hb
        simp only [resizeLoop, hm, Outcome.bind, hb]
      · intro ia io hia hio
        cases io with
        | nil => simp [InRange] at hio
        | cons k io =>
          rw [inRange_cons] at hio
          have hia' : InRange (A ++ [s]) (ia ++ [k]) := by
            rw [InRange.append_iff hia.length_eq]; exact ⟨hia, by simp [hio.1]⟩
          have := hbg (ia ++ [k]) io hia' hio.2
          simp only [List.append_assoc, List.singleton_append] at this
          rw [this]
          by_cases hO : InRange O io
          · rw [if_pos hO, hmg ia k io hia hio.1 hO]
            simp [hO]
          · simp [hO]

/-! ### Nested lists -/

theorem shapeOk_iff (n : Nat) : ∀ (exts : List Nat) (init : Nest α n), exts.length = n →
    (shapeOk n exts init = true ↔ Rectangular n exts init) := by
  induction n with
  | zero =>
    intro exts init h
    have : exts = [] := List.length_eq_zero_iff.1 h
    subst this
    simp [shapeOk, Rectangular]
  | succ n ih =>
    intro exts init h
    cases exts with
    | nil => simp at h
    | cons e es =>
      have hes : es.length = n := by simpa using h
      change List (Nest α n) at init
      constructor
      · intro hs path hp hin
        simp only [shapeOk, Bool.and_eq_true, beq_iff_eq, List.all_eq_true] at hs
        cases path with
        | nil => simp [Nest.lenAt?, hs.1]
        | cons i is =>
          simp only [List.length_cons, List.take_succ_cons, inRange_cons] at hin
          have hi : i < init.length := by rw [hs.1]; exact hin.1
          simp only [Nest.lenAt?, List.getElem?_eq_getElem hi, List.length_cons, List.getElem_cons_succ]
          exact (ih es init[i] hes).1 (hs.2 _ (List.getElem_mem hi)) is (by simpa using hp) hin.2
      · intro hr
        have h0 := hr [] (by simp) (by simp)
        simp only [Nest.lenAt?, List.length_nil, List.getElem_cons_zero, Option.some.injEq] at h0
        simp only [shapeOk, Bool.and_eq_true, beq_iff_eq, List.all_eq_true]
        refine ⟨h0, ?_⟩
        intro x hx
        obtain ⟨i, hi, rfl⟩ := List.getElem_of_mem hx
        rw [ih es _ hes]
        intro path hp hin
        have := hr (i :: path) (by simpa using hp) (by simp [hin]; omega)
        simpa [Nest.lenAt?, List.getElem?_eq_getElem hi] using this

theorem getElem?_flatten_uniform {L : List (List α)} {m : Nat} (hm : ∀ l ∈ L, l.length = m) (i r : Nat) (hr : r < m) :
    L.flatten[i * m + r]? = L[i]?.bind (fun l => l[r]?) := by
  induction L generalizing i with
  | nil => simp
  | cons l L ih =>
    have hl : l.length = m := hm l (by simp)
    cases i with
    | zero =>
      simp only [List.flatten_cons, Nat.zero_mul, Nat.zero_add, List.getElem?_cons_zero, Option.bind_some]
      rw [List.getElem?_append_left (by omega)]
    | succ i =>
      simp only [List.flatten_cons, List.getElem?_cons_succ]
      have e1 : (i + 1) * m + r = l.length + (i * m + r) := by rw [hl]; ring
      rw [e1, List.getElem?_append_right (by omega), Nat.add_sub_cancel_left]
      exact ih (fun x hx => hm x (by simp [hx])) i

theorem flattenNest_length (n : Nat) : ∀ (exts : List Nat) (init : Nest α n), exts.length = n →
    shapeOk n exts init = true → (flattenNest n init).length = exts.prod := by
  induction n with
  | zero =>
    intro exts init h _
    have : exts = [] := List.length_eq_zero_iff.1 h
    subst this; rfl
  | succ n ih =>
    intro exts init h hs
    cases exts with
    | nil => simp at h
    | cons e es =>
      have hes : es.length = n := by simpa using h
      change List (Nest α n) at init
      simp only [shapeOk, Bool.and_eq_true, beq_iff_eq, List.all_eq_true] at hs
      have : ∀ l ∈ init.map (flattenNest n), l.length = es.prod := by
        intro l hl
        obtain ⟨x, hx, rfl⟩ := List.mem_map.1 hl
        exact ih es x hes (hs.2 x hx)
      simp only [flattenNest, List.length_flatten, List.map_map]
      have h2 : (List.map (List.length ∘ flattenNest n) init) = List.replicate init.length es.prod := by
        rw [List.eq_replicate_iff]
        refine ⟨by simp, ?_⟩
        intro b hb
        obtain ⟨x, hx, rfl⟩ := List.mem_map.1 hb
        exact ih es x hes (hs.2 x hx)
      rw [h2, List.sum_replicate_nat, hs.1, List.prod_cons]

theorem flattenNest_get (n : Nat) : ∀ (exts : List Nat) (init : Nest α n), exts.length = n →
    shapeOk n exts init = true → ∀ idx, InRange exts idx →
    (flattenNest n init)[rowMajor exts idx]? = Nest.get? n init idx := by
  induction n with
  | zero =>
    intro exts init h _ idx hin
    have : exts = [] := List.length_eq_zero_iff.1 h
    subst this
    rw [InRange.nil_iff] at hin; subst hin
    rfl
  | succ n ih =>
    intro exts init h hs idx hin
    cases exts with
    | nil => simp at h
    | cons e es =>
      have hes : es.length = n := by simpa using h
      change List (Nest α n) at init
      cases idx with
      | nil => simp [InRange] at hin
      | cons i is =>
        rw [inRange_cons] at hin
        simp only [shapeOk, Bool.and_eq_true, beq_iff_eq, List.all_eq_true] at hs
        have hall : ∀ l ∈ init.map (flattenNest n), l.length = es.prod := by
          intro l hl
          obtain ⟨x, hx, rfl⟩ := List.mem_map.1 hl
          exact flattenNest_length n es x hes (hs.2 x hx)
        simp only [flattenNest, rowMajor]
        rw [getElem?_flatten_uniform hall i _ (rowMajor_lt hin.2)]
        have hi : i < init.length := by rw [hs.1]; exact hin.1
        simp only [List.getElem?_map, List.getElem?_eq_getElem hi, Option.map_some, Option.bind_some, Nest.get?]
        exact ih es _ hes (hs.2 _ (List.getElem_mem hi)) is hin.2

end Verif.Marr
