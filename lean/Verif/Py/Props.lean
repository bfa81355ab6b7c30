import Verif.Py.Lemmas

/-! C86: arrays keep their shape and their elements between Python and `marray`. -/

namespace Verif.Py

open Verif.Marr

/-! ## Specification -/

section
variable {K : Type u}

/-- The element of a NumPy array at an index, as a Python user sees it. -/
def NpArray.element (dec : NpType → List UInt8 → K) (a : NpArray) (idx : List Nat) : Option K :=
  (a.bytes (a.addr idx)).map fun b => dec a.typ (if a.swapped then b.reverse else b)

end

/-- Every element of the array is in its memory, as NumPy ensures. -/
structure Valid (a : NpArray) : Prop where
  rank : a.strides.length = a.shape.length
  inside : ∀ idx, InRange a.shape idx → 0 ≤ a.addr idx ∧ a.addr idx + a.typ.size ≤ a.mem.length

/-- Every element is at an address that is a multiple of its size. -/
def Aligned (a : NpArray) : Prop := ∀ idx, InRange a.shape idx → ((a.base : Int) + a.addr idx) % a.typ.size = 0

/-- The types that are converted. -/
def Numeric (t : NpType) : Prop := ∀ n, t ≠ .other n

/-! ## From Python -/

theorem accepted_iff (t : NpType) : accepted t = true ↔ Numeric t := by
  unfold Numeric
  cases t <;> simp [accepted]

theorem getContiguous_same (a : NpArray) (base : Nat) :
    (a.getContiguous base).shape = a.shape ∧ (a.getContiguous base).typ = a.typ := by
  unfold NpArray.getContiguous
  by_cases h : a.contiguous = true
  · rw [if_pos h]; exact ⟨rfl, rfl⟩
  · rw [if_neg h]; exact ⟨rfl, rfl⟩

section
variable {K : Type u} [Inhabited K]

/-- C86: an object is refused, without an error of its own, exactly if it is not an array, has another number of dimensions, or has elements that
are not integers, truth values or real numbers. -/
theorem c86_refuses (dec : NpType → List UInt8 → K) (dim : Nat) (obj : Option NpArray) (base inner : Nat) :
    (∃ r, fromPython dec dim obj base inner = .ok (none, r)) ↔ ∀ a, obj = some a → a.shape.length ≠ dim ∨ ¬ Numeric a.typ := by
  unfold fromPython convertible
  cases obj with
  | none => simp
  | some a =>
    obtain ⟨e1, e2⟩ := getContiguous_same a base
    dsimp only
    rw [e1, e2]
    by_cases h1 : a.shape.length ≠ dim
    · simp [h1]
    · rw [if_neg h1]
      cases h2 : accepted a.typ with
      | false =>
        refine ⟨fun _ b hb => Or.inr ?_, fun _ => ⟨_, rfl⟩⟩
        cases hb
        rw [← accepted_iff, h2]
        simp
      | true =>
        dsimp only
        constructor
        · rintro ⟨r, h⟩
          cases hc : construct dec dim a base inner with
          | ok x => rw [hc] at h; cases h
          | throws => rw [hc] at h; cases h
          | ub => rw [hc] at h; cases h
        · intro h
          rcases h a rfl with h | h
          · exact absurd h h1
          · exact absurd ((accepted_iff _).1 h2) h

example : (∃ r, fromPython (fun _ _ => (0 : Nat)) 2 (some ⟨.float64, false, [1], [8], 0, 0, List.replicate 8 0⟩) 0 1 = .ok (none, r)) :=
  (c86_refuses _ _ _ _ _).2 fun a h => Or.inl (by cases h; decide)

/-- C86, partial: an array of numbers with elements, in the byte order of the machine, arrives with its shape and with every element at its index,
whatever its strides and however many elements the iterator takes at a time; no reference to it is kept. Missing: arrays without elements, in the
other byte order, or badly aligned (`c86_empty_violated`, `c86_byte_order_violated`, `c86_alignment_violated`), and sizes at which `resize` fails
(`c04_resize_violated`). -/
theorem c86_elements_partial (dec : NpType → List UInt8 → K) (a : NpArray) (base inner : Nat) (hv : Valid a) (ht : Numeric a.typ)
    (ho : a.swapped = false) (hal : Aligned a) (hb : 8 ∣ base) (hr : a.shape ≠ []) (hn : a.shape.prod ≠ 0) (hi : inner ∣ a.shape.prod)
    (hf : ∀ d < a.shape.length, (a.shape.take d).prod < 2 ^ 32) :
    ∃ m : MArray K, fromPython dec a.shape.length (some a) base inner = .ok (some m, 0) ∧ m.extents = a.shape ∧ m.WF ∧
      ∀ idx, InRange a.shape idx → ∃ x, m.at idx = .ok x ∧ a.element dec idx = some x := by
  have hacc := (accepted_iff _).2 ht
  have hsome : ∀ q, q < a.shape.prod → (a.nth q).isSome := by
    intro q hq
    unfold NpArray.nth NpArray.bytes
    rw [if_pos (hv.inside _ (unflat_inRange _ _ hq))]
    rfl
  obtain ⟨e1, e2⟩ := getContiguous_same a base
  -- reading the row-major array
  have hread : ∀ p, p < a.shape.prod → readAs dec (a.getContiguous base) ((a.getContiguous base).offset +
      ((p * (a.getContiguous base).typ.size : Nat) : Int)) = .ok (dec a.typ ((a.nth p).getD [])) := by
    intro p hp
    obtain ⟨b, hbp⟩ := Option.isSome_iff_exists.1 (hsome p hp)
    have hbytes : (a.getContiguous base).bytes ((a.getContiguous base).offset + ((p * (a.getContiguous base).typ.size : Nat) : Int)) = some b ∧
        (((a.getContiguous base).base : Int) + ((a.getContiguous base).offset + ((p * (a.getContiguous base).typ.size : Nat) : Int))) %
          (a.getContiguous base).typ.size = 0 := by
      unfold NpArray.getContiguous
      by_cases hc : a.contiguous = true
      · rw [if_pos hc]
        have hc' : contigFrom a.typ.size a.shape a.strides = true := by
          simpa [NpArray.contiguous, hn] using hc
        refine ⟨by rw [nth_contig hc' hp]; exact hbp, ?_⟩
        have := hal _ (unflat_inRange _ _ hp)
        unfold NpArray.addr at this
        rwa [dot_contig hc' (unflat_inRange _ _ hp), rowMajor_unflat _ _ hp] at this
      · rw [if_neg hc]
        refine ⟨?_, ?_⟩
        · have := nth_copy hsome base hp
          rw [hbp] at this
          rw [← this]
          show (a.copy base).bytes (0 + _) = _
          rw [zero_add]
          rfl
        · show ((base : Int) + (0 + ((p * a.typ.size : Nat) : Int))) % (a.typ.size : Int) = 0
          have hd : a.typ.size ∣ base := by
            refine Dvd.dvd.trans ?_ hb
            cases h : a.typ <;> simp only [NpType.size] <;> first | decide | exact absurd h (ht _)
          rw [zero_add]
          apply Int.emod_eq_zero_of_dvd
          exact Int.dvd_add (Int.natCast_dvd_natCast.2 hd) (Int.natCast_dvd_natCast.2 (Dvd.intro_left _ rfl))
    unfold readAs
    rw [e2] at hbytes ⊢
    rw [hacc, hbytes.1, hbp]
    rw [if_neg (by simp), if_neg (not_not.2 hbytes.2)]
    rfl
  -- the new array
  obtain ⟨m, hm, hme, hmw, -⟩ := c04_resize_partial (MArray.empty a.shape.length : MArray K) (by
      unfold MArray.WF MArray.empty
      have : a.shape.length ≠ 0 := fun h => hr (List.eq_nil_of_length_eq_zero h)
      simp [this]) a.shape (by simp [MArray.empty]) (by
      intro d hd
      refine ⟨hf d hd, ?_⟩
      simp only [MArray.empty, List.drop_replicate, List.prod_replicate]
      cases a.shape.length - (d + 1) <;> simp)
  have hlen : m.data.length = a.shape.prod := by rw [hmw.2, hmw.1, hme]
  obtain ⟨k, hk⟩ := hi
  have hinner : 0 < inner := Nat.pos_of_ne_zero (by rintro rfl; rw [Nat.zero_mul] at hk; exact hn hk)
  obtain ⟨ys, h1, h2, h3⟩ := outerLoop_spec dec (a.getContiguous base) (fun p => dec a.typ ((a.nth p).getD [])) a.shape.prod hread inner k 0 m.data
    hlen (by rw [hk]; simp [Nat.mul_comm])
  have hstarts : starts (a.getContiguous base) inner = (List.range' 0 k).map fun j => (a.getContiguous base).offset +
      ((j * inner * (a.getContiguous base).typ.size : Nat) : Int) := by
    unfold starts
    rw [e1, hk, Nat.mul_div_cancel_left _ hinner, List.range_eq_range']
  refine ⟨{ m with data := ys }, ?_, hme, ⟨hmw.1, by dsimp only; rw [h2, hmw.1, hme]⟩, ?_⟩
  · unfold fromPython convertible
    dsimp only
    rw [e1, e2, if_neg (by simp), hacc]
    dsimp only
    unfold construct
    dsimp only
    rw [e1, List.take_length, hm]
    dsimp only [Outcome.bind_ok]
    rw [if_neg hn, hstarts, e2]
    rw [e2] at h1
    rw [Nat.zero_mul] at h1
    rw [h1]
    rfl
  · intro idx hx
    have hlt := rowMajor_lt hx
    refine ⟨dec a.typ ((a.nth (rowMajor a.shape idx)).getD []), ?_, ?_⟩
    · rw [at_eq _ _ (by rw [hme]; exact hx.length_eq)]
      dsimp only
      rw [hme, h3 _ hlt, if_pos ⟨by simp, by rw [Nat.zero_add, Nat.mul_comm, ← hk]; exact hlt⟩]
      rfl
    · unfold NpArray.element
      rw [ho]
      unfold NpArray.nth
      rw [unflat_rowMajor hx]
      obtain ⟨b, hb⟩ := Option.isSome_iff_exists.1 (hsome _ hlt)
      unfold NpArray.nth at hb
      rw [unflat_rowMajor hx] at hb
      rw [hb]
      rfl

/-- An array of two rows and three columns of 16-bit numbers, stored by columns. -/
def byColumns : NpArray := ⟨.int16, false, [2, 3], [2, 4], 16, 0, [1, 0, 4, 0, 2, 0, 5, 0, 3, 0, 6, 0]⟩

example : ∃ m : MArray Nat, fromPython (fun _ b => (b.getD 0 0).toNat + 256 * (b.getD 1 0).toNat) 2 (some byColumns) 64 3 = .ok (some m, 0) ∧
    m.extents = [2, 3] ∧ m.at [0, 2] = .ok 3 ∧ m.at [1, 0] = .ok 4 := by
  refine ⟨⟨[2, 3], 6, [1, 2, 3, 4, 5, 6]⟩, ?_, rfl, rfl, rfl⟩
  decide

example : Valid byColumns ∧ Aligned byColumns ∧ Numeric byColumns.typ ∧ ¬ byColumns.contiguous := by
  have h : ∀ idx, InRange [2, 3] idx → ∃ i j, idx = [i, j] ∧ i < 2 ∧ j < 3 := by
    intro idx hx
    cases hx with
    | cons h1 h2 =>
      cases h2 with
      | cons h3 h4 =>
        cases h4
        exact ⟨_, _, rfl, h1, h3⟩
  refine ⟨⟨rfl, ?_⟩, ?_, (by intro n h; cases h), by decide⟩
  · intro idx hx
    obtain ⟨i, j, rfl, hi, hj⟩ := h idx hx
    simp only [NpArray.addr, byColumns, dot, NpType.size, List.length_cons, List.length_nil]
    omega
  · intro idx hx
    obtain ⟨i, j, rfl, hi, hj⟩ := h idx hx
    simp only [NpArray.addr, byColumns, dot, NpType.size]
    omega

/-- C86: no reference to the array is kept, nor one too many given back, whether it is taken or not. -/
theorem c86_references (dec : NpType → List UInt8 → K) (dim : Nat) (obj : Option NpArray) (base inner : Nat) (m : Option (MArray K)) (r : Int)
    (h : fromPython dec dim obj base inner = .ok (m, r)) : r = 0 := by
  unfold fromPython convertible at h
  cases obj with
  | none => cases h; rfl
  | some a =>
    dsimp only at h
    by_cases h1 : (a.getContiguous base).shape.length ≠ dim
    · rw [if_pos h1] at h
      cases h
      rfl
    · rw [if_neg h1] at h
      cases h2 : accepted (a.getContiguous base).typ with
      | false =>
        rw [h2] at h
        cases h
        rfl
      | true =>
        rw [h2] at h
        dsimp only at h
        cases hc : construct dec dim a base inner with
        | throws => rw [hc] at h; cases h
        | ub => rw [hc] at h; cases h
        | ok x =>
          rw [hc] at h
          cases h
          unfold construct at hc
          dsimp only at hc
          cases hm : (MArray.empty dim : MArray K).resize ((a.getContiguous base).shape.take dim) with
          | throws => rw [hm] at hc; cases hc
          | ub => rw [hm] at hc; cases hc
          | ok m =>
            rw [hm] at hc
            dsimp only [Outcome.bind_ok] at hc
            by_cases h0 : (a.getContiguous base).shape.prod = 0
            · rw [if_pos h0] at hc; cases hc
            · rw [if_neg h0] at hc
              cases hl : outerLoop dec (a.getContiguous base) (a.getContiguous base).typ.size inner (starts (a.getContiguous base) inner) m.data 0 with
              | throws => rw [hl] at hc; cases hc
              | ub => rw [hl] at hc; cases hc
              | ok y => rw [hl] at hc; cases hc; rfl

example : fromPython (fun _ b => (b.getD 0 0).toNat) 1 (some ⟨.uint8, false, [3], [2], 0, 0, [7, 0, 8, 0, 9]⟩) 16 1 = .ok (some ⟨[3], 3, [7, 8, 9]⟩, 0) := by
  decide

/-! ## To Python -/

omit [Inhabited K] in
/-- C86: an array arrives in Python with its shape and with every element at its index, in memory of its own. -/
theorem c86_to_numpy (dec : NpType → List UInt8 → K) (enc : K → List UInt8) (hl : ∀ x, (enc x).length = 8) (hed : ∀ x, dec .float64 (enc x) = x)
    (m : MArray K) (hw : m.WF) (base : Nat) : (toNumpy enc m base).shape = m.extents ∧ Valid (toNumpy enc m base) ∧
      ∀ idx, InRange m.extents idx → ∃ x, m.at idx = .ok x ∧ (toNumpy enc m base).element dec idx = some x := by
  have hdata : m.data.take m.total = m.data := by rw [← hw.2, List.take_length]
  have hmem : (toNumpy enc m base).mem = m.data.flatMap enc := by unfold toNumpy; rw [hdata]
  have hlen : (m.data.flatMap enc).length = m.data.length * 8 := flatMap_len fun a _ => hl a
  have haddr : ∀ idx, InRange m.extents idx → (toNumpy enc m base).addr idx = ((rowMajor m.extents idx * 8 : Nat) : Int) := by
    intro idx hx
    show 0 + dot idx (cStrides 8 m.extents) = _
    rw [dot_contig (contig_cStrides 8 m.extents) hx, zero_add]
  have hin : ∀ idx, InRange m.extents idx → 0 ≤ (toNumpy enc m base).addr idx ∧
      (toNumpy enc m base).addr idx + (toNumpy enc m base).typ.size ≤ (toNumpy enc m base).mem.length := by
    intro idx hx
    have hlt := rowMajor_lt hx
    rw [← hw.1, ← hw.2] at hlt
    rw [haddr idx hx, hmem, hlen]
    show (0 : Int) ≤ _ ∧ _ + ((8 : Nat) : Int) ≤ _
    omega
  have hrank : ∀ l : List Nat, (cStrides 8 l).length = l.length := by
    intro l
    induction l with
    | nil => rfl
    | cons a l ih => simp [cStrides, ih]
  refine ⟨rfl, ⟨hrank _, hin⟩, ?_⟩
  intro idx hx
  obtain ⟨hlt, hat⟩ := at_ok hw hx
  refine ⟨_, hat, ?_⟩
  have hlt' : rowMajor m.extents idx < m.data.length := by
    have := rowMajor_lt hx
    rwa [← hw.1, ← hw.2] at this
  unfold NpArray.element NpArray.bytes
  rw [if_pos (hin idx hx), haddr idx hx, hmem, Int.toNat_natCast]
  show some (dec .float64 (((m.data.flatMap enc).drop (rowMajor m.extents idx * 8)).take 8)) = _
  rw [drop_flatMap _ _ hlt' fun a _ => hl a, hed]

/-- C86, partial: an array with elements that goes to Python and back is the same array. Missing: as in `c86_elements_partial`. -/
theorem c86_round_trip_partial (dec : NpType → List UInt8 → K) (enc : K → List UInt8) (hl : ∀ x, (enc x).length = 8)
    (hed : ∀ x, dec .float64 (enc x) = x) (m : MArray K) (hw : m.WF) (base base' inner : Nat) (hb : 8 ∣ base) (hb' : 8 ∣ base')
    (hr : m.extents ≠ []) (hn : m.extents.prod ≠ 0) (hi : inner ∣ m.extents.prod)
    (hf : ∀ d < m.extents.length, (m.extents.take d).prod < 2 ^ 32) :
    fromPython dec m.extents.length (some (toNumpy enc m base)) base' inner = .ok (some m, 0) := by
  obtain ⟨-, hv, he⟩ := c86_to_numpy dec enc hl hed m hw base
  obtain ⟨m', h1, h2, h3, h4⟩ := c86_elements_partial dec (toNumpy enc m base) base' inner hv (by intro n h; cases h) rfl (by
    intro idx hx
    show ((base : Int) + (0 + dot idx (cStrides 8 m.extents))) % ((8 : Nat) : Int) = 0
    rw [dot_contig (contig_cStrides 8 m.extents) hx]
    omega) hb' hr hn hi hf
  have hmm : m' = m := by
    apply MArray.ext_at h3 hw h2
    intro idx hx
    obtain ⟨x, e1, e2⟩ := he idx (by have := hx; rw [h2] at this; exact this)
    obtain ⟨y, e3, e4⟩ := h4 idx (by have := hx; rw [h2] at this; exact this)
    rw [e1, e3]
    rw [e2] at e4
    cases e4
    rfl
  rw [hmm] at h1
  exact h1

example : ∃ (dec : NpType → List UInt8 → Fin 5) (enc : Fin 5 → List UInt8),
    fromPython dec 2 (some (toNumpy enc ⟨[2, 2], 4, [1, 2, 3, 4]⟩ 8)) 16 2 = .ok (some ⟨[2, 2], 4, [1, 2, 3, 4]⟩, 0) := by
  refine ⟨fun _ b => ⟨(b.getD 0 0).toNat % 5, by omega⟩, fun x => x.val.toUInt8 :: List.replicate 7 0, ?_⟩
  exact c86_round_trip_partial _ _ (by intro x; simp) (by decide) ⟨[2, 2], 4, [1, 2, 3, 4]⟩ (by decide) 8 16 2 (by decide) (by decide) (by simp)
    (by decide) (by decide) (by intro d hd; have hd : d < 2 := hd; match d, hd with | 0, _ => decide | 1, _ => decide)

end

/-! ## What goes wrong -/

/-- How a 16-bit number is read on a machine with the low byte first. -/
def low16 : NpType → List UInt8 → Nat := fun _ b => (b.getD 0 0).toNat + 256 * (b.getD 1 0).toNat

/-- C86 fails for arrays in the other byte order, which NumPy supports: only the type is looked at. The number 1 arrives as 256. -/
theorem c86_byte_order_violated : ∃ a : NpArray, Valid a ∧ Aligned a ∧ Numeric a.typ ∧ a.element low16 [0] = some 1 ∧
    ∃ m, fromPython low16 1 (some a) 16 1 = .ok (some m, 0) ∧ m.at [0] = .ok 256 := by
  have h : ∀ idx, InRange [1] idx → idx = [0] := by
    intro idx hx
    cases hx with
    | cons h1 h2 =>
      cases h2
      congr
      omega
  refine ⟨⟨.int16, true, [1], [2], 16, 0, [0, 1]⟩, ⟨rfl, ?_⟩, ?_, (by intro n h; cases h), by decide, ⟨[1], 1, [256]⟩, by decide, by decide⟩
  · intro idx hx
    rw [h idx hx]
    decide
  · intro idx hx
    rw [h idx hx]
    decide

/-- C86 fails for arrays without elements: the iterator is a null pointer, whatever the type, byte order and strides. -/
theorem c86_empty_violated {K : Type u} [Inhabited K] (dec : NpType → List UInt8 → K) (a : NpArray) (base inner : Nat) (ht : Numeric a.typ)
    (hr : a.shape ≠ []) (hn : a.shape.prod = 0) (hf : ∀ d < a.shape.length, (a.shape.take d).prod < 2 ^ 32) :
    fromPython dec a.shape.length (some a) base inner = .ub := by
  obtain ⟨e1, e2⟩ := getContiguous_same a base
  obtain ⟨m, hm, -⟩ := c04_resize_partial (MArray.empty a.shape.length : MArray K) (by
      unfold MArray.WF MArray.empty
      have : a.shape.length ≠ 0 := fun h => hr (List.eq_nil_of_length_eq_zero h)
      simp [this]) a.shape (by simp [MArray.empty]) (by
      intro d hd
      refine ⟨hf d hd, ?_⟩
      simp only [MArray.empty, List.drop_replicate, List.prod_replicate]
      cases a.shape.length - (d + 1) <;> simp)
  unfold fromPython convertible
  dsimp only
  rw [e1, e2, if_neg (by simp), (accepted_iff _).2 ht]
  dsimp only
  unfold construct
  dsimp only
  rw [e1, List.take_length, hm]
  dsimp only [Outcome.bind_ok]
  rw [if_pos hn]
  rfl

example : fromPython low16 2 (some ⟨.float64, false, [3, 0], [0, 8], 16, 0, []⟩) 16 1 = .ub :=
  c86_empty_violated low16 ⟨.float64, false, [3, 0], [0, 8], 16, 0, []⟩ 16 1 (by intro n h; cases h) (by simp) (by decide)
    (by intro d hd; have hd : d < 2 := hd; match d, hd with | 0, _ => decide | 1, _ => decide)

/-- C86 fails for arrays whose elements are not aligned, as a view of a buffer may be: they are read through a pointer to their type. -/
theorem c86_alignment_violated : ∃ a : NpArray, Valid a ∧ a.swapped = false ∧ Numeric a.typ ∧ a.element low16 [0] = some 1 ∧
    fromPython low16 1 (some a) 16 1 = .ub := by
  have h : ∀ idx, InRange [1] idx → idx = [0] := by
    intro idx hx
    cases hx with
    | cons h1 h2 =>
      cases h2
      congr
      omega
  refine ⟨⟨.int16, false, [1], [2], 16, 1, [9, 1, 0]⟩, ⟨rfl, ?_⟩, rfl, (by intro n h; cases h), by decide, by decide⟩
  intro idx hx
  rw [h idx hx]
  decide

end Verif.Py
