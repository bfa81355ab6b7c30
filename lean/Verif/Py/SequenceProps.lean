import Verif.Py.Sequence

/-!
# C113: a vector made from a Python object has the elements of the object
-/

namespace Verif.Py.Seq

variable {K : Type}

/-! ## Specification -/

/-- The iteration that yields these elements. -/
def yields (es : List (Elem K)) : List (Event K) := es.map .elem

/-- The iteration that yields these numbers. -/
def numbers (vs : List K) : List (Event K) := yields (vs.map .number)

/-- A Python list or tuple with these elements. -/
def ListOrTuple (o : Obj K) (es : List (Elem K)) : Prop :=
  (o.isList = true ∨ o.isTuple = true) ∧ o.isRange = false ∧ o.len = some es.length ∧ o.iter = .fresh (yields es)

def aList (es : List (Elem K)) : Obj K :=
  { isList := true, hasLen := true, hasGetitem := true, len := some es.length, iter := .fresh (yields es) }

/-- A `range` of `vs.length` numbers. -/
def aRange (vs : List K) : Obj K :=
  { isRange := true, hasLen := true, hasGetitem := true, len := some vs.length, iter := .fresh (numbers vs) }

/-- A generator expression, or `map`, `zip`, `iter(list)`: an iterator without a length. -/
def aGenerator (vs : List K) : Obj K := { isIter := true, iter := .itself (numbers vs) }

/-- A view like `array.flat` of NumPy: it can be indexed, knows its length, and is its own iterator. -/
def aView (vs : List K) : Obj K :=
  { isIter := true, hasLen := true, hasGetitem := true, len := some vs.length, iter := .itself (numbers vs) }

/-- A dictionary; iterating over it yields the keys. -/
def aDict (keys : List K) : Obj K :=
  { hasLen := true, hasGetitem := true, len := some keys.length, iter := .fresh (numbers keys) }

/-! ## Lemmas -/

theorem fill_numbers (vs : List K) : ∀ (a : List K), fill (numbers vs) a.length a = .ok (a ++ vs) := by
  induction vs with
  | nil => intro a; simp [numbers, yields, fill]
  | cons v vs ih =>
    intro a
    have h := ih (a ++ [v])
    simp only [List.length_append, List.length_cons, List.length_nil, Nat.zero_add, List.append_assoc, List.cons_append, List.nil_append] at h
    simp only [numbers, yields, List.map_cons, fill, Elem.value, if_true]
    exact h

theorem fill_only_numbers (es : List (Event K)) : ∀ (i : Nat) (a vs : List K), fill es i a = .ok vs → ∃ ws, es = numbers ws ∧ vs = a ++ ws := by
  induction es with
  | nil => intro i a vs h; exact ⟨[], rfl, by simpa [fill] using (Outcome.ok.inj h).symm⟩
  | cons e es ih =>
    intro i a vs h
    rcases e with e | _
    · rcases e with v | _ | _
      · simp only [fill, Elem.value] at h
        split at h
        · obtain ⟨ws, h1, h2⟩ := ih _ _ _ h
          exact ⟨v :: ws, by rw [h1]; rfl, by rw [h2]; simp⟩
        · exact absurd h (by simp)
      · exact absurd h (by simp [fill, Elem.value])
      · exact absurd h (by simp [fill, Elem.value])
    · exact absurd h (by simp [fill])

theorem fill_tooLarge (es : List (Elem K)) : ∀ (a : List K), Elem.tooLarge ∈ es → fill (yields es) a.length a = .throws := by
  induction es with
  | nil => intro a h; simp at h
  | cons e es ih =>
    intro a h
    rcases e with v | _ | _
    · have h' : Elem.tooLarge ∈ es := by simpa using h
      have := ih (a ++ [v]) h'
      simp only [yields, List.map_cons, fill, Elem.value, if_true]
      simpa [yields] using this
    · rfl
    · rfl

theorem all_of_checks (es : List (Elem K)) (h : ∀ e ∈ es, e.check = true) : ∀ i, allConvertible false (yields es) i = (true, i + es.length, []) := by
  induction es with
  | nil => intro i; rfl
  | cons e es ih =>
    intro i
    have h1 := h e (by simp)
    have h2 := ih (fun x hx => h x (by simp [hx])) (i + 1)
    simp only [yields, List.map_cons, allConvertible, h1, Bool.not_true, Bool.false_eq_true, if_false, List.length_cons]
    rw [show es.map Event.elem = yields es from rfl, h2]
    congr 2
    omega

theorem not_all (es : List (Elem K)) (h : ∃ e ∈ es, e.check = false) : ∀ i, (allConvertible false (yields es) i).1 = false := by
  induction es with
  | nil => obtain ⟨e, he, _⟩ := h; simp at he
  | cons e es ih =>
    intro i
    by_cases h1 : e.check = true
    · simp only [yields, List.map_cons, allConvertible, h1, Bool.not_true, Bool.false_eq_true, if_false]
      apply ih
      obtain ⟨x, hx, hc⟩ := h
      rcases List.mem_cons.mp hx with rfl | hx
      · rw [h1] at hc; exact absurd hc (by simp)
      · exact ⟨x, hx, hc⟩
    · simp [yields, allConvertible, Bool.eq_false_iff.mpr h1]

theorem numbers_check (vs : List K) : ∀ e ∈ vs.map Elem.number, e.check = true := by
  intro e he
  obtain ⟨v, _, rfl⟩ := List.mem_map.mp he
  rfl

theorem size_small {o : Obj K} {n : Nat} (h : o.len = some n) (hn : n < 2 ^ 31) : o.size = n := by
  unfold Obj.size
  rw [h]
  exact Int.bmod_eq_of_le (by omega) (by omega)

theorem admitted_list {o : Obj K} (h : o.isList = true ∨ o.isTuple = true) : o.admitted = true := by
  unfold Obj.admitted
  rcases h with h | h <;> simp [h]

theorem convertible_fresh {o : Obj K} {es : List (Event K)} (ha : o.admitted = true) (hi : o.iter = .fresh es) :
    convertible o = (checked o es).map fun r => r.map fun _ => o := by
  unfold convertible
  rw [ha, hi]
  rfl

theorem convertible_itself {o : Obj K} {es : List (Event K)} (ha : o.admitted = true) (hi : o.iter = .itself es) :
    convertible o = (checked o es).map fun r => r.map fun left => { o with iter := .itself left } := by
  unfold convertible
  rw [ha, hi]
  rfl

theorem construct_fresh {o : Obj K} {es : List (Event K)} (hi : o.iter = .fresh es) : construct o = fill es 0 [] := by
  unfold construct
  rw [hi]

/-! ## Properties -/

/-- A list or tuple of any number of numbers below 2^31 becomes the vector of these numbers, in this order. -/
theorem c113_list_partial (o : Obj K) (vs : List K) (h : ListOrTuple o (vs.map .number)) (hn : vs.length < 2 ^ 31) :
    toVector o = .ok (some vs) := by
  obtain ⟨h1, h2, h3, h4⟩ := h
  have hs : o.size = (vs.length : Int) := size_small (by simpa using h3) hn
  have ha := all_of_checks _ (numbers_check vs) 0
  have hf := fill_numbers vs []
  simp only [List.length_nil, List.nil_append, numbers] at hf
  have hc : checked o (yields (vs.map .number)) = .ok (some []) := by
    unfold checked
    rw [hs, h2, ha]
    simp
  unfold toVector convertible
  rw [admitted_list h1, h4]
  simp [hc, construct, h4, hf]

example : toVector (aList [.number (1 : Int), .number 5, .number 2]) = .ok (some [1, 5, 2]) :=
  c113_list_partial _ [1, 5, 2] ⟨.inl rfl, rfl, rfl, rfl⟩ (by decide)

/-- A list or tuple, of whatever length, with an element that is no number is refused. -/
theorem c113_refused (o : Obj K) (es : List (Elem K)) (h : ListOrTuple o es) (hbad : Elem.other ∈ es) : toVector o = .ok none := by
  obtain ⟨h1, h2, _, h4⟩ := h
  have ha := not_all es ⟨_, hbad, rfl⟩ 0
  have hc : checked o (yields es) = .ok none := by
    unfold checked
    split
    · rfl
    · simp [h2, ha]
  unfold toVector convertible
  rw [admitted_list h1, h4]
  simp [hc]

example : toVector (aList [.number (1 : Int), .other, .number 2]) = .ok none :=
  c113_refused _ [.number 1, .other, .number 2] ⟨.inl rfl, rfl, rfl, rfl⟩ (by simp)

/-- An integer too large for a `double` among numbers raises an exception; no vector is made with another number in its place. -/
theorem c113_too_large (o : Obj K) (es : List (Elem K)) (h : ListOrTuple o es) (hn : es.length < 2 ^ 31) (hall : Elem.other ∉ es)
    (hbig : Elem.tooLarge ∈ es) : toVector o = .throws := by
  obtain ⟨h1, h2, h3, h4⟩ := h
  have hs : o.size = (es.length : Int) := size_small h3 hn
  have ha := all_of_checks es (by
    intro e he
    rcases e with v | _ | _
    · rfl
    · rfl
    · exact absurd he hall) 0
  have hf := fill_tooLarge es [] hbig
  simp only [List.length_nil] at hf
  have hc : checked o (yields es) = .ok (some []) := by
    unfold checked
    rw [hs, h2, ha]
    simp
  unfold toVector convertible
  rw [admitted_list h1, h4]
  simp [hc, construct, h4, hf, Outcome.map]

example : toVector (aList [.number (1 : Int), .tooLarge]) = .throws :=
  c113_too_large _ [.number 1, .tooLarge] ⟨.inl rfl, rfl, rfl, rfl⟩ (by decide) (by simp) (by simp)

/-- A range becomes the vector of its numbers, although only the first of them is looked at. -/
theorem c113_range (o : Obj K) (vs : List K) (hr : o.isRange = true) (hl : o.len = some vs.length) (hi : o.iter = .fresh (numbers vs))
    (hn : vs.length < 2 ^ 31) : toVector o = .ok (some vs) := by
  have hs : o.size = (vs.length : Int) := size_small hl hn
  have hf := fill_numbers vs []
  simp only [List.length_nil, List.nil_append] at hf
  have hc : ∃ l, checked o (numbers vs) = .ok (some l) := by
    unfold checked
    rw [hs, if_neg (by omega), hr]
    rcases vs with _ | ⟨v, vs⟩
    · exact ⟨[], rfl⟩
    · exact ⟨numbers vs, rfl⟩
  obtain ⟨l, hc⟩ := hc
  have ha : o.admitted = true := by
    unfold Obj.admitted
    simp [hr]
  have h1 : convertible o = .ok (some o) := by
    rw [convertible_fresh (es := numbers vs) ha hi, hc]
    rfl
  unfold toVector
  rw [h1, Outcome.bind_ok]
  dsimp only
  rw [construct_fresh (es := numbers vs) hi, hf]
  rfl

example : toVector (aRange [(3 : Int), 4, 5]) = .ok (some [3, 4, 5]) := c113_range _ _ rfl rfl rfl (by decide)

/-- An object, other than a range, whose iteration raises an exception, after whatever numbers and whatever it would yield afterwards, is refused: the
exception is not passed on, and no vector of the numbers before it is made. -/
theorem c113_raises (o : Obj K) (vs : List K) (es : List (Event K)) (hr : o.isRange = false) (hi : o.iter = .fresh (numbers vs ++ .raises :: es)) :
    toVector o = .ok none := by
  have ha : ∀ i, (allConvertible false (numbers vs ++ .raises :: es) i).1 = false := by
    clear hi
    induction vs with
    | nil => intro i; rfl
    | cons v vs ih =>
      intro i
      simp only [numbers, yields, List.map_cons, List.cons_append, allConvertible, Elem.check, Bool.not_true, Bool.false_eq_true, if_false]
      exact ih _
  have hc : checked o (numbers vs ++ .raises :: es) = .ok none := by
    unfold checked
    split
    · rfl
    · simp [hr, ha]
  unfold toVector convertible
  rw [hi]
  split
  · rfl
  · simp [hc]

example : toVector ({ hasLen := true, hasGetitem := true, len := some 2, iter := .fresh [.elem (.number (1 : Int)), .elem (.number 2), .raises] } : Obj Int) =
    .ok none := c113_raises _ [1, 2] [] rfl rfl

/-- Whatever object over which one can iterate again is accepted, the vector holds all that the iteration yields, in this order and
nothing else. -/
theorem c113_exact (o : Obj K) (es : List (Event K)) (vs : List K) (hi : o.iter = .fresh es) (h : toVector o = .ok (some vs)) :
    es = numbers vs := by
  unfold toVector at h
  have h1 : convertible o = .ok none ∨ convertible o = .ok (some o) ∨ convertible o = .ub ∨ convertible o = .throws := by
    unfold convertible
    rw [hi]
    by_cases ha : o.admitted = true
    · simp only [ha, Bool.not_true, Bool.false_eq_true, if_false]
      rcases checked o es with (_ | l) | _ | _ <;> simp [Outcome.map]
    · simp [Bool.eq_false_iff.mpr ha]
  rcases h1 with h1 | h1 | h1 | h1
  · rw [h1] at h; simp at h
  · rw [h1] at h
    simp only [Outcome.bind_ok, construct, hi] at h
    rcases hf : fill es 0 [] with ws | _ | _
    · rw [hf] at h
      obtain ⟨us, h2, h3⟩ := fill_only_numbers _ _ _ _ hf
      have h4 : ws = vs := by simpa using h
      rw [h2, ← h4, h3]
      rfl
    · rw [hf] at h; simp [Outcome.map] at h
    · rw [hf] at h; simp [Outcome.map] at h
  · rw [h1] at h; simp at h
  · rw [h1] at h; simp at h

example : yields [.number (1 : Int), .number 2] = numbers [1, 2] :=
  c113_exact (aList [.number 1, .number 2]) _ [1, 2] rfl (by decide)

theorem appendAll_eq (vs : List K) : ∀ l, appendAll vs l = l ++ vs.map .number := by
  induction vs with
  | nil => intro l; simp [appendAll]
  | cons v vs ih => intro l; simp [appendAll, ih]

/-- A vector given to Python is a list of its numbers in order, and comes back as the same vector. -/
theorem c113_round_trip (vs : List K) : ListOrTuple (vecToList vs) (vs.map .number) ∧
    (vs.length < 2 ^ 31 → toVector (vecToList vs) = .ok (some vs)) := by
  have h : ListOrTuple (vecToList vs) (vs.map .number) := by
    unfold vecToList ListOrTuple
    rw [appendAll_eq]
    exact ⟨.inl rfl, rfl, rfl, rfl⟩
  exact ⟨h, c113_list_partial _ vs h⟩

example : toVector (vecToList [(4 : Int), 1]) = .ok (some [4, 1]) := (c113_round_trip _).2 (by decide)

/-- Strings of characters and of bytes are refused, whatever their characters. -/
theorem c113_strings (o : Obj K) (h : o.isBytes = true ∨ o.isUnicode = true) (h1 : o.isList = false) (h2 : o.isTuple = false)
    (h3 : o.isIter = false) (h4 : o.isRange = false) : toVector o = .ok none := by
  have ha : o.admitted = false := by
    unfold Obj.admitted
    rcases h with h | h <;> simp [h, h1, h2, h3, h4]
  unfold toVector convertible
  rw [ha]
  rfl

example : toVector ({ isBytes := true, hasLen := true, hasGetitem := true, len := some 2, iter := .fresh (numbers [97, 98]) } : Obj Int) = .ok none :=
  c113_strings _ (.inl rfl) rfl rfl rfl rfl

/-- Nothing without a length is accepted. -/
theorem c113_no_length (o : Obj K) (h : o.len = none) : toVector o = .ok none := by
  have hs : o.size = -1 := by unfold Obj.size; rw [h]
  have hc : ∀ es, checked o es = .ok none := by
    intro es
    unfold checked
    rw [hs]
    rfl
  unfold toVector convertible
  split
  · rfl
  · split <;> simp [hc]

example : toVector ({ isIter := true, iter := .itself [.raises] } : Obj Int) = .ok none := c113_no_length _ rfl

/-- Iterators are admitted by the first test (158), but refused for want of a length, whatever numbers they yield. -/
theorem c113_generator_violated (vs : List K) : (aGenerator vs).admitted = true ∧ toVector (aGenerator vs) = .ok none :=
  ⟨rfl, c113_no_length _ rfl⟩

example : (aGenerator [(1 : Int), 2]).admitted = true ∧ toVector (aGenerator [(1 : Int), 2]) = .ok none := c113_generator_violated _

/-- An object with a length that is its own iterator is used up by the test: it is accepted and its numbers are lost. -/
theorem c113_view_violated (vs : List K) (hn : vs.length < 2 ^ 31) : toVector (aView vs) = .ok (some []) := by
  have hs : (aView vs).size = (vs.length : Int) := size_small rfl hn
  have ha := all_of_checks _ (numbers_check vs) 0
  have hc : checked (aView vs) (numbers vs) = .ok (some []) := by
    unfold checked
    rw [hs, show (aView vs).isRange = false from rfl, show numbers vs = yields (vs.map .number) from rfl, ha]
    simp
  have h1 : convertible (aView vs) = .ok (some { aView vs with iter := .itself [] }) := by
    rw [convertible_itself (es := numbers vs) rfl rfl, hc]
    rfl
  unfold toVector
  rw [h1]
  rfl

example : toVector (aView [(1 : Int), 2, 3]) = .ok (some []) := c113_view_violated _ (by decide)

/-- The keys of a dictionary become a vector; its values are ignored. -/
theorem c113_dict_violated (keys : List K) (hn : keys.length < 2 ^ 31) : toVector (aDict keys) = .ok (some keys) := by
  have hs : (aDict keys).size = (keys.length : Int) := size_small rfl hn
  have ha := all_of_checks _ (numbers_check keys) 0
  have hf := fill_numbers keys []
  simp only [List.length_nil, List.nil_append] at hf
  have hc : checked (aDict keys) (numbers keys) = .ok (some []) := by
    unfold checked
    rw [hs, show (aDict keys).isRange = false from rfl, show numbers keys = yields (keys.map .number) from rfl, ha]
    simp
  have h1 : convertible (aDict keys) = .ok (some (aDict keys)) := by
    rw [convertible_fresh (es := numbers keys) rfl rfl, hc]
    rfl
  unfold toVector
  rw [h1, Outcome.bind_ok]
  dsimp only
  rw [construct_fresh (es := numbers keys) rfl, hf]
  rfl

example : toVector (aDict [(1 : Int), 2]) = .ok (some [1, 2]) := c113_dict_violated _ (by decide)

/-- The length is kept in an `int`: a list of numbers with 2^31 elements or more is refused, or, if the remainder modulo 2^32 is below 2^31, fails
the assertion. -/
theorem c113_long_violated (vs : List K) (hn : 2 ^ 31 ≤ vs.length) :
    toVector (aList (vs.map .number)) = if vs.length % 2 ^ 32 < 2 ^ 31 then .ub else .ok none := by
  have hl : (aList (vs.map Elem.number)).len = some vs.length := by simp [aList]
  have ha := all_of_checks _ (numbers_check vs) 0
  have hs : (aList (vs.map Elem.number)).size = if vs.length % 2 ^ 32 < 2 ^ 31 then ((vs.length % 2 ^ 32 : Nat) : Int)
      else ((vs.length % 2 ^ 32 : Nat) : Int) - 2 ^ 32 := by
    unfold Obj.size
    rw [hl]
    simp only [Int.bmod_def]
    split <;> split <;> omega
  have key : checked (aList (vs.map Elem.number)) (yields (vs.map .number)) = if vs.length % 2 ^ 32 < 2 ^ 31 then .ub else .ok none := by
    unfold checked
    rw [hs, show (aList (vs.map Elem.number)).isRange = false from rfl, ha]
    by_cases hm : vs.length % 2 ^ 32 < 2 ^ 31
    · rw [if_pos hm, if_neg (by omega)]
      have hne : 0 + (vs.map (Elem.number : K → Elem K)).length ≠ (((vs.length % 2 ^ 32 : Nat) : Int)).toNat := by
        simp only [List.length_map, Int.toNat_natCast]
        omega
      simp only [Bool.not_true, Bool.false_eq_true, if_false, Bool.not_false, Bool.true_and, bne_iff_ne, ne_eq, hne, not_false_eq_true, if_true, hm]
    · rw [if_neg hm, if_pos (by omega), if_neg hm]
  have h1 : convertible (aList (vs.map Elem.number)) = if vs.length % 2 ^ 32 < 2 ^ 31 then .ub else .ok none := by
    rw [convertible_fresh (es := yields (vs.map .number)) rfl rfl, key]
    split <;> rfl
  unfold toVector
  rw [h1]
  split <;> rfl

example : ∃ vs : List Unit, vs.length = 2 ^ 31 ∧ toVector (aList (vs.map .number)) = .ok none := by
  have h : (List.replicate (2 ^ 31) ()).length = 2 ^ 31 := List.length_replicate
  refine ⟨List.replicate (2 ^ 31) (), h, ?_⟩
  rw [c113_long_violated _ (by omega), h]
  rfl

/-- An object with `__len__` and `__getitem__` whose length disagrees with what the iteration yields fails the assertion instead of being
refused. -/
theorem c113_length_violated (o : Obj K) (vs : List K) (n : Nat) (ha : o.admitted = true) (hr : o.isRange = false) (hl : o.len = some n)
    (hi : o.iter = .fresh (numbers vs)) (hn : n < 2 ^ 31) (hne : n ≠ vs.length) : toVector o = .ub := by
  have hs : o.size = (n : Int) := size_small hl hn
  have hall := all_of_checks _ (numbers_check vs) 0
  have hc : checked o (numbers vs) = .ub := by
    unfold checked
    rw [hs, hr, show numbers vs = yields (vs.map .number) from rfl, hall, if_neg (by omega)]
    have h2 : 0 + (vs.map (Elem.number : K → Elem K)).length ≠ ((n : Int)).toNat := by
      simp only [List.length_map, Int.toNat_natCast]
      omega
    simp only [Bool.not_true, Bool.false_eq_true, if_false, Bool.not_false, Bool.true_and, bne_iff_ne, ne_eq, h2, not_false_eq_true, if_true]
  unfold toVector
  rw [convertible_fresh ha hi, hc]
  rfl

example : toVector ({ hasLen := true, hasGetitem := true, len := some 3, iter := .fresh (numbers [(1 : Int)]) } : Obj Int) = .ub :=
  c113_length_violated _ [1] 3 rfl rfl rfl rfl (by decide) (by decide)

end Verif.Py.Seq
