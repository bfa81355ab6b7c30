import Verif.Tools.Attr

/-!
# C116: what is put into an HDF5 file comes out, and no identifiers stay open
-/

namespace Verif.H5A

variable {V : Type}

/-! ## Specification -/

/-- Identifiers the library will hand out are not in use. -/
def Lib.Fresh (l : Lib V) : Prop := ∀ p ∈ l.opened, p.1 < l.next

/-- An attribute or a data set is open: the library keeps the file open although it has been closed. -/
def Lib.KeepsFile (l : Lib V) : Prop := ∃ p ∈ l.opened, p.2 = .attr ∨ p.2 = .dset

/-- There is room for an attribute of this name. -/
def Lib.Free (l : Lib V) (name : String) : Prop := l.writable = true ∧ l.attrs name = none

/-- A number converted to its own type is the same number. -/
def Machine.Exact (M : Machine V) : Prop := ∀ k v, M.conv k k v = v

/-- Attributes hold what their type says. -/
def Lib.Typed (l : Lib V) : Prop := ∀ n a, l.attrs n = some a → match a.ty, a.data with
  | .str size, .chars b => b.length = size
  | .num _, .value _ => True
  | _, _ => False

/-- An attribute to be added: a number or a string that is not empty. -/
inductive Item (V : Type) where
  | text (b : Bytes)
  | number (k : Kind) (v : V)

def Item.Sound : Item V → Prop
  | .text b => b ≠ []
  | .number _ _ => True

def Item.op (n : String) : Item V → Op V
  | .text b => .addString n b
  | .number k v => .addNum n k v

/-- It is read as it was. -/
def Item.In (M : Machine V) (l : Lib V) (n : String) : Item V → Prop
  | .text b => (readString l n).2 = .ok b ∧ getString M l n = .ok b
  | .number k v => (readNum l n k).2 = .ok v ∧ (readLoose M l n k).2 = .ok v

/-- A call that leaves an identifier open: a string is added, a string is read as a number by the functions of the bodies, or an array is read with
another rank. -/
def Op.Leaks (l : Lib V) : Op V → Prop
  | .addString _ _ => True
  | .readLoose n _ => ∃ a s, l.attrs n = some a ∧ a.ty = .str s
  | .readArray n r => ∃ r', l.dsets n = some r' ∧ r' ≠ r
  | _ => False

/-- The same without strings that are added. -/
def Op.Holds (l : Lib V) : Op V → Prop
  | .addString _ _ => False
  | o => o.Leaks l

/-! ## Lemmas -/

theorem filter_old {o : List (Nat × Held)} {n j : Nat} (h : ∀ p ∈ o, p.1 < n) (hj : n ≤ j) : o.filter (fun p => p.1 != j) = o := by
  rw [List.filter_eq_self]
  intro p hp
  have := h p hp
  simp only [bne_iff_ne, ne_eq]
  omega

theorem addString_attrs (l : Lib V) (n : String) (b : Bytes) : (addString l n b).attrs = if l.writable && (l.attrs n).isNone then
    fun m => if m = n then some ⟨.str (strSize b.length), 1, .chars ((b ++ [0]).take (strSize b.length))⟩ else l.attrs m else l.attrs := by
  unfold addString Lib.create
  dsimp only [Lib.acquire]
  split
  · funext m
    dsimp only [Lib.write, Lib.close]
    split <;> simp_all
  · rfl

theorem addString_opened (l : Lib V) (h : l.Fresh) (n : String) (b : Bytes) : (addString l n b).opened = (l.next, .type) :: l.opened := by
  unfold addString Lib.create
  dsimp only [Lib.acquire]
  split
  · simp only [Lib.write, Lib.close]
    have h1 : ∀ p ∈ (l.next, Held.type) :: l.opened, p.1 < l.next + 1 := by
      intro p hp
      rcases List.mem_cons.mp hp with rfl | hp
      · simp
      · exact Nat.lt_succ_of_lt (h p hp)
    rw [List.filter_cons_of_neg (by simp), List.filter_cons_of_pos (by simp), List.filter_cons_of_neg (by simp), filter_old h1 (by omega),
      filter_old h1 (by omega)]
  · simp [Lib.write, Lib.close, filter_old h]

theorem addString_rest (l : Lib V) (n : String) (b : Bytes) : (addString l n b).writable = l.writable ∧ (addString l n b).dsets = l.dsets ∧
    l.next < (addString l n b).next := by
  unfold addString Lib.create
  dsimp only [Lib.acquire]
  split <;> simp [Lib.write, Lib.close] <;> omega

theorem addNum_attrs (l : Lib V) (z : V) (n : String) (k : Kind) (v : V) : (addNum l z n k v).attrs = if l.writable && (l.attrs n).isNone then
    fun m => if m = n then some ⟨.num k, 1, .value v⟩ else l.attrs m else l.attrs := by
  unfold addNum Lib.create
  dsimp only [Lib.acquire]
  split
  · funext m
    dsimp only [Lib.write, Lib.close]
    split <;> simp_all
  · rfl

theorem addNum_opened (l : Lib V) (h : l.Fresh) (z : V) (n : String) (k : Kind) (v : V) : (addNum l z n k v).opened = l.opened := by
  unfold addNum Lib.create
  dsimp only [Lib.acquire]
  split <;> simp [Lib.write, Lib.close, filter_old h]

theorem addNum_rest (l : Lib V) (z : V) (n : String) (k : Kind) (v : V) : (addNum l z n k v).writable = l.writable ∧
    (addNum l z n k v).dsets = l.dsets ∧ l.next < (addNum l z n k v).next := by
  unfold addNum Lib.create
  dsimp only [Lib.acquire]
  split <;> simp [Lib.write, Lib.close] <;> omega

theorem readNum_lib (l : Lib V) (h : l.Fresh) (n : String) (k : Kind) : (readNum l n k).1.opened = l.opened ∧
    (readNum l n k).1.attrs = l.attrs ∧ (readNum l n k).1.dsets = l.dsets ∧ (readNum l n k).1.writable = l.writable ∧ l.next ≤ (readNum l n k).1.next := by
  unfold readNum Lib.openAttr
  cases l.attrs n with
  | none => simp
  | some a =>
    dsimp only [Lib.acquire]
    split
    · cases a.data <;> simp [Lib.close, filter_old h] <;> omega
    · simp [Lib.close, filter_old h]; omega

theorem readString_lib (l : Lib V) (h : l.Fresh) (n : String) : (readString l n).1.opened = l.opened ∧
    (readString l n).1.attrs = l.attrs ∧ (readString l n).1.dsets = l.dsets ∧ (readString l n).1.writable = l.writable ∧ l.next ≤ (readString l n).1.next := by
  unfold readString Lib.openAttr
  cases l.attrs n with
  | none => simp
  | some a =>
    dsimp only [Lib.acquire]
    cases a.ty <;> cases a.data <;> simp [Lib.close, filter_old h] <;> omega

theorem readLoose_lib (M : Machine V) (l : Lib V) (n : String) (k : Kind) : (readLoose M l n k).1.attrs = l.attrs ∧
    (readLoose M l n k).1.dsets = l.dsets ∧ (readLoose M l n k).1.writable = l.writable ∧ l.next ≤ (readLoose M l n k).1.next := by
  unfold readLoose Lib.openAttr
  cases l.attrs n with
  | none => simp
  | some a =>
    dsimp only [Lib.acquire]
    cases a.ty <;> cases a.data <;> simp [Lib.close]

theorem writeArray_lib (l : Lib V) (h : l.Fresh) (n : String) (r : Nat) (c : Bool) : (writeArray l n r c).1.opened = l.opened ∧
    (writeArray l n r c).1.attrs = l.attrs ∧ (writeArray l n r c).1.writable = l.writable ∧ l.next ≤ (writeArray l n r c).1.next := by
  unfold writeArray
  have h1 : ∀ a b, (a, b) ∈ l.opened → a < l.next := fun a b hp => h (a, b) hp
  cases c <;> dsimp only [Lib.acquire, if_true, if_false] <;> simp only [Bool.false_eq_true, if_false, if_true] <;> split <;>
    simp [Lib.close] <;> grind

theorem readArray_lib (l : Lib V) (n : String) (r : Nat) : (readArray l n r).1.attrs = l.attrs ∧ (readArray l n r).1.dsets = l.dsets ∧
    (readArray l n r).1.writable = l.writable ∧ l.next ≤ (readArray l n r).1.next := by
  unfold readArray
  cases l.dsets n with
  | none => simp
  | some r' =>
    dsimp only [Lib.acquire]
    split <;> simp [Lib.close] <;> omega

theorem take_self (b : Bytes) (h : b ≠ []) : (b ++ [0]).take (strSize b.length) = b := by
  unfold strSize
  rw [if_neg (by simpa using h)]
  simp

theorem take_length (b : Bytes) : ((b ++ [0]).take (strSize b.length)).length = strSize b.length := by
  unfold strSize
  split <;> simp <;> omega

theorem readString_of {l : Lib V} {n : String} {s r : Nat} {b : Bytes} (h : l.attrs n = some ⟨.str s, r, .chars b⟩) : (readString l n).2 = .ok (b.take s) := by
  unfold readString Lib.openAttr
  rw [h]

theorem readNum_of {l : Lib V} {n : String} {k : Kind} {r : Nat} {v : V} (h : l.attrs n = some ⟨.num k, r, .value v⟩) : (readNum l n k).2 = .ok v := by
  unfold readNum Lib.openAttr
  rw [h]
  dsimp only
  rw [if_pos rfl]

theorem readLoose_of (M : Machine V) {l : Lib V} {n : String} {k k' : Kind} {r : Nat} {v : V} (h : l.attrs n = some ⟨.num k', r, .value v⟩) :
    (readLoose M l n k).2 = .ok (M.conv k' k v) := by
  unfold readLoose Lib.openAttr
  rw [h]

theorem getString_of (M : Machine V) {l : Lib V} {n : String} {s : Nat} {b : Bytes} (h : l.attrs n = some ⟨.str s, 1, .chars b⟩) : getString M l n = .ok b := by
  unfold getString
  rw [h]
  rfl

theorem addString_free {l : Lib V} {n : String} (h : l.Free n) (b : Bytes) :
    (addString l n b).attrs = fun m => if m = n then some ⟨.str (strSize b.length), 1, .chars ((b ++ [0]).take (strSize b.length))⟩ else l.attrs m := by
  rw [addString_attrs, h.1, h.2]
  rfl

theorem addNum_free {l : Lib V} {n : String} (h : l.Free n) (z : V) (k : Kind) (v : V) :
    (addNum l z n k v).attrs = fun m => if m = n then some ⟨.num k, 1, .value v⟩ else l.attrs m := by
  rw [addNum_attrs, h.1, h.2]
  rfl

/-- What is read depends on the attribute alone. -/
theorem Item.in_congr (M : Machine V) {l l' : Lib V} {n : String} (h : l'.attrs n = l.attrs n) (x : Item V) (hx : x.In M l n) : x.In M l' n := by
  cases x with
  | text b =>
    obtain ⟨h1, h2⟩ := hx
    refine ⟨?_, by unfold getString at h2 ⊢; rw [h]; exact h2⟩
    unfold readString Lib.openAttr at h1 ⊢
    rw [h]
    cases ha : l.attrs n with
    | none => rw [ha] at h1; exact h1
    | some a =>
      rw [ha] at h1
      dsimp only at h1 ⊢
      cases hty : a.ty <;> cases hd : a.data <;> simp only [hty, hd] at h1 ⊢ <;> exact h1
  | number k v =>
    obtain ⟨h1, h2⟩ := hx
    constructor
    · unfold readNum Lib.openAttr at h1 ⊢
      rw [h]
      cases ha : l.attrs n with
      | none => rw [ha] at h1; exact h1
      | some a =>
        rw [ha] at h1
        dsimp only at h1 ⊢
        by_cases hk : a.ty = .num k
        · rw [if_pos hk] at h1 ⊢
          cases hd : a.data <;> simp only [hd] at h1 ⊢ <;> exact h1
        · rw [if_neg hk] at h1 ⊢
          exact h1
    · unfold readLoose Lib.openAttr at h2 ⊢
      rw [h]
      cases ha : l.attrs n with
      | none => rw [ha] at h2; exact h2
      | some a =>
        rw [ha] at h2
        dsimp only at h2 ⊢
        cases hty : a.ty <;> cases hd : a.data <;> simp only [hty, hd] at h2 ⊢ <;> exact h2

theorem step_fresh (M : Machine V) (z : V) (l : Lib V) (h : l.Fresh) (o : Op V) : (step M z l o).Fresh := by
  have up : ∀ {l' : Lib V}, l'.opened = l.opened → l.next ≤ l'.next → l'.Fresh := fun h1 h2 p hp => Nat.lt_of_lt_of_le (h p (h1 ▸ hp)) h2
  cases o with
  | addString n b =>
    intro p hp
    change p ∈ (addString l n b).opened at hp
    rw [addString_opened l h] at hp
    have := (addString_rest l n b).2.2
    rcases List.mem_cons.mp hp with rfl | hp
    · exact this
    · exact Nat.lt_trans (h p hp) this
  | addNum n k v => exact up (addNum_opened l h z n k v) (Nat.le_of_lt (addNum_rest l z n k v).2.2)
  | setString n b =>
    change (setString l n b).Fresh
    unfold setString
    split <;> exact h
  | readNum n k => exact up (readNum_lib l h n k).1 (readNum_lib l h n k).2.2.2.2
  | readString n => exact up (readString_lib l h n).1 (readString_lib l h n).2.2.2.2
  | writeArray n r c => exact up (writeArray_lib l h n r c).1 (writeArray_lib l h n r c).2.2.2
  | readLoose n k =>
    change (readLoose M l n k).1.Fresh
    unfold readLoose Lib.openAttr
    cases l.attrs n with
    | none => exact h
    | some a =>
      have hc : ∀ p ∈ (l.next, Held.attr) :: l.opened, p.1 < l.next + 1 := by
        intro p hp
        rcases List.mem_cons.mp hp with rfl | hp
        · simp
        · exact Nat.lt_succ_of_lt (h p hp)
      dsimp only [Lib.acquire]
      cases a.ty <;> cases a.data <;> first | exact hc | exact fun p hp => hc p (List.mem_filter.mp hp).1
  | readArray n r =>
    change (readArray l n r).1.Fresh
    unfold readArray
    cases l.dsets n with
    | none => exact h
    | some r' =>
      have hc : ∀ p ∈ (l.next + 1, Held.space) :: (l.next, Held.dset) :: l.opened, p.1 < l.next + 1 + 1 := by
        intro p hp
        rcases List.mem_cons.mp hp with rfl | hp
        · simp
        rcases List.mem_cons.mp hp with rfl | hp
        · simp; omega
        · exact Nat.lt_succ_of_lt (Nat.lt_succ_of_lt (h p hp))
      dsimp only [Lib.acquire]
      split
      · exact hc
      · exact fun p hp => hc p (List.mem_filter.mp (List.mem_filter.mp hp).1).1

theorem step_typed (M : Machine V) (z : V) (l : Lib V) (h : l.Typed) (hf : l.Fresh) (o : Op V) : (step M z l o).Typed := by
  have same : ∀ {l' : Lib V}, l'.attrs = l.attrs → l'.Typed := fun h1 n a ha => h n a (h1 ▸ ha)
  cases o with
  | addString n b =>
    intro m a ha
    change (addString l n b).attrs m = some a at ha
    rw [addString_attrs] at ha
    split at ha
    · dsimp only at ha
      split at ha
      · obtain rfl := Option.some.inj ha
        exact take_length b
      · exact h m a ha
    · exact h m a ha
  | addNum n k v =>
    intro m a ha
    change (addNum l z n k v).attrs m = some a at ha
    rw [addNum_attrs] at ha
    split at ha
    · dsimp only at ha
      split at ha
      · obtain rfl := Option.some.inj ha
        trivial
      · exact h m a ha
    · exact h m a ha
  | setString n b =>
    intro m a ha
    change (setString l n b).attrs m = some a at ha
    unfold setString at ha
    split at ha
    · dsimp only at ha
      split at ha
      · obtain rfl := Option.some.inj ha
        simp
      · exact h m a ha
    · exact h m a ha
  | readNum n k => exact same (readNum_lib l hf n k).2.1
  | readString n => exact same (readString_lib l hf n).2.1
  | readLoose n k => exact same (readLoose_lib M l n k).1
  | writeArray n r c => exact same (writeArray_lib l hf n r c).2.1
  | readArray n r => exact same (readArray_lib l n r).1

/-- What one call leaves open. -/
theorem step_opened (M : Machine V) (z : V) (l : Lib V) (h : l.Fresh) (ht : l.Typed) (o : Op V) :
    (¬o.Leaks l → (step M z l o).opened = l.opened) ∧ (¬o.Holds l → ((step M z l o).KeepsFile ↔ l.KeepsFile)) ∧
    (o.Leaks l → l.opened.length < (step M z l o).opened.length) ∧ (o.Holds l → (step M z l o).KeepsFile) := by
  have quiet : ∀ {l' : Lib V}, l'.opened = l.opened → ¬o.Leaks l → (¬o.Leaks l → l'.opened = l.opened) ∧ (¬o.Holds l → (l'.KeepsFile ↔ l.KeepsFile)) ∧
      (o.Leaks l → l.opened.length < l'.opened.length) ∧ (o.Holds l → l'.KeepsFile) := by
    intro l' h1 h2
    refine ⟨fun _ => h1, fun _ => by unfold Lib.KeepsFile; rw [h1], fun h3 => absurd h3 h2, fun h3 => absurd ?_ h2⟩
    cases o <;> first | exact h3 | exact h3.elim
  cases o with
  | addString n b =>
    have ho : (step M z l (.addString n b)).opened = (l.next, .type) :: l.opened := addString_opened l h n b
    refine ⟨fun h1 => absurd trivial h1, fun _ => ?_, fun _ => by rw [ho]; simp, fun h1 => h1.elim⟩
    unfold Lib.KeepsFile
    rw [ho]
    simp
  | addNum n k v => exact quiet (addNum_opened l h z n k v) id
  | setString n b =>
    refine quiet ?_ id
    change (setString l n b).opened = _
    unfold setString
    split <;> rfl
  | readNum n k => exact quiet (readNum_lib l h n k).1 id
  | readString n => exact quiet (readString_lib l h n).1 id
  | writeArray n r c => exact quiet (writeArray_lib l h n r c).1 id
  | readLoose n k =>
    change (_ → (readLoose M l n k).1.opened = _) ∧ (_ → ((readLoose M l n k).1.KeepsFile ↔ _)) ∧ (_ → _ < (readLoose M l n k).1.opened.length) ∧
      (_ → (readLoose M l n k).1.KeepsFile)
    cases ha : l.attrs n with
    | none =>
      refine quiet ?_ ?_
      · unfold readLoose Lib.openAttr; rw [ha]
      · rintro ⟨a, s, h1, _⟩
        rw [ha] at h1
        cases h1
    | some a =>
      have := ht n a ha
      cases hty : a.ty with
      | num k' =>
        cases hd : a.data with
        | value v =>
          refine quiet ?_ ?_
          · unfold readLoose Lib.openAttr
            rw [ha]
            simp [hty, hd, Lib.acquire, Lib.close, filter_old h]
          · rintro ⟨a', s, h1, h2⟩
            rw [ha] at h1
            obtain rfl := Option.some.inj h1
            rw [hty] at h2
            cases h2
        | chars b => rw [hty, hd] at this; exact this.elim
      | str s =>
        have hl : Op.Leaks l (.readLoose n k : Op V) := ⟨a, s, ha, hty⟩
        have ho : (readLoose M l n k).1.opened = (l.next, .attr) :: l.opened := by
          unfold readLoose Lib.openAttr
          rw [ha]
          simp [hty, Lib.acquire]
        exact ⟨fun h1 => absurd hl h1, fun h1 => absurd hl h1, fun _ => by rw [ho]; simp, fun _ => ⟨(l.next, .attr), by rw [ho]; simp, .inl rfl⟩⟩
  | readArray n r =>
    change (_ → (readArray l n r).1.opened = _) ∧ (_ → ((readArray l n r).1.KeepsFile ↔ _)) ∧ (_ → _ < (readArray l n r).1.opened.length) ∧
      (_ → (readArray l n r).1.KeepsFile)
    cases ha : l.dsets n with
    | none =>
      refine quiet ?_ ?_
      · unfold readArray; rw [ha]
      · rintro ⟨r', h1, _⟩
        rw [ha] at h1
        cases h1
    | some r' =>
      by_cases hr : r' = r
      · refine quiet ?_ ?_
        · unfold readArray
          rw [ha]
          have h1 : ∀ a b, (a, b) ∈ l.opened → a < l.next := fun a b hp => h (a, b) hp
          simp [hr, Lib.acquire, Lib.close]
          grind
        · rintro ⟨r'', h1, h2⟩
          rw [ha] at h1
          exact h2 (by rw [← Option.some.inj h1]; exact hr)
      · have hl : Op.Leaks l (.readArray n r : Op V) := ⟨r', ha, hr⟩
        have ho : (readArray l n r).1.opened = (l.next + 1, .space) :: (l.next, .dset) :: l.opened := by
          unfold readArray
          rw [ha]
          simp [hr, Lib.acquire]
        exact ⟨fun h1 => absurd hl h1, fun h1 => absurd hl h1, fun _ => by rw [ho]; simp; omega, fun _ => ⟨(l.next, .dset), by rw [ho]; simp, .inr rfl⟩⟩

/-! ## Properties -/

/-- A number added under a free name is read back, by the strict and by the converting function; other attributes are as before. -/
theorem c116_number (M : Machine V) (hM : M.Exact) (l : Lib V) (z : V) (n : String) (h : l.Free n) (k : Kind) (v : V) :
    (readNum (addNum l z n k v) n k).2 = .ok v ∧ (readLoose M (addNum l z n k v) n k).2 = .ok v ∧
      ∀ m, m ≠ n → (addNum l z n k v).attrs m = l.attrs m := by
  have ha := addNum_free h z k v
  have hn : (addNum l z n k v).attrs n = some ⟨.num k, 1, .value v⟩ := by rw [ha]; exact if_pos rfl
  exact ⟨readNum_of hn, by rw [readLoose_of M hn, hM], fun m hm => by rw [ha]; exact if_neg hm⟩

/-- A string that is not empty, added under a free name, is read back, by both functions, whatever bytes it has; other attributes are as before.
Missing: the empty string (`c116_empty_violated`). -/
theorem c116_string_partial (M : Machine V) (l : Lib V) (n : String) (h : l.Free n) (b : Bytes) (hb : b ≠ []) :
    (readString (addString l n b) n).2 = .ok b ∧ getString M (addString l n b) n = .ok b ∧ ∀ m, m ≠ n → (addString l n b).attrs m = l.attrs m := by
  have ha := addString_free h b
  have hn : (addString l n b).attrs n = some ⟨.str (strSize b.length), 1, .chars b⟩ := by rw [ha, take_self b hb]; exact if_pos rfl
  refine ⟨?_, getString_of M hn, fun m hm => by rw [ha]; exact if_neg hm⟩
  rw [readString_of hn]
  unfold strSize
  rw [if_neg (by simpa using hb), List.take_length]

/-- The empty string comes back as a null byte. -/
theorem c116_empty_violated (M : Machine V) (l : Lib V) (n : String) (h : l.Free n) :
    (readString (addString l n []) n).2 = .ok [0] ∧ getString M (addString l n []) n = .ok [0] := by
  have hn : (addString l n []).attrs n = some ⟨.str 1, 1, .chars [0]⟩ := by rw [addString_free h]; exact if_pos rfl
  exact ⟨readString_of hn, getString_of M hn⟩

/-- Any number of attributes with different names added to an object that can be written are all read back. -/
theorem c116_all_partial (M : Machine V) (hM : M.Exact) (z : V) (xs : List (String × Item V)) : ∀ (l : Lib V), l.writable = true →
    (xs.map (·.1)).Nodup → (∀ x ∈ xs, l.attrs x.1 = none ∧ x.2.Sound) → ∀ x ∈ xs, x.2.In M (run M z l (xs.map fun x => x.2.op x.1)) x.1 := by
  have others : ∀ (xs : List (String × Item V)) (l : Lib V) (m : String), m ∉ xs.map (·.1) →
      (run M z l (xs.map fun x => x.2.op x.1)).attrs m = l.attrs m := by
    intro xs
    induction xs with
    | nil => intro l m _; rfl
    | cons x xs ih =>
      intro l m hm
      simp only [List.map_cons, List.mem_cons, not_or] at hm
      change (run M z (step M z l (x.2.op x.1)) _).attrs m = _
      rw [ih _ m hm.2]
      cases x.2 with
      | text b =>
        change (addString l x.1 b).attrs m = _
        rw [addString_attrs]
        split
        · exact if_neg hm.1
        · rfl
      | number k v =>
        change (addNum l z x.1 k v).attrs m = _
        rw [addNum_attrs]
        split
        · exact if_neg hm.1
        · rfl
  induction xs with
  | nil => intro l _ _ _ x hx; cases hx
  | cons y ys ih =>
    intro l hw hnd hfree x hx
    simp only [List.map_cons, List.nodup_cons] at hnd
    have hy := hfree y (by simp)
    change x.2.In M (run M z (step M z l (y.2.op y.1)) (ys.map fun x => x.2.op x.1)) x.1
    have hfr : l.Free y.1 := ⟨hw, hy.1⟩
    have hin : y.2.In M (step M z l (y.2.op y.1)) y.1 ∧ (∀ m, m ≠ y.1 → (step M z l (y.2.op y.1)).attrs m = l.attrs m) ∧
        (step M z l (y.2.op y.1)).writable = true := by
      obtain ⟨n, i⟩ := y
      cases i with
      | text b =>
        obtain ⟨h1, h2, h3⟩ := c116_string_partial M l n hfr b hy.2
        exact ⟨⟨h1, h2⟩, h3, (addString_rest l n b).1.trans hw⟩
      | number k v =>
        obtain ⟨h1, h2, h3⟩ := c116_number M hM l z n hfr k v
        exact ⟨⟨h1, h2⟩, h3, (addNum_rest l z n k v).1.trans hw⟩
    rcases List.mem_cons.mp hx with rfl | hx
    · exact Item.in_congr M (others ys _ _ hnd.1) _ hin.1
    · refine ih _ hin.2.2 hnd.2 (fun w hw' => ?_) x hx
      have hne : w.1 ≠ y.1 := fun he => hnd.1 (he ▸ List.mem_map_of_mem hw')
      exact ⟨by rw [hin.2.1 _ hne]; exact (hfree w (by simp [hw'])).1, (hfree w (by simp [hw'])).2⟩

/-- An attribute whose name is taken, or in a file that cannot be written, is not added, and the call returns as if it were. -/
theorem c116_taken_violated (l : Lib V) (z : V) (n : String) (h : ¬l.Free n) (b : Bytes) (k : Kind) (v : V) :
    (addString l n b).attrs = l.attrs ∧ (addNum l z n k v).attrs = l.attrs := by
  have hf : (l.writable && (l.attrs n).isNone) = false := by
    rw [Bool.eq_false_iff]
    intro hc
    rw [Bool.and_eq_true] at hc
    exact h ⟨hc.1, Option.isNone_iff_eq_none.mp hc.2⟩
  rw [addString_attrs, addNum_attrs, hf]
  exact ⟨rfl, rfl⟩

/-- The functions for attributes throw if there is no such attribute, and if it is of another type. -/
theorem c116_mismatch (M : Machine V) (l : Lib V) (n : String) (k : Kind) :
    (l.attrs n = none → (readNum l n k).2 = .throws ∧ (readString l n).2 = .throws ∧ (readLoose M l n k).2 = .throws ∧ getString M l n = .throws) ∧
    (∀ a, l.attrs n = some a → (a.ty ≠ .num k → (readNum l n k).2 = .throws) ∧ (∀ k', a.ty = .num k' → (readString l n).2 = .throws) ∧
      (∀ s, a.ty = .str s → (readLoose M l n k).2 = .throws)) := by
  constructor
  · intro h
    unfold readNum readString readLoose getString Lib.openAttr
    rw [h]
    exact ⟨rfl, rfl, rfl, rfl⟩
  · intro a ha
    unfold readNum readString readLoose Lib.openAttr
    rw [ha]
    refine ⟨fun h => by dsimp only; rw [if_neg h], fun k' h => ?_, fun s h => ?_⟩
    · dsimp only; rw [h]
    · dsimp only; rw [h]

/-- The name of a body or a track is taken from a number without complaint: its bytes. -/
theorem c116_number_as_name_violated (M : Machine V) (l : Lib V) (z : V) (n : String) (h : l.Free n) (k : Kind) (v : V) :
    getString M (addNum l z n k v) n = .ok (M.raw k v) := by
  have hn : (addNum l z n k v).attrs n = some ⟨.num k, 1, .value v⟩ := by rw [addNum_free h]; exact if_pos rfl
  unfold getString
  rw [hn]
  rfl

/-- Through any history of calls, successful or not, exactly those identifiers stay open that were open before, if and only if no string is added, no string is
read as a number by the functions of the bodies and no array is read with another rank. Missing: these cases (`c116_string_type_violated`,
`c116_kept_violated`). -/
theorem c116_identifiers_partial (M : Machine V) (z : V) (os : List (Op V)) : ∀ (l : Lib V), l.Fresh → l.Typed →
    ((run M z l os).opened = l.opened ↔ ∀ (i : Nat) (o : Op V), os[i]? = some o → ¬o.Leaks (run M z l (os.take i))) := by
  have more : ∀ (os : List (Op V)) (l : Lib V), l.Fresh → l.Typed → l.opened.length ≤ (run M z l os).opened.length := by
    intro os
    induction os with
    | nil => intro l _ _; exact Nat.le_refl _
    | cons o os ih =>
      intro l hf ht
      refine Nat.le_trans ?_ (ih _ (step_fresh M z l hf o) (step_typed M z l ht hf o))
      obtain ⟨h1, _, h2, _⟩ := step_opened M z l hf ht o
      by_cases h : o.Leaks l
      · exact Nat.le_of_lt (h2 h)
      · rw [h1 h]; exact Nat.le_refl _
  induction os with
  | nil => intro l _ _; exact ⟨fun _ i o h => by simp at h, fun _ => rfl⟩
  | cons o os ih =>
    intro l hf ht
    obtain ⟨h1, _, h2, _⟩ := step_opened M z l hf ht o
    have k := ih _ (step_fresh M z l hf o) (step_typed M z l ht hf o)
    change (run M z (step M z l o) os).opened = _ ↔ _
    by_cases h : o.Leaks l
    · constructor
      · intro hr
        have := more os _ (step_fresh M z l hf o) (step_typed M z l ht hf o)
        rw [hr] at this
        exact absurd (h2 h) (by omega)
      · intro hr
        exact absurd h (hr 0 o rfl)
    · rw [← h1 h, k]
      constructor
      · intro hr i o' ho'
        cases i with
        | zero =>
          obtain rfl : o = o' := by simpa using ho'
          exact h
        | succ i => exact hr i o' (by simpa using ho')
      · intro hr i o' ho'
        exact hr (i + 1) o' (by simpa using ho')

/-- Through any history of calls the file is kept open exactly if it was before or some call read a string as a number by the functions of the bodies, or an
array with another rank. Strings that are added do not keep it open. -/
theorem c116_file_partial (M : Machine V) (z : V) (os : List (Op V)) : ∀ (l : Lib V), l.Fresh → l.Typed →
    ((run M z l os).KeepsFile ↔ l.KeepsFile ∨ ∃ (i : Nat) (o : Op V), os[i]? = some o ∧ o.Holds (run M z l (os.take i))) := by
  induction os with
  | nil => intro l _ _; exact ⟨.inl, fun h => h.elim id fun ⟨i, o, h, _⟩ => by simp at h⟩
  | cons o os ih =>
    intro l hf ht
    obtain ⟨_, h1, _, h2⟩ := step_opened M z l hf ht o
    change (run M z (step M z l o) os).KeepsFile ↔ _
    rw [ih _ (step_fresh M z l hf o) (step_typed M z l ht hf o)]
    constructor
    · rintro (h | ⟨i, o', ho', h⟩)
      · by_cases hh : o.Holds l
        · exact .inr ⟨0, o, rfl, hh⟩
        · exact .inl ((h1 hh).1 h)
      · exact .inr ⟨i + 1, o', by simpa using ho', h⟩
    · rintro (h | ⟨i, o', ho', h⟩)
      · by_cases hh : o.Holds l
        · exact .inl (h2 hh)
        · exact .inl ((h1 hh).2 h)
      · cases i with
        | zero =>
          obtain rfl : o = o' := by simpa using ho'
          exact .inl (h2 h)
        | succ i => exact .inr ⟨i, o', by simpa using ho', h⟩

/-- Every string that is added leaves a type open, which nobody can close. -/
theorem c116_string_type_violated (l : Lib V) (h : l.Fresh) (n : String) (b : Bytes) : (addString l n b).opened = (l.next, .type) :: l.opened :=
  addString_opened l h n b

/-- Every string that is read as a number by the functions of the bodies, and every array that is read with another rank, throws and leaves the file
open. -/
theorem c116_kept_violated (M : Machine V) (z : V) (l : Lib V) (h : l.Fresh) (ht : l.Typed) :
    (∀ n k a s, l.attrs n = some a → a.ty = .str s → (readLoose M l n k).2 = .throws ∧ (readLoose M l n k).1.KeepsFile) ∧
    (∀ n r r', l.dsets n = some r' → r' ≠ r → (readArray l n r).2 = .throws ∧ (readArray l n r).1.KeepsFile) := by
  constructor
  · intro n k a s ha hs
    exact ⟨((c116_mismatch M l n k).2 a ha).2.2 s hs, (step_opened M z l h ht (.readLoose n k)).2.2.2 ⟨a, s, ha, hs⟩⟩
  · intro n r r' ha hr
    refine ⟨?_, (step_opened M z l h ht (.readArray n r)).2.2.2 ⟨r', ha, hr⟩⟩
    unfold readArray
    rw [ha]
    dsimp only
    rw [if_pos hr]

/-- An array is written if its name is free, read back with its rank, and otherwise refused; no other data set is changed. -/
theorem c116_arrays (l : Lib V) (n : String) (r : Nat) (c : Bool) :
    (l.writable = true ∧ l.dsets n = none → (writeArray l n r c).2 = .ok () ∧ (readArray (writeArray l n r c).1 n r).2 = .ok () ∧
      (∀ r', r' ≠ r → (readArray (writeArray l n r c).1 n r').2 = .throws) ∧ ∀ m, m ≠ n → (writeArray l n r c).1.dsets m = l.dsets m) ∧
    (¬(l.writable = true ∧ l.dsets n = none) → (writeArray l n r c).2 = .throws ∧ (writeArray l n r c).1.dsets = l.dsets) := by
  constructor
  · rintro ⟨hw, hn⟩
    have hd : (writeArray l n r c).1.dsets = (fun m => if m = n then some r else l.dsets m) ∧ (writeArray l n r c).2 = .ok () := by
      unfold writeArray
      cases c <;> simp [Lib.acquire, Lib.close, hw, hn]
    refine ⟨hd.2, ?_, fun r' hr' => ?_, fun m hm => by rw [hd.1]; exact if_neg hm⟩
    · unfold readArray
      rw [hd.1]
      simp
    · unfold readArray
      rw [hd.1]
      simp [Ne.symm hr']
  · intro h
    have hf : (l.writable && (l.dsets n).isNone) = false := by
      rw [Bool.eq_false_iff]
      intro hc
      rw [Bool.and_eq_true] at hc
      exact h ⟨hc.1, Option.isNone_iff_eq_none.mp hc.2⟩
    unfold writeArray
    cases c <;> simp only [Lib.acquire, Bool.false_eq_true, if_false, if_true, hf, Lib.close] <;> simp

/-- The switch of the interactions is read as it was written, also over one written before. -/
theorem c116_switch (M : Machine V) (l : Lib V) (h : l.writable = true) (n : String) (b : Bool) :
    readSwitch M (setString l n (if b then trueText else falseText)) n = .ok b := by
  unfold readSwitch setString
  rw [if_pos h]
  cases b <;> simp [Attr.bytes, trueText, falseText]

/-- The buffer for the switch has 20 bytes and nothing is checked: if the attribute is missing, holds more bytes, or has no null byte, as strings
that are added with `addH5Attribute`, the behaviour is undefined. -/
theorem c116_switch_violated (M : Machine V) (l : Lib V) (n : String) :
    (l.attrs n = none → readSwitch M l n = .ub) ∧
    (∀ b : Bytes, l.writable = true → 20 ≤ b.length → readSwitch M (setString l n b) n = .ub) ∧
    (∀ b : Bytes, l.Free n → b ≠ [] → 0 ∉ b → readSwitch M (addString l n b) n = .ub) := by
  refine ⟨fun h => by unfold readSwitch; rw [h], fun b hw hb => ?_, fun b hf hb h0 => ?_⟩
  · have hn : (setString l n b).attrs n = some ⟨.str (b.length + 1), 0, .chars (b ++ [0])⟩ := by unfold setString; rw [if_pos hw]; exact if_pos rfl
    have hl : 20 < (b ++ [0]).length := by simp; omega
    unfold readSwitch
    rw [hn]
    exact if_pos hl
  · have hn : (addString l n b).attrs n = some ⟨.str (strSize b.length), 1, .chars b⟩ := by rw [addString_free hf, take_self b hb]; exact if_pos rfl
    have hs : (if 20 < b.length then Outcome.ub else if 0 ∈ b then .ok (b.takeWhile (· != 0) == trueText) else .ub) = .ub := by
      rw [if_neg h0, ite_self]
    unfold readSwitch
    rw [hn]
    exact hs

/-! ## Examples -/

/-- Numbers are integers here. -/
def machine : Machine Int := ⟨fun _ _ v => v, fun _ v => [UInt8.ofNat v.toNat]⟩

/-- A new group in a file that can be written. -/
def group : Lib Int := { writable := true, attrs := fun _ => none, dsets := fun _ => none }

/-- The body `Earth` as it is written and read. -/
def earthName : Bytes := [69, 97, 114, 116, 104]

example : machine.Exact := fun _ _ => rfl
example : group.Fresh := fun p hp => by cases hp
example : group.Typed := fun n a h => by cases h
example : group.Free "name" := ⟨rfl, rfl⟩

/-- As in `c116_number`, `c116_string_partial`, `c116_all_partial`. -/
example : let l := run machine 0 group [.addString "name" earthName, .addNum "radius" .double 6371, .addNum "arraysize" .uint 200]
    getString machine l "name" = .ok earthName ∧ (readNum l "radius" .double).2 = .ok 6371 ∧ (readLoose machine l "arraysize" .uint).2 = .ok 200 :=
  ⟨by decide, by decide, by decide⟩

/-- As in `c116_all_partial`. -/
example : ∀ x ∈ [("name", Item.text earthName), ("radius", Item.number .double (6371 : Int))], x.2.In machine
    (run machine 0 group ([("name", Item.text earthName), ("radius", Item.number .double 6371)].map fun x => x.2.op x.1)) x.1 :=
  c116_all_partial machine (fun _ _ => rfl) 0 _ group rfl (by decide) fun x hx => ⟨rfl, by
    rcases List.mem_cons.mp hx with rfl | hx
    · simp [Item.Sound, earthName]
    rcases List.mem_cons.mp hx with rfl | hx
    · trivial
    · cases hx⟩

/-- As in `c116_taken_violated`: the radius is written twice and the second value is lost. -/
example : (readNum (addNum (addNum group 0 "radius" .double 6371) 0 "radius" .double 6400) "radius" .double).2 = .ok 6371 := by decide

/-- As in `c116_mismatch`. -/
example : (readNum (addNum group 0 "radius" .double 6371) "radius" .float).2 = .throws ∧ (readString (addNum group 0 "radius" .double 6371) "radius").2 = .throws := by
  decide

/-- As in `c116_identifiers_partial` and `c116_file_partial`: a history without strings, with a failure, and one that keeps the file open. -/
example : (run machine 0 group [.addNum "x" .double 1, .readNum "x" .float, .readLoose "y" .uint, .writeArray "a" 2 true, .readArray "a" 2]).opened = [] ∧
    (run machine 0 group [.addString "name" earthName, .readLoose "name" .double]).opened = [(3, .attr), (0, .type)] := by decide

/-- As in `c116_kept_violated` for arrays: identifiers of a data set and its space. -/
example : (run machine 0 group [.writeArray "a" 2 false, .readArray "a" 3]).opened = [(3, .space), (2, .dset)] := by decide

/-- As in `c116_arrays`. -/
example : (writeArray (writeArray group "a" 2 true).1 "a" 3 false).2 = .throws := by decide

/-- As in `c116_switch_violated`. -/
example : readSwitch machine (setString group "interactions" (List.replicate 20 65)) "interactions" = .ub := by decide

end Verif.H5A
