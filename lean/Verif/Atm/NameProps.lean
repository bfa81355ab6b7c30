import Verif.Atm.Names
import Mathlib.Algebra.Order.Ring.Rat
import Mathlib.Tactic.Linarith
import Mathlib.Tactic.NormNum

/-! C62: every zenith node is saved under its own name. -/

namespace Verif.Atm

/-! ## Specification -/

/-- A rounding to an integer at distance at most one half. -/
def Rounds (rnd : Rat → Int) : Prop := ∀ q : Rat, |(rnd q : Rat) - q| ≤ 1 / 2

/-- Two nodes are more than a millionth apart. -/
def Apart (x y : Rat) : Prop := x + 1 / 1000000 < y

/-! ## Lemmas -/

theorem split_at {c : Char} : ∀ (l1 l2 r1 r2 : List Char), c ∉ l1 → c ∉ l2 → l1 ++ c :: r1 = l2 ++ c :: r2 → l1 = l2 ∧ r1 = r2 := by
  intro l1
  induction l1 with
  | nil =>
    intro l2 r1 r2 _ h2 h
    cases l2 with
    | nil => simpa using h
    | cons d ds =>
      simp only [List.nil_append, List.cons_append, List.cons.injEq] at h
      exact absurd (h.1 ▸ List.mem_cons_self ..) h2
  | cons d ds ih =>
    intro l2 r1 r2 h1 h2 h
    cases l2 with
    | nil =>
      simp only [List.nil_append, List.cons_append, List.cons.injEq] at h
      exact absurd (h.1 ▸ List.mem_cons_self ..) h1
    | cons e es =>
      simp only [List.cons_append, List.cons.injEq] at h
      obtain ⟨g1, g2⟩ := ih es r1 r2 (fun hm => h1 (List.mem_cons_of_mem _ hm)) (fun hm => h2 (List.mem_cons_of_mem _ hm)) h.2
      exact ⟨by rw [h.1, g1], g2⟩

theorem digit_inj {a b : Nat} (h : (a % 10).digitChar = (b % 10).digitChar) : a % 10 = b % 10 := by
  have key : ∀ a, a < 10 → ∀ b, b < 10 → a.digitChar = b.digitChar → a = b := by decide
  exact key _ (Nat.mod_lt _ (by decide)) _ (Nat.mod_lt _ (by decide)) h

theorem sixDigits_inj {k l : Nat} (h : sixDigits k = sixDigits l) : k % 1000000 = l % 1000000 := by
  simp only [sixDigits, List.cons.injEq, and_true] at h
  obtain ⟨h1, h2, h3, h4, h5, h6⟩ := h
  have := digit_inj h1
  have := digit_inj h2
  have := digit_inj h3
  have := digit_inj h4
  have := digit_inj h5
  have := digit_inj h6
  omega

theorem toDigits_inj {a b : Nat} (h : Nat.toDigits 10 a = Nat.toDigits 10 b) : a = b := by
  have := congrArg (fun l => Nat.ofDigitChars 10 l 0) h
  simpa [Nat.ofDigitChars_ten_toDigits] using this

theorem not_in_digits {c : Char} (hc : c.isDigit = false) (n : Nat) : c ∉ Nat.toDigits 10 n := by
  intro h
  have := Nat.isDigit_of_mem_toDigits (by decide) (by decide) h
  rw [hc] at this
  exact absurd this (by decide)

/-- Equal strings come from equal signs and equal rounded magnitudes. -/
theorem toStr_inj {rnd : Rat → Int} {x y : Rat} (h : toStr rnd x = toStr rnd y) :
    (x < 0 ↔ y < 0) ∧ (rnd (x * 1000000)).natAbs = (rnd (y * 1000000)).natAbs := by
  have hm := fun (k : Nat) => not_in_digits (c := '-') (by decide) k
  have hd := fun (k : Nat) => not_in_digits (c := '.') (by decide) k
  have rest : ∀ k l : Nat, Nat.toDigits 10 (k / 1000000) ++ '.' :: sixDigits k = Nat.toDigits 10 (l / 1000000) ++ '.' :: sixDigits l → k = l := by
    intro k l e
    obtain ⟨e1, e2⟩ := split_at _ _ _ _ (hd _) (hd _) e
    have := toDigits_inj e1
    have := sixDigits_inj e2
    omega
  have head : ∀ k (r : List Char) l, '-' :: l ≠ Nat.toDigits 10 k ++ '.' :: r := by
    intro k r l e
    cases hk : Nat.toDigits 10 k with
    | nil => exact Nat.toDigits_ne_nil hk
    | cons c cs =>
      rw [hk] at e
      simp only [List.cons_append, List.cons.injEq] at e
      have := hm k
      rw [hk, ← e.1] at this
      exact this (List.mem_cons_self ..)
  unfold toStr at h
  dsimp only at h
  by_cases hx : x < 0 <;> by_cases hy : y < 0
  · rw [if_pos hx, if_pos hy] at h
    simp only [List.cons_append, List.nil_append, List.cons.injEq, true_and] at h
    exact ⟨by simp [hx, hy], rest _ _ h⟩
  · rw [if_pos hx, if_neg hy] at h
    simp only [List.cons_append, List.nil_append] at h
    exact absurd h (head _ _ _)
  · rw [if_neg hx, if_pos hy] at h
    simp only [List.cons_append, List.nil_append] at h
    exact absurd h.symm (head _ _ _)
  · rw [if_neg hx, if_neg hy] at h
    simp only [List.nil_append] at h
    exact ⟨by simp [hx, hy], rest _ _ h⟩

theorem rnd_sign {rnd : Rat → Int} (hr : Rounds rnd) (q : Rat) : (0 ≤ q → 0 ≤ rnd q) ∧ (q ≤ 0 → rnd q ≤ 0) := by
  have := abs_le.1 (hr q)
  constructor
  · intro h
    have : (-1 : Rat) < rnd q := by linarith
    have : (-1 : Int) < rnd q := by exact_mod_cast this
    omega
  · intro h
    have : (rnd q : Rat) < 1 := by linarith
    have : rnd q < (1 : Int) := by exact_mod_cast this
    omega

/-- A list of pairs with different keys can be looked up. -/
theorem write_spec {α : Type} (rnd : Rat → Int) : ∀ (l : List (Rat × α)) (file : List (List Char × α)),
    (l.map fun p => nodeName rnd p.1).Nodup → (∀ p ∈ l, ∀ q ∈ file, q.1 ≠ nodeName rnd p.1) →
    writeNodes rnd l file = (true, file ++ l.map fun p => (nodeName rnd p.1, p.2)) := by
  intro l
  induction l with
  | nil => intro file _ _; simp [writeNodes]
  | cons p ps ih =>
    intro file hn hf
    obtain ⟨x, a⟩ := p
    simp only [List.map_cons, List.nodup_cons] at hn
    unfold writeNodes
    have hl : file.lookup (nodeName rnd x) = none := by
      rw [List.lookup_eq_none_iff]
      intro q hq
      have := hf (x, a) (List.mem_cons_self ..) q hq
      simp only [ne_eq, bne_iff_ne]
      exact fun e => this e.symm
    rw [hl]
    dsimp only
    rw [ih _ hn.2 ?_]
    · simp
    · intro p hp q hq
      rcases List.mem_append.1 hq with hq | hq
      · exact hf p (List.mem_cons_of_mem _ hp) q hq
      · rw [List.mem_singleton] at hq
        subst hq
        intro e
        exact hn.1 (List.mem_map.2 ⟨p, hp, e.symm⟩)

theorem lookup_of_mem {α : Type} : ∀ (l : List (List Char × α)), (l.map Prod.fst).Nodup → ∀ p ∈ l, l.lookup p.1 = some p.2 := by
  intro l
  induction l with
  | nil => intro _ p hp; simp at hp
  | cons q qs ih =>
    intro hn p hp
    simp only [List.map_cons, List.nodup_cons] at hn
    rcases List.mem_cons.1 hp with rfl | hp
    · simp [List.lookup]
    · have : p.1 ≠ q.1 := fun e => hn.1 (e ▸ List.mem_map_of_mem hp)
      have hb : (p.1 == q.1) = false := by simpa using this
      simp only [List.lookup, hb]
      exact ih hn.2 p hp

theorem read_spec {α : Type} (rnd : Rat → Int) (file : List (List Char × α)) (hn : (file.map Prod.fst).Nodup) : ∀ (l : List (Rat × α)),
    (∀ p ∈ l, (nodeName rnd p.1, p.2) ∈ file) → readNodes rnd (l.map Prod.fst) file = .ok (l.map Prod.snd) := by
  intro l
  induction l with
  | nil => intro _; rfl
  | cons p ps ih =>
    intro h
    simp only [List.map_cons, readNodes]
    have := lookup_of_mem file hn _ (h p (List.mem_cons_self ..))
    dsimp only at this
    rw [this]
    dsimp only
    rw [ih fun q hq => h q (List.mem_cons_of_mem _ hq)]
    rfl

/-! ## Theorems -/

/-- C62, partial: nodes more than a millionth apart have different names. Missing: closer nodes (`c62_close_nodes_violated`). -/
theorem c62_names_differ_partial (rnd : Rat → Int) (hr : Rounds rnd) (x y : Rat) (h : Apart x y) : nodeName rnd x ≠ nodeName rnd y := by
  intro e
  unfold nodeName at e
  obtain ⟨h1, h2⟩ := toStr_inj (List.append_cancel_left e)
  have hx := abs_le.1 (hr (x * 1000000))
  have hy := abs_le.1 (hr (y * 1000000))
  have hlt : (rnd (x * 1000000) : Rat) < rnd (y * 1000000) := by unfold Apart at h; linarith
  have hlt' : rnd (x * 1000000) < rnd (y * 1000000) := by exact_mod_cast hlt
  by_cases hs : x < 0
  · have := (rnd_sign hr (x * 1000000)).2 (by linarith)
    have := (rnd_sign hr (y * 1000000)).2 (by have := h1.1 hs; linarith)
    omega
  · have hy0 : ¬y < 0 := fun h => hs (h1.2 h)
    have := (rnd_sign hr (x * 1000000)).1 (by linarith)
    have := (rnd_sign hr (y * 1000000)).1 (by linarith)
    omega

/-- C62, partial: for nodes more than a millionth apart writing succeeds, and reading returns for every node what was written for it,
whatever else with other names is in the file. -/
theorem c62_round_trip_partial {α : Type} (rnd : Rat → Int) (hr : Rounds rnd) (l : List (Rat × α))
    (hl : (l.map Prod.fst).Pairwise Apart) :
    ∃ file, writeNodes rnd l [] = (true, file) ∧ file.map Prod.fst = l.map (fun p => nodeName rnd p.1) ∧ (file.map Prod.fst).Nodup ∧
      readNodes rnd (l.map Prod.fst) file = .ok (l.map Prod.snd) := by
  have hn : (l.map fun p => nodeName rnd p.1).Nodup := by
    have : (l.map fun p => nodeName rnd p.1) = (l.map Prod.fst).map (nodeName rnd) := by rw [List.map_map]; rfl
    rw [this, List.Nodup, List.pairwise_map]
    exact hl.imp fun {x y} hxy => c62_names_differ_partial rnd hr x y hxy
  refine ⟨_, write_spec rnd l [] hn (by simp), ?_, ?_, ?_⟩
  · simp [List.map_map, Function.comp_def]
  · simpa [List.map_map, Function.comp_def] using hn
  · refine read_spec rnd _ ?_ l ?_
    · simpa [List.map_map, Function.comp_def] using hn
    · intro p hp
      rw [List.nil_append]
      exact List.mem_map_of_mem (f := fun p : Rat × α => (nodeName rnd p.1, p.2)) hp

/-- C62: reading throws if one of the nodes is not in the file, and otherwise returns exactly one object per node. -/
theorem c62_reads_all {α : Type} (rnd : Rat → Int) (xs : List Rat) (file : List (List Char × α)) :
    ((∃ x ∈ xs, nodeName rnd x ∉ file.map Prod.fst) → readNodes rnd xs file = .throws) ∧
    ((∀ x ∈ xs, nodeName rnd x ∈ file.map Prod.fst) → ∃ l, readNodes rnd xs file = .ok l ∧ l.length = xs.length ∧
      ∀ p ∈ xs.zip l, (nodeName rnd p.1, p.2) ∈ file) := by
  have hmem : ∀ (file : List (List Char × α)) (n : List Char), (n ∉ file.map Prod.fst → file.lookup n = none) ∧
      (n ∈ file.map Prod.fst → ∃ a, file.lookup n = some a ∧ (n, a) ∈ file) := by
    intro file n
    induction file with
    | nil => simp
    | cons p file ih =>
      obtain ⟨m, b⟩ := p
      by_cases h : n = m
      · subst h
        simp
      · have hb : (n == m) = false := by simpa using h
        rw [List.lookup_cons, hb]
        refine ⟨fun hn => ih.1 fun hc => hn ?_, fun hn => ?_⟩
        · simp only [List.map_cons, List.mem_cons]; exact .inr hc
        · simp only [List.map_cons, List.mem_cons, h, false_or] at hn
          obtain ⟨a, h1, h2⟩ := ih.2 hn
          exact ⟨a, h1, List.mem_cons_of_mem _ h2⟩
  induction xs with
  | nil => exact ⟨by simp, fun _ => ⟨[], rfl, rfl, by simp⟩⟩
  | cons x xs ih =>
    constructor
    · rintro ⟨y, hy, hn⟩
      unfold readNodes
      by_cases hx : nodeName rnd x ∈ file.map Prod.fst
      · obtain ⟨a, ha, -⟩ := (hmem file _).2 hx
        rw [ha]
        dsimp only
        rw [ih.1 ⟨y, (List.mem_cons.1 hy).resolve_left fun e => hn (e ▸ hx), hn⟩]
        rfl
      · rw [(hmem file _).1 hx]
    · intro h
      obtain ⟨a, ha, hm⟩ := (hmem file _).2 (h x (List.mem_cons_self ..))
      obtain ⟨l, h1, h2, h3⟩ := ih.2 fun y hy => h y (List.mem_cons_of_mem _ hy)
      refine ⟨a :: l, ?_, by simp [h2], ?_⟩
      · unfold readNodes
        rw [ha]
        dsimp only
        rw [h1]
        rfl
      · intro p hp
        simp only [List.zip_cons_cons, List.mem_cons] at hp
        rcases hp with rfl | hp
        · exact hm
        · exact h3 p hp

example : readNodes (fun q => q.floor) [1 / 2, 1 / 4] [(nodeName (fun q => q.floor) (1 / 2), 'a')] = .throws := by decide +kernel

/-- C62: the names never coincide with those of the other entries of the file (1530-1532, 1541). -/
theorem c62_other_entries (rnd : Rat → Int) (x : Rat) :
    nodeName rnd x ≠ "/zenith_angles".toList ∧ nodeName rnd x ≠ "/energy_range".toList ∧ nodeName rnd x ≠ "/crosssections".toList := by
  refine ⟨?_, ?_, ?_⟩ <;>
  · intro e
    have := congrArg (fun l => l.take 3) e
    revert this
    simp [nodeName]

/-- Rounding half up. -/
def halfUp (q : Rat) : Int := (q + 1 / 2).floor

theorem halfUp_rounds : Rounds halfUp := by
  intro q
  unfold halfUp
  have h1 : ((q + 1 / 2).floor : Rat) ≤ q + 1 / 2 := Rat.floor_le _
  have h2 : q + 1 / 2 < ((q + 1 / 2).floor : Rat) + 1 := by
    have := Rat.lt_floor (x := q + 1 / 2)
    linarith
  rw [abs_le]
  constructor <;> linarith

example : nodeName halfUp (-1 / 4) = "/costh_-0.250000".toList ∧ nodeName halfUp 1 = "/costh_1.000000".toList := by
  constructor <;> decide +kernel

example : writeNodes halfUp [(-1, 'a'), (-1 / 2, 'b'), (0, 'c')] [] =
    (true, [("/costh_-1.000000".toList, 'a'), ("/costh_-0.500000".toList, 'b'), ("/costh_0.000000".toList, 'c')]) := by decide +kernel

example : ([-1, -1 / 2, 0] : List Rat).Pairwise Apart := by
  simp only [List.pairwise_cons, List.mem_cons, List.not_mem_nil, or_false, Apart]
  norm_num

/-- C62 fails for closer nodes: two different zeniths have the same name, whatever the rounding, and writing throws after the first. -/
theorem c62_close_nodes_violated (rnd : Rat → Int) (hr : Rounds rnd) :
    (1 / 10 : Rat) < 1000001 / 10000000 ∧ nodeName rnd (1 / 10) = nodeName rnd (1000001 / 10000000) ∧
    writeNodes rnd [(1 / 10, 'a'), (1000001 / 10000000, 'b')] [] = (false, [(nodeName rnd (1 / 10), 'a')]) := by
  have h1 : rnd (1 / 10 * 1000000) = 100000 := by
    have := abs_le.1 (hr (1 / 10 * 1000000))
    have g1 : (rnd (1 / 10 * 1000000) : Rat) < 100001 := by linarith
    have g2 : (99999 : Rat) < rnd (1 / 10 * 1000000) := by linarith
    have g1 : rnd (1 / 10 * 1000000) < (100001 : Int) := by exact_mod_cast g1
    have g2 : (99999 : Int) < rnd (1 / 10 * 1000000) := by exact_mod_cast g2
    omega
  have h2 : rnd (1000001 / 10000000 * 1000000) = 100000 := by
    have := abs_le.1 (hr (1000001 / 10000000 * 1000000))
    have g1 : (rnd (1000001 / 10000000 * 1000000) : Rat) < 100001 := by linarith
    have g2 : (99999 : Rat) < rnd (1000001 / 10000000 * 1000000) := by linarith
    have g1 : rnd (1000001 / 10000000 * 1000000) < (100001 : Int) := by exact_mod_cast g1
    have g2 : (99999 : Int) < rnd (1000001 / 10000000 * 1000000) := by exact_mod_cast g2
    omega
  have he : nodeName rnd (1 / 10) = nodeName rnd (1000001 / 10000000) := by
    unfold nodeName toStr
    rw [h1, h2, if_neg (by norm_num), if_neg (by norm_num)]
  refine ⟨by norm_num, he, ?_⟩
  simp only [writeNodes, List.lookup, he, List.nil_append, beq_self_eq_true]

end Verif.Atm
