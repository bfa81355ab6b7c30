import Verif.Lifecycle.Progress
import Mathlib.Algebra.Order.Floor.Ring
import Mathlib.Data.Rat.Floor
import Mathlib.Tactic.FieldSimp
import Mathlib.Tactic.Linarith
import Mathlib.Tactic.Positivity

/-! C119: the progress bar. -/

namespace Verif.Life

/-! ## Lemmas -/

theorem toInt_small (q : Rat) (h0 : 0 ≤ q) (h1 : q ≤ 100) : toInt q = some q.floor := by
  have hf : 0 ≤ q.floor := Int.floor_nonneg.mpr h0
  have hg : q.floor ≤ 100 := by
    have : ((q.floor : Int) : Rat) ≤ q := Int.floor_le q
    exact_mod_cast this.trans h1
  unfold toInt
  rw [if_pos h0]
  dsimp only
  rw [if_pos ⟨by omega, by omega⟩]

theorem cells (k : Nat) (hk : k < 70) :
    (List.range 70).map (cell k) = List.replicate k '=' ++ '>' :: List.replicate (69 - k) ' ' := by
  apply List.ext_getElem
  · simp; omega
  · intro i h1 h2
    simp only [List.getElem_map, List.getElem_range, List.getElem_append, List.length_replicate, List.getElem_replicate, List.getElem_cons]
    unfold cell
    rcases Nat.lt_trichotomy i k with h | h | h
    · rw [if_pos (by exact_mod_cast h), dif_pos h]
    · subst h; rw [if_neg (by simp), if_pos rfl, dif_neg (by omega), dif_pos (by omega)]
    · rw [if_neg (by omega), if_neg (by omega), dif_neg (by omega), dif_neg (by omega)]

theorem cells_full : (List.range 70).map (cell 70) = List.replicate 70 '=' := by decide +kernel

theorem draw_line (xi xe x : Rat) (hne : xi ≠ xe) (h0 : 0 ≤ travelled xi xe x) (h1 : travelled xi xe x ≤ 1) :
    drawBar xi xe x = .ok (line (travelled xi xe x)) := by
  unfold drawBar
  rw [if_neg (sub_ne_zero.mpr (Ne.symm hne))]
  show (match toInt (70 * travelled xi xe x) with | none => _ | some pos => _) = _
  generalize hp : travelled xi xe x = p at h0 h1 ⊢
  have hp' : (x - xi) / (xe - xi) = p := hp
  rw [toInt_small _ (by linarith) (by linarith), hp', toInt_small (p * 100) (by linarith) (by linarith)]
  dsimp only
  unfold line
  rw [mul_comm p 100]
  have hf : 0 ≤ (70 * p).floor := Int.floor_nonneg.mpr (show (0 : Rat) ≤ 70 * p by linarith)
  obtain ⟨k, hk⟩ := Int.eq_ofNat_of_zero_le hf
  rw [hk]
  have hle : ((70 * p).floor : Rat) ≤ 70 * p := Int.floor_le _
  by_cases hlt : p < 1
  · have hk70 : k < 70 := by
      rw [hk] at hle
      have : ((k : Int) : Rat) < 70 := by linarith
      exact_mod_cast this
    have e1 : ("] ".toList : List Char) = [']', ' '] := rfl
    have e2 : (" %\r".toList : List Char) = [' ', '%', '\r'] := rfl
    rw [if_pos hlt, e1, e2, cells k hk70]
    simp
  · have hp1 : p = 1 := le_antisymm h1 (not_lt.mp hlt)
    have : k = 70 := by
      have : ((70 * p).floor) = 70 := by rw [hp1]; decide +kernel
      omega
    subst this
    have e1 : ("] ".toList : List Char) = [']', ' '] := rfl
    have e2 : (" %\r".toList : List Char) = [' ', '%', '\r'] := rfl
    rw [if_neg hlt, e1, e2]
    have := cells_full
    simp only [Int.toNat_natCast]
    rw [show ((70 : Nat) : Int) = 70 from rfl, this]
    simp

theorem travelled_mem (xi xe x : Rat) (hne : xi ≠ xe) (h : OnWay xi xe x) : 0 ≤ travelled xi xe x ∧ travelled xi xe x ≤ 1 := by
  unfold travelled
  rcases h with ⟨h1, h2⟩ | ⟨h1, h2⟩
  · have : 0 < xe - xi := by
      have : xi < xe := lt_of_le_of_ne (h1.trans h2) hne
      linarith
    exact ⟨div_nonneg (by linarith) this.le, (div_le_one this).mpr (by linarith)⟩
  · have : xe - xi < 0 := by
      have : xe < xi := lt_of_le_of_ne (h1.trans h2) (Ne.symm hne)
      linarith
    exact ⟨div_nonneg_of_nonpos (by linarith) this.le, (div_le_one_of_neg this).mpr (by linarith)⟩

theorem draw_onWay (xi xe x : Rat) (hne : xi ≠ xe) (h : OnWay xi xe x) : drawBar xi xe x = .ok (line (travelled xi xe x)) :=
  draw_line xi xe x hne (travelled_mem xi xe x hne h).1 (travelled_mem xi xe x hne h).2

theorem tick_on (b : Bar) (n : Nat) (hb : b.Good n) (hon : b.on = true) (hn : n + 1 < 2 ^ 31) (xi xe x : Rat) (hne : xi ≠ xe)
    (h : OnWay xi xe x) :
    b.tick xi xe x = .ok ({ b with count := n + 1 }, if 100 ∣ n then line (travelled xi xe x) else []) := by
  unfold Bar.tick
  rw [if_pos hon, if_neg (by rw [hb.loop]; decide), hb.loop, hb.count, draw_onWay xi xe x hne h]
  have hm : ((n : Int).tmod 100 = 0) ↔ 100 ∣ n := by
    rw [Int.tmod_eq_emod_of_nonneg (by omega)]; omega
  by_cases hd : 100 ∣ n
  · rw [if_pos (hm.mpr hd), if_pos hd]
    show (if ((n : Int)) = 2 ^ 31 - 1 then Outcome.ub else _) = _
    rw [if_neg (by omega)]
  · rw [if_neg (fun h => hd (hm.mp h)), if_neg hd]
    show (if ((n : Int)) = 2 ^ 31 - 1 then Outcome.ub else _) = _
    rw [if_neg (by omega)]

theorem tick_off (b : Bar) (hon : b.on = false) (xi xe x : Rat) :
    b.tick xi xe x = if b.count = 2 ^ 31 - 1 then .ub else .ok ({ b with count := b.count + 1 }, []) := by
  unfold Bar.tick
  rw [hon]
  rfl

theorem ticks_on (xi xe : Rat) (hne : xi ≠ xe) : ∀ (xs : List Rat) (b : Bar) (n : Nat), b.Good n → b.on = true → n + xs.length < 2 ^ 31 →
    (∀ x ∈ xs, OnWay xi xe x) → b.ticks xi xe xs = .ok ({ b with count := n + xs.length }, hundredths xi xe n xs) := by
  intro xs
  induction xs with
  | nil =>
    intro b n hb _ _ _
    unfold Bar.ticks hundredths
    have := hb.count
    cases b
    simp_all
  | cons x xs ih =>
    intro b n hb hon hn hx
    unfold Bar.ticks
    rw [tick_on b n hb hon (by simp only [List.length_cons] at hn; omega) xi xe x hne (hx x (by simp))]
    have := ih { b with count := n + 1 } (n + 1) ⟨hb.loop, by push_cast; rfl⟩ hon (by simp only [List.length_cons] at hn; omega)
      (fun y hy => hx y (by simp [hy]))
    simp only [Outcome.bind]
    rw [this]
    simp only [hundredths, List.zipIdx_cons, List.flatMap_cons, List.length_cons]
    congr 3
    push_cast; omega

theorem ticks_off (xi xe : Rat) : ∀ (xs : List Rat) (b : Bar), b.on = false → b.count + xs.length < 2 ^ 31 →
    b.ticks xi xe xs = .ok ({ b with count := b.count + xs.length }, []) := by
  intro xs
  induction xs with
  | nil => intro b _ _; unfold Bar.ticks; cases b; simp
  | cons x xs ih =>
    intro b hon hn
    simp only [List.length_cons, Nat.cast_add, Nat.cast_one] at hn
    unfold Bar.ticks
    rw [tick_off b hon, if_neg (by omega)]
    have := ih { b with count := b.count + 1 } hon (by dsimp only; omega)
    simp only [Outcome.bind]
    rw [this]
    simp only [List.length_cons, List.append_nil]
    congr 3
    push_cast; omega

theorem ticks_over (xi xe : Rat) : ∀ (xs : List Rat) (b : Bar), b.on = false → b.count < 2 ^ 31 → 2 ^ 31 ≤ b.count + xs.length →
    b.ticks xi xe xs = .ub := by
  intro xs
  induction xs with
  | nil => intro b _ h1 h2; simp at h2; omega
  | cons x xs ih =>
    intro b hon h1 h2
    simp only [List.length_cons, Nat.cast_add, Nat.cast_one] at h2
    unfold Bar.ticks
    rw [tick_off b hon]
    by_cases h : b.count = 2 ^ 31 - 1
    · rw [if_pos h]; rfl
    · rw [if_neg h]
      simp only [Outcome.bind]
      rw [ih { b with count := b.count + 1 } hon (by dsimp only; omega) (by dsimp only; omega)]

theorem evolve_on (b : Bar) (n : Nat) (hb : b.Good n) (hon : b.on = true) (r : Ride) (hr : r.Good) (hn : n + r.xs.length < 2 ^ 31) :
    b.evolve r = .ok ({ b with count := n + r.xs.length }, r.lines n) := by
  unfold Bar.evolve
  rw [ticks_on r.xi r.xe hr.long r.xs b n hb hon hn hr.way]
  simp only [Outcome.bind]
  rw [if_pos hon]
  have : OnWay r.xi r.xe (r.xs.getLast?.getD r.x) := by
    rcases h : r.xs.getLast? with _ | y
    · exact hr.start
    · exact hr.way y (List.mem_of_getLast? h)
  rw [draw_onWay _ _ _ hr.long this]
  rfl

theorem evolve_off (b : Bar) (hon : b.on = false) (r : Ride) (hn : b.count + r.xs.length < 2 ^ 31) :
    b.evolve r = .ok ({ b with count := b.count + r.xs.length }, []) := by
  unfold Bar.evolve
  rw [ticks_off r.xi r.xe r.xs b hon hn]
  simp only [Outcome.bind]
  rw [if_neg (by rw [hon]; decide)]

/-! ## Properties -/

/-- C119: anywhere on the way, in whichever direction it leads, `ProgressBar` writes the line for the part of the way that is behind. -/
theorem c119_line (xi xe x : Rat) (hne : xi ≠ xe) (h : OnWay xi xe x) : drawBar xi xe x = .ok (line (travelled xi xe x)) :=
  draw_onWay xi xe x hne h

/-- A way that leads backwards, three quarters done. -/
example : drawBar 8 4 5 = .ok (line (3 / 4)) ∧ OnWay 8 4 5 ∧
    String.ofList (line (3 / 4)) = "[====================================================>                 ] 75 %\r" := by
  refine ⟨?_, .inr ⟨by norm_num, by norm_num⟩, ?_⟩ <;> decide +kernel

/-- C119: further on the way there are at least as many full cells, and the number written is at least as large. -/
theorem c119_grows (xi xe x y : Rat) (h : xi < xe ∧ x ≤ y ∨ xe < xi ∧ y ≤ x) :
    (70 * travelled xi xe x).floor ≤ (70 * travelled xi xe y).floor ∧ (100 * travelled xi xe x).floor ≤ (100 * travelled xi xe y).floor := by
  have : travelled xi xe x ≤ travelled xi xe y := by
    unfold travelled
    rcases h with ⟨h1, h2⟩ | ⟨h1, h2⟩
    · exact div_le_div_of_nonneg_right (by linarith) (by linarith)
    · exact div_le_div_of_nonpos_of_le (by linarith) (by linarith)
  exact ⟨Int.floor_le_floor (show 70 * travelled xi xe x ≤ 70 * travelled xi xe y by linarith),
    Int.floor_le_floor (show 100 * travelled xi xe x ≤ 100 * travelled xi xe y by linarith)⟩

example : (8 : Rat) < 12 ∧ (9 : Rat) ≤ 10 := by norm_num

/-- C119: beyond the end the bar is full and the number written grows past 100; before the beginning, by more than one cell, the bar is empty and the number
is negative or zero. -/
theorem c119_outside (xi xe x : Rat) (hne : xi ≠ xe) :
    (1 ≤ travelled xi xe x → 100 * travelled xi xe x < 2 ^ 31 →
      drawBar xi xe x = .ok ('[' :: List.replicate 70 '=' ++ "] ".toList ++ (toString (100 * travelled xi xe x).floor).toList ++ " %\r".toList)) ∧
    (70 * travelled xi xe x ≤ -1 → -2 ^ 31 < 100 * travelled xi xe x →
      drawBar xi xe x = .ok ('[' :: List.replicate 70 ' ' ++ "] ".toList ++ (toString (100 * travelled xi xe x).ceil).toList ++ " %\r".toList)) := by
  have e1 : ("] ".toList : List Char) = [']', ' '] := rfl
  have e2 : (" %\r".toList : List Char) = [' ', '%', '\r'] := rfl
  have hd : drawBar xi xe x = (match toInt (70 * travelled xi xe x) with
    | none => .ub
    | some pos => match toInt (travelled xi xe x * 100) with
      | none => .ub
      | some percent => .ok ('[' :: (List.range 70).map (cell pos) ++ [']', ' '] ++ (toString percent).toList ++ [' ', '%', '\r'])) := by
    unfold drawBar
    rw [if_neg (sub_ne_zero.mpr (Ne.symm hne))]
    rfl
  rw [hd, mul_comm (travelled xi xe x) 100]
  generalize travelled xi xe x = p
  constructor
  · intro h1 h2
    have f1 : (70 : Int) ≤ (70 * p).floor := Int.le_floor.mpr (show ((70 : Int) : Rat) ≤ 70 * p by push_cast; linarith)
    have f2 : (70 * p).floor < 2 ^ 31 := Int.floor_lt.mpr (show 70 * p < ((2 ^ 31 : Int) : Rat) by push_cast; linarith)
    have f3 : (100 : Int) ≤ (100 * p).floor := Int.le_floor.mpr (show ((100 : Int) : Rat) ≤ 100 * p by push_cast; linarith)
    have f4 : (100 * p).floor < 2 ^ 31 := Int.floor_lt.mpr (show 100 * p < ((2 ^ 31 : Int) : Rat) by push_cast; linarith)
    have t1 : toInt (70 * p) = some (70 * p).floor := by
      unfold toInt
      rw [if_pos (show 0 ≤ 70 * p by linarith)]
      dsimp only
      rw [if_pos ⟨by omega, f2⟩]
    have t2 : toInt (100 * p) = some (100 * p).floor := by
      unfold toInt
      rw [if_pos (show 0 ≤ 100 * p by linarith)]
      dsimp only
      rw [if_pos ⟨by omega, f4⟩]
    rw [t1, t2, e1, e2]
    have : (List.range 70).map (cell (70 * p).floor) = List.replicate 70 '=' := by
      rw [List.eq_replicate_iff]
      refine ⟨by simp, ?_⟩
      intro c hc
      obtain ⟨i, hi, rfl⟩ := List.mem_map.mp hc
      have := List.mem_range.mp hi
      unfold cell
      rw [if_pos (by omega)]
    dsimp only
    rw [this]
  · intro h1 h2
    have hneg : ¬ (0 : Rat) ≤ 70 * p := by linarith
    have hneg' : ¬ (0 : Rat) ≤ 100 * p := by linarith
    have f1 : (70 * p).ceil ≤ -1 := Rat.ceil_le_iff.mpr (show 70 * p ≤ ((-1 : Int) : Rat) by push_cast; linarith)
    have f2 : -2 ^ 31 < (70 * p).ceil := Rat.lt_ceil_iff.mpr (show ((-2 ^ 31 : Int) : Rat) < 70 * p by push_cast; linarith)
    have f3 : (100 * p).ceil ≤ 0 := Rat.ceil_le_iff.mpr (show 100 * p ≤ ((0 : Int) : Rat) by push_cast; linarith)
    have f4 : -2 ^ 31 < (100 * p).ceil := Rat.lt_ceil_iff.mpr (show ((-2 ^ 31 : Int) : Rat) < 100 * p by push_cast; linarith)
    have t1 : toInt (70 * p) = some (70 * p).ceil := by
      unfold toInt
      rw [if_neg hneg]
      dsimp only
      rw [if_pos ⟨by omega, by omega⟩]
    have t2 : toInt (100 * p) = some (100 * p).ceil := by
      unfold toInt
      rw [if_neg hneg']
      dsimp only
      rw [if_pos ⟨by omega, by omega⟩]
    rw [t1, t2, e1, e2]
    have : (List.range 70).map (cell (70 * p).ceil) = List.replicate 70 ' ' := by
      rw [List.eq_replicate_iff]
      refine ⟨by simp, ?_⟩
      intro c hc
      obtain ⟨i, hi, rfl⟩ := List.mem_map.mp hc
      unfold cell
      rw [if_neg (by omega), if_neg (by omega)]
    dsimp only
    rw [this]

example : 1 ≤ travelled 2 4 5 ∧ 70 * travelled 2 4 1 ≤ -1 := by unfold travelled; norm_num

/-- C119, disagreement: on a track of no length, or more than some twenty million lengths away from it, drawing the bar is undefined. -/
theorem c119_length_violated :
    (∀ xi x : Rat, drawBar xi xi x = .ub) ∧ (∀ xi xe x : Rat, 2 ^ 31 ≤ 100 * travelled xi xe x → drawBar xi xe x = .ub) ∧
    (∃ b : Bar, b.Good 0 ∧ b.on = true ∧ ∀ (x : Rat) (xs : List Rat), b.evolve ⟨x, x, x, xs⟩ = .ub) := by
  have h0 : ∀ xi x : Rat, drawBar xi xi x = .ub := fun xi x => by
    unfold drawBar
    rw [if_pos (sub_self xi)]
  refine ⟨h0, ?_, ⟨true, 0, 100⟩, ⟨rfl, rfl⟩, rfl, ?_⟩
  · intro xi xe x h
    unfold drawBar
    split
    · rfl
    · have : toInt ((x - xi) / (xe - xi) * 100) = none := by
        show toInt (travelled xi xe x * 100) = none
        rw [mul_comm]
        have f : (2 ^ 31 : Int) ≤ (100 * travelled xi xe x).floor :=
          Int.le_floor.mpr (show ((2 ^ 31 : Int) : Rat) ≤ 100 * travelled xi xe x by push_cast; linarith)
        unfold toInt
        rw [if_pos (show 0 ≤ 100 * travelled xi xe x by linarith)]
        dsimp only
        rw [if_neg (by omega)]
      dsimp only
      rw [this]
      split <;> rfl
  · intro x xs
    unfold Bar.evolve
    cases xs with
    | nil => simp only [Bar.ticks, Outcome.bind, if_true, h0]
    | cons y ys =>
      have : Bar.ticks x x ⟨true, 0, 100⟩ (y :: ys) = .ub := by
        unfold Bar.ticks Bar.tick
        simp only [if_true, h0]
        rfl
      rw [this]
      rfl

/-- C119: the bar is drawn at every hundredth evaluation of the derivative, counted over the life of the object, and once more at the end of `EvolveState`;
the counter is the number of evaluations. -/
theorem c119_evolve_partial (b : Bar) (n : Nat) (hb : b.Good n) (hon : b.on = true) (r : Ride) (hr : r.Good) (hn : n + r.xs.length < 2 ^ 31) :
    b.evolve r = .ok (⟨true, ↑(n + r.xs.length), 100⟩, r.lines n) := by
  rw [evolve_on b n hb hon r hr hn]
  have := hb.loop
  cases b
  simp_all

/-- A ride of three evaluations on an object that has made ninety-nine: one bar at the second, one at the end. -/
example : Bar.evolve ⟨true, 99, 100⟩ ⟨0, 10, 0, [1, 5, 10]⟩ = .ok (⟨true, 102, 100⟩, line (1 / 2) ++ line 1) ∧
    Ride.Good ⟨0, 10, 0, [1, 5, 10]⟩ := by
  refine ⟨?_, ⟨by norm_num, .inl ⟨by norm_num, by norm_num⟩, ?_⟩⟩
  · decide +kernel
  · intro x hx
    simp only [List.mem_cons, List.not_mem_nil, or_false] at hx
    rcases hx with rfl | rfl | rfl <;> exact .inl ⟨by norm_num, by norm_num⟩

/-- C119: switched off, nothing is written, whatever the track; the evaluations are counted all the same. -/
theorem c119_off_partial (b : Bar) (hon : b.on = false) (r : Ride) (hn : b.count + r.xs.length < 2 ^ 31) :
    b.evolve r = .ok ({ b with count := b.count + r.xs.length }, []) := evolve_off b hon r hn

example : Bar.evolve Bar.new ⟨3, 3, 3, [3, 3]⟩ = .ok (⟨false, 2, 100⟩, []) := by decide +kernel

/-- C119, disagreement: the counter is never reset, whether or not the bar is on: once an object has evaluated the derivative 2^31 times the behaviour is
undefined, in one evolution or over many. -/
theorem c119_counter_violated (b : Bar) (n : Nat) (hb : b.Good n) (hn : n < 2 ^ 31) (hon : b.on = false) (r : Ride)
    (h : 2 ^ 31 ≤ n + r.xs.length) : b.evolve r = .ub := by
  unfold Bar.evolve
  rw [ticks_over r.xi r.xe r.xs b hon (by rw [hb.count]; omega) (by rw [hb.count]; omega)]
  rfl

/-- Met by an object that has made 2^31 - 1 evaluations and makes one more. -/
example : Bar.Good ⟨false, 2147483647, 100⟩ 2147483647 ∧ 2 ^ 31 ≤ 2147483647 + (Ride.mk 0 1 0 [1]).xs.length := ⟨⟨rfl, rfl⟩, by simp⟩

/-! ## The atmospheric object -/

/-- A zenith, the bar of its node and the ride of its node. -/
structure Page where
  cos : Rat
  bar : Bar
  ride : Ride

/-- The bar has counted from 0 in hundreds, has room for the ride, and if it is on the ride is good. -/
structure Page.Good (p : Page) : Prop where
  loop : p.bar.loop = 100
  start : 0 ≤ p.bar.count
  room : p.bar.count + p.ride.xs.length < 2 ^ 31
  ride : p.bar.on = true → p.ride.Good

/-- What the node says. -/
def Page.said (p : Page) : List Char := if p.bar.on then p.ride.lines p.bar.count.toNat else []

/-- The bar afterwards. -/
def Page.after (p : Page) : Bar := { p.bar with count := p.bar.count + p.ride.xs.length }

theorem page_evolve (p : Page) (h : p.Good) : p.bar.evolve p.ride = .ok (p.after, p.said) := by
  unfold Page.after Page.said
  have hc : ((p.bar.count.toNat : Nat) : Int) = p.bar.count := Int.toNat_of_nonneg h.start
  by_cases hon : p.bar.on = true
  · rw [evolve_on p.bar p.bar.count.toNat ⟨h.loop, hc.symm⟩ hon p.ride (h.ride hon) (by have := h.room; omega), if_pos hon, hc]
  · have hon' : p.bar.on = false := by simpa using hon
    rw [evolve_off p.bar hon' p.ride h.room, if_neg hon]

theorem serial_pages (str : Rat → List Char) (on : Bool) (costh : List Rat) : ∀ (l : List Page) (i : Nat), (∀ p ∈ l, p.Good) →
    (on = true → ∀ j, j < l.length → costh[i + j]? = (l[j]?).map Page.cos) →
    serial str on costh i (l.map fun p => (p.bar, p.ride)) = .ok (l.map Page.after,
      l.flatMap fun p => if on then "Calculating cos(th) = ".toList ++ str p.cos ++ "\n".toList ++ p.said ++ "\n".toList else p.said) := by
  intro l
  induction l with
  | nil => intro i _ _; rfl
  | cons p l ih =>
    intro i hg hc
    have e : ("\n".toList : List Char) = ['\n'] := rfl
    rw [List.map_cons, serial, page_evolve p (hg p (by simp))]
    cases on with
    | false =>
      have := ih i (fun q hq => hg q (by simp [hq])) (fun h => by simp at h)
      simp only [title, Outcome.bind, Bool.false_eq_true, if_false] at this ⊢
      rw [this]
      simp
    | true =>
      have h0 := hc rfl 0 (by simp)
      simp only [Nat.add_zero, List.getElem?_cons_zero, Option.map_some] at h0
      have := ih (i + 1) (fun q hq => hg q (by simp [hq])) (fun h j hj => by
        have := hc h (j + 1) (by simp only [List.length_cons]; omega)
        rw [List.getElem?_cons_succ] at this
        rw [← this]; congr 1; omega)
      simp only [title, Outcome.bind, if_true, h0] at this ⊢
      rw [this]
      simp [e]

theorem zip_pages (l : List Page) : (l.map Page.bar).zip (l.map Page.ride) = l.map fun p => (p.bar, p.ride) := by
  induction l with
  | nil => rfl
  | cons p l ih => simp [ih]

theorem pooled_pages : ∀ l : List Page, (∀ p ∈ l, p.Good) →
    pooled (l.map fun p => (p.bar, p.ride)) = .ok (l.map Page.after, l.flatMap Page.said) := by
  intro l
  induction l with
  | nil => intro _; rfl
  | cons p l ih =>
    intro hg
    rw [List.map_cons, pooled, page_evolve p (hg p (by simp))]
    simp only [Outcome.bind]
    rw [ih fun q hq => hg q (by simp [hq])]
    simp

theorem reports_pages (str : Rat → List Char) (costh : List Rat) : ∀ (l : List Rat) (i : Nat),
    (∀ j, j < l.length → costh[i + j]? = l[j]?) →
    reports str costh i l.length = .ok (l.flatMap fun c => "cos(th) = ".toList ++ str c ++ " complete\n".toList) := by
  intro l
  induction l with
  | nil => intro i _; rfl
  | cons c l ih =>
    intro i hc
    have h0 := hc 0 (by simp)
    simp only [Nat.add_zero, List.getElem?_cons_zero] at h0
    rw [List.length_cons, reports, h0]
    simp only
    rw [ih (i + 1) (fun j hj => by
        have := hc (j + 1) (by simp only [List.length_cons]; omega)
        rw [List.getElem?_cons_succ] at this
        rw [← this]; congr 1; omega)]
    simp [Outcome.bind]

/-- C119: with one thread each node's bars come below the cosine of its own zenith, in the order of the grid; with the switch of the object off there are no
headings, and the nodes do as their own switches say. No switch changes. -/
theorem c119_sky_serial (str : Rat → List Char) (on : Bool) (l : List Page) (hg : ∀ p ∈ l, p.Good) :
    SkyBar.evolve str 1 ⟨on, l.map Page.cos, l.map Page.bar⟩ (l.map Page.ride) = .ok (⟨on, l.map Page.cos, l.map Page.after⟩,
      l.flatMap fun p => if on then "Calculating cos(th) = ".toList ++ str p.cos ++ "\n".toList ++ p.said ++ "\n".toList else p.said) := by
  unfold SkyBar.evolve
  rw [if_pos rfl]
  dsimp only
  rw [zip_pages, serial_pages str on _ l 0 hg (fun _ j _ => by rw [Nat.zero_add, List.getElem?_map])]
  rfl

/-- Two zeniths, whose nodes are switched on. -/
example : ∀ p ∈ [Page.mk (-1) ⟨true, 0, 100⟩ ⟨0, 12, 0, [6, 12]⟩, Page.mk 0 ⟨true, 0, 100⟩ ⟨0, 4, 0, [4]⟩], p.Good := by
  intro p hp
  simp only [List.mem_cons, List.not_mem_nil, or_false] at hp
  rcases hp with rfl | rfl
  · refine ⟨rfl, by decide, by decide, fun _ => ⟨by norm_num, .inl ⟨by norm_num, by norm_num⟩, ?_⟩⟩
    intro x hx
    simp only [List.mem_cons, List.not_mem_nil, or_false] at hx
    rcases hx with rfl | rfl <;> exact .inl ⟨by norm_num, by norm_num⟩
  · refine ⟨rfl, by decide, by decide, fun _ => ⟨by norm_num, .inl ⟨by norm_num, by norm_num⟩, ?_⟩⟩
    intro x hx
    simp only [List.mem_cons, List.not_mem_nil, or_false] at hx
    rcases hx with rfl
    exact .inl ⟨by norm_num, by norm_num⟩

/-- C119: with several threads no node draws a bar, even on a track of no length; if the object's switch is on there is one line per zenith, in the order of
the grid; afterwards the switch of every node is that of the object, so that nothing has changed if they agreed. -/
theorem c119_sky_threads_partial (str : Rat → List Char) (threads : Nat) (ht : threads ≠ 1) (on : Bool) (l : List Page)
    (hg : ∀ p ∈ l, p.bar.loop = 100 ∧ 0 ≤ p.bar.count ∧ p.bar.count + p.ride.xs.length < 2 ^ 31) :
    ∃ nodes, SkyBar.evolve str threads ⟨on, l.map Page.cos, l.map Page.bar⟩ (l.map Page.ride) = .ok (⟨on, l.map Page.cos, nodes⟩,
      if on then l.flatMap fun p => "cos(th) = ".toList ++ str p.cos ++ " complete\n".toList else []) ∧
    nodes = (l.map fun p => { p.after with on := on }) ∧
    ((∀ p ∈ l, p.bar.on = on) → nodes = l.map Page.after) := by
  refine ⟨l.map fun p => { p.after with on := on }, ?_, rfl, ?_⟩
  · unfold SkyBar.evolve
    rw [if_neg ht]
    dsimp only [SkyBar.set]
    have hz : ((l.map Page.bar).map fun b => { b with on := false }).zip (l.map Page.ride) =
        (l.map fun p => { p with bar := { p.bar with on := false } }).map fun p : Page => (p.bar, p.ride) := by
      rw [← zip_pages]
      simp [Function.comp_def]
    rw [hz, pooled_pages]
    · simp only [Outcome.bind, List.length_map]
      have hsaid : (l.map fun p : Page => { p with bar := { p.bar with on := false } }).flatMap Page.said = [] := by
        simp [Page.said]
      rw [hsaid]
      cases on with
      | false =>
        simp [Function.comp_def, Page.after]
      | true =>
        have := reports_pages str (l.map Page.cos) (l.map Page.cos) 0 (fun j _ => by rw [Nat.zero_add])
        rw [List.length_map] at this
        simp only [if_true]
        rw [this]
        simp [Function.comp_def, Page.after, List.flatMap_map]
    · intro p hp
      obtain ⟨q, hq, rfl⟩ := List.mem_map.mp hp
      obtain ⟨h1, h2, h3⟩ := hg q hq
      exact ⟨h1, h2, h3, fun h => by simp at h⟩
  · intro h
    apply List.map_congr_left
    intro p hp
    unfold Page.after
    rw [← h p hp]

/-- Two zeniths, one of whose tracks has no length. -/
example : ∀ p ∈ [Page.mk (-1) ⟨true, 99, 100⟩ ⟨0, 12, 0, [6, 12]⟩, Page.mk 0 ⟨false, 0, 100⟩ ⟨4, 4, 4, [4]⟩],
    p.bar.loop = 100 ∧ 0 ≤ p.bar.count ∧ p.bar.count + p.ride.xs.length < 2 ^ 31 := by
  intro p hp
  simp only [List.mem_cons, List.not_mem_nil, or_false] at hp
  rcases hp with rfl | rfl <;> decide

/-- C119, disagreement: a node whose own switch was set is switched off by an evolution with several threads, for good. -/
theorem c119_switch_violated (str : Rat → List Char) :
    ∃ (a a' : SkyBar) (rides : List Ride) (out : List Char), a.on = false ∧ (∃ b ∈ a.nodes, b.on = true) ∧
      SkyBar.evolve str 2 a rides = .ok (a', out) ∧ ∀ b ∈ a'.nodes, b.on = false := by
  refine ⟨⟨false, [0], [⟨true, 0, 100⟩]⟩, ⟨false, [0], [⟨false, 1, 100⟩]⟩, [⟨0, 1, 0, [1]⟩], [], rfl, ⟨⟨true, 0, 100⟩, by simp, rfl⟩, rfl, ?_⟩
  simp

end Verif.Life
