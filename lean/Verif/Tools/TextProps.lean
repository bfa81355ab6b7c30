import Verif.Tools.Text
import Mathlib.Tactic.NormNum
import Mathlib.Tactic.FieldSimp

/-!
# Property C28: text tables survive write and read
-/

namespace Verif.Tools

/-! ## Lemmas -/

private theorem roundEven_int (n : Int) : roundEven (n : Rat) = n := by
  simp only [roundEven, Int.floor_intCast, sub_self]
  rw [if_pos (by norm_num)]

private theorem extract_nums (rd : Rat → Rat) (l : List Rat) : extract rd (l.map Tok.num) = l.map rd := by
  induction l with
  | nil => rfl
  | cons a l ih => simp only [List.map_cons, extract, ih]

private theorem readLines_append (rd : Rat → Rat) (a b : List Line) (s : ReadState) :
    readLines rd s (a ++ b) = (readLines rd s a).bind fun s => readLines rd s b := by
  induction a generalizing s with
  | nil => rfl
  | cons l a ih =>
    simp only [List.cons_append, readLines]
    cases readLine rd s l with
    | ok s => simp only [Outcome.bind_ok, ih]
    | throws => rfl
    | ub => rfl

/-- A line without a leading number: blank, or starting with `#` or any other text. -/
def NoData : Line → Prop
  | [] => True
  | .num _ :: _ => False
  | .other :: _ => True

private theorem extract_eq_nil_iff (rd : Rat → Rat) (l : Line) : extract rd l = [] ↔ NoData l := by
  match l with
  | [] => simp [extract, NoData]
  | .num v :: r => simp [extract, NoData]
  | .other :: r => simp [extract, NoData]

/-- Reading rows of `c ≥ 1` numbers each. -/
private theorem readLines_rows (rd : Rat → Rat) (c : Nat) (hc : 0 < c) (ls : List Line)
    (hl : ∀ l ∈ ls, (extract rd l).length = c) (s : ReadState) (hs : s.table = [] ∨ s.columns = c) :
    readLines rd s ls = .ok ⟨s.table ++ ls.map (extract rd), if ls = [] then s.columns else c⟩ := by
  induction ls generalizing s with
  | nil => simp [readLines]
  | cons l ls ih =>
    have h1 := hl l (List.mem_cons_self ..)
    have hne : extract rd l ≠ [] := by
      intro h; rw [h] at h1; simp at h1; omega
    simp only [readLines, readLine]
    rw [if_pos hne, if_neg (by rintro ⟨ha, hb⟩; rcases hs with h | h; exact ha h; exact hb (by rw [h, h1])), Outcome.bind_ok,
      ih (fun l hm => hl l (List.mem_cons_of_mem _ hm)) _ (Or.inr h1)]
    simp only [List.append_assoc, List.map_cons, List.singleton_append, h1, ite_self, reduceCtorEq, if_false]

private theorem readLines_noData (rd : Rat → Rat) (ls : List Line) (hl : ∀ l ∈ ls, NoData l) (s : ReadState) :
    readLines rd s ls = .ok ⟨s.table, if ls = [] then s.columns else 0⟩ := by
  induction ls generalizing s with
  | nil => simp [readLines]
  | cons l ls ih =>
    have h1 := (extract_eq_nil_iff rd l).2 (hl l (List.mem_cons_self ..))
    simp only [readLines, readLine, h1, ne_eq, not_true_eq_false, if_false, Outcome.bind_ok, List.length_nil]
    rw [ih (fun l hm => hl l (List.mem_cons_of_mem _ hm))]
    simp

/-! ## Round trip -/

/-- What reading back a written table gives: the same shape, every entry printed with 15 digits and converted back. Missing
from the full claim: the entries themselves (`c28_entries_violated`) and tables without rows or columns
(`c28_empty_violated`). -/
theorem c28_roundtrip_partial (rd : Rat → Rat) (t : List (List Rat)) (c : Nat) (hr : t ≠ []) (hc : 0 < c)
    (ht : ∀ r ∈ t, r.length = c) :
    quickread rd (quickwrite t) = .ok ⟨t.length, c, t.map fun r => r.map fun v => rd (dec15 v)⟩ := by
  have hex : ∀ r : List Rat, extract rd (r.map fun v => Tok.num (dec15 v)) = r.map fun v => rd (dec15 v) := by
    intro r
    have := extract_nums rd (r.map dec15)
    simpa [List.map_map, Function.comp_def] using this
  have hrows : ∀ l ∈ quickwrite t, (extract rd l).length = c := by
    intro l hl
    obtain ⟨r, hm, rfl⟩ := List.mem_map.1 hl
    rw [hex, List.length_map, ht r hm]
  have hne : quickwrite t ≠ [] := by simpa [quickwrite] using hr
  rw [quickread, readLines_rows rd c hc _ hrows _ (Or.inl rfl), Outcome.bind_ok, if_neg hne, copyOut]
  have hmap : ReadState.init.table ++ (quickwrite t).map (extract rd) = t.map fun r => r.map fun v => rd (dec15 v) := by
    simp only [ReadState.init, List.nil_append, quickwrite, List.map_map]
    exact List.map_congr_left fun r _ => hex r
  simp only [hmap]
  rw [if_pos (by
    intro r hm
    obtain ⟨q, hq, rfl⟩ := List.mem_map.1 hm
    rw [List.length_map, ht q hq])]
  congr 2
  · rw [List.length_map]
  · conv => rhs; rw [← List.map_id (t.map fun r => r.map fun v => rd (dec15 v))]
    refine List.map_congr_left fun r hm => ?_
    obtain ⟨q, hq, rfl⟩ := List.mem_map.1 hm
    exact List.take_of_length_le (by rw [List.length_map, ht q hq])

/-- A value with at most 15 significant decimal digits is printed exactly. -/
theorem c28_digits_partial (n k : Int) (hn : |n| < 10 ^ 15) : dec15 (n * (10 : Rat) ^ k) = n * (10 : Rat) ^ k := by
  have h10 : (10 : Rat) ≠ 0 := by norm_num
  by_cases h0 : n = 0
  · subst h0
    simp only [dec15, Int.cast_zero, zero_mul, zero_div]
    rw [show roundEven 0 = 0 from by decide +kernel]
    simp
  have hpos : (0 : Rat) < |n * (10 : Rat) ^ k| := abs_pos.2 (mul_ne_zero (by exact_mod_cast h0) (zpow_ne_zero _ h10))
  have hlog : Int.log 10 |n * (10 : Rat) ^ k| < 15 + k := by
    rw [← Int.lt_zpow_iff_log_lt (by norm_num) hpos, abs_mul, abs_of_pos (zpow_pos (by norm_num : (0 : Rat) < 10) k)]
    rw [show ((10 : ℕ) : Rat) = 10 by norm_num, zpow_add₀ h10]
    refine mul_lt_mul_of_pos_right ?_ (zpow_pos (by norm_num) k)
    exact_mod_cast hn
  obtain ⟨m, hm⟩ : ∃ m : Nat, k = Int.log 10 |n * (10 : Rat) ^ k| - 14 + m :=
    ⟨(k - (Int.log 10 |n * (10 : Rat) ^ k| - 14)).toNat, by omega⟩
  simp only [dec15]
  generalize hs : Int.log 10 |n * (10 : Rat) ^ k| - 14 = s at hm ⊢
  have hsc : (10 : Rat) ^ s ≠ 0 := zpow_ne_zero _ h10
  have hx : n * (10 : Rat) ^ k / (10 : Rat) ^ s = ((n * 10 ^ m : Int) : Rat) := by
    rw [hm, zpow_add₀ h10, zpow_natCast]
    push_cast
    field_simp
  rw [hx, roundEven_int]
  push_cast
  rw [hm, zpow_add₀ h10, zpow_natCast]
  ring

/-- Hence a table of doubles that are the nearest ones to decimals of at most 15 digits is reproduced exactly. -/
theorem c28_same_table_partial (rd : Rat → Rat) (t : List (List Rat)) (c : Nat) (hr : t ≠ []) (hc : 0 < c)
    (ht : ∀ r ∈ t, r.length = c) (hd : ∀ r ∈ t, ∀ v ∈ r, rd (dec15 v) = v) :
    quickread rd (quickwrite t) = .ok ⟨t.length, c, t⟩ := by
  rw [c28_roundtrip_partial rd t c hr hc ht]
  congr 2
  conv => rhs; rw [← List.map_id t]
  refine List.map_congr_left fun r hm => ?_
  conv => rhs; rw [id, ← List.map_id r]
  exact List.map_congr_left fun v hv => hd r hm v hv

example : quickread id (quickwrite [[1, 5 / 2], [-1 / 4, 1200], [0, 1 / 1000]]) =
    .ok ⟨3, 2, [[1, 5 / 2], [-1 / 4, 1200], [0, 1 / 1000]]⟩ := by decide +kernel

/-- 15 digits do not identify a double: 1 + 2^-52, the double after 1, comes back as 1, whatever the rounding of the reader. -/
theorem c28_entries_violated (rd : Rat → Rat) (h1 : rd 1 = 1) :
    quickread rd (quickwrite [[1 + 1 / 2 ^ 52]]) = .ok ⟨1, 1, [[1]]⟩ ∧ (1 + 1 / 2 ^ 52 : Rat) ≠ 1 := by
  refine ⟨?_, by norm_num⟩
  rw [c28_roundtrip_partial rd [[1 + 1 / 2 ^ 52]] 1 (by simp) (by omega) (by simp)]
  simp only [List.map_cons, List.map_nil, List.length_cons, List.length_nil]
  rw [show dec15 (1 + 1 / 2 ^ 52) = 1 from by decide +kernel, h1]

/-- The shape of a table without rows or without columns is lost: no rows give 2^64 - 1 columns, no columns give no rows. -/
theorem c28_empty_violated (rd : Rat → Rat) :
    quickread rd (quickwrite []) = .ok ⟨0, 2 ^ 64 - 1, []⟩ ∧
    quickread rd (quickwrite [[], []]) = .ok ⟨0, 0, []⟩ := ⟨rfl, rfl⟩

/-! ## Blank and comment lines -/

/-- Blank and comment lines before the first data line do not change the result. Missing from the full claim: such lines
between or after data (`c28_blank_between_violated`, `c28_blank_after_violated`). -/
theorem c28_leading_blank_partial (rd : Rat → Rat) (pre file : List Line) (hp : ∀ l ∈ pre, NoData l)
    (hf : ∃ l ∈ file, ¬ NoData l) : quickread rd (pre ++ file) = quickread rd file := by
  simp only [quickread, readLines_append, readLines_noData rd pre hp, Outcome.bind_ok]
  congr 1
  have key : ∀ (file : List Line) (a b : Nat), (∃ l ∈ file, ¬ NoData l) →
      readLines rd ⟨[], a⟩ file = readLines rd ⟨[], b⟩ file := by
    intro file
    cases file with
    | nil => rintro a b ⟨l, h, _⟩; simp at h
    | cons l rest =>
      intro a b _
      simp only [readLines, readLine, ne_eq, not_true_eq_false, false_and, if_false]
  exact key file _ _ hf

example : quickread id [[.other, .num 7], [], [.num 1, .num 2], [.num 3, .num 4, .other]] =
    .ok ⟨2, 2, [[1, 2], [3, 4]]⟩ := by decide +kernel

/-- Any blank or comment line between two data lines makes the whole file be rejected. -/
theorem c28_blank_between_violated (rd : Rat → Rat) (a b : List Line) (d blank d' : Line) (hd : ¬ NoData d)
    (hb : NoData blank) (hd' : ¬ NoData d') (h : ∃ s, readLines rd .init (a ++ [d]) = .ok s) :
    quickread rd (a ++ [d, blank, d'] ++ b) = .throws := by
  obtain ⟨s, hs⟩ := h
  have e1 : a ++ [d, blank, d'] ++ b = (a ++ [d]) ++ (blank :: d' :: b) := by simp
  rw [quickread, e1, readLines_append, hs, Outcome.bind_ok]
  have ht : s.table ≠ [] := by
    rw [readLines_append] at hs
    cases h1 : readLines rd .init a with
    | throws => rw [h1] at hs; cases hs
    | ub => rw [h1] at hs; cases hs
    | ok s0 =>
      rw [h1, Outcome.bind_ok] at hs
      simp only [readLines, readLine] at hs
      rw [if_pos (fun h => hd ((extract_eq_nil_iff rd d).1 h))] at hs
      split at hs
      · cases hs
      · cases hs
        simp
  have hbl := (extract_eq_nil_iff rd blank).2 hb
  have hd2 : extract rd d' ≠ [] := fun h => hd' ((extract_eq_nil_iff rd d').1 h)
  simp only [readLines, readLine, hbl, ne_eq, not_true_eq_false, if_false, Outcome.bind_ok, List.length_nil]
  rw [if_pos hd2, if_pos ⟨ht, by
    intro h
    exact hd2 (List.length_eq_zero_iff.1 h.symm)⟩]
  rfl

example : quickread id [[.num 1, .num 2], [.num 3, .num 4]] = .ok ⟨2, 2, [[1, 2], [3, 4]]⟩ ∧
    quickread id [[.num 1, .num 2], [], [.num 3, .num 4]] = .throws := by decide +kernel

/-- Any blank or comment lines after the data make the result have no columns. -/
theorem c28_blank_after_violated (rd : Rat → Rat) (file post : List Line) (hpost : post ≠ []) (hb : ∀ l ∈ post, NoData l)
    (t : Table) (h : quickread rd file = .ok t) :
    ∃ t', quickread rd (file ++ post) = .ok t' ∧ t'.rows = t.rows ∧ t'.cols = 0 := by
  rw [quickread] at h
  cases h1 : readLines rd .init file with
  | throws => rw [h1] at h; cases h
  | ub => rw [h1] at h; cases h
  | ok s =>
    rw [h1, Outcome.bind_ok, copyOut] at h
    split at h
    · cases h
      rw [quickread, readLines_append, h1, Outcome.bind_ok, readLines_noData rd post hb, if_neg hpost, Outcome.bind_ok,
        copyOut, if_pos (fun _ _ => Nat.zero_le _)]
      exact ⟨_, rfl, rfl, rfl⟩
    · cases h

example : quickread id [[.num 1, .num 2], [.num 3, .num 4], []] = .ok ⟨2, 0, [[], []]⟩ := by decide +kernel

/-! ## Ragged files -/

/-- A file is accepted only if all its data lines have the same number of numbers; no read past the end of a row occurs. -/
theorem c28_rejects_ragged (rd : Rat → Rat) (file : List Line) :
    quickread rd file ≠ .ub ∧
    ∀ t, quickread rd file = .ok t → ∀ l ∈ file, ∀ l' ∈ file, ¬ NoData l → ¬ NoData l' →
      (extract rd l).length = (extract rd l').length := by
  have key : ∀ (file : List Line) (s : ReadState) (c : Nat), (∀ r ∈ s.table, r.length = c) →
      (s.table ≠ [] → s.columns = c ∨ s.columns = 0) →
      readLines rd s file = .throws ∨
      ∃ s' c', readLines rd s file = .ok s' ∧ (s.table ≠ [] → c' = c) ∧ (∀ r ∈ s'.table, r.length = c') ∧
        (s'.table ≠ [] → s'.columns = c' ∨ s'.columns = 0) ∧
        ∀ l ∈ file, ¬ NoData l → (extract rd l).length = c' := by
    intro file
    induction file with
    | nil => intro s c h1 h2; exact Or.inr ⟨s, c, rfl, fun _ => rfl, h1, h2, fun l hl => by simp at hl⟩
    | cons l ls ih =>
      intro s c h1 h2
      simp only [readLines, readLine]
      by_cases hn : extract rd l = []
      · rw [if_neg (by simp [hn]), Outcome.bind_ok]
        rcases ih ⟨s.table, (extract rd l).length⟩ c h1 (fun _ => Or.inr (by simp [hn])) with h | ⟨s', c', g1, g2, g3, g4, g5⟩
        · exact Or.inl h
        · refine Or.inr ⟨s', c', g1, g2, g3, g4, fun x hx hd => ?_⟩
          rcases List.mem_cons.1 hx with rfl | hx
          · exact absurd ((extract_eq_nil_iff rd x).1 hn) hd
          · exact g5 x hx hd
      · rw [if_pos hn]
        split
        · exact Or.inl rfl
        · rename_i hcond
          rw [Outcome.bind_ok]
          have hlen : s.table ≠ [] → (extract rd l).length = c := by
            intro ht
            have hcol : s.columns = (extract rd l).length := by
              by_contra hx; exact hcond ⟨ht, hx⟩
            rcases h2 ht with h | h
            · omega
            · exact absurd (List.length_eq_zero_iff.1 (by omega)) hn
          rcases ih ⟨s.table ++ [extract rd l], (extract rd l).length⟩ (extract rd l).length (by
              intro r hr
              rcases List.mem_append.1 hr with h | h
              · rw [h1 r h, hlen (List.ne_nil_of_mem h)]
              · rw [List.mem_singleton.1 h]) (fun _ => Or.inl rfl) with h | ⟨s', c', g1, g2, g3, g4, g5⟩
          · exact Or.inl h
          · have hc' : c' = (extract rd l).length := g2 (by simp)
            refine Or.inr ⟨s', c', g1, fun ht => by rw [hc', hlen ht], g3, g4, fun x hx hd => ?_⟩
            rcases List.mem_cons.1 hx with rfl | hx
            · exact hc'.symm
            · exact g5 x hx hd
  rcases key file .init 0 (by simp [ReadState.init]) (by simp [ReadState.init]) with h | ⟨s, c, g1, _, g3, g4, g5⟩
  · rw [quickread, h]
    exact ⟨nofun, nofun⟩
  · rw [quickread, g1, Outcome.bind_ok, copyOut, if_pos (by
      intro r hr
      rw [g3 r hr]
      rcases g4 (List.ne_nil_of_mem hr) with h | h <;> omega)]
    refine ⟨nofun, fun t _ l hl l' hl' hd hd' => ?_⟩
    rw [g5 l hl hd, g5 l' hl' hd']

example : quickread id [[.num 1, .num 2], [.num 3]] = .throws := by decide +kernel

end Verif.Tools
