import Verif.XS.FileViolationProps
import Verif.XS.TableValueProps

/-! C85: tables that were read cover the range they announce, and answer everywhere in it. -/

namespace Verif.XS

open Verif.Interp

/-! ## Specification -/

/-- The rows of a differential table come in groups of `z` rows with one energy; the second group has another energy than the first. -/
def Grouped (rows : List (List ℝ)) : Prop :=
  ∃ z, 0 < z ∧ z < rows.length ∧ (∀ i, i < rows.length → (rows.map (·.getD 0 0)).getD i 0 = (rows.map (·.getD 0 0)).getD (i / z * z) 0) ∧
    (rows.map (·.getD 0 0)).getD z 0 ≠ (rows.map (·.getD 0 0)).getD 0 0

/-- A file that is there has grouped rows. -/
def GroupedFile (x : Option (List (List ℝ))) : Prop := ∀ rows, x = some rows → Grouped rows

/-- The files a flavour is read from. -/
def TextFiles.source (x : TextFiles) (f : Fin 3) : TextSet := if x.common.complete then x.common else x.flavour f

/-- A table of totals, if it is there, goes from the lower to the upper end of the range. -/
def SameDomain (t : Tables) (x : Option (List (List ℝ))) : Prop :=
  ∀ rows r, x = some rows → (rows.head? = some r → r.getD 0 0 * GeV = t.Emin) ∧ (rows.getLast? = some r → r.getD 0 0 * GeV = t.Emax)

/-- Tables that cover the range they announce: the range is positive and not empty, and each of the eight tables of each active flavour begins
and ends where the range does (tables are over decimal logarithms). -/
structure Covers (t : Tables) : Prop where
  pos : 0 < t.Emin
  lt : t.Emin < t.Emax
  over : ∀ f, f < 3 → ∃ p, t.data f = some p ∧ Over (Real.logb 10 t.Emin) (Real.logb 10 t.Emax) p

/-! ## Lemmas -/

theorem bind_ok_iff {α β : Type} {x : Outcome α} {f : α → Outcome β} {b : β} (h : x.bind f = .ok b) : ∃ a, x = .ok a ∧ f a = .ok b := by
  cases x with
  | ok a => exact ⟨a, rfl, h⟩
  | throws => cases h
  | ub => cases h

theorem logs_ok {u : ℝ} : ∀ {l r : List ℝ}, logs u l = .ok r → (r = l.map fun x => Real.logb 10 (x * u)) ∧ ∀ x ∈ l, 0 < x * u := by
  intro l
  induction l with
  | nil =>
    intro r h
    cases h
    exact ⟨rfl, by simp⟩
  | cons a l ih =>
    intro r h
    unfold logs at h
    obtain ⟨b, hb, h⟩ := bind_ok_iff h
    unfold log10 at hb
    by_cases hpos : 0 < a * u
    · rw [if_pos hpos] at hb
      cases hb
      cases hl : logs u l with
      | ok r' =>
        rw [hl] at h
        cases h
        obtain ⟨h1, h2⟩ := ih hl
        subst h1
        refine ⟨rfl, ?_⟩
        intro x hx
        rcases List.mem_cons.1 hx with rfl | hx
        · exact hpos
        · exact h2 x hx
      | throws => rw [hl] at h; cases h
      | ub => rw [hl] at h; cases h
    · rw [if_neg hpos] at hb
      cases hb

theorem logb_lt {a b : ℝ} (ha : 0 < a) (hb : 0 < b) : Real.logb 10 a < Real.logb 10 b ↔ a < b := Real.logb_lt_logb_iff (by norm_num) ha hb

/-- A total table that was read. -/
theorem read1D_ok {rows : List (List ℝ)} {s : Spline ℝ} {lo hi : ℝ} (h : read1D rows = .ok (s, lo, hi)) :
    0 < lo ∧ lo < hi ∧ ∃ x y, ofVectors x y = .ok s ∧ x.head? = some (Real.logb 10 lo) ∧ x.getLast? = some (Real.logb 10 hi) := by
  unfold read1D at h
  by_cases hc : rows = [] ∨ ∃ r ∈ rows, r.length ≠ 2
  · rw [if_pos hc] at h; cases h
  rw [if_neg hc] at h
  obtain ⟨en, h1, h⟩ := bind_ok_iff h
  obtain ⟨sg, h2, h⟩ := bind_ok_iff h
  obtain ⟨s', h3, h⟩ := bind_ok_iff h
  cases h
  obtain ⟨he, hp⟩ := logs_ok h1
  obtain ⟨-, hn, hi, -, -⟩ := ofVectors_ok h3
  have hne : rows ≠ [] := fun h => hc (Or.inl h)
  obtain ⟨a, rest, hr⟩ : ∃ a rest, rows.map (·.getD 0 0) = a :: rest := by
    cases rows with
    | nil => exact absurd rfl hne
    | cons r rs => exact ⟨_, _, rfl⟩
  rw [hr] at he hp ⊢
  obtain ⟨z, hz⟩ : ∃ z, (a :: rest).getLast? = some z := ⟨_, List.getLast?_eq_some_getLast (by simp)⟩
  have hzm : z ∈ a :: rest := List.mem_of_getLast? hz
  have hgd : (a :: rest).getLastD 0 = z := by rw [List.getLastD_eq_getLast?, hz]; rfl
  rw [hgd]
  have hx0 : en.head? = some (Real.logb 10 (a * GeV)) := by rw [he]; rfl
  have hx1 : en.getLast? = some (Real.logb 10 (z * GeV)) := by rw [he, List.getLast?_map, hz]; rfl
  have ha := hp a (by simp)
  have hzp := hp z hzm
  refine ⟨ha, ?_, en, sg, h3, hx0, hx1⟩
  have := hi.lt (i := 0) (j := en.length - 1) (by omega) (by omega)
  show a * GeV < z * GeV
  rw [← logb_lt ha hzp]
  rw [List.head?_eq_getElem?] at hx0
  rw [List.getLast?_eq_getElem?] at hx1
  rwa [getD_of_get hx0, getD_of_get hx1] at this

/-- A differential table that was read. -/
theorem read2D_ok {rows : List (List ℝ)} {b : BiCubic ℝ} {lo hi : ℝ} (h : read2D rows = .ok (b, lo, hi)) :
    0 < lo ∧ ∃ g xs ys, BiCubic.make g xs ys = .ok b ∧ xs.head? = some (Real.logb 10 lo) ∧
      (Grouped rows → xs.getLast? = some (Real.logb 10 hi)) := by
  unfold read2D at h
  by_cases hc : rows = [] ∨ ∃ r ∈ rows, r.length ≠ 3
  · rw [if_pos hc] at h; cases h
  rw [if_neg hc] at h
  dsimp only at h
  generalize hes : rows.map (·.getD 0 0) = es at h
  have hlen : es.length = rows.length := by rw [← hes]; simp
  by_cases hz : leading es = rows.length ∨ rows.length / leading es * leading es ≠ rows.length
  · rw [if_pos hz] at h; cases h
  rw [if_neg hz] at h
  rw [not_or, not_not] at hz
  obtain ⟨hz1, hz2⟩ := hz
  obtain ⟨x, h1, h⟩ := bind_ok_iff h
  obtain ⟨b', h2, h⟩ := bind_ok_iff h
  cases h
  obtain ⟨hx, hp⟩ := logs_ok h1
  obtain ⟨-, -, -, m1, -, m2⟩ := made_sizes h2
  dsimp only at m1
  have hz0 : 0 < leading es := by
    rcases Nat.eq_zero_or_pos (leading es) with h0 | h0
    · rw [h0, Nat.mul_zero] at hz2
      exact absurd (List.length_eq_zero_iff.1 hz2.symm) (fun h => hc (Or.inl h))
    · exact h0
  obtain ⟨h3, -⟩ := m2 (Or.inl (by dsimp only; omega))
  have hne : es ≠ [] := by
    intro h
    rw [h] at hlen
    exact hc (Or.inl (List.length_eq_zero_iff.1 hlen.symm))
  obtain ⟨a, rest, rfl⟩ := List.exists_cons_of_ne_nil hne
  generalize hN : rows.length / leading (a :: rest) = N at *
  have hN3 : 3 ≤ N := by omega
  have ha : 0 < a * GeV := by
    refine hp a (List.mem_map.2 ⟨0, List.mem_range.2 (by omega), ?_⟩)
    simp
  refine ⟨ha, _, _, _, h2, ?_, ?_⟩
  · rw [hx, List.head?_map, List.head?_map, List.head?_range, if_neg (by omega)]
    simp
  · intro ⟨z, g1, g2, g3, g4⟩
    rw [hes] at g3 g4
    have hg : ∀ i, i < rows.length → (a :: rest)[i]? = some ((a :: rest).getD (i / z * z) 0) := by
      intro i hi
      rw [← g3 i hi, List.getD_eq_getElem?_getD, List.getElem?_eq_getElem (by omega)]
      rfl
    have hl : leading (a :: rest) = z := by
      refine takeWhile_length _ _ _ ?_ ⟨_, hg z g2, ?_⟩
      · intro i hi
        refine ⟨_, hg i (by omega), ?_⟩
        simp [Nat.div_eq_of_lt hi]
      · rw [Nat.div_self g1, Nat.one_mul]
        simpa using g4
    rw [hl] at hz2 hx
    have hlast : (a :: rest).getLast? = some ((a :: rest).getD ((N - 1) * z) 0) := by
      rw [List.getLast?_eq_getElem?, hlen, hg _ (by omega)]
      congr 2
      have : (rows.length - 1) / z = N - 1 := by
        rw [← hz2]
        obtain ⟨M, rfl⟩ : ∃ M, N = M + 1 := ⟨N - 1, by omega⟩
        rw [Nat.add_mul, Nat.one_mul, Nat.add_sub_assoc g1, Nat.mul_comm, Nat.mul_add_div g1, Nat.div_eq_of_lt (by omega)]
        simp
      rw [this]
    rw [hx, List.getLast?_map, List.getLast?_map, List.getLast?_range, if_neg (by omega)]
    rw [List.getLastD_eq_getLast?, hlast]
    rfl

theorem checked_inv {α : Type} {r : ℝ × ℝ} {x : Outcome (α × ℝ × ℝ)} {a : α} (h : checked r x = .ok a) : x = .ok (a, r.1, r.2) := by
  unfold checked at h
  obtain ⟨y, hy, h⟩ := bind_ok_iff h
  by_cases hc : y.2.1 ≠ r.1 ∨ y.2.2 ≠ r.2
  · rw [if_pos hc] at h; cases h
  · rw [if_neg hc] at h
    cases h
    rw [not_or, not_not, not_not] at hc
    rw [hy, ← hc.1, ← hc.2]

theorem file_inv {β : Type} {x : Option (List (List ℝ))} {f : List (List ℝ) → Outcome β} {b : β} (h : (file x).bind f = .ok b) :
    ∃ rows, x = some rows ∧ f rows = .ok b := by
  cases x with
  | none => cases h
  | some r => exact ⟨r, rfl, h⟩

/-- The first table, whose range is not compared if there is one already. -/
theorem read1D_domain {rows : List (List ℝ)} {s : Spline ℝ} {lo hi : ℝ} (h : read1D rows = .ok (s, lo, hi)) :
    (∃ r, rows.head? = some r ∧ r.getD 0 0 * GeV = lo) ∧ ∃ r, rows.getLast? = some r ∧ r.getD 0 0 * GeV = hi := by
  unfold read1D at h
  by_cases hc : rows = [] ∨ ∃ r ∈ rows, r.length ≠ 2
  · rw [if_pos hc] at h; cases h
  rw [if_neg hc] at h
  obtain ⟨en, h1, h⟩ := bind_ok_iff h
  obtain ⟨sg, h2, h⟩ := bind_ok_iff h
  obtain ⟨s', h3, h⟩ := bind_ok_iff h
  cases h
  have hne : rows ≠ [] := fun h => hc (Or.inl h)
  constructor
  · cases rows with
    | nil => exact absurd rfl hne
    | cons r rs => exact ⟨r, rfl, rfl⟩
  · refine ⟨_, List.getLast?_eq_some_getLast hne, ?_⟩
    rw [List.getLastD_eq_getLast?, List.getLast?_map, List.getLast?_eq_some_getLast hne]
    rfl

/-- What is known of a flavour that was read. -/
structure ReadFlavor (x : TextSet) (p : PerFlavor) (lo hi : ℝ) : Prop where
  first : ∃ rows lo' hi', x.s 0 = some rows ∧ read1D rows = .ok (p.s 0, lo', hi')
  others : ∀ k, k ≠ 0 → ∃ rows, x.s k = some rows ∧ read1D rows = .ok (p.s k, lo, hi)
  diff : ∀ k, ∃ rows, x.d k = some rows ∧ read2D rows = .ok (p.d k, lo, hi)

theorem readFlavorText_ok {x : TextSet} {range : Option (ℝ × ℝ)} {p : PerFlavor} {lo hi : ℝ} (h : readFlavorText x range = .ok (p, lo, hi)) :
    ReadFlavor x p lo hi ∧ (range = none → ∃ rows, x.s 0 = some rows ∧ read1D rows = .ok (p.s 0, lo, hi)) ∧
    (∀ r, range = some r → 0 < r.1 → 0 < r.2 → (lo, hi) = r) := by
  unfold readFlavorText at h
  obtain ⟨r0, e0, h⟩ := bind_ok_iff h
  dsimp only at h
  generalize hr : (if unset range then (r0.2.1, r0.2.2) else range.getD (0, 0)) = rg at h
  obtain ⟨s1, e1, h⟩ := bind_ok_iff h
  obtain ⟨s2, e2, h⟩ := bind_ok_iff h
  obtain ⟨s3, e3, h⟩ := bind_ok_iff h
  obtain ⟨d0, f0, h⟩ := bind_ok_iff h
  obtain ⟨d1, f1, h⟩ := bind_ok_iff h
  obtain ⟨d2, f2, h⟩ := bind_ok_iff h
  obtain ⟨d3, f3, h⟩ := bind_ok_iff h
  cases h
  obtain ⟨rows, g0, g1⟩ := file_inv e0
  have k1 := file_inv (checked_inv e1)
  have k2 := file_inv (checked_inv e2)
  have k3 := file_inv (checked_inv e3)
  have l0 := file_inv (checked_inv f0)
  have l1 := file_inv (checked_inv f1)
  have l2 := file_inv (checked_inv f2)
  have l3 := file_inv (checked_inv f3)
  refine ⟨⟨⟨rows, _, _, g0, g1⟩, ?_, ?_⟩, ?_, ?_⟩
  · intro k hk
    match k, hk with
    | 0, hk => exact absurd rfl hk
    | 1, _ => exact k1
    | 2, _ => exact k2
    | 3, _ => exact k3
  · intro k
    match k with
    | 0 => exact l0
    | 1 => exact l1
    | 2 => exact l2
    | 3 => exact l3
  · rintro rfl
    have hr : (r0.2.1, r0.2.2) = (lo, hi) := hr
    cases hr
    exact ⟨rows, g0, g1⟩
  · rintro r rfl h1 h2
    have : unset (some r) = false := by simp [unset, h1, h2]
    rw [this] at hr
    exact hr.symm

/-- A flavour that was read is over the range, if its first table is and its differential tables are grouped. -/
theorem ReadFlavor.over {x : TextSet} {p : PerFlavor} {lo hi : ℝ} (h : ReadFlavor x p lo hi) (hg : ∀ k, GroupedFile (x.d k))
    (h0 : ∃ rows, x.s 0 = some rows ∧ read1D rows = .ok (p.s 0, lo, hi)) : Over (Real.logb 10 lo) (Real.logb 10 hi) p := by
  constructor
  · intro k
    have : ∃ rows, x.s k = some rows ∧ read1D rows = .ok (p.s k, lo, hi) := by
      by_cases hk : k = 0
      · rw [hk]; exact h0
      · exact h.others k hk
    obtain ⟨rows, -, hr⟩ := this
    exact (read1D_ok hr).2.2
  · intro k
    obtain ⟨rows, hx, hr⟩ := h.diff k
    obtain ⟨-, g, xs, ys, h1, h2, h3⟩ := read2D_ok hr
    exact ⟨g, xs, ys, h1, h2, h3 (hg k rows hx)⟩

theorem ReadFlavor.made {x : TextSet} {p : PerFlavor} {lo hi : ℝ} (h : ReadFlavor x p lo hi) :
    0 < lo ∧ lo < hi ∧ (∀ k, MadeSpline (p.s k)) ∧ ∀ k, MadeGrid (p.d k) := by
  obtain ⟨rows, -, hr⟩ := h.others 1 (by decide)
  obtain ⟨h1, h2, -⟩ := read1D_ok hr
  refine ⟨h1, h2, ?_, ?_⟩
  · intro k
    by_cases hk : k = 0
    · obtain ⟨rows, lo', hi', -, hr⟩ := h.first
      obtain ⟨-, -, x, y, h, -⟩ := read1D_ok hr
      exact hk ▸ ⟨x, y, h⟩
    · obtain ⟨rows, -, hr⟩ := h.others k hk
      obtain ⟨-, -, x, y, h, -⟩ := read1D_ok hr
      exact ⟨x, y, h⟩
  · intro k
    obtain ⟨rows, -, hr⟩ := h.diff k
    obtain ⟨-, g, xs, ys, h1, -⟩ := read2D_ok hr
    exact ⟨g, xs, ys, h1⟩

/-- What is known of an object read from text. -/
theorem fromText_ok {x : TextFiles} {t : Tables} (h : fromText x = .ok t) :
    ∀ f : Fin 3, ∃ p, t.data f = some p ∧ ReadFlavor (x.source f) p t.Emin t.Emax ∧
      (f = 0 → ∃ rows, (x.source f).s 0 = some rows ∧ read1D rows = .ok (p.s 0, t.Emin, t.Emax)) := by
  unfold fromText at h
  by_cases hc : x.common.complete = true
  · rw [if_pos hc] at h
    obtain ⟨r, h1, h⟩ := bind_ok_iff h
    cases h
    obtain ⟨a, b, -⟩ := readFlavorText_ok h1
    have hs : ∀ f, x.source f = x.common := fun f => if_pos hc
    intro f
    rw [hs]
    match f with
    | 0 => exact ⟨_, rfl, a, fun _ => b rfl⟩
    | 1 => exact ⟨_, rfl, a, fun _ => b rfl⟩
    | 2 => exact ⟨_, rfl, a, fun _ => b rfl⟩
  · rw [if_neg hc] at h
    have hs : ∀ f, x.source f = x.flavour f := fun f => if_neg hc
    by_cases hf : ((x.flavour 0).complete && (x.flavour 1).complete && (x.flavour 2).complete) = true
    · rw [if_pos hf] at h
      obtain ⟨e, h1, h⟩ := bind_ok_iff h
      obtain ⟨m, h2, h⟩ := bind_ok_iff h
      obtain ⟨ta, h3, h⟩ := bind_ok_iff h
      cases h
      obtain ⟨a1, b1, -⟩ := readFlavorText_ok h1
      obtain ⟨a2, -, b2⟩ := readFlavorText_ok h2
      obtain ⟨a3, -, b3⟩ := readFlavorText_ok h3
      obtain ⟨p1, p2, -⟩ := a1.made
      obtain ⟨q1, q2, -⟩ := a2.made
      have e1 := b2 e.2 rfl p1 (p1.trans p2)
      have e2 := b3 m.2 rfl q1 (q1.trans q2)
      have e3 : ta.2 = e.2 := e2.trans e1
      have e4 : m.2 = ta.2 := e2.symm
      intro f
      rw [hs]
      match f with
      | 0 => exact ⟨_, rfl, by rw [e3]; exact a1, fun _ => by rw [e3]; exact b1 rfl⟩
      | 1 => exact ⟨_, rfl, by rw [← e4]; exact a2, fun h => absurd h (by decide)⟩
      | 2 => exact ⟨_, rfl, a3, fun h => absurd h (by decide)⟩
    · rw [if_neg hf] at h; cases h

/-! ## Files to read -/

/-- A table of totals at three energies, and a table of differentials at three energies with three rows each, of which the last row may have
another energy. -/
noncomputable def totalRows (a b c : ℝ) : List (List ℝ) := [[a, 1], [b, 1], [c, 1]]
noncomputable def diffRows (a b c l : ℝ) : List (List ℝ) :=
  [[a, 0, 1], [a, 1 / 2, 1], [a, 1, 1], [b, 0, 1], [b, 1 / 2, 1], [b, 1, 1], [c, 0, 1], [c, 1 / 2, 1], [l, 1, 1]]

theorem three_logs {a b c : ℝ} (h0 : 0 < a) (h1 : a < b) (h2 : b < c) :
    [Real.logb 10 (a * GeV), Real.logb 10 (b * GeV), Real.logb 10 (c * GeV)].Pairwise (· < ·) := by
  have hb := h0.trans h1
  have hc := hb.trans h2
  have e1 := (logb_lt (mul_pos h0 GeV_pos) (mul_pos hb GeV_pos)).2 (mul_lt_mul_of_pos_right h1 GeV_pos)
  have e2 := (logb_lt (mul_pos hb GeV_pos) (mul_pos hc GeV_pos)).2 (mul_lt_mul_of_pos_right h2 GeV_pos)
  simp only [List.pairwise_cons, List.mem_cons, List.not_mem_nil, or_false, forall_eq_or_imp, forall_eq, List.Pairwise.nil, and_true]
  exact ⟨⟨e1, e1.trans e2⟩, e2, by simp⟩

theorem read_totalRows {a b c : ℝ} (h0 : 0 < a) (h1 : a < b) (h2 : b < c) :
    ∃ s, read1D (totalRows a b c) = .ok (s, a * GeV, c * GeV) ∧
      ∀ x y, ofVectors x y = .ok s → x.getLast? = some (Real.logb 10 (c * GeV)) := by
  have hb := h0.trans h1
  have hc := hb.trans h2
  obtain ⟨s, hs, -⟩ := line_spline [Real.logb 10 (a * GeV), Real.logb 10 (b * GeV), Real.logb 10 (c * GeV)] (by simp)
    (three_logs h0 h1 h2) 0 0
  refine ⟨s, ?_, ?_⟩
  · unfold read1D
    rw [if_neg (by simp [totalRows])]
    rw [logs_spec, Outcome.bind_ok, logs_spec, Outcome.bind_ok]
    · simp only [totalRows, List.map_cons, List.map_nil, List.getD_cons_zero, List.getD_cons_succ, mul_one, Real.logb_one]
      simp only [List.map_cons, List.map_nil, zero_mul, add_zero] at hs
      rw [hs]
      rfl
    · simp [totalRows]
    · simp [totalRows, h0, hb, hc, GeV_pos]
  · intro x y h
    have e1 := (c21_accessors x y s h).1
    have e2 := (c21_accessors _ _ s hs).1
    rw [← e1, e2]
    rfl

theorem read_diffRows {a b c l : ℝ} (h0 : 0 < a) (h1 : a < b) (h2 : b < c) :
    ∃ g, read2D (diffRows a b c l) = .ok (g, a * GeV, l * GeV) ∧
      ∀ d x y, BiCubic.make d x y = .ok g → x.getLast? = some (Real.logb 10 (c * GeV)) := by
  have hb := h0.trans h1
  have hc := hb.trans h2
  have hlead : leading ((diffRows a b c l).map (·.getD 0 0)) = 3 := by
    simp [leading, diffRows, List.takeWhile, h1.ne']
  have hen : ((List.range 3).map fun j => ((diffRows a b c l).map (·.getD 0 0)).getD (j * 3) 0) = [a, b, c] := by
    simp [diffRows, List.range, List.range.loop]
  have hz : ((List.range 3).map fun (j : Nat) => (j : ℝ) / ((3 - 1 : Nat) : ℝ)) = zsEven := by
    simp [zsEven, List.range, List.range.loop]
  have hm := c25_constructor_throws_iff (K := ℝ) ⟨3, 3, fun i j => logOrTiny (((diffRows a b c l).map (·.getD 2 0)).getD (j * 3 + i) 0)⟩
    [Real.logb 10 (a * GeV), Real.logb 10 (b * GeV), Real.logb 10 (c * GeV)] zsEven
  cases e : BiCubic.make (K := ℝ) ⟨3, 3, fun i j => logOrTiny (((diffRows a b c l).map (·.getD 2 0)).getD (j * 3 + i) 0)⟩
    [Real.logb 10 (a * GeV), Real.logb 10 (b * GeV), Real.logb 10 (c * GeV)] zsEven with
  | ok g =>
    refine ⟨g, ?_, ?_⟩
    · unfold read2D
      rw [if_neg (by simp [diffRows])]
      dsimp only
      rw [hlead, show (diffRows a b c l).length / 3 = 3 by simp [diffRows], if_neg (by simp [diffRows]), hen, hz, logs_spec, Outcome.bind_ok]
      · simp only [List.map_cons, List.map_nil]
        rw [e]
        rfl
      · simp [h0, hb, hc, GeV_pos]
    · intro d x y h
      have e1 := (made_sizes h).2.1
      have e2 := (made_sizes e).2.1
      rw [← e1, e2]
      rfl
  | ub => exact absurd e hm.2
  | throws =>
    rcases hm.1.1 e with hc | hc | ⟨-, hc | hc⟩
    · exact absurd rfl hc
    · exact absurd rfl hc
    · exact absurd ⟨by simp, three_logs h0 h1 h2⟩ hc
    · exact absurd ⟨by simp [zsEven], zsEven_inc⟩ hc

/-- The files of a flavour with tables from 1 to `l` GeV, except for the first one and what the differential ones end with. -/
noncomputable def someFiles (first : List (List ℝ)) (c l : ℝ) : TextSet :=
  ⟨fun k => some (if k = 0 then first else totalRows 1 10 l), fun _ => some (diffRows 1 10 c l)⟩

theorem someFiles_complete (first : List (List ℝ)) (c l : ℝ) : (someFiles first c l).complete = true := by
  simp [TextSet.complete, someFiles]

theorem read_someFiles {first : List (List ℝ)} {s0 : Spline ℝ} {lo hi c l : ℝ} (h : read1D first = .ok (s0, lo, hi)) (hc : 10 < c) (hl : 10 < l)
    (range : Option (ℝ × ℝ)) (hr : if unset range then (lo, hi) = (1 * GeV, l * GeV) else range = some (1 * GeV, l * GeV)) :
    ∃ p, readFlavorText (someFiles first c l) range = .ok (p, 1 * GeV, l * GeV) ∧ p.s 0 = s0 ∧
      ∀ d x y, BiCubic.make d x y = .ok (p.d 0) → x.getLast? = some (Real.logb 10 (c * GeV)) := by
  obtain ⟨s, hs, -⟩ := read_totalRows (a := 1) (b := 10) (c := l) (by norm_num) (by norm_num) hl
  obtain ⟨g, hg, hg'⟩ := read_diffRows (a := 1) (b := 10) (c := c) (l := l) (by norm_num) (by norm_num) hc
  refine ⟨⟨fin4 s0 s s s, fin4 g g g g⟩, ?_, rfl, hg'⟩
  unfold readFlavorText
  have hrange : (if unset range = true then ((s0, lo, hi).2.1, (s0, lo, hi).2.2) else range.getD (0, 0)) = (1 * GeV, l * GeV) := by
    by_cases hu : unset range = true
    · rw [if_pos hu] at hr ⊢
      exact hr
    · rw [if_neg hu] at hr ⊢
      rw [hr]
      rfl
  have e0 : (file ((someFiles first c l).s 0)).bind read1D = .ok (s0, lo, hi) := h
  have e1 : ∀ k, k ≠ 0 → (file ((someFiles first c l).s k)).bind read1D = .ok (s, 1 * GeV, l * GeV) := by
    intro k hk
    simp only [someFiles, file, if_neg hk, Outcome.bind_ok, hs]
  have e2 : ∀ k, (file ((someFiles first c l).d k)).bind read2D = .ok (g, 1 * GeV, l * GeV) := fun _ => hg
  rw [e0, Outcome.bind_ok]
  dsimp only
  dsimp only at hrange
  rw [hrange, e1 1 (by decide), e1 2 (by decide), e1 3 (by decide), e2, e2, e2, e2]
  simp [checked]

/-- Files of one kind for all flavours, with tables from 1 to 1000 GeV and grouped rows. -/
noncomputable def goodFiles : TextFiles := ⟨someFiles (totalRows 1 10 1000) 1000 1000, fun _ => TextSet.empty⟩

theorem grouped_rows : Grouped (diffRows 1 10 1000 1000) := by
  refine ⟨3, by decide, by simp [diffRows], ?_, by simp [diffRows]⟩
  intro i hi
  have hi : i < 9 := hi
  match i, hi with
  | 0, _ => rfl
  | 1, _ => rfl
  | 2, _ => rfl
  | 3, _ => rfl
  | 4, _ => rfl
  | 5, _ => rfl
  | 6, _ => rfl
  | 7, _ => rfl
  | 8, _ => rfl

theorem read_goodFiles : ∃ t, fromText goodFiles = .ok t ∧ t.Emin = 1 * GeV ∧ t.Emax = 1000 * GeV := by
  obtain ⟨s, hs, -⟩ := read_totalRows (a := 1) (b := 10) (c := 1000) (by norm_num) (by norm_num) (by norm_num)
  obtain ⟨p, he, -, -⟩ := read_someFiles hs (c := 1000) (l := 1000) (by norm_num) (by norm_num) none (by simp [unset])
  refine ⟨⟨1 * GeV, 1000 * GeV, three p p p⟩, ?_, rfl, rfl⟩
  unfold fromText goodFiles
  rw [if_pos (someFiles_complete _ _ _), he, Outcome.bind_ok]

theorem good_domain {t : Tables} (h1 : t.Emin = 1 * GeV) (h2 : t.Emax = 1000 * GeV) : SameDomain t (some (totalRows 1 10 1000)) := by
  intro rows r h
  cases h
  rw [h1, h2]
  simp only [totalRows, List.head?_cons, List.getLast?_cons_cons, List.getLast?_singleton, Option.some.injEq]
  constructor
  · rintro rfl; rfl
  · rintro rfl; rfl

/-! ## Text files -/

/-- C85: whatever the text files hold, an object made from them has a positive range and tables for the three active flavours, so that it
answers (`c85_answers`). -/
theorem c85_text_usable (x : TextFiles) (t : Tables) (h : fromText x = .ok t) : Usable t ∧ t.Emin < t.Emax := by
  have hf := fromText_ok h
  obtain ⟨p, -, hr, -⟩ := hf 0
  obtain ⟨h1, h2, -⟩ := hr.made
  refine ⟨⟨h1, h2.le, ?_⟩, h2⟩
  intro f hlt
  obtain ⟨p, hp, hr, -⟩ := hf ⟨f, hlt⟩
  exact ⟨p, hp, hr.made.2.2⟩

example : ∃ t, fromText goodFiles = .ok t ∧ Usable t := by
  obtain ⟨t, h, -⟩ := read_goodFiles
  exact ⟨t, h, (c85_text_usable _ t h).1⟩

/-- C85, text files, partial: the object covers its range if the rows of the differential tables are grouped by energy and the first tables of
muon and tau have the range of the electron's. Missing: neither is checked (`c85_text_groups_violated`, `c85_text_first_file_violated`). -/
theorem c85_text_covers_partial (x : TextFiles) (t : Tables) (h : fromText x = .ok t) (hg : ∀ f k, GroupedFile ((x.source f).d k))
    (hd : ∀ f, SameDomain t ((x.source f).s 0)) : Covers t := by
  obtain ⟨hu, hlt⟩ := c85_text_usable x t h
  refine ⟨hu.pos, hlt, ?_⟩
  intro f hf
  obtain ⟨p, hp, hr, -⟩ := fromText_ok h ⟨f, hf⟩
  refine ⟨p, hp, hr.over (hg _) ?_⟩
  obtain ⟨rows, lo', hi', e1, e2⟩ := hr.first
  obtain ⟨⟨r1, a1, b1⟩, ⟨r2, a2, b2⟩⟩ := read1D_domain e2
  have c1 := (hd ⟨f, hf⟩ rows r1 e1).1 a1
  have c2 := (hd ⟨f, hf⟩ rows r2 e1).2 a2
  refine ⟨rows, e1, ?_⟩
  rw [e2, ← b1, ← b2, c1, c2]

example : ∃ t, fromText goodFiles = .ok t ∧ Covers t := by
  obtain ⟨t, h, h1, h2⟩ := read_goodFiles
  have hs : ∀ f, goodFiles.source f = someFiles (totalRows 1 10 1000) 1000 1000 := fun f => if_pos (someFiles_complete _ _ _)
  refine ⟨t, h, c85_text_covers_partial goodFiles t h ?_ ?_⟩
  · intro f k rows hr
    rw [hs] at hr
    cases hr
    exact grouped_rows
  · intro f
    rw [hs]
    exact good_domain h1 h2

/-! ## HDF5 files -/

theorem readTotal_ok {en a : List ℝ} {s : Spline ℝ} (h : readTotal en a = .ok s) : ofVectors en a = .ok s := by
  unfold readTotal at h
  by_cases hl : a.length ≠ en.length
  · rw [if_pos hl] at h; cases h
  · rw [if_neg hl] at h
    unfold ofVectors
    rw [if_pos (not_not.1 hl).symm]
    exact h

theorem readDifferential_ok {en zs : List ℝ} {g : Grid2 ℝ} {b : BiCubic ℝ} (h : readDifferential en zs g = .ok b) :
    BiCubic.make g en zs = .ok b := by
  unfold readDifferential at h
  by_cases h1 : g.n0 ≠ en.length
  · rw [if_pos h1] at h; cases h
  · rw [if_neg h1] at h
    by_cases h2 : g.n1 ≠ zs.length
    · rw [if_pos h2] at h; cases h
    · rwa [if_neg h2] at h

theorem readFlavorHDF5_ok {en zs : List ℝ} {x : H5Flavor} {p : PerFlavor} (h : readFlavorHDF5 en zs x = .ok p) {lo hi : ℝ}
    (h1 : en.head? = some lo) (h2 : en.getLast? = some hi) : Over lo hi p ∧ lo < hi := by
  unfold readFlavorHDF5 at h
  obtain ⟨s0, a0, h⟩ := bind_ok_iff h
  obtain ⟨s1, a1, h⟩ := bind_ok_iff h
  obtain ⟨s2, a2, h⟩ := bind_ok_iff h
  obtain ⟨s3, a3, h⟩ := bind_ok_iff h
  obtain ⟨d0, b0, h⟩ := bind_ok_iff h
  obtain ⟨d1, b1, h⟩ := bind_ok_iff h
  obtain ⟨d2, b2, h⟩ := bind_ok_iff h
  obtain ⟨d3, b3, h⟩ := bind_ok_iff h
  cases h
  refine ⟨⟨?_, ?_⟩, ?_⟩
  · exact fin4_get (P := fun _ a => ∃ x y, ofVectors x y = .ok a ∧ x.head? = some lo ∧ x.getLast? = some hi)
      ⟨_, _, readTotal_ok a0, h1, h2⟩ ⟨_, _, readTotal_ok a1, h1, h2⟩ ⟨_, _, readTotal_ok a2, h1, h2⟩ ⟨_, _, readTotal_ok a3, h1, h2⟩
  · exact fin4_get (P := fun _ a => ∃ g xs ys, BiCubic.make g xs ys = .ok a ∧ xs.head? = some lo ∧ xs.getLast? = some hi)
      ⟨_, _, _, readDifferential_ok b0, h1, h2⟩ ⟨_, _, _, readDifferential_ok b1, h1, h2⟩ ⟨_, _, _, readDifferential_ok b2, h1, h2⟩
      ⟨_, _, _, readDifferential_ok b3, h1, h2⟩
  · obtain ⟨-, hn, hi, -, -⟩ := ofVectors_ok (readTotal_ok a0)
    have := hi.lt (i := 0) (j := en.length - 1) (by omega) (by omega)
    rw [List.head?_eq_getElem?] at h1
    rw [List.getLast?_eq_getElem?] at h2
    rwa [getD_of_get h1, getD_of_get h2] at this

/-- C85: an object made from an HDF5 file covers its range, whatever is in the file. -/
theorem c85_hdf_covers (x : H5File) (t : Tables) (h : fromHDF x = .ok t) : Covers t := by
  unfold fromHDF at h
  obtain ⟨lo, h1, h⟩ := bind_ok_iff h
  obtain ⟨hi, h2, h⟩ := bind_ok_iff h
  have h1 : x.energies.head? = some lo := by
    cases e : x.energies.head? with
    | none => rw [e] at h1; cases h1
    | some a => rw [e] at h1; cases h1; rfl
  have h2 : x.energies.getLast? = some hi := by
    cases e : x.energies.getLast? with
    | none => rw [e] at h2; cases h2
    | some a => rw [e] at h2; cases h2; rfl
  have key : ∀ pe pm pt, (∃ a, readFlavorHDF5 x.energies x.zs a = .ok pe) → (∃ a, readFlavorHDF5 x.energies x.zs a = .ok pm) →
      (∃ a, readFlavorHDF5 x.energies x.zs a = .ok pt) → Covers ⟨pow10 lo, pow10 hi, three pe pm pt⟩ := by
    rintro pe pm pt ⟨a, ha⟩ ⟨b, hb⟩ ⟨c, hc⟩
    obtain ⟨o1, hlt⟩ := readFlavorHDF5_ok ha h1 h2
    have o2 := (readFlavorHDF5_ok hb h1 h2).1
    have o3 := (readFlavorHDF5_ok hc h1 h2).1
    refine ⟨pow10_pos _, pow10_lt hlt, ?_⟩
    intro f hf
    dsimp only
    rw [log_pow10, log_pow10]
    match f, hf with
    | 0, _ => exact ⟨_, rfl, o1⟩
    | 1, _ => exact ⟨_, rfl, o2⟩
    | 2, _ => exact ⟨_, rfl, o3⟩
  cases hc : x.common with
  | some c =>
    rw [hc] at h
    obtain ⟨p, h3, h⟩ := bind_ok_iff h
    cases h
    exact key p p p ⟨_, h3⟩ ⟨_, h3⟩ ⟨_, h3⟩
  | none =>
    rw [hc] at h
    dsimp only at h
    cases e0 : x.link 0 with
    | none => rw [e0] at h; cases h
    | some e =>
      cases e1 : x.link 1 with
      | none => rw [e0, e1] at h; cases h
      | some m =>
        cases e2 : x.link 2 with
        | none => rw [e0, e1, e2] at h; cases h
        | some ta =>
          rw [e0, e1, e2] at h
          dsimp only at h
          obtain ⟨pe, h3, h⟩ := bind_ok_iff h
          obtain ⟨pm, h4, h⟩ := bind_ok_iff h
          obtain ⟨pt, h5, h⟩ := bind_ok_iff h
          cases h
          have hm : ∃ a, readFlavorHDF5 x.energies x.zs a = .ok pm := by
            by_cases c1 : m = e
            · rw [if_pos c1] at h4; cases h4; exact ⟨_, h3⟩
            · rw [if_neg c1] at h4; exact ⟨_, h4⟩
          refine key pe pm pt ⟨_, h3⟩ hm ?_
          by_cases c2 : ta = e
          · rw [if_pos c2] at h5; cases h5; exact ⟨_, h3⟩
          · rw [if_neg c2] at h5
            by_cases c3 : ta = m
            · rw [if_pos c3] at h5; cases h5; exact hm
            · rw [if_neg c3] at h5; exact ⟨_, h5⟩

example : ∃ x t, fromHDF x = .ok t ∧ Covers t ∧ t.Emax = pow10 13 := by
  obtain ⟨p, hg, hsq, -⟩ := some_flavour zsEven rfl zsEven_inc (-38) (-38) 0 1
  obtain ⟨pe, h, -⟩ := stored_exact zsEven p hg hsq p
  exact ⟨_, _, h, c85_hdf_covers _ _ h, rfl⟩

theorem Covers.usable {t : Tables} (h : Covers t) : Usable t := by
  refine ⟨h.pos, h.lt.le, ?_⟩
  intro f hf
  obtain ⟨p, hp, ho⟩ := h.over f hf
  refine ⟨p, hp, ?_, ?_⟩
  · intro k
    obtain ⟨x, y, hs, -⟩ := ho.s k
    exact ⟨x, y, hs⟩
  · intro k
    obtain ⟨g, xs, ys, hd, -⟩ := ho.d k
    exact ⟨g, xs, ys, hd⟩

/-- C85: an object made from files answers every question about an active flavour up to the end of its range, with positive numbers. -/
theorem c85_answers (t : Tables) (h : (∃ x, fromText x = .ok t) ∨ ∃ x, fromHDF x = .ok t) (f : Nat) (hf : f < 3) (nt : NType) (c : Cur) (E : ℝ)
    (hE : E ≤ t.Emax) : (0 < E → ∃ v, total t f nt c E = .ok v ∧ 0 < v) ∧ ∀ E2, ∃ v, single t f nt c E E2 = .ok v ∧ 0 < v := by
  have hu : Usable t := by
    rcases h with ⟨x, h⟩ | ⟨x, h⟩
    · exact (c85_text_usable x t h).1
    · exact (c85_hdf_covers x t h).usable
  refine ⟨?_, fun E2 => c65_single_positive t hu f hf nt c E E2 hE⟩
  intro h0
  obtain ⟨v, hv, -, h1, -⟩ := c65_total_positive t hu f hf nt c E hE
  exact ⟨v, hv, h1 h0⟩

example : ∃ t v, fromText goodFiles = .ok t ∧ total t 1 .antineutrino .NC (500 * GeV) = .ok v ∧ 0 < v := by
  obtain ⟨t, h, -, h2⟩ := read_goodFiles
  obtain ⟨v, h3, h4⟩ := (c85_answers t (Or.inl ⟨_, h⟩) 1 (by decide) .antineutrino .NC (500 * GeV)
    (by rw [h2]; exact mul_le_mul_of_nonneg_right (by norm_num) GeV_pos.le)).1 (mul_pos (by norm_num) GeV_pos)
  exact ⟨t, v, h, h3, h4⟩

/-- C85: which files are read. If all eight files without a flavour in the name are there, only they are; otherwise only those of the flavours, all
of which must be there. -/
theorem c85_text_files (x : TextFiles) :
    ((∀ k, x.common.s k ≠ none ∧ x.common.d k ≠ none) → ∀ g, fromText x = fromText ⟨x.common, g⟩) ∧
    ((∃ k, x.common.s k = none ∨ x.common.d k = none) → fromText x = fromText ⟨TextSet.empty, x.flavour⟩ ∧
      ((∃ f k, (x.flavour f).s k = none ∨ (x.flavour f).d k = none) → fromText x = .throws)) := by
  have hall : ∀ y : TextSet, y.complete = true ↔ ∀ k, y.s k ≠ none ∧ y.d k ≠ none := by
    intro y
    simp [TextSet.complete, List.all_eq_true, Option.isSome_iff_ne_none]
  refine ⟨?_, ?_⟩
  · intro h g
    unfold fromText
    rw [if_pos ((hall _).2 h), if_pos ((hall _).2 h)]
  · rintro ⟨k, hk⟩
    have hn : ¬ x.common.complete = true := fun hc => by
      have := (hall _).1 hc k
      rcases hk with hk | hk
      · exact this.1 hk
      · exact this.2 hk
    have he : ¬ TextSet.empty.complete = true := fun hc => ((hall _).1 hc 0).1 rfl
    refine ⟨?_, ?_⟩
    · unfold fromText
      rw [if_neg hn, if_neg he]
    · rintro ⟨f, j, hj⟩
      unfold fromText
      rw [if_neg hn, if_neg]
      intro hc
      simp only [Bool.and_eq_true] at hc
      have hf : (x.flavour f).complete = true := by
        match f with
        | 0 => exact hc.1.1
        | 1 => exact hc.1.2
        | 2 => exact hc.2
      have := (hall _).1 hf j
      rcases hj with hj | hj
      · exact this.1 hj
      · exact this.2 hj

example : goodFiles.common.complete = true := someFiles_complete _ _ _

/-! ## What is not checked -/

/-- C85 fails for text files: the range of the first table of muon and tau is not compared with anything. Here the charged current table of the
muon neutrino ends at 30 GeV, all others, and the range of the object, at 1000 GeV; the rows of all differential tables are grouped by energy. -/
theorem c85_text_first_file_violated : ∃ (x : TextFiles) (t : Tables), fromText x = .ok t ∧ t.Emin = 1 * GeV ∧ t.Emax = 1000 * GeV ∧
    (∀ f k, GroupedFile ((x.source f).d k)) ∧ (∃ p, t.data 1 = some p ∧ ∀ x y, ofVectors x y = .ok (p.s 0) → x.getLast? = some (Real.logb 10 (30 * GeV))) ∧
    ¬ Covers t := by
  obtain ⟨s, hs, -⟩ := read_totalRows (a := 1) (b := 10) (c := 1000) (by norm_num) (by norm_num) (by norm_num)
  obtain ⟨s', hs', hend⟩ := read_totalRows (a := 10) (b := 20) (c := 30) (by norm_num) (by norm_num) (by norm_num)
  have hset : unset (some (1 * GeV, 1000 * GeV)) = false := by simp [unset, GeV_pos]
  obtain ⟨pe, he, -⟩ := read_someFiles hs (c := 1000) (l := 1000) (by norm_num) (by norm_num) none (by simp [unset])
  obtain ⟨pm, hm, h0, -⟩ := read_someFiles hs' (c := 1000) (l := 1000) (by norm_num) (by norm_num) (some (1 * GeV, 1000 * GeV)) (by rw [hset]; rfl)
  obtain ⟨pt, ht, -⟩ := read_someFiles hs (c := 1000) (l := 1000) (by norm_num) (by norm_num) (some (1 * GeV, 1000 * GeV)) (by rw [hset]; rfl)
  refine ⟨⟨TextSet.empty, fin3 (someFiles (totalRows 1 10 1000) 1000 1000) (someFiles (totalRows 10 20 30) 1000 1000)
    (someFiles (totalRows 1 10 1000) 1000 1000)⟩, ⟨1 * GeV, 1000 * GeV, three pe pm pt⟩, ?_, rfl, rfl, ?_, ?_, ?_⟩
  · unfold fromText
    rw [if_neg (by simp [TextSet.complete, TextSet.empty, List.finRange])]
    rw [if_pos (by simp [fin3, someFiles_complete])]
    simp only [fin3]
    rw [he, Outcome.bind_ok]
    dsimp only
    rw [hm, Outcome.bind_ok]
    dsimp only
    rw [ht, Outcome.bind_ok]
  · intro f k rows h
    have hrows : rows = diffRows 1 10 1000 1000 := by
      unfold TextFiles.source at h
      rw [if_neg (by simp [TextSet.complete, TextSet.empty, List.finRange])] at h
      match f, h with
      | 0, h => exact (Option.some.inj h).symm
      | 1, h => exact (Option.some.inj h).symm
      | 2, h => exact (Option.some.inj h).symm
    subst hrows
    exact grouped_rows
  · exact ⟨pm, rfl, by rw [h0]; exact hend⟩
  · intro hc
    obtain ⟨p, hp, ho⟩ := hc.over 1 (by decide)
    cases (Option.some.inj hp : pm = p)
    obtain ⟨x, y, hv, -, hl⟩ := ho.s 0
    rw [h0] at hv
    rw [hend x y hv] at hl
    have := Option.some.inj hl
    have h3 := (logb_lt (mul_pos (by norm_num : (0 : ℝ) < 30) GeV_pos) (mul_pos (by norm_num : (0 : ℝ) < 1000) GeV_pos)).2
      (mul_lt_mul_of_pos_right (by norm_num : (30 : ℝ) < 1000) GeV_pos)
    exact absurd this h3.ne

/-- C85 fails for text files: only the first group of rows of a differential table is looked at. Here the last row alone carries the energy the
range ends with, 1000 GeV, and the table that is made of the rows ends at 100 GeV; every table of totals has the range of the object. -/
theorem c85_text_groups_violated : ∃ (x : TextFiles) (t : Tables), fromText x = .ok t ∧ t.Emin = 1 * GeV ∧ t.Emax = 1000 * GeV ∧
    (∀ f k, SameDomain t ((x.source f).s k)) ∧
    (∃ p, t.data 0 = some p ∧ ∀ d x y, BiCubic.make d x y = .ok (p.d 0) → x.getLast? = some (Real.logb 10 (100 * GeV))) ∧ ¬ Covers t := by
  obtain ⟨s, hs, -⟩ := read_totalRows (a := 1) (b := 10) (c := 1000) (by norm_num) (by norm_num) (by norm_num)
  obtain ⟨p, he, -, hend⟩ := read_someFiles hs (c := 100) (l := 1000) (by norm_num) (by norm_num) none (by simp [unset])
  refine ⟨⟨someFiles (totalRows 1 10 1000) 100 1000, fun _ => TextSet.empty⟩, ⟨1 * GeV, 1000 * GeV, three p p p⟩, ?_, rfl, rfl, ?_, ⟨p, rfl, hend⟩, ?_⟩
  · unfold fromText
    rw [if_pos (someFiles_complete _ _ _), he, Outcome.bind_ok]
  · intro f k rows r h
    have hrows : rows = totalRows 1 10 1000 := by
      unfold TextFiles.source at h
      rw [if_pos (someFiles_complete _ _ _)] at h
      simp only [someFiles, ite_self] at h
      exact (Option.some.inj h).symm
    exact good_domain rfl rfl rows r (by rw [hrows])
  · intro hc
    obtain ⟨q, hq, ho⟩ := hc.over 0 (by decide)
    cases (Option.some.inj hq : p = q)
    obtain ⟨d, x, y, hv, -, hl⟩ := ho.d 0
    rw [hend d x y hv] at hl
    have := Option.some.inj hl
    have h3 := (logb_lt (mul_pos (by norm_num : (0 : ℝ) < 100) GeV_pos) (mul_pos (by norm_num : (0 : ℝ) < 1000) GeV_pos)).2
      (mul_lt_mul_of_pos_right (by norm_num : (100 : ℝ) < 1000) GeV_pos)
    exact absurd this h3.ne

end Verif.XS
