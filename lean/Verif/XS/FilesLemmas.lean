import Verif.XS.Files
import Verif.XS.TablesProps
import Mathlib.Tactic.Ring

/-! Lemmas about reading and writing cross-section files. -/

namespace Verif.XS

open Verif.Interp

/-! ## Interpolators that differ outside their table only -/

theorem tabulate_congr {β : Type} {d : β} : ∀ {m : Nat} {f g : Nat → Outcome β}, (∀ i, i < m → f i = g i) →
    tabulate d m f = tabulate d m g := by
  intro m
  induction m with
  | zero => intro f g _; rfl
  | succ m ih =>
    intro f g h
    simp only [tabulate]
    rw [ih fun i hi => h i (by omega), h m (by omega)]

theorem sliceDerivs_congr {x x' v v' : Nat → ℝ} {n : Nat} (hx : ∀ j, j < n → x j = x' j) (h : ∀ j, j < n → v j = v' j) :
    sliceDerivs x v n = sliceDerivs x' v' n := by
  unfold sliceDerivs
  rw [akimaInit_congr hx h]

/-- The same interpolator over other data. -/
def withData (b : BiCubic ℝ) (g : Grid2 ℝ) : BiCubic ℝ := ⟨g, b.xs, b.ys, b.dzdx, b.dzdy, b.dzdxdy⟩

theorem make_congr {g g' : Grid2 ℝ} {xs ys : List ℝ} {b : BiCubic ℝ} (h : BiCubic.make g xs ys = .ok b) (h0 : g'.n0 = g.n0)
    (h1 : g'.n1 = g.n1) (hv : ∀ i j, i < g.n0 → j < g.n1 → g'.at_ i j = g.at_ i j) :
    BiCubic.make g' xs ys = .ok (withData b g') ∧ b.data = g ∧ b.xs = xs ∧ b.ys = ys := by
  unfold BiCubic.make at h ⊢
  rw [h0, h1]
  by_cases c1 : xs.length ≠ g.n1
  · rw [if_pos c1] at h; cases h
  · rw [if_neg c1] at h ⊢
    by_cases c2 : ys.length ≠ g.n0
    · rw [if_pos c2] at h; cases h
    · rw [if_neg c2] at h ⊢
      have e1 : (tabulate (fun _ => (0 : ℝ)) g.n1 fun i => sliceDerivs (ys.getD · 0) (fun j => g'.at_ j i) g.n0) =
          tabulate (fun _ => (0 : ℝ)) g.n1 fun i => sliceDerivs (ys.getD · 0) (fun j => g.at_ j i) g.n0 :=
        tabulate_congr fun i hi => sliceDerivs_congr (fun _ _ => rfl) fun j hj => hv j i hj hi
      have e2 : (tabulate (fun _ => (0 : ℝ)) g.n0 fun j => sliceDerivs (xs.getD · 0) (fun i => g'.at_ j i) g.n1) =
          tabulate (fun _ => (0 : ℝ)) g.n0 fun j => sliceDerivs (xs.getD · 0) (fun i => g.at_ j i) g.n1 :=
        tabulate_congr fun j hj => sliceDerivs_congr (fun _ _ => rfl) fun i hi => hv j i hj hi
      rw [e1, e2]
      cases t1 : (tabulate (fun _ => (0 : ℝ)) g.n1 fun i => sliceDerivs (ys.getD · 0) (fun j => g.at_ j i) g.n0) with
      | throws => rw [t1] at h; cases h
      | ub => rw [t1] at h; cases h
      | ok cy =>
        rw [t1, Outcome.bind_ok] at h
        rw [Outcome.bind_ok]
        cases t2 : (tabulate (fun _ => (0 : ℝ)) g.n0 fun j => sliceDerivs (xs.getD · 0) (fun i => g.at_ j i) g.n1) with
        | throws => rw [t2] at h; cases h
        | ub => rw [t2] at h; cases h
        | ok cx =>
          rw [t2, Outcome.bind_ok] at h
          rw [Outcome.bind_ok]
          cases t3 : (tabulate (fun _ => (0 : ℝ)) g.n0 fun j => sliceDerivs (xs.getD · 0) (fun i => cy i j) g.n1) with
          | throws => rw [t3] at h; cases h
          | ub => rw [t3] at h; cases h
          | ok cxy =>
            rw [t3, Outcome.bind_ok] at h
            cases h
            exact ⟨rfl, rfl, rfl, rfl⟩

theorem eval_withData {g g' : Grid2 ℝ} {xs ys : List ℝ} {b : BiCubic ℝ} (h : BiCubic.make g xs ys = .ok b) (h0 : g'.n0 = g.n0)
    (h1 : g'.n1 = g.n1) (hv : ∀ i j, i < g.n0 → j < g.n1 → g'.at_ i j = g.at_ i j) (x y : ℝ) :
    (withData b g').eval x y = b.eval x y := by
  obtain ⟨-, hd, -, -⟩ := make_congr h h0 h1 hv
  unfold BiCubic.eval
  simp only [withData, hd, h0, h1]
  split
  · rfl
  · split
    · rename_i i j _ _
      split
      · rename_i hij
        congr 1
        unfold BiCubic.inCell
        dsimp only
        congr 1
        unfold BiCubic.corners
        dsimp only
        congr 1
        funext n
        rw [hd]
        match n with
        | 0 => exact hv _ _ (by omega) (by omega)
        | 1 => exact hv _ _ (by omega) (by omega)
        | 2 => exact hv _ _ (by omega) (by omega)
        | n + 3 => exact hv _ _ (by omega) (by omega)
      · rfl
    · rfl

/-! ## Two-dimensional lists -/

theorem flat_length {α : Type} (f : Nat → Nat → α) (a b : Nat) : ((List.range a).flatMap fun i => (List.range b).map (f i)).length = a * b := by
  induction a with
  | zero => simp
  | succ a ih => simp [List.range_succ, ih, Nat.succ_mul]

theorem flat_get {α : Type} (f : Nat → Nat → α) (b : Nat) : ∀ (a i j : Nat), i < a → j < b →
    ((List.range a).flatMap fun i => (List.range b).map (f i))[i * b + j]? = some (f i j) := by
  intro a
  induction a with
  | zero => intro i j h _; omega
  | succ a ih =>
    intro i j hi hj
    rw [List.range_succ, List.flatMap_append]
    by_cases hia : i < a
    · rw [List.getElem?_append_left]
      · exact ih i j hia hj
      · rw [flat_length]
        calc i * b + j < i * b + b := by omega
          _ = (i + 1) * b := by rw [Nat.succ_mul]
          _ ≤ a * b := Nat.mul_le_mul_right b hia
    · have : i = a := by omega
      subst this
      rw [List.getElem?_append_right (by rw [flat_length]; omega), flat_length]
      simp only [Nat.add_sub_cancel_left, List.flatMap_cons, List.flatMap_nil, List.append_nil]
      simp [hj]

theorem takeWhile_length {α : Type} (p : α → Bool) : ∀ (l : List α) (n : Nat), (∀ i, i < n → ∃ a, l[i]? = some a ∧ p a = true) →
    (∃ a, l[n]? = some a ∧ p a = false) → (l.takeWhile p).length = n := by
  intro l
  induction l with
  | nil => intro n _ ⟨a, h, _⟩; simp at h
  | cons x xs ih =>
    intro n h1 h2
    cases n with
    | zero =>
      obtain ⟨a, h, hp⟩ := h2
      simp only [List.getElem?_cons_zero, Option.some.injEq] at h
      subst h
      simp [hp]
    | succ n =>
      obtain ⟨a, ha, hp⟩ := h1 0 (by omega)
      simp only [List.getElem?_cons_zero, Option.some.injEq] at ha
      subst ha
      rw [List.takeWhile_cons_of_pos hp, List.length_cons, ih n ?_ ?_]
      · intro i hi
        obtain ⟨a, ha, hp⟩ := h1 (i + 1) (by omega)
        exact ⟨a, by simpa using ha, hp⟩
      · obtain ⟨a, ha, hp⟩ := h2
        exact ⟨a, by simpa using ha, hp⟩

theorem getD_of_get {α : Type} {l : List α} {i : Nat} {a d : α} (h : l[i]? = some a) : l.getD i d = a := by
  rw [List.getD_eq_getElem?_getD, h]
  rfl

/-! ## Logarithms -/

theorem log_pow10 (x : ℝ) : Real.logb 10 (pow10 x) = x := by
  unfold pow10
  exact Real.logb_rpow (by norm_num) (by norm_num)

theorem pow10_log {x : ℝ} (h : 0 < x) : pow10 (Real.logb 10 x) = x := by
  unfold pow10
  exact Real.rpow_logb (by norm_num) (by norm_num) h

theorem pow10_inj {x y : ℝ} (h : pow10 x = pow10 y) : x = y := by
  rw [← log_pow10 x, h, log_pow10]

theorem logs_spec (u : ℝ) : ∀ l : List ℝ, (∀ x ∈ l, 0 < x * u) → logs u l = .ok (l.map fun x => Real.logb 10 (x * u)) := by
  intro l
  induction l with
  | nil => intro _; rfl
  | cons x xs ih =>
    intro h
    simp only [logs, log10]
    rw [if_pos (h x (List.mem_cons_self ..)), Outcome.bind_ok, ih fun y hy => h y (List.mem_cons_of_mem _ hy)]
    rfl

theorem pow10_GeV (x : ℝ) : pow10 x / GeV * GeV = pow10 x := div_mul_cancel₀ _ GeV_pos.ne'

theorem logOrTiny_pow10 (x : ℝ) : logOrTiny (pow10 x) = x := by
  unfold logOrTiny
  rw [if_pos (pow10_pos x), log_pow10]

/-! ## Totals -/

theorem read1D_write1D {x y : List ℝ} {s : Spline ℝ} (h : ofVectors x y = .ok s) {lo hi : ℝ} (hlo : x.head? = some lo)
    (hhi : x.getLast? = some hi) : read1D (write1D id s) = .ok (s, pow10 lo, pow10 hi) := by
  obtain ⟨ha, ho⟩ := c21_accessors x y s h
  obtain ⟨hl, hn⟩ : x.length = y.length ∧ 3 ≤ x.length := by
    have hr := (c24_rejects_exactly x y).1
    rw [h] at hr
    have hr := mt hr.2 (by simp)
    simp only [not_or, not_not] at hr
    exact ⟨hr.1, by omega⟩
  unfold read1D write1D
  rw [ha, ho]
  rw [if_neg]
  · have e0 : ((x.zip y).map fun p => [id (pow10 p.1 / GeV), id (pow10 p.2)]).map (·.getD 0 0) = x.map fun a => pow10 a / GeV := by
      rw [List.map_map]
      have : x = (x.zip y).map Prod.fst := (List.map_fst_zip (by omega)).symm
      conv_rhs => rw [this]
      rw [List.map_map]
      rfl
    have e1 : ((x.zip y).map fun p => [id (pow10 p.1 / GeV), id (pow10 p.2)]).map (·.getD 1 0) = y.map fun a => pow10 a := by
      rw [List.map_map]
      have : y = (x.zip y).map Prod.snd := (List.map_snd_zip (by omega)).symm
      conv_rhs => rw [this]
      rw [List.map_map]
      rfl
    rw [e0, e1, logs_spec, Outcome.bind_ok, logs_spec, Outcome.bind_ok]
    · have e2 : ((x.map fun a => pow10 a / GeV).map fun a => Real.logb 10 (a * GeV)) = x := by
        rw [List.map_map]
        conv_rhs => rw [← List.map_id x]
        apply List.map_congr_left
        intro a _
        simp only [Function.comp, pow10_GeV, log_pow10, id]
      have e3 : ((y.map fun a => pow10 a).map fun a => Real.logb 10 (a * 1)) = y := by
        rw [List.map_map]
        conv_rhs => rw [← List.map_id y]
        apply List.map_congr_left
        intro a _
        simp only [Function.comp, mul_one, log_pow10, id]
      rw [e2, e3, h, Outcome.bind_ok]
      rw [List.headD_eq_head?_getD, List.getLastD_eq_getLast?, List.head?_map, List.getLast?_map, hlo, hhi]
      simp only [Option.map_some, Option.getD_some, pow10_GeV]
    · intro a ha
      obtain ⟨b, -, rfl⟩ := List.mem_map.1 ha
      rw [mul_one]
      exact pow10_pos b
    · intro a ha
      obtain ⟨b, -, rfl⟩ := List.mem_map.1 ha
      rw [pow10_GeV]
      exact pow10_pos b
  · rintro (hc | ⟨r, hr, hc⟩)
    · have := congrArg List.length hc
      simp only [List.length_map, List.length_zip, List.length_nil] at this
      omega
    · obtain ⟨p, -, rfl⟩ := List.mem_map.1 hr
      exact hc rfl

/-! ## Differentials -/

theorem writeRow_spec (fmt : ℝ → ℝ) (g : Grid2 ℝ) (en : ℝ) (i : Nat) (val : Nat → ℝ) : ∀ l : List (ℝ × Nat),
    (∀ p ∈ l, cellAt g i p.2 = .ok (val p.2)) →
    writeRow fmt g en i l = .ok (l.map fun p => [fmt en, fmt p.1, fmt (pow10 (val p.2))]) := by
  intro l
  induction l with
  | nil => intro _; rfl
  | cons p ps ih =>
    intro h
    obtain ⟨y, j⟩ := p
    have := h (y, j) (List.mem_cons_self ..)
    dsimp only at this
    simp only [writeRow]
    rw [this, Outcome.bind_ok, ih fun q hq => h q (List.mem_cons_of_mem _ hq)]
    rfl

theorem writeRows_spec (fmt : ℝ → ℝ) (g : Grid2 ℝ) (ys : List ℝ) (val : Nat → Nat → ℝ) : ∀ l : List (ℝ × Nat),
    (∀ p ∈ l, ∀ j, j < ys.length → cellAt g p.2 j = .ok (val p.2 j)) →
    writeRows fmt g ys l = .ok (l.flatMap fun p => ys.zipIdx.map fun q => [fmt (pow10 p.1 / GeV), fmt q.1, fmt (pow10 (val p.2 q.2))]) := by
  intro l
  induction l with
  | nil => intro _; rfl
  | cons p ps ih =>
    intro h
    obtain ⟨x, i⟩ := p
    simp only [writeRows]
    rw [writeRow_spec fmt g _ i (val i) ys.zipIdx, Outcome.bind_ok, ih fun q hq => h q (List.mem_cons_of_mem _ hq)]
    · rfl
    · intro q hq
      obtain ⟨-, hq, -⟩ := List.mem_zipIdx hq
      exact h (x, i) (List.mem_cons_self ..) q.2 (by omega)

theorem zipIdx_eq (l : List ℝ) : l.zipIdx = (List.range l.length).map fun i => (l.getD i 0, i) := by
  apply List.ext_getElem?
  intro i
  rw [List.getElem?_zipIdx, List.getElem?_map]
  by_cases h : i < l.length
  · rw [List.getElem?_range h, List.getElem?_eq_getElem h]
    simp [List.getD_eq_getElem?_getD, h]
  · rw [List.getElem?_eq_none (by omega), List.getElem?_eq_none (by simpa using h)]
    rfl

/-- The rows written for a table. -/
theorem write2D_spec (fmt : ℝ → ℝ) (b : BiCubic ℝ) (val : Nat → Nat → ℝ)
    (h : ∀ i j, i < b.xs.length → j < b.ys.length → cellAt b.data i j = .ok (val i j)) :
    write2D fmt b = .ok ((List.range b.xs.length).flatMap fun i => (List.range b.ys.length).map fun j =>
      [fmt (pow10 (b.xs.getD i 0) / GeV), fmt (b.ys.getD j 0), fmt (pow10 (val i j))]) := by
  unfold write2D
  rw [writeRows_spec fmt b.data b.ys val]
  · rw [zipIdx_eq b.xs, zipIdx_eq b.ys, List.flatMap_map]
    simp only [List.map_map]
    rfl
  · intro p hp j hj
    obtain ⟨-, hp, -⟩ := List.mem_zipIdx hp
    exact h p.2 j (by omega) hj

theorem cellAt_inside (g : Grid2 ℝ) (i j : Nat) (hi : i < g.n0) (hj : j < g.n1) : cellAt g i j = .ok (g.at_ i j) := by
  unfold cellAt
  have h1 : i * g.n1 + j < g.n0 * g.n1 := by
    calc i * g.n1 + j < i * g.n1 + g.n1 := by omega
      _ = (i + 1) * g.n1 := by rw [Nat.succ_mul]
      _ ≤ g.n0 * g.n1 := Nat.mul_le_mul_right _ hi
  have hn : 0 < g.n1 := by omega
  have h2 : (i * g.n1 + j) / g.n1 = i := by
    rw [Nat.mul_comm, Nat.mul_add_div hn, Nat.div_eq_of_lt hj, Nat.add_zero]
  have h3 : (i * g.n1 + j) % g.n1 = j := by
    rw [Nat.mul_comm, Nat.mul_add_mod, Nat.mod_eq_of_lt hj]
  rw [if_pos h1, h2, h3]

/-- Reading rows of the form written: the interpolator over the values in the positions they have in the file. -/
theorem read2D_rows (xs ys : List ℝ) (val : Nat → Nat → ℝ) (hx : 3 ≤ xs.length) (hinc : xs.Pairwise (· < ·)) (hy : 3 ≤ ys.length)
    {lo hi : ℝ} (hlo : xs.head? = some lo) (hhi : xs.getLast? = some hi) :
    read2D ((List.range xs.length).flatMap fun i => (List.range ys.length).map fun j =>
      [pow10 (xs.getD i 0) / GeV, ys.getD j 0, pow10 (val i j)]) =
    (BiCubic.make ⟨ys.length, xs.length, fun j i => logOrTiny ((((List.range xs.length).flatMap fun i => (List.range ys.length).map fun j =>
        [pow10 (xs.getD i 0) / GeV, ys.getD j 0, pow10 (val i j)]).map (·.getD 2 0)).getD (i * ys.length + j) 0)⟩ xs
      ((List.range ys.length).map fun (j : Nat) => (j : ℝ) / ((ys.length - 1 : Nat) : ℝ))).bind fun b => .ok (b, pow10 lo, pow10 hi) := by
  generalize hrows : ((List.range xs.length).flatMap fun i => (List.range ys.length).map fun j =>
      [pow10 (xs.getD i 0) / GeV, ys.getD j 0, pow10 (val i j)]) = rows
  have hlen : rows.length = xs.length * ys.length := by
    rw [← hrows]
    exact flat_length (fun i j => [pow10 (xs.getD i 0) / GeV, ys.getD j 0, pow10 (val i j)]) _ _
  have hget : ∀ i j, i < xs.length → j < ys.length →
      rows[i * ys.length + j]? = some [pow10 (xs.getD i 0) / GeV, ys.getD j 0, pow10 (val i j)] := by
    intro i j hi hj
    rw [← hrows]
    exact flat_get (fun i j => [pow10 (xs.getD i 0) / GeV, ys.getD j 0, pow10 (val i j)]) _ _ i j hi hj
  have hes : ∀ i j, i < xs.length → j < ys.length → (rows.map (·.getD 0 0))[i * ys.length + j]? = some (pow10 (xs.getD i 0) / GeV) := by
    intro i j hi hj
    rw [List.getElem?_map, hget i j hi hj]
    rfl
  have hxget : ∀ i, i < xs.length → xs[i]? = some (xs.getD i 0) := by
    intro i hi
    rw [List.getElem?_eq_getElem hi]
    simp [List.getD_eq_getElem?_getD, hi]
  have hne : pow10 (xs.getD 1 0) / GeV ≠ pow10 (xs.getD 0 0) / GeV := by
    intro e
    have e := pow10_inj ((div_left_inj' GeV_pos.ne').1 e)
    rw [List.pairwise_iff_getElem] at hinc
    have := hinc 0 1 (by omega) (by omega) (by omega)
    have h0 := hxget 0 (by omega)
    have h1 := hxget 1 (by omega)
    rw [List.getElem?_eq_getElem (by omega)] at h0 h1
    rw [Option.some.inj h0, Option.some.inj h1, e] at this
    exact lt_irrefl _ this
  have hhead : (rows.map (·.getD 0 0)).headD 0 = pow10 (xs.getD 0 0) / GeV := by
    have := hes 0 0 (by omega) (by omega)
    rw [List.headD_eq_head?_getD, List.head?_eq_getElem?]
    simpa using congrArg (Option.getD · 0) this
  have hlead : leading (rows.map (·.getD 0 0)) = ys.length := by
    unfold leading
    rw [hhead]
    apply takeWhile_length
    · intro j hj
      refine ⟨pow10 (xs.getD 0 0) / GeV, ?_, by simp⟩
      have := hes 0 j (by omega) hj
      rwa [Nat.zero_mul, Nat.zero_add] at this
    · refine ⟨pow10 (xs.getD 1 0) / GeV, ?_, by simpa using hne⟩
      have := hes 1 0 (by omega) (by omega)
      rwa [Nat.one_mul, Nat.add_zero] at this
  have hpos : 0 < ys.length := by omega
  unfold read2D
  rw [if_neg]
  · dsimp only
    rw [hlead, hlen, Nat.mul_div_cancel _ hpos, if_neg]
    · have e0 : ((List.range xs.length).map fun j => (rows.map (·.getD 0 0)).getD (j * ys.length) 0) = xs.map fun a => pow10 a / GeV := by
        apply List.ext_getElem?
        intro i
        rw [List.getElem?_map, List.getElem?_map]
        by_cases hi : i < xs.length
        · rw [List.getElem?_range hi, hxget i hi]
          simp only [Option.map_some]
          rw [getD_of_get (by have := hes i 0 hi hpos; rwa [Nat.add_zero] at this)]
        · rw [List.getElem?_eq_none (by simpa using hi), List.getElem?_eq_none (by omega)]
          rfl
      rw [e0, logs_spec, Outcome.bind_ok]
      · have e2 : ((xs.map fun a => pow10 a / GeV).map fun a => Real.logb 10 (a * GeV)) = xs := by
          rw [List.map_map]
          conv_rhs => rw [← List.map_id xs]
          apply List.map_congr_left
          intro a _
          simp only [Function.comp, pow10_GeV, log_pow10, id]
        rw [e2, hhead]
        have elast : (rows.map (·.getD 0 0)).getLastD 0 = pow10 hi / GeV := by
          rw [List.getLastD_eq_getLast?, List.getLast?_eq_getElem?, List.length_map, hlen]
          have := hes (xs.length - 1) (ys.length - 1) (by omega) (by omega)
          have hidx : (xs.length - 1) * ys.length + (ys.length - 1) = xs.length * ys.length - 1 := by
            obtain ⟨a, ha⟩ : ∃ a, xs.length = a + 1 := ⟨xs.length - 1, by omega⟩
            rw [ha, Nat.succ_mul]
            simp only [Nat.add_sub_cancel]
            omega
          rw [hidx] at this
          rw [this]
          have hl := hxget (xs.length - 1) (by omega)
          rw [List.getLast?_eq_getElem?, hl] at hhi
          rw [← Option.some.inj hhi]
          rfl
        have ehd : xs.getD 0 0 = lo := by
          rw [List.head?_eq_getElem?] at hlo
          exact getD_of_get hlo
        rw [elast, ehd, pow10_GeV, pow10_GeV]
      · intro a ha
        obtain ⟨b, -, rfl⟩ := List.mem_map.1 ha
        rw [pow10_GeV]
        exact pow10_pos b
    · rintro (hc | hc)
      · have : 2 * ys.length ≤ xs.length * ys.length := Nat.mul_le_mul_right _ (by omega)
        omega
      · exact hc rfl
  · rintro (hc | ⟨r, hr, hc⟩)
    · rw [hc, List.length_nil] at hlen
      have : 0 < xs.length * ys.length := Nat.mul_pos (by omega) hpos
      omega
    · rw [← hrows] at hr
      obtain ⟨i, -, hr⟩ := List.mem_flatMap.1 hr
      obtain ⟨j, -, rfl⟩ := List.mem_map.1 hr
      exact hc rfl

/-- The position of the values. -/
theorem rows_value (xs ys : List ℝ) (val : Nat → Nat → ℝ) (i j : Nat) (hi : i < xs.length) (hj : j < ys.length) :
    logOrTiny ((((List.range xs.length).flatMap fun i => (List.range ys.length).map fun j =>
      [pow10 (xs.getD i 0) / GeV, ys.getD j 0, pow10 (val i j)]).map (·.getD 2 0)).getD (i * ys.length + j) 0) = val i j := by
  have := flat_get (fun i j => [pow10 (xs.getD i 0) / GeV, ys.getD j 0, pow10 (val i j)]) ys.length xs.length i j hi hj
  rw [getD_of_get (a := pow10 (val i j)) (by rw [List.getElem?_map, this]; rfl), logOrTiny_pow10]

end Verif.XS
