import Verif.MArray.Lemmas
import Verif.MArray.Arith
import Mathlib.Data.List.Sort

/-! Lemmas for sums and broadcasting. -/

namespace Verif.Marr

/-! ### The odometer -/

/-- Next multi-index in row-major order; the flag says that it wrapped around. -/
def nextIdx : List Nat → List Nat → List Nat × Bool
  | e :: es, i :: is =>
    let r := nextIdx es is
    if r.2 then (if i + 1 < e then ((i + 1) :: r.1, false) else (0 :: r.1, true)) else (i :: r.1, false)
  | _, is => (is, true)

theorem unflat_zero (exts : List Nat) : unflat exts 0 = List.replicate exts.length 0 := by
  induction exts with
  | nil => rfl
  | cons e es ih => simp [unflat, ih, List.replicate_succ]

theorem nextIdx_spec {exts idx : List Nat} (h : InRange exts idx) :
    nextIdx exts idx = (unflat exts ((rowMajor exts idx + 1) % exts.prod), decide (rowMajor exts idx + 1 = exts.prod)) := by
  induction exts generalizing idx with
  | nil => rw [InRange.nil_iff] at h; subst h; simp [nextIdx, rowMajor, unflat]
  | cons e es ih =>
    cases idx with
    | nil => simp [InRange] at h
    | cons i is =>
      rw [inRange_cons] at h
      have hlt := rowMajor_lt h.2
      have hp := prod_pos_of_inRange h.2
      have hr := ih h.2
      simp only [nextIdx, hr, rowMajor, List.prod_cons]
      have hb : i * es.prod + es.prod ≤ e * es.prod := by
        have : (i + 1) * es.prod ≤ e * es.prod := Nat.mul_le_mul_right _ h.1
        rw [Nat.add_mul, Nat.one_mul] at this; exact this
      by_cases hc : rowMajor es is + 1 = es.prod
      · have e1 : i * es.prod + rowMajor es is + 1 = (i + 1) * es.prod := by rw [Nat.add_mul]; omega
        simp only [hc, decide_true, if_true, Nat.mod_self, e1]
        by_cases hi : i + 1 < e
        · have hne : (i + 1) * es.prod < e * es.prod := Nat.mul_lt_mul_of_pos_right hi hp
          simp only [if_pos hi, Nat.mod_eq_of_lt hne, unflat, Nat.mul_div_cancel _ hp, Nat.mul_mod_left]
          simp; omega
        · have : i + 1 = e := by omega
          rw [if_neg hi, this]
          simp [unflat]
      · have hlt2 : rowMajor es is + 1 < es.prod := by omega
        have h3 : i * es.prod + rowMajor es is + 1 < e * es.prod := by omega
        simp only [hc, decide_false, Nat.mod_eq_of_lt hlt2, Nat.mod_eq_of_lt h3, unflat]
        have h1 : (i * es.prod + rowMajor es is + 1) / es.prod = i := by
          rw [Nat.add_assoc, Nat.add_comm, Nat.add_mul_div_right _ _ hp, Nat.div_eq_of_lt hlt2, Nat.zero_add]
        have h2 : (i * es.prod + rowMajor es is + 1) % es.prod = rowMajor es is + 1 := by
          rw [Nat.add_assoc, Nat.add_comm, Nat.add_mul_mod_self_right, Nat.mod_eq_of_lt hlt2]
        have h4 : ¬ (i * es.prod + rowMajor es is + 1 = e * es.prod) := by omega
        rw [h1, h2]
        simp [h4]

theorem dec64_lt {i e : Nat} (h : i < e) : (i < dec64 e) ↔ i + 1 < e := by
  unfold dec64; rw [if_neg (by omega)]; omega

theorem bumpSum_none {exts idx : List Nat} (h : InRange exts idx) (dm : Nat) :
    bumpSum none exts idx dm = ((nextIdx exts idx).1, dm, (nextIdx exts idx).2) := by
  induction exts generalizing idx with
  | nil => rw [InRange.nil_iff] at h; subst h; simp [bumpSum, nextIdx]
  | cons e es ih =>
    cases idx with
    | nil => simp [InRange] at h
    | cons i is =>
      rw [inRange_cons] at h
      simp only [bumpSum, ih h.2, nextIdx]
      have h64 := dec64_lt h.1
      by_cases hi : i + 1 < e <;> cases hb : (nextIdx es is).2 <;> simp [h64, hi]

theorem bumpSum_some {exts idx : List Nat} (h : InRange exts idx) (d : Nat) (hd : d < exts.length) :
    bumpSum (some d) exts (idx.eraseIdx d) (idx.getD d 0) =
      ((nextIdx exts idx).1.eraseIdx d, (nextIdx exts idx).1.getD d 0, (nextIdx exts idx).2) := by
  induction exts generalizing idx d with
  | nil => simp at hd
  | cons e es ih =>
    cases idx with
    | nil => simp [InRange] at h
    | cons i is =>
      rw [inRange_cons] at h
      cases d with
      | zero =>
        simp only [List.eraseIdx_zero, List.tail_cons, List.getD_cons_zero, bumpSum, bumpSum_none h.2, nextIdx]
        have h64 := dec64_lt h.1
        by_cases hi : i + 1 < e <;> cases hb : (nextIdx es is).2 <;> simp [h64, hi]
      | succ d =>
        have := ih h.2 d (by simpa using hd)
        simp only [List.eraseIdx_cons_succ, List.getD_cons_succ, bumpSum, this, nextIdx]
        have h64 := dec64_lt h.1
        by_cases hi : i + 1 < e <;> cases hb : (nextIdx es is).2 <;> simp [h64, hi]

theorem bumpSame_none {exts idx : List Nat} (h : InRange exts idx) (dm : Nat) :
    bumpSame none exts idx dm = ((nextIdx exts idx).1, dm, (nextIdx exts idx).2) := by
  induction exts generalizing idx with
  | nil => rw [InRange.nil_iff] at h; subst h; simp [bumpSame, nextIdx]
  | cons e es ih =>
    cases idx with
    | nil => simp [InRange] at h
    | cons i is =>
      rw [inRange_cons] at h
      simp only [bumpSame, ih h.2, nextIdx]
      have h64 := dec64_lt h.1
      by_cases hi : i + 1 < e <;> cases hb : (nextIdx es is).2 <;> simp [h64, hi]

theorem bumpSame_some {exts idx : List Nat} (h : InRange exts idx) (d : Nat) (hd : d < exts.length) :
    bumpSame (some d) exts (idx.set d 0) (idx.getD d 0) =
      ((nextIdx exts idx).1.set d 0, (nextIdx exts idx).1.getD d 0, (nextIdx exts idx).2) := by
  induction exts generalizing idx d with
  | nil => simp at hd
  | cons e es ih =>
    cases idx with
    | nil => simp [InRange] at h
    | cons i is =>
      rw [inRange_cons] at h
      cases d with
      | zero =>
        simp only [List.set_cons_zero, List.getD_cons_zero, bumpSame, bumpSame_none h.2, nextIdx]
        have h64 := dec64_lt h.1
        by_cases hi : i + 1 < e <;> cases hb : (nextIdx es is).2 <;> simp [h64, hi]
      | succ d =>
        have := ih h.2 d (by simpa using hd)
        simp only [List.set_cons_succ, List.getD_cons_succ, bumpSame, this, nextIdx]
        have h64 := dec64_lt h.1
        by_cases hi : i + 1 < e <;> cases hb : (nextIdx es is).2 <;> simp [h64, hi]

/-! ### The accumulation loop -/

theorem sumLoop_spec (add : α → α → α) (sExts : List Nat) (bump : List Nat → Nat → List Nat × Nat × Bool)
    (D : List α) (ind : Nat → List Nat) (dm : Nat → Nat) (key : Nat → Nat)
    (hstep : ∀ p, p + 1 < D.length → (bump (ind p) (dm p)).1 = ind (p + 1) ∧ (bump (ind p) (dm p)).2.1 = dm (p + 1))
    (hkey : ∀ p, p < D.length → listOffset sExts (ind p) = some (key p)) :
    ∀ (n p0 : Nat) (s : List α), p0 + n = D.length → (∀ p, p < D.length → key p < s.length) →
      ∃ s', sumLoop add sExts bump (D.drop p0) (ind p0) (dm p0) s = some s' ∧ s'.length = s.length ∧
        ∀ q, s'[q]? = s[q]?.map (fun z =>
          (((List.range' p0 n).filter (fun p => key p = q)).filterMap (fun p => D[p]?)).foldl add z) := by
  intro n
  induction n with
  | zero =>
    intro p0 s hp _
    have : D.drop p0 = [] := List.drop_eq_nil_of_le (by omega)
    refine ⟨s, by rw [this]; rfl, rfl, ?_⟩
    intro q; simp
  | succ n ih =>
    intro p0 s hp hb
    have hlt : p0 < D.length := by omega
    rw [List.drop_eq_getElem_cons hlt]
    have hk := hb p0 hlt
    simp only [sumLoop, hkey p0 hlt, Option.bind_eq_bind, Option.bind_some, List.getElem?_eq_getElem hk]
    have hgoal : ∀ s2 : List α, s2.length = s.length →
        ∃ s', sumLoop add sExts bump (D.drop (p0 + 1)) (bump (ind p0) (dm p0)).1 (bump (ind p0) (dm p0)).2.1 s2 = some s' ∧
          s'.length = s2.length ∧ ∀ q, s'[q]? = s2[q]?.map (fun z =>
          (((List.range' (p0 + 1) n).filter (fun p => key p = q)).filterMap (fun p => D[p]?)).foldl add z) := by
      intro s2 hs2
      by_cases hn : n = 0
      · subst hn
        have : D.drop (p0 + 1) = [] := List.drop_eq_nil_of_le (by omega)
        refine ⟨s2, by rw [this]; rfl, rfl, ?_⟩
        intro q; simp
      · obtain ⟨h1, h2⟩ := hstep p0 (by omega)
        rw [h1, h2]
        exact ih (p0 + 1) s2 (by omega) (fun p hp => by rw [hs2]; exact hb p hp)
    obtain ⟨s', h1, h2, h3⟩ := hgoal (s.set (key p0) (add s[key p0] D[p0])) (by simp)
    refine ⟨s', h1, by simpa using h2, ?_⟩
    intro q
    rw [h3 q, List.range'_succ]
    by_cases hq : key p0 = q
    · subst hq
      simp [hk, List.getElem?_eq_getElem hlt]
    · simp only [List.getElem?_set_ne hq, List.filter_cons, decide_eq_true_eq, if_neg hq]

/-- The storage positions that a sum along one dimension collects. -/
theorem filter_positions (nA e P i r : Nat) (hi : i < nA) (hr : r < P) :
    (List.range' 0 (nA * (e * P))).filter (fun p => p / (e * P) * P + p % P = i * P + r) =
      (List.range e).map (fun k => i * (e * P) + (k * P + r)) := by
  have hP : 0 < P := by omega
  have hs1 : List.Pairwise (· < ·) ((List.range' 0 (nA * (e * P))).filter (fun p => p / (e * P) * P + p % P = i * P + r)) :=
    List.Pairwise.filter _ (List.pairwise_lt_range')
  have hs2 : List.Pairwise (· < ·) ((List.range e).map (fun k => i * (e * P) + (k * P + r))) := by
    rw [List.pairwise_map]
    refine List.Pairwise.imp ?_ List.pairwise_lt_range
    intro a b hab
    have := Nat.mul_lt_mul_of_pos_right hab hP
    omega
  have hn1 := hs1.imp (fun h => Nat.ne_of_lt h)
  have hn2 := hs2.imp (fun h => Nat.ne_of_lt h)
  have hperm : ((List.range' 0 (nA * (e * P))).filter (fun p => p / (e * P) * P + p % P = i * P + r)).Perm
      ((List.range e).map (fun k => i * (e * P) + (k * P + r))) := by
    rw [List.perm_ext_iff_of_nodup hn1 hn2]
    intro p
    simp only [List.mem_filter, List.mem_range'_1, Nat.zero_le, Nat.zero_add, true_and, decide_eq_true_eq,
      List.mem_map, List.mem_range]
    constructor
    · rintro ⟨hp, hk⟩
      have he : 0 < e := by
        rcases Nat.eq_zero_or_pos e with h0 | h0
        · subst h0; simp at hp
        · exact h0
      have heP : 0 < e * P := Nat.mul_pos he hP
      have hm : p % P = r := by
        have h1 := congrArg (· % P) hk
        simp only [Nat.add_comm _ (p % P), Nat.add_comm _ r, Nat.add_mul_mod_self_right, Nat.mod_mod] at h1
        rw [h1, Nat.mod_eq_of_lt hr]
      have hd : p / (e * P) = i := by
        rw [hm] at hk
        exact Nat.eq_of_mul_eq_mul_right hP (by omega)
      refine ⟨p % (e * P) / P, ?_, ?_⟩
      · exact (Nat.div_lt_iff_lt_mul hP).2 (Nat.mod_lt _ heP)
      · have h1 : p % (e * P) % P = r := by rw [Nat.mod_mul_left_mod, hm]
        have h2 := Nat.div_add_mod' (p % (e * P)) P
        have h3 := Nat.div_add_mod' p (e * P)
        rw [hd] at h3; rw [h1] at h2; omega
    · rintro ⟨k, hk, rfl⟩
      have hkr : k * P + r < e * P := idx_mul_lt hk hr
      have heP : 0 < e * P := by omega
      refine ⟨idx_mul_lt hi hkr, ?_⟩
      have h1 : (i * (e * P) + (k * P + r)) / (e * P) = i := by
        rw [Nat.add_comm, Nat.add_mul_div_right _ _ heP, Nat.div_eq_of_lt hkr, Nat.zero_add]
      have h2 : (i * (e * P) + (k * P + r)) % P = r := by
        have : i * (e * P) + (k * P + r) = r + (i * e + k) * P := by ring
        rw [this, Nat.add_mul_mod_self_right, Nat.mod_eq_of_lt hr]
      rw [h1, h2]
  exact hperm.eq_of_pairwise (le := (· < ·)) (fun a b _ _ h1 h2 => absurd (Nat.lt_trans h1 h2) (Nat.lt_irrefl _)) hs1 hs2

theorem eraseIdx_split (A B : List Nat) (e : Nat) : (A ++ e :: B).eraseIdx A.length = A ++ B := by
  induction A with
  | nil => simp
  | cons a A ih => simp [ih]

theorem insertIdx_split (l : List Nat) (d k : Nat) (h : d ≤ l.length) : l.insertIdx d k = l.take d ++ k :: l.drop d := by
  induction l generalizing d with
  | nil => simp at h; subst h; simp
  | cons x l ih =>
    cases d with
    | zero => simp
    | succ d => simp [ih d (by simpa using h)]

theorem eraseIdx_inRange {exts idx : List Nat} (h : InRange exts idx) (d : Nat) :
    InRange (exts.eraseIdx d) (idx.eraseIdx d) := by
  induction exts generalizing idx d with
  | nil => rw [InRange.nil_iff] at h; subst h; simp
  | cons e es ih =>
    cases idx with
    | nil => simp [InRange] at h
    | cons i is =>
      rw [inRange_cons] at h
      cases d with
      | zero => simpa using h.2
      | succ d => simpa using ⟨h.1, ih h.2 d⟩

theorem set_inRange {exts idx : List Nat} (h : InRange exts idx) (d e k : Nat) (hk : k < e) :
    InRange (exts.set d e) (idx.set d k) := by
  induction exts generalizing idx d with
  | nil => rw [InRange.nil_iff] at h; subst h; simp
  | cons e' es ih =>
    cases idx with
    | nil => simp [InRange] at h
    | cons i is =>
      rw [inRange_cons] at h
      cases d with
      | zero => simpa using ⟨hk, h.2⟩
      | succ d => simpa using ⟨h.1, ih h.2 d⟩

theorem unflat_split (A B : List Nat) (e p : Nat) (h : p < (A ++ e :: B).prod) :
    ∃ ia ib, unflat (A ++ e :: B) p = ia ++ (p % (e * B.prod) / B.prod) :: ib ∧ InRange A ia ∧ InRange B ib ∧
      rowMajor A ia = p / (e * B.prod) ∧ rowMajor B ib = p % B.prod := by
  have hin := unflat_inRange _ _ h
  have hrm := rowMajor_unflat _ _ h
  obtain ⟨ia, k, ib, hidx, hia, hib⟩ := split_idx A B e _ hin.length_eq
  rw [hidx] at hin hrm
  rw [InRange.append_iff hia, inRange_cons] at hin
  rw [rowMajor_append _ _ _ _ hia] at hrm
  simp only [rowMajor, List.prod_cons] at hrm
  have hr := rowMajor_lt hin.2.2
  have hP : 0 < B.prod := by omega
  have hkr : k * B.prod + rowMajor B ib < e * B.prod := idx_mul_lt hin.2.1 hr
  have heP : 0 < e * B.prod := by omega
  have h1 : p / (e * B.prod) = rowMajor A ia := by
    rw [← hrm, Nat.add_comm, Nat.add_mul_div_right _ _ heP, Nat.div_eq_of_lt hkr, Nat.zero_add]
  have h2 : p % (e * B.prod) = k * B.prod + rowMajor B ib := by
    rw [← hrm, Nat.add_comm, Nat.add_mul_mod_self_right, Nat.mod_eq_of_lt hkr]
  have h3 : p % B.prod = rowMajor B ib := by
    have : p = rowMajor B ib + (rowMajor A ia * e + k) * B.prod := by rw [← hrm]; ring
    rw [this, Nat.add_mul_mod_self_right, Nat.mod_eq_of_lt hr]
  refine ⟨ia, ib, ?_, hin.1, hin.2.2, h1.symm, h3.symm⟩
  rw [hidx, h2, Nat.add_comm, Nat.add_mul_div_right _ _ hP, Nat.div_eq_of_lt hr, Nat.zero_add]

theorem nextIdx_unflat {exts : List Nat} {p : Nat} (h : p + 1 < exts.prod) :
    (nextIdx exts (unflat exts p)).1 = unflat exts (p + 1) := by
  rw [nextIdx_spec (unflat_inRange _ _ (by omega)), rowMajor_unflat _ _ (by omega), Nat.mod_eq_of_lt h]

/-- Common core of both sums. `mk` cuts a full index to the index of the result. -/
theorem sum_core (add : α → α → α) (zero : α) (a : MArray α) (hwf : a.WF) (A B : List Nat) (e : Nat)
    (he : a.extents = A ++ e :: B) (sExts : List Nat) (hsprod : sExts.prod = A.prod * B.prod) (hsne : sExts ≠ [])
    (bump : List Nat → Nat → List Nat × Nat × Bool) (mk : List Nat → List Nat)
    (hin : ∀ idx, InRange a.extents idx → InRange sExts (mk idx))
    (hzero : mk (List.replicate a.extents.length 0) = List.replicate sExts.length 0)
    (hrow : ∀ ia k ib, ia.length = A.length → ib.length = B.length →
      rowMajor sExts (mk (ia ++ k :: ib)) = rowMajor A ia * B.prod + rowMajor B ib)
    (hbump : ∀ idx, InRange a.extents idx → (bump (mk idx) (idx.getD A.length 0)).1 = mk (nextIdx a.extents idx).1 ∧
      (bump (mk idx) (idx.getD A.length 0)).2.1 = (nextIdx a.extents idx).1.getD A.length 0)
    (hb : sExts.tail.prod < 2 ^ 31) :
    ∃ s, sumLoop add sExts bump a.data (List.replicate sExts.length 0) 0 (List.replicate (accU64 sExts) zero) = some s ∧
      s.length = sExts.prod ∧
      ∀ ia ib, InRange A ia → InRange B ib → ∀ vals : Nat → α,
        (∀ k < e, a.at (ia ++ k :: ib) = .ok (vals k)) →
        s[rowMajor A ia * B.prod + rowMajor B ib]? = some (((List.range e).map vals).foldl add zero) := by
  have hN : a.data.length = A.prod * (e * B.prod) := by rw [hwf.2, hwf.1, he]; simp
  have hprod : a.extents.prod = a.data.length := by rw [hwf.2, hwf.1]
  have hkeyeq : ∀ p, p < a.data.length →
      rowMajor sExts (mk (unflat a.extents p)) = p / (e * B.prod) * B.prod + p % B.prod := by
    intro p hp
    obtain ⟨ia, ib, h1, h2, h3, h4, h5⟩ := unflat_split A B e p (by rw [← he, hprod]; exact hp)
    rw [he, h1, hrow ia _ ib h2.length_eq h3.length_eq, h4, h5]
  obtain ⟨s, hs, hslen, hsget⟩ := sumLoop_spec add sExts bump a.data (fun p => mk (unflat a.extents p))
    (fun p => (unflat a.extents p).getD A.length 0) (fun p => p / (e * B.prod) * B.prod + p % B.prod)
    (by
      intro p hp
      have h1 := hbump _ (unflat_inRange a.extents p (by omega))
      rw [nextIdx_unflat (by omega)] at h1
      exact h1)
    (by
      intro p hp
      have h1 := hin _ (unflat_inRange a.extents p (by omega))
      rw [listOffset_eq h1 hsne hb, hkeyeq p hp])
    a.data.length 0 (List.replicate (accU64 sExts) zero) (by omega)
    (by
      intro p hp
      have h1 := rowMajor_lt (hin _ (unflat_inRange a.extents p (by omega)))
      rw [hkeyeq p hp] at h1
      simpa [accU64_eq] using h1)
  simp only [unflat_zero, hzero, List.drop_zero] at hs
  have hz : (List.replicate a.extents.length 0).getD A.length 0 = 0 := by
    simp only [List.getD_eq_getElem?_getD, List.getElem?_replicate]; split <;> rfl
  rw [hz] at hs
  refine ⟨s, hs, by rw [hslen]; simp [accU64_eq], ?_⟩
  intro ia ib hia hib vals hv
  have hiA := rowMajor_lt hia
  have hiB := rowMajor_lt hib
  have hq : rowMajor A ia * B.prod + rowMajor B ib < A.prod * B.prod := idx_mul_lt hiA hiB
  rw [hsget, hN]
  have hf := filter_positions A.prod e B.prod (rowMajor A ia) (rowMajor B ib) hiA hiB
  rw [hf, List.getElem?_replicate, accU64_eq, hsprod, if_pos hq, Option.map_some]
  congr 2
  rw [List.filterMap_map]
  have hv2 : ∀ k ∈ List.range e, ((fun p => a.data[p]?) ∘ fun k => rowMajor A ia * (e * B.prod) + (k * B.prod + rowMajor B ib)) k
      = some (vals k) := by
    intro k hk
    have hk' := List.mem_range.1 hk
    have h1 := hv k hk'
    have hl : (ia ++ k :: ib).length = a.extents.length := by rw [he]; simp [hia.length_eq, hib.length_eq]
    rw [at_eq a _ hl, he, rowMajor_append _ _ _ _ hia.length_eq] at h1
    simp only [rowMajor, List.prod_cons] at h1
    simp only [Function.comp]
    cases hx : a.data[rowMajor A ia * (e * B.prod) + (k * B.prod + rowMajor B ib)]? with
    | none => rw [hx] at h1; simp at h1
    | some x => rw [hx] at h1; simp at h1; rw [h1]
  rw [List.filterMap_congr hv2]
  simp

theorem prod_zero_of_mem {l : List Nat} (h : 0 ∈ l) : l.prod = 0 := by
  induction l with
  | nil => simp at h
  | cons x l ih =>
    rcases List.mem_cons.1 h with h | h
    · rw [← h]; simp
    · simp [ih h]

/-! ### Broadcasting -/

/-- Little-endian digits. -/
def ldig : List Nat → Nat → List Nat
  | [], _ => []
  | e :: es, p => p % e :: ldig es (p / e)

/-- Operand index (last dimension first) of a result index (last dimension first). -/
def restr : List Nat → List Nat → List Nat
  | x :: xs, d :: ds => (if x = 1 then 0 else d) :: restr xs ds
  | _, _ => []

theorem strideOffset_mul (exts idx : List Nat) (s : Nat) :
    strideOffset exts idx s = s * strideOffset exts idx 1 := by
  induction exts generalizing idx s with
  | nil => simp [strideOffset]
  | cons e es ih =>
    cases idx with
    | nil => simp [strideOffset]
    | cons i is => simp only [strideOffset, Nat.one_mul]; rw [ih is (s * e), ih is e]; ring

theorem strideOffset_append (xs is : List Nat) (e i s : Nat) (h : is.length = xs.length) :
    strideOffset (xs ++ [e]) (is ++ [i]) s = strideOffset xs is s + s * xs.prod * i := by
  induction xs generalizing is s with
  | nil => cases is <;> simp_all [strideOffset]
  | cons x xs ih =>
    cases is with
    | nil => simp at h
    | cons j js =>
      simp only [List.length_cons, Nat.add_right_cancel_iff] at h
      simp only [List.cons_append, strideOffset, ih js _ h, List.prod_cons]; ring

theorem strideOffset_reverse (exts idx : List Nat) (h : idx.length = exts.length) :
    strideOffset exts.reverse idx.reverse 1 = rowMajor exts idx := by
  induction exts generalizing idx with
  | nil => cases idx <;> simp_all [strideOffset, rowMajor]
  | cons e es ih =>
    cases idx with
    | nil => simp at h
    | cons i is =>
      simp only [List.length_cons, Nat.add_right_cancel_iff] at h
      simp only [List.reverse_cons, rowMajor]
      rw [strideOffset_append _ _ _ _ _ (by simpa using h), ih is h, List.prod_reverse]
      ring

theorem strideOffset_lt {exts idx : List Nat} (h : InRange exts idx) : strideOffset exts idx 1 < exts.prod := by
  have h2 : InRange exts.reverse idx.reverse := List.rel_reverse h
  have := rowMajor_lt h2
  rw [← strideOffset_reverse _ _ h2.length_eq, List.reverse_reverse, List.reverse_reverse, List.prod_reverse] at this
  exact this

theorem ldig_strideOffset {exts idx : List Nat} (h : InRange exts idx) : ldig exts (strideOffset exts idx 1) = idx := by
  induction exts generalizing idx with
  | nil => rw [InRange.nil_iff] at h; subst h; rfl
  | cons e es ih =>
    cases idx with
    | nil => simp [InRange] at h
    | cons i is =>
      rw [inRange_cons] at h
      simp only [strideOffset, ldig, Nat.one_mul]
      rw [strideOffset_mul es is e, Nat.add_mul_mod_self_left, Nat.mod_eq_of_lt h.1,
        Nat.add_mul_div_left _ _ (by omega), Nat.div_eq_of_lt h.1, Nat.zero_add, ih h.2]

theorem ldig_length (exts : List Nat) (p : Nat) : (ldig exts p).length = exts.length := by
  induction exts generalizing p with
  | nil => rfl
  | cons e es ih => simp [ldig, ih]

theorem ldig_inRange (exts : List Nat) (p : Nat) (h : ∀ x ∈ exts, 0 < x) : InRange exts (ldig exts p) := by
  induction exts generalizing p with
  | nil => simp [ldig]
  | cons e es ih =>
    simp only [ldig, inRange_cons]
    exact ⟨Nat.mod_lt _ (h e (by simp)), ih _ (fun x hx => h x (by simp [hx]))⟩

theorem ldig_zero (exts : List Nat) : ldig exts 0 = List.replicate exts.length 0 := by
  induction exts with
  | nil => rfl
  | cons e es ih => simp [ldig, ih, List.replicate_succ]

theorem succ_digit (e p : Nat) (he : 0 < e) :
    ((p % e + 1 < e) ∧ (p + 1) % e = p % e + 1 ∧ (p + 1) / e = p / e) ∨
    (p % e + 1 = e ∧ (p + 1) % e = 0 ∧ (p + 1) / e = p / e + 1) := by
  have hm := Nat.mod_lt p he
  have hd := Nat.div_add_mod p e
  by_cases h : p % e + 1 < e
  · left
    have e1 : p + 1 = (p % e + 1) + e * (p / e) := by omega
    refine ⟨h, ?_, ?_⟩
    · rw [e1, Nat.add_mul_mod_self_left, Nat.mod_eq_of_lt h]
    · conv_lhs => rw [e1]
      rw [Nat.add_mul_div_left _ _ he, Nat.div_eq_of_lt h, Nat.zero_add]
  · right
    have h2 : p % e + 1 = e := by omega
    have e1 : p + 1 = e * (p / e + 1) := by rw [Nat.mul_add]; omega
    refine ⟨h2, ?_, ?_⟩
    · rw [e1, Nat.mul_mod_right]
    · rw [e1, Nat.mul_div_cancel_left _ he]

theorem resultExtents_length {x1 x2 r : List Nat} (h : resultExtents x1 x2 = some r) :
    r.length = max x1.length x2.length := by
  induction x1 generalizing x2 r with
  | nil => simp [resultExtents] at h; subst h; simp
  | cons x x1 ih =>
    cases x2 with
    | nil => simp [resultExtents] at h; subst h; simp
    | cons y x2 =>
      simp only [resultExtents] at h
      cases ht : resultExtents x1 x2 with
      | none => rw [ht] at h; split at h <;> (try split at h) <;> (try split at h) <;> simp at h
      | some t =>
        rw [ht] at h
        have : ∃ e, r = e :: t := by
          split at h
          · exact ⟨_, (by simpa using h.symm)⟩
          · split at h
            · exact ⟨_, (by simpa using h.symm)⟩
            · split at h
              · exact ⟨_, (by simpa using h.symm)⟩
              · simp at h
        obtain ⟨e, rfl⟩ := this
        simp [ih ht]

/-- The cases in which two aligned extents are compatible. -/
theorem resultExtents_cons {x y : Nat} {x1 x2 r : List Nat} (h : resultExtents (x :: x1) (y :: x2) = some r) :
    ∃ t e, resultExtents x1 x2 = some t ∧ r = e :: t ∧ ((x = y ∧ e = x) ∨ (x = 1 ∧ e = y) ∨ (y = 1 ∧ e = x)) := by
  simp only [resultExtents] at h
  cases ht : resultExtents x1 x2 with
  | none => rw [ht] at h; split at h <;> (try split at h) <;> (try split at h) <;> simp at h
  | some t =>
    rw [ht] at h
    split at h
    · next hc => exact ⟨t, x, rfl, by simpa using h.symm, Or.inl ⟨hc, rfl⟩⟩
    · split at h
      · next hc => exact ⟨t, y, rfl, by simpa using h.symm, Or.inr (Or.inl ⟨hc, rfl⟩)⟩
      · split at h
        · next hc => exact ⟨t, x, rfl, by simpa using h.symm, Or.inr (Or.inr ⟨hc, rfl⟩)⟩
        · simp at h

theorem restr_inRange {x1 ds : List Nat} : ∀ {r : List Nat}, InRange r ds → (∀ (k x : Nat), x1[k]? = some x → ∃ e : Nat, r[k]? = some e ∧ (x = 1 ∨ x = e)) →
    InRange x1 (restr x1 ds) := by
  induction x1 generalizing ds with
  | nil => intro r _ _; simp [restr]
  | cons x x1 ih =>
    intro r hr hc
    obtain ⟨e, he, hxe⟩ := hc 0 x (by simp)
    cases r with
    | nil => simp at he
    | cons e' r =>
      simp at he; subst he
      cases ds with
      | nil => simp [InRange] at hr
      | cons d ds =>
        rw [inRange_cons] at hr
        simp only [restr, inRange_cons]
        refine ⟨?_, ih hr.2 (fun k x hk => by simpa using hc (k + 1) x (by simpa using hk))⟩
        rcases hxe with h1 | h1
        · simp [h1]
        · split <;> omega

theorem resultExtents_compat {x1 x2 r : List Nat} (h : resultExtents x1 x2 = some r) :
    (∀ (k x : Nat), x1[k]? = some x → ∃ e : Nat, r[k]? = some e ∧ (x = 1 ∨ x = e)) ∧
    (∀ (k x : Nat), x2[k]? = some x → ∃ e : Nat, r[k]? = some e ∧ (x = 1 ∨ x = e)) := by
  induction x1 generalizing x2 r with
  | nil =>
    simp [resultExtents] at h; subst h
    exact ⟨by simp, fun k x hk => ⟨x, hk, Or.inr rfl⟩⟩
  | cons x x1 ih =>
    cases x2 with
    | nil =>
      simp [resultExtents] at h; subst h
      exact ⟨fun k x hk => ⟨x, hk, Or.inr rfl⟩, by simp⟩
    | cons y x2 =>
      obtain ⟨t, e, ht, rfl, hc⟩ := resultExtents_cons h
      obtain ⟨h1, h2⟩ := ih ht
      refine ⟨?_, ?_⟩
      · intro k z hk
        cases k with
        | zero => simp at hk; subst hk; exact ⟨e, by simp, by omega⟩
        | succ k => simpa using h1 k z (by simpa using hk)
      · intro k z hk
        cases k with
        | zero => simp at hk; subst hk; exact ⟨e, by simp, by omega⟩
        | succ k => simpa using h2 k z (by simpa using hk)

theorem resultExtents_get {x1 x2 r : List Nat} (h : resultExtents x1 x2 = some r) (k : Nat) :
    r[k]? = match x1[k]?, x2[k]? with
      | some x, some y => some (if x = 1 then y else x)
      | some x, none => some x
      | none, some y => some y
      | none, none => none := by
  induction x1 generalizing x2 r k with
  | nil =>
    simp [resultExtents] at h; subst h
    simp only [List.getElem?_nil]; split <;> simp_all
  | cons x x1 ih =>
    cases x2 with
    | nil =>
      simp [resultExtents] at h; subst h
      simp only [List.getElem?_nil]; split <;> simp_all
    | cons y x2 =>
      obtain ⟨t, e, ht, rfl, hc⟩ := resultExtents_cons h
      cases k with
      | zero =>
        simp only [List.getElem?_cons_zero]
        congr 1
        split <;> omega
      | succ k => simpa using ih ht k

/-- Two elements suffice to leave the buffer when the trailing extents multiply to 2^31. -/
theorem sumLoop_escape (n : Nat) (hn : n = 2 ^ 31) (l s : List Nat) (hl : 2 ≤ l.length) (hs1 : 0 < s.length)
    (hs : s.length ≤ n) :
    sumLoop (· + ·) [1, n] (bumpSum (some 0) [1, 1, n]) l [0, 0] 0 s = none := by
  match l, hl with
  | x :: y :: rest, _ =>
    have o1 : listOffset [1, n] [0, 0] = some 0 := by rw [hn]; decide
    have o2 : listOffset [1, n] [0, 1] = some (2 ^ 33 - 1) := by rw [hn]; decide
    have b1 : bumpSum (some 0) [1, 1, n] [0, 0] 0 = ([0, 1], 0, false) := by rw [hn]; decide
    unfold sumLoop
    rw [o1, b1]
    simp only [Option.bind_eq_bind, Option.bind_some, List.getElem?_eq_getElem hs1]
    unfold sumLoop
    rw [o2]
    have h1 : (s.set 0 (s[0] + x))[2 ^ 33 - 1]? = none := by
      apply List.getElem?_eq_none
      rw [List.length_set]; omega
    simp only [Option.bind_eq_bind, Option.bind_some, h1, Option.bind_none]

theorem dec64_pos {x : Nat} (h : 0 < x) : dec64 x = x - 1 := by unfold dec64; rw [if_neg (by omega)]

theorem bump1_spec (x : List Nat) (p : Nat) (hpos : ∀ e ∈ x, 0 < e) :
    bump1 x (restr x (ldig x p)) = restr x (ldig x (p + 1)) := by
  induction x generalizing p with
  | nil => simp [bump1, restr]
  | cons y x ih =>
    have hy : 0 < y := hpos y (by simp)
    simp only [ldig, restr, bump1, dec64_pos hy]
    rcases succ_digit y p hy with ⟨h1, h2, h3⟩ | ⟨h1, h2, h3⟩
    · have c : y ≠ 1 := by omega
      have c2 : p % y < y - 1 := by omega
      simp [h2, h3, c, c2]
    · rw [h2, h3]
      have := ih (p / y) (fun e he => hpos e (by simp [he]))
      rw [if_neg (by split <;> omega), this]
      simp

theorem bump2_spec (x1 : List Nat) : ∀ (x2 r : List Nat) (p : Nat), resultExtents x1 x2 = some r → (∀ e ∈ r, 0 < e) →
    bump2 x1 x2 (restr x1 (ldig r p)) (restr x2 (ldig r p)) =
      (restr x1 (ldig r (p + 1)), restr x2 (ldig r (p + 1))) := by
  induction x1 with
  | nil =>
    intro x2 r p h hpos
    simp [resultExtents] at h; subst h
    simp only [bump2, bump1_spec x2 p hpos, restr]
  | cons x x1 ih =>
    intro x2 r p h hpos
    cases x2 with
    | nil =>
      simp [resultExtents] at h; subst h
      simp only [bump2, bump1_spec (x :: x1) p hpos, restr]
    | cons y x2 =>
      obtain ⟨t, e, ht, rfl, hc⟩ := resultExtents_cons h
      have he : 0 < e := hpos e (by simp)
      have hx : 0 < x := by omega
      have hy : 0 < y := by omega
      have hrec := ih x2 t (p / e) ht (fun z hz => hpos z (by simp [hz]))
      simp only [ldig, restr, bump2, dec64_pos hx, dec64_pos hy]
      rcases succ_digit e p he with ⟨h1, h2, h3⟩ | ⟨h1, h2, h3⟩
      · rw [h2, h3]
        rcases hc with ⟨rfl, rfl⟩ | ⟨rfl, rfl⟩ | ⟨rfl, rfl⟩
        · have c : e ≠ 1 := by omega
          have c1 : e - 1 > 0 := by omega
          have c2 : p % e < e - 1 := by omega
          simp [c, c1, c2]
        · by_cases c : e = 1
          · omega
          · have c1 : e - 1 > 0 := by omega
            have c2 : p % e < e - 1 := by omega
            simp [c, c1, c2]
        · by_cases c : e = 1
          · omega
          · have c1 : e - 1 > 0 := by omega
            have c2 : p % e < e - 1 := by omega
            simp [c, c1, c2]
      · rw [h2, h3]
        have n1 : ¬ (x - 1 > 0 ∧ (if x = 1 then 0 else p % e) < x - 1) := by
          rintro ⟨ha, hb⟩
          rw [if_neg (by omega)] at hb; omega
        have n2 : ¬ (y - 1 > 0 ∧ (if y = 1 then 0 else p % e) < y - 1) := by
          rintro ⟨ha, hb⟩
          rw [if_neg (by omega)] at hb; omega
        simp only [n1, n2, decide_false, Bool.false_eq_true, if_false, Bool.or_self, hrec, ite_self]

theorem applyLoop_spec (op : α → β → γ) (x1 x2 r : List Nat) (d1 : List α) (d2 : List β)
    (hr : resultExtents x1 x2 = some r) (hpos : ∀ e ∈ r, 0 < e)
    (hl1 : d1.length = x1.prod) (hl2 : d2.length = x2.prod) :
    ∀ (n p : Nat), ∃ out, applyLoop op x1 x2 d1 d2 n (restr x1 (ldig r p)) (restr x2 (ldig r p)) = some out ∧
      out.length = n ∧ ∀ t < n, ∃ x y, d1[strideOffset x1 (restr x1 (ldig r (p + t))) 1]? = some x ∧
        d2[strideOffset x2 (restr x2 (ldig r (p + t))) 1]? = some y ∧ out[t]? = some (op x y) := by
  obtain ⟨hc1, hc2⟩ := resultExtents_compat hr
  intro n
  induction n with
  | zero => intro p; exact ⟨[], rfl, rfl, by omega⟩
  | succ n ih =>
    intro p
    have hd := ldig_inRange r p hpos
    have hb1 := strideOffset_lt (restr_inRange hd hc1)
    have hb2 := strideOffset_lt (restr_inRange hd hc2)
    rw [← hl1] at hb1; rw [← hl2] at hb2
    obtain ⟨out, ho, hlen, hget⟩ := ih (p + 1)
    refine ⟨op d1[strideOffset x1 (restr x1 (ldig r p)) 1] d2[strideOffset x2 (restr x2 (ldig r p)) 1] :: out, ?_, by simp [hlen], ?_⟩
    · simp only [applyLoop, List.getElem?_eq_getElem hb1, List.getElem?_eq_getElem hb2, bump2_spec x1 x2 r p hr hpos, ho]
      rfl
    · intro t ht
      cases t with
      | zero => exact ⟨_, _, List.getElem?_eq_getElem hb1, List.getElem?_eq_getElem hb2, by simp⟩
      | succ t =>
        obtain ⟨x, y, h1, h2, h3⟩ := hget t (by omega)
        have e1 : p + (t + 1) = p + 1 + t := by omega
        exact ⟨x, y, by rw [e1]; exact h1, by rw [e1]; exact h2, by simpa using h3⟩

theorem resultExtents_none_iff (x1 x2 : List Nat) : resultExtents x1 x2 = none ↔
    ∃ k x y : Nat, x1[k]? = some x ∧ x2[k]? = some y ∧ x ≠ y ∧ x ≠ 1 ∧ y ≠ 1 := by
  induction x1 generalizing x2 with
  | nil => simp [resultExtents]
  | cons x x1 ih =>
    cases x2 with
    | nil => simp [resultExtents]
    | cons y x2 =>
      constructor
      · intro h
        by_cases hc : x ≠ y ∧ x ≠ 1 ∧ y ≠ 1
        · exact ⟨0, x, y, by simp, by simp, hc⟩
        · have hn : resultExtents x1 x2 = none := by
            cases ht : resultExtents x1 x2 with
            | none => rfl
            | some t =>
              simp only [resultExtents, ht] at h
              split at h
              · simp at h
              · split at h
                · simp at h
                · split at h
                  · simp at h
                  · next h1 h2 h3 => exact absurd ⟨h1, h2, h3⟩ hc
          obtain ⟨k, a, b, h1, h2, h3⟩ := (ih x2).1 hn
          exact ⟨k + 1, a, b, by simpa using h1, by simpa using h2, h3⟩
      · rintro ⟨k, a, b, h1, h2, h3, h4, h5⟩
        cases k with
        | zero =>
          simp at h1 h2; subst h1; subst h2
          simp [resultExtents, h3, h4, h5]
        | succ k =>
          have := (ih x2).2 ⟨k, a, b, by simpa using h1, by simpa using h2, h3, h4, h5⟩
          simp only [resultExtents, this, Option.map_none]
          split <;> (try split) <;> (try split) <;> rfl

theorem restr_eq (x1 ds : List Nat) (h : x1.length ≤ ds.length) :
    (restr x1 ds).reverse = operandIdx x1.reverse ds.reverse := by
  unfold operandIdx
  have h0 : ∀ (x1 ds : List Nat), restr x1 ds = List.zipWith (fun e i => if e = 1 then 0 else i) x1 ds := by
    intro x1
    induction x1 with
    | nil => intro ds; simp [restr]
    | cons x x1 ih => intro ds; cases ds with
      | nil => simp [restr]
      | cons d ds => simp [restr, ih]
  have h1 : List.zipWith (fun e i => if e = 1 then 0 else i) x1 ds =
      List.zipWith (fun e i => if e = 1 then 0 else i) x1 (ds.take x1.length) := by
    have : ds = ds.take x1.length ++ ds.drop x1.length := (List.take_append_drop _ _).symm
    conv_lhs => rw [this]
    conv_lhs => rw [← List.append_nil x1]
    rw [List.zipWith_append (by simp; omega)]
    simp
  rw [h0, h1, List.reverse_zipWith (by simp; omega)]
  congr 1
  rw [List.reverse_take]
  simp

end Verif.Marr
