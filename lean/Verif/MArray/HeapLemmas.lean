import Verif.MArray.Props

/-! Lemmas for C06: one operation keeps the size bookkeeping. -/

namespace Verif.Marr

theorem all_set {P : α → Prop} {l : List α} {i : Nat} {x : α} (h : ∀ a ∈ l, P a) (hx : P x) : ∀ a ∈ l.set i x, P a := by
  intro a ha
  rcases List.mem_or_eq_of_mem_set ha with h1 | h1
  · exact h a h1
  · rw [h1]; exact hx

theorem all_append_one {P : α → Prop} {l : List α} {x : α} (h : ∀ a ∈ l, P a) (hx : P x) : ∀ a ∈ l ++ [x], P a := by
  intro a ha
  rcases List.mem_append.1 ha with h1 | h1
  · exact h a h1
  · rw [List.mem_singleton.1 h1]; exact hx

/-- What C06 says of one array. -/
def Good (rank : Nat) (a : MArray α) : Prop := a.extents.length = rank ∧ a.WF

theorem onSlot_good {rank : Nat} {h h' : List (MArray α)} {i : Nat} {f : MArray α → Outcome (MArray α)}
    (hg : ∀ a ∈ h, Good rank a) (he : onSlot h i f = .ok h')
    (hf : ∀ a b, h[i]? = some a → Good rank a → f a = .ok b → Good rank b) : ∀ a ∈ h', Good rank a := by
  unfold onSlot at he
  cases hi : h[i]? with
  | none => simp [hi] at he
  | some a =>
    simp only [hi] at he
    cases hfa : f a with
    | ok b =>
      simp only [hfa, Outcome.map_ok, Outcome.ok.injEq] at he
      rw [← he]
      exact all_set hg (hf a b hi (hg a (List.mem_of_getElem? hi)) hfa)
    | throws => simp [hfa, Outcome.map] at he
    | ub => simp [hfa, Outcome.map] at he

theorem insert_good {rank : Nat} {a b : MArray α} {dim pos num : Nat} {val : α} (hg : Good rank a)
    (hf : Fits32 a.extents dim) (h : a.insert dim pos num val = .ok b) : Good rank b := by
  by_cases hd : dim < a.extents.length
  · by_cases hpos : pos ≤ a.extents[dim]
    · have hs := split_exts a.extents dim hd
      have hA : (a.extents.take dim).length = dim := by simp; omega
      obtain ⟨c, hc, hce, hcw, _⟩ := insert_split _ _ _ pos num val a hg.2 hs hf.1 hf.2 hpos
      rw [hA, h] at hc
      cases hc
      refine ⟨?_, hcw⟩
      rw [hce, ← hg.1]; simp; omega
    · rw [c02_insert_bad_arguments a dim pos num val (fun _ => by omega)] at h; cases h
  · simp [MArray.insert, hd] at h

theorem erase_good {rank : Nat} {a b : MArray α} {dim pos num : Nat} (hg : Good rank a)
    (hf : Fits32 a.extents dim) (h : a.erase dim pos num = .ok b) : Good rank b := by
  by_cases hd : dim < a.extents.length
  · by_cases hpos : pos < a.extents[dim] ∧ pos + num ≤ a.extents[dim]
    · have hs := split_exts a.extents dim hd
      have hA : (a.extents.take dim).length = dim := by simp; omega
      obtain ⟨c, hc, hce, hcw, _⟩ := erase_split _ _ _ pos num a hg.2 hs hf.1 hf.2 hpos.1 hpos.2
      rw [hA, h] at hc
      cases hc
      refine ⟨?_, hcw⟩
      rw [hce, ← hg.1]; simp; omega
    · simp [MArray.erase, hd, hpos] at h
  · simp [MArray.erase, hd] at h

theorem resizeDim_good [Inhabited α] {rank : Nat} {a b : MArray α} {dim size : Nat} (hg : Good rank a)
    (hf : Fits32 a.extents dim) (h : a.resizeDim dim size = .ok b) : Good rank b := by
  unfold MArray.resizeDim at h
  split at h
  · dsimp only at h
    split at h
    · exact erase_good hg hf h
    · split at h
      · exact insert_good hg hf h
      · cases h; exact hg
  · cases h

theorem resize_good [Inhabited α] {rank : Nat} {a b : MArray α} {new : List Nat} (hg : Good rank a)
    (hf : ResizeFits a.extents new) (h : a.resize new = .ok b) : Good rank b := by
  by_cases hl : new.length = a.extents.length
  · obtain ⟨c, hc, hce, hcw, _⟩ := resizeLoop_split new [] a.extents a hg.2 rfl hl.symm
      (by intro d hd; simpa using hf d hd)
    simp only [MArray.resize, hl, ne_eq, not_true_eq_false, if_false] at h
    simp only [List.length_nil, List.nil_append] at hc hce
    rw [hc] at h; cases h
    exact ⟨by rw [hce, hl, hg.1], hcw⟩
  · simp [MArray.resize, hl] at h

theorem reshape_good {rank : Nat} {a b : MArray α} {new : List Nat} (hg : Good rank a)
    (hf : new.prod < 2 ^ 32) (h : a.reshape new = .ok b) : Good rank b := by
  have := c05_reshape_partial a new hf
  obtain ⟨he, hd, ht⟩ := this.2.1 b h
  obtain ⟨h1, h2⟩ := this.1.1 ⟨b, h⟩
  exact ⟨by rw [he, h1, hg.1], by rw [ht, he, h2], by rw [hd, ht, hg.2.2]⟩

theorem exec_good [Inhabited α] {rank : Nat} (hrank : 0 < rank) {h h' : List (MArray α)} (op : Op α rank)
    (hg : ∀ a ∈ h, Good rank a) (hf : op.Fits h) (he : op.exec h = .ok h') : ∀ a ∈ h', Good rank a := by
  have hempty : Good rank (⟨List.replicate rank 0, 0, []⟩ : MArray α) := by
    refine ⟨by simp, ?_, by simp⟩
    obtain ⟨r, rfl⟩ := Nat.exists_eq_succ_of_ne_zero (by omega : rank ≠ 0)
    simp [List.replicate_succ]
  cases op with
  | newEmpty =>
    simp only [Op.exec, Outcome.ok.injEq] at he
    rw [← he]; exact all_append_one hg hempty
  | newDims dims =>
    simp only [Op.exec, MArray.ofDims] at he
    split at he
    · simp [Outcome.map] at he
    · next hd =>
      simp only [Outcome.map_ok, Outcome.ok.injEq] at he
      rw [← he]
      refine all_append_one hg ⟨by simpa using hd, by simp [accU64_eq], by simp⟩
  | newRange dims src =>
    simp only [Op.exec, MArray.ofRange] at he
    split at he
    · simp [Outcome.map] at he
    · next hd =>
      split at he
      · simp [Outcome.map] at he
      · next hd2 =>
        simp only [Outcome.map_ok, Outcome.ok.injEq] at he
        rw [← he]
        refine all_append_one hg ⟨by simpa using hd, by simp [accU64_eq], by simpa using hd2⟩
  | newNest dims init =>
    simp only [Op.exec, MArray.ofNest] at he
    split at he
    · simp [Outcome.map] at he
    · next hd =>
      have hd' : dims.length = rank := by simpa using hd
      split at he
      · next hs =>
        simp only [Outcome.map_ok, Outcome.ok.injEq] at he
        rw [← he]
        refine all_append_one hg ⟨hd', by simp [accU64_eq], ?_⟩
        simp only [accU64_eq]
        exact flattenNest_length rank dims init hd' hs
      · simp [Outcome.map] at he
  | copy i =>
    simp only [Op.exec] at he
    split at he
    · cases he
    · next a ha => cases he; exact all_append_one hg (hg _ (List.mem_of_getElem? ha))
  | move i =>
    simp only [Op.exec] at he
    split at he
    · cases he
    · next a ha => cases he; exact all_append_one (all_set hg hempty) (hg _ (List.mem_of_getElem? ha))
  | swap i j =>
    simp only [Op.exec] at he
    split at he
    · next a b ha hb =>
      cases he; exact all_set (all_set hg (hg _ (List.mem_of_getElem? hb))) (hg _ (List.mem_of_getElem? ha))
    · cases he
  | copyAssign i j =>
    simp only [Op.exec] at he
    split at he
    · next a b ha hb => cases he; exact all_set hg (hg _ (List.mem_of_getElem? hb))
    · cases he
  | moveAssign i j steal =>
    simp only [Op.exec] at he
    split at he
    · next a b ha hb =>
      split at he
      · cases he; exact all_set (all_set hg (hg _ (List.mem_of_getElem? hb))) (hg _ (List.mem_of_getElem? ha))
      · cases he; exact all_set hg (hg _ (List.mem_of_getElem? hb))
    · cases he
  | insert i dim pos num val =>
    exact onSlot_good hg he (fun a b hi hga hfa => insert_good hga (hf a hi) hfa)
  | erase i dim pos num =>
    exact onSlot_good hg he (fun a b hi hga hfa => erase_good hga (hf a hi) hfa)
  | resizeDim i dim size =>
    exact onSlot_good hg he (fun a b hi hga hfa => resizeDim_good hga (hf a hi) hfa)
  | resize i ne =>
    exact onSlot_good hg he (fun a b hi hga hfa => resize_good hga (hf a hi) hfa)
  | reshape i ne =>
    exact onSlot_good hg he (fun a b hi hga hfa => reshape_good hga hf hfa)

end Verif.Marr
