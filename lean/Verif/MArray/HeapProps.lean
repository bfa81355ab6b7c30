import Verif.MArray.HeapLemmas

/-! # Property C06: size bookkeeping over histories of operations -/

namespace Verif.Marr

/-- After any history with representable 32-bit products, `size()`, the product of the extents and the number of
elements agree for every array, including moved-from ones. Missing from the full claim: histories with an insert,
erase, resize or reshape whose 32-bit products overflow (see `c06_size_violated`). -/
theorem c06_size_partial [Inhabited α] (rank : Nat) (hrank : 0 < rank) (h : List (MArray α))
    (hr : Reachable rank h) : ∀ a ∈ h, a.total = a.extents.prod ∧ a.data.length = a.extents.prod := by
  have : ∀ a ∈ h, Good rank a := by
    induction hr with
    | start => simp
    | done op _ hf he ih => exact exec_good hrank op ih hf he
    | caught _ _ _ _ ih => exact ih
  intro a ha
  have hg := (this a ha).2
  exact ⟨hg.1, by rw [hg.2, hg.1]⟩

/-- A history with a move, an insert into the target and a refused reshape. -/
example : Reachable 2 [⟨[0, 0], 0, []⟩, ⟨[1, 2], 2, [8, 0]⟩] :=
  have h1 : Reachable 2 [(⟨[1, 1], 1, [0]⟩ : MArray Nat)] := .done (.newDims [1, 1]) .start trivial (by decide)
  have h2 := Reachable.done (h' := [⟨[0, 0], 0, []⟩, ⟨[1, 1], 1, [0]⟩]) (.move 0) h1 trivial (by decide)
  have h3 := Reachable.done (h' := [⟨[0, 0], 0, []⟩, ⟨[1, 2], 2, [8, 0]⟩]) (.insert 1 1 0 1 8) h2
    (by intro a ha; simp at ha; subst ha; decide) (by decide)
  .caught (.reshape 1 [3, 1]) h3 (show (3 * (1 * 1)) < 2 ^ 32 by decide) (by decide)

/-- Without the condition: {0, 2^32} resized in its first dimension has extents {1, 2^32} and size 0. -/
theorem c06_size_violated : ∃ (h : List (MArray Nat)) (a : MArray Nat), ReachableAny 2 h ∧ a ∈ h ∧
    a.total ≠ a.extents.prod := by
  refine ⟨[⟨[1, 2 ^ 32], 0, []⟩], ⟨[1, 2 ^ 32], 0, []⟩, ?_, by simp, by decide⟩
  have h1 : ReachableAny 2 [(⟨[0, 2 ^ 32], 0, []⟩ : MArray Nat)] :=
    .done (.newDims [0, 2 ^ 32]) .start (by decide)
  exact .done (.resizeDim 0 0 1) h1 (by decide)

end Verif.Marr
