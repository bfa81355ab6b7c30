import Mathlib.Analysis.Calculus.MeanValue
import Mathlib.Analysis.Complex.Basic

/-!
# Functions differentiable from the right except at finitely many points

Layers of matter make the equation of motion jump. Whether a boundary belongs to the layer before or after it should not matter, so
solutions are asked to be continuous and to have their derivative except at finitely many times.
-/

namespace Verif.Density

open Set Filter Topology

/-- `f` is continuous from `a` to `b` and has derivative `f'` from the right except at finitely many points. -/
def Primitive (f f' : ℝ → ℝ) (a b : ℝ) : Prop :=
  ContinuousOn f (Icc a b) ∧ ∃ S : Set ℝ, S.Finite ∧ ∀ t ∈ Ico a b, t ∉ S → HasDerivWithinAt f (f' t) (Ici t) t

theorem Primitive.smooth {f f' : ℝ → ℝ} {a b : ℝ} (hc : ContinuousOn f (Icc a b)) (hd : ∀ t ∈ Ico a b, HasDerivWithinAt f (f' t) (Ici t) t) :
    Primitive f f' a b := ⟨hc, ∅, finite_empty, fun t ht _ => hd t ht⟩

theorem Primitive.cont {f f' : ℝ → ℝ} {a b : ℝ} (h : Primitive f f' a b) : ContinuousOn f (Icc a b) := h.1

/-- An inequality that holds for every later start holds from the start. -/
theorem le_start_of_later {f : ℝ → ℝ} {a b : ℝ} (hc : ContinuousOn f (Icc a b))
    (h : ∀ s ∈ Ioo a b, ∀ t ∈ Icc s b, f t ≤ f s) : ∀ t ∈ Icc a b, f t ≤ f a := by
  intro t ht
  rcases ht.1.eq_or_lt with rfl | hat
  · exact le_refl _
  have htend : Tendsto f (𝓝[>] a) (𝓝 (f a)) :=
    (hc a ⟨le_refl _, ht.1.trans ht.2⟩).mono_left (by
      rw [nhdsWithin_le_iff]
      exact mem_of_superset (Ioc_mem_nhdsGT (hat.trans_le ht.2)) fun x hx => ⟨hx.1.le, hx.2⟩)
  refine ge_of_tendsto htend ?_
  filter_upwards [Ioo_mem_nhdsGT hat] with s hs
  exact h s ⟨hs.1, hs.2.trans_le ht.2⟩ t ⟨hs.2.le, ht.2⟩

/-- A function whose derivative is nowhere positive, except at finitely many points where nothing is known, does not grow. -/
theorem le_start_off {f f' : ℝ → ℝ} (S : Finset ℝ) : ∀ {a b : ℝ}, ContinuousOn f (Icc a b) →
    (∀ t ∈ Ico a b, t ∉ S → HasDerivWithinAt f (f' t) (Ici t) t) → (∀ t ∈ Ico a b, t ∉ S → f' t ≤ 0) → ∀ t ∈ Icc a b, f t ≤ f a := by
  classical
  induction S using Finset.induction_on with
  | empty =>
    intro a b hc hd hn
    exact image_le_of_deriv_right_le_deriv_boundary hc (fun t ht => hd t ht (Finset.notMem_empty t)) (B := fun _ => f a) (B' := fun _ => 0)
      (le_refl _) continuousOn_const (fun _ _ => hasDerivWithinAt_const _ _ _) fun t ht => hn t ht (Finset.notMem_empty t)
  | insert s S hs ih =>
    intro a b hc hd hn t ht
    have right : ∀ t ∈ Icc s b, a ≤ s → f t ≤ f s := by
      intro t ht has
      refine le_start_of_later (hc.mono (Icc_subset_Icc_left has)) (fun u hu => ?_) t ht
      refine ih (hc.mono (Icc_subset_Icc_left (has.trans hu.1.le))) (fun x hx hxS => hd x ⟨has.trans (hu.1.le.trans hx.1), hx.2⟩ ?_)
        fun x hx hxS => hn x ⟨has.trans (hu.1.le.trans hx.1), hx.2⟩ ?_
      all_goals
        rw [Finset.mem_insert, not_or]
        exact ⟨(hu.1.trans_le hx.1).ne', hxS⟩
    by_cases hin : a ≤ s ∧ s ≤ t
    · have hsb : s ≤ b := hin.2.trans ht.2
      refine (right t ⟨hin.2, ht.2⟩ hin.1).trans ?_
      refine ih (hc.mono (Icc_subset_Icc_right hsb)) (fun x hx hxS => hd x ⟨hx.1, hx.2.trans_le hsb⟩ ?_)
        (fun x hx hxS => hn x ⟨hx.1, hx.2.trans_le hsb⟩ ?_) s ⟨hin.1, le_refl _⟩
      all_goals
        rw [Finset.mem_insert, not_or]
        exact ⟨hx.2.ne, hxS⟩
    · refine ih (hc.mono (Icc_subset_Icc_right ht.2)) (fun x hx hxS => hd x ⟨hx.1, hx.2.trans_le ht.2⟩ ?_)
        (fun x hx hxS => hn x ⟨hx.1, hx.2.trans_le ht.2⟩ ?_) t ⟨ht.1, le_refl _⟩
      all_goals
        rw [Finset.mem_insert, not_or]
        refine ⟨fun e => hin ⟨e ▸ hx.1, e ▸ hx.2.le⟩, hxS⟩

/-- Comparison of two functions. -/
theorem image_le_off {f f' B B' : ℝ → ℝ} {a b : ℝ} {S : Set ℝ} (hS : S.Finite) (hc : ContinuousOn f (Icc a b))
    (hd : ∀ t ∈ Ico a b, t ∉ S → HasDerivWithinAt f (f' t) (Ici t) t) (h0 : f a ≤ B a) (hB : ContinuousOn B (Icc a b))
    (hB' : ∀ t ∈ Ico a b, t ∉ S → HasDerivWithinAt B (B' t) (Ici t) t) (hle : ∀ t ∈ Ico a b, t ∉ S → f' t ≤ B' t) :
    ∀ t ∈ Icc a b, f t ≤ B t := by
  intro t ht
  have := le_start_off (f := fun t => f t - B t) (f' := fun t => f' t - B' t) hS.toFinset (hc.sub hB)
    (fun t ht hn => (hd t ht (by simpa using hn)).sub (hB' t ht (by simpa using hn)))
    (fun t ht hn => sub_nonpos.2 (hle t ht (by simpa using hn))) t ht
  linarith

/-- A function without derivative stays where it is. -/
theorem constant_off {f : ℝ → ℝ} {a b : ℝ} {S : Set ℝ} (hS : S.Finite) (hc : ContinuousOn f (Icc a b))
    (hd : ∀ t ∈ Ico a b, t ∉ S → HasDerivWithinAt f 0 (Ici t) t) : ∀ t ∈ Icc a b, f t = f a := by
  intro t ht
  refine le_antisymm ?_ ?_
  · exact image_le_off hS hc hd (B := fun _ => f a) (B' := fun _ => 0) (le_refl _) continuousOn_const
      (fun _ _ _ => hasDerivWithinAt_const _ _ _) (fun _ _ _ => le_refl _) t ht
  · exact image_le_off (f := fun _ => f a) (f' := fun _ => 0) hS continuousOn_const (fun _ _ _ => hasDerivWithinAt_const _ _ _) (B := f)
      (B' := fun _ => 0) (le_refl _) hc hd (fun _ _ _ => le_refl _) t ht

theorem constant_off_complex {f : ℝ → ℂ} {a b : ℝ} {S : Set ℝ} (hS : S.Finite) (hc : ContinuousOn f (Icc a b))
    (hd : ∀ t ∈ Ico a b, t ∉ S → HasDerivWithinAt f 0 (Ici t) t) : ∀ t ∈ Icc a b, f t = f a := by
  intro t ht
  refine Complex.ext ?_ ?_
  · refine constant_off (f := fun t => (f t).re) hS (Complex.continuous_re.comp_continuousOn hc) (fun s hs hn => ?_) t ht
    have := Complex.reCLM.hasFDerivAt.comp_hasDerivWithinAt s (hd s hs hn)
    rw [map_zero] at this
    exact this
  · refine constant_off (f := fun t => (f t).im) hS (Complex.continuous_im.comp_continuousOn hc) (fun s hs hn => ?_) t ht
    have := Complex.imCLM.hasFDerivAt.comp_hasDerivWithinAt s (hd s hs hn)
    rw [map_zero] at this
    exact this

end Verif.Density
