import Verif.Base
import Mathlib.Analysis.SpecialFunctions.Log.Basic
import Mathlib.Algebra.Order.Field.Basic
import Mathlib.Algebra.Order.Field.Rat

/-!
# Model of `linspace` and `logspace` (`/repo/src/tools.cpp`)

Doubles are an ordered field for `linspace` and the reals for `logspace`; rounding is not modelled. The freshly allocated
array (`marray<double,1> points{div}`) is a list of `div` unspecified values given by the parameter `junk`, so that a theorem
about the result shows that every cell has been written.
-/

namespace Verif.Tools

/-- `points[i] = v`: a write outside the array is undefined behaviour. -/
def store {α : Type} (l : List α) (i : Nat) (v : α) : Outcome (List α) :=
  if i < l.length then .ok (l.set i v) else .ub

/-- The loops of `linspace` (tools.cpp 112-113) and `logspace` (131-132): `for(; i<lim; i++, EE+=step) points[i] = f(EE)`,
with `todo` = `lim - i` iterations left. -/
def fillLoop {α : Type} [Add α] (f : α → α) (step : α) : (todo i : Nat) → (EE : α) → List α → Outcome (List α)
  | 0, _, _, l => .ok l
  | todo + 1, i, EE, l => (store l i (f EE)).bind fun l => fillLoop f step todo (i + 1) (EE + step) l

/-- `linspace` (tools.cpp 105-117). For `div = 1` the step is a division by zero whose value is never used. -/
def linspace {K : Type} [Field K] (junk : K) (Emin Emax : K) (div : Nat) : Outcome (List K) :=
  if div = 0 then .throws
  else
    let step := (Emax - Emin) / ((div - 1 : Nat) : K)
    (fillLoop id step (div - 1) 0 Emin (List.replicate div junk)).bind fun l => store l (div - 1) Emax

/-- `logspace` (tools.cpp 119-135). `log` of a non-positive bound is not a real number: the theorems ask for positive bounds. -/
noncomputable def logspace (junk : ℝ) (Emin Emax : ℝ) (div : Nat) : Outcome (List ℝ) :=
  if div = 0 then .throws
  else
    let step := (Real.log Emax - Real.log Emin) / ((div - 1 : Nat) : ℝ)
    (store (List.replicate div junk) 0 Emin).bind fun l =>
      (fillLoop Real.exp step (div - 1 - 1) 1 (Real.log Emin + step) l).bind fun l => store l (div - 1) Emax

/-! ## Lemmas -/

theorem fillLoop_spec {K : Type} [Field K] (f : K → K) (step : K) :
    ∀ (todo i : Nat) (EE : K) (l : List K), i + todo ≤ l.length →
      ∃ l', fillLoop f step todo i EE l = .ok l' ∧ l'.length = l.length ∧
        (∀ j, j < todo → l'[i + j]? = some (f (EE + j * step))) ∧
        (∀ j, j < i ∨ i + todo ≤ j → l'[j]? = l[j]?) := by
  intro todo
  induction todo with
  | zero => intro i EE l _; exact ⟨l, rfl, rfl, fun j hj => absurd hj (by omega), fun j _ => rfl⟩
  | succ todo ih =>
    intro i EE l hl
    simp only [fillLoop, store]
    rw [if_pos (by omega), Outcome.bind_ok]
    obtain ⟨l', h1, h2, h3, h4⟩ := ih (i + 1) (EE + step) (l.set i (f EE)) (by rw [List.length_set]; omega)
    refine ⟨l', h1, by rw [h2, List.length_set], ?_, ?_⟩
    · intro j hj
      cases j with
      | zero =>
        rw [h4 (i + 0) (by omega), Nat.add_zero, List.getElem?_set_self (by omega)]
        simp
      | succ j =>
        have := h3 j (by omega)
        rw [show i + (j + 1) = i + 1 + j by omega, this]
        congr 2
        push_cast
        ring
    · intro j hj
      rw [h4 j (by omega), List.getElem?_set_ne (by omega)]

end Verif.Tools
