import Verif.Configure.BoostLemmas

/-!
# The Python bindings in `configure` (C129)
-/

namespace Verif.Configure

/-- C129, partial: if the first place at which there is anything of Boost has both its headers and its library for Python, the bindings are built exactly
if they were asked for and Python and NumPy are there, and with these headers and this library. Without a library for Python anywhere they are never
built. Missing: places that have one without the other (`c129_boost_violated`). -/
theorem c129_boost_partial {D S : Type} (lib : D → S → Bool) (hdr : D → Bool) (suffixes : List S) (asked python numpy : Bool) :
    (∀ (pre post : List (Guess D)) (g : Guess D), (∀ x ∈ pre, hdr x.inc = false ∧ ¬HasLib lib suffixes x) → hdr g.inc = true → HasLib lib suffixes g →
      Sound lib hdr (searchBoost lib hdr suffixes (pre ++ g :: post)) ∧ (searchBoost lib hdr suffixes (pre ++ g :: post)).inc = some g.inc ∧
      (∃ d ∈ g.libs, (searchBoost lib hdr suffixes (pre ++ g :: post)).link = some d) ∧
      (bindingsBuilt asked python numpy (searchBoost lib hdr suffixes (pre ++ g :: post)) = true ↔ asked = true ∧ python = true ∧ numpy = true)) ∧
    ∀ gs : List (Guess D), (∀ g ∈ gs, ¬HasLib lib suffixes g) → bindingsBuilt asked python numpy (searchBoost lib hdr suffixes gs) = false := by
  constructor
  · intro pre post g hpre hh hl
    obtain ⟨s, hs, h1, h2, h3⟩ := boostLib_some lib g suffixes (.empty, g.first) rfl hl
    have e : searchBoost lib hdr suffixes (pre ++ g :: post) =
        ⟨true, true, some s, some g.inc, some (boostLib lib g (.empty, g.first) suffixes).2⟩ := by
      unfold searchBoost
      rw [List.foldl_append, fold_nothing lib hdr suffixes pre .empty rfl rfl hpre, List.foldl_cons]
      have e2 : tryBoost lib hdr suffixes .empty g = ⟨true, true, some s, some g.inc, some (boostLib lib g (.empty, g.first) suffixes).2⟩ := by
        unfold tryBoost
        simp only [Boost.empty, Bool.false_eq_true, if_false, hh, if_true]
        simp only [Boost.empty] at h3
        rw [h3]
      rw [e2, fold_found _ _ _ _ _ rfl]
    rw [e]
    refine ⟨⟨g.inc, _, s, rfl, rfl, rfl, hh, h2⟩, rfl, ⟨_, h1, rfl⟩, ?_⟩
    unfold bindingsBuilt
    cases asked <;> cases python <;> cases numpy <;> simp
  · intro gs h
    have := fold_never lib hdr suffixes gs .empty rfl h
    unfold bindingsBuilt searchBoost
    rw [this]
    cases asked <;> cases numpy <;> rfl

/-- Nothing in the first place, everything in the second. -/
example : (∀ x ∈ [(⟨0, [1], 2⟩ : Guess Nat)], (fun d => d == 5) x.inc = false ∧ ¬HasLib (fun d (s : Nat) => d == 4 && s == 1) [0, 1] x) ∧
    (fun d => d == 5) (⟨3, [4], 5⟩ : Guess Nat).inc = true ∧ HasLib (fun d (s : Nat) => d == 4 && s == 1) [0, 1] (⟨3, [4], 5⟩ : Guess Nat) := by
  refine ⟨?_, rfl, 4, by simp [Guess.libs], 1, by simp, rfl⟩
  intro x hx
  simp only [List.mem_singleton] at hx
  subst hx
  refine ⟨rfl, ?_⟩
  rintro ⟨d, hd, s, _, h⟩
  simp only [Guess.libs, List.mem_cons, List.not_mem_nil, or_false] at hd
  rcases hd with rfl | rfl <;> simp at h

/-- C129, disagreement: headers without a library for Python in one place keep the script from looking at the next, where there are both. A library without
any headers is enough for the bindings to be built. And if the library is found in one place and the headers in the next, the linker is told a directory
of the latter, which has no library. That also happens if the latter has the library under a later suffix, in a directory that is not the last: the loop
over the suffixes ends after the first, because of what was found before. -/
theorem c129_boost_violated :
    (∃ (lib : Nat → Nat → Bool) (hdr : Nat → Bool) (g g' : Guess Nat), hdr g'.inc = true ∧ HasLib lib [0] g' ∧
      bindingsBuilt true true true (searchBoost lib hdr [0] [g, g']) = false) ∧
    (∃ (lib : Nat → Nat → Bool) (g : Guess Nat), bindingsBuilt true true true (searchBoost lib (fun _ => false) [0] [g]) = true ∧
      (searchBoost lib (fun _ => false) [0] [g]).inc = none) ∧
    (∃ (lib : Nat → Nat → Bool) (hdr : Nat → Bool) (g g' : Guess Nat) (d : Nat), bindingsBuilt true true true (searchBoost lib hdr [0] [g, g']) = true ∧
      (searchBoost lib hdr [0] [g, g']).link = some d ∧ ∀ s, lib d s = false) ∧
    ∃ (lib : Nat → Nat → Bool) (hdr : Nat → Bool) (g g' : Guess Nat) (d : Nat), hdr g'.inc = true ∧ HasLib lib [0, 1] g' ∧
      bindingsBuilt true true true (searchBoost lib hdr [0, 1] [g, g']) = true ∧ (searchBoost lib hdr [0, 1] [g, g']).link = some d ∧ ∀ s, lib d s = false :=
  ⟨⟨fun d _ => d == 2, fun _ => true, ⟨0, [], 1⟩, ⟨2, [], 3⟩, rfl, ⟨2, by simp [Guess.libs], 0, by simp, rfl⟩, rfl⟩,
    ⟨fun _ _ => true, ⟨0, [], 1⟩, rfl, rfl⟩,
    ⟨fun d _ => d == 0, fun d => d == 3, ⟨0, [], 1⟩, ⟨2, [], 3⟩, 2, rfl, rfl, fun _ => rfl⟩,
    ⟨fun d s => d == 0 || (d == 2 && s == 1), fun d => d == 3, ⟨0, [], 1⟩, ⟨2, [4], 3⟩, 4, rfl, ⟨2, by simp [Guess.libs], 1, by simp, rfl⟩, rfl, rfl,
      fun _ => rfl⟩⟩

end Verif.Configure
