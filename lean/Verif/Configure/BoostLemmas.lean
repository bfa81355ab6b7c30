import Verif.Configure.Boost

/-!
# The search for Boost: what is meant, and lemmas
-/

namespace Verif.Configure

/-! ## Meaning -/

/-- The directories for the library. -/
def Guess.libs {D : Type} (g : Guess D) : List D := g.first :: g.rest

/-- There is a library for Python. -/
def HasLib {D S : Type} (lib : D → S → Bool) (suffixes : List S) (g : Guess D) : Prop := ∃ d ∈ g.libs, ∃ s ∈ suffixes, lib d s = true

/-- The variables name headers and a library that are there. -/
def Sound {D S : Type} (lib : D → S → Bool) (hdr : D → Bool) (b : Boost D S) : Prop :=
  ∃ i d s, b.inc = some i ∧ b.link = some d ∧ b.name = some s ∧ hdr i = true ∧ lib d s = true

/-! ## Lemmas -/

theorem boostRow_spec {D : Type} (good : D → Bool) (old : D) (l : List D) :
    ((boostRow good old l).2 = true ∧ (boostRow good old l).1 ∈ l ∧ good (boostRow good old l).1 = true) ∨
    ((boostRow good old l).2 = false ∧ ∀ d ∈ l, good d = false) := by
  induction l generalizing old with
  | nil => exact .inr ⟨rfl, by simp⟩
  | cons d l ih =>
    simp only [boostRow]
    by_cases h : good d = true
    · rw [if_pos h]
      exact .inl ⟨rfl, by simp, h⟩
    · rw [if_neg h]
      have h' : good d = false := by simpa using h
      rcases ih d with ⟨h1, h2, h3⟩ | ⟨h1, h2⟩
      · exact .inl ⟨h1, by simp [h2], h3⟩
      · exact .inr ⟨h1, by simpa [h'] using h2⟩

theorem boostLib_none {D S : Type} (lib : D → S → Bool) (g : Guess D) (suffixes : List S) (r : Boost D S × D) (hr : r.1.pyFound = false)
    (h : ¬HasLib lib suffixes g) : (boostLib lib g r suffixes).1 = r.1 := by
  induction suffixes generalizing r with
  | nil => rfl
  | cons s l ih =>
    obtain ⟨b, x⟩ := r
    simp only [boostLib]
    rcases boostRow_spec (fun d => lib d s) g.first (g.first :: g.rest) with ⟨_, h2, h3⟩ | ⟨h1, _⟩
    · exact absurd ⟨_, h2, s, by simp, h3⟩ h
    · have hr : b.pyFound = false := hr
      rw [h1]
      simp only [Bool.false_eq_true, if_false, hr]
      exact ih (b, _) hr fun ⟨d, hd, t, ht, h4⟩ => h ⟨d, hd, t, by simp [ht], h4⟩

theorem boostLib_some {D S : Type} (lib : D → S → Bool) (g : Guess D) (suffixes : List S) (r : Boost D S × D) (hr : r.1.pyFound = false)
    (h : HasLib lib suffixes g) : ∃ s ∈ suffixes, (boostLib lib g r suffixes).2 ∈ g.libs ∧ lib (boostLib lib g r suffixes).2 s = true ∧
      (boostLib lib g r suffixes).1 = { r.1 with pyFound := true, name := some s } := by
  induction suffixes generalizing r with
  | nil =>
    obtain ⟨_, _, s, hs, _⟩ := h
    simp at hs
  | cons s l ih =>
    obtain ⟨b, x⟩ := r
    have hr : b.pyFound = false := hr
    simp only [boostLib]
    rcases boostRow_spec (fun d => lib d s) g.first (g.first :: g.rest) with ⟨h1, h2, h3⟩ | ⟨h1, h2⟩
    · rw [h1]
      simp only [if_true]
      exact ⟨s, by simp, h2, h3, rfl⟩
    · rw [h1]
      simp only [Bool.false_eq_true, if_false, hr]
      have : HasLib lib l g := by
        obtain ⟨d, hd, t, ht, h4⟩ := h
        rcases List.mem_cons.1 ht with rfl | ht
        · have := h2 d hd
          rw [this] at h4
          simp at h4
        · exact ⟨d, hd, t, ht, h4⟩
      obtain ⟨t, ht, h5, h6, h7⟩ := ih (b, (boostRow (fun d => lib d s) g.first (g.first :: g.rest)).1) hr this
      exact ⟨t, by simp [ht], h5, h6, h7⟩

theorem fold_nothing {D S : Type} (lib : D → S → Bool) (hdr : D → Bool) (suffixes : List S) (pre : List (Guess D)) (b : Boost D S) (hb : b.found = false)
    (hp : b.pyFound = false) (h : ∀ g ∈ pre, hdr g.inc = false ∧ ¬HasLib lib suffixes g) : pre.foldl (tryBoost lib hdr suffixes) b = b := by
  induction pre with
  | nil => rfl
  | cons g l ih =>
    have e : tryBoost lib hdr suffixes b g = b := by
      unfold tryBoost
      simp only [hb, Bool.false_eq_true, if_false, (h g (by simp)).1]
      exact boostLib_none lib g suffixes (b, g.first) hp (h g (by simp)).2
    rw [List.foldl_cons, e]
    exact ih fun x hx => h x (by simp [hx])

theorem fold_found {D S : Type} (lib : D → S → Bool) (hdr : D → Bool) (suffixes : List S) (l : List (Guess D)) (b : Boost D S) (hb : b.found = true) :
    l.foldl (tryBoost lib hdr suffixes) b = b := by
  induction l with
  | nil => rfl
  | cons g l ih =>
    have e : tryBoost lib hdr suffixes b g = b := by
      unfold tryBoost
      rw [if_pos hb]
    rw [List.foldl_cons, e, ih]

theorem fold_never {D S : Type} (lib : D → S → Bool) (hdr : D → Bool) (suffixes : List S) (l : List (Guess D)) (b : Boost D S) (hb : b.pyFound = false)
    (h : ∀ g ∈ l, ¬HasLib lib suffixes g) : (l.foldl (tryBoost lib hdr suffixes) b).pyFound = false := by
  induction l generalizing b with
  | nil => exact hb
  | cons g l ih =>
    rw [List.foldl_cons]
    refine ih _ ?_ fun x hx => h x (by simp [hx])
    have e := boostLib_none lib g suffixes (b, g.first) hb (h g (by simp))
    unfold tryBoost
    split
    · exact hb
    · dsimp only
      split
      · show (boostLib lib g (b, g.first) suffixes).1.pyFound = false
        rw [e]
        exact hb
      · rw [e]
        exact hb

end Verif.Configure
