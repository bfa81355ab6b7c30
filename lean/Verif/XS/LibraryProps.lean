import Verif.XS.Library

/-! C64: the cross-section library never replaces an entry. -/

namespace Verif.XS

/-! ## Specification -/

/-- The target a call names and the pointer it offers. -/
def offer : LibOp → Int × Ptr
  | .addObject t x => (t, some x)
  | .addPointer t p => (t, p)

/-- The pointer offered first for a target: by the map the library was made from, or by the first call that names it. -/
def firstOffer (initial : Lib) (calls : List LibOp) (t : Int) : Option Ptr :=
  ((initial ++ calls.map offer).find? fun e => e.1 == t).map Prod.snd

/-! ## Lemmas -/

theorem libStep_eq (l : Lib) (op : LibOp) :
    libStep l op = if hasTarget l (offer op).1 then (l, .threw) else ((offer op) :: l, .returned) := by
  have key : ∀ t p, ¬hasTarget l t = true → emplace l t p = (t, p) :: l := by
    intro t p h
    unfold emplace
    unfold hasTarget at h
    cases hf : l.find? fun e => e.1 == t with
    | none => rfl
    | some e => rw [hf] at h; exact absurd rfl h
  have main : ∀ t p, (if hasTarget l t then (l, Ended.threw) else (emplace l t p, Ended.returned)) =
      if hasTarget l t then (l, Ended.threw) else ((t, p) :: l, Ended.returned) := by
    intro t p
    by_cases h : hasTarget l t = true
    · rw [if_pos h, if_pos h]
    · rw [if_neg h, if_neg h, key _ _ h]
  cases op with
  | addObject t x => exact main t (some x)
  | addPointer t p => exact main t p

theorem find_run : ∀ (calls : List LibOp) (l : Lib) (t : Int),
    ((libRun l calls).1.find? fun e => e.1 == t).map Prod.snd = firstOffer l calls t := by
  intro calls
  induction calls with
  | nil => intro l t; simp [libRun, firstOffer]
  | cons op ops ih =>
    intro l t
    simp only [libRun]
    rw [ih, libStep_eq]
    unfold firstOffer
    cases hh : hasTarget l (offer op).1 with
    | true =>
      unfold hasTarget at hh
      simp only [if_true, List.map_cons, List.find?_append, List.find?_cons]
      cases hl : l.find? fun e => e.1 == t with
      | some e => simp
      | none =>
        have hne : ((offer op).1 == t) = false := by
          cases hb : (offer op).1 == t with
          | false => rfl
          | true => rw [eq_of_beq hb, hl] at hh; simp at hh
        simp [hne]
    | false =>
      unfold hasTarget at hh
      simp only [Bool.false_eq_true, if_false, List.map_cons, List.find?_append, List.find?_cons]
      cases hb : (offer op).1 == t with
      | false => simp
      | true =>
        rw [eq_of_beq hb] at hh
        cases hl : l.find? fun e => e.1 == t with
        | some e => rw [hl] at hh; simp at hh
        | none => simp

theorem run_append (l : Lib) (a b : List LibOp) :
    libRun l (a ++ b) = ((libRun (libRun l a).1 b).1, (libRun l a).2 ++ (libRun (libRun l a).1 b).2) := by
  induction a generalizing l with
  | nil => rfl
  | cons op ops ih => simp only [List.cons_append, libRun, ih]

/-! ## Theorems -/

/-- C64: after every history of calls, on a library made empty or from any map, a lookup gives what was offered first. -/
theorem c64_first_wins (initial : Lib) (calls : List LibOp) (t : Int) :
    crossSectionForTarget (libRun initial calls).1 t = (firstOffer initial calls t).getD none := by
  rw [← find_run]
  unfold crossSectionForTarget
  cases (libRun initial calls).1.find? fun e => e.1 == t <;> rfl

/-- C64: targets never offered are reported absent, with a null pointer, and all others present. -/
theorem c64_absent (initial : Lib) (calls : List LibOp) (t : Int) :
    (hasTarget (libRun initial calls).1 t = false ↔ (∀ e ∈ initial, e.1 ≠ t) ∧ ∀ op ∈ calls, (offer op).1 ≠ t) ∧
    (hasTarget (libRun initial calls).1 t = false → crossSectionForTarget (libRun initial calls).1 t = none) := by
  constructor
  · have h : hasTarget (libRun initial calls).1 t = (firstOffer initial calls t).isSome := by
      rw [← find_run, hasTarget]
      simp
    rw [h, firstOffer]
    simp only [Option.isSome_map, List.find?_append, Option.isSome_or, Bool.or_eq_false_iff, List.find?_map]
    simp only [Option.isSome_eq_false_iff, Option.isNone_iff_eq_none, List.find?_eq_none, beq_iff_eq,
      Function.comp]
  · intro h
    unfold hasTarget at h
    unfold crossSectionForTarget
    cases hf : (libRun initial calls).1.find? fun e => e.1 == t with
    | none => rfl
    | some e => rw [hf] at h; simp at h

/-- C64: a call throws exactly when its target was offered before, and then changes nothing. -/
theorem c64_repeat_throws (initial : Lib) (calls : List LibOp) (op : LibOp) :
    ((libStep (libRun initial calls).1 op).2 = .threw ↔
      (∃ e ∈ initial, e.1 = (offer op).1) ∨ ∃ c ∈ calls, (offer c).1 = (offer op).1) ∧
    ((libStep (libRun initial calls).1 op).2 = .threw → (libStep (libRun initial calls).1 op).1 = (libRun initial calls).1) := by
  have hab := (c64_absent initial calls (offer op).1).1
  rw [libStep_eq]
  cases hh : hasTarget (libRun initial calls).1 (offer op).1 with
  | true =>
    refine ⟨⟨fun _ => ?_, fun _ => rfl⟩, fun _ => rfl⟩
    apply Classical.byContradiction
    intro hc
    have := hab.2 ⟨fun e he h => hc (Or.inl ⟨e, he, h⟩), fun c hm h => hc (Or.inr ⟨c, hm, h⟩)⟩
    rw [hh] at this
    exact absurd this (by decide)
  | false =>
    obtain ⟨h1, h2⟩ := hab.1 hh
    refine ⟨⟨fun h => by simp at h, ?_⟩, fun h => by simp at h⟩
    rintro (⟨e, he, h⟩ | ⟨c, hc, h⟩)
    · exact absurd h (h1 e he)
    · exact absurd h (h2 c hc)

/-- C64: the default library has the three targets of the per-target tables, each with its own object, and no other. -/
theorem c64_default_library (p n g : Nat) (t : Int) :
    crossSectionForTarget (loadDefault p n g) t =
      if t = 2212 then some p else if t = 2112 then some n else if t = 11 then some g else none := by
  unfold loadDefault
  rw [c64_first_wins]
  unfold firstOffer
  simp only [List.nil_append, List.map_cons, List.map_nil, offer, List.find?_cons, List.find?_nil]
  by_cases h1 : t = 2212
  · subst h1; rfl
  · by_cases h2 : t = 2112
    · subst h2; rfl
    · by_cases h3 : t = 11
      · subst h3; rfl
      · have e1 : ((2212 : Int) == t) = false := by simpa using Ne.symm h1
        have e2 : ((2112 : Int) == t) = false := by simpa using Ne.symm h2
        have e3 : ((11 : Int) == t) = false := by simpa using Ne.symm h3
        rw [if_neg h1, if_neg h2, if_neg h3, e1, e2, e3]
        rfl

example : libRun [(2212, some 1)] [.addPointer 11 none, .addObject 2212 5, .addPointer 11 (some 7), .addObject 2112 9] =
    ([(2112, some 9), (11, none), (2212, some 1)], [.returned, .threw, .threw, .returned]) := by decide

example : firstOffer [(2212, some 1)] [.addPointer 11 none, .addObject 2212 5, .addPointer 11 (some 7)] 11 = some none := by decide

end Verif.XS
