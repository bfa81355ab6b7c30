import Verif.Decoh.Props

/-!
# Decoherence after any sequence of calls (C87)
-/

namespace Verif.Decoh

/-! ## Calls -/

/-- The public calls that change the object (nuSQUIDSDecoh.h 40-78). -/
inductive Call where
  | enable (b : Bool)
  | index (n : ℝ)
  | scale (e : ℝ)
  | matrix (rows cols : Nat) (d : Nat → Nat → ℝ) (gm : Bool)
  | diagonal (len : Nat) (d : Nat → ℝ) (gm : Bool)
  | model (m : Prebuilt) (g : ℝ)

def step (s : Nsq) : Call → Nsq × Outcome Unit
  | .enable b => (enable s b, .ok ())
  | .index n => (setIndex s n, .ok ())
  | .scale e => (setScale s e, .ok ())
  | .matrix r c d gm => setMatrix s r c d gm
  | .diagonal len d gm => setDiagonal s len d gm
  | .model m g => setModel s m g

/-- Histories; nothing is said after undefined behaviour. -/
inductive Run (numneu : Nat) (GeV : ℝ) : List Call → Nsq → Prop where
  | start : Run numneu GeV [] (init numneu GeV)
  | call {h : List Call} {s s' : Nsq} {o : Outcome Unit} (c : Call) (hr : Run numneu GeV h s) (hc : step s c = (s', o)) (ho : o ≠ .ub) :
      Run numneu GeV (h ++ [c]) s'

/-! ## Specification -/

/-- The matrix a call gives, and whether in the numbering of Gell-Mann; `none` if the call is no such call or is refused. -/
def givenMatrix (numneu : Nat) : Call → Option ((Nat → Nat → ℝ) × Bool)
  | .matrix r c d gm => if r = numneu ^ 2 ∧ c = numneu ^ 2 ∧ (gm = true → numneu = 0 ∨ numneu = 2 ∨ numneu = 3) then some (d, gm) else none
  | .diagonal len d gm =>
    if len = numneu ^ 2 ∧ (gm = true → numneu = 0 ∨ numneu = 2 ∨ numneu = 3) then some (fun i j => if i = j then d i else 0, gm) else none
  | .model .neutrinoLoss g => some (fun i j => if i = j then g else 0, false)
  | .model .randomizeState g => some (fun i j => if i = j ∧ i ≠ 0 then g else 0, false)
  | .model .randomizePhase g => some (fun i j => if i = j ∧ i ≠ 0 ∧ i ≠ 3 ∧ i ≠ 8 then g else 0, false)
  | _ => none

/-- The value of the last call that gives one, else `x`. -/
def lastOf {α : Type} (f : Call → Option α) : List Call → α → α
  | [], x => x
  | c :: h, x => lastOf f h ((f c).getD x)

def givenIndex : Call → Option ℝ
  | .index n => some n
  | _ => none

def givenScale : Call → Option ℝ
  | .scale e => some e
  | _ => none

def givenSwitch : Call → Option Bool
  | .enable b => some b
  | _ => none

/-- The matrix `G` of the object is the matrix `p.1` in the numbering `p.2` says. -/
def Holds (numneu : Nat) (p : (Nat → Nat → ℝ) × Bool) (G : Nat → Nat → ℝ) : Prop :=
  ∀ i < numneu ^ 2, ∀ j < numneu ^ 2,
    if p.2 then ∃ m n, mapBasis numneu i = .ok m ∧ mapBasis numneu j = .ok n ∧ G m n = p.1 i j else G i j = p.1 i j

/-! ## Proofs -/

theorem lastOf_snoc {α : Type} (f : Call → Option α) (h : List Call) (c : Call) (x : α) : lastOf f (h ++ [c]) x = (f c).getD (lastOf f h x) := by
  induction h generalizing x with
  | nil => rfl
  | cons d h ih => exact ih _

theorem matrix_step {s s' : Nsq} {o : Outcome Unit} {r c : Nat} {d : Nat → Nat → ℝ} {gm : Bool} (h : setMatrix s r c d gm = (s', o)) :
    s'.numneu = s.numneu ∧ s'.index = s.index ∧ s'.scale = s.scale ∧ s'.enabled = s.enabled ∧
    match givenMatrix s.numneu (.matrix r c d gm) with
    | none => s' = s
    | some p => Holds s.numneu p s'.gamma := by
  by_cases hc : r = s.numneu ^ 2 ∧ c = s.numneu ^ 2 ∧ (gm = true → s.numneu = 0 ∨ s.numneu = 2 ∨ s.numneu = 3)
  · simp only [givenMatrix]
    rw [if_pos hc]
    obtain ⟨rfl, rfl, hg⟩ := hc
    cases gm with
    | false =>
      obtain ⟨t, h1, h2, h3, h4, h5, h6⟩ := c87_set_get s d
      rw [show s.numneu ^ 2 = s.nb from rfl, h1] at h
      cases h
      exact ⟨h3, h4, h5, h6, fun i hi j hj => by simpa [getMatrix] using h2 i hi j hj⟩
    | true =>
      rcases hg rfl with h0 | hg
      · have hnb : s.nb = 0 := by unfold Nsq.nb; rw [h0]; rfl
        unfold setMatrix at h
        rw [show s.numneu ^ 2 = s.nb from rfl, hnb] at h
        simp only [ne_eq, not_true_eq_false, if_false, pairs, List.range_zero, List.flatMap_nil, setLoop] at h
        cases h
        refine ⟨rfl, rfl, rfl, rfl, ?_⟩
        intro i hi
        rw [h0] at hi
        simp at hi
      · obtain ⟨t, h1, h2, h3, h4, h5, h6⟩ := c87_set_get_gellMann s hg d
        rw [show s.numneu ^ 2 = s.nb from rfl, h1] at h
        cases h
        exact ⟨h3, h4, h5, h6, fun i hi j hj => by simpa [getMatrix] using h2 i hi j hj⟩
  · have hr : setMatrix s r c d gm = (s, .throws) := by
      apply c87_refused
      by_contra hn
      simp only [not_or, not_and, not_not] at hn
      refine hc ⟨hn.1, hn.2.1, fun hg => ?_⟩
      by_contra h0
      simp only [not_or] at h0
      exact h0.2.2 (hn.2.2 hg h0.1 h0.2.1)
    rw [hr] at h
    cases h
    simp only [givenMatrix]
    rw [if_neg hc]
    exact ⟨trivial, trivial, trivial, trivial, trivial⟩

theorem diagonal_step {s s' : Nsq} {o : Outcome Unit} {len : Nat} {d : Nat → ℝ} {gm : Bool} (h : setDiagonal s len d gm = (s', o)) :
    s'.numneu = s.numneu ∧ s'.index = s.index ∧ s'.scale = s.scale ∧ s'.enabled = s.enabled ∧
    match givenMatrix s.numneu (.diagonal len d gm) with
    | none => s' = s
    | some p => Holds s.numneu p s'.gamma := by
  by_cases hl : len = s.nb
  · rw [(c87_diagonal s len d gm).2 hl] at h
    have := matrix_step h
    subst hl
    simp only [givenMatrix, Nsq.nb, true_and] at this ⊢
    exact this
  · rw [(c87_diagonal s len d gm).1 hl] at h
    cases h
    refine ⟨rfl, rfl, rfl, rfl, ?_⟩
    simp only [givenMatrix]
    rw [if_neg fun hc => hl hc.1]
    trivial

theorem model_diagonal {s s' : Nsq} {d : Nat → ℝ} {o : Outcome Unit} (h : setDiagonal s s.nb d false = (s', o)) :
    s'.numneu = s.numneu ∧ s'.index = s.index ∧ s'.scale = s.scale ∧ s'.enabled = s.enabled ∧
    Holds s.numneu (fun i j => if i = j then d i else 0, false) s'.gamma := by
  have := diagonal_step h
  simpa [givenMatrix, Nsq.nb] using this

theorem holds_congr {n : Nat} {d d' : Nat → Nat → ℝ} {G : Nat → Nat → ℝ} (h : Holds n (d, false) G) (he : ∀ i < n ^ 2, ∀ j < n ^ 2, d i j = d' i j) :
    Holds n (d', false) G := by
  intro i hi j hj
  have := h i hi j hj
  simp only [Bool.false_eq_true, if_false] at this ⊢
  rw [this, he i hi j hj]

theorem model_step {s s' : Nsq} {o : Outcome Unit} {m : Prebuilt} {g : ℝ} (h : setModel s m g = (s', o)) (ho : o ≠ .ub) :
    s'.numneu = s.numneu ∧ s'.index = s.index ∧ s'.scale = s.scale ∧ s'.enabled = s.enabled ∧
    match givenMatrix s.numneu (.model m g) with
    | none => s' = s
    | some p => Holds s.numneu p s'.gamma := by
  cases m with
  | neutrinoLoss =>
    simp only [setModel, prebuilt] at h
    simpa [givenMatrix] using model_diagonal h
  | randomizeState =>
    by_cases h0 : 0 < s.nb
    · simp only [setModel, prebuilt, put, if_pos h0] at h
      obtain ⟨a1, a2, a3, a4, a5⟩ := model_diagonal h
      refine ⟨a1, a2, a3, a4, holds_congr a5 fun i hi j hj => ?_⟩
      by_cases e : i = j
      · subst e; by_cases e0 : i = 0 <;> simp [e0]
      · simp [e]
    · simp only [setModel, prebuilt, put, if_neg h0] at h
      cases h
      exact absurd rfl ho
  | randomizePhase =>
    by_cases h8 : 8 < s.nb
    · have h0 : 0 < s.nb := by omega
      have h3 : 3 < s.nb := by omega
      simp only [setModel, prebuilt, put, if_pos h0, if_pos h3, if_pos h8, Outcome.bind] at h
      obtain ⟨a1, a2, a3, a4, a5⟩ := model_diagonal h
      refine ⟨a1, a2, a3, a4, holds_congr a5 fun i hi j hj => ?_⟩
      by_cases e : i = j
      · subst e
        by_cases e0 : i = 0
        · simp [e0]
        · by_cases e3 : i = 3
          · simp [e3]
          · by_cases e8 : i = 8 <;> simp [e0, e3, e8]
      · simp [e]
    · have : setModel s .randomizePhase g = (s, .ub) := by
        unfold setModel prebuilt
        by_cases h0 : 0 < s.nb <;> by_cases h3 : 3 < s.nb <;> simp [put, h0, h3, h8, Outcome.bind]
      rw [this] at h
      cases h
      exact absurd rfl ho

/-- C87: after any sequence of calls the power, the energy scale and the switch are those given last, and the matrix is the one given last that
was accepted, in its numbering (zero if there was none). -/
theorem c87_history {numneu : Nat} {GeV : ℝ} {h : List Call} {s : Nsq} (hr : Run numneu GeV h s) :
    s.numneu = numneu ∧ s.index = lastOf givenIndex h 0 ∧ s.scale = lastOf givenScale h GeV ∧ s.enabled = lastOf givenSwitch h true ∧
    Holds numneu (lastOf (givenMatrix numneu) h (fun _ _ => 0, false)) s.gamma := by
  induction hr with
  | start => exact ⟨rfl, rfl, by simp [init, lastOf], rfl, fun i _ j _ => by simp [lastOf, init]⟩
  | call c _ hc ho ih =>
    rename_i h s s' o _
    obtain ⟨i1, i2, i3, i4, i5⟩ := ih
    simp only [lastOf_snoc]
    have easy : ∀ (x : Option ((Nat → Nat → ℝ) × Bool)), givenMatrix s.numneu c = x → (match x with
        | none => s' = s
        | some p => Holds s.numneu p s'.gamma) →
        Holds numneu ((givenMatrix numneu c).getD (lastOf (givenMatrix numneu) h (fun _ _ => 0, false))) s'.gamma := by
      intro x hx hm
      rw [i1] at hx hm
      rw [hx]
      cases x with
      | none => rw [show s' = s from hm]; exact i5
      | some p => exact hm
    cases c with
    | enable b => cases hc; exact ⟨i1, i2, i3, rfl, i5⟩
    | index n => cases hc; exact ⟨i1, rfl, i3, i4, i5⟩
    | scale e => cases hc; exact ⟨i1, i2, rfl, i4, i5⟩
    | matrix r c d gm =>
      obtain ⟨a1, a2, a3, a4, a5⟩ := matrix_step hc
      exact ⟨a1.trans i1, a2.trans i2, a3.trans i3, a4.trans i4, easy _ rfl a5⟩
    | diagonal len d gm =>
      obtain ⟨a1, a2, a3, a4, a5⟩ := diagonal_step hc
      exact ⟨a1.trans i1, a2.trans i2, a3.trans i3, a4.trans i4, easy _ rfl a5⟩
    | model m g =>
      obtain ⟨a1, a2, a3, a4, a5⟩ := model_step hc ho
      exact ⟨a1.trans i1, a2.trans i2, a3.trans i3, a4.trans i4, easy _ rfl a5⟩

/-- A history: a refused matrix leaves the earlier one in place. -/
example : ∃ s, Run 3 10 [.model .neutrinoLoss 2, .scale 5, .diagonal 4 (fun _ => 7) false, .index 3, .enable false] s ∧ s.scale = 5 ∧ s.index = 3 ∧
    s.enabled = false ∧ s.gamma 4 4 = 2 := by
  obtain ⟨s1, h1, _⟩ := c87_loss (init 3 10) 2
  have hnn : (setScale s1 5).numneu = 3 := (c87_history (.call (.model .neutrinoLoss 2) .start h1 (by simp))).1
  have r : Run 3 10 [.model .neutrinoLoss 2, .scale 5, .diagonal 4 (fun _ => 7) false, .index 3, .enable false]
      (enable (setIndex (setScale s1 5) 3) false) :=
    .call (.enable false) (.call (.index 3) (.call (o := .throws) (.diagonal 4 (fun _ => 7) false) (.call (.scale 5)
      (.call (.model .neutrinoLoss 2) .start h1 (by simp)) rfl (by simp))
      ((c87_diagonal (setScale s1 5) 4 (fun _ => 7) false).1 (by unfold Nsq.nb; rw [hnn]; decide)) (by simp)) rfl (by simp)) rfl (by simp)
  refine ⟨_, r, rfl, rfl, rfl, ?_⟩
  have := (c87_history r).2.2.2.2 4 (by decide) 4 (by decide)
  simpa [lastOf, givenMatrix] using this

end Verif.Decoh
