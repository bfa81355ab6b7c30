import Mathlib.Algebra.BigOperators.Intervals
import Mathlib.Algebra.Order.BigOperators.Group.Finset
import Mathlib.Algebra.Order.BigOperators.Group.List
import Mathlib.Tactic.Ring
import Mathlib.Tactic.Abel
import Mathlib.Tactic.Module
import Mathlib.Tactic.Linarith
import Mathlib.Tactic.Positivity
import Verif.Interact.Update

/-! Closed forms of the loops of `UpdateInteractions`. -/

namespace Verif.Update

set_option linter.unusedSectionVars false

open Matter (NT Targets Consts)

/-! ## Loops -/

theorem loop_zero {S : Type} (lo hi : Nat) (h : hi ≤ lo) (f : Nat → S → S) (s : S) : loop lo hi f s = s := by
  unfold loop
  rw [Nat.sub_eq_zero_of_le h]
  rfl

theorem loop_succ {S : Type} (lo hi : Nat) (h : lo ≤ hi) (f : Nat → S → S) (s : S) : loop lo (hi + 1) f s = f hi (loop lo hi f s) := by
  unfold loop
  rw [Nat.succ_sub h, Nat.succ_eq_add_one, List.range'_concat, List.foldl_append]
  have : lo + 1 * (hi - lo) = hi := by omega
  rw [this]
  rfl

theorem loop_ind {S : Type} (P : Nat → S → Prop) (lo : Nat) (f : Nat → S → S) (s : S) (h0 : P lo s)
    (hstep : ∀ i s, lo ≤ i → P i s → P (i + 1) (f i s)) : ∀ hi, lo ≤ hi → P hi (loop lo hi f s) := by
  intro hi hle
  induction hi, hle using Nat.le_induction with
  | base => rw [loop_zero lo lo (le_refl _)]; exact h0
  | succ hi hle ih => rw [loop_succ lo hi hle]; exact hstep hi _ hle ih

theorem loop_proj {S T : Type} (π : S → T) (f : Nat → S → S) (g : Nat → T → T) (h : ∀ i s, π (f i s) = g i (π s)) (lo hi : Nat) (s : S) :
    π (loop lo hi f s) = loop lo hi g (π s) := by
  unfold loop
  generalize List.range' lo (hi - lo) = l
  induction l generalizing s with
  | nil => rfl
  | cons i l ih => simp only [List.foldl_cons]; rw [ih, h]

theorem loop_congr {S : Type} (f g : Nat → S → S) (lo hi : Nat) (h : ∀ i s, lo ≤ i → i < hi → f i s = g i s) (s : S) :
    loop lo hi f s = loop lo hi g s := by
  rcases Nat.lt_or_ge hi lo with hlt | hle
  · rw [loop_zero lo hi (le_of_lt hlt), loop_zero lo hi (le_of_lt hlt)]
  · induction hi, hle using Nat.le_induction with
    | base => rw [loop_zero lo lo (le_refl _), loop_zero lo lo (le_refl _)]
    | succ hi hle ih =>
      rw [loop_succ lo hi hle, loop_succ lo hi hle, ih (fun i s h1 h2 => h i s h1 (Nat.lt_succ_of_lt h2)), h hi _ hle (Nat.lt_succ_self _)]

theorem loop_add {M : Type} [AddCommMonoid M] (f : Nat → M → M) (g : Nat → M) (h : ∀ i m, f i m = m + g i) (lo hi : Nat) (m : M) :
    loop lo hi f m = m + ∑ i ∈ Finset.Ico lo hi, g i := by
  rcases Nat.lt_or_ge hi lo with hlt | hle
  · rw [loop_zero lo hi (le_of_lt hlt), Finset.Ico_eq_empty (by omega), Finset.sum_empty, add_zero]
  · induction hi, hle using Nat.le_induction with
    | base => rw [loop_zero lo lo (le_refl _), Finset.Ico_self, Finset.sum_empty, add_zero]
    | succ hi hle ih => rw [loop_succ lo hi hle, h, ih, Finset.sum_Ico_succ_top hle, add_assoc]

variable {K : Type} [Field K] [LinearOrder K]

/-- The step adds `g k` to entry `k` of a buffer of length `L`. -/
def AddsTo (L : Nat) (f : List K → List K) (g : Nat → K) : Prop :=
  ∀ b, b.length = L → (f b).length = L ∧ ∀ k, k < L → (f b).getD k 0 = b.getD k 0 + g k

theorem addsTo_loop (L lo hi : Nat) (f : Nat → List K → List K) (g : Nat → Nat → K) (h : ∀ i, AddsTo L (f i) (g i)) :
    AddsTo L (loop lo hi f) fun k => ∑ i ∈ Finset.Ico lo hi, g i k := by
  intro b hb
  rcases Nat.lt_or_ge hi lo with hlt | hle
  · rw [loop_zero lo hi (le_of_lt hlt), Finset.Ico_eq_empty (by omega)]
    exact ⟨hb, fun k _ => by simp⟩
  · induction hi, hle using Nat.le_induction with
    | base => rw [loop_zero lo lo (le_refl _), Finset.Ico_self]; exact ⟨hb, fun k _ => by simp⟩
    | succ hi hle ih =>
      obtain ⟨h1, h2⟩ := h hi _ ih.1
      rw [loop_succ lo hi hle]
      refine ⟨h1, fun k hk => ?_⟩
      rw [h2 k hk, ih.2 k hk]
      dsimp only
      rw [Finset.sum_Ico_succ_top hle, add_assoc]

/-- Sum over the targets. -/
def tsum (l : List K) (g : Nat → K → K) : K := (l.zipIdx.map fun x => g x.2 x.1).sum

theorem addsTo_targets (L : Nat) (l : List K) (f : Nat → K → List K → List K) (g : Nat → K → Nat → K) (h : ∀ t d, AddsTo L (f t d) (g t d)) :
    AddsTo L (forTargets l f) fun k => tsum l fun t d => g t d k := by
  unfold forTargets tsum
  generalize l.zipIdx = z
  induction z with
  | nil => intro b hb; exact ⟨hb, fun k _ => by simp⟩
  | cons x z ih =>
    intro b hb
    obtain ⟨h1, h2⟩ := h x.2 x.1 b hb
    obtain ⟨h3, h4⟩ := ih _ h1
    refine ⟨h3, fun k hk => ?_⟩
    simp only [List.foldl_cons, List.map_cons, List.sum_cons]
    rw [h4 k hk, h2 k hk, add_assoc]

theorem addsTo_below (L m : Nat) (f : Nat → K) : AddsTo L (fun b => addBelow b m f) fun k => if k < m then f k else 0 := by
  intro b hb
  refine ⟨by simp [addBelow, hb], fun k hk => ?_⟩
  have hk' : k < b.length := by omega
  simp only [addBelow, List.getD_eq_getElem?_getD, List.getElem?_mapIdx, List.getElem?_eq_getElem hk', Option.map_some, Option.getD_some]
  split <;> simp

theorem addsTo_fromOne (L m : Nat) (f : Nat → K) : AddsTo L (fun b => addFromOne b m f) fun k => if 1 ≤ k ∧ k < m then f k else 0 := by
  intro b hb
  refine ⟨by simp [addFromOne, hb], fun k hk => ?_⟩
  have hk' : k < b.length := by omega
  simp only [addFromOne, List.getD_eq_getElem?_getD, List.getElem?_mapIdx, List.getElem?_eq_getElem hk', Option.map_some, Option.getD_some]
  split <;> simp

theorem addsTo_id (L : Nat) : AddsTo (K := K) L (fun b => b) fun _ => 0 := fun b hb => ⟨hb, fun k _ => by simp⟩

theorem addsTo_congr {L : Nat} {f : List K → List K} {g g' : Nat → K} (h : AddsTo L f g) (hg : ∀ k, g k = g' k) : AddsTo L f g' := by
  intro b hb
  obtain ⟨h1, h2⟩ := h b hb
  exact ⟨h1, fun k hk => by rw [h2 k hk, hg]⟩

theorem zeros_length (ne : Nat) : (zeros ne : List K).length = Cache.roundUp ne := by simp [zeros]

theorem zeros_get (ne k : Nat) (hk : k < Cache.roundUp ne) : (zeros ne : List K).getD k 0 = 0 := by
  simp [zeros, List.getD_eq_getElem?_getD, hk]

theorem le_roundUp (n : Nat) : n ≤ Cache.roundUp n := by unfold Cache.roundUp; split <;> omega

theorem zeros_adds {ne : Nat} {f : List K → List K} {g : Nat → K} (h : AddsTo (Cache.roundUp ne) f g) :
    (f (zeros ne)).length = Cache.roundUp ne ∧ ∀ k, k < Cache.roundUp ne → (f (zeros ne)).getD k 0 = g k := by
  obtain ⟨h1, h2⟩ := h _ (zeros_length ne)
  exact ⟨h1, fun k hk => by rw [h2 k hk, zeros_get ne k hk, zero_add]⟩

/-! ## Closed forms -/

variable {V : Type} [AddCommGroup V] [Module K V]

/-- What node `e2` adds to node `k` by neutral currents, for the flux `φ`. -/
def Net.ncPart (n : Net K V) (old : K) (φ : K) (rho a e2 k : Nat) : K :=
  tsum n.fractions fun trg tF => tF * (φ * (n.invNC old rho a e2 * n.delE (e2 - 1))) * n.dNdE_NC trg rho a e2 k

def Net.ncSum (n : Net K V) (old : K) (φ : Nat → Nat → Nat → K) (rho a k : Nat) : K :=
  ∑ e2 ∈ Finset.Ico 1 n.ne, if k < e2 then n.ncPart old (φ e2 rho a) rho a e2 k else 0

/-- Taus of energy `et` from neutrinos at node `en`. -/
def Net.tauPart (n : Net K V) (old : K) (φ : Nat → Nat → Nat → K) (rho en et : Nat) : K :=
  if φ en 0 2 ≤ 0 ∧ φ en 1 2 ≤ 0 then 0
  else tsum n.fractions fun trg tF => if 1 ≤ et ∧ et < en then φ en rho 2 * n.invCC old rho 2 en * n.delE (en - 1) * tF * n.dNdE_CC trg rho 2 en et * n.delE (et - 1) else 0

def Net.tauSum (n : Net K V) (old : K) (φ : Nat → Nat → Nat → K) (rho et : Nat) : K :=
  ∑ en ∈ Finset.Ico 1 n.ne, n.tauPart old φ rho en et

def Net.lepSum (n : Net K V) (old : K) (φ : Nat → Nat → Nat → K) (r k : Nat) : K :=
  ∑ et ∈ Finset.Ico 1 n.ne, if k < et then n.tauSum old φ r et * n.tauLep r et k else 0

def Net.allSum (n : Net K V) (old : K) (φ : Nat → Nat → Nat → K) (r k : Nat) : K :=
  ∑ et ∈ Finset.Ico 1 n.ne, if k < et then n.tauSum old φ r et * n.tauAll r et k else 0

def Net.grSum (n : Net K V) (φ : Nat → Nat → Nat → K) (k : Nat) : K :=
  ∑ e2 ∈ Finset.Ico 1 n.ne, if k < e2 then φ e2 n.grRho 0 * n.invGR e2 * n.delE (e2 - 1) * n.dNdE_GR e2 k else 0

/-- The complete factor without sources. -/
def Net.total (n : Net K V) (old : K) (φ : Nat → Nat → Nat → K) (rho a k : Nat) : K :=
  n.ncSum old φ rho a k +
    (if n.tau then (if a = 2 then n.allSum old φ (if rho = 0 then 0 else 1) k else n.lepSum old φ (if rho = 0 then 1 else 0) k) else 0) +
    (if n.gr && decide (rho = n.grRho) then n.grSum φ k else 0)

/-- The flux with the projector of the node itself, and with that of the first node. -/
def Net.flux (n : Net K V) (e rho a : Nat) : K := n.dot (n.proj rho a e) (n.state e rho)
def Net.flux0 (n : Net K V) (e rho a : Nat) : K := n.dot (n.proj rho a 0) (n.state e rho)

theorem ncOsc_spec (n : Net K V) (old : K) (rho a : Nat) :
    (n.ncOsc old rho a).length = Cache.roundUp n.ne ∧
    ∀ k, k < Cache.roundUp n.ne → (n.ncOsc old rho a).getD k 0 = n.ncSum old n.flux rho a k := by
  unfold Net.ncOsc
  apply zeros_adds
  refine addsTo_congr (addsTo_loop _ 1 n.ne _ _ fun e2 => addsTo_targets _ n.fractions _ _ fun trg tF => addsTo_below _ e2 _) ?_
  intro k
  unfold Net.ncSum
  refine Finset.sum_congr rfl fun e2 _ => ?_
  unfold tsum Net.ncPart tsum Net.flux
  split
  · rfl
  · simp

theorem ncNoOsc_spec (n : Net K V) (old : K) (rho a : Nat) :
    (n.ncNoOsc old rho a).length = Cache.roundUp n.ne ∧
    ∀ k, k < Cache.roundUp n.ne → (n.ncNoOsc old rho a).getD k 0 = n.ncSum old n.flux0 rho a k := by
  unfold Net.ncNoOsc
  dsimp only
  apply zeros_adds
  refine addsTo_congr (addsTo_loop _ 1 n.ne _ _ fun e2 => addsTo_targets _ n.fractions _ _ fun trg tF => addsTo_below _ e2 _) ?_
  intro k
  unfold Net.ncSum
  refine Finset.sum_congr rfl fun e2 _ => ?_
  unfold tsum Net.ncPart tsum Net.flux0
  split
  · rfl
  · simp

theorem forTargets_proj {S T : Type} (π : S → T) (l : List K) (f : Nat → K → S → S) (g : Nat → K → T → T)
    (h : ∀ t d s, π (f t d s) = g t d (π s)) (s : S) : π (forTargets l f s) = forTargets l g (π s) := by
  unfold forTargets
  generalize l.zipIdx = z
  induction z generalizing s with
  | nil => rfl
  | cons x z ih => simp only [List.foldl_cons]; rw [ih, h]

theorem tauFluxesOsc_spec (n : Net K V) (old : K) :
    (∀ k, k < Cache.roundUp n.ne → (n.tauFluxesOsc old).1.getD k 0 = n.tauSum old n.flux 0 k) ∧
    (∀ k, k < Cache.roundUp n.ne → (n.tauFluxesOsc old).2.getD k 0 = n.tauSum old n.flux 1 k) := by
  constructor
  · have hp : (n.tauFluxesOsc old).1 = loop 1 n.ne (fun en b =>
        if n.flux en 0 2 ≤ 0 ∧ n.flux en 1 2 ≤ 0 then b
        else forTargets n.fractions (fun trg tFrac b => addFromOne b en fun et =>
          n.flux en 0 2 * n.invCC old 0 2 en * n.delE (en - 1) * tFrac * n.dNdE_CC trg 0 2 en et * n.delE (et - 1)) b) (zeros n.ne) := by
      unfold Net.tauFluxesOsc
      refine loop_proj Prod.fst _ _ ?_ 1 n.ne _
      intro en s
      by_cases hs : n.flux en 0 2 ≤ 0 ∧ n.flux en 1 2 ≤ 0
      · rw [if_pos hs]
        exact congrArg Prod.fst (if_pos hs)
      · rw [if_neg hs]
        refine (congrArg Prod.fst (if_neg hs)).trans ?_
        exact forTargets_proj Prod.fst _ _ _ (fun _ _ _ => rfl) _
    rw [hp]
    refine (zeros_adds (addsTo_congr (addsTo_loop _ 1 n.ne _ (fun en k => n.tauPart old n.flux 0 en k) fun en => ?_) fun k => rfl)).2
    unfold Net.tauPart
    by_cases hs : n.flux en 0 2 ≤ 0 ∧ n.flux en 1 2 ≤ 0
    · simp only [hs, and_self, if_true]; exact addsTo_id _
    · simp only [hs, if_false]
      exact addsTo_targets _ n.fractions _ _ fun trg tF => addsTo_fromOne _ en _
  · have hp : (n.tauFluxesOsc old).2 = loop 1 n.ne (fun en b =>
        if n.flux en 0 2 ≤ 0 ∧ n.flux en 1 2 ≤ 0 then b
        else forTargets n.fractions (fun trg tFrac b => addFromOne b en fun et =>
          n.flux en 1 2 * n.invCC old 1 2 en * n.delE (en - 1) * tFrac * n.dNdE_CC trg 1 2 en et * n.delE (et - 1)) b) (zeros n.ne) := by
      unfold Net.tauFluxesOsc
      refine loop_proj Prod.snd _ _ ?_ 1 n.ne _
      intro en s
      by_cases hs : n.flux en 0 2 ≤ 0 ∧ n.flux en 1 2 ≤ 0
      · rw [if_pos hs]
        exact congrArg Prod.snd (if_pos hs)
      · rw [if_neg hs]
        refine (congrArg Prod.snd (if_neg hs)).trans ?_
        exact forTargets_proj Prod.snd _ _ _ (fun _ _ _ => rfl) _
    rw [hp]
    refine (zeros_adds (addsTo_congr (addsTo_loop _ 1 n.ne _ (fun en k => n.tauPart old n.flux 1 en k) fun en => ?_) fun k => rfl)).2
    unfold Net.tauPart
    by_cases hs : n.flux en 0 2 ≤ 0 ∧ n.flux en 1 2 ≤ 0
    · simp only [hs, and_self, if_true]; exact addsTo_id _
    · simp only [hs, if_false]
      exact addsTo_targets _ n.fractions _ _ fun trg tF => addsTo_fromOne _ en _

theorem tauFluxesNoOsc_spec (n : Net K V) (old : K) :
    (∀ k, k < Cache.roundUp n.ne → (n.tauFluxesNoOsc old).1.getD k 0 = n.tauSum old n.flux0 0 k) ∧
    (∀ k, k < Cache.roundUp n.ne → (n.tauFluxesNoOsc old).2.getD k 0 = n.tauSum old n.flux0 1 k) := by
  constructor
  · have hp : (n.tauFluxesNoOsc old).1 = loop 1 n.ne (fun en b =>
        if n.flux0 en 0 2 ≤ 0 ∧ n.flux0 en 1 2 ≤ 0 then b
        else forTargets n.fractions (fun trg tFrac b => addFromOne b en fun et =>
          n.flux0 en 0 2 * n.invCC old 0 2 en * n.delE (en - 1) * tFrac * n.dNdE_CC trg 0 2 en et * n.delE (et - 1)) b) (zeros n.ne) := by
      unfold Net.tauFluxesNoOsc
      refine loop_proj Prod.fst _ _ ?_ 1 n.ne _
      intro en s
      by_cases hs : n.flux0 en 0 2 ≤ 0 ∧ n.flux0 en 1 2 ≤ 0
      · rw [if_pos hs]
        exact congrArg Prod.fst (if_pos hs)
      · rw [if_neg hs]
        refine (congrArg Prod.fst (if_neg hs)).trans ?_
        exact forTargets_proj Prod.fst _ _ _ (fun _ _ _ => rfl) _
    rw [hp]
    refine (zeros_adds (addsTo_congr (addsTo_loop _ 1 n.ne _ (fun en k => n.tauPart old n.flux0 0 en k) fun en => ?_) fun k => rfl)).2
    unfold Net.tauPart
    by_cases hs : n.flux0 en 0 2 ≤ 0 ∧ n.flux0 en 1 2 ≤ 0
    · simp only [hs, and_self, if_true]; exact addsTo_id _
    · simp only [hs, if_false]
      exact addsTo_targets _ n.fractions _ _ fun trg tF => addsTo_fromOne _ en _
  · have hp : (n.tauFluxesNoOsc old).2 = loop 1 n.ne (fun en b =>
        if n.flux0 en 0 2 ≤ 0 ∧ n.flux0 en 1 2 ≤ 0 then b
        else forTargets n.fractions (fun trg tFrac b => addFromOne b en fun et =>
          n.flux0 en 1 2 * n.invCC old 1 2 en * n.delE (en - 1) * tFrac * n.dNdE_CC trg 1 2 en et * n.delE (et - 1)) b) (zeros n.ne) := by
      unfold Net.tauFluxesNoOsc
      refine loop_proj Prod.snd _ _ ?_ 1 n.ne _
      intro en s
      by_cases hs : n.flux0 en 0 2 ≤ 0 ∧ n.flux0 en 1 2 ≤ 0
      · rw [if_pos hs]
        exact congrArg Prod.snd (if_pos hs)
      · rw [if_neg hs]
        refine (congrArg Prod.snd (if_neg hs)).trans ?_
        exact forTargets_proj Prod.snd _ _ _ (fun _ _ _ => rfl) _
    rw [hp]
    refine (zeros_adds (addsTo_congr (addsTo_loop _ 1 n.ne _ (fun en k => n.tauPart old n.flux0 1 en k) fun en => ?_) fun k => rfl)).2
    unfold Net.tauPart
    by_cases hs : n.flux0 en 0 2 ≤ 0 ∧ n.flux0 en 1 2 ≤ 0
    · simp only [hs, and_self, if_true]; exact addsTo_id _
    · simp only [hs, if_false]
      exact addsTo_targets _ n.fractions _ _ fun trg tF => addsTo_fromOne _ en _

/-- A loop that adds a multiple of an entry of another buffer below the index. -/
theorem addsTo_decay (ne : Nat) (fl : List K) (T : Nat → K) (tab : Nat → Nat → K) (h : ∀ k, k < Cache.roundUp ne → fl.getD k 0 = T k) :
    AddsTo (Cache.roundUp ne) (loop 1 ne fun et b => addBelow b et fun e1 => fl.getD et 0 * tab et e1) fun k =>
      ∑ et ∈ Finset.Ico 1 ne, if k < et then T et * tab et k else 0 := by
  refine addsTo_congr (addsTo_loop _ 1 ne _ _ fun et => addsTo_below _ et _) ?_
  intro k
  refine Finset.sum_congr rfl fun et het => ?_
  rw [h et (lt_of_lt_of_le (Finset.mem_Ico.1 het).2 (le_roundUp ne))]

theorem tauDecaysOsc_spec (n : Net K V) (old : K) (k : Nat) (hk : k < Cache.roundUp n.ne) :
    (n.tauDecaysOsc old).lep.getD k 0 = n.lepSum old n.flux 1 k ∧ (n.tauDecaysOsc old).lepBar.getD k 0 = n.lepSum old n.flux 0 k ∧
    (n.tauDecaysOsc old).tau.getD k 0 = n.allSum old n.flux 0 k ∧ (n.tauDecaysOsc old).tauBar.getD k 0 = n.allSum old n.flux 1 k := by
  obtain ⟨h1, h2⟩ := tauFluxesOsc_spec n old
  unfold Net.tauDecaysOsc
  dsimp only
  refine ⟨?_, ?_, ?_, ?_⟩
  · rw [loop_proj TauBufs.lep _ (fun et b => addBelow b et fun e1 => (n.tauFluxesOsc old).2.getD et 0 * n.tauLep 1 et e1) (fun _ _ => rfl)]
    exact (zeros_adds (addsTo_decay n.ne _ _ _ h2)).2 k hk
  · rw [loop_proj TauBufs.lepBar _ (fun et b => addBelow b et fun e1 => (n.tauFluxesOsc old).1.getD et 0 * n.tauLep 0 et e1) (fun _ _ => rfl)]
    exact (zeros_adds (addsTo_decay n.ne _ _ _ h1)).2 k hk
  · rw [loop_proj TauBufs.tau _ (fun et b => addBelow b et fun e1 => (n.tauFluxesOsc old).1.getD et 0 * n.tauAll 0 et e1) (fun _ _ => rfl)]
    exact (zeros_adds (addsTo_decay n.ne _ _ _ h1)).2 k hk
  · rw [loop_proj TauBufs.tauBar _ (fun et b => addBelow b et fun e1 => (n.tauFluxesOsc old).2.getD et 0 * n.tauAll 1 et e1) (fun _ _ => rfl)]
    exact (zeros_adds (addsTo_decay n.ne _ _ _ h2)).2 k hk

theorem tauDecaysNoOsc_spec (n : Net K V) (old : K) (tau tauBar : List K) (ht : tau.length = Cache.roundUp n.ne)
    (htb : tauBar.length = Cache.roundUp n.ne) (k : Nat) (hk : k < Cache.roundUp n.ne) :
    (n.tauDecaysNoOsc old tau tauBar).lep.getD k 0 = n.lepSum old n.flux0 1 k ∧
    (n.tauDecaysNoOsc old tau tauBar).lepBar.getD k 0 = n.lepSum old n.flux0 0 k ∧
    (n.tauDecaysNoOsc old tau tauBar).tau.getD k 0 = tau.getD k 0 + n.allSum old n.flux0 0 k ∧
    (n.tauDecaysNoOsc old tau tauBar).tauBar.getD k 0 = tauBar.getD k 0 + n.allSum old n.flux0 1 k := by
  obtain ⟨h1, h2⟩ := tauFluxesNoOsc_spec n old
  unfold Net.tauDecaysNoOsc
  dsimp only
  refine ⟨?_, ?_, ?_, ?_⟩
  · rw [loop_proj TauBufs.lep _ (fun et b => addBelow b et fun e1 => (n.tauFluxesNoOsc old).2.getD et 0 * n.tauLep 1 et e1) (fun _ _ => rfl)]
    exact (zeros_adds (addsTo_decay n.ne _ _ _ h2)).2 k hk
  · rw [loop_proj TauBufs.lepBar _ (fun et b => addBelow b et fun e1 => (n.tauFluxesNoOsc old).1.getD et 0 * n.tauLep 0 et e1) (fun _ _ => rfl)]
    exact (zeros_adds (addsTo_decay n.ne _ _ _ h1)).2 k hk
  · rw [loop_proj TauBufs.tau _ (fun et b => addBelow b et fun e1 => (n.tauFluxesNoOsc old).1.getD et 0 * n.tauAll 0 et e1) (fun _ _ => rfl)]
    exact (addsTo_decay n.ne _ _ _ h1 _ ht).2 k hk
  · rw [loop_proj TauBufs.tauBar _ (fun et b => addBelow b et fun e1 => (n.tauFluxesNoOsc old).2.getD et 0 * n.tauAll 1 et e1) (fun _ _ => rfl)]
    exact (addsTo_decay n.ne _ _ _ h2 _ htb).2 k hk

theorem tauDecaysNoOsc_length (n : Net K V) (old : K) (tau tauBar : List K) (ht : tau.length = Cache.roundUp n.ne)
    (htb : tauBar.length = Cache.roundUp n.ne) :
    (n.tauDecaysNoOsc old tau tauBar).tau.length = Cache.roundUp n.ne ∧ (n.tauDecaysNoOsc old tau tauBar).tauBar.length = Cache.roundUp n.ne := by
  obtain ⟨h1, h2⟩ := tauFluxesNoOsc_spec n old
  unfold Net.tauDecaysNoOsc
  dsimp only
  refine ⟨?_, ?_⟩
  · rw [loop_proj TauBufs.tau _ (fun et b => addBelow b et fun e1 => (n.tauFluxesNoOsc old).1.getD et 0 * n.tauAll 0 et e1) (fun _ _ => rfl)]
    exact (addsTo_decay n.ne _ _ _ h1 _ ht).1
  · rw [loop_proj TauBufs.tauBar _ (fun et b => addBelow b et fun e1 => (n.tauFluxesNoOsc old).2.getD et 0 * n.tauAll 1 et e1) (fun _ _ => rfl)]
    exact (addsTo_decay n.ne _ _ _ h2 _ htb).1

theorem grOsc_spec (n : Net K V) (k : Nat) (hk : k < Cache.roundUp n.ne) : n.grOsc.getD k 0 = n.grSum n.flux k := by
  unfold Net.grOsc
  exact (zeros_adds (addsTo_loop _ 1 n.ne _ _ fun e2 => addsTo_below _ e2 _)).2 k hk

theorem grNoOsc_spec (n : Net K V) (k : Nat) (hk : k < Cache.roundUp n.ne) : n.grNoOsc.getD k 0 = n.grSum n.flux0 k := by
  unfold Net.grNoOsc
  dsimp only
  exact (zeros_adds (addsTo_loop _ 1 n.ne _ _ fun e2 => addsTo_below _ e2 _)).2 k hk

/-- The number of particle types goes with the mode; tau regeneration needs both (nuSQuIDS.cpp 2806-2812). -/
structure Shape (n : Net K V) : Prop where
  nrhos : n.nrhos = if n.nt = .both then 2 else 1
  tau : n.tau = true → n.nt = .both
  flavours : 3 ≤ n.numneu

theorem factorOsc_spec (n : Net K V) (hs : Shape n) (old : K) (e1 rho a : Nat) (hr : rho < n.nrhos) (he : e1 < n.ne) :
    n.factorOsc old e1 rho a = n.total old n.flux rho a e1 + if n.sources then n.ext e1 rho a else 0 := by
  have hk : e1 < Cache.roundUp n.ne := lt_of_lt_of_le he (le_roundUp n.ne)
  obtain ⟨d1, d2, d3, d4⟩ := tauDecaysOsc_spec n old e1 hk
  have hg : (n.glashow && ((decide (n.nt = .both) && decide (rho = 1)) || decide (n.nt = .antineutrino))) =
      (n.gr && decide (rho = n.grRho)) := by
    have := hs.nrhos
    unfold Net.gr Net.grRho
    cases hnt : n.nt <;> simp only [hnt] at this <;> simp
    · simp at this
      intro _; omega
  have htau : ∀ d : TauBufs K, (if a = 2 then (if rho = 0 then d.tau else d.tauBar) else (if rho = 0 then d.lep else d.lepBar)).getD e1 0 =
      if a = 2 then (if rho = 0 then d.tau.getD e1 0 else d.tauBar.getD e1 0) else (if rho = 0 then d.lep.getD e1 0 else d.lepBar.getD e1 0) := by
    intro d; split <;> split <;> rfl
  unfold Net.factorOsc Net.total
  dsimp only
  rw [hg, grOsc_spec n e1 hk, (ncOsc_spec n old rho a).2 e1 hk, htau, d1, d2, d3, d4]
  cases n.tau <;> cases (n.gr && decide (rho = n.grRho)) <;> cases n.sources <;> by_cases h0 : rho = 0 <;> by_cases h2 : a = 2 <;>
    simp [h0, h2]

theorem factorsNoOsc_spec (n : Net K V) (old : K) (rho a e1 : Nat) (he : e1 < n.ne) (hr : rho < 2) :
    (n.factorsNoOsc old rho a).getD e1 0 = n.total old n.flux0 rho a e1 := by
  have hk : e1 < Cache.roundUp n.ne := lt_of_lt_of_le he (le_roundUp n.ne)
  obtain ⟨l0, g0⟩ := ncNoOsc_spec n old rho a
  have hl2 : ∀ r, (n.ncNoOsc old r 2).length = Cache.roundUp n.ne := fun r => (ncNoOsc_spec n old r 2).1
  obtain ⟨d1, d2, d3, d4⟩ := tauDecaysNoOsc_spec n old _ _ (hl2 0) (hl2 1) e1 hk
  obtain ⟨m1, m2⟩ := tauDecaysNoOsc_length n old _ _ (hl2 0) (hl2 1)
  have hadd : ∀ (b other : List K) (m : Nat), b.length = Cache.roundUp n.ne → e1 < m → (addBuf b m other).length = Cache.roundUp n.ne ∧
      (addBuf b m other).getD e1 0 = b.getD e1 0 + other.getD e1 0 := by
    intro b other m hb hm
    obtain ⟨h1, h2⟩ := addsTo_below (Cache.roundUp n.ne) m (fun e1 => other.getD e1 0) b hb
    refine ⟨h1, ?_⟩
    unfold addBuf
    rw [h2 e1 hk]
    dsimp only
    rw [if_pos hm]
  -- after tau regeneration
  have hw : (n.withTauNoOsc old rho a).length = Cache.roundUp n.ne ∧ (n.withTauNoOsc old rho a).getD e1 0 =
      n.ncSum old n.flux0 rho a e1 +
      (if n.tau then (if a = 2 then n.allSum old n.flux0 (if rho = 0 then 0 else 1) e1 else n.lepSum old n.flux0 (if rho = 0 then 1 else 0) e1)
       else 0) := by
    unfold Net.withTauNoOsc
    cases n.tau
    · simp only [Bool.false_eq_true, if_false, add_zero]
      exact ⟨l0, g0 e1 hk⟩
    · simp only [if_true]
      by_cases hr0 : rho = 0
      · subst hr0
        simp only [if_true]
        by_cases ha : a = 2
        · subst ha
          simp only [if_true]
          exact ⟨m1, by rw [d3, g0 e1 hk]⟩
        · simp only [ha, if_false]
          obtain ⟨x1, x2⟩ := hadd (n.ncNoOsc old 0 a) (n.tauDecaysNoOsc old (n.ncNoOsc old 0 2) (n.ncNoOsc old 1 2)).lep (Cache.roundUp n.ne) l0 hk
          exact ⟨x1, by rw [x2, d1, g0 e1 hk]⟩
      · have hr1 : rho = 1 := by omega
        subst hr1
        simp only [one_ne_zero, if_false]
        by_cases ha : a = 2
        · subst ha
          simp only [if_true]
          exact ⟨m2, by rw [d4, g0 e1 hk]⟩
        · simp only [ha, if_false]
          obtain ⟨x1, x2⟩ := hadd (n.ncNoOsc old 1 a) (n.tauDecaysNoOsc old (n.ncNoOsc old 0 2) (n.ncNoOsc old 1 2)).lepBar (Cache.roundUp n.ne) l0 hk
          exact ⟨x1, by rw [x2, d2, g0 e1 hk]⟩
  unfold Net.factorsNoOsc Net.total
  dsimp only
  by_cases hg : (n.gr && decide (rho = n.grRho)) = true
  · rw [if_pos hg, if_pos hg, (hadd _ _ _ hw.1 he).2, hw.2, grNoOsc_spec n e1 hk]
  · rw [if_neg hg, if_neg hg, hw.2, add_zero]

/-- The sources of a node. -/
def Net.sourceTerm (n : Net K V) (e1 rho : Nat) : V := ∑ i ∈ Finset.range n.numneu, n.ext e1 rho i • n.proj rho i e1

theorem termOsc_spec (n : Net K V) (hs : Shape n) (old : K) (e1 rho : Nat) (hr : rho < n.nrhos) (he : e1 < n.ne) :
    n.termOsc old e1 rho = n.total old n.flux rho 0 e1 • n.proj rho 0 e1 + n.total old n.flux rho 1 e1 • n.proj rho 1 e1 +
      n.total old n.flux rho 2 e1 • n.proj rho 2 e1 + if n.sources then n.sourceTerm e1 rho else 0 := by
  unfold Net.termOsc
  dsimp only
  rw [factorOsc_spec n hs old e1 rho 0 hr he, factorOsc_spec n hs old e1 rho 1 hr he, factorOsc_spec n hs old e1 rho 2 hr he]
  cases n.sources
  · simp
  · simp only [if_true]
    rw [loop_add _ (fun i => n.ext e1 rho i • n.proj rho i e1) (fun _ _ => rfl)]
    unfold Net.sourceTerm
    rw [← Finset.sum_range_add_sum_Ico _ hs.flavours, Finset.sum_range_succ, Finset.sum_range_succ, Finset.sum_range_succ,
      Finset.sum_range_zero]
    module

theorem termNoOsc_spec (n : Net K V) (hs : Shape n) (old : K) (e1 rho : Nat) (hr : rho < n.nrhos) (he : e1 < n.ne) :
    n.termNoOsc old e1 rho = n.total old n.flux0 rho 0 e1 • n.proj rho 0 0 + n.total old n.flux0 rho 1 e1 • n.proj rho 1 0 +
      n.total old n.flux0 rho 2 e1 • n.proj rho 2 0 + if n.sources then n.nrhos • n.sourceTerm e1 rho else 0 := by
  have hr2 : rho < 2 := by have := hs.nrhos; split at this <;> omega
  let F : V := n.total old n.flux0 rho 0 e1 • n.proj rho 0 0 + n.total old n.flux0 rho 1 e1 • n.proj rho 1 0 +
      n.total old n.flux0 rho 2 e1 • n.proj rho 2 0
  have hproj : n.termNoOsc old e1 rho = loop 0 n.nrhos (fun r (v : V) =>
      v + ((if rho = r then F else 0) + if n.sources then n.sourceTerm e1 rho else 0)) 0 := by
    unfold Net.termNoOsc Net.cache
    refine loop_proj (fun c : Nat → Nat → V => c rho e1) _ _ ?_ 0 n.nrhos _
    intro r c
    have hfac : (if rho = r ∧ e1 < n.ne then
        c rho e1 + (n.factorsNoOsc old r 0).getD e1 0 • n.proj r 0 0 + (n.factorsNoOsc old r 1).getD e1 0 • n.proj r 1 0 +
          (n.factorsNoOsc old r 2).getD e1 0 • n.proj r 2 0 else c rho e1) = c rho e1 + if rho = r then F else 0 := by
      by_cases hrr : rho = r
      · subst hrr
        rw [if_pos ⟨rfl, he⟩, if_pos rfl, factorsNoOsc_spec n old rho 0 e1 he hr2, factorsNoOsc_spec n old rho 1 e1 he hr2,
          factorsNoOsc_spec n old rho 2 e1 he hr2]
        simp only [F]
        abel
      · rw [if_neg (fun h => hrr h.1), if_neg hrr, add_zero]
    cases hso : n.sources
    · simp only [Bool.false_eq_true, if_false, add_zero]
      exact hfac
    · simp only [if_true]
      unfold Net.addSources
      rw [if_pos ⟨hr, he⟩, loop_add _ (fun i => n.ext e1 rho i • n.proj rho i e1) (fun _ _ => rfl)]
      dsimp only
      rw [hfac, ← Finset.range_eq_Ico]
      unfold Net.sourceTerm
      abel
  rw [hproj, loop_add _ _ (fun _ _ => rfl), zero_add, ← Finset.range_eq_Ico, Finset.sum_add_distrib, Finset.sum_ite_eq,
    if_pos (Finset.mem_range.2 hr), Finset.sum_const, Finset.card_range]
  simp only [F]
  cases n.sources <;> simp

end Verif.Update
