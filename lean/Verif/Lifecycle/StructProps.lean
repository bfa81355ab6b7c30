import Verif.Base

/-!
C44: `InteractionStructure` (nuSQuIDS.h 138-293) and `InteractionState` (296-376), their copies and comparisons.

A table is its extents and its contents in memory order; contents are rational numbers (NaN, unequal to itself, is not modelled). That
copying or moving one `marray` preserves it is the subject of the multi-dimensional array model.
-/

namespace Verif.Life

/-- One `marray`. -/
structure Table where
  extents : List Nat
  data : List Rat
  deriving DecidableEq, Repr

/-- `InteractionStructure`. -/
structure IntStruct where
  targets : List Int
  dNdE_CC : Table
  dNdE_NC : Table
  dNdE_GR : Table
  sigma_CC : Table
  sigma_NC : Table
  sigma_GR : Table
  dNdE_tau_all : Table
  dNdE_tau_lep : Table
  deriving DecidableEq, Repr

/-- The default-constructed one (195-204). -/
def IntStruct.empty : IntStruct := ⟨[], ⟨[], []⟩, ⟨[], []⟩, ⟨[], []⟩, ⟨[], []⟩, ⟨[], []⟩, ⟨[], []⟩, ⟨[], []⟩, ⟨[], []⟩⟩

/-- Copy and move assignment (206-228), onto `self`: the eight tables; `targets` stays what it was. -/
def IntStruct.assign (self other : IntStruct) : IntStruct :=
  { self with
    dNdE_CC := other.dNdE_CC
    dNdE_NC := other.dNdE_NC
    dNdE_GR := other.dNdE_GR
    sigma_CC := other.sigma_CC
    sigma_NC := other.sigma_NC
    sigma_GR := other.sigma_GR
    dNdE_tau_all := other.dNdE_tau_all
    dNdE_tau_lep := other.dNdE_tau_lep }

/-- Copy and move constructor (280-292): `targets` is default-constructed. -/
def IntStruct.copy (other : IntStruct) : IntStruct :=
  { targets := []
    dNdE_CC := other.dNdE_CC
    dNdE_NC := other.dNdE_NC
    dNdE_GR := other.dNdE_GR
    sigma_CC := other.sigma_CC
    sigma_NC := other.sigma_NC
    sigma_GR := other.sigma_GR
    dNdE_tau_all := other.dNdE_tau_all
    dNdE_tau_lep := other.dNdE_tau_lep }

/-- `std::equal(a.begin(), a.end(), b.begin())`: compares as many elements as `a` has; running off the end of `b` is undefined. -/
def stdEqual : List Rat → List Rat → Outcome Bool
  | [], _ => .ok true
  | _ :: _, [] => .ub
  | a :: as, b :: bs => if a = b then stdEqual as bs else .ok false

/-- A chain of `if(not std::equal(...)) return false;`. -/
def allEqual : List (List Rat × List Rat) → Outcome Bool
  | [] => .ok true
  | (a, b) :: rest => (stdEqual a b).bind fun e => if e then allEqual rest else .ok false

/-- `InteractionStructure::operator==` (230-275): sizes, then contents. -/
def IntStruct.eq (a b : IntStruct) : Outcome Bool :=
  if a.dNdE_CC.data.length ≠ b.dNdE_CC.data.length ∨ a.dNdE_NC.data.length ≠ b.dNdE_NC.data.length ∨
     a.dNdE_GR.data.length ≠ b.dNdE_GR.data.length ∨ a.sigma_CC.data.length ≠ b.sigma_CC.data.length ∨
     a.sigma_NC.data.length ≠ b.sigma_NC.data.length ∨ a.sigma_GR.data.length ≠ b.sigma_GR.data.length ∨
     a.dNdE_tau_all.data.length ≠ b.dNdE_tau_all.data.length ∨ a.dNdE_tau_lep.data.length ≠ b.dNdE_tau_lep.data.length then .ok false
  else allEqual [(a.dNdE_CC.data, b.dNdE_CC.data), (a.dNdE_NC.data, b.dNdE_NC.data), (a.dNdE_GR.data, b.dNdE_GR.data),
    (a.sigma_CC.data, b.sigma_CC.data), (a.sigma_NC.data, b.sigma_NC.data), (a.sigma_GR.data, b.sigma_GR.data),
    (a.dNdE_tau_all.data, b.dNdE_tau_all.data), (a.dNdE_tau_lep.data, b.dNdE_tau_lep.data)]

/-- `InteractionState`. -/
structure IntState where
  invlen_CC : Table
  invlen_NC : Table
  invlen_GR : Table
  invlen_INT : Table
  deriving DecidableEq, Repr

/-- Copy and move constructors and assignments of `InteractionState` (321-348): all four tables. -/
def IntState.copy (other : IntState) : IntState := ⟨other.invlen_CC, other.invlen_NC, other.invlen_GR, other.invlen_INT⟩

/-- `InteractionState::operator==` (350-371). -/
def IntState.eq (a b : IntState) : Outcome Bool :=
  if a.invlen_CC.data.length ≠ b.invlen_CC.data.length ∨ a.invlen_NC.data.length ≠ b.invlen_NC.data.length ∨
     a.invlen_GR.data.length ≠ b.invlen_GR.data.length ∨ a.invlen_INT.data.length ≠ b.invlen_INT.data.length then .ok false
  else allEqual [(a.invlen_CC.data, b.invlen_CC.data), (a.invlen_NC.data, b.invlen_NC.data), (a.invlen_GR.data, b.invlen_GR.data),
    (a.invlen_INT.data, b.invlen_INT.data)]

/-! ## What is claimed -/

/-- The tables of a structure, named. -/
def IntStruct.tables (a : IntStruct) : List Table :=
  [a.dNdE_CC, a.dNdE_NC, a.dNdE_GR, a.sigma_CC, a.sigma_NC, a.sigma_GR, a.dNdE_tau_all, a.dNdE_tau_lep]

def IntState.tables (a : IntState) : List Table := [a.invlen_CC, a.invlen_NC, a.invlen_GR, a.invlen_INT]

/-- Same contents, table by table. -/
def SameContents (a b : List Table) : Prop := a.map (·.data) = b.map (·.data)

/-! ## Lemmas -/

theorem stdEqual_same_length : ∀ (a b : List Rat), a.length = b.length → stdEqual a b = .ok (decide (a = b))
  | [], [], _ => by simp [stdEqual]
  | [], _ :: _, h => by simp at h
  | _ :: _, [], h => by simp at h
  | x :: xs, y :: ys, h => by
    unfold stdEqual
    by_cases hxy : x = y
    · rw [if_pos hxy, stdEqual_same_length xs ys (by simpa using h), hxy]; simp
    · rw [if_neg hxy]; simp [hxy]

theorem allEqual_same_length : ∀ (l : List (List Rat × List Rat)), (∀ p ∈ l, p.1.length = p.2.length) →
    allEqual l = .ok (decide (∀ p ∈ l, p.1 = p.2))
  | [], _ => by simp [allEqual]
  | (a, b) :: rest, h => by
    unfold allEqual
    rw [stdEqual_same_length a b (h (a, b) (by simp))]
    simp only [Outcome.bind]
    by_cases hab : a = b
    · rw [hab]
      simp only [decide_true, if_true]
      rw [allEqual_same_length rest (fun p hp => h p (by simp [hp]))]
      simp
    · simp [hab]

theorem intStruct_eq (a b : IntStruct) : a.eq b = .ok true ∧ SameContents a.tables b.tables ∨
    a.eq b = .ok false ∧ ¬SameContents a.tables b.tables := by
  unfold IntStruct.eq
  split
  · rename_i h
    refine Or.inr ⟨rfl, ?_⟩
    intro hs
    simp only [SameContents, IntStruct.tables, List.map_cons, List.map_nil, List.cons.injEq, and_true] at hs
    obtain ⟨h1, h2, h3, h4, h5, h6, h7, h8⟩ := hs
    rw [h1, h2, h3, h4, h5, h6, h7, h8] at h
    simp at h
  · rename_i h
    simp only [not_or, Decidable.not_not] at h
    obtain ⟨h1, h2, h3, h4, h5, h6, h7, h8⟩ := h
    rw [allEqual_same_length _ (by simp [h1, h2, h3, h4, h5, h6, h7, h8])]
    simp only [SameContents, IntStruct.tables, List.map_cons, List.map_nil, List.cons.injEq, and_true, List.forall_mem_cons,
      List.not_mem_nil, false_implies, implies_true, Outcome.ok.injEq, decide_eq_true_eq, decide_eq_false_iff_not]
    by_cases hc : a.dNdE_CC.data = b.dNdE_CC.data ∧ a.dNdE_NC.data = b.dNdE_NC.data ∧ a.dNdE_GR.data = b.dNdE_GR.data ∧
      a.sigma_CC.data = b.sigma_CC.data ∧ a.sigma_NC.data = b.sigma_NC.data ∧ a.sigma_GR.data = b.sigma_GR.data ∧
      a.dNdE_tau_all.data = b.dNdE_tau_all.data ∧ a.dNdE_tau_lep.data = b.dNdE_tau_lep.data
    · exact Or.inl ⟨hc, hc⟩
    · exact Or.inr ⟨hc, hc⟩

theorem intState_eq (a b : IntState) : a.eq b = .ok true ∧ SameContents a.tables b.tables ∨
    a.eq b = .ok false ∧ ¬SameContents a.tables b.tables := by
  unfold IntState.eq
  split
  · rename_i h
    refine Or.inr ⟨rfl, ?_⟩
    intro hs
    simp only [SameContents, IntState.tables, List.map_cons, List.map_nil, List.cons.injEq, and_true] at hs
    obtain ⟨h1, h2, h3, h4⟩ := hs
    rw [h1, h2, h3, h4] at h
    simp at h
  · rename_i h
    simp only [not_or, Decidable.not_not] at h
    obtain ⟨h1, h2, h3, h4⟩ := h
    rw [allEqual_same_length _ (by simp [h1, h2, h3, h4])]
    simp only [SameContents, IntState.tables, List.map_cons, List.map_nil, List.cons.injEq, and_true, List.forall_mem_cons,
      List.not_mem_nil, false_implies, implies_true, Outcome.ok.injEq, decide_eq_true_eq, decide_eq_false_iff_not]
    by_cases hc : a.invlen_CC.data = b.invlen_CC.data ∧ a.invlen_NC.data = b.invlen_NC.data ∧ a.invlen_GR.data = b.invlen_GR.data ∧
      a.invlen_INT.data = b.invlen_INT.data
    · exact Or.inl ⟨hc, hc⟩
    · exact Or.inr ⟨hc, hc⟩

/-! ## C44 -/

/-- C44, partial: a copied, moved or assigned structure has the same tables as the source, shapes included; a copied state is the state;
`operator==` never reads past a table and is true exactly if all tables have the same contents. Missing: the target list is not copied
(`c44_targets_violated`), and `operator==` compares neither shapes nor targets (`c44_equality_violated`). -/
theorem c44_copies_partial :
    (∀ other : IntStruct, other.copy.tables = other.tables ∧ ∀ self : IntStruct, (self.assign other).tables = other.tables) ∧
    (∀ other : IntState, other.copy = other) ∧
    (∀ a b : IntStruct, (a.eq b = .ok true ↔ SameContents a.tables b.tables) ∧ (a.eq b = .ok false ↔ ¬SameContents a.tables b.tables)) ∧
    (∀ a b : IntState, (a.eq b = .ok true ↔ SameContents a.tables b.tables) ∧ (a.eq b = .ok false ↔ ¬SameContents a.tables b.tables)) ∧
    (∀ a : IntStruct, a.copy.eq a = .ok true) := by
  refine ⟨fun other => ⟨rfl, fun self => rfl⟩, fun _ => rfl, ?_, ?_, ?_⟩
  · intro a b
    rcases intStruct_eq a b with ⟨h1, h2⟩ | ⟨h1, h2⟩ <;> simp [h1, h2]
  · intro a b
    rcases intState_eq a b with ⟨h1, h2⟩ | ⟨h1, h2⟩ <;> simp [h1, h2]
  · intro a
    rcases intStruct_eq a.copy a with ⟨h1, h2⟩ | ⟨h1, h2⟩
    · exact h1
    · exact absurd rfl h2

/-- Two structures differing in one entry of the last table. -/
example : (IntStruct.empty.eq { IntStruct.empty with dNdE_tau_lep := ⟨[2], [1, 2]⟩ } = .ok false) ∧
    (({ IntStruct.empty with dNdE_tau_lep := ⟨[2], [1, 3]⟩ } : IntStruct).eq { IntStruct.empty with dNdE_tau_lep := ⟨[2], [1, 2]⟩ } = .ok false) ∧
    (({ IntStruct.empty with dNdE_tau_lep := ⟨[2], [1, 2]⟩ } : IntStruct).eq { IntStruct.empty with dNdE_tau_lep := ⟨[2], [1, 2]⟩ } = .ok true) := by
  decide +kernel

/-- C44, disagreement: no copy carries the target list: a copy has none, an assignment keeps the old one. So a copy of a structure with
targets is never the same structure. -/
theorem c44_targets_violated :
    (∀ other : IntStruct, other.copy.targets = []) ∧ (∀ self other : IntStruct, (self.assign other).targets = self.targets) ∧
    (∀ other : IntStruct, other.targets ≠ [] → other.copy ≠ other) ∧
    (∃ self other : IntStruct, (self.assign other).targets ≠ other.targets) := by
  refine ⟨fun _ => rfl, fun _ _ => rfl, ?_, ⟨IntStruct.empty, { IntStruct.empty with targets := [2212, 2112] }, by decide⟩⟩
  intro other h he
  apply h
  rw [← he]; rfl

/-- C44, disagreement: structures with different targets, or tables of different shape with the same contents in memory order, compare
equal. -/
theorem c44_equality_violated :
    (∃ a b : IntStruct, a.eq b = .ok true ∧ a.targets ≠ b.targets) ∧
    (∃ a b : IntStruct, a.eq b = .ok true ∧ a.sigma_CC.extents ≠ b.sigma_CC.extents) :=
  ⟨⟨IntStruct.empty, { IntStruct.empty with targets := [2212] }, by decide, by decide⟩,
   ⟨{ IntStruct.empty with sigma_CC := ⟨[1, 2, 3, 4], List.replicate 24 1⟩ },
    { IntStruct.empty with sigma_CC := ⟨[2, 1, 3, 4], List.replicate 24 1⟩ }, by decide +kernel, by decide⟩⟩

end Verif.Life
