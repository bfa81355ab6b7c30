import Verif.Decoh.HistoryProps

/-!
# Whether the solver asks for decoherence (nuSQUIDSDecoh.cpp 6-8, 28-29; src/nuSQuIDS.cpp 246-249; include/nuSQuIDS/nuSQuIDS.h 1047-1056)

SQuIDS adds `InteractionsRho` to the derivative only if `Set_OtherRhoTerms(true)` was called. The constructors of `nuSQUIDS` call it if interactions are on,
`Set_NeutrinoSources(true)` calls it if they are off; nothing in `nuSQUIDSDecoh` does.
-/

namespace Verif.Decoh

/-- The object with `iinteraction` and the switch of SQuIDS. -/
structure Solver where
  s : Nsq
  iint : Bool
  other : Bool

/-- The constructors (nuSQUIDSDecoh.h 31-39; src/nuSQuIDS.cpp 246-249); that of a single energy has no interactions. -/
def Solver.construct (numneu : Nat) (GeV : ℝ) (iint : Bool) : Solver := ⟨init numneu GeV, iint, iint⟩

/-- The calls considered: those about decoherence, `Set_NeutrinoSources` and `Set_OtherRhoTerms`, which is public in SQuIDS. -/
inductive SolverCall where
  | decoherence (c : Call)
  | sources (b : Bool)
  | otherTerms (b : Bool)

def Solver.step (v : Solver) : SolverCall → Solver × Outcome Unit
  | .decoherence c => let r := Decoh.step v.s c; ({ v with s := r.1 }, r.2)
  | .sources b => (if !v.iint && b then { v with other := true } else v, .ok ())
  | .otherTerms b => ({ v with other := b }, .ok ())

inductive SolverRun (numneu : Nat) (GeV : ℝ) (iint : Bool) : List SolverCall → Solver → Prop where
  | start : SolverRun numneu GeV iint [] (.construct numneu GeV iint)
  | call {h : List SolverCall} {v v' : Solver} {o : Outcome Unit} (c : SolverCall) (hr : SolverRun numneu GeV iint h v) (hc : v.step c = (v', o))
      (ho : o ≠ .ub) : SolverRun numneu GeV iint (h ++ [c]) v'

/-- Component `i` of the derivative of a state: `coherent` are the commutator and the anticommutator, `base` is `InteractionsRho` of the base class. -/
noncomputable def Solver.derivative (v : Solver) (E : ℝ) (coherent base rho : Nat → ℝ) (i : Nat) : ℝ :=
  if v.other then coherent i + interactionsRho v.s E base rho i else coherent i

/-! ## Specification -/

/-- The calls about decoherence. -/
def decoherenceCalls : List SolverCall → List Call
  | [] => []
  | .decoherence c :: l => c :: decoherenceCalls l
  | .sources _ :: l => decoherenceCalls l
  | .otherTerms _ :: l => decoherenceCalls l

/-- The call switches the term on. -/
def SolverCall.activates : SolverCall → Prop
  | .sources true => True
  | .otherTerms true => True
  | _ => False

/-- The call may switch the term off. -/
def SolverCall.stops : SolverCall → Prop
  | .otherTerms false => True
  | _ => False

/-! ## Lemmas -/

theorem decoherenceCalls_append (l l' : List SolverCall) : decoherenceCalls (l ++ l') = decoherenceCalls l ++ decoherenceCalls l' := by
  induction l with
  | nil => rfl
  | cons c l ih => cases c <;> simp [decoherenceCalls, ih]

theorem solver_run {numneu : Nat} {GeV : ℝ} {iint : Bool} {h : List SolverCall} {v : Solver} (hr : SolverRun numneu GeV iint h v) :
    Run numneu GeV (decoherenceCalls h) v.s ∧ v.iint = iint ∧
    ((iint = true ∨ ∃ c ∈ h, c.activates) → (∀ c ∈ h, ¬c.stops) → v.other = true) ∧
    (iint = false → (∀ c ∈ h, ¬c.activates) → v.other = false) := by
  induction hr with
  | start =>
    refine ⟨.start, rfl, ?_, ?_⟩
    · rintro (h | ⟨c, hc, _⟩) _
      · exact h
      · simp at hc
    · exact fun h _ => h
  | call c _ hc ho ih =>
    rename_i h v v' o _
    obtain ⟨h1, h2, h3, h4⟩ := ih
    cases c with
    | decoherence c =>
      cases hc
      refine ⟨?_, h2, ?_, ?_⟩
      · rw [decoherenceCalls_append]
        exact .call c h1 rfl ho
      · rintro hk hs
        refine h3 ?_ fun c hc => hs c (by simp [hc])
        rcases hk with hk | ⟨c', hc', ha⟩
        · exact .inl hk
        · rcases List.mem_append.mp hc' with hm | hm
          · exact .inr ⟨c', hm, ha⟩
          · rw [List.mem_singleton.mp hm] at ha; exact ha.elim
      · exact fun hi ha => h4 hi fun c hc => ha c (by simp [hc])
    | sources b =>
      cases hc
      refine ⟨?_, ?_, ?_, ?_⟩
      · rw [decoherenceCalls_append]
        simp only [decoherenceCalls, List.append_nil]
        split <;> exact h1
      · split <;> exact h2
      · intro hk hs
        split
        · rfl
        · rename_i hb
          refine h3 ?_ fun c hc => hs c (by simp [hc])
          rcases hk with hk | ⟨c', hc', ha⟩
          · exact .inl hk
          · rcases List.mem_append.mp hc' with hm | hm
            · exact .inr ⟨c', hm, ha⟩
            · rw [List.mem_singleton.mp hm] at ha
              cases b with
              | false => exact ha.elim
              | true => rw [h2] at hb; left; simpa using hb
      · intro hi ha
        cases b with
        | true => exact absurd trivial (ha (.sources true) (by simp))
        | false =>
          rw [if_neg (by simp)]
          exact h4 hi fun c hc => ha c (by simp [hc])
    | otherTerms b =>
      cases hc
      refine ⟨?_, h2, ?_, ?_⟩
      · rw [decoherenceCalls_append]
        simpa [decoherenceCalls] using h1
      · intro _ hs
        cases b with
        | true => rfl
        | false => exact absurd trivial (hs (.otherTerms false) (by simp))
      · intro _ ha
        cases b with
        | true => exact absurd trivial (ha (.otherTerms true) (by simp))
        | false => rfl

end Verif.Decoh
