import Verif.Decoh.Solver

/-! C87: whether decoherence reaches the equation that is solved. -/

namespace Verif.Decoh

/-- C87: if the object was made with interactions, or sources or the terms themselves were switched on, and nobody switched the terms off, the derivative has
the operator of the matrix given last, scaled with the energy, unless decoherence is disabled. Missing: objects without interactions
(`c87_solver_violated`). -/
theorem c87_solver_partial {numneu : Nat} {GeV : ℝ} {iint : Bool} {h : List SolverCall} {v : Solver} (hr : SolverRun numneu GeV iint h v)
    (hon : iint = true ∨ ∃ c ∈ h, c.activates) (hoff : ∀ c ∈ h, ¬c.stops) :
    ∃ (enabled : Bool) (G : Nat → Nat → ℝ) (E₀ p : ℝ), enabled = lastOf givenSwitch (decoherenceCalls h) true ∧
      E₀ = lastOf givenScale (decoherenceCalls h) GeV ∧ p = lastOf givenIndex (decoherenceCalls h) 0 ∧
      Holds numneu (lastOf (givenMatrix numneu) (decoherenceCalls h) (fun _ _ => 0, false)) G ∧
      ∀ E coherent base rho i, v.derivative E coherent base rho i =
        coherent i + base i - if enabled then (List.range (numneu ^ 2)).foldl (fun acc j => acc + G i j * rho j * (E / E₀) ^ p) 0 else 0 := by
  obtain ⟨h1, _, h3, _⟩ := solver_run hr
  obtain ⟨i1, i2, i3, i4, i5⟩ := c87_history h1
  refine ⟨v.s.enabled, v.s.gamma, v.s.scale, v.s.index, i4, i3, i2, i5, ?_⟩
  intro E coherent base rho i
  unfold Solver.derivative
  rw [if_pos (h3 hon hoff)]
  unfold interactionsRho drho Nsq.nb
  rw [i1]
  cases v.s.enabled with
  | true => simp only [if_true]; ring
  | false => simp

example : SolverRun 3 10 true [] (.construct 3 10 true) := .start

/-- C87, disagreement: an object without interactions, as all of a single energy are, has no decoherence: whatever matrix was given and although it is
enabled, the derivative is that of an object without. -/
theorem c87_solver_violated {numneu : Nat} {GeV : ℝ} {h : List SolverCall} {v : Solver} (hr : SolverRun numneu GeV false h v)
    (hno : ∀ c ∈ h, ¬c.activates) (E : ℝ) (coherent base rho : Nat → ℝ) (i : Nat) : v.derivative E coherent base rho i = coherent i := by
  unfold Solver.derivative
  rw [(solver_run hr).2.2.2 rfl hno]
  rfl

/-- Neutrino loss at rate 2 was asked for and would damp every component. -/
example : ∃ v, SolverRun 3 10 false [.decoherence (.model .neutrinoLoss 2), .decoherence (.enable true)] v ∧ v.s.enabled = true ∧
    (∀ c ∈ [SolverCall.decoherence (.model .neutrinoLoss 2), SolverCall.decoherence (.enable true)], ¬c.activates) ∧ v.s.gamma 4 4 = 2 := by
  obtain ⟨s1, h1, _⟩ := c87_loss (init 3 10) 2
  have r : SolverRun 3 10 false [.decoherence (.model .neutrinoLoss 2), .decoherence (.enable true)] ⟨enable s1 true, false, false⟩ :=
    .call (h := [.decoherence (.model .neutrinoLoss 2)]) (v := ⟨s1, false, false⟩) (o := .ok ()) (.decoherence (.enable true))
      (.call (h := []) (o := .ok ()) (.decoherence (.model .neutrinoLoss 2)) .start
        (by
          show ((⟨(step (init 3 10) (.model .neutrinoLoss 2)).1, false, false⟩ : Solver), (step (init 3 10) (.model .neutrinoLoss 2)).2) = _
          rw [show step (init 3 10) (.model .neutrinoLoss 2) = (s1, .ok ()) from h1]) (by simp)) rfl (by simp)
  refine ⟨_, r, rfl, ?_, ?_⟩
  · intro c hc
    simp only [List.mem_cons, List.not_mem_nil, or_false] at hc
    rcases hc with rfl | rfl <;> exact fun h => h
  · have := (c87_history (solver_run r).1).2.2.2.2 4 (by decide) 4 (by decide)
    simpa [lastOf, givenMatrix, decoherenceCalls] using this

end Verif.Decoh
