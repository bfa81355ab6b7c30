import Verif.Density.Average
import Mathlib.Analysis.SpecialFunctions.Trigonometric.Bounds

/-!
# C83: averaged evaluation

The full claim: with averaged oscillations the flavour contents still add up to the whole, lie between nothing and the whole, are the
unaveraged ones if no phase exceeds the scale and the incoherent sum over mass states if all do.
-/

namespace Verif.Density

open Matrix
open Matter (NT)
open scoped ComplexOrder

variable {n : Nat}

/-- The vacuum Hamiltonian is diagonal in the mass basis, as `iniH0` makes it. -/
def DiagonalMasses (o : Obj n) : Prop := ∃ d : Fin n → ℝ, o.dm2 = Matrix.diagonal fun i => (d i : ℂ)

theorem diagonal_fill (o : Obj n) (ho : Ready o) (v : Nat → Nat → Fin n → ℝ) (b : Basis) : DiagonalMasses (fill o v b) := by
  have key : ∀ (l : List (Fin n)) (z : Mat n), (∃ d : Fin n → ℝ, z = Matrix.diagonal fun i => (d i : ℂ)) →
      ∃ d : Fin n → ℝ, l.foldl (fun s i => if 1 ≤ i.val then s + o.differences i • o.b0 i else s) z = Matrix.diagonal fun i => (d i : ℂ) := by
    intro l
    induction l with
    | nil => exact fun z h => h
    | cons a l ih =>
      rintro z ⟨d, rfl⟩
      rw [List.foldl_cons]
      apply ih
      split
      · refine ⟨fun i => d i + if i = a then o.differences a else 0, ?_⟩
        rw [ho.b0]
        ext i j
        rw [Matrix.add_apply, Matrix.smul_apply, projector, Matrix.single_apply, Matrix.diagonal_apply, Matrix.diagonal_apply]
        by_cases hij : i = j
        · subst hij
          by_cases hia : i = a
          · subst hia; simp
          · simp [hia, Ne.symm hia]
        · rw [if_neg hij, if_neg hij, if_neg]
          · simp
          · rintro ⟨rfl, rfl⟩; exact hij rfl
      · exact ⟨d, rfl⟩
  have : (fill o v b).dm2 = (List.finRange n).foldl (fun s i => if 1 ≤ i.val then s + o.differences i • o.b0 i else s) 0 := by
    unfold fill iniH0 setIniFlavorProjectors
    dsimp only
    split <;> rfl
  unfold DiagonalMasses
  rw [this]
  exact key _ 0 ⟨fun _ => 0, by ext i j; simp [Matrix.diagonal_apply]⟩

theorem h0_diagonal {o : Obj n} (h : DiagonalMasses o) (E : ℝ) : ∃ d : Fin n → ℝ, h0 o E = Matrix.diagonal fun i => (d i : ℂ) := by
  obtain ⟨d, hd⟩ := h
  unfold h0
  split
  · refine ⟨fun i => 1 / 2 / E * d i, ?_⟩
    rw [hd]
    ext i j
    rw [Matrix.smul_apply, Matrix.diagonal_apply, Matrix.diagonal_apply]
    split <;> simp
  · exact ⟨fun _ => 0, by ext i j; simp [Matrix.diagonal_apply]⟩

theorem phase_diagonal (d : Fin n → ℝ) (t : ℝ) : phase (Matrix.diagonal fun i => (d i : ℂ)) t =
    Matrix.diagonal fun i => Complex.exp (Complex.I * (d i * t : ℝ)) := by
  have e : (Complex.I * (t : ℂ)) • (Matrix.diagonal fun i => (d i : ℂ) : Mat n) = Matrix.diagonal fun i => Complex.I * (d i * t : ℝ) := by
    ext a b
    rw [Matrix.smul_apply, Matrix.diagonal_apply, Matrix.diagonal_apply]
    split
    · push_cast; simp only [smul_eq_mul]; ring
    · simp
  unfold phase
  rw [e, Matrix.exp_diagonal]
  congr 1
  funext i
  rw [Pi.coe_exp, ← Complex.exp_eq_exp_ℂ]

/-- Entries of an operator evolved with a diagonal Hamiltonian. -/
theorem evolve_diagonal (d : Fin n → ℝ) (t : ℝ) (A : Mat n) (i j : Fin n) : evolve (Matrix.diagonal fun i => (d i : ℂ)) t A i j =
    Complex.exp (Complex.I * ((d i - d j) * t : ℝ)) * A i j := by
  unfold evolve
  rw [phase_diagonal, phase_diagonal, Matrix.mul_diagonal, Matrix.diagonal_mul,
    show Complex.I * (((d i - d j) * t : ℝ) : ℂ) = Complex.I * (d i * t : ℝ) + Complex.I * (d j * -t : ℝ) by push_cast; ring, Complex.exp_add]
  ring

theorem averagedEvolve_sum (H : Mat n) (t scale : ℝ) {ι : Type} (s : Finset ι) (f : ι → Mat n) :
    averagedEvolve H t scale (∑ k ∈ s, f k) = ∑ k ∈ s, averagedEvolve H t scale (f k) := by
  ext i j
  rw [Matrix.sum_apply]
  simp only [averagedEvolve, Matrix.of_apply, evolve_sum, Matrix.sum_apply]
  split
  · simp
  · rfl

theorem averagedEvolve_one (H : Mat n) (t scale : ℝ) : averagedEvolve H t scale 1 = 1 := by
  ext i j
  simp only [averagedEvolve, Matrix.of_apply, evolve_one]
  split
  · rename_i h
    rw [Matrix.one_apply_ne h.1]
  · rfl

/-- Contents read with averaging, as a function of the state. -/
noncomputable def readAveraged (o : Obj n) (rho : Nat) (E scale : ℝ) (A : Mat n) (f : Fin n) : ℝ :=
  if o.basis = .mass then dot (o.b1 rho f) A else expectationAveraged o A (o.b1 rho f) E scale

/-- Contents read without averaging. -/
noncomputable def readPlain (o : Obj n) (rho : Nat) (E : ℝ) (A : Mat n) (f : Fin n) : ℝ :=
  if o.basis = .mass then dot (o.b1 rho f) A else dot A (evolve (h0 o E) (o.t - o.tini) (o.b1 rho f))

private theorem evalAveraged_eq {o : Obj n} (ho : Good o) {rho : Nat} (hr : rho < o.nrhos) (inter : Nat → ℝ → Mat n) (f : Fin n) {E : ℝ}
    (hE : ¬outside o E) (scale : ℝ) : evalFlavorAveraged o inter f E rho scale n = .ok (readAveraged o rho E scale (inter rho E) f) := by
  have hg : ¬(rho ≠ 0 ∧ o.nt ≠ .both) := by
    rintro ⟨h1, h2⟩
    have := ho.ready.nrhos
    rw [if_neg h2] at this
    omega
  unfold evalFlavorAveraged readAveraged
  rw [if_neg (by rw [ho.ienergy]; simp), if_neg hg, if_neg hE, if_neg (by simp)]
  split <;> rfl

/-- The contents add up to the whole, whatever the scale. -/
theorem c83_total (o : Obj n) (ho : Good o) (rho : Nat) (hr : rho < o.nrhos) (inter : Nat → ℝ → Mat n) (E : ℝ) (hE : ¬outside o E) (scale : ℝ) :
    ∃ c : Fin n → ℝ, (∀ f, evalFlavorAveraged o inter f E rho scale n = .ok (c f)) ∧ ∑ f, c f = (inter rho E).trace.re := by
  refine ⟨_, fun f => evalAveraged_eq ho hr inter f hE scale, ?_⟩
  have hs : ∑ f, o.b1 rho f = 1 := by
    simp only [fun f => ho.b1 rho f hr]
    exact sum_b1 (ho.ready.mixing rho)
  unfold readAveraged
  by_cases hb : o.basis = .mass
  · simp only [if_pos hb]
    simp only [fun f => dot_comm (o.b1 rho f) (inter rho E)]
    rw [← dot_sum, hs, dot, Matrix.mul_one]
  · simp only [if_neg hb, expectationAveraged]
    rw [← dot_sum, ← averagedEvolve_sum, hs, averagedEvolve_one, dot, Matrix.mul_one]

/-- If no phase exceeds the scale, averaging changes nothing. -/
theorem c83_no_effect (o : Obj n) (ho : Good o) (rho : Nat) (hr : rho < o.nrhos) (inter : Nat → ℝ → Mat n) (E : ℝ) (hE : ¬outside o E) (scale : ℝ)
    (h : ∀ i j, |phaseDifference (h0 o E) (o.t - o.tini) i j| ≤ scale) (f : Fin n) :
    evalFlavorAveraged o inter f E rho scale n = .ok (readPlain o rho E (inter rho E) f) := by
  rw [evalAveraged_eq ho hr inter f hE]
  unfold readAveraged readPlain expectationAveraged
  have : averagedEvolve (h0 o E) (o.t - o.tini) scale (o.b1 rho f) = evolve (h0 o E) (o.t - o.tini) (o.b1 rho f) := by
    ext i j
    simp only [averagedEvolve, Matrix.of_apply]
    rw [if_neg]
    rintro ⟨_, h1⟩
    exact absurd (h i j) (not_le.2 h1)
  rw [this]

/-- If all phases of different levels exceed the scale, what is read is the incoherent sum over mass states: the probability of each mass
state times that of finding the flavour in it. -/
theorem c83_incoherent (o : Obj n) (ho : Good o) (hd : DiagonalMasses o) (hb : o.basis ≠ .mass) (rho : Nat) (hr : rho < o.nrhos)
    (inter : Nat → ℝ → Mat n) (E : ℝ) (hE : ¬outside o E) (scale : ℝ)
    (h : ∀ i j, i ≠ j → scale < |phaseDifference (h0 o E) (o.t - o.tini) i j|) (f : Fin n) :
    evalFlavorAveraged o inter f E rho scale n = .ok (∑ i, (inter rho E i i).re * Complex.normSq (o.mixing rho i f)) := by
  rw [evalAveraged_eq ho hr inter f hE]
  unfold readAveraged expectationAveraged
  rw [if_neg hb]
  obtain ⟨d, hdiag⟩ := h0_diagonal hd E
  have hav : averagedEvolve (h0 o E) (o.t - o.tini) scale (o.b1 rho f) = Matrix.diagonal fun i => (Complex.normSq (o.mixing rho i f) : ℂ) := by
    ext i j
    simp only [averagedEvolve, Matrix.of_apply]
    by_cases hij : i = j
    · subst hij
      rw [if_neg (by simp), Matrix.diagonal_apply_eq, hdiag, evolve_diagonal, ho.b1 rho f hr, toB1_apply, sub_self, zero_mul,
        Complex.ofReal_zero, mul_zero, Complex.exp_zero, one_mul, Complex.star_def, Complex.mul_conj]
    · rw [if_pos ⟨hij, h i j hij⟩, Matrix.diagonal_apply_ne _ hij]
  rw [hav, dot, Matrix.trace]
  congr 1
  rw [Complex.re_sum]
  apply Finset.sum_congr rfl
  intro i _
  rw [Matrix.diag_apply, Matrix.mul_diagonal, Complex.re_mul_ofReal]

/-- Contents lie between nothing and the whole if no phase exceeds the scale or all do. Missing from the full claim: some phases exceed
it and others do not (`c83_negative_violated`). -/
theorem c83_range_partial (o : Obj n) (ho : Good o) (hd : DiagonalMasses o) (rho : Nat) (hr : rho < o.nrhos)
    (inter : Nat → ℝ → Mat n) (E : ℝ) (hE : ¬outside o E) (scale : ℝ) (hA : (inter rho E).PosSemidef)
    (h : (∀ i j, |phaseDifference (h0 o E) (o.t - o.tini) i j| ≤ scale) ∨
      ∀ i j, i ≠ j → scale < |phaseDifference (h0 o E) (o.t - o.tini) i j|) (f : Fin n) :
    ∃ c, evalFlavorAveraged o inter f E rho scale n = .ok c ∧ 0 ≤ c ∧ c ≤ (inter rho E).trace.re := by
  obtain ⟨c, hc, hsum⟩ := c83_total o ho rho hr inter E hE scale
  have hpos : ∀ f, 0 ≤ c f := by
    intro f
    by_cases hb : o.basis = .mass
    · have h1 := evalAveraged_eq ho hr inter f hE scale
      rw [hc f] at h1
      injection h1 with h1
      rw [h1, readAveraged, if_pos hb, ho.b1 rho f hr]
      exact dot_b1_nonneg _ hA f
    · rcases h with h | h
      · have h1 := c83_no_effect o ho rho hr inter E hE scale h f
        rw [hc f] at h1
        injection h1 with h1
        rw [h1, readPlain, if_neg hb, ho.b1 rho f hr, dot_comm]
        have hp := phase_star (h0_hermitian ho.dm2 E) (o.t - o.tini)
        have : evolve (h0 o E) (o.t - o.tini) (toB1 (o.mixing rho) (projector f)) =
            toB1 (phase (h0 o E) (o.t - o.tini) * o.mixing rho) (projector f) := by
          unfold evolve toB1
          rw [Matrix.conjTranspose_mul, hp]
          simp only [Matrix.mul_assoc]
        rw [this]
        exact dot_b1_nonneg _ hA f
      · have h1 := c83_incoherent o ho hd hb rho hr inter E hE scale h f
        rw [hc f] at h1
        injection h1 with h1
        rw [h1]
        apply Finset.sum_nonneg
        intro i _
        refine mul_nonneg ?_ (Complex.normSq_nonneg _)
        exact (Complex.nonneg_iff.1 (hA.diag_nonneg (i := i))).1
  refine ⟨c f, hc f, hpos f, ?_⟩
  rw [← hsum]
  exact Finset.single_le_sum (f := c) (fun g _ => hpos g) (Finset.mem_univ f)

/-- With two flavours there is one phase only, so the contents always lie between nothing and the whole. -/
theorem c83_two_flavours (o : Obj 2) (ho : Good o) (hd : DiagonalMasses o) (rho : Nat) (hr : rho < o.nrhos)
    (inter : Nat → ℝ → Mat 2) (E : ℝ) (hE : ¬outside o E) (scale : ℝ) (hs : 0 ≤ scale) (hA : (inter rho E).PosSemidef) (f : Fin 2) :
    ∃ c, evalFlavorAveraged o inter f E rho scale 2 = .ok c ∧ 0 ≤ c ∧ c ≤ (inter rho E).trace.re := by
  apply c83_range_partial o ho hd rho hr inter E hE scale hA
  have e : |phaseDifference (h0 o E) (o.t - o.tini) 1 0| = |phaseDifference (h0 o E) (o.t - o.tini) 0 1| := by
    rw [← abs_neg]
    congr 1
    unfold phaseDifference
    ring
  have e0 : ∀ i, phaseDifference (h0 o E) (o.t - o.tini) i i = 0 := fun i => by unfold phaseDifference; ring
  by_cases h : |phaseDifference (h0 o E) (o.t - o.tini) 0 1| ≤ scale
  · left
    intro i j
    fin_cases i <;> fin_cases j
    · simpa [e0] using hs
    · exact h
    · exact e ▸ h
    · simpa [e0] using hs
  · right
    intro i j hij
    fin_cases i <;> fin_cases j
    · exact absurd rfl hij
    · exact not_le.1 h
    · exact e ▸ not_le.1 h
    · exact absurd rfl hij

theorem averagedEvolve_projector {o : Obj n} (hd : DiagonalMasses o) (E t scale : ℝ) (f : Fin n) :
    averagedEvolve (h0 o E) t scale (projector f) = projector f := by
  obtain ⟨d, hdiag⟩ := h0_diagonal hd E
  ext i j
  simp only [averagedEvolve, Matrix.of_apply]
  rw [hdiag, evolve_diagonal]
  by_cases hij : i = j
  · subst hij
    simp
  · have h0 : (projector f : Mat n) i j = 0 := by
      unfold projector
      rw [Matrix.single_apply, if_neg]
      rintro ⟨rfl, rfl⟩
      exact hij rfl
    rw [h0, mul_zero, ite_self]

/-- Reading mass states, averaging never matters: what is read is the diagonal element of the state. -/
theorem c83_mass (o : Obj n) (ho : Good o) (hd : DiagonalMasses o) (rho : Nat) (hr : rho < o.nrhos) (inter : Nat → ℝ → Mat n) (E : ℝ)
    (hE : ¬outside o E) (scale : ℝ) (f : Fin n) : evalMassAveraged o inter f E rho scale n = .ok (inter rho E f f).re := by
  have hg : ¬(rho ≠ 0 ∧ o.nt ≠ .both) := by
    rintro ⟨h1, h2⟩
    have := ho.ready.nrhos
    rw [if_neg h2] at this
    omega
  unfold evalMassAveraged
  rw [if_neg (by rw [ho.ienergy]; simp), if_neg hg, if_neg hE, if_neg (by simp), ho.ready.b0]
  split
  · rw [dot_projector_left]
  · rw [expectationAveraged, averagedEvolve_projector hd, dot_comm, dot_projector_left]

/-- The evaluation is refused exactly without energies, for a particle type that is not propagated, outside the energy range, or with a
vector of averages of the wrong length. -/
theorem c83_refused (o : Obj n) (inter : Nat → ℝ → Mat n) (f : Fin n) (E : ℝ) (rho : Nat) (scale : ℝ) (len : Nat) :
    (evalFlavorAveraged o inter f E rho scale len = .throws ↔
      o.ienergy = false ∨ (rho ≠ 0 ∧ o.nt ≠ .both) ∨ E < o.energies 0 ∨ o.energies (o.ne - 1) < E ∨ len ≠ n) ∧
    (evalMassAveraged o inter f E rho scale len = .throws ↔
      o.ienergy = false ∨ (rho ≠ 0 ∧ o.nt ≠ .both) ∨ E < o.energies 0 ∨ o.energies (o.ne - 1) < E ∨ len ≠ n) := by
  have ho : outside o E ↔ E < o.energies 0 ∨ o.energies (o.ne - 1) < E := Iff.rfl
  unfold evalFlavorAveraged evalMassAveraged
  by_cases h1 : o.ienergy = false
  · simp [h1]
  · by_cases h2 : rho ≠ 0 ∧ o.nt ≠ .both
    · simp [h1, h2]
    · by_cases h3 : outside o E
      · rw [if_neg h1, if_neg h1, if_neg h2, if_neg h2, if_pos h3, if_pos h3]
        have := ho.1 h3
        tauto
      · rw [if_neg h1, if_neg h1, if_neg h2, if_neg h2, if_neg h3, if_neg h3]
        have h3' : ¬(E < o.energies 0 ∨ o.energies (o.ne - 1) < E) := h3
        by_cases h4 : len ≠ n
        · rw [if_pos h4, if_pos h4]; tauto
        · rw [if_neg h4, if_neg h4]
          have hno : ¬(o.ienergy = false ∨ (rho ≠ 0 ∧ o.nt ≠ .both) ∨ E < o.energies 0 ∨ o.energies (o.ne - 1) < E ∨ len ≠ n) := by
            rintro (h | h | h | h | h)
            · exact h1 h
            · exact h2 h
            · exact h3' (Or.inl h)
            · exact h3' (Or.inr h)
            · exact h4 h
          constructor <;> split <;> exact ⟨fun h => by simp at h, fun h => absurd h hno⟩

/-- Single-energy mode reads the same numbers from the state of the only node, unless the full Hamiltonian was used for the projectors;
then the scale is ignored. Mass states are read from the diagonal of the state. -/
theorem c83_single_energy (o : Obj n) (ho : Good o) (hd : DiagonalMasses o) (hne : o.ne = 1) (f : Fin n) (scale : ℝ) :
    (o.full = false → evalFlavorAveraged1 o f scale = .ok (readAveraged o 0 (o.energies 0) scale (o.state 0 0) f)) ∧
    (o.full = true → evalFlavorAveraged1 o f scale = evalFlavor1 o f) ∧
    evalMassAveraged1 o f scale = .ok (o.state 0 0 f f).re := by
  refine ⟨?_, ?_, ?_⟩
  · intro h
    unfold evalFlavorAveraged1 readAveraged
    rw [if_neg (by rw [ho.ienergy]; simp), if_neg (by simp [hne])]
    by_cases hb : o.basis = .mass
    · simp [hb]
    · simp [hb, h]
  · intro h
    unfold evalFlavorAveraged1 evalFlavor1
    by_cases hb : o.basis = .mass
    · simp [hb]
    · simp [hb, h]
  · unfold evalMassAveraged1
    rw [if_neg (by rw [ho.ienergy]; simp), if_neg (by simp [hne]), ho.ready.b0]
    split
    · rw [dot_projector_left]
    · rw [expectationAveraged, averagedEvolve_projector hd, dot_comm, dot_projector_left]

/-! ## Instances and violation -/

/-- A real mixing matrix with rational entries. -/
noncomputable def mixThird : Mat 3 := !![1 / 3, 2 / 3, 2 / 3; 2 / 3, -2 / 3, 1 / 3; 2 / 3, 1 / 3, -2 / 3]

theorem mixThird_unitary : Unitary mixThird := by
  unfold Unitary
  ext i j
  fin_cases i <;> fin_cases j <;>
    simp [mixThird, Matrix.mul_apply, Fin.sum_univ_three, Matrix.conjTranspose_apply, Complex.conj_ofNat] <;> norm_num

/-- Three flavours, one node, levels 0, 1 and 2. -/
noncomputable def demoThird : Obj 3 :=
  { demo1 .interaction with mixing := fun _ => mixThird, differences := fun i => if i = 1 then 1 else 2 }

theorem demoThird_ready : Ready demoThird := ⟨fun _ => rfl, fun _ => mixThird_unitary, rfl⟩

/-- All of the second flavour at the start of the track, read after a time of one half in vacuum. -/
noncomputable def demoLater : Obj 3 :=
  { fill demoThird (fun _ _ f => if f = 1 then 1 else 0) .flavor with t := 5 + 1 / 2 }

theorem demoLater_good : Good demoLater ∧ DiagonalMasses demoLater := by
  have h := good_fill demoThird demoThird_ready rfl (fun _ _ f => if f = 1 then 1 else 0) .flavor
  exact ⟨⟨⟨h.ready.b0, h.ready.mixing, h.ready.nrhos⟩, h.ienergy, h.b1, h.dm2⟩,
    diagonal_fill demoThird demoThird_ready (fun _ _ f => if f = 1 then 1 else 0) .flavor⟩

theorem demoLater_h0 : h0 demoLater (demoLater.energies 0) = Matrix.diagonal fun i => ((i.val : ℝ) : ℂ) := by
  have hdm : demoLater.dm2 = Matrix.diagonal fun i => ((i.val : ℝ) : ℂ) := by
    have : demoLater.dm2 =
        (List.finRange 3).foldl (fun s i => if 1 ≤ i.val then s + demoThird.differences i • demoThird.b0 i else s) 0 := by
      unfold demoLater fill iniH0 setIniFlavorProjectors
      simp [demoThird, demo1, demo]
    rw [this]
    ext i j
    fin_cases i <;> fin_cases j <;>
      simp [List.finRange_succ, demoThird, demo1, demo, projector]
  have he : demoLater.energies 0 = 1 / 2 ∧ demoLater.ioscillations = true := by
    unfold demoLater fill iniH0 setIniFlavorProjectors; simp [demoThird, demo1, demo]
  unfold h0
  rw [if_pos he.2, he.1, hdm]
  norm_num

theorem demoLater_averaged : averagedEvolve (Matrix.diagonal fun i : Fin 3 => ((i.val : ℝ) : ℂ)) (1 / 2) (3 / 4) (toB1 mixThird (projector 0)) =
    !![1 / 9, Complex.exp (Complex.I * (-(1 / 2) : ℝ)) * (2 / 9), 0;
      Complex.exp (Complex.I * (1 / 2 : ℝ)) * (2 / 9), 4 / 9, Complex.exp (Complex.I * (-(1 / 2) : ℝ)) * (4 / 9);
      0, Complex.exp (Complex.I * (1 / 2 : ℝ)) * (4 / 9), 4 / 9] := by
  have key : ∀ (i j : Fin 3), averagedEvolve (Matrix.diagonal fun i : Fin 3 => ((i.val : ℝ) : ℂ)) (1 / 2) (3 / 4) (toB1 mixThird (projector 0)) i j =
      if i ≠ j ∧ 3 / 4 < |((i.val : ℝ) - (j.val : ℝ)) * (1 / 2)| then 0
      else Complex.exp (Complex.I * (((i.val : ℝ) - (j.val : ℝ)) * (1 / 2) : ℝ)) * (mixThird i 0 * star (mixThird j 0)) := by
    intro i j
    simp only [averagedEvolve, Matrix.of_apply, evolve_diagonal, toB1_apply, phaseDifference, Matrix.diagonal_apply_eq, Complex.ofReal_re]
  ext i j
  rw [key]
  fin_cases i <;> fin_cases j
  · norm_num [mixThird, Complex.conj_ofNat]
  · rw [if_neg (by norm_num [abs_lt, abs_of_neg])]
    norm_num [mixThird, Complex.conj_ofNat]
  · rw [if_pos (by norm_num)]
    simp
  · rw [if_neg (by norm_num)]
    norm_num [mixThird, Complex.conj_ofNat]
  · norm_num [mixThird, Complex.conj_ofNat]
  · rw [if_neg (by norm_num)]
    norm_num [mixThird, Complex.conj_ofNat]
  · rw [if_pos (by norm_num)]
    simp
  · rw [if_neg (by norm_num)]
    norm_num [mixThird, Complex.conj_ofNat]
  · norm_num [mixThird, Complex.conj_ofNat]

theorem demoLater_value : expectationAveraged demoLater (toB1 mixThird (projector 1)) (toB1 mixThird (projector 0)) (demoLater.energies 0) (3 / 4) =
    (24 - 32 * Real.cos (1 / 2)) / 81 := by
  have ht : demoLater.t - demoLater.tini = 1 / 2 := by
    unfold demoLater fill iniH0 setIniFlavorProjectors
    simp [demoThird, demo1, demo]
  have hre : ∀ x : ℝ, (Complex.exp (Complex.I * (x : ℝ))).re = Real.cos x := by
    intro x
    rw [mul_comm, Complex.exp_ofReal_mul_I_re]
  have hs : ∀ f i j, toB1 mixThird (projector f) i j = mixThird i f * star (mixThird j f) := fun f i j => toB1_apply _ _ _ _
  unfold expectationAveraged
  rw [demoLater_h0, ht, demoLater_averaged, dot, Matrix.trace]
  simp only [Matrix.diag_apply, Matrix.mul_apply, Fin.sum_univ_three, hs]
  have h1 := hre (1 / 2)
  have h2 := hre (-(1 / 2))
  rw [Real.cos_neg] at h2
  generalize Complex.exp (Complex.I * (1 / 2 : ℝ)) = a at h1
  generalize Complex.exp (Complex.I * (-(1 / 2) : ℝ)) = b at h2
  have e : ∀ r : ℝ, (star (r : ℂ)) = (r : ℂ) := fun r => Complex.conj_ofReal r
  have m0 : mixThird 0 1 = ((2 / 3 : ℝ) : ℂ) := by simp [mixThird]
  have m1 : mixThird 1 1 = ((-2 / 3 : ℝ) : ℂ) := by simp [mixThird]
  have m2 : mixThird 2 1 = ((1 / 3 : ℝ) : ℂ) := by simp [mixThird]
  rw [m0, m1, m2, e, e, e]
  simp [Complex.add_re, Complex.mul_re, h1, h2]
  ring

theorem demoLater_fields : demoLater.mixing 0 = mixThird ∧ demoLater.basis = .interaction ∧ demoLater.full = false ∧ demoLater.ne = 1 ∧
    demoLater.nrhos = 1 ∧ demoLater.t - demoLater.tini = 1 / 2 := by
  unfold demoLater fill iniH0 setIniFlavorProjectors; simp [demoThird, demo1, demo]

theorem demoLater_inside : ¬outside demoLater (demoLater.energies 0) := by
  unfold outside
  rw [demoLater_fields.2.2.2.1]
  simp

theorem demoLater_state : demoLater.state 0 0 = toB1 mixThird (projector 1) := by
  have : demoLater.state 0 0 = (List.finRange 3).foldl (fun s j => s + (if j = 1 then (1 : ℝ) else 0) • toB1 mixThird (projector j)) 0 := by
    unfold demoLater fill iniH0 setIniFlavorProjectors
    simp [demoThird, demo1, demo]
  rw [this, foldl_finRange]
  simp

theorem demoLater_phase (i j : Fin 3) :
    phaseDifference (h0 demoLater (demoLater.energies 0)) (demoLater.t - demoLater.tini) i j = ((i.val : ℝ) - (j.val : ℝ)) * (1 / 2) := by
  rw [demoLater_h0, demoLater_fields.2.2.2.2.2]
  simp [phaseDifference]

/-- The contents of an averaged beam add up to one. -/
example : ∃ c : Fin 3 → ℝ, (∀ f, evalFlavorAveraged demoLater (fun _ _ => toB1 mixThird (projector 1)) f (demoLater.energies 0) 0 (3 / 4) 3 = .ok (c f)) ∧
    ∑ f, c f = 1 := by
  obtain ⟨c, h1, h2⟩ := c83_total demoLater demoLater_good.1 0 (by rw [demoLater_fields.2.2.2.2.1]; exact Nat.one_pos)
    (fun _ _ => toB1 mixThird (projector 1)) _ demoLater_inside (3 / 4)
  refine ⟨c, h1, h2.trans ?_⟩
  simp only [Matrix.trace, Matrix.diag_apply, Fin.sum_univ_three, toB1_apply]
  simp [mixThird]
  norm_num

/-- No phase exceeds one. -/
example : evalFlavorAveraged demoLater (fun _ _ => toB1 mixThird (projector 1)) 0 (demoLater.energies 0) 0 1 3 =
    .ok (readPlain demoLater 0 (demoLater.energies 0) (toB1 mixThird (projector 1)) 0) := by
  apply c83_no_effect demoLater demoLater_good.1 0 (by rw [demoLater_fields.2.2.2.2.1]; exact Nat.one_pos) _ _ demoLater_inside
  intro i j
  rw [demoLater_phase]
  fin_cases i <;> fin_cases j <;> norm_num

theorem demoLater_all (i j : Fin 3) (h : i ≠ j) :
    1 / 4 < |phaseDifference (h0 demoLater (demoLater.energies 0)) (demoLater.t - demoLater.tini) i j| := by
  rw [demoLater_phase]
  fin_cases i <;> fin_cases j <;> first | exact absurd rfl h | norm_num

/-- All phases exceed a quarter: the first flavour has the incoherent content (2² 1² + 2² 2² + 1² 2²)/81. -/
example : evalFlavorAveraged demoLater (fun _ _ => toB1 mixThird (projector 1)) 0 (demoLater.energies 0) 0 (1 / 4) 3 = .ok (24 / 81) := by
  rw [c83_incoherent demoLater demoLater_good.1 demoLater_good.2 (by rw [demoLater_fields.2.1]; simp) 0
    (by rw [demoLater_fields.2.2.2.2.1]; exact Nat.one_pos) _ _ demoLater_inside _ demoLater_all, demoLater_fields.1]
  simp only [Fin.sum_univ_three, toB1_apply]
  simp [mixThird]
  norm_num

theorem pure_pos (U : Mat n) (f : Fin n) : (toB1 U (projector f)).PosSemidef := by
  have hp : (projector f : Mat n) = projector f * (projector f)ᴴ := by
    rw [(projector_hermitian (n := n) f).eq, projector, Matrix.single_mul_single_same, one_mul]
  have : toB1 U (projector f) = (U * projector f) * (U * projector f)ᴴ := by
    unfold toB1
    rw [Matrix.conjTranspose_mul]
    conv_lhs => rw [hp]
    simp only [Matrix.mul_assoc]
  rw [this]
  exact Matrix.posSemidef_self_mul_conjTranspose _

/-- The contents of the incoherent beam lie in range. -/
example (f : Fin 3) : ∃ c, evalFlavorAveraged demoLater (fun _ _ => toB1 mixThird (projector 1)) f (demoLater.energies 0) 0 (1 / 4) 3 = .ok c ∧
    0 ≤ c ∧ c ≤ (toB1 mixThird (projector 1)).trace.re :=
  c83_range_partial demoLater demoLater_good.1 demoLater_good.2 0 (by rw [demoLater_fields.2.2.2.2.1]; exact Nat.one_pos) _ _ demoLater_inside
    (1 / 4) (pure_pos _ _) (Or.inr demoLater_all) f

/-- The second mass state holds four ninths of the beam. -/
example : evalMassAveraged demoLater (fun _ _ => toB1 mixThird (projector 1)) 1 (demoLater.energies 0) 0 (3 / 4) 3 = .ok (4 / 9) := by
  rw [c83_mass demoLater demoLater_good.1 demoLater_good.2 0 (by rw [demoLater_fields.2.2.2.2.1]; exact Nat.one_pos) _ _ demoLater_inside]
  simp only [toB1_apply]
  simp [mixThird]
  norm_num

/-- A vector of averages of two entries is refused for three flavours. -/
example : evalFlavorAveraged demoLater (fun _ _ => toB1 mixThird (projector 1)) 0 (demoLater.energies 0) 0 (3 / 4) 2 = .throws :=
  (c83_refused demoLater _ 0 _ 0 _ 2).1.2 (Or.inr (Or.inr (Or.inr (Or.inr (by decide)))))

/-- Single-energy mode. -/
example : evalFlavorAveraged1 demoLater 0 (3 / 4) =
    .ok (readAveraged demoLater 0 (demoLater.energies 0) (3 / 4) (demoLater.state 0 0) 0) :=
  (c83_single_energy demoLater demoLater_good.1 demoLater_good.2 demoLater_fields.2.2.2.1 0 (3 / 4)).1 demoLater_fields.2.2.1

/-- Two flavours mixed by 3, 4 and 5. -/
noncomputable def mixFive : Mat 2 := !![3 / 5, 4 / 5; -4 / 5, 3 / 5]

theorem mixFive_unitary : Unitary mixFive := by
  unfold Unitary
  ext i j
  fin_cases i <;> fin_cases j <;>
    simp [mixFive, Matrix.mul_apply, Fin.sum_univ_two, Matrix.conjTranspose_apply, Complex.conj_ofNat] <;> norm_num

/-- Two flavours, one node. -/
noncomputable def demoTwo : Obj 2 where
  nt := .neutrino
  ne := 1
  nrhos := 1
  basis := .interaction
  ienergy := true
  itrack := true
  ibody := true
  istate := false
  ioscillations := true
  full := false
  energies := fun _ => 1 / 2
  differences := fun _ => 1
  mixing := fun _ => mixFive
  b0 := fun f => projector f
  b1 := fun _ _ => 0
  evolB1 := fun _ _ _ => 0
  dm2 := 0
  h0s := fun _ => 0
  state := fun _ _ => 0
  trackStart := 5
  t := 0
  tini := 0

theorem demoTwo_ready : Ready demoTwo := ⟨fun _ => rfl, fun _ => mixFive_unitary, rfl⟩

/-- Any scale, two flavours. -/
example (f : Fin 2) (scale : ℝ) (hs : 0 ≤ scale) : ∃ c, evalFlavorAveraged (fill demoTwo (fun _ _ f => if f = 0 then 1 else 0) .flavor)
    (fun _ _ => toB1 mixFive (projector 0)) f ((fill demoTwo (fun _ _ f => if f = 0 then 1 else 0) .flavor).energies 0) 0 scale 2 = .ok c ∧
    0 ≤ c ∧ c ≤ (toB1 mixFive (projector 0)).trace.re :=
  c83_two_flavours _ (good_fill demoTwo demoTwo_ready rfl _ _) (diagonal_fill demoTwo demoTwo_ready _ _) 0
    (by simp [fill, iniH0, setIniFlavorProjectors, demoTwo]) _ _
    (by simp [outside, fill, iniH0, setIniFlavorProjectors, demoTwo]) scale hs (pure_pos _ _) f

/-- With the scale between the phase 1/2 of neighbouring levels and the phase 1 of the outer ones, an initially pure beam of the second
flavour contains a negative amount, (24 - 32 cos(1/2))/81, of the first. -/
theorem c83_negative_violated : ∃ (o : Obj 3) (c : ℝ), Good o ∧ DiagonalMasses o ∧
    o.state 0 0 = toB1 (o.mixing 0) (projector 1) ∧ evalFlavorAveraged1 o 0 (3 / 4) = .ok c ∧
    evalFlavorAveraged o (fun rho _ => o.state 0 rho) 0 (o.energies 0) 0 (3 / 4) 3 = .ok c ∧ c < 0 := by
  have hb : ∀ f, demoLater.b1 0 f = toB1 mixThird (projector f) := by
    intro f
    unfold demoLater fill iniH0 setIniFlavorProjectors; simp [demoThird, demo1, demo]
  have hst := demoLater_state
  have hm := demoLater_fields
  have hbm : demoLater.basis ≠ .mass := by rw [hm.2.1]; simp
  have hr : readAveraged demoLater 0 (demoLater.energies 0) (3 / 4) (demoLater.state 0 0) 0 = (24 - 32 * Real.cos (1 / 2)) / 81 := by
    unfold readAveraged
    rw [if_neg hbm, hb, hst, demoLater_value]
  refine ⟨demoLater, (24 - 32 * Real.cos (1 / 2)) / 81, demoLater_good.1, demoLater_good.2, ?_, ?_, ?_, ?_⟩
  · rw [hst, hm.1]
  · rw [(c83_single_energy demoLater demoLater_good.1 demoLater_good.2 hm.2.2.2.1 0 (3 / 4)).1 hm.2.2.1, hr]
  · rw [evalAveraged_eq demoLater_good.1 (by rw [hm.2.2.2.2.1]; exact Nat.one_pos) _ 0 demoLater_inside, hr]
  · have := Real.one_sub_sq_div_two_le_cos (x := 1 / 2)
    linarith

end Verif.Density
