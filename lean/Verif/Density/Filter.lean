import Verif.Density.TransportProps
import Verif.Density.AverageProps

/-!
The low-pass filter on the evolution: `Set_EvolLowPassCutoff`, `Set_EvolLowPassScale` (nuSQuIDS.cpp 2821-2827; nuSQuIDS.h 497-499,
819-823) and its use in `EvolveProjectors` (299-326).
-/

namespace Verif.Density

open Matrix
open Update
open scoped ComplexOrder

variable {n : Nat}

/-! ## Model -/

/-- `evol_lowpass_cutoff` and `evol_lowpass_scale` (nuSQuIDS.h 497-499); the setters (2821-2827) store what they are given. -/
structure LowPass where
  cutoff : ℝ := 0
  scale : ℝ := 0

/-- What is assumed of `SU_vector::LowPassFilter`: it multiplies what oscillates at an angular frequency by a factor between zero and one,
which is the same for both directions, one below the ramp and zero above it. The ramp of the given size is somewhere around the cut-off. -/
structure LowPass.Factor (k : LowPass) (g : ℝ → ℝ) : Prop where
  even : ∀ w, g (-w) = g w
  nonneg : ∀ w, 0 ≤ g w
  le_one : ∀ w, g w ≤ 1
  pass : ∀ w, |w| ≤ k.cutoff - k.scale → g w = 1
  stop : ∀ w, k.cutoff + k.scale < |w| → g w = 0

/-- `H.LowPassFilter(buffer, ...)` and the use of the buffer by `Evolve`: `H` is diagonal, what oscillates is what is not on the diagonal,
with the difference of two diagonal elements of `H` as its frequency. -/
noncomputable def lowPass (g : ℝ → ℝ) (H A : Mat n) : Mat n := Matrix.of fun i j => if i = j then A i j else g ((H i i).re - (H j j).re) • A i j

/-- `EvolveProjectors(x)` (299-326). -/
noncomputable def evolveFiltered (k : LowPass) (g : ℝ → ℝ) (o : Obj n) (x : ℝ) : Obj n :=
  { o with
    evolB1 := fun rho f e =>
      if rho < o.nrhos ∧ e < o.ne then
        let P := evolve (o.h0s e) (x - o.tini) (o.b1 rho f)
        if 0 < k.cutoff then lowPass g (o.h0s e) P else P
      else o.evolB1 rho f e }

/-- What `PreDerive(x)` does to the projectors (287-289). -/
noncomputable def preDeriveFiltered (k : LowPass) (g : ℝ → ℝ) (o : Obj n) (x : ℝ) : Obj n :=
  if o.basis ≠ .mass ∧ o.ioscillations = true then evolveFiltered k g o x else o

/-- `HI` (334-361) after `PreDerive(t)`. -/
noncomputable def motionFiltered (k : LowPass) (g : ℝ → ℝ) (c : ℝ) (dens ye : ℝ → ℝ) (flavours : Fin 3 → Fin n) (o : Obj n) (ie rho : Nat) (t : ℝ) :
    Mat n :=
  hamiltonian c (dens t) (ye t) (preDeriveFiltered k g o t) flavours (fun f => (preDeriveFiltered k g o t).evolB1 rho f ie) ie rho

/-- What `UpdateInteractions` reads (292): the projectors are the filtered ones. -/
noncomputable def Setting.netFiltered (s : Setting n) (k : LowPass) (g : ℝ → ℝ) (o : Obj n) (t : ℝ) (st : Nat → Nat → Mat n) : Net ℝ (Mat n) :=
  { s.net o t st with proj := fun r a e => if h : a < n then (preDeriveFiltered k g o t).evolB1 r ⟨a, h⟩ e else 0 }

/-- `GammaRho` (363-372) and `InteractionsRho` (374-431) after `PreDerive(t)`. -/
noncomputable def Setting.gammaFiltered (s : Setting n) (k : LowPass) (g : ℝ → ℝ) (o : Obj n) (t : ℝ) (st : Nat → Nat → Mat n) (e r : Nat) : Mat n :=
  (s.netFiltered k g o t st).gammaRho s.iint (s.old t) (s.old t) e r

noncomputable def Setting.gainFiltered (s : Setting n) (k : LowPass) (g : ℝ → ℝ) (o : Obj n) (t : ℝ) (st : Nat → Nat → Mat n) (e r : Nat) : Mat n :=
  (s.netFiltered k g o t st).interactionsRho s.iint o.ioscillations (s.old t) e r

/-- The derivative of the state of type `r` at node `e` that the integrator is given. -/
noncomputable def Setting.velocityFiltered (s : Setting n) (k : LowPass) (g : ℝ → ℝ) (hn : 3 ≤ n) (o : Obj n) (t : ℝ) (st : Nat → Nat → Mat n)
    (e r : Nat) : Mat n :=
  -Complex.I • (motionFiltered k g s.c s.dens s.ye (Fin.castLE hn) o e r t * st e r -
      st e r * motionFiltered k g s.c s.dens s.ye (Fin.castLE hn) o e r t) -
    (s.gammaFiltered k g o t st e r * st e r + st e r * s.gammaFiltered k g o t st e r) + s.gainFiltered k g o t st e r

/-- The states follow the equation given to the integrator, except at finitely many times. -/
def EvolvesFiltered (s : Setting n) (k : LowPass) (g : ℝ → ℝ) (hn : 3 ≤ n) (o : Obj n) (ρ : ℝ → Nat → Nat → Mat n) (a b : ℝ) : Prop :=
  ∃ S : Set ℝ, S.Finite ∧ (∀ e r, e < o.ne → r < o.nrhos → ∀ i j, ContinuousOn (fun t => ρ t e r i j) (Set.Icc a b)) ∧
    (∀ t ∈ Set.Ico a b, t ∉ S → ∀ e r, e < o.ne → r < o.nrhos → Deriv (fun t => ρ t e r) (s.velocityFiltered k g hn o t (ρ t) e r) (Set.Ici t) t) ∧
    ∀ t ∈ Set.Icc a b, ∀ e r, e < o.ne → r < o.nrhos → (ρ t e r).IsHermitian

/-! ## Lemmas -/

theorem lowPass_hermitian {g : ℝ → ℝ} (hg : ∀ w, g (-w) = g w) (H : Mat n) {A : Mat n} (hA : A.IsHermitian) : (lowPass g H A).IsHermitian := by
  ext i j
  have h := congrFun (congrFun hA.eq i) j
  rw [Matrix.conjTranspose_apply] at h ⊢
  simp only [lowPass, Matrix.of_apply]
  by_cases hij : i = j
  · subst hij; rw [if_pos rfl, h]
  · rw [if_neg hij, if_neg (Ne.symm hij), ← hg ((H j j).re - (H i i).re), neg_sub, star_smul, h]
    simp

theorem lowPass_trace (g : ℝ → ℝ) (H A : Mat n) : (lowPass g H A).trace = A.trace := by
  simp only [Matrix.trace, Matrix.diag_apply, lowPass, Matrix.of_apply, if_pos]

theorem lowPass_sum (g : ℝ → ℝ) (H : Mat n) {ι : Type} (s : Finset ι) (f : ι → Mat n) :
    ∑ k ∈ s, lowPass g H (f k) = lowPass g H (∑ k ∈ s, f k) := by
  ext i j
  rw [Matrix.sum_apply]
  simp only [lowPass, Matrix.of_apply, Matrix.sum_apply]
  by_cases hij : i = j
  · simp [hij]
  · simp only [if_neg hij, Finset.smul_sum]

theorem lowPass_one (g : ℝ → ℝ) (H : Mat n) : lowPass g H 1 = 1 := by
  ext i j
  simp only [lowPass, Matrix.of_apply]
  by_cases hij : i = j
  · rw [if_pos hij]
  · rw [if_neg hij, Matrix.one_apply_ne hij, smul_zero]

theorem lowPass_pass {g : ℝ → ℝ} {H : Mat n} (h : ∀ i j, i ≠ j → g ((H i i).re - (H j j).re) = 1) (A : Mat n) : lowPass g H A = A := by
  ext i j
  simp only [lowPass, Matrix.of_apply]
  by_cases hij : i = j
  · rw [if_pos hij]
  · rw [if_neg hij, h i j hij, one_smul]

theorem lowPass_stop {g : ℝ → ℝ} {H : Mat n} (h : ∀ i j, i ≠ j → g ((H i i).re - (H j j).re) = 0) (A : Mat n) {i j : Fin n} (hij : i ≠ j) :
    lowPass g H A i j = 0 := by
  simp only [lowPass, Matrix.of_apply]
  rw [if_neg hij, h i j hij, zero_smul]

theorem preDeriveFiltered_fields (k : LowPass) (g : ℝ → ℝ) (o : Obj n) (x : ℝ) :
    preDeriveFiltered k g o x = { o with evolB1 := (preDeriveFiltered k g o x).evolB1 } := by
  unfold preDeriveFiltered
  split <;> rfl

/-- The projectors with the filter, from those without. -/
theorem filtered_projector {k : LowPass} {g : ℝ → ℝ} {o : Obj n} {e r : Nat} (ho : Prepared o e r) (t : ℝ) (f : Fin n) :
    (preDeriveFiltered k g o t).evolB1 r f e = if o.basis ≠ .mass ∧ o.ioscillations = true ∧ 0 < k.cutoff then
      lowPass g (o.h0s e) ((preDerive o t).evolB1 r f e) else (preDerive o t).evolB1 r f e := by
  unfold preDeriveFiltered preDerive
  by_cases h : o.basis ≠ .mass ∧ o.ioscillations = true
  · rw [if_pos h, if_pos h]
    show (if r < o.nrhos ∧ e < o.ne then (if 0 < k.cutoff then lowPass g (o.h0s e) (evolve (o.h0s e) (t - o.tini) (o.b1 r f))
      else evolve (o.h0s e) (t - o.tini) (o.b1 r f)) else o.evolB1 r f e) = if _ then lowPass g (o.h0s e)
      (if r < o.nrhos ∧ e < o.ne then evolve (o.h0s e) (t - o.tini) (o.b1 r f) else o.evolB1 r f e) else
      (if r < o.nrhos ∧ e < o.ne then evolve (o.h0s e) (t - o.tini) (o.b1 r f) else o.evolB1 r f e)
    have hin : r < o.nrhos ∧ e < o.ne := ⟨ho.type, ho.node⟩
    simp only [if_pos hin]
    by_cases hk : 0 < k.cutoff
    · rw [if_pos hk, if_pos ⟨h.1, h.2, hk⟩]
    · rw [if_neg hk, if_neg (fun h' => hk h'.2.2)]
  · rw [if_neg h, if_neg h, if_neg (fun h' => h ⟨h'.1, h'.2.1⟩)]

theorem filtered_hermitian {k : LowPass} {g : ℝ → ℝ} (hg : k.Factor g) {o : Obj n} {e r : Nat} (ho : Prepared o e r) (t : ℝ) (f : Fin n) :
    ((preDeriveFiltered k g o t).evolB1 r f e).IsHermitian := by
  have h1 : ((preDerive o t).evolB1 r f e).IsHermitian := by
    rw [projectors_op ho t 0]
    exact (op_pos (good_atTime ho.good e r t 0) ho.type e f).1
  rw [filtered_projector ho]
  split
  · exact lowPass_hermitian hg.even _ h1
  · exact h1

theorem motionFiltered_hermitian {k : LowPass} {g : ℝ → ℝ} (hg : k.Factor g) (c : ℝ) (dens ye : ℝ → ℝ) (hn : 3 ≤ n) {o : Obj n} {e r : Nat}
    (ho : Prepared o e r) (t : ℝ) : (motionFiltered k g c dens ye (Fin.castLE hn) o e r t).IsHermitian := by
  unfold motionFiltered
  refine c55_hermitian _ _ _ _ _ _ _ _ (fun f => filtered_hermitian hg ho t f) ?_
  rw [preDeriveFiltered_fields, show ({ o with evolB1 := (preDeriveFiltered k g o t).evolB1 } : Obj n).h0s e = o.h0s e from rfl, ho.h0s]
  exact h0_hermitian ho.good.dm2 _

/-- Oscillations alone. -/
theorem velocityFiltered_free {s : Setting n} {k : LowPass} {g : ℝ → ℝ} {hn : 3 ≤ n} {o : Obj n} (hi : s.iint = false) (hs : s.tab.sources = false)
    (t : ℝ) (st : Nat → Nat → Mat n) (e r : Nat) : s.velocityFiltered k g hn o t st e r =
      -Complex.I • (motionFiltered k g s.c s.dens s.ye (Fin.castLE hn) o e r t * st e r -
        st e r * motionFiltered k g s.c s.dens s.ye (Fin.castLE hn) o e r t) := by
  have h1 : s.gammaFiltered k g o t st e r = 0 := by
    unfold Setting.gammaFiltered Net.gammaRho
    rw [hi]; rfl
  have h2 : s.gainFiltered k g o t st e r = 0 := by
    unfold Setting.gainFiltered Net.interactionsRho
    rw [hi, show (s.netFiltered k g o t st).sources = false from hs]; rfl
  unfold Setting.velocityFiltered
  rw [h1, h2, Matrix.zero_mul, Matrix.mul_zero, add_zero, add_zero, sub_zero]

theorem EvolvesFiltered.solves {s : Setting n} {k : LowPass} {g : ℝ → ℝ} {hn : 3 ≤ n} {o : Obj n} {ρ : ℝ → Nat → Nat → Mat n} {a b : ℝ}
    (h : EvolvesFiltered s k g hn o ρ a b) (hi : s.iint = false) (hs : s.tab.sources = false) {e r : Nat} (he : e < o.ne) (hr : r < o.nrhos) :
    Solves (motionFiltered k g s.c s.dens s.ye (Fin.castLE hn) o e r) (fun t => ρ t e r) a b := by
  obtain ⟨S, hS, hc, hd, _⟩ := h
  refine ⟨S, hS, hc e r he hr, fun t ht hn' i j => ?_⟩
  have := hd t ht hn' e r he hr i j
  rwa [velocityFiltered_free hi hs] at this

/-- With filtered projectors that are diagonal the Hamiltonian is. -/
theorem motionFiltered_diagonal {k : LowPass} {g : ℝ → ℝ} {c : ℝ} {dens ye : ℝ → ℝ} {hn : 3 ≤ n} {o : Obj n} {e r : Nat} {t : ℝ}
    (hb : o.basis ≠ .mass) (hp : ∀ f i j, i ≠ j → (preDeriveFiltered k g o t).evolB1 r f e i j = 0) (i j : Fin n) (hij : i ≠ j) :
    motionFiltered k g c dens ye (Fin.castLE hn) o e r t i j = 0 := by
  have hb' : (preDeriveFiltered k g o t).basis ≠ .mass := by
    rw [preDeriveFiltered_fields]
    exact hb
  unfold motionFiltered hamiltonian Matter.hi
  dsimp only
  rw [if_neg hb', if_neg (by decide)]
  simp only [Matrix.add_apply, Matrix.smul_apply]
  have h3 : ∀ m (h : m < 3), (if h : m < 3 then (preDeriveFiltered k g o t).evolB1 r (Fin.castLE hn ⟨m, h⟩) e else 0) i j = 0 := fun m h => by
    rw [dif_pos h]; exact hp _ i j hij
  rw [h3 0 (by omega), h3 1 (by omega), h3 2 (by omega)]
  simp

end Verif.Density
