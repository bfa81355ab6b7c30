import Mathlib.Analysis.SpecialFunctions.ExpDeriv
import Verif.Density.Transport
import Verif.Interact.Balance

/-!
# Property C98: evolution with interactions keeps fluxes positive, is determined by what is above, and loses but never makes neutrinos
-/

namespace Verif.Density

open Matrix
open Matter (NT)
open Update (Net Shape NonNeg)
open scoped ComplexOrder

variable {n : Nat}

/-! ## Lemmas -/

theorem motion_hermitian (c : ℝ) (dens ye : ℝ → ℝ) (hn : 3 ≤ n) {o : Obj n} {ie rho : Nat} (ho : Prepared o ie rho) (t : ℝ) :
    (motion c dens ye (Fin.castLE hn) o ie rho t).IsHermitian := by
  unfold motion
  refine c55_hermitian _ _ _ _ _ _ _ _ (fun f => ?_) ?_
  · rw [projectors_op ho t 0]
    exact (op_pos (good_atTime ho.good ie rho t 0) ho.type ie f).1
  · have : (preDerive o t).h0s ie = o.h0s ie := by unfold preDerive; split <;> rfl
    rw [this, ho.h0s]
    exact h0_hermitian ho.good.dm2 _

/-- The gain is positive if the states above are. -/
theorem gain_pos {s : Setting n} {o : Obj n} {a b : ℝ} (hn : 3 ≤ n) (hs : Sane s o a b) (ho : AllPrepared o) {e r : Nat} (he : e < o.ne)
    (hr : r < o.nrhos) {t : ℝ} (ht : t ∈ Set.Ico a b) (st : Nat → Nat → Mat n)
    (hst : ∀ e' r', e < e' → e' < o.ne → r' < o.nrhos → (st e' r').PosSemidef) : (s.gain o t st e r).PosSemidef := by
  obtain ⟨k, hk, _, hg⟩ := gain_eq hn ho hs.tau he hr t (s := s)
  rw [hg]
  have hp := ho e r he hr
  refine Matrix.PosSemidef.add ?_ (smul_pos' (Matrix.posSemidef_sum _ fun f _ => smul_pos' (net_proj_pos hp t st f) (hs.ext t ht e r f)) hk)
  split
  · refine Matrix.posSemidef_sum _ fun f hf => smul_pos' (net_proj_pos hp t st f) ?_
    rw [Update.total_congr _ _ _ (fun e' r' f' => if e < e' then (s.net o t st).flux e' r' f' else 0) _ _ _ fun e' r' f' h => (if_pos h).symm]
    refine Update.total_nonneg (hs.at ht st) _ _ ?_ _ _ _ (Finset.mem_range.1 hf)
    intro e' r' f' _
    split
    · rename_i hlt
      show 0 ≤ dot ((s.net o t st).proj r' f' e') (if e' < o.ne ∧ r' < o.nrhos then st e' r' else 0)
      split
      · rename_i hin
        exact net_dot_nonneg (ho e' r' hin.1 hin.2) t st f' (hst e' r' hlt hin.1 hin.2)
      · rw [dot_zero]
    · exact le_refl _
  · exact Matrix.PosSemidef.zero

/-- The gain depends on the states above only. -/
theorem gain_above {s : Setting n} {o : Obj n} (hn : 3 ≤ n) (htau : s.tab.tau = true → o.nt = .both) (ho : AllPrepared o) {e r : Nat} (he : e < o.ne)
    (hr : r < o.nrhos) (t : ℝ) (st st' : Nat → Nat → Mat n) (h : ∀ e' r', e < e' → e' < o.ne → r' < o.nrhos → st e' r' = st' e' r') :
    s.gain o t st e r = s.gain o t st' e r := by
  obtain ⟨k, _, _, hg⟩ := gain_eq hn ho htau he hr t (s := s)
  rw [hg, hg]
  have e1 : ∀ f, (s.net o t st).total (s.old t) (s.net o t st).flux r f e = (s.net o t st').total (s.old t) (s.net o t st').flux r f e := by
    intro f
    have : (s.net o t st').total (s.old t) (s.net o t st').flux r f e = (s.net o t st).total (s.old t) (s.net o t st').flux r f e := rfl
    rw [this]
    refine Update.total_congr _ _ _ _ _ _ _ fun e' r' f' hlt => ?_
    show dot ((s.net o t st).proj r' f' e') (if e' < o.ne ∧ r' < o.nrhos then st e' r' else 0) =
      dot ((s.net o t st).proj r' f' e') (if e' < o.ne ∧ r' < o.nrhos then st' e' r' else 0)
    split
    · rename_i hin; rw [h e' r' hlt hin.1 hin.2]
    · rfl
  simp only [e1]
  rfl

theorem Deriv.trace_re {A : ℝ → Mat n} {A' : Mat n} {S : Set ℝ} {t : ℝ} (h : Deriv A A' S t) :
    HasDerivWithinAt (fun s => (A s).trace.re) A'.trace.re S t := by
  have h1 : HasDerivWithinAt (fun s => (A s).trace) A'.trace S t := by
    unfold Matrix.trace
    exact HasDerivWithinAt.fun_sum fun i _ => h i i
  exact Complex.reCLM.hasFDerivAt.comp_hasDerivWithinAt t h1

theorem Deriv.sub {A B : ℝ → Mat n} {A' B' : Mat n} {S : Set ℝ} {t : ℝ} (hA : Deriv A A' S t) (hB : Deriv B B' S t) :
    Deriv (fun s => A s - B s) (A' - B') S t := fun i j => (hA i j).sub (hB i j)

theorem trace_continuousOn {A : ℝ → Mat n} {S : Set ℝ} (h : ∀ i j, ContinuousOn (fun t => A t i j) S) : ContinuousOn (fun t => (A t).trace.re) S := by
  unfold Matrix.trace
  exact Complex.continuous_re.comp_continuousOn (continuousOn_finsetSum _ fun i _ => h i i)

/-- The reading of a flavour is the product with the projector the interactions use. -/
theorem reading_eq (s : Setting n) {o : Obj n} {e r : Nat} (hp : Prepared o e r) (t : ℝ) (st : Nat → Nat → Mat n) (A : Mat n) (f : Fin n) :
    evalFlavorAtNode (atTime o e r t A) f e r = .ok (dot ((s.net o t st).proj r f e) A) := by
  rw [eval_eq (good_atTime hp.good e r t A) hp.type f e, net_proj hp t st f A]
  have hst : (atTime o e r t A).state e r = A := if_pos ⟨rfl, rfl⟩
  rw [hst]

theorem net_proj_trace {s : Setting n} {o : Obj n} {e r : Nat} (hp : Prepared o e r) (t : ℝ) (st : Nat → Nat → Mat n) {f : Nat} (hf : f < n) :
    ((s.net o t st).proj r f e).trace = 1 := by
  rw [show (s.net o t st).proj r f e = _ from net_proj hp t st ⟨f, hf⟩ 0]
  exact op_trace (good_atTime hp.good e r t 0) hp.type e ⟨f, hf⟩

theorem net_proj_mul {s : Setting n} {o : Obj n} {e r : Nat} (hp : Prepared o e r) (t : ℝ) (st : Nat → Nat → Mat n) (f g : Nat) :
    (s.net o t st).proj r f e * (s.net o t st).proj r g e = if f = g then (s.net o t st).proj r f e else 0 := by
  have hz : ∀ f, ¬f < n → (s.net o t st).proj r f e = 0 := fun f h => dif_neg h
  by_cases hf : f < n
  · by_cases hg : g < n
    · rw [show (s.net o t st).proj r f e = _ from net_proj hp t st ⟨f, hf⟩ 0, show (s.net o t st).proj r g e = _ from net_proj hp t st ⟨g, hg⟩ 0]
      obtain ⟨W, hW, h⟩ := op_rotated (good_atTime hp.good e r t 0) hp.type e
      rw [h, h]
      unfold toB1
      have e1 : W * projector ⟨f, hf⟩ * Wᴴ * (W * projector ⟨g, hg⟩ * Wᴴ) = W * (projector ⟨f, hf⟩ * projector ⟨g, hg⟩) * Wᴴ := by
        calc _ = W * projector ⟨f, hf⟩ * (Wᴴ * W) * projector ⟨g, hg⟩ * Wᴴ := by simp only [Matrix.mul_assoc]
          _ = _ := by rw [hW.star_mul]; simp only [Matrix.mul_assoc, Matrix.mul_one]
      rw [e1]
      unfold projector
      by_cases hfg : f = g
      · subst hfg; simp
      · rw [if_neg hfg, Matrix.single_mul_single_of_ne _ _ _ _ (fun h => hfg (by simpa using h))]
        simp
    · rw [hz g hg, Matrix.mul_zero, if_neg (by omega)]
  · rw [hz f hf, Matrix.zero_mul]; simp

/-- What a flavour loses is its rate times its content. -/
theorem dot_gamma {s : Setting n} {o : Obj n} {e r : Nat} (hp : Prepared o e r) (t : ℝ) (st : Nat → Nat → Mat n) (f : Nat) (A : Mat n) :
    dot ((s.net o t st).proj r f e) (s.gamma o t st e r * A + A * s.gamma o t st e r) =
      (if s.iint = true ∧ f < 3 then (s.net o t st).invINT (s.old t) (s.old t) r f e else 0) * dot ((s.net o t st).proj r f e) A := by
  have hl : (s.net o t st).proj r f e * s.gamma o t st e r =
      ((1 / 2) * (if s.iint = true ∧ f < 3 then (s.net o t st).invINT (s.old t) (s.old t) r f e else 0)) • (s.net o t st).proj r f e := by
    rw [gamma_eq]
    by_cases hi : s.iint = true
    · rw [if_pos hi, Finset.mul_sum]
      simp only [Matrix.mul_smul, net_proj_mul hp, smul_ite, smul_zero]
      rw [Finset.sum_ite_eq]
      by_cases hf : f < 3
      · rw [if_pos (Finset.mem_range.2 hf), if_pos ⟨hi, hf⟩]
      · rw [if_neg (fun h => hf (Finset.mem_range.1 h)), if_neg (fun h => hf h.2), mul_zero, zero_smul]
    · rw [if_neg hi, if_neg (fun h => hi h.1), Matrix.mul_zero, mul_zero, zero_smul]
  have hr : s.gamma o t st e r * (s.net o t st).proj r f e =
      ((1 / 2) * (if s.iint = true ∧ f < 3 then (s.net o t st).invINT (s.old t) (s.old t) r f e else 0)) • (s.net o t st).proj r f e := by
    rw [gamma_eq]
    by_cases hi : s.iint = true
    · rw [if_pos hi, Finset.sum_mul]
      simp only [Matrix.smul_mul, net_proj_mul hp]
      have : ∀ g, (if g = f then (s.net o t st).proj r g e else 0) = if g = f then (s.net o t st).proj r f e else 0 := by
        intro g; split
        · rename_i h; rw [h]
        · rfl
      simp only [this, smul_ite, smul_zero]
      rw [Finset.sum_ite_eq']
      by_cases hf : f < 3
      · rw [if_pos (Finset.mem_range.2 hf), if_pos ⟨hi, hf⟩]
      · rw [if_neg (fun h => hf (Finset.mem_range.1 h)), if_neg (fun h => hf h.2), mul_zero, zero_smul]
    · rw [if_neg hi, if_neg (fun h => hi h.1), Matrix.zero_mul, mul_zero, zero_smul]
  rw [dot_add]
  have h2 : dot ((s.net o t st).proj r f e) (A * s.gamma o t st e r) = dot (s.gamma o t st e r * (s.net o t st).proj r f e) A := by
    unfold dot
    rw [← Matrix.mul_assoc, Matrix.trace_mul_comm, ← Matrix.mul_assoc]
  have h1 : dot ((s.net o t st).proj r f e) (s.gamma o t st e r * A) = dot ((s.net o t st).proj r f e * s.gamma o t st e r) A := by
    unfold dot
    rw [← Matrix.mul_assoc]
  rw [h1, h2, hl, hr, dot_comm, dot_smul, dot_comm A]
  ring

theorem EvolvesOff.mono {S S' : Set ℝ} {s : Setting n} {hn : 3 ≤ n} {o : Obj n} {ρ : ℝ → Nat → Nat → Mat n} {a b : ℝ}
    (h : EvolvesOff S s hn o ρ a b) (hS : S ⊆ S') : EvolvesOff S' s hn o ρ a b :=
  ⟨h.cont, fun t ht hn => h.deriv t ht fun hm => hn (hS hm), h.hermitian⟩

/-- Two evolutions, with the exceptions of both. -/
theorem Evolves.pair {s s' : Setting n} {hn : 3 ≤ n} {o : Obj n} {ρ σ : ℝ → Nat → Nat → Mat n} {a b a' b' : ℝ} (h : Evolves s hn o ρ a b)
    (k : Evolves s' hn o σ a' b') : ∃ S : Set ℝ, S.Finite ∧ EvolvesOff S s hn o ρ a b ∧ EvolvesOff S s' hn o σ a' b' := by
  obtain ⟨S, hS, h⟩ := h
  obtain ⟨S', hS', k⟩ := k
  exact ⟨S ∪ S', hS.union hS', h.mono Set.subset_union_left, k.mono Set.subset_union_right⟩

theorem Evolves.cont {s : Setting n} {hn : 3 ≤ n} {o : Obj n} {ρ : ℝ → Nat → Nat → Mat n} {a b : ℝ} (h : Evolves s hn o ρ a b) (e r : Nat)
    (he : e < o.ne) (hr : r < o.nrhos) (i j : Fin n) : ContinuousOn (fun t => ρ t e r i j) (Set.Icc a b) := by
  obtain ⟨S, _, h⟩ := h
  exact h.cont e r he hr i j

theorem Evolves.hermitian {s : Setting n} {hn : 3 ≤ n} {o : Obj n} {ρ : ℝ → Nat → Nat → Mat n} {a b : ℝ} (h : Evolves s hn o ρ a b) (t : ℝ)
    (ht : t ∈ Set.Icc a b) (e r : Nat) (he : e < o.ne) (hr : r < o.nrhos) : (ρ t e r).IsHermitian := by
  obtain ⟨S, _, h⟩ := h
  exact h.hermitian t ht e r he hr

theorem EvolvesOff.later {S : Set ℝ} {s : Setting n} {hn : 3 ≤ n} {o : Obj n} {ρ : ℝ → Nat → Nat → Mat n} {a b a' : ℝ}
    (h : EvolvesOff S s hn o ρ a b) (ha : a ≤ a') : EvolvesOff S s hn o ρ a' b :=
  ⟨fun e r he hr i j => (h.cont e r he hr i j).mono (Set.Icc_subset_Icc_left ha), fun t ht => h.deriv t ⟨le_trans ha ht.1, ht.2⟩,
    fun t ht => h.hermitian t ⟨le_trans ha ht.1, ht.2⟩⟩

/-- An evolution without exceptions. -/
theorem Evolves.smooth {s : Setting n} {hn : 3 ≤ n} {o : Obj n} {ρ : ℝ → Nat → Nat → Mat n} {a b : ℝ}
    (hc : ∀ e r, e < o.ne → r < o.nrhos → ∀ i j, ContinuousOn (fun t => ρ t e r i j) (Set.Icc a b))
    (hd : ∀ t ∈ Set.Ico a b, ∀ e r, e < o.ne → r < o.nrhos → Deriv (fun t => ρ t e r) (s.velocity hn o t (ρ t) e r) (Set.Ici t) t)
    (hh : ∀ t ∈ Set.Icc a b, ∀ e r, e < o.ne → r < o.nrhos → (ρ t e r).IsHermitian) : Evolves s hn o ρ a b :=
  ⟨∅, Set.finite_empty, hc, fun t ht _ => hd t ht, hh⟩

theorem Sane.mono {s : Setting n} {o : Obj n} {a b a' : ℝ} (h : Sane s o a b) (ha : a ≤ a') : Sane s o a' b :=
  ⟨fun t ht => h.nonneg t ⟨le_trans ha ht.1, ht.2⟩, fun t ht => h.ext t ⟨le_trans ha ht.1, ht.2⟩, h.tau⟩

theorem Deriv.add {A B : ℝ → Mat n} {A' B' : Mat n} {S : Set ℝ} {t : ℝ} (hA : Deriv A A' S t) (hB : Deriv B B' S t) :
    Deriv (fun s => A s + B s) (A' + B') S t := fun i j => (hA i j).add (hB i j)

theorem Deriv.const_smul {A : ℝ → Mat n} {A' : Mat n} {S : Set ℝ} {t : ℝ} (hA : Deriv A A' S t) (x : ℝ) :
    Deriv (fun s => x • A s) (x • A') S t := fun i j => by
  have := (hA i j).const_smul x
  exact this

theorem Deriv.dot {A : ℝ → Mat n} {A' : Mat n} {S : Set ℝ} {t : ℝ} (h : Deriv A A' S t) (P : Mat n) :
    HasDerivWithinAt (fun s => Density.dot P (A s)) (Density.dot P A') S t := by
  have := ((Deriv.const P S t).mul h).trace_re
  rw [Matrix.zero_mul, zero_add] at this
  exact this

/-- On a vector that the state takes to a multiple that is not positive, the velocity is not negative. -/
theorem quad_velocity {H Γ G A : Mat n} (hΓ : Γ.PosSemidef) (hG : G.PosSemidef) (hρ : A.IsHermitian) {c : ℝ} {v : Fin n → ℂ} (hc : 0 ≤ c)
    (hv : A *ᵥ v = (-(c : ℂ)) • v) : 0 ≤ quad (-Complex.I • (H * A - A * H) - (Γ * A + A * Γ) + G) v := by
  rw [quad_add]
  refine add_nonneg ?_ (quad_nonneg hG v)
  -- on the vector `v` the matrix is the number `-c`
  have hleft : ∀ B : Mat n, star v ⬝ᵥ ((A * B) *ᵥ v) = -(c : ℂ) * (star v ⬝ᵥ (B *ᵥ v)) := by
    intro B
    rw [← Matrix.mulVec_mulVec, Matrix.dotProduct_mulVec, ← hρ.eq, ← Matrix.star_mulVec, hv, star_smul, smul_dotProduct]
    simp
  have hright : ∀ B : Mat n, star v ⬝ᵥ ((B * A) *ᵥ v) = -(c : ℂ) * (star v ⬝ᵥ (B *ᵥ v)) := by
    intro B
    rw [← Matrix.mulVec_mulVec, hv, Matrix.mulVec_smul, dotProduct_smul, smul_eq_mul]
  unfold quad
  rw [Matrix.sub_mulVec, dotProduct_sub, Matrix.smul_mulVec, dotProduct_smul, Matrix.sub_mulVec, dotProduct_sub, Matrix.add_mulVec, dotProduct_add,
    hleft, hright, hleft, hright, sub_self, smul_zero, zero_sub, quad_real hΓ.1]
  have h1 := quad_nonneg hΓ v
  have h2 : (-(-(c : ℂ) * (quad Γ v : ℂ) + -(c : ℂ) * (quad Γ v : ℂ))) = ((2 * c * quad Γ v : ℝ) : ℂ) := by push_cast; ring
  rw [h2, Complex.ofReal_re]
  positivity

/-! ## C98 -/

/-- States that are positive at the start stay positive: no flavour content read at any later time is negative. -/
theorem c98_positive (s : Setting n) (hn : 3 ≤ n) (o : Obj n) (ho : AllPrepared o) (ρ : ℝ → Nat → Nat → Mat n) (a b : ℝ) (hs : Sane s o a b)
    (h : Evolves s hn o ρ a b) (start : ∀ e r, e < o.ne → r < o.nrhos → (ρ a e r).PosSemidef) (t : ℝ) (ht : t ∈ Set.Icc a b) (e r : Nat)
    (he : e < o.ne) (hr : r < o.nrhos) :
    (ρ t e r).PosSemidef ∧ ∀ f, ∃ c, evalFlavorAtNode (atTime o e r t (ρ t e r)) f e r = .ok c ∧ 0 ≤ c := by
  have key : ∀ d e, e < o.ne → o.ne - e ≤ d → ∀ r, r < o.nrhos → ∀ t ∈ Set.Icc a b, (ρ t e r).PosSemidef := by
    intro d
    induction d with
    | zero => intro e he hd; omega
    | succ d ih =>
      intro e he hd r hr
      have hp := ho e r he hr
      obtain ⟨S, hS, h'⟩ := id h
      refine stays_positive_off hS.toFinset (h'.cont e r he hr) (fun t ht hn => h'.deriv t ht (by simpa using hn) e r he hr)
        (fun t ht => h'.hermitian t ht e r he hr) (start e r he hr) ?_
      intro t ht _ c v hc hv
      have htI : t ∈ Set.Icc a b := Set.Ico_subset_Icc_self ht
      have hH := motion_hermitian s.c s.dens s.ye hn hp t
      have hΓ := gamma_pos hs hp ht (ρ t)
      have hG := gain_pos hn hs ho he hr ht (ρ t) fun e' r' h1 h2 h3 => ih e' h2 (by omega) r' h3 t htI
      have hρ := h.hermitian t htI e r he hr
      unfold Setting.velocity
      generalize motion s.c s.dens s.ye (Fin.castLE hn) o e r t = H at *
      generalize s.gamma o t (ρ t) e r = Γ at *
      generalize s.gain o t (ρ t) e r = G at *
      generalize ρ t e r = A at *
      exact quad_velocity hΓ hG hρ hc hv
  have hp := key o.ne e he (by omega) r hr t ht
  refine ⟨hp, fun f => ⟨_, eval_eq (good_atTime (ho e r he hr).good e r t (ρ t e r)) hr f e, ?_⟩⟩
  have hst : (atTime o e r t (ρ t e r)).state e r = ρ t e r := if_pos ⟨rfl, rfl⟩
  rw [hst]
  exact (bounds (good_atTime (ho e r he hr).good e r t (ρ t e r)) hr e hp f).1

/-- The states at a node are determined by the states at the start at that node and the nodes above it, whatever is below. -/
theorem c98_determined (s : Setting n) (hn : 3 ≤ n) (o : Obj n) (ho : AllPrepared o) (ρ σ : ℝ → Nat → Nat → Mat n) (a b : ℝ) (hs : Sane s o a b)
    (h : Evolves s hn o ρ a b) (k : Evolves s hn o σ a b) (e₀ : Nat)
    (start : ∀ e r, e₀ ≤ e → e < o.ne → r < o.nrhos → ρ a e r = σ a e r) (t : ℝ) (ht : t ∈ Set.Icc a b) (e r : Nat) (h0 : e₀ ≤ e)
    (he : e < o.ne) (hr : r < o.nrhos) : ρ t e r = σ t e r := by
  have key : ∀ d e, e₀ ≤ e → e < o.ne → o.ne - e ≤ d → ∀ r, r < o.nrhos → ∀ t ∈ Set.Icc a b, ρ t e r = σ t e r := by
    intro d
    induction d with
    | zero => intro e _ he hd; omega
    | succ d ih =>
      intro e h0 he hd r hr t ht
      have hp := ho e r he hr
      let δ : ℝ → Mat n := fun t => ρ t e r - σ t e r
      have hcont : ∀ i j, ContinuousOn (fun t => δ t i j) (Set.Icc a b) := fun i j => (h.cont e r he hr i j).sub (k.cont e r he hr i j)
      have hherm : ∀ t ∈ Set.Icc a b, (δ t)ᴴ = δ t := fun t ht =>
        ((h.hermitian t ht e r he hr).sub (k.hermitian t ht e r he hr)).eq
      obtain ⟨S, hS, h', k'⟩ := h.pair k
      have hd2 : ∀ t ∈ Set.Ico a b, t ∉ S → Deriv (fun t => δ t * δ t) _ (Set.Ici t) t := fun t ht hn =>
        ((h'.deriv t ht hn e r he hr).sub (k'.deriv t ht hn e r he hr)).mul ((h'.deriv t ht hn e r he hr).sub (k'.deriv t ht hn e r he hr))
      have hle := image_le_off (f := fun t => (δ t * δ t).trace.re) hS (trace_continuousOn (continuousOn_mul hcont hcont))
        (fun t ht hn => (hd2 t ht hn).trace_re) (B := fun _ => 0) (B' := fun _ => 0) (by
          show (δ a * δ a).trace.re ≤ 0
          have : δ a = 0 := sub_eq_zero.2 (start e r h0 he hr)
          rw [this, Matrix.zero_mul, Matrix.trace_zero, Complex.zero_re]) continuousOn_const (fun _ _ _ => hasDerivWithinAt_const _ _ _) (by
          intro t ht _
          have htI : t ∈ Set.Icc a b := Set.Ico_subset_Icc_self ht
          have hΓ := gamma_pos hs hp ht (ρ t)
          have hgain : s.gain o t (σ t) e r = s.gain o t (ρ t) e r :=
            gain_above hn hs.tau ho he hr t _ _ fun e' r' h1 h2 h3 => (ih e' (by omega) h2 (by omega) r' h3 t htI).symm
          have hv : s.velocity hn o t (ρ t) e r - s.velocity hn o t (σ t) e r =
              -Complex.I • (motion s.c s.dens s.ye (Fin.castLE hn) o e r t * δ t - δ t * motion s.c s.dens s.ye (Fin.castLE hn) o e r t) -
                (s.gamma o t (ρ t) e r * δ t + δ t * s.gamma o t (ρ t) e r) := by
            unfold Setting.velocity
            rw [hgain, gamma_state s o t (σ t) (ρ t)]
            show _ = -Complex.I • (_ * (ρ t e r - σ t e r) - (ρ t e r - σ t e r) * _) - (_ * (ρ t e r - σ t e r) + (ρ t e r - σ t e r) * _)
            simp only [Matrix.mul_sub, Matrix.sub_mul, smul_sub]
            abel
          rw [hv]
          have hq : 0 ≤ dot (s.gamma o t (ρ t) e r) (δ t * δ t) := by
            have hpos : (δ t * δ t).PosSemidef := by
              have := Matrix.posSemidef_conjTranspose_mul_self (δ t)
              rwa [hherm t htI] at this
            rw [gamma_eq]
            split
            · rw [dot_comm, dot_sum]
              refine Finset.sum_nonneg fun f _ => ?_
              rw [dot_smul, dot_comm]
              refine mul_nonneg ?_ (net_dot_nonneg hp t _ f hpos)
              have := invINT_nonneg (hs.at ht (ρ t)) (s.old t) r f e
              positivity
            · simp [dot]
          show (((_ : Mat n) * δ t) + (δ t * _)).trace.re ≤ 0
          generalize motion s.c s.dens s.ye (Fin.castLE hn) o e r t = H at *
          generalize s.gamma o t (ρ t) e r = Γ at *
          generalize δ t = D at *
          unfold dot at hq
          have e1 : ((-Complex.I • (H * D - D * H) - (Γ * D + D * Γ)) * D + D * (-Complex.I • (H * D - D * H) - (Γ * D + D * Γ))).trace =
              -(4 : ℂ) * (Γ * (D * D)).trace := by
            have t1 : (H * D * D).trace = (D * D * H).trace := by rw [Matrix.mul_assoc, Matrix.trace_mul_comm]
            have t2 : (D * Γ * D).trace = (Γ * (D * D)).trace := by rw [Matrix.mul_assoc, Matrix.trace_mul_comm, Matrix.mul_assoc]
            have t3 : (D * D * Γ).trace = (Γ * (D * D)).trace := by rw [Matrix.trace_mul_comm]
            simp only [Matrix.sub_mul, Matrix.mul_sub, Matrix.add_mul, Matrix.mul_add, Matrix.smul_mul, Matrix.mul_smul, Matrix.trace_add, Matrix.trace_sub,
              Matrix.trace_smul, ← Matrix.mul_assoc, t1]
            rw [t2, t3, Matrix.mul_assoc Γ D D]
            simp only [smul_eq_mul]
            ring
          rw [e1]
          have : (-(4 : ℂ) * (Γ * (D * D)).trace).re = -4 * (Γ * (D * D)).trace.re := by
            simp
          rw [this]
          linarith) t ht
      have hge : 0 ≤ (δ t * δ t).trace.re := by
        have := (Matrix.posSemidef_conjTranspose_mul_self (δ t)).trace_nonneg
        rw [hherm t ht] at this
        exact (Complex.le_def.1 this).1
      have hz : (δ t * (δ t)ᴴ).trace = 0 := by
        rw [hherm t ht]
        have him : (δ t * δ t).trace.im = 0 := by
          have := (Matrix.posSemidef_conjTranspose_mul_self (δ t)).trace_nonneg
          rw [hherm t ht] at this
          exact (Complex.le_def.1 this).2.symm
        exact Complex.ext (le_antisymm hle hge) him
      exact sub_eq_zero.1 (Matrix.trace_mul_conjTranspose_self_eq_zero_iff.1 hz)
  exact key o.ne e h0 he (by omega) r hr t ht

/-- How the total content of a node changes: re-injection less losses, and what the sources add. -/
theorem velocity_trace {s : Setting n} (hn : 3 ≤ n) {o : Obj n} (ho : AllPrepared o) (htau : s.tab.tau = true → o.nt = .both) (u : ℝ)
    (st : Nat → Nat → Mat n) {e r : Nat} (he : e < o.ne) (hr : r < o.nrhos) : (s.velocity hn o u st e r).trace.re =
      (if s.iint then ∑ f ∈ Finset.range 3, (s.net o u st).total (s.old u) (s.net o u st).flux r f e else 0) -
        (if s.iint then ∑ f ∈ Finset.range 3, (s.net o u st).invINT (s.old u) (s.old u) r f e * (s.net o u st).flux e r f else 0) +
      s.copies o * ∑ f ∈ Finset.range n, s.ext u e r f := by
  let m := s.net o u st
  have hflux : ∀ f, m.flux e r f = dot (m.proj r f e) (st e r) := by
    intro f
    show dot (m.proj r f e) (if e < o.ne ∧ r < o.nrhos then st e r else 0) = _
    rw [if_pos ⟨he, hr⟩]
  have hp := ho e r he hr
  unfold Setting.velocity
  rw [gain_exact hn ho htau he hr u st]
  simp only [Matrix.trace_add, Matrix.trace_sub, Matrix.trace_smul]
  rw [Matrix.trace_mul_comm (motion s.c s.dens s.ye (Fin.castLE hn) o e r u), sub_self, smul_zero, zero_sub,
    Matrix.trace_mul_comm (st e r) (s.gamma o u st e r)]
  have hgam : (s.gamma o u st e r * st e r).trace.re + (s.gamma o u st e r * st e r).trace.re =
      if s.iint then ∑ f ∈ Finset.range 3, m.invINT (s.old u) (s.old u) r f e * m.flux e r f else 0 := by
    show dot (s.gamma o u st e r) (st e r) + dot (s.gamma o u st e r) (st e r) = _
    rw [dot_comm, gamma_eq]
    split
    · rw [dot_sum, ← Finset.sum_add_distrib]
      refine Finset.sum_congr rfl fun f _ => ?_
      rw [dot_smul, hflux f, dot_comm]
      ring
    · simp [dot_zero]
  have htot : (if s.iint then ∑ f ∈ Finset.range 3, m.total (s.old u) m.flux r f e • m.proj r f e else (0 : Mat n)).trace.re =
      if s.iint then ∑ f ∈ Finset.range 3, m.total (s.old u) m.flux r f e else 0 := by
    split
    · rw [Matrix.trace_sum, Complex.re_sum]
      refine Finset.sum_congr rfl fun f hf => ?_
      have hf3 := Finset.mem_range.1 hf
      rw [Matrix.trace_smul, show (m.proj r f e).trace = 1 from net_proj_trace hp u st (by omega)]
      simp
    · simp
  have hsrc : (∑ f ∈ Finset.range n, s.ext u e r f • m.proj r f e).trace.re = ∑ f ∈ Finset.range n, s.ext u e r f := by
    rw [Matrix.trace_sum, Complex.re_sum]
    refine Finset.sum_congr rfl fun f hf => ?_
    rw [Matrix.trace_smul, show (m.proj r f e).trace = 1 from net_proj_trace hp u st (Finset.mem_range.1 hf)]
    simp
  rw [Complex.add_re, Complex.neg_re, Complex.add_re, hgam, Complex.add_re,
    show (if s.iint = true then ∑ f ∈ Finset.range 3, (s.net o u st).total (s.old u) (s.net o u st).flux r f e • (s.net o u st).proj r f e
      else 0).trace.re = _ from htot, Complex.smul_re,
    show (∑ f ∈ Finset.range n, s.ext u e r f • (s.net o u st).proj r f e).trace.re = _ from hsrc, smul_eq_mul]
  ring

/-- A weighted count of the neutrinos that no reaction increases grows by no more than what the sources add (`S`). -/
theorem balance (s : Setting n) (hn : 3 ≤ n) (o : Obj n) (ho : AllPrepared o) (ρ : ℝ → Nat → Nat → Mat n) (a b : ℝ) (hs : Sane s o a b)
    (h : Evolves s hn o ρ a b) (start : ∀ e r, e < o.ne → r < o.nrhos → (ρ a e r).PosSemidef) (W : Nat → ℝ)
    (hW : ∀ t ∈ Set.Ico a b, Update.Balanced (s.net o t fun _ _ => 0) W) (x : ℝ → Nat → Nat → Fin n → ℝ)
    (hx : ∀ t ∈ Set.Icc a b, ∀ e r f, e < o.ne → r < o.nrhos → evalFlavorAtNode (atTime o e r t (ρ t e r)) f e r = .ok (x t e r f))
    (S : ℝ → ℝ)
    (hS : Primitive S (fun t => ∑ e ∈ Finset.range o.ne, ∑ r ∈ Finset.range o.nrhos, W e * (s.copies o * ∑ f ∈ Finset.range n, s.ext t e r f)) a b)
    (t t' : ℝ) (ht : a ≤ t) (htt : t ≤ t') (ht' : t' ≤ b) :
    ∑ e ∈ Finset.range o.ne, ∑ r ∈ Finset.range o.nrhos, W e * ∑ f, x t' e r f ≤
      (∑ e ∈ Finset.range o.ne, ∑ r ∈ Finset.range o.nrhos, W e * ∑ f, x t e r f) + (S t' - S t) := by
  have htr : ∀ u ∈ Set.Icc a b, ∑ e ∈ Finset.range o.ne, ∑ r ∈ Finset.range o.nrhos, W e * ∑ f, x u e r f =
      ∑ e ∈ Finset.range o.ne, ∑ r ∈ Finset.range o.nrhos, W e * (ρ u e r).trace.re := by
    intro u hu
    refine Finset.sum_congr rfl fun e he => Finset.sum_congr rfl fun r hr => ?_
    have he := Finset.mem_range.1 he
    have hr := Finset.mem_range.1 hr
    congr 1
    rw [← total_eq (good_atTime (ho e r he hr).good e r u (ρ u e r)) hr e]
    refine Finset.sum_congr rfl fun f _ => ?_
    have h1 := hx u hu e r f he hr
    rw [eval_eq (good_atTime (ho e r he hr).good e r u (ρ u e r)) hr f e] at h1
    have hst : (atTime o e r u (ρ u e r)).state e r = ρ u e r := if_pos ⟨rfl, rfl⟩
    rw [hst] at h1
    exact (Outcome.ok.inj h1).symm
  rw [htr t ⟨ht, le_trans htt ht'⟩, htr t' ⟨le_trans ht htt, ht'⟩]
  obtain ⟨X, hX, h'⟩ := id h
  have h' := h'.later ht
  obtain ⟨hc, Y, hY, hS⟩ := hS
  refine image_le_off (S := X ∪ Y) (f := fun u => ∑ e ∈ Finset.range o.ne, ∑ r ∈ Finset.range o.nrhos, W e * (ρ u e r).trace.re) (a := t) (b := b)
    (f' := fun u => ∑ e ∈ Finset.range o.ne, ∑ r ∈ Finset.range o.nrhos, W e * (s.velocity hn o u (ρ u) e r).trace.re)
    (B := fun u => (∑ e ∈ Finset.range o.ne, ∑ r ∈ Finset.range o.nrhos, W e * (ρ t e r).trace.re) + (S u - S t))
    (B' := fun u => ∑ e ∈ Finset.range o.ne, ∑ r ∈ Finset.range o.nrhos, W e * (s.copies o * ∑ f ∈ Finset.range n, s.ext u e r f))
    (hX.union hY) ?_ ?_ (by simp) (continuousOn_const.add ((hc.mono (Set.Icc_subset_Icc_left ht)).sub continuousOn_const))
    (fun u hu hn => ((hS u ⟨le_trans ht hu.1, hu.2⟩ fun h => hn (Or.inr h)).sub_const _).const_add _) ?_ t' ⟨htt, ht'⟩
  · refine continuousOn_finsetSum _ fun e he => continuousOn_finsetSum _ fun r hr => continuousOn_const.mul ?_
    exact trace_continuousOn (h'.cont e r (Finset.mem_range.1 he) (Finset.mem_range.1 hr))
  · intro u hu hn
    refine HasDerivWithinAt.fun_sum fun e he => HasDerivWithinAt.fun_sum fun r hr => ?_
    exact ((h'.deriv u hu (fun h => hn (Or.inl h)) e r (Finset.mem_range.1 he) (Finset.mem_range.1 hr)).trace_re).const_mul _
  · intro u hu _
    have hu0 : u ∈ Set.Ico a b := ⟨le_trans ht hu.1, hu.2⟩
    have hpos := fun e r he hr => (c98_positive s hn o ho ρ a b hs h start u (Set.Ico_subset_Icc_self hu0) e r he hr).1
    let m := s.net o u (ρ u)
    have hflux : ∀ e r f, e < o.ne → r < o.nrhos → m.flux e r f = dot (m.proj r f e) (ρ u e r) := by
      intro e r f he hr
      show dot (m.proj r f e) (if e < o.ne ∧ r < o.nrhos then ρ u e r else 0) = _
      rw [if_pos ⟨he, hr⟩]
    have hφ : ∀ e r f, 0 ≤ m.flux e r f := by
      intro e r f
      by_cases hin : e < o.ne ∧ r < o.nrhos
      · rw [hflux e r f hin.1 hin.2]
        exact net_dot_nonneg (ho e r hin.1 hin.2) u _ f (hpos e r hin.1 hin.2)
      · show 0 ≤ dot (m.proj r f e) (if e < o.ne ∧ r < o.nrhos then ρ u e r else 0)
        rw [if_neg hin, dot_zero]
    have hv := fun e r (he : e < o.ne) (hr : r < o.nrhos) => velocity_trace (s := s) hn ho hs.tau u (ρ u) he hr
    have hsum : ∑ e ∈ Finset.range o.ne, ∑ r ∈ Finset.range o.nrhos, W e * (s.velocity hn o u (ρ u) e r).trace.re =
        ∑ e ∈ Finset.range o.ne, ∑ r ∈ Finset.range o.nrhos, W e * ((if s.iint then ∑ f ∈ Finset.range 3, m.total (s.old u) m.flux r f e else 0) -
          (if s.iint then ∑ f ∈ Finset.range 3, m.invINT (s.old u) (s.old u) r f e * m.flux e r f else 0) +
          s.copies o * ∑ f ∈ Finset.range n, s.ext u e r f) :=
      Finset.sum_congr rfl fun e he => Finset.sum_congr rfl fun r hr => by rw [hv e r (Finset.mem_range.1 he) (Finset.mem_range.1 hr)]
    rw [hsum]
    simp only [mul_add, Finset.sum_add_distrib]
    refine add_le_of_nonpos_left ?_
    by_cases hi : s.iint = true
    · simp only [hi, if_true]
      have hnet : Update.Balanced m W := by
        obtain ⟨w1, w2, w3, w4⟩ := hW u hu0
        exact ⟨w1, w2, w3, w4⟩
      by_cases hne : 0 < o.ne ∧ 0 < o.nrhos
      · have hbal := Update.total_balance (Setting.shape hn (ho 0 0 hne.1 hne.2).good.ready hs.tau u (ρ u)) (hs.at hu0 (ρ u)) hnet (s.old u) m.flux
          (fun e r f _ => hφ e r f)
        have hl : ∀ F : Nat → Nat → Nat → ℝ, ∑ e ∈ Finset.range o.ne, ∑ r ∈ Finset.range o.nrhos, W e * ∑ f ∈ Finset.range 3, F r f e =
            ∑ r ∈ Finset.range o.nrhos, ∑ f ∈ Finset.range 3, ∑ e ∈ Finset.range o.ne, W e * F r f e := by
          intro F
          rw [Finset.sum_comm]
          refine Finset.sum_congr rfl fun r _ => ?_
          rw [Finset.sum_comm]
          exact Finset.sum_congr rfl fun e _ => Finset.mul_sum _ _ _
        simp only [mul_sub, Finset.sum_sub_distrib]
        rw [hl, hl fun r f e => m.invINT (s.old u) (s.old u) r f e * m.flux e r f]
        exact sub_nonpos.2 hbal
      · have : o.ne = 0 ∨ o.nrhos = 0 := by omega
        rcases this with h0 | h0 <;> simp [h0]
    · simp [hi]

/-! ## An example -/

/-- A neutral-current cascade over two nodes: unit rates, and each interaction at the upper node gives one neutrino at the lower. -/
noncomputable def cascade : Setting 3 where
  tab := {
    ne := 0, nrhos := 0, numneu := 0, nt := .neutrino, tau := false, glashow := false, sources := false
    delE := fun _ => 1
    sigmaNC := fun _ _ _ _ => 1
    sigmaCC := fun _ _ _ _ => 0
    sigmaGR := fun _ => 0
    dNdE_NC := fun _ _ _ _ _ => 1
    dNdE_CC := fun _ _ _ _ _ => 0
    dNdE_GR := fun _ _ => 0
    tauAll := fun _ _ _ => 0
    tauLep := fun _ _ _ => 0
    consts := ⟨1, 1, 0, 1, 1, 1⟩
    targets := .isoscalar
    density := 0, ye := 0, proj := fun _ _ _ => 0, state := fun _ _ => 0, dot := dot, ext := fun _ _ _ => 0 }
  iint := true
  c := 1
  dens := fun _ => 1
  ye := fun _ => 1 / 2
  ext := fun _ _ _ _ => 0
  old := fun _ => 7

/-- All flavours alike; the upper node decays, the lower is fed by it. -/
noncomputable def fed (t : ℝ) (e _r : Nat) : Mat 3 := (if e = 0 then t * Real.exp (-t) else Real.exp (-t)) • (1 : Mat 3)

theorem cascade_sane (o : Obj 3) (a b : ℝ) : Sane cascade o a b := by
  refine ⟨fun t _ => ?_, fun _ _ _ _ _ => le_refl _, fun h => absurd h (by simp [cascade])⟩
  constructor <;> intros <;> (simp [Setting.net, cascade]; try norm_num)

theorem cascade_nc (o : Obj 3) (t : ℝ) (st : Nat → Nat → Mat 3) (r f e : Nat) : (cascade.net o t st).invNC 7 r f e = 1 := by
  unfold Net.invNC Update.linAcc Update.forTargets Net.densities Matter.densities
  simp only [Setting.net, cascade]
  norm_num

theorem cascade_int (o : Obj 3) (t : ℝ) (st : Nat → Nat → Mat 3) (r f e : Nat) : (cascade.net o t st).invINT 7 7 r f e = 1 := by
  have h1 : (cascade.net o t st).invCC 7 r f e = 0 := by
    unfold Net.invCC Update.linAcc Update.forTargets Net.densities Matter.densities
    simp only [Setting.net, cascade]
    norm_num
  have h2 : (cascade.net o t st).gr = false := rfl
  unfold Net.invINT
  rw [cascade_nc, h1, h2]
  simp

theorem sum_proj {s : Setting 3} {o : Obj 3} {e r : Nat} (hp : Prepared o e r) (t : ℝ) (st : Nat → Nat → Mat 3) :
    ∑ f ∈ Finset.range 3, (s.net o t st).proj r f e = 1 := by
  obtain ⟨W, hW, h⟩ := op_rotated (good_atTime hp.good e r t 0) hp.type e
  rw [Finset.sum_range, ← sum_b1 hW]
  exact Finset.sum_congr rfl fun f _ => by rw [net_proj hp t st f 0, h]

theorem fed_evolves (o : Obj 3) (ho : AllPrepared o) (h2 : o.ne = 2) (a b : ℝ) : Evolves cascade (le_refl 3) o fed a b := by
  refine .smooth (fun e r _ _ i j => ?_) (fun t _ e r he hr => ?_) (fun t _ e r _ _ => ?_)
  · have : Continuous fun t => fed t e r i j := by
      unfold fed
      by_cases h : e = 0
      · simp only [h, if_true, Matrix.smul_apply, Complex.real_smul]; fun_prop
      · simp only [h, if_false, Matrix.smul_apply, Complex.real_smul]; fun_prop
    exact this.continuousOn
  · have hp := ho e r he hr
    have hflux : ∀ e' r' f, e' < o.ne → r' < o.nrhos → f < 3 → (cascade.net o t (fed t)).flux e' r' f =
        if e' = 0 then t * Real.exp (-t) else Real.exp (-t) := by
      intro e' r' f he' hr' hf
      show dot ((cascade.net o t (fed t)).proj r' f e') (if e' < o.ne ∧ r' < o.nrhos then fed t e' r' else 0) = _
      rw [if_pos ⟨he', hr'⟩]
      unfold fed
      rw [dot_smul]
      unfold dot
      rw [Matrix.mul_one, net_proj_trace (ho e' r' he' hr') t _ hf, Complex.one_re, mul_one]
    have hg : cascade.gamma o t (fed t) e r = (1 / 2 : ℝ) • (1 : Mat 3) := by
      rw [gamma_eq, if_pos (show cascade.iint = true from rfl), ← sum_proj (s := cascade) hp t (fed t), Finset.smul_sum]
      refine Finset.sum_congr rfl fun f _ => ?_
      rw [show cascade.old t = 7 from rfl, cascade_int, mul_one]
    have hG : cascade.gain o t (fed t) e r = (if e = 0 then Real.exp (-t) else 0) • (1 : Mat 3) := by
      obtain ⟨k, _, hk, hgain⟩ := gain_eq (le_refl 3) ho (fun h => absurd h (by simp [cascade])) he hr t (s := cascade)
      rw [hgain, hk rfl, zero_smul, add_zero, if_pos (show cascade.iint = true from rfl), ← sum_proj (s := cascade) hp t (fed t), Finset.smul_sum]
      refine Finset.sum_congr rfl fun f hf => ?_
      have hf := Finset.mem_range.1 hf
      congr 1
      have ht : (cascade.net o t (fed t)).tau = false := rfl
      have hgr : (cascade.net o t (fed t)).gr = false := rfl
      have hne : (cascade.net o t (fed t)).ne = 2 := h2
      unfold Net.total Net.ncSum
      rw [ht, hgr, hne, show cascade.old t = 7 from rfl]
      simp only [Bool.false_eq_true, if_false, Bool.false_and, add_zero]
      rw [show Finset.Ico 1 2 = {1} from rfl, Finset.sum_singleton]
      by_cases h0 : e = 0
      · subst h0
        rw [if_pos Nat.one_pos, if_pos rfl]
        unfold Net.ncPart
        rw [cascade_nc, hflux 1 r f (by omega) hr hf]
        have hfr : (cascade.net o t (fed t)).fractions = [1] := rfl
        rw [hfr, Update.tsum_one]
        show 1 * ((if 1 = 0 then t * Real.exp (-t) else Real.exp (-t)) * (1 * 1)) * 1 = Real.exp (-t)
        simp
      · rw [if_neg (by omega), if_neg h0]
    have hv : cascade.velocity (le_refl 3) o t (fed t) e r =
        (if e = 0 then Real.exp (-t) - t * Real.exp (-t) else -Real.exp (-t)) • (1 : Mat 3) := by
      unfold Setting.velocity
      rw [hg, hG]
      generalize motion cascade.c cascade.dens cascade.ye (Fin.castLE (le_refl 3)) o e r t = H
      unfold fed
      by_cases h0 : e = 0
      · simp only [h0, if_true, Matrix.mul_smul, Matrix.smul_mul, Matrix.mul_one, Matrix.one_mul, sub_self, smul_zero]
        module
      · simp only [h0, if_false, Matrix.mul_smul, Matrix.smul_mul, Matrix.mul_one, Matrix.one_mul, sub_self, smul_zero]
        module
    rw [hv]
    intro i j
    have he1 : HasDerivWithinAt (fun t : ℝ => Real.exp (-t)) (-Real.exp (-t)) (Set.Ici t) t := by
      have := ((hasDerivAt_id t).neg.exp).hasDerivWithinAt (s := Set.Ici t)
      refine this.congr_deriv ?_
      simp
    have he0 : HasDerivWithinAt (fun t : ℝ => t * Real.exp (-t)) (Real.exp (-t) - t * Real.exp (-t)) (Set.Ici t) t := by
      refine ((hasDerivWithinAt_id t _).mul he1).congr_deriv ?_
      simp; ring
    unfold fed
    by_cases h0 : e = 0
    · simp only [h0, if_true]
      exact he0.smul_const ((1 : Mat 3) i j)
    · simp only [h0, if_false]
      exact he1.smul_const ((1 : Mat 3) i j)
  · exact real_smul_hermitian _ Matrix.isHermitian_one

/-- Both types and both nodes of an object with mixing of 45 degrees are fed so, in both working bases: the hypotheses above hold, and so do
those below with every neutrino counted once. -/
example (basis : Basis) :
    let o := fill (demo basis) (fun e _ _ => if e = 0 then 0 else 1) .flavor
    AllPrepared o ∧ Sane cascade o 0 5 ∧ Evolves cascade (le_refl 3) o fed 0 5 ∧ (∀ e r, e < o.ne → r < o.nrhos → (fed 0 e r).PosSemidef) ∧
      cascade.tab.sources = false ∧ (∀ t ∈ Set.Ico (0 : ℝ) 5, Update.Balanced (cascade.net o t fun _ _ => 0) fun _ => 1) ∧
      fed 0 0 0 = 0 ∧ fed 1 0 0 ≠ 0 := by
  intro o
  have hp : AllPrepared o := fun e r he hr => c97_prepared (demo basis) (demo_ready basis) rfl _ .flavor e r he hr
  refine ⟨hp, cascade_sane o 0 5, fed_evolves o hp rfl 0 5, fun e r _ _ => ?_, rfl, fun t _ => ?_, ?_, ?_⟩
  · unfold fed
    refine smul_pos' Matrix.PosSemidef.one ?_
    split <;> positivity
  · refine ⟨fun _ => zero_le_one, fun trg r f e _ _ _ h1 h2 => ?_, fun h => absurd h (by simp [Net.gr, Setting.net, cascade]),
      fun h => absurd h (by simp [Setting.net, cascade])⟩
    have : e = 1 := by have : e < 2 := h2; omega
    subst this
    simp [Setting.net, cascade]
  · simp [fed]
  · intro h
    have := congrFun (congrFun h 0) 0
    simp [fed] at this

/-- A weighted count of the neutrinos that no reaction increases never grows. -/
theorem c98_balance (s : Setting n) (hn : 3 ≤ n) (o : Obj n) (ho : AllPrepared o) (ρ : ℝ → Nat → Nat → Mat n) (a b : ℝ) (hs : Sane s o a b)
    (h : Evolves s hn o ρ a b) (start : ∀ e r, e < o.ne → r < o.nrhos → (ρ a e r).PosSemidef) (hsrc : s.tab.sources = false) (W : Nat → ℝ)
    (hW : ∀ t ∈ Set.Ico a b, Update.Balanced (s.net o t fun _ _ => 0) W) (x : ℝ → Nat → Nat → Fin n → ℝ)
    (hx : ∀ t ∈ Set.Icc a b, ∀ e r f, e < o.ne → r < o.nrhos → evalFlavorAtNode (atTime o e r t (ρ t e r)) f e r = .ok (x t e r f))
    (t t' : ℝ) (ht : a ≤ t) (htt : t ≤ t') (ht' : t' ≤ b) :
    ∑ e ∈ Finset.range o.ne, ∑ r ∈ Finset.range o.nrhos, W e * ∑ f, x t' e r f ≤
      ∑ e ∈ Finset.range o.ne, ∑ r ∈ Finset.range o.nrhos, W e * ∑ f, x t e r f := by
  have hk : s.copies o = 0 := by unfold Setting.copies; rw [hsrc]; rfl
  have := balance s hn o ho ρ a b hs h start W hW x hx (fun _ => 0) (.smooth continuousOn_const (fun t _ => by
    refine (hasDerivWithinAt_const t _ (0 : ℝ)).congr_deriv ?_
    simp [hk])) t t' ht htt ht'
  simpa using this

/-- Evolutions from positive states can be superposed: a combination with coefficients that are not negative is an evolution. -/
theorem c98_linear (s : Setting n) (hn : 3 ≤ n) (o : Obj n) (ho : AllPrepared o) (ρ σ : ℝ → Nat → Nat → Mat n) (a b : ℝ) (hs : Sane s o a b)
    (h : Evolves s hn o ρ a b) (k : Evolves s hn o σ a b) (start : ∀ e r, e < o.ne → r < o.nrhos → (ρ a e r).PosSemidef)
    (start' : ∀ e r, e < o.ne → r < o.nrhos → (σ a e r).PosSemidef) (hsrc : s.tab.sources = false) (x y : ℝ) (hx : 0 ≤ x) (hy : 0 ≤ y) :
    Evolves s hn o (fun t e r => x • ρ t e r + y • σ t e r) a b := by
  obtain ⟨S, hS, h', k'⟩ := h.pair k
  refine ⟨S, hS, fun e r he hr i j => ?_, fun t ht hS' e r he hr => ?_, fun t ht e r he hr => ?_⟩
  · exact ((h.cont e r he hr i j).const_smul x).add ((k.cont e r he hr i j).const_smul y)
  · have hd := ((h'.deriv t ht hS' e r he hr).const_smul x).add ((k'.deriv t ht hS' e r he hr).const_smul y)
    refine hd.congr ?_
    have htI := Set.Ico_subset_Icc_self ht
    have hp := fun e r he hr => (c98_positive s hn o ho ρ a b hs h start t htI e r he hr).1
    have hq := fun e r he hr => (c98_positive s hn o ho σ a b hs k start' t htI e r he hr).1
    have hfl : ∀ st : Nat → Nat → Mat n, (∀ e r, e < o.ne → r < o.nrhos → (st e r).PosSemidef) → ∀ e r, 0 ≤ (s.net o t st).flux e r 2 := by
      intro st hst e r
      show 0 ≤ dot ((s.net o t st).proj r 2 e) (if e < o.ne ∧ r < o.nrhos then st e r else 0)
      split
      · rename_i hin; exact net_dot_nonneg (ho e r hin.1 hin.2) t _ 2 (hst e r hin.1 hin.2)
      · rw [dot_zero]
    have hgain : s.gain o t (fun e r => x • ρ t e r + y • σ t e r) e r = x • s.gain o t (ρ t) e r + y • s.gain o t (σ t) e r := by
      obtain ⟨k, _, hk, hg⟩ := gain_eq hn ho hs.tau he hr t (s := s)
      rw [hg, hg, hg, hk hsrc]
      simp only [zero_smul, add_zero]
      split
      · rw [Finset.smul_sum, Finset.smul_sum, ← Finset.sum_add_distrib]
        refine Finset.sum_congr rfl fun f _ => ?_
        have hf : (s.net o t fun e r => x • ρ t e r + y • σ t e r).flux =
            fun e r f => x * (s.net o t (ρ t)).flux e r f + y * (s.net o t (σ t)).flux e r f := by
          funext e r f
          show dot ((s.net o t (ρ t)).proj r f e) (if e < o.ne ∧ r < o.nrhos then x • ρ t e r + y • σ t e r else 0) =
            x * dot ((s.net o t (ρ t)).proj r f e) (if e < o.ne ∧ r < o.nrhos then ρ t e r else 0) +
            y * dot ((s.net o t (ρ t)).proj r f e) (if e < o.ne ∧ r < o.nrhos then σ t e r else 0)
          split
          · rw [dot_add, dot_smul, dot_smul]
          · simp [dot_zero]
        have e1 : (s.net o t fun e r => x • ρ t e r + y • σ t e r).total (s.old t) (s.net o t fun e r => x • ρ t e r + y • σ t e r).flux r f e =
            x * (s.net o t (ρ t)).total (s.old t) (s.net o t (ρ t)).flux r f e + y * (s.net o t (σ t)).total (s.old t) (s.net o t (σ t)).flux r f e := by
          rw [hf]
          exact Update.total_linear (s.net o t (ρ t)) (s.old t) x y _ _ hx hy (hfl _ hp) (hfl _ hq) r f e
        rw [e1, add_smul, mul_smul, mul_smul]
        rfl
      · simp
    unfold Setting.velocity
    rw [hgain, gamma_state s o t (fun e r => x • ρ t e r + y • σ t e r) (ρ t), gamma_state s o t (σ t) (ρ t)]
    generalize motion s.c s.dens s.ye (Fin.castLE hn) o e r t = H
    generalize s.gamma o t (ρ t) e r = Γ
    simp only [Matrix.mul_add, Matrix.add_mul, Matrix.mul_smul, Matrix.smul_mul, smul_add, smul_sub, smul_comm x (-Complex.I), smul_comm y (-Complex.I)]
    abel
  · exact (real_smul_hermitian x (h.hermitian t ht e r he hr)).add (real_smul_hermitian y (k.hermitian t ht e r he hr))

/-- The rate at which a flavour is lost. -/
noncomputable def lossRate (s : Setting n) (o : Obj n) (t : ℝ) (r f e : Nat) : ℝ :=
  if s.iint = true ∧ f < 3 then (s.net o t fun _ _ => 0).invINT (s.old t) (s.old t) r f e else 0

/-- With oscillations off the projectors in use do not change. -/
theorem proj_fixed {s : Setting n} {o : Obj n} (hosc : o.ioscillations = false) (t : ℝ) (st : Nat → Nat → Mat n) (f : Fin n) (r e : Nat) :
    (s.net o t st).proj r f e = o.evolB1 r f e := by
  have hpd : preDerive o t = o := by unfold preDerive; rw [if_neg (fun h => by rw [hosc] at h; exact absurd h.2 (by simp))]
  show (if h : f.val < n then (preDerive o t).evolB1 r ⟨f, h⟩ e else 0) = _
  rw [dif_pos f.isLt, hpd]

/-- With oscillations off the Hamiltonian does not change the flavours. -/
theorem motion_comm {s : Setting n} (hn : 3 ≤ n) {o : Obj n} {e r : Nat} (hp : Prepared o e r) (hosc : o.ioscillations = false) (f : Fin n) (t : ℝ) :
    o.evolB1 r f e * motion s.c s.dens s.ye (Fin.castLE hn) o e r t = motion s.c s.dens s.ye (Fin.castLE hn) o e r t * o.evolB1 r f e := by
  have hpd : ∀ t, preDerive o t = o := fun t => by unfold preDerive; rw [if_neg (fun h => by rw [hosc] at h; exact absurd h.2 (by simp))]
  have hQ : ∀ t st g, (s.net o t st).proj r g e = if h : g < n then o.evolB1 r ⟨g, h⟩ e else 0 := by
    intro t st g
    show (if h : g < n then (preDerive o t).evolB1 r ⟨g, h⟩ e else 0) = _
    rw [hpd]
  have hmul : ∀ g : Fin n, o.evolB1 r f e * o.evolB1 r g e = o.evolB1 r g e * o.evolB1 r f e := by
    intro g
    have h1 := net_proj_mul (s := s) hp t (fun _ _ => 0) f g
    have h2 := net_proj_mul (s := s) hp t (fun _ _ => 0) g f
    rw [hQ, hQ, dif_pos f.isLt, dif_pos g.isLt] at h1 h2
    rw [h1, h2]
    by_cases hfg : f.val = g.val
    · rw [if_pos hfg, if_pos hfg.symm, show f = g from Fin.ext hfg]
    · rw [if_neg hfg, if_neg (fun h => hfg h.symm)]
  unfold motion hamiltonian Matter.hi
  rw [hpd]
  have hz : o.h0s e = 0 := by rw [hp.h0s]; unfold h0; rw [hosc]; simp
  rw [hz]
  dsimp only
  have hk : ∀ k, o.evolB1 r f e * (if h : k < 3 then o.evolB1 r (Fin.castLE hn ⟨k, h⟩) e else 0) =
      (if h : k < 3 then o.evolB1 r (Fin.castLE hn ⟨k, h⟩) e else 0) * o.evolB1 r f e := by
    intro k
    split
    · exact hmul _
    · rw [Matrix.mul_zero, Matrix.zero_mul]
  generalize (if o.basis = .mass then Matter.Basis.mass else Matter.Basis.interaction) = bb
  by_cases hb : bb = .mass <;>
    simp only [hb, if_true, if_false, Matrix.mul_add, Matrix.add_mul, Matrix.mul_smul, Matrix.smul_mul, hk, Matrix.mul_zero, Matrix.zero_mul]

/-- With oscillations off the content of a flavour changes by its losses and by the gain on its projector. -/
theorem content_deriv {s : Setting n} (hn : 3 ≤ n) {o : Obj n} (ho : AllPrepared o) (hosc : o.ioscillations = false) {ρ : ℝ → Nat → Nat → Mat n}
    {a b : ℝ} {S : Set ℝ} (h : EvolvesOff S s hn o ρ a b) {e r : Nat} (he : e < o.ne) (hr : r < o.nrhos) (f : Fin n) {t : ℝ} (ht : t ∈ Set.Ico a b)
    (hS : t ∉ S) :
    HasDerivWithinAt (fun t => dot (o.evolB1 r f e) (ρ t e r))
      (-(lossRate s o t r f e) * dot (o.evolB1 r f e) (ρ t e r) + dot (o.evolB1 r f e) (s.gain o t (ρ t) e r)) (Set.Ici t) t := by
  have hp := ho e r he hr
  have hP := fun t st => (proj_fixed (s := s) hosc t st f r e)
  have hH := fun t => motion_comm (s := s) hn hp hosc f t
  refine ((h.deriv t ht hS e r he hr).dot (o.evolB1 r f e)).congr_deriv ?_
  unfold Setting.velocity
  rw [dot_add, dot_sub]
  have h1 : dot (o.evolB1 r f e) (-Complex.I • (motion s.c s.dens s.ye (Fin.castLE hn) o e r t * ρ t e r - ρ t e r * motion s.c s.dens s.ye (Fin.castLE hn) o e r t)) = 0 := by
    have : (o.evolB1 r f e * (motion s.c s.dens s.ye (Fin.castLE hn) o e r t * ρ t e r - ρ t e r * motion s.c s.dens s.ye (Fin.castLE hn) o e r t)).trace = 0 := by
      rw [Matrix.mul_sub, Matrix.trace_sub, ← Matrix.mul_assoc, ← Matrix.mul_assoc, hH t,
        Matrix.trace_mul_comm (o.evolB1 r f e * ρ t e r), Matrix.mul_assoc, sub_self]
    unfold dot
    rw [Matrix.mul_smul, Matrix.trace_smul, this, smul_zero, Complex.zero_re]
  have h2 := dot_gamma (s := s) hp t (ρ t) f (ρ t e r)
  rw [hP] at h2
  rw [h1, h2]
  unfold lossRate
  have e1 : (s.net o t fun _ _ => 0).invINT (s.old t) (s.old t) r f e = (s.net o t (ρ t)).invINT (s.old t) (s.old t) r f e := rfl
  rw [e1]
  ring

/-- With oscillations off, a flavour keeps at least what the losses on the way leave of it, whatever is fed down from above; at the highest
node, where nothing is, it keeps exactly that. `Λ` is the number of interaction lengths passed. -/
theorem c98_attenuation (s : Setting n) (hn : 3 ≤ n) (o : Obj n) (ho : AllPrepared o) (hosc : o.ioscillations = false) (ρ : ℝ → Nat → Nat → Mat n)
    (a b : ℝ) (hs : Sane s o a b) (h : Evolves s hn o ρ a b) (start : ∀ e r, e < o.ne → r < o.nrhos → (ρ a e r).PosSemidef) (e r : Nat)
    (he : e < o.ne) (hr : r < o.nrhos) (f : Fin n) (Λ : ℝ → ℝ) (hΛ : Primitive Λ (fun t => lossRate s o t r f e) a b) (t : ℝ) (ht : t ∈ Set.Icc a b) :
    ∃ c c₀, evalFlavorAtNode (atTime o e r t (ρ t e r)) f e r = .ok c ∧ evalFlavorAtNode (atTime o e r a (ρ a e r)) f e r = .ok c₀ ∧
      c₀ * Real.exp (-(Λ t - Λ a)) ≤ c ∧ (e + 1 = o.ne → s.tab.sources = false → c = c₀ * Real.exp (-(Λ t - Λ a))) := by
  have hp := ho e r he hr
  have hP := fun t st => (proj_fixed (s := s) hosc t st f r e)
  have hread : ∀ t, evalFlavorAtNode (atTime o e r t (ρ t e r)) f e r = .ok (dot (o.evolB1 r f e) (ρ t e r)) := by
    intro t
    rw [reading_eq s hp t (ρ t) (ρ t e r) f, hP]
  obtain ⟨X, hX, h'⟩ := id h
  obtain ⟨hc, Y, hY, hΛ⟩ := hΛ
  have hder := fun t (ht : t ∈ Set.Ico a b) (hn' : t ∉ X) => content_deriv hn ho hosc h' he hr f ht hn'
  have hgcont : ContinuousOn (fun t => dot (o.evolB1 r f e) (ρ t e r) * Real.exp (Λ t)) (Set.Icc a b) := by
    refine ContinuousOn.mul ?_ (Real.continuous_exp.comp_continuousOn hc)
    exact trace_continuousOn (continuousOn_mul (A := fun _ => o.evolB1 r f e) (fun _ _ => continuousOn_const) (h.cont e r he hr))
  have hgder : ∀ t ∈ Set.Ico a b, t ∉ X ∪ Y → HasDerivWithinAt (fun t => dot (o.evolB1 r f e) (ρ t e r) * Real.exp (Λ t))
      (dot (o.evolB1 r f e) (s.gain o t (ρ t) e r) * Real.exp (Λ t)) (Set.Ici t) t := by
    intro t ht hn'
    refine ((hder t ht fun h => hn' (Or.inl h)).mul (hΛ t ht fun h => hn' (Or.inr h)).exp).congr_deriv ?_
    ring
  have hexp : ∀ y : ℝ, y * Real.exp (-(Λ t - Λ a)) = y * Real.exp (Λ a) * Real.exp (-Λ t) := by
    intro y
    rw [mul_assoc, ← Real.exp_add]
    congr 2; ring
  have hcanc : ∀ y : ℝ, y = y * Real.exp (Λ t) * Real.exp (-Λ t) := by
    intro y
    rw [mul_assoc, ← Real.exp_add, add_neg_cancel, Real.exp_zero, mul_one]
  refine ⟨_, _, hread t, hread a, ?_, fun htop hsrc => ?_⟩
  · rw [hexp, hcanc (dot (o.evolB1 r f e) (ρ t e r))]
    refine mul_le_mul_of_nonneg_right ?_ (Real.exp_pos _).le
    have hmono := image_le_off (S := X ∪ Y) (f := fun t => -(dot (o.evolB1 r f e) (ρ t e r) * Real.exp (Λ t)))
      (B := fun _ => -(dot (o.evolB1 r f e) (ρ a e r) * Real.exp (Λ a))) (B' := fun _ => 0)
      (hX.union hY) hgcont.neg (fun t ht hn' => (hgder t ht hn').neg) (le_refl _) continuousOn_const (fun _ _ _ => hasDerivWithinAt_const _ _ _) (fun t ht _ => by
        have hG := gain_pos hn hs ho he hr ht (ρ t) fun e' r' _ h2 h3 => (c98_positive s hn o ho ρ a b hs h start t (Set.Ico_subset_Icc_self ht) e' r' h2 h3).1
        have := net_dot_nonneg (s := s) hp t (ρ t) f hG
        rw [hP] at this
        have := mul_nonneg this (Real.exp_pos (Λ t)).le
        linarith) t ht
    exact neg_le_neg_iff.1 hmono
  · rw [hexp]
    rw [hcanc (dot (o.evolB1 r f e) (ρ t e r))]
    congr 1
    refine constant_off (hX.union hY) hgcont (fun t ht hn' => ?_) t ht
    refine (hgder t ht hn').congr_deriv ?_
    have : s.gain o t (ρ t) e r = 0 := by
      have h0 := gain_above (s := s) hn hs.tau ho he hr t (ρ t) (fun _ _ => 0) fun e' r' h1 h2 => by omega
      rw [h0]
      obtain ⟨k, _, hk, hg⟩ := gain_eq hn ho hs.tau he hr t (s := s)
      rw [hg, hk hsrc]
      have hz : ∀ f, (s.net o t fun _ _ => 0).total (s.old t) (s.net o t fun _ _ => 0).flux r f e = 0 := by
        intro f
        rw [Update.total_congr _ _ _ (fun _ _ _ => 0) _ _ _ fun e' r' f' _ => ?_]
        · have := Update.total_linear (s.net o t fun _ _ => 0) (s.old t) 0 0 (fun _ _ _ => 0) (fun _ _ _ => 0) (le_refl _) (le_refl _)
            (fun _ _ => le_refl _) (fun _ _ => le_refl _) r f e
          simpa using this
        · show dot _ (if e' < o.ne ∧ r' < o.nrhos then (0 : Mat n) else 0) = 0
          rw [ite_self, dot_zero]
      simp only [hz, zero_smul, Finset.sum_const_zero, ite_self, add_zero]
    rw [this, dot_zero, zero_mul]

/-- With oscillations off the same cascade loses one interaction length per unit of length. -/
example (basis : Basis) :
    let o := fill { demo basis with ioscillations := false } (fun e _ _ => if e = 0 then 0 else 1) .flavor
    AllPrepared o ∧ o.ioscillations = false ∧ Sane cascade o 0 5 ∧ Evolves cascade (le_refl 3) o fed 0 5 ∧
      ∀ r e, ∀ f : Fin 3, Primitive (fun t : ℝ => t) (fun t => lossRate cascade o t r f e) 0 5 := by
  intro o
  have hp : AllPrepared o := fun e r he hr =>
    c97_prepared { demo basis with ioscillations := false } ⟨(demo_ready basis).b0, (demo_ready basis).mixing, (demo_ready basis).nrhos⟩ rfl _ .flavor e r he hr
  refine ⟨hp, rfl, cascade_sane o 0 5, fed_evolves o hp rfl 0 5, fun r e f => .smooth continuousOn_id fun t _ => ?_⟩
  have : lossRate cascade o t r f e = 1 := by
    unfold lossRate
    rw [if_pos ⟨rfl, f.isLt⟩]
    exact cascade_int o t _ r f e
  rw [this]
  exact hasDerivWithinAt_id t _

end Verif.Density
