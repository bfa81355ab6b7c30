import Verif.Density.Source

/-!
# Property C99: a body adds the neutrinos it emits
-/

namespace Verif.Density

open Matrix
open Matter (NT)
open Update (Net Shape NonNeg)
open scoped ComplexOrder

variable {n : Nat}

/-! ## Specification -/

/-- What a body emits at a position: what it writes into an empty array. -/
def emitted (b : Emitter) (x : ℝ) : Flux := b (fun _ _ _ => 0) x

/-- The body writes every entry of an array of these extents. -/
def Overwrites (b : Emitter) (ne nrhos numneu : Nat) : Prop :=
  ∀ a a' x e r f, e < ne → r < nrhos → f < numneu → b a x e r f = b a' x e r f

/-- What a body writes depends on the position, not on what it wrote before. -/
def Memoryless (b : Emitter) : Prop := ∀ a x y, b (b a x) y = b a y

/-- The same settings with the sources switched off. -/
def Setting.off (s : Setting n) : Setting n := { s with tab := { s.tab with sources := false } }

/-! ## Lemmas -/

theorem run_body (m : Emission) (ts : List ℝ) : (m.run (ts.map .preDerive)).body = m.body ∧ (m.run (ts.map .preDerive)).on = m.on ∧
    (m.run (ts.map .preDerive)).offset = m.offset := by
  induction ts generalizing m with
  | nil => exact ⟨rfl, rfl, rfl⟩
  | cons t ts ih =>
    obtain ⟨h1, h2, h3⟩ := ih (m.preDerive t)
    have e1 : (m.preDerive t).body = m.body ∧ (m.preDerive t).on = m.on ∧ (m.preDerive t).offset = m.offset := by
      unfold Emission.preDerive
      split <;> exact ⟨rfl, rfl, rfl⟩
    exact ⟨h1.trans e1.1, h2.trans e1.2.1, h3.trans e1.2.2⟩

theorem along_on {m : Emission} (h : m.on = true) (t : ℝ) : m.along t = m.body m.flux (t - m.offset) := by
  unfold Emission.along Emission.preDerive
  rw [if_pos h]

/-- Nothing is fed into the highest node. -/
theorem total_top (s : Setting n) (o : Obj n) {e : Nat} (htop : e + 1 = o.ne) (t : ℝ) (st : Nat → Nat → Mat n) (r f : Nat) :
    (s.net o t st).total (s.old t) (s.net o t st).flux r f e = 0 := by
  rw [Update.total_congr _ _ _ (fun _ _ _ => 0) _ _ _ fun e' r' f' _ => ?_]
  · have := Update.total_linear (s.net o t st) (s.old t) 0 0 (fun _ _ _ => 0) (fun _ _ _ => 0) (le_refl _) (le_refl _)
      (fun _ _ => le_refl _) (fun _ _ => le_refl _) r f e
    simpa using this
  · show dot _ (if e' < o.ne ∧ r' < o.nrhos then st e' r' else 0) = 0
    rw [if_neg (by omega), dot_zero]

/-- What the sources add to a flavour. -/
theorem dot_sources {s : Setting n} {o : Obj n} {e r : Nat} (hp : Prepared o e r) (t : ℝ) (st : Nat → Nat → Mat n) (f : Fin n) :
    dot ((s.net o t st).proj r f e) (∑ g ∈ Finset.range n, s.ext t e r g • (s.net o t st).proj r g e) = s.ext t e r f := by
  rw [dot_sum]
  have : ∀ g ∈ Finset.range n, dot ((s.net o t st).proj r f e) (s.ext t e r g • (s.net o t st).proj r g e) =
      if f.val = g then s.ext t e r f else 0 := by
    intro g _
    rw [dot_smul]
    unfold dot
    rw [net_proj_mul hp]
    by_cases hg : f.val = g
    · rw [if_pos hg, if_pos hg, net_proj_trace hp t st f.isLt, hg]; simp
    · rw [if_neg hg, if_neg hg]; simp
  rw [Finset.sum_congr rfl this, Finset.sum_ite_eq, if_pos (Finset.mem_range.2 f.isLt)]

/-- The readings add up to the trace. -/
theorem readings_total {o : Obj n} {e r : Nat} (hp : Prepared o e r) (t : ℝ) (A : Mat n) (x : Fin n → ℝ)
    (hx : ∀ f, evalFlavorAtNode (atTime o e r t A) f e r = .ok (x f)) : ∑ f, x f = A.trace.re := by
  rw [← total_eq (good_atTime hp.good e r t A) hp.type e]
  refine Finset.sum_congr rfl fun f _ => ?_
  have h1 := hx f
  rw [eval_eq (good_atTime hp.good e r t A) hp.type f e] at h1
  have hst : (atTime o e r t A).state e r = A := if_pos ⟨rfl, rfl⟩
  rw [hst] at h1
  exact (Outcome.ok.inj h1).symm

theorem copies_one {s : Setting n} {o : Obj n} (hsrc : s.tab.sources = true) (h : s.iint = false ∨ o.ioscillations = true ∨ o.nrhos = 1) :
    s.copies o = 1 := by
  unfold Setting.copies
  rw [if_pos hsrc]
  rcases h with h | h | h <;> simp [h]

/-! ## C99 -/

/-- Without interactions the total content of a node and type grows by exactly what the body emits there along the way, with or without
oscillations, in either basis. `S` is a primitive of the emission. -/
theorem c99_total (s : Setting n) (hn : 3 ≤ n) (o : Obj n) (ho : AllPrepared o) (ρ : ℝ → Nat → Nat → Mat n) (a b : ℝ) (h : Evolves s hn o ρ a b)
    (htau : s.tab.tau = true → o.nt = .both) (hsrc : s.tab.sources = true) (hint : s.iint = false) (e r : Nat) (he : e < o.ne) (hr : r < o.nrhos)
    (S : ℝ → ℝ) (hS : Primitive S (fun t => ∑ f ∈ Finset.range n, s.ext t e r f) a b)
    (x : ℝ → Fin n → ℝ) (hx : ∀ t ∈ Set.Icc a b, ∀ f, evalFlavorAtNode (atTime o e r t (ρ t e r)) f e r = .ok (x t f))
    (t : ℝ) (ht : t ∈ Set.Icc a b) : ∑ f, x t f = ∑ f, x a f + (S t - S a) := by
  have hp := ho e r he hr
  have ha : a ∈ Set.Icc a b := ⟨le_refl _, le_trans ht.1 ht.2⟩
  rw [readings_total hp t _ _ (hx t ht), readings_total hp a _ _ (hx a ha)]
  obtain ⟨X, hX, h⟩ := h
  obtain ⟨hc, Y, hY, hS⟩ := hS
  have hcon := constant_off (f := fun u => (ρ u e r).trace.re - S u) (hX.union hY) ((trace_continuousOn (h.cont e r he hr)).sub hc) (fun u hu hn' => by
    refine (((h.deriv u hu (fun h => hn' (Or.inl h)) e r he hr).trace_re).sub (hS u hu fun h => hn' (Or.inr h))).congr_deriv ?_
    rw [velocity_trace hn ho htau u (ρ u) he hr, hint, copies_one hsrc (Or.inl hint)]
    simp) t ht
  linarith

/-- With oscillations off each flavour gains what the body emits of it, less what is lost between emission and reading; with interactions
this holds at the highest node, into which nothing falls. `Λ` is the number of interaction lengths passed, `F` a primitive of the emission
weighted so. Missing: both types with interactions (`c99_twice_violated`). -/
theorem c99_flavour_partial (s : Setting n) (hn : 3 ≤ n) (o : Obj n) (ho : AllPrepared o) (hosc : o.ioscillations = false)
    (ρ : ℝ → Nat → Nat → Mat n) (a b : ℝ) (h : Evolves s hn o ρ a b) (htau : s.tab.tau = true → o.nt = .both) (hsrc : s.tab.sources = true)
    (hone : s.iint = false ∨ o.nrhos = 1) (e r : Nat) (he : e < o.ne) (hr : r < o.nrhos) (htop : s.iint = false ∨ e + 1 = o.ne) (f : Fin n)
    (Λ F : ℝ → ℝ) (hΛ : Primitive Λ (fun t => lossRate s o t r f e) a b) (hF : Primitive F (fun t => s.ext t e r f * Real.exp (Λ t)) a b)
    (t : ℝ) (ht : t ∈ Set.Icc a b) :
    ∃ c c₀, evalFlavorAtNode (atTime o e r t (ρ t e r)) f e r = .ok c ∧ evalFlavorAtNode (atTime o e r a (ρ a e r)) f e r = .ok c₀ ∧
      c * Real.exp (Λ t) = c₀ * Real.exp (Λ a) + (F t - F a) := by
  have hp := ho e r he hr
  have hread : ∀ t, evalFlavorAtNode (atTime o e r t (ρ t e r)) f e r = .ok (dot (o.evolB1 r f e) (ρ t e r)) := by
    intro t
    rw [reading_eq s hp t (ρ t) (ρ t e r) f, proj_fixed hosc]
  refine ⟨_, _, hread t, hread a, ?_⟩
  have hgain : ∀ u, dot (o.evolB1 r f e) (s.gain o u (ρ u) e r) = s.ext u e r f := by
    intro u
    have hz : (if s.iint then ∑ f ∈ Finset.range 3, (s.net o u (ρ u)).total (s.old u) (s.net o u (ρ u)).flux r f e • (s.net o u (ρ u)).proj r f e
        else 0) = 0 := by
      rcases htop with h0 | h0
      · rw [h0]; rfl
      · simp only [total_top s o h0, zero_smul, Finset.sum_const_zero, ite_self]
    rw [gain_exact hn ho htau he hr u (ρ u), hz, zero_add, copies_one hsrc (hone.imp id Or.inr), one_smul, ← proj_fixed (s := s) hosc u (ρ u) f r e]
    exact dot_sources hp u (ρ u) f
  obtain ⟨X, hX, h⟩ := h
  obtain ⟨hc, Y, hY, hΛ⟩ := hΛ
  obtain ⟨hcF, Z, hZ, hF⟩ := hF
  have hcon := constant_off (S := X ∪ (Y ∪ Z)) (f := fun u => dot (o.evolB1 r f e) (ρ u e r) * Real.exp (Λ u) - F u)
    (hX.union (hY.union hZ)) ((ContinuousOn.mul (trace_continuousOn (continuousOn_mul (A := fun _ => o.evolB1 r f e) (fun _ _ => continuousOn_const) (h.cont e r he hr)))
      (Real.continuous_exp.comp_continuousOn hc)).sub hcF) (fun u hu hn' => by
    refine (((content_deriv hn ho hosc h he hr f hu fun h => hn' (Or.inl h)).mul (hΛ u hu fun h => hn' (Or.inr (Or.inl h))).exp).sub
      (hF u hu fun h => hn' (Or.inr (Or.inr h)))).congr_deriv ?_
    rw [hgain u]
    ring) t ht
  linarith

/-- Emission only adds: with sources every state is at least what it would be without them, at every node and type, with interactions and
oscillations or without. -/
theorem c99_adds (s : Setting n) (hn : 3 ≤ n) (o : Obj n) (ho : AllPrepared o) (ρ σ : ℝ → Nat → Nat → Mat n) (a b : ℝ) (hs : Sane s o a b)
    (h : Evolves s hn o ρ a b) (k : Evolves s.off hn o σ a b) (start : ∀ e r, e < o.ne → r < o.nrhos → (σ a e r).PosSemidef)
    (same : ∀ e r, e < o.ne → r < o.nrhos → ρ a e r = σ a e r) (t : ℝ) (ht : t ∈ Set.Icc a b) (e r : Nat) (he : e < o.ne) (hr : r < o.nrhos)
    (f : Fin n) :
    (ρ t e r - σ t e r).PosSemidef ∧ ∃ x y, evalFlavorAtNode (atTime o e r t (ρ t e r)) f e r = .ok x ∧
      evalFlavorAtNode (atTime o e r t (σ t e r)) f e r = .ok y ∧ y ≤ x := by
  have hsoff : Sane s.off o a b := by
    refine ⟨fun t ht => ?_, hs.ext, hs.tau⟩
    obtain ⟨h1, h2, h3, h4, h5, h6, h7, h8, h9, h10, h11, h12, h13, h14, h15, h16⟩ := hs.nonneg t ht
    exact ⟨h1, h2, h3, h4, h5, h6, h7, h8, h9, h10, h11, h12, h13, h14, h15, h16⟩
  have hposσ := fun t ht e r he hr => (c98_positive s.off hn o ho σ a b hsoff k start t ht e r he hr).1
  have hposρ := fun t ht e r he hr => (c98_positive s hn o ho ρ a b hs h (fun e r he hr => by rw [same e r he hr]; exact start e r he hr) t ht e r he hr).1
  have key : ∀ d e, e < o.ne → o.ne - e ≤ d → ∀ r, r < o.nrhos → ∀ t ∈ Set.Icc a b, (ρ t e r - σ t e r).PosSemidef := by
    intro d
    induction d with
    | zero => intro e he hd; omega
    | succ d ih =>
      intro e he hd r hr
      have hp := ho e r he hr
      obtain ⟨S, hS, h', k'⟩ := h.pair k
      refine stays_positive_off hS.toFinset (ρ := fun t => ρ t e r - σ t e r) (fun i j => (h.cont e r he hr i j).sub (k.cont e r he hr i j))
        (fun t ht hS' => (h'.deriv t ht (by simpa using hS') e r he hr).sub (k'.deriv t ht (by simpa using hS') e r he hr))
        (fun t ht => (h.hermitian t ht e r he hr).sub (k.hermitian t ht e r he hr)) (by rw [same e r he hr, sub_self]; exact Matrix.PosSemidef.zero) ?_
      intro t ht _ c v hc hv
      have htI : t ∈ Set.Icc a b := Set.Ico_subset_Icc_self ht
      have hΓ := gamma_pos hs hp ht (ρ t)
      have hρ := (h.hermitian t htI e r he hr).sub (k.hermitian t htI e r he hr)
      -- the gain of the difference
      have hfl : ∀ st : Nat → Nat → Mat n, (∀ e r, e < o.ne → r < o.nrhos → (st e r).PosSemidef) → ∀ e r, 0 ≤ (s.net o t st).flux e r 2 := by
        intro st hst e r
        show 0 ≤ dot ((s.net o t st).proj r 2 e) (if e < o.ne ∧ r < o.nrhos then st e r else 0)
        split
        · rename_i hin; exact net_dot_nonneg (ho e r hin.1 hin.2) t _ 2 (hst e r hin.1 hin.2)
        · rw [dot_zero]
      let φ := (s.net o t (ρ t)).flux
      let ψ := (s.net o t (σ t)).flux
      have hle : ∀ e' r' f', e < e' → ψ e' r' f' ≤ φ e' r' f' := by
        intro e' r' f' hlt
        show dot ((s.net o t (ρ t)).proj r' f' e') (if e' < o.ne ∧ r' < o.nrhos then σ t e' r' else 0) ≤
          dot ((s.net o t (ρ t)).proj r' f' e') (if e' < o.ne ∧ r' < o.nrhos then ρ t e' r' else 0)
        by_cases hin : e' < o.ne ∧ r' < o.nrhos
        · rw [if_pos hin, if_pos hin]
          have := net_dot_nonneg (s := s) (ho e' r' hin.1 hin.2) t (ρ t) f' (ih e' hin.1 (by omega) r' hin.2 t htI)
          rw [dot_sub] at this
          linarith
        · rw [if_neg hin, if_neg hin]
      have htot : ∀ f, f < 3 → 0 ≤ (s.net o t (ρ t)).total (s.old t) φ r f e - (s.net o t (ρ t)).total (s.old t) ψ r f e := by
        intro f hf
        let δ : Nat → Nat → Nat → ℝ := fun e' r' f' => if e < e' then φ e' r' f' - ψ e' r' f' else 0
        have hδ : ∀ e' r' f', 0 ≤ δ e' r' f' := by
          intro e' r' f'
          show 0 ≤ if e < e' then φ e' r' f' - ψ e' r' f' else 0
          split
          · rename_i hlt; exact sub_nonneg.2 (hle e' r' f' hlt)
          · exact le_refl _
        have e1 : (s.net o t (ρ t)).total (s.old t) φ r f e = (s.net o t (ρ t)).total (s.old t) (fun e r a => 1 * ψ e r a + 1 * δ e r a) r f e := by
          refine Update.total_congr _ _ _ _ _ _ _ fun e' r' f' hlt => ?_
          show φ e' r' f' = 1 * ψ e' r' f' + 1 * (if e < e' then φ e' r' f' - ψ e' r' f' else 0)
          rw [if_pos hlt]; ring
        rw [e1, Update.total_linear (s.net o t (ρ t)) (s.old t) 1 1 ψ δ zero_le_one zero_le_one
          (hfl (σ t) fun e r he hr => hposσ t htI e r he hr) (fun e r => hδ e r 2) r f e, one_mul, one_mul, add_sub_cancel_left]
        exact Update.total_nonneg (hs.at ht (ρ t)) (s.old t) δ (fun e r a _ => hδ e r a) r f e hf
      have hgσ : s.off.gain o t (σ t) e r =
          if s.iint then ∑ f ∈ Finset.range 3, (s.net o t (ρ t)).total (s.old t) ψ r f e • (s.net o t (ρ t)).proj r f e else 0 := by
        rw [gain_exact (s := s.off) hn ho hs.tau he hr t (σ t), show s.off.copies o = 0 from rfl, zero_smul, add_zero]
        rfl
      have hG : (s.gain o t (ρ t) e r - s.off.gain o t (σ t) e r).PosSemidef := by
        rw [hgσ, gain_exact hn ho hs.tau he hr t (ρ t)]
        have e2 : ∀ X Y Z : Mat n, X + Y - Z = (X - Z) + Y := fun X Y Z => by abel
        rw [e2]
        refine Matrix.PosSemidef.add ?_ (smul_pos' (Matrix.posSemidef_sum _ fun f _ => smul_pos' (net_proj_pos hp t (ρ t) f) (hs.ext t ht e r f))
          (s.copies_nonneg o))
        split
        · rw [← Finset.sum_sub_distrib]
          refine Matrix.posSemidef_sum _ fun f hf => ?_
          rw [← sub_smul]
          exact smul_pos' (net_proj_pos hp t (ρ t) f) (htot f (Finset.mem_range.1 hf))
        · rw [sub_zero]; exact Matrix.PosSemidef.zero
      have hvel : s.velocity hn o t (ρ t) e r - s.off.velocity hn o t (σ t) e r =
          -Complex.I • (motion s.c s.dens s.ye (Fin.castLE hn) o e r t * (ρ t e r - σ t e r) -
              (ρ t e r - σ t e r) * motion s.c s.dens s.ye (Fin.castLE hn) o e r t) -
            (s.gamma o t (ρ t) e r * (ρ t e r - σ t e r) + (ρ t e r - σ t e r) * s.gamma o t (ρ t) e r) +
            (s.gain o t (ρ t) e r - s.off.gain o t (σ t) e r) := by
        have hgo : s.off.gamma o t (σ t) e r = s.gamma o t (ρ t) e r := rfl
        unfold Setting.velocity
        rw [hgo, show s.off.c = s.c from rfl, show s.off.dens = s.dens from rfl, show s.off.ye = s.ye from rfl]
        generalize motion s.c s.dens s.ye (Fin.castLE hn) o e r t = H
        generalize s.gamma o t (ρ t) e r = Γ
        simp only [Matrix.mul_sub, Matrix.sub_mul, smul_sub]
        abel
      rw [hvel]
      exact quad_velocity hΓ hG hρ hc hv
  have hp := ho e r he hr
  have hd := key o.ne e he (by omega) r hr t ht
  refine ⟨hd, _, _, reading_eq s hp t (ρ t) (ρ t e r) f, reading_eq s hp t (ρ t) (σ t e r) f, ?_⟩
  have := net_dot_nonneg (s := s) hp t (ρ t) f hd
  rw [dot_sub] at this
  linarith

/-- A weighted count of the neutrinos that no reaction increases grows by no more than what the body emits. Missing: both types with
interactions and without oscillations (`c99_twice_violated`). -/
theorem c99_balance_partial (s : Setting n) (hn : 3 ≤ n) (o : Obj n) (ho : AllPrepared o) (ρ : ℝ → Nat → Nat → Mat n) (a b : ℝ) (hs : Sane s o a b)
    (h : Evolves s hn o ρ a b) (start : ∀ e r, e < o.ne → r < o.nrhos → (ρ a e r).PosSemidef) (hsrc : s.tab.sources = true)
    (hone : s.iint = false ∨ o.ioscillations = true ∨ o.nrhos = 1) (W : Nat → ℝ)
    (hW : ∀ t ∈ Set.Ico a b, Update.Balanced (s.net o t fun _ _ => 0) W) (x : ℝ → Nat → Nat → Fin n → ℝ)
    (hx : ∀ t ∈ Set.Icc a b, ∀ e r f, e < o.ne → r < o.nrhos → evalFlavorAtNode (atTime o e r t (ρ t e r)) f e r = .ok (x t e r f))
    (S : ℝ → ℝ) (hS : Primitive S (fun t => ∑ e ∈ Finset.range o.ne, ∑ r ∈ Finset.range o.nrhos, W e * ∑ f ∈ Finset.range n, s.ext t e r f) a b)
    (t t' : ℝ) (ht : a ≤ t) (htt : t ≤ t') (ht' : t' ≤ b) :
    ∑ e ∈ Finset.range o.ne, ∑ r ∈ Finset.range o.nrhos, W e * ∑ f, x t' e r f ≤
      (∑ e ∈ Finset.range o.ne, ∑ r ∈ Finset.range o.nrhos, W e * ∑ f, x t e r f) + (S t' - S t) := by
  refine balance s hn o ho ρ a b hs h start W hW x hx S ?_ t t' ht htt ht'
  rw [copies_one hsrc hone]
  simpa using hS

/-- What is added at a time does not depend on the times the integrator asked for before. -/
theorem c99_order (m : Emission) (hm : Memoryless m.body) (ts : List ℝ) (t : ℝ) : (m.run (ts.map .preDerive)).along t = m.along t := by
  induction ts generalizing m with
  | nil => rfl
  | cons u ts ih =>
    have e1 : (m.preDerive u).body = m.body := by unfold Emission.preDerive; split <;> rfl
    refine (ih (m.preDerive u) (by rw [e1]; exact hm)).trans ?_
    unfold Emission.along Emission.preDerive
    by_cases ho : m.on = true
    · simp only [ho, if_true]
      exact hm _ _ _
    · simp only [ho, if_false, Bool.false_eq_true]

/-- What is added is what the body in force emits at the position reached, if that body writes the whole array, whatever was called before;
or if the sources were switched on after any other body was asked. Missing: a body that leaves entries alone finds those of the body
before it (`c99_stale_violated`). -/
theorem c99_current_partial (m : Emission) (l : List EmissionCall) (t : ℝ) :
    (∀ ne nrhos numneu, (m.run l).on = true → Overwrites (m.run l).body ne nrhos numneu → ∀ e r f, e < ne → r < nrhos → f < numneu →
      (m.run l).along t e r f = emitted (m.run l).body (t - (m.run l).offset) e r f) ∧
    (∀ (bs : List Emitter) (b : Emitter) (ts : List ℝ), Memoryless b →
      let m' := (((m.run l).setSources true).run (bs.map .setBody)).setBody b |>.run (ts.map .preDerive)
      m'.body = b ∧ m'.along t = emitted b (t - m'.offset)) := by
  refine ⟨fun ne nrhos numneu hon hb e r f he hr hf => ?_, fun bs b ts hm => ?_⟩
  · rw [along_on hon]
    exact hb _ _ _ _ _ _ he hr hf
  · intro m'
    have hbs : ∀ (bs : List Emitter) (m : Emission), (m.run (bs.map .setBody)).on = m.on ∧ (m.run (bs.map .setBody)).flux = m.flux := by
      intro bs
      induction bs with
      | nil => exact fun m => ⟨rfl, rfl⟩
      | cons b bs ih => exact fun m => ih (m.setBody b)
    have h1 := hbs bs ((m.run l).setSources true)
    have h2 := run_body ((((m.run l).setSources true).run (bs.map .setBody)).setBody b) ts
    refine ⟨h2.1, ?_⟩
    show Emission.along (Emission.run _ _) t = _
    rw [c99_order _ hm ts t, along_on (m := (((m.run l).setSources true).run (bs.map .setBody)).setBody b) h1.1]
    show b ((((m.run l).setSources true).run (bs.map .setBody)).flux) _ = emitted b _
    rw [h1.2, show m'.offset = _ from h2.2.2]
    rfl

/-- The vacuum of the example writes the whole array and depends on the position only; a body that does not emit emits nothing. -/
theorem c99_bodies (ne nrhos numneu flavor : Nat) (length : ℝ) :
    Overwrites (emittingVacuum ne nrhos numneu flavor length) ne nrhos numneu ∧ Memoryless (emittingVacuum ne nrhos numneu flavor length) ∧
      Memoryless silent ∧ (∀ x e r f, emitted silent x e r f = 0) ∧
      ∀ x e r f, e < ne → r < nrhos → f < numneu →
        emitted (emittingVacuum ne nrhos numneu flavor length) x e r f = if f = flavor then Real.exp (-x / length) else 0 := by
  refine ⟨fun a a' x e r f he hr hf => ?_, fun a x y => ?_, fun _ _ _ => rfl, fun _ _ _ _ => rfl, fun x e r f he hr hf => ?_⟩
  · have hin : e < ne ∧ r < nrhos ∧ f < numneu := ⟨he, hr, hf⟩
    simp only [emittingVacuum_eq, hin, and_self, if_true]
  · funext e r f
    rw [emittingVacuum_eq, emittingVacuum_eq, emittingVacuum_eq]
    split <;> rfl
  · unfold emitted
    rw [emittingVacuum_eq, if_pos ⟨he, hr, hf⟩]

/-- The example: from a vacuum with an exponential source, each node and type gains the closed form, whatever the oscillations do. -/
theorem c99_emitting_vacuum (s : Setting n) (hn : 3 ≤ n) (o : Obj n) (ho : AllPrepared o) (ρ : ℝ → Nat → Nat → Mat n) (a b : ℝ)
    (h : Evolves s hn o ρ a b) (htau : s.tab.tau = true → o.nt = .both) (hsrc : s.tab.sources = true) (hint : s.iint = false) (flavor : Nat)
    (hfl : flavor < n) (length : ℝ) (hlen : length ≠ 0) (m : Emission) (hon : m.on = true)
    (hbody : m.body = emittingVacuum o.ne o.nrhos n flavor length) (hext : s.ext = m.along) (e r : Nat) (he : e < o.ne) (hr : r < o.nrhos)
    (x : ℝ → Fin n → ℝ) (hx : ∀ t ∈ Set.Icc a b, ∀ f, evalFlavorAtNode (atTime o e r t (ρ t e r)) f e r = .ok (x t f))
    (t : ℝ) (ht : t ∈ Set.Icc a b) :
    ∑ f, x t f = ∑ f, x a f + length * (Real.exp (-(a - m.offset) / length) - Real.exp (-(t - m.offset) / length)) := by
  have hsum : ∀ u, ∑ f ∈ Finset.range n, s.ext u e r f = Real.exp (-(u - m.offset) / length) := by
    intro u
    have : ∀ f ∈ Finset.range n, s.ext u e r f = if flavor = f then Real.exp (-(u - m.offset) / length) else 0 := by
      intro f hf
      rw [hext, along_on hon, hbody, emittingVacuum_eq, if_pos ⟨he, hr, Finset.mem_range.1 hf⟩]
      simp only [eq_comm]
    rw [Finset.sum_congr rfl this, Finset.sum_ite_eq, if_pos (Finset.mem_range.2 hfl)]
  have hder : ∀ u : ℝ, HasDerivAt (fun u => -length * Real.exp (-(u - m.offset) / length)) (Real.exp (-(u - m.offset) / length)) u := by
    intro u
    have h1 : HasDerivAt (fun u : ℝ => -(u - m.offset) / length) (-1 / length) u := (((hasDerivAt_id u).sub_const _).neg).div_const _
    refine (h1.exp.const_mul (-length)).congr_deriv ?_
    field_simp
  have := c99_total s hn o ho ρ a b h htau hsrc hint e r he hr (fun u => -length * Real.exp (-(u - m.offset) / length))
    (.smooth (fun u _ => (hder u).continuousAt.continuousWithinAt) fun u _ => by rw [hsum u]; exact (hder u).hasDerivWithinAt) x hx t ht
  rw [this]
  ring

/-! ## Examples and where it fails -/

/-- A source of one flavour feeds that flavour alone when nothing else happens. -/
theorem fed_by_source (s : Setting 3) (o : Obj 3) (ho : AllPrepared o) (hosc : o.ioscillations = false) (k : Fin 3) (g G : ℝ → ℝ) (a b : ℝ)
    (hγ : ∀ t st e r, e < o.ne → r < o.nrhos → s.gamma o t st e r = 0)
    (hg : ∀ t st e r, e < o.ne → r < o.nrhos → s.gain o t st e r = g t • o.evolB1 r k e) (hG : ∀ t, HasDerivAt G (g t) t) :
    Evolves s (le_refl 3) o (fun t e r => G t • o.evolB1 r k e) a b := by
  refine .smooth (fun e r _ _ i j => ?_) (fun t _ e r he hr => ?_) (fun t _ e r he hr => ?_)
  · have hc : Continuous G := continuous_iff_continuousAt.2 fun t => (hG t).continuousAt
    simp only [Matrix.smul_apply]
    exact (hc.smul continuous_const).continuousOn
  · unfold Setting.velocity
    rw [hγ t _ e r he hr, hg t _ e r he hr, Matrix.mul_smul, Matrix.smul_mul, motion_comm (s := s) (le_refl 3) (ho e r he hr) hosc k t]
    intro i j
    have := ((hG t).hasDerivWithinAt (s := Set.Ici t)).smul_const (o.evolB1 r k e i j)
    refine this.congr_deriv ?_
    simp
  · have hp := op_pos (good_atTime (ho e r he hr).good e r t 0) hr e k
    rw [← projectors_op (ho e r he hr) t 0 k] at hp
    have hpd : preDerive o t = o := by unfold preDerive; rw [if_neg (fun h => by rw [hosc] at h; exact absurd h.2 (by simp))]
    rw [hpd] at hp
    exact real_smul_hermitian _ hp.1

/-- A vacuum with these sources; interactions on or off, with tables that do nothing. -/
noncomputable def inert (iint : Bool) (ext : ℝ → Flux) : Setting 3 :=
  { cascade with
    tab := { cascade.tab with sigmaNC := fun _ _ _ _ => 0, sources := true }
    iint := iint
    dens := fun _ => 0
    ext := ext }

theorem inert_nc (iint : Bool) (ext : ℝ → Flux) (o : Obj 3) (t : ℝ) (st : Nat → Nat → Mat 3) (r f e : Nat) :
    ((inert iint ext).net o t st).invNC 7 r f e = 0 := by
  unfold Net.invNC Update.linAcc Update.forTargets Net.densities Matter.densities
  simp only [Setting.net, inert, cascade]
  norm_num

theorem inert_gamma (iint : Bool) (ext : ℝ → Flux) (o : Obj 3) (t : ℝ) (st : Nat → Nat → Mat 3) (e r : Nat) :
    (inert iint ext).gamma o t st e r = 0 := by
  rw [gamma_eq]
  have h1 : ∀ f, ((inert iint ext).net o t st).invINT 7 7 r f e = 0 := by
    intro f
    have h1 : ((inert iint ext).net o t st).invCC 7 r f e = 0 := by
      unfold Net.invCC Update.linAcc Update.forTargets Net.densities Matter.densities
      simp only [Setting.net, inert, cascade]
      norm_num
    have h2 : ((inert iint ext).net o t st).gr = false := rfl
    unfold Net.invINT
    rw [inert_nc, h1, h2]
    simp
  simp only [show (inert iint ext).old t = 7 from rfl, h1, mul_zero, zero_smul, Finset.sum_const_zero, ite_self]

theorem inert_gain (iint : Bool) (ext : ℝ → Flux) (o : Obj 3) (ho : AllPrepared o) (hosc : o.ioscillations = false) (k : Fin 3) (g : ℝ → ℝ)
    (hext : ∀ t e r f, e < o.ne → r < o.nrhos → f < 3 → ext t e r f = if f = k.val then g t else 0) (t : ℝ) (st : Nat → Nat → Mat 3) (e r : Nat)
    (he : e < o.ne) (hr : r < o.nrhos) : (inert iint ext).gain o t st e r = ((inert iint ext).copies o * g t) • o.evolB1 r k e := by
  rw [gain_exact (le_refl 3) ho (fun h => absurd h (by simp [inert, cascade])) he hr t st]
  have hz : ∀ f, ((inert iint ext).net o t st).total 7 ((inert iint ext).net o t st).flux r f e = 0 := by
    intro f
    have h1 : ((inert iint ext).net o t st).tau = false := rfl
    have h2 : ((inert iint ext).net o t st).gr = false := rfl
    unfold Net.total Net.ncSum Net.ncPart
    rw [h1, h2]
    have hfr : ((inert iint ext).net o t st).fractions = [1] := rfl
    simp only [inert_nc, hfr, Update.tsum_one, zero_mul, mul_zero, ite_self, Finset.sum_const_zero, Bool.false_eq_true, if_false, Bool.false_and, add_zero]
  have hs : ∑ f ∈ Finset.range 3, (inert iint ext).ext t e r f • ((inert iint ext).net o t st).proj r f e = g t • o.evolB1 r k e := by
    have : ∀ f ∈ Finset.range 3, (inert iint ext).ext t e r f • ((inert iint ext).net o t st).proj r f e =
        if f = k.val then g t • o.evolB1 r k e else 0 := by
      intro f hf
      rw [show (inert iint ext).ext = ext from rfl, hext t e r f he hr (Finset.mem_range.1 hf)]
      by_cases hk : f = k.val
      · rw [if_pos hk, if_pos hk, hk, proj_fixed hosc]
      · rw [if_neg hk, if_neg hk, zero_smul]
    rw [Finset.sum_congr rfl this, Finset.sum_ite_eq', if_pos (Finset.mem_range.2 k.isLt)]
  simp only [show (inert iint ext).old t = 7 from rfl, hz, zero_smul, Finset.sum_const_zero, ite_self, zero_add]
  rw [hs, smul_smul]

/-- The object of the examples: both types, two nodes, mixing of 45 degrees, oscillations off, nothing there at the start. -/
noncomputable def emptyDemo (basis : Basis) : Obj 3 := fill { demo basis with ioscillations := false } (fun _ _ _ => 0) .flavor

theorem emptyDemo_prepared (basis : Basis) : AllPrepared (emptyDemo basis) := fun e r he hr =>
  c97_prepared { demo basis with ioscillations := false } ⟨(demo_ready basis).b0, (demo_ready basis).mixing, (demo_ready basis).nrhos⟩ rfl _ .flavor e r he hr

theorem emptyDemo_reading (basis : Basis) (k : Fin 3) (x : ℝ) (t : ℝ) (e r : Nat) (he : e < 2) (hr : r < 2) (f : Fin 3) :
    evalFlavorAtNode (atTime (emptyDemo basis) e r t (x • (emptyDemo basis).evolB1 r k e)) f e r = .ok (if f = k then x else 0) := by
  have hp := emptyDemo_prepared basis e r he hr
  have hosc : (emptyDemo basis).ioscillations = false := rfl
  rw [reading_eq cascade hp t (fun _ _ => 0) _ f, dot_smul]
  unfold dot
  rw [← proj_fixed (s := cascade) hosc t (fun _ _ => 0) k r e, net_proj_mul hp]
  congr 1
  by_cases hfk : f = k
  · rw [if_pos hfk, if_pos (congrArg Fin.val hfk), net_proj_trace hp t _ f.isLt]; simp
  · rw [if_neg hfk, if_neg (fun h => hfk (Fin.ext h))]; simp

/-- The source of the example with a length of three, without interactions: the hypotheses of `c99_total`, `c99_flavour_partial` and
`c99_emitting_vacuum` hold, and the second flavour is there after a while. -/
example (basis : Basis) :
    let o := emptyDemo basis
    let m : Emission := ⟨true, fun _ _ _ => 0, emittingVacuum 2 2 3 1 3, 0⟩
    let s := inert false m.along
    AllPrepared o ∧ Evolves s (le_refl 3) o (fun t e r => (3 * (1 - Real.exp (-t / 3))) • o.evolB1 r 1 e) 0 5 ∧ s.tab.sources = true ∧
      s.iint = false ∧ evalFlavorAtNode (atTime o 0 1 3 ((3 * (1 - Real.exp (-3 / 3))) • o.evolB1 1 1 0)) 1 0 1 = .ok (3 * (1 - Real.exp (-3 / 3))) := by
  intro o m s
  have hp := emptyDemo_prepared basis
  refine ⟨hp, ?_, rfl, rfl, ?_⟩
  · refine fed_by_source s o hp rfl 1 (fun t => Real.exp (-t / 3)) (fun t => 3 * (1 - Real.exp (-t / 3))) 0 5 (fun t st e r _ _ => inert_gamma _ _ _ _ _ _ _)
      (fun t st e r he hr => ?_) fun t => ?_
    · have := inert_gain false m.along o hp rfl 1 (fun t => Real.exp (-t / 3)) (fun t e r f he hr hf => by
        rw [along_on rfl]
        show emittingVacuum 2 2 3 1 3 _ (t - 0) e r f = _
        rw [emittingVacuum_eq, if_pos ⟨he, hr, hf⟩, sub_zero]
        rfl) t st e r he hr
      rw [this, copies_one rfl (Or.inl rfl), one_mul]
    · have h1 : HasDerivAt (fun t : ℝ => -t / 3) (-1 / 3) t := ((hasDerivAt_id t).neg).div_const _
      refine ((h1.exp.const_sub 1).const_mul 3).congr_deriv ?_
      ring
  · exact (emptyDemo_reading basis 1 _ 3 0 1 (by norm_num) (by norm_num) 1).trans (by rw [if_pos rfl])

/-- The hypotheses of `c99_adds` and `c99_balance_partial` hold for a steady source, every neutrino counted once: with the source there is
something at every later time, without it there is nothing. -/
example (basis : Basis) :
    let o := emptyDemo basis
    let s := inert false fun _ _ _ f => if f = 1 then 1 else 0
    Sane s o 0 5 ∧ Evolves s (le_refl 3) o (fun t e r => t • o.evolB1 r 1 e) 0 5 ∧ Evolves s.off (le_refl 3) o (fun _ _ _ => 0) 0 5 ∧
      (∀ e r, (0 : ℝ) • o.evolB1 r 1 e = (0 : Mat 3)) ∧ (∀ t ∈ Set.Ico (0 : ℝ) 5, Update.Balanced (s.net o t fun _ _ => 0) fun _ => 1) ∧
      s.tab.sources = true ∧ s.iint = false := by
  intro o s
  have hp := emptyDemo_prepared basis
  refine ⟨⟨fun t _ => ?_, fun t _ e r f => ?_, fun h => absurd h (by simp [s, inert, cascade])⟩, ?_, ?_, fun e r => zero_smul _ _, fun t _ => ?_, rfl, rfl⟩
  · constructor <;> intros <;> (simp [Setting.net, s, inert, cascade]; try norm_num)
  · show (0 : ℝ) ≤ if f = 1 then 1 else 0
    split <;> norm_num
  · refine fed_by_source s o hp rfl 1 (fun _ => 1) (fun t => t) 0 5 (fun t st e r _ _ => inert_gamma _ _ _ _ _ _ _) (fun t st e r he hr => ?_)
      fun t => hasDerivAt_id t
    have := inert_gain false (fun _ _ _ f => if f = 1 then 1 else 0) o hp rfl 1 (fun _ => 1) (fun t e r f _ _ _ => rfl) t st e r he hr
    rw [this, copies_one rfl (Or.inl rfl), one_mul]
  · refine .smooth (fun e r _ _ i j => continuousOn_const) (fun t _ e r he hr => ?_) (fun t _ e r _ _ => Matrix.isHermitian_zero)
    refine (Deriv.const 0 _ t).congr ?_
    unfold Setting.velocity
    rw [gain_exact (s := s.off) (le_refl 3) hp (fun h => absurd h (by simp [s, Setting.off, inert, cascade])) he hr t, show s.off.copies o = 0 from rfl,
      show s.off.iint = false from rfl]
    simp
  · refine ⟨fun _ => zero_le_one, fun trg r f e _ _ _ h1 h2 => ?_, fun h => absurd h (by simp [Net.gr, Setting.net, s, inert, cascade]),
      fun h => absurd h (by simp [Setting.net, s, inert, cascade])⟩
    have : e = 1 := by have : e < 2 := h2; omega
    subst this
    simp [Setting.net, s, inert, cascade]

/-- The calls of the example program, with the integrator asking at two positions before. -/
example : ((⟨false, fun _ _ _ => 7, silent, 0⟩ : Emission).run [.setBody (emittingVacuum 2 2 3 1 3), .setSources true, .preDerive 2, .preDerive 1]).along 3 0 0 1 =
    Real.exp (-1) := by
  have h := ((c99_current_partial ⟨false, fun _ _ _ => 7, silent, 0⟩ [.setBody (emittingVacuum 2 2 3 1 3), .setSources true, .preDerive 2, .preDerive 1] 3).1 2 2 3 rfl
    (c99_bodies 2 2 3 1 3).1 0 0 1 (by norm_num) (by norm_num) (by norm_num))
  rw [h]
  refine ((c99_bodies 2 2 3 1 3).2.2.2.2 _ 0 0 1 (by norm_num) (by norm_num) (by norm_num)).trans ?_
  rw [if_pos rfl]
  congr 1
  show -((3 : ℝ) - 0) / 3 = -1
  norm_num

/-- With both types, interactions and no oscillations, what is emitted is added twice: a source of one per unit length gives two. -/
theorem c99_twice_violated (basis : Basis) :
    let o := emptyDemo basis
    let s := inert true fun _ _ _ f => if f = 1 then 1 else 0
    AllPrepared o ∧ Sane s o 0 5 ∧ ∃ ρ, Evolves s (le_refl 3) o ρ 0 5 ∧ ρ 0 0 0 = 0 ∧ s.tab.sources = true ∧
      (∀ t, ∑ f ∈ Finset.range 3, s.ext t 0 0 f = 1) ∧
      ∀ t f, evalFlavorAtNode (atTime o 0 0 t (ρ t 0 0)) f 0 0 = .ok (if f = 1 then 2 * t else 0) := by
  intro o s
  have hp := emptyDemo_prepared basis
  refine ⟨hp, ?_, fun t e r => (2 * t) • o.evolB1 r 1 e, ?_, ?_, rfl, fun t => ?_, fun t f => ?_⟩
  · refine ⟨fun t _ => ?_, fun t _ e r f => ?_, fun h => absurd h (by simp [s, inert, cascade])⟩
    · constructor <;> intros <;> (simp [Setting.net, s, inert, cascade]; try norm_num)
    · show (0 : ℝ) ≤ if f = 1 then 1 else 0
      split <;> norm_num
  · refine fed_by_source s o hp rfl 1 (fun _ => 2) (fun t => 2 * t) 0 5 (fun t st e r _ _ => inert_gamma _ _ _ _ _ _ _) (fun t st e r he hr => ?_)
      fun t => by simpa using (hasDerivAt_id t).const_mul 2
    have := inert_gain true (fun _ _ _ f => if f = 1 then 1 else 0) o hp rfl 1 (fun _ => 1) (fun t e r f _ _ _ => rfl) t st e r he hr
    rw [this]
    congr 1
    have : s.copies o = (2 : Nat) := rfl
    rw [show (inert true fun _ _ _ f => if f = 1 then 1 else 0).copies o = (2 : Nat) from this]
    norm_num
  · simp
  · show ∑ f ∈ Finset.range 3, (if f = 1 then (1 : ℝ) else 0) = 1
    simp
  · exact emptyDemo_reading basis 1 (2 * t) t 0 0 (by norm_num) (by norm_num) f

/-- After an evolution through an emitting body a body that emits nothing goes on emitting what the other emitted last: the array is not
cleared when the body is replaced. -/
theorem c99_stale_violated (basis : Basis) :
    let m := (⟨false, fun _ _ _ => 0, silent, 0⟩ : Emission).run
      [.setSources true, .setBody (emittingVacuum 2 2 3 1 3), .preDerive 0, .setBody silent]
    let o := emptyDemo basis
    let s := inert false m.along
    m.body = silent ∧ (∀ x e r f, emitted m.body x e r f = 0) ∧ AllPrepared o ∧ ∃ ρ, Evolves s (le_refl 3) o ρ 0 5 ∧ ρ 0 0 0 = 0 ∧
      ∀ t f, evalFlavorAtNode (atTime o 0 0 t (ρ t 0 0)) f 0 0 = .ok (if f = 1 then t else 0) := by
  intro m o s
  have hp := emptyDemo_prepared basis
  refine ⟨rfl, fun _ _ _ _ => rfl, hp, fun t e r => t • o.evolB1 r 1 e, ?_, ?_, fun t f => ?_⟩
  · refine fed_by_source s o hp rfl 1 (fun _ => 1) (fun t => t) 0 5 (fun t st e r _ _ => inert_gamma _ _ _ _ _ _ _) (fun t st e r he hr => ?_)
      fun t => hasDerivAt_id t
    have := inert_gain false m.along o hp rfl 1 (fun _ => 1) (fun t e r f he hr hf => by
      rw [along_on rfl]
      show emittingVacuum 2 2 3 1 3 _ (0 - 0) e r f = _
      rw [emittingVacuum_eq, if_pos ⟨he, hr, hf⟩]
      simp) t st e r he hr
    rw [this, copies_one rfl (Or.inl rfl), one_mul]
  · simp
  · exact emptyDemo_reading basis 1 t t 0 0 (by norm_num) (by norm_num) f

end Verif.Density
