import Verif.Density.LegsProps

/-!
# C101: there and back

`ReverseTrack` (body.h 98-103) exchanges the ends of a track; `EvolveState` then goes over a negative distance (test/time_reversal.test.cpp).
-/

namespace Verif.Density

open Matrix
open Matter (NT)
open Update (Net Shape NonNeg)
open scoped ComplexOrder

variable {n : Nat}

/-! ## Spec -/


/-- The rate at which a flavour is lost at a position of a medium. -/
noncomputable def lossAt (s : Setting n) (m : Medium) (o : Obj n) (y : ℝ) (r f e : Nat) : ℝ := lossRate (s.along m 0) o y r f e

/-- The losses along a leg are bounded. -/
def Leg.Bounded (s : Setting n) (o : Obj n) (l : Leg) : Prop :=
  ∃ B : ℝ, ∀ y ∈ Set.Ico l.xini l.xend, ∀ e r f, e < o.ne → r < o.nrhos → f < 3 → lossAt s l.med o y r f e ≤ B

/-- The way back: the tracks in the opposite order, each reversed. -/
def wayBack (ls : List Leg) : List Leg := (ls.map Leg.reverse).reverse

/-- The ways that can be gone back: either the numerics are on and no leg takes the constant-density shortcut; or all of them take it, in the
mass basis and without sources. -/
def Retraceable (s : Setting n) (T : Traveller n) (ls : List Leg) : Prop :=
  (T.numerics = true ∧ ∀ l ∈ ls, ¬l.Shortcut s T.allow) ∨
  (T.o.basis = .mass ∧ s.tab.sources = false ∧ ∀ l ∈ ls, l.Shortcut s T.allow ∧ l.Honest)

/-! ## Lemmas -/

/-- States that are equal at the end were equal all the time, if the losses are bounded. -/
theorem Evolves.determined_back {s : Setting n} {hn : 3 ≤ n} {o : Obj n} (ho : AllPrepared o) (htau : s.tab.tau = true → o.nt = .both)
    {ρ σ : ℝ → Nat → Nat → Mat n} {a b : ℝ} (h : Evolves s hn o ρ a b) (k : Evolves s hn o σ a b) (B : ℝ)
    (hB : ∀ t ∈ Set.Ico a b, ∀ e r f, e < o.ne → r < o.nrhos → f < 3 → lossRate s o t r f e ≤ B)
    (stop : ∀ e r, e < o.ne → r < o.nrhos → ρ b e r = σ b e r) (t : ℝ) (ht : t ∈ Set.Icc a b) (e r : Nat)
    (he : e < o.ne) (hr : r < o.nrhos) : ρ t e r = σ t e r := by
  have key : ∀ d e, e < o.ne → o.ne - e ≤ d → ∀ r, r < o.nrhos → ∀ t ∈ Set.Icc a b, ρ t e r = σ t e r := by
    intro d
    induction d with
    | zero => intro e he hd; omega
    | succ d ih =>
      intro e he hd r hr t ht
      have hp := ho e r he hr
      let δ : ℝ → Mat n := fun t => ρ t e r - σ t e r
      have hcont : ∀ i j, ContinuousOn (fun t => δ t i j) (Set.Icc a b) := fun i j => (h.cont e r he hr i j).sub (k.cont e r he hr i j)
      have hherm : ∀ t ∈ Set.Icc a b, (δ t)ᴴ = δ t := fun t ht =>
        ((h.hermitian t ht e r he hr).sub (k.hermitian t ht e r he hr)).eq
      obtain ⟨S, hS, h', k'⟩ := h.pair k
      have hpos : ∀ t ∈ Set.Icc a b, (δ t * δ t).PosSemidef := fun t ht => by
        have := Matrix.posSemidef_conjTranspose_mul_self (δ t)
        rwa [hherm t ht] at this
      have hge : ∀ t ∈ Set.Icc a b, 0 ≤ (δ t * δ t).trace.re := fun t ht => (Complex.le_def.1 (hpos t ht).trace_nonneg).1
      let c : ℝ := 6 * |B|
      have hd2 : ∀ t ∈ Set.Ico a b, t ∉ S → ∃ v, HasDerivWithinAt (fun t => (δ t * δ t).trace.re) v (Set.Ici t) t ∧ -(c * (δ t * δ t).trace.re) ≤ v := by
        intro t ht hnot
        have htI : t ∈ Set.Icc a b := Set.Ico_subset_Icc_self ht
        have hgain : s.gain o t (σ t) e r = s.gain o t (ρ t) e r :=
          gain_above hn htau ho he hr t _ _ fun e' r' h1 h2 h3 => (ih e' h2 (by omega) r' h3 t htI).symm
        have hv : s.velocity hn o t (ρ t) e r - s.velocity hn o t (σ t) e r =
            -Complex.I • (motion s.c s.dens s.ye (Fin.castLE hn) o e r t * δ t - δ t * motion s.c s.dens s.ye (Fin.castLE hn) o e r t) -
              (s.gamma o t (ρ t) e r * δ t + δ t * s.gamma o t (ρ t) e r) := by
          unfold Setting.velocity
          rw [hgain, gamma_state s o t (σ t) (ρ t)]
          show _ = -Complex.I • (_ * (ρ t e r - σ t e r) - (ρ t e r - σ t e r) * _) - (_ * (ρ t e r - σ t e r) + (ρ t e r - σ t e r) * _)
          simp only [Matrix.mul_sub, Matrix.sub_mul, smul_sub]
          abel
        have hd1 := (h'.deriv t ht hnot e r he hr).sub (k'.deriv t ht hnot e r he hr)
        rw [hv] at hd1
        refine ⟨_, (hd1.mul hd1).trace_re, ?_⟩
        have hq : dot (s.gamma o t (ρ t) e r) (δ t * δ t) ≤ 3 / 2 * |B| * (δ t * δ t).trace.re := by
          rw [gamma_eq]
          split
          · rename_i hi
            rw [dot_comm, dot_sum]
            have hone : ∀ f ∈ Finset.range 3, dot (δ t * δ t) ((1 / 2 * (s.net o t (ρ t)).invINT (s.old t) (s.old t) r f e) • (s.net o t (ρ t)).proj r f e) ≤
                1 / 2 * |B| * (δ t * δ t).trace.re := by
              intro f hf
              have hf3 := Finset.mem_range.1 hf
              have hfn : f < n := by omega
              rw [dot_smul, dot_comm]
              have hb := bounds (good_atTime hp.good e r t 0) hr e (hpos t htI) ⟨f, hfn⟩
              rw [← net_proj (s := s) hp t (ρ t) ⟨f, hfn⟩ 0] at hb
              have hr := hB t ht e r f he hr hf3
              have hl : lossRate s o t r f e = (s.net o t (ρ t)).invINT (s.old t) (s.old t) r f e := if_pos ⟨hi, hf3⟩
              rw [hl] at hr
              have h1 : (s.net o t (ρ t)).invINT (s.old t) (s.old t) r f e * dot ((s.net o t (ρ t)).proj r f e) (δ t * δ t) ≤
                  |B| * (δ t * δ t).trace.re :=
                (mul_le_mul_of_nonneg_right (hr.trans (le_abs_self B)) hb.1).trans (mul_le_mul_of_nonneg_left hb.2 (abs_nonneg B))
              linarith
            refine (Finset.sum_le_sum hone).trans (le_of_eq ?_)
            rw [Finset.sum_const, Finset.card_range]
            simp only [nsmul_eq_mul]
            push_cast
            ring
          · have := hge t htI
            simp only [dot, Matrix.zero_mul, Matrix.trace_zero, Complex.zero_re]
            positivity
        show _ ≤ (((_ : Mat n) * δ t) + (δ t * _)).trace.re
        generalize motion s.c s.dens s.ye (Fin.castLE hn) o e r t = H at *
        generalize s.gamma o t (ρ t) e r = Γ at *
        have e1 : ((-Complex.I • (H * δ t - δ t * H) - (Γ * δ t + δ t * Γ)) * δ t + δ t * (-Complex.I • (H * δ t - δ t * H) - (Γ * δ t + δ t * Γ))).trace =
            -(4 : ℂ) * (Γ * (δ t * δ t)).trace := by
          generalize δ t = D
          have t1 : (H * D * D).trace = (D * D * H).trace := by rw [Matrix.mul_assoc, Matrix.trace_mul_comm]
          have t2 : (D * Γ * D).trace = (Γ * (D * D)).trace := by rw [Matrix.mul_assoc, Matrix.trace_mul_comm, Matrix.mul_assoc]
          have t3 : (D * D * Γ).trace = (Γ * (D * D)).trace := by rw [Matrix.trace_mul_comm]
          simp only [Matrix.sub_mul, Matrix.mul_sub, Matrix.add_mul, Matrix.mul_add, Matrix.smul_mul, Matrix.mul_smul, Matrix.trace_add, Matrix.trace_sub,
            Matrix.trace_smul, ← Matrix.mul_assoc, t1]
          rw [t2, t3, Matrix.mul_assoc Γ D D]
          simp only [smul_eq_mul]
          ring
        rw [e1]
        have e2 : (-(4 : ℂ) * (Γ * (δ t * δ t)).trace).re = -4 * dot Γ (δ t * δ t) := by
          unfold dot
          simp
        rw [e2]
        show -(6 * |B| * _) ≤ _
        linarith
      choose! v hv1 hv2 using hd2
      have hle := le_start_off (f := fun u => -(Real.exp (c * u) * (δ u * δ u).trace.re))
        (f' := fun u => -(Real.exp (c * u) * c * (δ u * δ u).trace.re + Real.exp (c * u) * v u)) hS.toFinset (a := t) (b := b)
        (by
          have h1 : ContinuousOn (fun u => (δ u * δ u).trace.re) (Set.Icc t b) :=
            (trace_continuousOn (continuousOn_mul hcont hcont)).mono (Set.Icc_subset_Icc_left ht.1)
          exact ((Real.continuous_exp.comp (continuous_const.mul continuous_id)).continuousOn.mul h1).neg)
        (fun u hu hnot => by
          have h1 := hv1 u ⟨ht.1.trans hu.1, hu.2⟩ (by simpa using hnot)
          have h2 : HasDerivWithinAt (fun u : ℝ => Real.exp (c * u)) (Real.exp (c * u) * c) (Set.Ici u) u := by
            have := ((hasDerivAt_id u).const_mul c).exp.hasDerivWithinAt (s := Set.Ici u)
            refine this.congr_deriv ?_
            simp
          exact (h2.mul h1).neg)
        (fun u hu hnot => by
          have h1 := hv2 u ⟨ht.1.trans hu.1, hu.2⟩ (by simpa using hnot)
          have h3 := Real.exp_pos (c * u)
          nlinarith [mul_le_mul_of_nonneg_left h1 h3.le]) b ⟨ht.2, le_refl _⟩
      have hb0 : δ b = 0 := sub_eq_zero.2 (stop e r he hr)
      rw [hb0, Matrix.zero_mul, Matrix.trace_zero, Complex.zero_re, mul_zero, neg_zero] at hle
      have hzero : (δ t * δ t).trace.re ≤ 0 := by
        have h3 := Real.exp_pos (c * t)
        by_contra hc
        have := mul_pos h3 (not_le.1 hc)
        linarith
      have hz : (δ t * (δ t)ᴴ).trace = 0 := by
        rw [hherm t ht]
        exact Complex.ext (le_antisymm hzero (hge t ht)) (Complex.le_def.1 (hpos t ht).trace_nonneg).2.symm
      exact sub_eq_zero.1 (Matrix.trace_mul_conjTranspose_self_eq_zero_iff.1 hz)
  exact key o.ne e he (by omega) r hr t ht

/-- Where one has come back to. -/
structure Back (T T' : Traveller n) : Prop where
  same : Same T.o T'.o
  clock : T'.o.t = T.o.t
  state : ∀ e r, e < T.o.ne → r < T.o.nrhos → T'.o.state e r = T.o.state e r
  allow : T'.allow = T.allow

/-- A leg forth, anything that comes back, and the leg back. -/
theorem leg_back {s : Setting n} {hn : 3 ≤ n} {l : Leg} {T T₁ T₁' T₂ : Traveller n} (ho : AllPrepared T.o) (htau : s.tab.tau = true → T.o.nt = .both)
    (hherm : ∀ e r, e < T.o.ne → r < T.o.nrhos → (T.o.state e r).IsHermitian) (hl : l.xini ≤ l.xend) (hB : l.Bounded s T.o) (hp : Path s l T)
    (h : EvolveState s hn l T T₁) (hback : Back T₁ T₁') (hoff : T₁'.offset = T.offset) (hp' : Path s l.reverse T₁')
    (h' : EvolveState s hn l.reverse T₁' T₂) : Back T T₂ := by
  obtain ⟨ρ, hev, hst, hs1, ht1, _, ha1, _⟩ := h.follows hp ho htau hherm
  have hlen : 0 ≤ l.length := sub_nonneg.2 hl
  have hrev : l.reverse.length = -l.length := by unfold Leg.length Leg.reverse; ring
  rw [min_eq_left (by linarith), max_eq_right (by linarith)] at hev
  have hs1' : Same T.o T₁'.o := hs1.trans hback.same
  have hst1 : ∀ e r, e < T.o.ne → r < T.o.nrhos → T₁'.o.state e r = ρ (T.o.t + l.length) e r := fun e r he hr => by
    rw [hback.state e r (by rwa [hs1.ne]) (by rwa [hs1.nrhos]), (hst e r he hr).2]
  obtain ⟨σ, kev, kst, ks1, kt1, _, ka1, _⟩ := h'.follows hp' (hs1'.prepared ho) (by rw [hs1'.nt]; exact htau) (fun e r he hr => by
    rw [hs1'.ne] at he
    rw [hs1'.nrhos] at hr
    rw [hst1 e r he hr]
    exact hev.hermitian _ ⟨by linarith, le_refl _⟩ e r he hr)
  have ht1' : T₁'.o.t = T.o.t + l.length := hback.clock.trans ht1
  have ht2 : T₁'.o.t + l.reverse.length = T.o.t := by rw [ht1', hrev]; ring
  rw [ht2, ht1', min_eq_right (by linarith), max_eq_left (by linarith), hoff] at kev
  rw [ht2, ht1'] at kst
  have kev' : Evolves (s.along l.med T.offset) hn T.o σ T.o.t (T.o.t + l.length) := hs1'.evolves kev
  obtain ⟨B, hB⟩ := hB
  have heq := Evolves.determined_back (s := s.along l.med T.offset) ho htau hev kev' B (fun t ht e r f he hr hf => by
      have := hB (t - T.offset) ⟨by linarith [hp.start, ht.1], by have := ht.2; unfold Leg.length at this; linarith [hp.start]⟩ e r f he hr hf
      refine le_trans (le_of_eq ?_) this
      unfold lossAt lossRate
      by_cases hi : s.iint = true ∧ f < 3
      · rw [if_pos (show (s.along l.med T.offset).iint = true ∧ f < 3 from hi), if_pos (show (s.along l.med 0).iint = true ∧ f < 3 from hi)]
        have hd : ((s.along l.med 0).net T.o (t - T.offset) fun _ _ => 0).densities = ((s.along l.med T.offset).net T.o t fun _ _ => 0).densities := by
          show Matter.densities _ _ (l.med.dens (t - T.offset - 0)) (l.med.ye (t - T.offset - 0)) = Matter.densities _ _ _ _
          rw [sub_zero]; rfl
        have hy : ((s.along l.med 0).net T.o (t - T.offset) fun _ _ => 0).ye = ((s.along l.med T.offset).net T.o t fun _ _ => 0).ye := by
          show l.med.ye (t - T.offset - 0) = l.med.ye (t - T.offset)
          rw [sub_zero]
        rw [invINT_old _ ((s.along l.med T.offset).old t) 0, invINT_old _ ((s.along l.med 0).old (t - T.offset)) 0]
        unfold Net.invINT Net.invNC Net.invCC Net.invGR Net.numE
        rw [hd, hy]
        rfl
      · rw [if_neg (show ¬((s.along l.med T.offset).iint = true ∧ f < 3) from hi), if_neg (show ¬((s.along l.med 0).iint = true ∧ f < 3) from hi)])
    (fun e r he hr => by rw [(kst e r (by rwa [hs1'.ne]) (by rwa [hs1'.nrhos])).1, hst1 e r he hr]) T.o.t ⟨le_refl _, by linarith⟩
  refine ⟨hs1'.trans ks1, kt1.trans ht2, fun e r he hr => ?_, ka1.trans (hback.allow.trans ha1)⟩
  rw [(kst e r (by rwa [hs1'.ne]) (by rwa [hs1'.nrhos])).2, ← heq e r he hr, (hst e r he hr).1]

theorem Leg.Honest.reverse {l : Leg} (h : l.Honest) : l.reverse.Honest := by
  unfold Leg.Honest at *
  show ∀ y ∈ Set.uIcc l.xend l.xini, ∀ y' ∈ Set.uIcc l.xend l.xini, _
  rw [Set.uIcc_comm]
  exact h

theorem Same.bounded {o o' : Obj n} (h : Same o o') {s : Setting n} {l : Leg} (hB : l.Bounded s o) : l.Bounded s o' := by
  obtain ⟨B, hB⟩ := hB
  refine ⟨B, fun y hy e r f he hr hf => ?_⟩
  have := hB y hy e r f (by rwa [h.ne] at he) (by rwa [h.nrhos] at hr) hf
  unfold lossAt lossRate at *
  rwa [h.net]

theorem Back.readAlike {T T' : Traveller n} (h : Back T T') : ReadAlike T.o T'.o :=
  ⟨h.clock, fun e r f he hr => ⟨h.state e r he hr, h.same.readings h.clock (h.state e r he hr) f⟩⟩

theorem EvolveState.numerics_kept {s : Setting n} {hn : 3 ≤ n} {l : Leg} {T T' : Traveller n} (h : EvolveState s hn l T T') (hs : ¬l.Shortcut s T.allow)
    (hnum : T.numerics = true) : T'.numerics = true := by
  obtain ⟨_, _, _, _, τ, hτ, h⟩ := h
  rw [if_neg (show ¬(l.constant = true ∧ s.iint = false ∧ T.allow = true) from hs), if_pos hnum] at h
  obtain ⟨_, _, _, _, h⟩ := h
  rw [h]
  exact hnum

/-- What `Back` says of the journey and the numerics. -/
theorem journey_back (s : Setting n) (hn : 3 ≤ n) (ls : List Leg) : ∀ (T T' : Traveller n), AllPrepared T.o → (s.tab.tau = true → T.o.nt = .both) →
    (∀ e r, e < T.o.ne → r < T.o.nrhos → (T.o.state e r).IsHermitian) → (∀ l ∈ ls, l.xini ≤ l.xend ∧ l.Bounded s T.o) → Retraceable s T ls →
    Journey s hn (ls ++ wayBack ls) T T' →
    Back T T' ∧ (T.numerics = true → (∀ l ∈ ls, ¬l.Shortcut s T.allow) → T'.numerics = true) := by
  induction ls with
  | nil =>
    intro T T' _ _ _ _ _ h
    have h : T' = T := h
    rw [h]
    exact ⟨⟨Same.refl _, rfl, fun _ _ _ _ => rfl, rfl⟩, fun h _ => h⟩
  | cons l ls ih =>
    intro T T' ho htau hherm hall hret h
    have hlist : (l :: ls) ++ wayBack (l :: ls) = l :: ((ls ++ wayBack ls) ++ [l.reverse]) := by
      unfold wayBack
      simp
    rw [hlist] at h
    obtain ⟨T₁, h1, h2⟩ := h
    obtain ⟨T₁', h3, T₂, h4, h5⟩ := (Journey.append _ _ _ _).1 h2
    have h5 : T' = T₂ := h5
    rw [h5]
    obtain ⟨hl, hB⟩ := hall l List.mem_cons_self
    have hse : Same T.o (enter l T).o := same_enter l T
    have hp : Path s l (enter l T) := by
      refine ⟨by show T.o.t - (T.o.t - l.xini) = l.xini; ring, fun hs => ?_, fun hs => ?_⟩
      · rcases hret with ⟨k, _⟩ | ⟨_, _, k⟩
        · exact k
        · exact absurd (k l List.mem_cons_self).1 hs
      · rcases hret with ⟨_, k⟩ | ⟨k1, k2, k⟩
        · exact absurd hs (k l List.mem_cons_self)
        · exact ⟨k1, k2, (k l List.mem_cons_self).2⟩
    obtain ⟨ρ, hev, hst, hs1, ht1, ho1, ha1, _⟩ := h1.follows hp (hse.prepared ho) (by rw [hse.nt]; exact htau)
      (fun e r he hr => hherm e r he hr)
    have hs1' : Same T.o T₁.o := hse.trans hs1
    have ht1 : T₁.o.t = T.o.t + l.length := ht1
    have ha1 : T₁.allow = T.allow := ha1
    have ho1 : T₁.offset = T.o.t - l.xini := ho1
    have hret1 : Retraceable s T₁ ls := by
      rcases hret with ⟨k1, k2⟩ | ⟨k1, k2, k3⟩
      · left
        refine ⟨h1.numerics_kept (k2 l List.mem_cons_self) k1, fun m hm => ?_⟩
        rw [ha1]
        exact k2 m (List.mem_cons_of_mem _ hm)
      · right
        refine ⟨hs1'.basis.trans k1, k2, fun m hm => ?_⟩
        rw [ha1]
        exact k3 m (List.mem_cons_of_mem _ hm)
    have hlen : 0 ≤ l.length := sub_nonneg.2 hl
    obtain ⟨hb, hbn⟩ := ih T₁ T₁' (hs1'.prepared ho) (by rw [hs1'.nt]; exact htau) (fun e r he hr => by
        rw [hs1'.ne] at he
        rw [hs1'.nrhos] at hr
        rw [(hst e r he hr).2]
        refine hev.hermitian _ ?_ e r he hr
        show T.o.t + l.length ∈ Set.Icc (min T.o.t (T.o.t + l.length)) (max T.o.t (T.o.t + l.length))
        rw [min_eq_left (by linarith), max_eq_right (by linarith)]
        exact ⟨by linarith, le_refl _⟩)
      (fun m hm => ⟨(hall m (List.mem_cons_of_mem _ hm)).1, hs1'.bounded (hall m (List.mem_cons_of_mem _ hm)).2⟩) hret1 h3
    have he : Back T₁ (enter l.reverse T₁') :=
      ⟨hb.same.trans (same_enter _ _), hb.clock, hb.state, hb.allow⟩
    have hoff : (enter l.reverse T₁').offset = (enter l T).offset := by
      show T₁'.o.t - l.xend = T.o.t - l.xini
      rw [hb.clock, ht1]
      unfold Leg.length
      ring
    have hra : (enter l.reverse T₁').allow = T.allow := hb.allow.trans ha1
    have hsr : l.reverse.Shortcut s (enter l.reverse T₁').allow ↔ l.Shortcut s T.allow := by rw [hra]; exact Iff.rfl
    have hp' : Path s l.reverse (enter l.reverse T₁') := by
      refine ⟨by show T₁'.o.t - (T₁'.o.t - l.xend) = l.xend; ring, fun hs => ?_, fun hs => ?_⟩
      · rw [hsr] at hs
        rcases hret with ⟨k1, k⟩ | ⟨_, _, k⟩
        · refine hbn (h1.numerics_kept hs k1) fun m hm => ?_
          rw [ha1]
          exact k m (List.mem_cons_of_mem _ hm)
        · exact absurd (k l List.mem_cons_self).1 hs
      · rw [hsr] at hs
        rcases hret with ⟨_, k⟩ | ⟨k1, k2, k⟩
        · exact absurd hs (k l List.mem_cons_self)
        · exact ⟨(hb.same.basis.trans hs1'.basis).trans k1, k2, (k l List.mem_cons_self).2.reverse⟩
    have hfin := leg_back (hse.prepared ho) (by rw [hse.nt]; exact htau) (fun e r he hr => hherm e r he hr) hl (hse.bounded hB) hp h1 he hoff hp' h4
    refine ⟨⟨hse.trans hfin.same, hfin.clock, hfin.state, hfin.allow⟩, fun hnum hno => ?_⟩
    refine h4.numerics_kept (fun hs => hno l List.mem_cons_self (hsr.1 hs)) ?_
    show T₁'.numerics = true
    refine hbn (h1.numerics_kept (hno l List.mem_cons_self) hnum) fun m hm => ?_
    rw [ha1]
    exact hno m (List.mem_cons_of_mem _ hm)

theorem cascade_bounded (x y : ℝ) : (stretch x y).Bounded cascade walker.o := by
  refine ⟨1, fun z _ e r f _ _ _ => ?_⟩
  unfold lossAt lossRate
  split
  · exact le_of_eq (cascade_int walker.o z (fun _ _ => 0) r f e)
  · exact zero_le_one

/-! ## C101 -/

/-- C101, partial: a track evolved forth, reversed in place and evolved back leaves clock, states and readings as they were, with
interactions and sources too, as long as the losses along it are bounded. Missing: positivised evolutions (`c101_positivised_violated`), and
the constant-density shortcut in the interaction basis or with sources. -/
theorem c101_reverse_partial (s : Setting n) (hn : 3 ≤ n) (l : Leg) (T T₁ T₂ : Traveller n) (ho : AllPrepared T.o)
    (htau : s.tab.tau = true → T.o.nt = .both) (hherm : ∀ e r, e < T.o.ne → r < T.o.nrhos → (T.o.state e r).IsHermitian)
    (hl : l.xini ≤ l.xend) (hB : l.Bounded s T.o) (hret : Retraceable s T [l])
    (h : EvolveState s hn l (enter l T) T₁) (h' : EvolveState s hn l.reverse T₁ T₂) : ReadAlike T.o T₂.o := by
  have hse : Same T.o (enter l T).o := same_enter l T
  have hp : Path s l (enter l T) := by
    refine ⟨by show T.o.t - (T.o.t - l.xini) = l.xini; ring, fun hs => ?_, fun hs => ?_⟩
    · rcases hret with ⟨k, _⟩ | ⟨_, _, k⟩
      · exact k
      · exact absurd (k l List.mem_cons_self).1 hs
    · rcases hret with ⟨_, k⟩ | ⟨k1, k2, k⟩
      · exact absurd hs (k l List.mem_cons_self)
      · exact ⟨k1, k2, (k l List.mem_cons_self).2⟩
  obtain ⟨ρ, hev, hst, hs1, ht1, ho1, ha1, _⟩ := h.follows hp (hse.prepared ho) (by rw [hse.nt]; exact htau) (fun e r he hr => hherm e r he hr)
  have ha1 : T₁.allow = T.allow := ha1
  have ht1 : T₁.o.t = T.o.t + l.length := ht1
  have ho1 : T₁.offset = T.o.t - l.xini := ho1
  have hsr : l.reverse.Shortcut s T₁.allow ↔ l.Shortcut s T.allow := by rw [ha1]; exact Iff.rfl
  have hp' : Path s l.reverse T₁ := by
    refine ⟨by show T₁.o.t - T₁.offset = l.xend; rw [ht1, ho1]; unfold Leg.length; ring, fun hs => ?_, fun hs => ?_⟩
    · rw [hsr] at hs
      rcases hret with ⟨k1, _⟩ | ⟨_, _, k⟩
      · exact h.numerics_kept hs k1
      · exact absurd (k l List.mem_cons_self).1 hs
    · rw [hsr] at hs
      rcases hret with ⟨_, k⟩ | ⟨k1, k2, k⟩
      · exact absurd hs (k l List.mem_cons_self)
      · exact ⟨hs1.basis.trans k1, k2, (k l List.mem_cons_self).2.reverse⟩
  have hfin := leg_back (hse.prepared ho) (by rw [hse.nt]; exact htau) (fun e r he hr => hherm e r he hr) hl (hse.bounded hB) hp h
    ⟨Same.refl _, rfl, fun _ _ _ _ => rfl, rfl⟩ ho1 hp' h'
  exact Back.readAlike ⟨hse.trans hfin.same, hfin.clock, hfin.state, hfin.allow⟩

/-- With interactions, along a track of three and back. -/
example : ∃ T₁ T₂, EvolveState cascade (le_refl 3) (stretch 2 5) (enter (stretch 2 5) walker) T₁ ∧
    EvolveState cascade (le_refl 3) (stretch 2 5).reverse T₁ T₂ ∧ ReadAlike walker.o T₂.o := by
  obtain ⟨T₁, h1, h2, h3, h4, h5⟩ := walker_step 2 5 (enter (stretch 2 5) walker) (same_enter _ _) rfl ⟨rfl, rfl⟩ walker_state
  obtain ⟨T₂, h6, _⟩ := walker_step 5 2 T₁ h2 h3 h4 h5
  exact ⟨T₁, T₂, h1, h6, c101_reverse_partial cascade (le_refl 3) (stretch 2 5) walker T₁ T₂ walker_prepared (fun h => absurd h (by simp [cascade]))
    walker_hermitian (by unfold stretch; norm_num) (cascade_bounded 2 5) (.inl ⟨rfl, fun _ _ h => absurd h.2.1 (by simp [cascade])⟩) h1 h6⟩

/-- C101, partial: the same for any number of tracks, through whatever bodies, evolved one after the other and then back in the opposite
order. -/
theorem c101_there_and_back_partial (s : Setting n) (hn : 3 ≤ n) (ls : List Leg) (T T' : Traveller n) (ho : AllPrepared T.o)
    (htau : s.tab.tau = true → T.o.nt = .both) (hherm : ∀ e r, e < T.o.ne → r < T.o.nrhos → (T.o.state e r).IsHermitian)
    (hall : ∀ l ∈ ls, l.xini ≤ l.xend ∧ l.Bounded s T.o) (hret : Retraceable s T ls) (h : Journey s hn (ls ++ wayBack ls) T T') :
    ReadAlike T.o T'.o :=
  (journey_back s hn ls T T' ho htau hherm hall hret h).1.readAlike

example : ∃ T', Journey cascade (le_refl 3) [stretch 0 1, stretch 5 7, stretch 7 5, stretch 1 0] walker T' ∧ ReadAlike walker.o T'.o := by
  obtain ⟨T', h⟩ := walker_journey [(0, 1), (5, 7), (7, 5), (1, 0)] walker (Same.refl _) rfl walker_state
  refine ⟨T', h, c101_there_and_back_partial cascade (le_refl 3) [stretch 0 1, stretch 5 7] walker T' walker_prepared (fun h => absurd h (by simp [cascade]))
    walker_hermitian (fun l hl => ?_) (.inl ⟨rfl, fun _ _ h => absurd h.2.1 (by simp [cascade])⟩) h⟩
  simp only [List.mem_cons, List.not_mem_nil, or_false] at hl
  rcases hl with rfl | rfl
  · exact ⟨by unfold stretch; norm_num, cascade_bounded 0 1⟩
  · exact ⟨by unfold stretch; norm_num, cascade_bounded 5 7⟩

end Verif.Density
