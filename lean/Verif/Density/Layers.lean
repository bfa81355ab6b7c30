import Verif.Density.Exist
import Verif.Density.BackProps

/-!
Existence of an evolution through layers of matter.
-/

namespace Verif.Density

open Set Matrix
open Matter (NT)
open Update (Net Shape NonNeg)
open scoped ComplexOrder

variable {n : Nat}

/-! ## Spec -/

/-- Number density of nucleons as compared with `1e-10` (nuSQuIDS.cpp 456-464). -/
noncomputable def Setting.nucleons (s : Setting n) (t : ℝ) : ℝ :=
  s.tab.consts.gr * s.tab.consts.cm3 * s.dens t * 2 / (s.tab.consts.me + s.tab.consts.mp + s.tab.consts.mn)

/-- From time `a` to time `b` the path runs in one layer: density, electron fraction and emission are continuous, up to its boundaries, and
remain on one side of the values `1e-10` at which the code changes its formulas (337, 456). -/
structure Layer (s : Setting n) (a b : ℝ) : Prop where
  dens : Tame s.dens a b
  ye : Tame s.ye a b
  ext : ∀ e r f, Tame (fun t => s.ext t e r f) a b
  poor : (∀ t ∈ Ioo a b, s.ye t < 1 / 10 ^ 10) ∨ ∀ t ∈ Ioo a b, 1 / 10 ^ 10 ≤ s.ye t
  thin : (∀ t ∈ Ioo a b, s.nucleons t < 1 / 10 ^ 10) ∨ ∀ t ∈ Ioo a b, 1 / 10 ^ 10 ≤ s.nucleons t

/-- The path runs through finitely many layers. -/
inductive Layered (s : Setting n) : ℝ → ℝ → Prop where
  | one {a b : ℝ} (hab : a ≤ b) (h : Layer s a b) : Layered s a b
  | then {a b c : ℝ} (h : Layered s a b) (k : Layered s b c) : Layered s a c

/-! ## Lemmas -/

theorem Layered.le {s : Setting n} {a b : ℝ} (h : Layered s a b) : a ≤ b := by
  induction h with
  | one hab _ => exact hab
  | «then» _ _ h k => exact h.trans k

/-- Matrices with tame entries. -/
def TameM (A : ℝ → Mat n) (a b : ℝ) : Prop := ∀ i j, Tame (fun t => A t i j) a b

variable {a b : ℝ}

theorem TameM.add {A B : ℝ → Mat n} (hA : TameM A a b) (hB : TameM B a b) : TameM (fun t => A t + B t) a b := fun i j => (hA i j).add (hB i j)

theorem Tame.ofReal {f : ℝ → ℝ} (h : Tame f a b) : Tame (fun t => (f t : ℂ)) a b := h.comp Complex.continuous_ofReal

theorem TameM.smul {f : ℝ → ℝ} {A : ℝ → Mat n} (hf : Tame f a b) (hA : TameM A a b) : TameM (fun t => f t • A t) a b := fun i j =>
  (hf.ofReal.mul (hA i j)).congr fun t _ => by simp [Matrix.smul_apply]

theorem TameM.sum {I : Type} (S : Finset I) {A : I → ℝ → Mat n} (h : ∀ i ∈ S, TameM (A i) a b) : TameM (fun t => ∑ i ∈ S, A i t) a b := fun i j =>
  (Tame.sum S fun k hk => h k hk i j).congr fun t _ => by show (∑ k ∈ S, A k t) i j = _; rw [Matrix.sum_apply]

theorem TameM.const (A : Mat n) : TameM (fun _ => A) a b := fun _ _ => Tame.const _

theorem TameM.ite {p : Prop} [Decidable p] {A B : ℝ → Mat n} (hA : p → TameM A a b) (hB : ¬p → TameM B a b) :
    TameM (fun t => if p then A t else B t) a b := by
  by_cases hp : p
  · simpa [hp] using hA hp
  · simpa [hp] using hB hp

theorem TameM.congr {A B : ℝ → Mat n} (h : TameM A a b) (e : ∀ t ∈ Ioo a b, B t = A t) : TameM B a b := fun i j =>
  (h i j).congr fun t ht => by rw [e t ht]

theorem TameM.dot {A B : ℝ → Mat n} (hA : TameM A a b) (hB : TameM B a b) : Tame (fun t => dot (A t) (B t)) a b := by
  have h : Tame (fun t => ∑ i, ∑ l, A t i l * B t l i) a b := Tame.sum _ fun i _ => Tame.sum _ fun l _ => (hA i l).mul (hB l i)
  exact (h.comp Complex.continuous_re).congr fun t _ => by simp only [Density.dot, Matrix.trace, Matrix.diag, Matrix.mul_apply]

/-- The evolved projectors are continuous. -/
theorem projector_tame (o : Obj n) (r : Nat) (f : Fin n) (e : Nat) : TameM (fun t => (preDerive o t).evolB1 r f e) a b := by
  by_cases h : o.basis ≠ .mass ∧ o.ioscillations = true
  · have e1 : ∀ t, (preDerive o t).evolB1 r f e = if r < o.nrhos ∧ e < o.ne then evolve (o.h0s e) (t - o.tini) (o.b1 r f) else o.evolB1 r f e := fun t => by
      rw [show preDerive o t = evolveProjectors o id t from if_pos h]; rfl
    simp only [e1]
    refine TameM.ite (fun _ i j => ?_) fun _ => TameM.const _
    refine Tame.of_continuousOn (Continuous.continuousOn ?_)
    simp only [evolve, Matrix.mul_apply]
    refine continuous_finsetSum _ fun l _ => Continuous.mul (continuous_finsetSum _ fun m _ => Continuous.mul ?_ continuous_const) ?_
    · exact (phase_continuous (o.h0s e) i m).comp (by fun_prop)
    · exact (phase_continuous (o.h0s e) l j).comp (by fun_prop)
  · have e1 : ∀ t, preDerive o t = o := fun t => if_neg h
    simp only [e1]
    exact TameM.const _

theorem net_proj_tame (s : Setting n) (o : Obj n) (st : ℝ → Nat → Nat → Mat n) (r f e : Nat) : TameM (fun t => (s.net o t (st t)).proj r f e) a b := by
  by_cases h : f < n
  · refine (projector_tame o r ⟨f, h⟩ e).congr fun t _ => ?_
    exact dif_pos h
  · refine (TameM.const 0).congr fun t _ => ?_
    exact dif_neg h

theorem potentials_tame {s : Setting n} (h : Layer s a b) (c : ℝ) (anti : Bool) :
    Tame (fun t => (Matter.potentials c (s.dens t) (s.ye t) anti).1) a b ∧ Tame (fun t => (Matter.potentials c (s.dens t) (s.ye t) anti).2) a b := by
  have hcc : Tame (fun t => c * s.dens t * s.ye t) a b := ((Tame.const c).mul h.dens).mul h.ye
  have hnc : Tame (fun t => if s.ye t < 1 / 10 ^ 10 then c * s.dens t else c * s.dens t * s.ye t * (-(1 / 2) * (1 - s.ye t) / s.ye t)) a b := by
    rcases h.poor with hp | hp
    · exact ((Tame.const c).mul h.dens).congr fun t ht => if_pos (hp t ht)
    · refine (((Tame.const c).mul h.dens).mul ((Tame.const (-(1 / 2) : ℝ)).mul ((Tame.const 1).sub h.ye))).congr fun t ht => ?_
      have hy := hp t ht
      have hy0 : s.ye t ≠ 0 := by
        intro h0
        rw [h0] at hy
        norm_num at hy
      rw [if_neg (not_lt.2 hy)]
      field_simp
  unfold Matter.potentials
  cases anti
  · exact ⟨hcc, hnc⟩
  · exact ⟨hcc.mul (Tame.const (-1)), hnc.mul (Tame.const (-1))⟩

theorem motion_tame {s : Setting n} (h : Layer s a b) (hn : 3 ≤ n) (o : Obj n) (e r : Nat) :
    TameM (fun t => motion s.c s.dens s.ye (Fin.castLE hn) o e r t) a b := by
  have e1 : ∀ t, (preDerive o t).nt = o.nt ∧ (preDerive o t).basis = o.basis ∧ (preDerive o t).h0s = o.h0s := fun t => by
    rw [preDerive_fields o t]; exact ⟨rfl, rfl, rfl⟩
  obtain ⟨h1, h2⟩ := potentials_tame h s.c (Matter.anti o.nt r)
  have hp : ∀ f, TameM (fun t => if h : f < 3 then (preDerive o t).evolB1 r (Fin.castLE hn ⟨f, h⟩) e else 0) a b := by
    intro f
    by_cases hf : f < 3
    · simp only [dif_pos hf]; exact projector_tame o r _ e
    · simp only [dif_neg hf]; exact TameM.const 0
  unfold motion hamiltonian Matter.hi
  dsimp only
  simp only [(e1 _).1, (e1 _).2.1, (e1 _).2.2]
  have hpot := ((TameM.smul (h1.add h2) (hp 0)).add (TameM.smul h2 (hp 1))).add (TameM.smul h2 (hp 2))
  exact TameM.ite (fun _ => hpot.add (TameM.const _)) fun _ => hpot

/-- The list of number densities, entry by entry. -/
theorem densities_tame {s : Setting n} {o : Obj n} (h : Layer s a b) (hs : Sane s o a b) :
    (∃ d : ℝ → ℝ, Tame d a b ∧ ∀ t ∈ Ioo a b, ∀ st, (s.net o t st).densities = [d t]) ∨
    ∃ d d' : ℝ → ℝ, Tame d a b ∧ Tame d' a b ∧ ∀ t ∈ Ioo a b, ∀ st, (s.net o t st).densities = [d t, d' t] := by
  have hd : Tame (fun t => s.tab.consts.gr * s.tab.consts.cm3 * s.dens t) a b := (Tame.const _).mul h.dens
  cases htg : s.tab.targets with
  | isoscalar =>
    left
    have he : ∀ t st, (s.net o t st).densities =
        if s.nucleons t < 1 / 10 ^ 10 then [s.tab.consts.na * s.tab.consts.cm3 * (1 / 10 ^ 10)] else [s.nucleons t] := by
      intro t st
      show Matter.densities s.tab.consts s.tab.targets (s.dens t) (s.ye t) = _
      rw [htg]
      rfl
    rcases h.thin with ht | ht
    · exact ⟨_, Tame.const _, fun t htI st => by rw [he, if_pos (ht t htI)]⟩
    · exact ⟨s.nucleons, (hd.mul (Tame.const 2)).mul (Tame.const (s.tab.consts.me + s.tab.consts.mp + s.tab.consts.mn)⁻¹) |>.congr fun t _ => by
        unfold Setting.nucleons; rw [div_eq_mul_inv], fun t htI st => by rw [he, if_neg (not_lt.2 (ht t htI))]⟩
  | protonNeutron =>
    right
    by_cases hab : a < b
    swap
    · have he : Ioo a b = ∅ := Ioo_eq_empty hab
      refine ⟨fun _ => 0, fun _ => 0, Tame.const _, Tame.const _, fun t ht => ?_⟩
      rw [he] at ht
      exact absurd ht (notMem_empty t)
    have hN := hs.nonneg a ⟨le_refl _, hab⟩
    have hme : 0 ≤ s.tab.consts.me := hN.me
    have hmp : 0 < s.tab.consts.mp := hN.mp
    have hmn : 0 < s.tab.consts.mn := hN.mn
    obtain ⟨g, hg, eg⟩ := h.ye
    -- the fraction, also at the ends
    let y : ℝ → ℝ := fun t => max 0 (min 1 (g t))
    have hy : ContinuousOn y (Icc a b) := (continuous_const.max (continuous_const.min continuous_id)).comp_continuousOn hg
    have ey : ∀ t ∈ Ioo a b, s.ye t = y t := by
      intro t ht
      have hN := hs.nonneg t ⟨ht.1.le, ht.2⟩
      have h0 : 0 ≤ s.ye t := hN.ye0
      have h1 : s.ye t ≤ 1 := hN.ye1
      show s.ye t = max 0 (min 1 (g t))
      rw [← eg t ht, min_eq_right h1, max_eq_right h0]
    have y0 : ∀ t, 0 ≤ y t := fun t => le_max_left _ _
    have y1 : ∀ t, y t ≤ 1 := fun t => max_le zero_le_one (min_le_left _ _)
    let D : ℝ → ℝ := fun t => (s.tab.consts.me + s.tab.consts.mp) * y t + s.tab.consts.mn * (1 - y t)
    have hD : ContinuousOn D (Icc a b) := (continuousOn_const.mul hy).add (continuousOn_const.mul (continuousOn_const.sub hy))
    have hD0 : ∀ t, 0 < D t := by
      intro t
      have h0 := y0 t
      have h1 := y1 t
      rcases eq_or_lt_of_le h0 with h | h
      · show 0 < _ * y t + _ * (1 - y t)
        rw [← h]; linarith
      · have : 0 < (s.tab.consts.me + s.tab.consts.mp) * y t := mul_pos (by linarith) h
        have : 0 ≤ s.tab.consts.mn * (1 - y t) := mul_nonneg hmn.le (by linarith)
        show 0 < _ * y t + _ * (1 - y t)
        linarith
    have hdiv : ∃ g' : ℝ → ℝ, ContinuousOn g' (Icc a b) ∧ (∀ t ∈ Icc a b, g' t ≠ 0) ∧ ∀ t ∈ Ioo a b, D t = g' t := ⟨D, hD, fun t _ => (hD0 t).ne', fun _ _ => rfl⟩
    have hyt : Tame y a b := Tame.of_continuousOn hy
    refine ⟨fun t => s.tab.consts.gr * s.tab.consts.cm3 * s.dens t * y t / D t, fun t => s.tab.consts.gr * s.tab.consts.cm3 * s.dens t * (1 - y t) / D t,
      (hd.mul hyt).div hdiv, (hd.mul ((Tame.const 1).sub hyt)).div hdiv, fun t ht st => ?_⟩
    show Matter.densities s.tab.consts s.tab.targets (s.dens t) (s.ye t) = _
    rw [htg, ey t ht]
    unfold Matter.densities
    dsimp only
    have hDt := hD0 t
    have hDe : D t = (s.tab.consts.me + s.tab.consts.mp) * y t + s.tab.consts.mn * (1 - y t) := rfl
    by_cases hz : y t = 0
    · rw [if_pos hz, hDe, hz]
      congr 2
      · simp
      · simp
    · rw [if_neg hz]
      have hk : s.tab.consts.me + s.tab.consts.mp + s.tab.consts.mn * ((1 - y t) / y t) = D t / y t := by
        rw [hDe]
        field_simp
      rw [hk]
      have hDn := hDt.ne'
      congr 1
      · field_simp
      · congr 1
        field_simp

/-- Sums over the targets. -/
theorem linAcc_tame {s : Setting n} {o : Obj n} (h : Layer s a b) (hs : Sane s o a b) (old : ℝ → ℝ) (st : ℝ → Nat → Nat → Mat n) (σ : Nat → ℝ) :
    Tame (fun t => Update.linAcc (old t) (s.net o t (st t)).densities fun trg d => σ trg * d) a b := by
  rcases densities_tame h hs with ⟨d, hd, he⟩ | ⟨d, d', hd, hd', he⟩
  · exact ((Tame.const (σ 0)).mul hd).congr fun t ht => by rw [he t ht]; rfl
  · exact (((Tame.const (σ 0)).mul hd).add ((Tame.const (σ 1)).mul hd')).congr fun t ht => by rw [he t ht]; rfl

theorem numE_tame {s : Setting n} {o : Obj n} (h : Layer s a b) (hs : Sane s o a b) (st : ℝ → Nat → Nat → Mat n) :
    Tame (fun t => (s.net o t (st t)).numE) a b := by
  unfold Net.numE
  rcases densities_tame h hs with ⟨d, hd, he⟩ | ⟨d, d', hd, hd', he⟩
  · exact (hd.mul h.ye).congr fun t ht => by rw [he t ht]; rfl
  · exact hd.congr fun t ht => by rw [he t ht]

theorem invGR_tame {s : Setting n} {o : Obj n} (h : Layer s a b) (hs : Sane s o a b) (st : ℝ → Nat → Nat → Mat n) (e : Nat) :
    Tame (fun t => (s.net o t (st t)).invGR e) a b := (Tame.const (s.tab.sigmaGR e)).mul (numE_tame h hs st)

theorem invNC_tame {s : Setting n} {o : Obj n} (h : Layer s a b) (hs : Sane s o a b) (old : ℝ → ℝ) (st : ℝ → Nat → Nat → Mat n) (r f e : Nat) :
    Tame (fun t => (s.net o t (st t)).invNC (old t) r f e) a b := linAcc_tame h hs old st fun trg => s.tab.sigmaNC trg r f e

theorem invCC_tame {s : Setting n} {o : Obj n} (h : Layer s a b) (hs : Sane s o a b) (old : ℝ → ℝ) (st : ℝ → Nat → Nat → Mat n) (r f e : Nat) :
    Tame (fun t => (s.net o t (st t)).invCC (old t) r f e) a b := linAcc_tame h hs old st fun trg => s.tab.sigmaCC trg r f e

theorem invINT_tame {s : Setting n} {o : Obj n} (h : Layer s a b) (hs : Sane s o a b) (old : ℝ → ℝ) (st : ℝ → Nat → Nat → Mat n) (r f e : Nat) :
    Tame (fun t => (s.net o t (st t)).invINT (old t) (old t) r f e) a b := by
  unfold Net.invINT
  dsimp only
  have h1 := (invNC_tame h hs old st r f e).add (invCC_tame h hs old st r f e)
  have h2 := h1.add (invGR_tame h hs st e)
  exact Tame.ite (p := ((({ s.tab with ne := o.ne, nrhos := o.nrhos, numneu := n, nt := o.nt } : Net ℝ (Mat n)).gr &&
    decide (r = ({ s.tab with ne := o.ne, nrhos := o.nrhos, numneu := n, nt := o.nt } : Net ℝ (Mat n)).grRho) && decide (f = 0)) = true)) (fun _ => h2) fun _ => h1

theorem gamma_tame {s : Setting n} {o : Obj n} (h : Layer s a b) (hs : Sane s o a b) (st : ℝ → Nat → Nat → Mat n) (e r : Nat) :
    TameM (fun t => s.gamma o t (st t) e r) a b := by
  simp only [gamma_eq]
  exact TameM.ite (fun _ => TameM.sum _ fun f _ => TameM.smul ((Tame.const (1 / 2 : ℝ)).mul (invINT_tame h hs s.old st r f e)) (net_proj_tame s o st r f e))
    fun _ => TameM.const 0

/-- What of `UpdateInteractions` does not depend on the time. -/
noncomputable def Setting.fixed (s : Setting n) (o : Obj n) : Net ℝ (Mat n) := { s.tab with ne := o.ne, nrhos := o.nrhos, numneu := n, nt := o.nt }

/-- Sums over the target fractions. -/
theorem tsum_tame {s : Setting n} (o : Obj n) (h : Layer s a b) (st : ℝ → Nat → Nat → Mat n) {G : ℝ → Nat → ℝ → ℝ}
    (hG : ∀ trg (x : ℝ → ℝ), Tame x a b → Tame (fun t => G t trg (x t)) a b) : Tame (fun t => Update.tsum (s.net o t (st t)).fractions (G t)) a b := by
  cases htg : s.tab.targets with
  | isoscalar =>
    refine ((hG 0 _ (Tame.const 1)).add (Tame.const 0)).congr fun t _ => ?_
    show Update.tsum (Matter.fractions s.tab.targets (s.ye t)) (G t) = _
    rw [htg]
    rfl
  | protonNeutron =>
    refine ((hG 0 _ h.ye).add ((hG 1 _ ((Tame.const 1).sub h.ye)).add (Tame.const 0))).congr fun t _ => ?_
    show Update.tsum (Matter.fractions s.tab.targets (s.ye t)) (G t) = _
    rw [htg]
    rfl

/-- The re-injected fluxes; with tau regeneration the fluxes of tau neutrinos must not be negative, as these are dropped (711, 896). -/
theorem total_tame {s : Setting n} {o : Obj n} (h : Layer s a b) (hs : Sane s o a b) (st : ℝ → Nat → Nat → Mat n) {φ : ℝ → Nat → Nat → Nat → ℝ}
    (hφ : ∀ e r f, Tame (fun t => φ t e r f) a b) (hpos : s.tab.tau = true → ∀ t ∈ Ioo a b, ∀ e r, 0 ≤ φ t e r 2) (r f e : Nat) :
    Tame (fun t => (s.net o t (st t)).total (s.old t) (φ t) r f e) a b := by
  have hnc : Tame (fun t => (s.net o t (st t)).ncSum (s.old t) (φ t) r f e) a b := by
    refine Tame.sum (Finset.Ico 1 o.ne) (f := fun e2 t => if e < e2 then (s.net o t (st t)).ncPart (s.old t) (φ t e2 r f) r f e2 e else 0) fun e2 _ => ?_
    refine Tame.ite (fun _ => ?_) fun _ => Tame.const _
    exact tsum_tame o h st fun trg x hx =>
      (hx.mul ((hφ e2 r f).mul ((invNC_tame h hs s.old st r f e2).mul (Tame.const (s.tab.delE (e2 - 1)))))).mul (Tame.const (s.tab.dNdE_NC trg r f e2 e))
  have htau : s.tab.tau = true → ∀ r, r = 0 ∨ r = 1 → ∀ et, Tame (fun t => (s.net o t (st t)).tauSum (s.old t) (φ t) r et) a b := by
    intro ht r hr et
    refine Tame.sum (Finset.Ico 1 o.ne) (f := fun en t => (s.net o t (st t)).tauPart (s.old t) (φ t) r en et) fun en _ => ?_
    have hsum : Tame (fun t => Update.tsum (s.net o t (st t)).fractions fun trg tF => if 1 ≤ et ∧ et < en then
        φ t en r 2 * (s.net o t (st t)).invCC (s.old t) r 2 en * s.tab.delE (en - 1) * tF * s.tab.dNdE_CC trg r 2 en et * s.tab.delE (et - 1) else 0) a b := by
      refine tsum_tame o h st fun trg x hx => Tame.ite (fun _ => ?_) fun _ => Tame.const _
      exact ((((hφ en r 2).mul (invCC_tame h hs s.old st r 2 en)).mul (Tame.const _)).mul hx).mul (Tame.const _) |>.mul (Tame.const _)
    refine hsum.congr fun t htI => ?_
    show (if φ t en 0 2 ≤ 0 ∧ φ t en 1 2 ≤ 0 then (0 : ℝ) else _) = _
    split
    · rename_i hz
      have h0 : φ t en r 2 = 0 := by
        have h1 := hpos ht t htI en 0
        have h2 := hpos ht t htI en 1
        rcases hr with rfl | rfl
        · exact le_antisymm hz.1 h1
        · exact le_antisymm hz.2 h2
      rw [h0]
      simp only [zero_mul, ite_self]
      unfold Update.tsum
      simp
    · rfl
  have hgr : Tame (fun t => (s.net o t (st t)).grSum (φ t) e) a b := by
    refine Tame.sum (Finset.Ico 1 o.ne) (f := fun e2 t => if e < e2 then φ t e2 (s.fixed o).grRho 0 * (s.net o t (st t)).invGR e2 * s.tab.delE (e2 - 1) *
      s.tab.dNdE_GR e2 e else 0) fun e2 _ => ?_
    exact Tame.ite (fun _ => (((hφ e2 _ 0).mul (invGR_tame h hs st e2)).mul (Tame.const _)).mul (Tame.const _)) fun _ => Tame.const _
  have hsel : ∀ p : Prop, [Decidable p] → (if p then 0 else 1) = 0 ∨ (if p then 0 else 1) = 1 := fun p _ => by by_cases hp : p <;> simp [hp]
  have hsel' : ∀ p : Prop, [Decidable p] → (if p then 1 else 0) = 0 ∨ (if p then 1 else 0) = 1 := fun p _ => by by_cases hp : p <;> simp [hp]
  refine (hnc.add (Tame.ite (p := s.tab.tau = true) (fun ht => Tame.ite (p := f = 2) (fun _ => ?_) fun _ => ?_) fun _ => Tame.const 0)).add
    (Tame.ite (p := ((s.fixed o).gr && decide (r = (s.fixed o).grRho)) = true) (fun _ => hgr) fun _ => Tame.const 0)
  · exact Tame.sum (Finset.Ico 1 o.ne) (f := fun et t => if e < et then (s.net o t (st t)).tauSum (s.old t) (φ t) (if r = 0 then 0 else 1) et *
      s.tab.tauAll (if r = 0 then 0 else 1) et e else 0) fun et _ => Tame.ite (fun _ => (htau ht _ (hsel _) et).mul (Tame.const _)) fun _ => Tame.const _
  · exact Tame.sum (Finset.Ico 1 o.ne) (f := fun et t => if e < et then (s.net o t (st t)).tauSum (s.old t) (φ t) (if r = 0 then 1 else 0) et *
      s.tab.tauLep (if r = 0 then 1 else 0) et e else 0) fun et _ => Tame.ite (fun _ => (htau ht _ (hsel' _) et).mul (Tame.const _)) fun _ => Tame.const _

theorem gain_tame {s : Setting n} {o : Obj n} (hn : 3 ≤ n) (ho : AllPrepared o) (h : Layer s a b) (hs : Sane s o a b) {st : ℝ → Nat → Nat → Mat n}
    (hst : ∀ e r, e < o.ne → r < o.nrhos → TameM (fun t => st t e r) a b)
    (hpos : s.iint = true → s.tab.tau = true → ∀ t ∈ Ioo a b, ∀ e r, e < o.ne → r < o.nrhos → (st t e r).PosSemidef) {e r : Nat} (he : e < o.ne) (hr : r < o.nrhos) :
    TameM (fun t => s.gain o t (st t) e r) a b := by
  simp only [gain_exact hn ho hs.tau he hr]
  refine TameM.add (TameM.ite (fun hi => TameM.sum _ fun f _ => TameM.smul ?_ (net_proj_tame s o st r f e)) fun _ => TameM.const 0)
    (TameM.smul (Tame.const _) (TameM.sum _ fun f _ => TameM.smul (h.ext e r f) (net_proj_tame s o st r f e)))
  refine total_tame h hs st (φ := fun t => (s.net o t (st t)).flux) (fun e r f => ?_) (fun ht t htI e r => ?_) r f e
  · refine TameM.dot (net_proj_tame s o st r f e) (B := fun t => if e < o.ne ∧ r < o.nrhos then st t e r else 0) ?_
    exact TameM.ite (fun hin => hst e r hin.1 hin.2) fun _ => TameM.const 0
  · show 0 ≤ Density.dot ((s.net o t (st t)).proj r 2 e) (if e < o.ne ∧ r < o.nrhos then st t e r else 0)
    split
    · rename_i hin
      exact net_dot_nonneg (ho e r hin.1 hin.2) t _ 2 (hpos hi ht t htI e r hin.1 hin.2)
    · rw [dot_zero]

theorem gain_hermitian {s : Setting n} {o : Obj n} (hn : 3 ≤ n) (ho : AllPrepared o) (htau : s.tab.tau = true → o.nt = .both) {e r : Nat} (he : e < o.ne)
    (hr : r < o.nrhos) (t : ℝ) (st : Nat → Nat → Mat n) : (s.gain o t st e r).IsHermitian := by
  rw [gain_exact hn ho htau he hr]
  have hp : ∀ f, ((s.net o t st).proj r f e).IsHermitian := fun f => (net_proj_pos (ho e r he hr) t st f).1
  have hsm : ∀ (x : ℝ) {A : Mat n}, A.IsHermitian → (x • A).IsHermitian := fun x A hA => by
    unfold Matrix.IsHermitian
    rw [Matrix.conjTranspose_smul, hA.eq, star_trivial]
  have hsum : ∀ (S : Finset Nat) (A : Nat → Mat n), (∀ f, (A f).IsHermitian) → (∑ f ∈ S, A f).IsHermitian := fun S A hA => by
    unfold Matrix.IsHermitian
    rw [Matrix.conjTranspose_sum]
    exact Finset.sum_congr rfl fun f _ => (hA f).eq
  refine Matrix.IsHermitian.add ?_ (hsm _ (hsum _ _ fun f => hsm _ (hp f)))
  split
  · exact hsum _ _ fun f => hsm _ (hp f)
  · exact Matrix.isHermitian_zero

/-- Through one layer there is an evolution from any state at one of its ends. -/
theorem exists_layer {s : Setting n} (hn : 3 ≤ n) {o : Obj n} (ho : AllPrepared o) (hab : a ≤ b) (h : Layer s a b) (hs : Sane s o a b) {t₀ : ℝ}
    (ht₀ : t₀ = a ∨ t₀ = b) (st : Nat → Nat → Mat n) (hst : ∀ e r, e < o.ne → r < o.nrhos → (st e r).IsHermitian)
    (hpos : s.iint = true → s.tab.tau = true → t₀ = a ∧ ∀ e r, e < o.ne → r < o.nrhos → (st e r).PosSemidef) :
    ∃ ρ : ℝ → Nat → Nat → Mat n, (∀ e r, e < o.ne → r < o.nrhos → ρ t₀ e r = st e r) ∧ Evolves s hn o ρ a b := by
  have key : ∀ d, d ≤ o.ne → ∃ ρ : ℝ → Nat → Nat → Mat n,
      (∀ e r, o.ne - d ≤ e → e < o.ne → r < o.nrhos → ρ t₀ e r = st e r ∧ (∀ i j, ContinuousOn (fun t => ρ t e r i j) (Icc a b)) ∧
        (∀ t ∈ Ioo a b, Deriv (fun t => ρ t e r) (s.velocity hn o t (ρ t) e r) (Ici t) t) ∧ (∀ t, (ρ t e r).IsHermitian) ∧
        ((s.iint = true ∧ s.tab.tau = true) → ∀ t ∈ Icc a b, (ρ t e r).PosSemidef)) ∧
      ∀ t e r, e < o.ne - d → ρ t e r = 0 := by
    intro d
    induction d with
    | zero =>
      intro _
      exact ⟨fun _ _ _ => 0, fun e r h1 h2 _ => by omega, fun _ _ _ _ => rfl⟩
    | succ d ih =>
      intro hd
      obtain ⟨ρ, hρ, hz⟩ := ih (by omega)
      let e₀ := o.ne - (d + 1)
      have he₀ : e₀ < o.ne := by omega
      have htame : ∀ e r, e < o.ne → r < o.nrhos → TameM (fun t => ρ t e r) a b := by
        intro e r he hr
        by_cases hde : o.ne - d ≤ e
        · exact fun i j => Tame.of_continuousOn ((hρ e r hde he hr).2.1 i j)
        · exact (TameM.const 0).congr fun t _ => hz t e r (by omega)
      have hppos : s.iint = true → s.tab.tau = true → ∀ t ∈ Ioo a b, ∀ e r, e < o.ne → r < o.nrhos → (ρ t e r).PosSemidef := by
        intro hi ht t htI e r he hr
        by_cases hde : o.ne - d ≤ e
        · exact (hρ e r hde he hr).2.2.2.2 ⟨hi, ht⟩ t (Ioo_subset_Icc_self htI)
        · rw [hz t e r (by omega)]
          exact Matrix.PosSemidef.zero
      have hex : ∀ r, r < o.nrhos → ∃ X : ℝ → Mat n, X t₀ = st e₀ r ∧ (∀ i j, ContinuousOn (fun t => X t i j) (Icc a b)) ∧
          (∀ t ∈ Ioo a b, Deriv X (rhs (motion s.c s.dens s.ye (Fin.castLE hn) o e₀ r t) (s.gamma o t (ρ t) e₀ r) (s.gain o t (ρ t) e₀ r) (X t)) (Ici t) t) ∧
          ∀ t, (X t).IsHermitian := fun r hr =>
        exists_state hab (motion_tame h hn o e₀ r) (gamma_tame h hs ρ e₀ r) (gain_tame hn ho h hs htame hppos he₀ hr)
          (fun t _ => motion_hermitian s.c s.dens s.ye hn (ho e₀ r he₀ hr) t) (fun t ht => (gamma_pos hs (ho e₀ r he₀ hr) ⟨ht.1.le, ht.2⟩ (ρ t)).1)
          (fun t _ => gain_hermitian hn ho hs.tau he₀ hr t (ρ t)) ht₀ (hst e₀ r he₀ hr)
      choose! X hX using hex
      let σ : ℝ → Nat → Nat → Mat n := fun t e r => if e = e₀ then X r t else ρ t e r
      have hσ0 : ∀ t r, σ t e₀ r = X r t := fun t r => if_pos rfl
      have hσ : ∀ t e r, e ≠ e₀ → σ t e r = ρ t e r := fun t e r hne => if_neg hne
      have hgain : ∀ t e r, e₀ ≤ e → e < o.ne → r < o.nrhos → s.gain o t (σ t) e r = s.gain o t (ρ t) e r := fun t e r h0 he hr =>
        gain_above hn hs.tau ho he hr t _ _ fun e' r' h1 _ _ => hσ t e' r' (by omega)
      refine ⟨σ, fun e r h1 h2 h3 => ?_, fun t e r h1 => ?_⟩
      · by_cases hne : e = e₀
        · subst hne
          obtain ⟨x1, x2, x3, x4⟩ := hX r h3
          have hd : ∀ t ∈ Ioo a b, Deriv (fun t => σ t e₀ r) (s.velocity hn o t (σ t) e₀ r) (Ici t) t := by
            intro t ht
            have := x3 t ht
            simp only [hσ0]
            unfold Setting.velocity
            rw [hgain t e₀ r (le_refl _) h2 h3, gamma_state s o t (σ t) (ρ t), hσ0]
            exact this
          refine ⟨(hσ0 _ _).trans x1, fun i j => by simpa only [hσ0] using x2 i j, hd, fun t => by rw [hσ0]; exact x4 t, fun hit => ?_⟩
          obtain ⟨hta, hsp⟩ := hpos hit.1 hit.2
          have hab' := stays_positive_off {a} (ρ := fun t => σ t e₀ r) (ρ' := fun t => s.velocity hn o t (σ t) e₀ r) (a := a) (b := b)
            (fun i j => by simpa only [hσ0] using x2 i j) (fun t ht hne => hd t ⟨lt_of_le_of_ne ht.1 fun hh => hne (by simp [hh]), ht.2⟩)
            (fun t _ => by rw [hσ0]; exact x4 t) (by rw [hσ0, ← hta, x1]; exact hsp e₀ r h2 h3)
            (by
              intro t ht hne c v hc hv
              have htI : t ∈ Ioo a b := ⟨lt_of_le_of_ne ht.1 fun hh => hne (by simp [hh]), ht.2⟩
              have hG := gain_pos hn hs ho h2 h3 ht (σ t) fun e' r' k1 k2 k3 => by
                rw [hσ t e' r' (by omega)]
                exact hppos hit.1 hit.2 t htI e' r' k2 k3
              have hΓ := gamma_pos hs (ho e₀ r h2 h3) ht (σ t)
              unfold Setting.velocity
              exact quad_velocity hΓ hG (by rw [hσ0]; exact x4 t) hc hv)
          exact hab'
        · obtain ⟨y1, y2, y3, y4, y5⟩ := hρ e r (by omega) h2 h3
          refine ⟨(hσ _ _ _ hne).trans y1, fun i j => by simpa only [hσ _ _ _ hne] using y2 i j, fun t ht => ?_, fun t => by rw [hσ _ _ _ hne]; exact y4 t,
            fun hit t ht => by rw [hσ _ _ _ hne]; exact y5 hit t ht⟩
          have := y3 t ht
          simp only [hσ _ _ _ hne]
          unfold Setting.velocity at *
          rw [hgain t e r (by omega) h2 h3, gamma_state s o t (σ t) (ρ t), hσ _ _ _ hne]
          exact this
      · rw [hσ _ _ _ (by omega)]
        exact hz t e r (by omega)
  obtain ⟨ρ, hρ, _⟩ := key o.ne (le_refl _)
  refine ⟨ρ, fun e r he hr => (hρ e r (by omega) he hr).1, {a}, Set.finite_singleton a, fun e r he hr => (hρ e r (by omega) he hr).2.1,
    fun t ht hne e r he hr => (hρ e r (by omega) he hr).2.2.1 t ⟨lt_of_le_of_ne ht.1 fun hh => hne (by simp [hh]), ht.2⟩,
    fun t _ e r he hr => (hρ e r (by omega) he hr).2.2.2.1 t⟩

theorem Sane.sub {s : Setting n} {o : Obj n} {a b a' b' : ℝ} (h : Sane s o a b) (ha : a ≤ a') (hb : b' ≤ b) : Sane s o a' b' :=
  ⟨fun t ht => h.nonneg t ⟨ha.trans ht.1, ht.2.trans_le hb⟩, fun t ht => h.ext t ⟨ha.trans ht.1, ht.2.trans_le hb⟩, h.tau⟩

/-- Through several layers, from the start. -/
theorem Layered.forward {s : Setting n} (hn : 3 ≤ n) {o : Obj n} (ho : AllPrepared o) (h : Layered s a b) : Sane s o a b → ∀ st : Nat → Nat → Mat n,
    (∀ e r, e < o.ne → r < o.nrhos → (st e r).IsHermitian) →
    (s.iint = true → s.tab.tau = true → ∀ e r, e < o.ne → r < o.nrhos → (st e r).PosSemidef) →
    ∃ ρ : ℝ → Nat → Nat → Mat n, (∀ e r, e < o.ne → r < o.nrhos → ρ a e r = st e r) ∧ Evolves s hn o ρ a b := by
  induction h with
  | one hab h => exact fun hs st hst hpos => exists_layer hn ho hab h hs (.inl rfl) st hst fun hi ht => ⟨rfl, hpos hi ht⟩
  | @«then» a b c h k ih ik =>
    intro hs st hst hpos
    obtain ⟨ρ, h0, h1⟩ := ih (hs.sub (le_refl _) k.le) st hst hpos
    obtain ⟨σ, k0, k1⟩ := ik (hs.sub h.le (le_refl _)) (ρ b) (h1.hermitian b ⟨h.le, le_refl _⟩) (fun hi ht e r he hr =>
      (c98_positive s hn o ho ρ a b (hs.sub (le_refl _) k.le) h1 (fun e r he hr => by rw [h0 e r he hr]; exact hpos hi ht e r he hr) b
        ⟨h.le, le_refl _⟩ e r he hr).1)
    refine ⟨_, fun e r he hr => ?_, h1.glue h.le k.le k1 k0⟩
    rw [if_pos h.le]
    exact h0 e r he hr

/-- Through several layers, back from the end. -/
theorem Layered.backward {s : Setting n} (hn : 3 ≤ n) {o : Obj n} (ho : AllPrepared o) (h : Layered s a b) : Sane s o a b →
    ¬(s.iint = true ∧ s.tab.tau = true) → ∀ st : Nat → Nat → Mat n, (∀ e r, e < o.ne → r < o.nrhos → (st e r).IsHermitian) →
    ∃ ρ : ℝ → Nat → Nat → Mat n, (∀ e r, e < o.ne → r < o.nrhos → ρ b e r = st e r) ∧ Evolves s hn o ρ a b := by
  induction h with
  | one hab h => exact fun hs hno st hst => exists_layer hn ho hab h hs (.inr rfl) st hst fun hi ht => absurd ⟨hi, ht⟩ hno
  | @«then» a b c h k ih ik =>
    intro hs hno st hst
    obtain ⟨σ, k0, k1⟩ := ik (hs.sub h.le (le_refl _)) hno st hst
    obtain ⟨ρ, h0, h1⟩ := ih (hs.sub (le_refl _) k.le) hno (σ b) (k1.hermitian b ⟨le_refl _, k.le⟩)
    refine ⟨_, fun e r he hr => ?_, h1.glue h.le k.le k1 fun e r he hr => (h0 e r he hr).symm⟩
    split
    · rename_i hcb
      have : c = b := le_antisymm hcb k.le
      subst this
      rw [h0 e r he hr, k0 e r he hr]
    · exact k0 e r he hr

end Verif.Density
