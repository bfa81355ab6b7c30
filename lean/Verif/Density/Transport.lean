import Verif.Density.Positive
import Verif.Density.PictureProps
import Verif.Interact.UpdateProps

/-!
# Evolution with interactions

`SQuIDS::Derive` is not part of the repository. Assumed of it: with all terms enabled, as `nuSQUIDS` does (nuSQuIDS.cpp 96, 187, 247-248,
nuSQuIDS.h 1053), the derivative of each density matrix is `-i[HI,ρ] - {GammaRho,ρ} + InteractionsRho`, evaluated after `PreDerive` (278-297)
with the state of all nodes at that time in `estate`.
-/

namespace Verif.Density

open Matrix
open Matter (NT)
open Update (Net Shape NonNeg)
open scoped ComplexOrder

variable {n : Nat}

/-! ## Model -/

/-- Tables, options and medium along the time. -/
structure Setting (n : Nat) where
  /-- tables, `tau`, `glashow`, `sources` and constants; the other members are replaced by those of the object and the medium -/
  tab : Net ℝ (Mat n)
  /-- `iinteraction` -/
  iint : Bool
  /-- `HI_constants` -/
  c : ℝ
  /-- `body->density`, `body->ye` and `body->injected_neutrino_flux` at each time (280-285) -/
  dens : ℝ → ℝ
  ye : ℝ → ℝ
  ext : ℝ → Nat → Nat → Nat → ℝ
  /-- what the buffers of inverse lengths held before -/
  old : ℝ → ℝ

/-- What `UpdateInteractions` reads (292) when `PreDerive(t)` calls it with the state `st` in `estate`. -/
noncomputable def Setting.net (s : Setting n) (o : Obj n) (t : ℝ) (st : Nat → Nat → Mat n) : Net ℝ (Mat n) :=
  { s.tab with
    ne := o.ne
    nrhos := o.nrhos
    numneu := n
    nt := o.nt
    density := s.dens t
    ye := s.ye t
    proj := fun r a e => if h : a < n then (preDerive o t).evolB1 r ⟨a, h⟩ e else 0
    state := fun e r => if e < o.ne ∧ r < o.nrhos then st e r else 0
    dot := dot
    ext := s.ext t }

/-- `GammaRho` (363-372) and `InteractionsRho` (374-431) after `PreDerive(t)`. -/
noncomputable def Setting.gamma (s : Setting n) (o : Obj n) (t : ℝ) (st : Nat → Nat → Mat n) (e r : Nat) : Mat n :=
  (s.net o t st).gammaRho s.iint (s.old t) (s.old t) e r

noncomputable def Setting.gain (s : Setting n) (o : Obj n) (t : ℝ) (st : Nat → Nat → Mat n) (e r : Nat) : Mat n :=
  (s.net o t st).interactionsRho s.iint o.ioscillations (s.old t) e r

/-- The derivative of the state of type `r` at node `e` that the integrator is given. -/
noncomputable def Setting.velocity (s : Setting n) (hn : 3 ≤ n) (o : Obj n) (t : ℝ) (st : Nat → Nat → Mat n) (e r : Nat) : Mat n :=
  -Complex.I • (motion s.c s.dens s.ye (Fin.castLE hn) o e r t * st e r - st e r * motion s.c s.dens s.ye (Fin.castLE hn) o e r t) -
    (s.gamma o t st e r * st e r + st e r * s.gamma o t st e r) + s.gain o t st e r

/-- The states `ρ t e r` follow the equation given to the integrator from `a` to `b`: they are continuous and have that derivative from the
right, except at the times in `S`; they are Hermitian, as `SU_vector`s are. -/
structure EvolvesOff (S : Set ℝ) (s : Setting n) (hn : 3 ≤ n) (o : Obj n) (ρ : ℝ → Nat → Nat → Mat n) (a b : ℝ) : Prop where
  cont : ∀ e r, e < o.ne → r < o.nrhos → ∀ i j, ContinuousOn (fun t => ρ t e r i j) (Set.Icc a b)
  deriv : ∀ t ∈ Set.Ico a b, t ∉ S → ∀ e r, e < o.ne → r < o.nrhos → Deriv (fun t => ρ t e r) (s.velocity hn o t (ρ t) e r) (Set.Ici t) t
  hermitian : ∀ t ∈ Set.Icc a b, ∀ e r, e < o.ne → r < o.nrhos → (ρ t e r).IsHermitian

/-- The states follow the equation except at finitely many times: layers of matter make it jump. -/
def Evolves (s : Setting n) (hn : 3 ≤ n) (o : Obj n) (ρ : ℝ → Nat → Nat → Mat n) (a b : ℝ) : Prop :=
  ∃ S : Set ℝ, S.Finite ∧ EvolvesOff S s hn o ρ a b

/-! ## Lemmas -/

/-- All nodes are ready to evolve. -/
def AllPrepared (o : Obj n) : Prop := ∀ e r, e < o.ne → r < o.nrhos → Prepared o e r

/-- Tables, densities and sources are not negative, the electron fraction is a fraction, and tau regeneration is on only with both types
(as its setter requires). -/
structure Sane (s : Setting n) (o : Obj n) (a b : ℝ) : Prop where
  nonneg : ∀ t ∈ Set.Ico a b, NonNeg (s.net o t fun _ _ => 0)
  ext : ∀ t ∈ Set.Ico a b, ∀ e r f, 0 ≤ s.ext t e r f
  tau : s.tab.tau = true → o.nt = .both

theorem Setting.shape {s : Setting n} {o : Obj n} (hn : 3 ≤ n) (ho : Ready o) (ht : s.tab.tau = true → o.nt = .both) (t : ℝ)
    (st : Nat → Nat → Mat n) : Shape (s.net o t st) := ⟨ho.nrhos, ht, hn⟩

theorem Sane.at {s : Setting n} {o : Obj n} {a b : ℝ} (h : Sane s o a b) {t : ℝ} (ht : t ∈ Set.Ico a b) (st : Nat → Nat → Mat n) :
    NonNeg (s.net o t st) := by
  obtain ⟨h1, h2, h3, h4, h5, h6, h7, h8, h9, h10, h11, h12, h13, h14, h15, h16⟩ := h.nonneg t ht
  exact ⟨h1, h2, h3, h4, h5, h6, h7, h8, h9, h10, h11, h12, h13, h14, h15, h16⟩

/-- The projectors in use are those the contents are read with. -/
theorem projectors_op {o : Obj n} {ie rho : Nat} (ho : Prepared o ie rho) (t : ℝ) (A : Mat n) (f : Fin n) :
    (preDerive o t).evolB1 rho f ie = op (atTime o ie rho t A) rho f ie := by
  have hop : op (atTime o ie rho t A) rho f ie =
      if o.basis = .mass then o.b1 rho f else evolve (h0 o (o.energies ie)) (t - o.tini) (o.b1 rho f) := rfl
  rw [hop]
  by_cases hb : o.basis = .mass
  · rw [if_pos hb]
    unfold preDerive
    rw [if_neg (fun h => h.1 hb), ho.fresh (Or.inl hb)]
  · rw [if_neg hb, preDerive_projectors ho t hb]

theorem op_pos {o : Obj n} (ho : Good o) {rho : Nat} (hr : rho < o.nrhos) (ie : Nat) (f : Fin n) : (op o rho f ie).PosSemidef := by
  obtain ⟨W, _, h⟩ := op_rotated ho hr ie
  rw [h]
  unfold toB1
  refine Matrix.PosSemidef.mul_mul_conjTranspose_same ?_ W
  unfold projector
  rw [show Matrix.single f f (1 : ℂ) = Matrix.diagonal (Pi.single f 1) by ext i j; simp [Matrix.diagonal_apply, Matrix.single_apply, Pi.single_apply]; grind]
  refine Matrix.PosSemidef.diagonal fun i => ?_
  by_cases h : i = f
  · subst h; simp
  · simp [h]

theorem op_trace {o : Obj n} (ho : Good o) {rho : Nat} (hr : rho < o.nrhos) (ie : Nat) (f : Fin n) : (op o rho f ie).trace = 1 := by
  obtain ⟨W, hW, h⟩ := op_rotated ho hr ie
  rw [h]
  unfold toB1
  rw [Matrix.trace_mul_comm, ← Matrix.mul_assoc, hW.star_mul, Matrix.one_mul]
  unfold projector
  simp

theorem net_proj {s : Setting n} {o : Obj n} {e r : Nat} (ho : Prepared o e r) (t : ℝ) (st : Nat → Nat → Mat n) (f : Fin n) (A : Mat n) :
    (s.net o t st).proj r f e = op (atTime o e r t A) r f e := by
  show (if h : f.val < n then (preDerive o t).evolB1 r ⟨f, h⟩ e else 0) = _
  rw [dif_pos f.isLt]
  exact projectors_op ho t A f

theorem net_proj_pos {s : Setting n} {o : Obj n} {e r : Nat} (ho : Prepared o e r) (t : ℝ) (st : Nat → Nat → Mat n) (f : Nat) :
    ((s.net o t st).proj r f e).PosSemidef := by
  by_cases h : f < n
  · have := net_proj (s := s) ho t st ⟨f, h⟩ 0
    rw [show (s.net o t st).proj r f e = _ from this]
    exact op_pos (good_atTime ho.good e r t 0) ho.type e ⟨f, h⟩
  · have : (s.net o t st).proj r f e = 0 := dif_neg h
    rw [this]
    exact Matrix.PosSemidef.zero

theorem net_dot_nonneg {s : Setting n} {o : Obj n} {e r : Nat} (ho : Prepared o e r) (t : ℝ) (st : Nat → Nat → Mat n) (f : Nat) {A : Mat n}
    (hA : A.PosSemidef) : 0 ≤ dot ((s.net o t st).proj r f e) A := by
  by_cases h : f < n
  · rw [show (s.net o t st).proj r f e = _ from net_proj (s := s) ho t st ⟨f, h⟩ 0]
    exact (bounds (good_atTime ho.good e r t 0) ho.type e hA ⟨f, h⟩).1
  · rw [show (s.net o t st).proj r f e = 0 from dif_neg h]
    simp [dot]

theorem smul_pos' {A : Mat n} (hA : A.PosSemidef) {x : ℝ} (hx : 0 ≤ x) : (x • A).PosSemidef := hA.smul hx

/-- The loss term is the sum of half the rates on the projectors of the active flavours. -/
theorem gamma_eq (s : Setting n) (o : Obj n) (t : ℝ) (st : Nat → Nat → Mat n) (e r : Nat) :
    s.gamma o t st e r = if s.iint then ∑ f ∈ Finset.range 3, (1 / 2 * (s.net o t st).invINT (s.old t) (s.old t) r f e) • (s.net o t st).proj r f e else 0 := by
  unfold Setting.gamma Net.gammaRho
  split
  · unfold Net.gamma
    rw [Finset.sum_range_succ, Finset.sum_range_succ, Finset.sum_range_succ, Finset.sum_range_zero, zero_add]
  · rfl

theorem invINT_nonneg {m : Net ℝ (Mat n)} (h : NonNeg m) (old : ℝ) (r f e : Nat) : 0 ≤ m.invINT old old r f e := by
  have h1 := Update.invNC_nonneg h old r f e
  have h2 := Update.invCC_nonneg h old r f e
  have h3 := Update.invGR_nonneg h e
  unfold Net.invINT
  dsimp only
  split
  · exact add_nonneg (add_nonneg h1 h2) h3
  · exact add_nonneg h1 h2

theorem gamma_pos {s : Setting n} {o : Obj n} {a b : ℝ} (hs : Sane s o a b) {e r : Nat} (ho : Prepared o e r) {t : ℝ} (ht : t ∈ Set.Ico a b)
    (st : Nat → Nat → Mat n) : (s.gamma o t st e r).PosSemidef := by
  rw [gamma_eq]
  split
  · refine Matrix.posSemidef_sum _ fun f _ => smul_pos' (net_proj_pos ho t st f) ?_
    have := invINT_nonneg (hs.at ht st) (s.old t) r f e
    positivity
  · exact Matrix.PosSemidef.zero

/-- The loss term does not depend on the state. -/
theorem gamma_state (s : Setting n) (o : Obj n) (t : ℝ) (st st' : Nat → Nat → Mat n) (e r : Nat) : s.gamma o t st e r = s.gamma o t st' e r := rfl

/-- Without oscillations the projectors of all nodes are those of the first. -/
theorem net_proj_first {s : Setting n} {o : Obj n} (ho : AllPrepared o) (hosc : o.ioscillations = false) {e r : Nat} (he : e < o.ne)
    (hr : r < o.nrhos) (t : ℝ) (st : Nat → Nat → Mat n) (f : Nat) : (s.net o t st).proj r f e = (s.net o t st).proj r f 0 := by
  by_cases h : f < n
  · have hp : preDerive o t = o := by unfold preDerive; rw [if_neg (fun h => by rw [hosc] at h; exact absurd h.2 (by simp))]
    show (if h : f < n then (preDerive o t).evolB1 r ⟨f, h⟩ e else 0) = if h : f < n then (preDerive o t).evolB1 r ⟨f, h⟩ 0 else 0
    rw [dif_pos h, dif_pos h, hp, (ho e r he hr).fresh (Or.inr hosc), (ho 0 r (by omega) hr).fresh (Or.inr hosc)]
  · rw [show (s.net o t st).proj r f e = 0 from dif_neg h, show (s.net o t st).proj r f 0 = 0 from dif_neg h]

/-- How often the sources are added: once for each type by the loop 843-853, which stands inside the loop over types; once otherwise. -/
noncomputable def Setting.copies (s : Setting n) (o : Obj n) : ℝ :=
  if s.tab.sources then (if s.iint && !o.ioscillations then (o.nrhos : ℝ) else 1) else 0

theorem Setting.copies_nonneg (s : Setting n) (o : Obj n) : 0 ≤ s.copies o := by
  unfold Setting.copies
  split
  · split <;> positivity
  · exact le_refl _

/-- The gain term: the re-injected flux of each active flavour on its projector, and the sources. -/
theorem gain_exact {s : Setting n} {o : Obj n} (hn : 3 ≤ n) (ho : AllPrepared o) (htau : s.tab.tau = true → o.nt = .both) {e r : Nat} (he : e < o.ne)
    (hr : r < o.nrhos) (t : ℝ) (st : Nat → Nat → Mat n) : s.gain o t st e r =
      (if s.iint then ∑ f ∈ Finset.range 3, (s.net o t st).total (s.old t) (s.net o t st).flux r f e • (s.net o t st).proj r f e else 0) +
      s.copies o • ∑ f ∈ Finset.range n, s.ext t e r f • (s.net o t st).proj r f e := by
  have hp := ho e r he hr
  have hs : ∀ st, Shape (s.net o t st) := fun st => Setting.shape hn hp.good.ready htau t st
  have h3 : ∀ (m : Net ℝ (Mat n)) (x : Nat → ℝ), (∑ f ∈ Finset.range 3, x f • m.proj r f e) =
      x 0 • m.proj r 0 e + x 1 • m.proj r 1 e + x 2 • m.proj r 2 e := by
    intro m x
    rw [Finset.sum_range_succ, Finset.sum_range_succ, Finset.sum_range_succ, Finset.sum_range_zero, zero_add]
  have hsrc : ∀ st, (s.net o t st).sourceTerm e r = ∑ f ∈ Finset.range n, s.ext t e r f • (s.net o t st).proj r f e := fun _ => rfl
  have hso : ∀ st, (s.net o t st).sources = s.tab.sources := fun _ => rfl
  by_cases hi : s.iint = true
  · by_cases hosc : o.ioscillations = true
    · have hk : s.copies o = if s.tab.sources then 1 else 0 := by unfold Setting.copies; simp [hosc]
      rw [hk]
      unfold Setting.gain Net.interactionsRho
      rw [hi, hosc, if_pos rfl, h3]
      simp only [Bool.not_true, Bool.and_false, Bool.false_eq_true, if_false, Bool.false_and]
      rw [Update.termOsc_spec _ (hs st) _ e r hr he, hsrc, hso]
      congr 1
      split <;> simp
    · have hosc : o.ioscillations = false := by simpa using hosc
      have hk : s.copies o = if s.tab.sources then (o.nrhos : ℝ) else 0 := by unfold Setting.copies; simp [hi, hosc]
      rw [hk]
      unfold Setting.gain Net.interactionsRho
      rw [hi, hosc, if_pos rfl, h3]
      simp only [Bool.not_false, Bool.and_true, if_true]
      rw [Update.termNoOsc_spec _ (hs st) _ e r hr he, hsrc, hso]
      have hff : ∀ f, (s.net o t st).total (s.old t) (s.net o t st).flux0 r f e = (s.net o t st).total (s.old t) (s.net o t st).flux r f e := by
        intro f
        refine Update.total_congr _ _ _ _ _ _ _ fun e' r' f' _ => ?_
        show dot ((s.net o t st).proj r' f' 0) (if e' < o.ne ∧ r' < o.nrhos then st e' r' else 0) =
          dot ((s.net o t st).proj r' f' e') (if e' < o.ne ∧ r' < o.nrhos then st e' r' else 0)
        by_cases hin : e' < o.ne ∧ r' < o.nrhos
        · rw [net_proj_first ho hosc hin.1 hin.2]
        · rw [if_neg hin, dot_zero, dot_zero]
      simp only [hff, net_proj_first ho hosc he hr]
      congr 1
      split
      · show (o.nrhos) • _ = _
        rw [Nat.cast_smul_eq_nsmul]
      · simp
  · have hi : s.iint = false := by simpa using hi
    have hk : s.copies o = if s.tab.sources then 1 else 0 := by unfold Setting.copies; simp [hi]
    rw [hk]
    unfold Setting.gain Net.interactionsRho
    rw [hi, hso]
    simp only [Bool.false_and, Bool.false_eq_true, if_false, Bool.not_false, Bool.true_and, if_true, zero_add]
    cases hb : s.tab.sources
    · simp
    · simp only [Bool.not_true, Bool.false_eq_true, if_false, if_true, one_smul]
      show Update.loop 1 n _ _ = _
      rw [Update.loop_add (fun i v => v + (s.net o t st).ext e r i • (s.net o t st).proj r i e) (fun i => s.ext t e r i • (s.net o t st).proj r i e)
        (fun _ _ => rfl)]
      rw [Finset.range_eq_Ico, ← Finset.sum_Ico_consecutive _ (Nat.zero_le 1) (by omega : 1 ≤ n)]
      simp
      rfl

theorem gain_eq {s : Setting n} {o : Obj n} (hn : 3 ≤ n) (ho : AllPrepared o) (htau : s.tab.tau = true → o.nt = .both) {e r : Nat} (he : e < o.ne)
    (hr : r < o.nrhos) (t : ℝ) : ∃ k : ℝ, 0 ≤ k ∧ (s.tab.sources = false → k = 0) ∧ ∀ st : Nat → Nat → Mat n, s.gain o t st e r =
      (if s.iint then ∑ f ∈ Finset.range 3, (s.net o t st).total (s.old t) (s.net o t st).flux r f e • (s.net o t st).proj r f e else 0) +
      k • ∑ f ∈ Finset.range n, s.ext t e r f • (s.net o t st).proj r f e :=
  ⟨s.copies o, s.copies_nonneg o, fun h => by unfold Setting.copies; rw [h]; rfl, fun st => gain_exact hn ho htau he hr t st⟩

end Verif.Density
