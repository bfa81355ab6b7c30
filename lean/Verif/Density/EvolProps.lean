import Verif.Density.Props
import Verif.Density.Motion
import Verif.Interact.MatterProps

namespace Verif.Density

open Matrix
open Matter (NT)
open scoped ComplexOrder

variable {n : Nat}

/-! ## What the readers compute -/

/-- An object with energies set and projectors initialised, all of whose `SU_vector`s are Hermitian (as they are by construction). -/
structure Good (o : Obj n) : Prop where
  ready : Ready o
  ienergy : o.ienergy = true
  b1 : ∀ r f, r < o.nrhos → o.b1 r f = toB1 (o.mixing r) (projector f)
  dm2 : o.dm2.IsHermitian

/-- The operator `EvalFlavorAtNode` multiplies the state by. -/
noncomputable def op (o : Obj n) (rho : Nat) (f : Fin n) (ie : Nat) : Mat n :=
  if o.basis = .mass then o.b1 rho f else evolve (h0 o (o.energies ie)) (o.t - o.tini) (o.b1 rho f)

theorem eval_eq {o : Obj n} (ho : Good o) {rho : Nat} (hr : rho < o.nrhos) (f : Fin n) (ie : Nat) :
    evalFlavorAtNode o f ie rho = .ok (dot (op o rho f ie) (o.state ie rho)) := by
  have hg : ¬(rho ≠ 0 ∧ o.nt ≠ .both) := by
    rintro ⟨h1, h2⟩
    have := ho.ready.nrhos
    rw [if_neg h2] at this
    omega
  unfold evalFlavorAtNode op expectation
  rw [if_neg (by rw [ho.ienergy]; simp), if_neg hg]
  split
  · rfl
  · rw [dot_comm]

theorem h0_hermitian {o : Obj n} (ho : o.dm2.IsHermitian) (E : ℝ) : (h0 o E).IsHermitian := by
  unfold h0
  split
  · rw [Matrix.IsHermitian, Matrix.conjTranspose_smul, ho.eq]; simp
  · exact Matrix.isHermitian_zero

/-- The operators are the flavour projectors in a rotated basis. -/
theorem op_rotated {o : Obj n} (ho : Good o) {rho : Nat} (hr : rho < o.nrhos) (ie : Nat) :
    ∃ W : Mat n, Unitary W ∧ ∀ f, op o rho f ie = toB1 W (projector f) := by
  have hu := ho.ready.mixing rho
  by_cases hb : o.basis = .mass
  · exact ⟨o.mixing rho, hu, fun f => by unfold op; rw [if_pos hb, ho.b1 rho f hr]⟩
  · have hp := phase_star (h0_hermitian ho.dm2 (o.energies ie)) (o.t - o.tini)
    refine ⟨phase (h0 o (o.energies ie)) (o.t - o.tini) * o.mixing rho, ?_, fun f => ?_⟩
    · unfold Unitary
      rw [Matrix.conjTranspose_mul, hp]
      calc _ = phase (h0 o (o.energies ie)) (o.t - o.tini) * (o.mixing rho * (o.mixing rho)ᴴ) * phase (h0 o (o.energies ie)) (-(o.t - o.tini)) := by
            simp only [Matrix.mul_assoc]
        _ = 1 := by rw [hu, Matrix.mul_one, phase_neg]
    · unfold op
      rw [if_neg hb, ho.b1 rho f hr]
      unfold evolve toB1
      rw [Matrix.conjTranspose_mul, hp]
      simp only [Matrix.mul_assoc]

theorem total_eq {o : Obj n} (ho : Good o) {rho : Nat} (hr : rho < o.nrhos) (ie : Nat) (A : Mat n) :
    ∑ f, dot (op o rho f ie) A = A.trace.re := by
  obtain ⟨W, hW, h⟩ := op_rotated ho hr ie
  simp only [h, fun f => dot_comm (toB1 W (projector f)) A]
  rw [← dot_sum, sum_b1 hW]
  unfold dot
  rw [Matrix.mul_one]

theorem bounds {o : Obj n} (ho : Good o) {rho : Nat} (hr : rho < o.nrhos) (ie : Nat) {A : Mat n} (hA : A.PosSemidef) (f : Fin n) :
    0 ≤ dot (op o rho f ie) A ∧ dot (op o rho f ie) A ≤ A.trace.re := by
  obtain ⟨W, hW, h⟩ := op_rotated ho hr ie
  have hn : ∀ f, 0 ≤ dot (op o rho f ie) A := fun f => by rw [h]; exact dot_b1_nonneg W hA f
  refine ⟨hn f, ?_⟩
  rw [← total_eq ho hr ie A]
  exact Finset.single_le_sum (f := fun f => dot (op o rho f ie) A) (fun g _ => hn g) (Finset.mem_univ f)

/-! ## C55 -/

/-- The object at time `t` with the state of one node and type being `A`. -/
def atTime (o : Obj n) (ie rho : Nat) (t : ℝ) (A : Mat n) : Obj n :=
  { o with t := t, state := fun i r => if i = ie ∧ r = rho then A else o.state i r }

theorem good_atTime {o : Obj n} (ho : Good o) (ie rho : Nat) (t : ℝ) (A : Mat n) : Good (atTime o ie rho t A) :=
  ⟨⟨ho.ready.b0, ho.ready.mixing, ho.ready.nrhos⟩, ho.ienergy, ho.b1, ho.dm2⟩

/-- C55: while the state follows the equation of motion given to the integrator, with any Hamiltonian that may jump between layers, the
flavour contents read at any two times have the same sum; and if the state is positive at one of them, the contents at the other lie
between zero and that sum. -/
theorem c55_integrated (o : Obj n) (ho : Good o) (rho ie : Nat) (hr : rho < o.nrhos) (H ρ : ℝ → Mat n) (a b : ℝ) (hs : Solves H ρ a b)
    (hh : ∀ t ∈ Set.Icc a b, (ρ t).IsHermitian) (s t : ℝ) (hsI : s ∈ Set.Icc a b) (htI : t ∈ Set.Icc a b) :
    ∃ c₀ c : Fin n → ℝ, (∀ f, evalFlavorAtNode (atTime o ie rho s (ρ s)) f ie rho = .ok (c₀ f)) ∧
      (∀ f, evalFlavorAtNode (atTime o ie rho t (ρ t)) f ie rho = .ok (c f)) ∧ ∑ f, c f = ∑ f, c₀ f ∧
      ((ρ s).PosSemidef → ∀ f, 0 ≤ c f ∧ c f ≤ ∑ f, c₀ f) := by
  have hg : ∀ x, Good (atTime o ie rho x (ρ x)) := fun x => good_atTime ho ie rho x _
  have hst : ∀ x, (atTime o ie rho x (ρ x)).state ie rho = ρ x := fun x => if_pos ⟨rfl, rfl⟩
  have htr : (ρ t).trace = (ρ s).trace := by
    have h1 := hs.trace_pow 1 t htI
    have h2 := hs.trace_pow 1 s hsI
    simp only [pow_one] at h1 h2
    rw [h1, h2]
  refine ⟨fun f => dot (op (atTime o ie rho s (ρ s)) rho f ie) (ρ s), fun f => dot (op (atTime o ie rho t (ρ t)) rho f ie) (ρ t), ?_, ?_, ?_, ?_⟩
  · intro f; rw [eval_eq (hg s) hr, hst]
  · intro f; rw [eval_eq (hg t) hr, hst]
  · rw [total_eq (hg t) hr, total_eq (hg s) hr, htr]
  · intro hp f
    have hpt : (ρ t).PosSemidef := posSemidef_of_traces hp (hh t htI) fun k => by rw [hs.trace_pow k t htI, hs.trace_pow k s hsI]
    rw [total_eq (hg s) hr, ← htr]
    exact bounds (hg t) hr ie hpt f

theorem projector_hermitian (f : Fin n) : (projector f : Mat n).IsHermitian := by
  unfold projector; rw [Matrix.IsHermitian, Matrix.conjTranspose_single]; simp

theorem toB1_hermitian (U : Mat n) {A : Mat n} (h : A.IsHermitian) : (toB1 U A).IsHermitian := by
  unfold toB1; rw [Matrix.IsHermitian]; simp only [Matrix.conjTranspose_mul, Matrix.conjTranspose_conjTranspose, h.eq, Matrix.mul_assoc]

theorem real_smul_hermitian (x : ℝ) {A : Mat n} (h : A.IsHermitian) : (x • A).IsHermitian := by
  rw [Matrix.IsHermitian, Matrix.conjTranspose_smul, h.eq]; simp

/-- C55: the Hamiltonian the code passes on is Hermitian, whatever the medium, working basis and particle type. -/
theorem c55_hermitian (c rho ye : ℝ) (o : Obj n) (flavours : Fin 3 → Fin n) (evolved : Fin n → Mat n) (ie irho : Nat)
    (he : ∀ f, (evolved f).IsHermitian) (hh : (o.h0s ie).IsHermitian) : (hamiltonian c rho ye o flavours evolved ie irho).IsHermitian := by
  unfold hamiltonian Matter.hi
  dsimp only
  have hp : ∀ k, (if h : k < 3 then evolved (flavours ⟨k, h⟩) else 0).IsHermitian := by
    intro k; split
    · exact he _
    · exact Matrix.isHermitian_zero
  have := ((real_smul_hermitian ((Matter.potentials c rho ye (Matter.anti o.nt irho)).1 + (Matter.potentials c rho ye (Matter.anti o.nt irho)).2)
    (hp 0)).add (real_smul_hermitian (Matter.potentials c rho ye (Matter.anti o.nt irho)).2 (hp 1))).add
    (real_smul_hermitian (Matter.potentials c rho ye (Matter.anti o.nt irho)).2 (hp 2))
  split
  · exact this.add hh
  · exact this

theorem uTransform_pos {H A : Mat n} (hH : H.IsHermitian) (t : ℝ) (hA : A.PosSemidef) : (uTransform H t A).PosSemidef := by
  unfold uTransform
  rw [← phase_star hH]
  exact hA.conjTranspose_mul_mul_same _

theorem uTransform_trace (H A : Mat n) (t : ℝ) : (uTransform H t A).trace = A.trace := by
  unfold uTransform
  rw [Matrix.trace_mul_comm, ← Matrix.mul_assoc, phase_neg, Matrix.one_mul]

/-- C55: the constant-density shortcut conserves the total and keeps contents between zero and the total. -/
theorem c55_shortcut (c dens ye length : ℝ) (flavours : Fin 3 → Fin n) (o : Obj n) (ho : Good o) (rho ie : Nat) (hr : rho < o.nrhos) (hi : ie < o.ne)
    (he : ∀ f, (o.evolB1 rho f ie).IsHermitian) (hh : (o.h0s ie).IsHermitian) :
    ∃ c₀ c' : Fin n → ℝ, (∀ f, evalFlavorAtNode o f ie rho = .ok (c₀ f)) ∧
      (∀ f, evalFlavorAtNode (shortcut c dens ye length flavours o) f ie rho = .ok (c' f)) ∧ ∑ f, c' f = ∑ f, c₀ f ∧
      ((o.state ie rho).PosSemidef → ∀ f, 0 ≤ c' f ∧ c' f ≤ ∑ f, c₀ f) := by
  have hg : Good (shortcut c dens ye length flavours o) :=
    ⟨⟨ho.ready.b0, ho.ready.mixing, ho.ready.nrhos⟩, ho.ienergy, ho.b1, ho.dm2⟩
  have hst : (shortcut c dens ye length flavours o).state ie rho =
      uTransform (hamiltonian c dens ye { o with full := true, basis := .mass, t := o.t + length } flavours (fun f => o.evolB1 rho f ie) ie rho)
        length (o.state ie rho) := if_pos ⟨hi, hr⟩
  have hH := c55_hermitian c dens ye { o with full := true, basis := .mass, t := o.t + length } flavours (fun f => o.evolB1 rho f ie) ie rho he hh
  refine ⟨fun f => dot (op o rho f ie) (o.state ie rho),
    fun f => dot (op (shortcut c dens ye length flavours o) rho f ie) ((shortcut c dens ye length flavours o).state ie rho), ?_, ?_, ?_, ?_⟩
  · intro f; exact eval_eq ho hr f ie
  · intro f; exact eval_eq hg hr f ie
  · rw [total_eq hg hr, total_eq ho hr, hst, uTransform_trace]
  · intro hp f
    rw [total_eq ho hr, ← uTransform_trace (hamiltonian c dens ye { o with full := true, basis := .mass, t := o.t + length } flavours
      (fun f => o.evolB1 rho f ie) ie rho) _ length, ← hst]
    exact bounds hg hr ie (by rw [hst]; exact uTransform_pos hH length hp) f

/-! ## C56 -/

/-- The projectors `PositivizeFlavors` subtracts are those the contents are read with. -/
def Matched (o : Obj n) : Prop := ∀ rho f ie, rho < o.nrhos → ie < o.ne → o.evolB1 rho f ie = op o rho f ie

/-- One pass as a function of the states. -/
noncomputable def pass (o : Obj n) (rho ie : Nat) (st : Nat → Nat → Mat n) (f : Fin n) : Nat → Nat → Mat n := fun i r =>
  if i = ie ∧ r = rho then st i r - (if dot (op o rho f ie) (st ie rho) < 0 then dot (op o rho f ie) (st ie rho) else 0) • o.evolB1 rho f ie
  else st i r

theorem pass_self (o : Obj n) (rho ie : Nat) (st : Nat → Nat → Mat n) (f : Fin n) : pass o rho ie st f ie rho =
    st ie rho - (if dot (op o rho f ie) (st ie rho) < 0 then dot (op o rho f ie) (st ie rho) else 0) • o.evolB1 rho f ie := if_pos ⟨rfl, rfl⟩

theorem good_state {o : Obj n} (ho : Good o) (st : Nat → Nat → Mat n) : Good ({ o with state := st } : Obj n) :=
  ⟨⟨ho.ready.b0, ho.ready.mixing, ho.ready.nrhos⟩, ho.ienergy, ho.b1, ho.dm2⟩

theorem positivize1_eq {o : Obj n} (ho : Good o) {rho : Nat} (hr : rho < o.nrhos) (ie : Nat) (st : Nat → Nat → Mat n) (f : Fin n) :
    positivize1 rho ie ({ o with state := st } : Obj n) f = .ok { o with state := pass o rho ie st f } := by
  unfold positivize1
  rw [eval_eq (good_state ho st) hr]
  have e : op ({ o with state := st } : Obj n) rho f ie = op o rho f ie := rfl
  rw [e]
  simp only [Outcome.bind]
  unfold pass
  split
  · rfl
  · simp only [zero_smul, sub_zero, ite_self]

theorem forAll_ok {α β : Type} (l : List α) (f : β → α → Outcome β) (g : β → α → β) (P : α → Prop) (h : ∀ b a, P a → f b a = .ok (g b a))
    (hl : ∀ a ∈ l, P a) (b : β) : forAll l f b = .ok (l.foldl g b) := by
  unfold forAll
  induction l generalizing b with
  | nil => rfl
  | cons a l ih =>
    simp only [List.foldl_cons, Outcome.bind]
    rw [h b a (hl a (by simp))]
    exact ih (fun x hx => hl x (by simp [hx])) (g b a)

theorem forAll_state {α : Type} {o : Obj n} (l : List α) (f : Obj n → α → Outcome (Obj n)) (g : (Nat → Nat → Mat n) → α → Nat → Nat → Mat n)
    (h : ∀ st a, a ∈ l → f { o with state := st } a = .ok { o with state := g st a }) (st : Nat → Nat → Mat n) :
    forAll l f { o with state := st } = .ok { o with state := l.foldl g st } := by
  unfold forAll
  induction l generalizing st with
  | nil => rfl
  | cons a l ih =>
    simp only [List.foldl_cons, Outcome.bind]
    rw [h st a (by simp)]
    exact ih (fun st x hx => h st x (by simp [hx])) (g st a)

/-- The states after `PositivizeFlavors`. -/
noncomputable def passes (o : Obj n) : Nat → Nat → Mat n :=
  (List.range o.nrhos).foldl (fun st rho => (List.range o.ne).foldl (fun st ie => (List.finRange n).foldl (pass o rho ie) st) st) o.state

theorem positivize_eq {o : Obj n} (ho : Good o) : positivize o = .ok { o with state := passes o } := by
  unfold positivize passes
  refine forAll_state (o := o) (List.range o.nrhos) _ _ (fun st rho hrho => ?_) o.state
  rw [List.mem_range] at hrho
  refine forAll_state (o := o) (List.range o.ne) _ _ (fun st ie hie => ?_) st
  exact forAll_state (o := o) (List.finRange n) _ _ (fun st f _ => positivize1_eq ho hrho ie st f) st

/-- A step that replaces the contents in `S` by zero where negative and keeps the others. -/
def Acts (o : Obj n) (S : Nat → Nat → Fin n → Prop) (g : (Nat → Nat → Mat n) → Nat → Nat → Mat n) : Prop :=
  ∀ st ie rho f, ie < o.ne → rho < o.nrhos →
    (S ie rho f → dot (op o rho f ie) (g st ie rho) = max 0 (dot (op o rho f ie) (st ie rho))) ∧
    (¬S ie rho f → dot (op o rho f ie) (g st ie rho) = dot (op o rho f ie) (st ie rho))

theorem acts_foldl {α : Type} {o : Obj n} (l : List α) (S : α → Nat → Nat → Fin n → Prop) (g : (Nat → Nat → Mat n) → α → Nat → Nat → Mat n)
    (h : ∀ a ∈ l, Acts o (S a) (fun st => g st a)) : Acts o (fun ie rho f => ∃ a ∈ l, S a ie rho f) (fun st => l.foldl g st) := by
  induction l with
  | nil =>
    intro st ie rho f _ _
    exact ⟨fun h => by simp at h, fun _ => rfl⟩
  | cons a l ih =>
    intro st ie rho f hi hr
    have h1 := h a (by simp) st ie rho f hi hr
    have h2 := ih (fun x hx => h x (by simp [hx])) (g st a) ie rho f hi hr
    simp only [List.foldl_cons]
    by_cases hS : S a ie rho f
    · refine ⟨fun _ => ?_, fun hn => absurd ⟨a, by simp, hS⟩ hn⟩
      by_cases hl : ∃ b ∈ l, S b ie rho f
      · rw [h2.1 hl, h1.1 hS, max_eq_right (le_max_left _ _)]
      · rw [h2.2 hl, h1.1 hS]
    · by_cases hl : ∃ b ∈ l, S b ie rho f
      · refine ⟨fun _ => by rw [h2.1 hl, h1.2 hS], fun hn => ?_⟩
        obtain ⟨b, hb, hb'⟩ := hl
        exact absurd ⟨b, by simp [hb], hb'⟩ hn
      · refine ⟨fun hn => ?_, fun _ => by rw [h2.2 hl, h1.2 hS]⟩
        obtain ⟨b, hb, hb'⟩ := hn
        rcases List.mem_cons.1 hb with rfl | hb
        · exact absurd hb' hS
        · exact absurd ⟨b, hb, hb'⟩ hl

theorem dot_op {o : Obj n} (ho : Good o) {rho : Nat} (hr : rho < o.nrhos) (ie : Nat) (f g : Fin n) :
    dot (op o rho f ie) (op o rho g ie) = if f = g then 1 else 0 := by
  obtain ⟨W, hW, h⟩ := op_rotated ho hr ie
  rw [h, h, dot_b1 hW]

theorem acts_pass {o : Obj n} (ho : Good o) (hm : Matched o) {rho ie : Nat} (hr : rho < o.nrhos) (hi : ie < o.ne) (f : Fin n) :
    Acts o (fun i r g => i = ie ∧ r = rho ∧ g = f) (fun st => pass o rho ie st f) := by
  intro st i r g _ _
  constructor
  · rintro ⟨rfl, rfl, rfl⟩
    unfold pass
    dsimp only
    rw [if_pos ⟨rfl, rfl⟩, dot_sub, dot_smul, hm r g i hr hi, dot_op ho hr, if_pos rfl, mul_one]
    split
    · rename_i h; rw [sub_self, max_eq_left (le_of_lt h)]
    · rename_i h; rw [sub_zero, max_eq_right (not_lt.1 h)]
  · intro hn
    unfold pass
    dsimp only
    split
    · rename_i h
      obtain ⟨rfl, rfl⟩ := h
      have hg : g ≠ f := fun h => hn ⟨rfl, rfl, h⟩
      rw [dot_sub, dot_smul, hm r f i hr hi, dot_op ho hr, if_neg hg, mul_zero, sub_zero]
    · rfl

/-- C56: when the stored projectors are those the contents are read with, `PositivizeFlavors` succeeds, sets every negative content to zero
and keeps every other, for each node, particle type and flavour; a state without negative contents is not changed at all. Missing: stored
projectors that are not those of the readers, see `c56_filtered_violated` and `c56_switched_off_violated`. -/
theorem c56_positivize_partial (o : Obj n) (ho : Good o) (hm : Matched o) :
    ∃ o', positivize o = .ok o' ∧
      (∀ ie rho f, ie < o.ne → rho < o.nrhos → ∃ x, evalFlavorAtNode o f ie rho = .ok x ∧
        evalFlavorAtNode o' f ie rho = .ok (if x < 0 then 0 else x)) ∧
      ((∀ ie rho f x, ie < o.ne → rho < o.nrhos → evalFlavorAtNode o f ie rho = .ok x → 0 ≤ x) →
        ∀ ie rho, o'.state ie rho = o.state ie rho) := by
  refine ⟨_, positivize_eq ho, ?_, ?_⟩
  · intro ie rho f hi hr
    refine ⟨_, eval_eq ho hr f ie, ?_⟩
    rw [eval_eq (good_state ho (passes o)) hr]
    have hact : Acts o (fun i r g => ∃ r' ∈ List.range o.nrhos, ∃ i' ∈ List.range o.ne, ∃ g' ∈ List.finRange n, i = i' ∧ r = r' ∧ g = g')
        (fun st => (List.range o.nrhos).foldl (fun st rho => (List.range o.ne).foldl (fun st ie => (List.finRange n).foldl (pass o rho ie) st) st) st) := by
      refine acts_foldl _ (fun r' i r g => ∃ i' ∈ List.range o.ne, ∃ g' ∈ List.finRange n, i = i' ∧ r = r' ∧ g = g') _ fun r' hr' => ?_
      refine acts_foldl _ (fun i' i r g => ∃ g' ∈ List.finRange n, i = i' ∧ r = r' ∧ g = g') _ fun i' hi' => ?_
      refine acts_foldl _ (fun g' i r g => i = i' ∧ r = r' ∧ g = g') _ fun g' _ => ?_
      exact acts_pass ho hm (List.mem_range.1 hr') (List.mem_range.1 hi') g'
    have h := (hact o.state ie rho f hi hr).1 ⟨rho, List.mem_range.2 hr, ie, List.mem_range.2 hi, f, List.mem_finRange f, rfl, rfl, rfl⟩
    have e : op ({ o with state := passes o } : Obj n) rho f ie = op o rho f ie := rfl
    rw [e]
    have h' : dot (op o rho f ie) (passes o ie rho) = max 0 (dot (op o rho f ie) (o.state ie rho)) := h
    show Outcome.ok (dot (op o rho f ie) (passes o ie rho)) = _
    rw [h']
    split
    · rename_i hx; rw [max_eq_left (le_of_lt hx)]
    · rename_i hx; rw [max_eq_right (not_lt.1 hx)]
  · intro hnn ie rho
    have hsame : passes o = o.state := by
      have hp : ∀ r, r < o.nrhos → ∀ i, i < o.ne → ∀ f, pass o r i o.state f = o.state := by
        intro r hr i hi f
        funext a b
        unfold pass
        have := hnn i r f _ hi hr (eval_eq ho hr f i)
        rw [if_neg (not_lt.2 this), zero_smul, sub_zero, ite_self]
      have fix : ∀ {α : Type} (l : List α) (g : (Nat → Nat → Mat n) → α → Nat → Nat → Mat n), (∀ a ∈ l, g o.state a = o.state) →
          l.foldl g o.state = o.state := by
        intro α l g hl
        induction l with
        | nil => rfl
        | cons a l ih => rw [List.foldl_cons, hl a (by simp)]; exact ih fun x hx => hl x (by simp [hx])
      unfold passes
      refine fix _ _ fun r hr => fix _ _ fun i hi => fix _ _ fun f _ => hp r (List.mem_range.1 hr) i (List.mem_range.1 hi) f
    show passes o ie rho = _
    rw [hsame]

/-- C56: the projectors are matched after the last derivative of an evolution in the interaction basis without low-pass filter, and in the
mass basis after setting the initial state. -/
theorem c56_matched (o : Obj n) :
    (o.basis ≠ .mass → (∀ e, e < o.ne → o.h0s e = h0 o (o.energies e)) → Matched (evolveProjectors o id o.t)) ∧
    (∀ v b, o.basis = .mass → Matched (fill o v b)) := by
  constructor
  · intro hb hh rho f ie hr hi
    unfold op evolveProjectors
    dsimp only
    rw [if_pos ⟨hr, hi⟩, if_neg hb, hh ie hi]
    rfl
  · intro v b hb rho f ie hr hi
    unfold fill iniH0 setIniFlavorProjectors at hr hi
    unfold fill iniH0 setIniFlavorProjectors op
    dsimp only at hr hi ⊢
    cases he : o.ienergy
    · simp only [he, Bool.false_eq_true, if_false] at hr hi ⊢
      have hr' : rho < o.nrhos := hr
      have hi' : ie < o.ne := hi
      simp only [hr', hi', hb, and_self, if_true]
    · simp only [he, if_true] at hr hi ⊢
      have hr' : rho < o.nrhos := hr
      have hi' : ie < o.ne := hi
      simp only [hr', hi', hb, and_self, if_true]

/-! ## Examples -/

theorem good_fill (o : Obj n) (ho : Ready o) (he : o.ienergy = true) (v : Nat → Nat → Fin n → ℝ) (b : Basis) : Good (fill o v b) := by
  unfold fill iniH0 setIniFlavorProjectors
  simp only [he, if_true]
  refine ⟨⟨ho.b0, ho.mixing, ho.nrhos⟩, rfl, ?_, ?_⟩
  · intro r f hr
    have hr' : r < o.nrhos := hr
    simp only [hr', if_true, ho.b0]
  · show ((List.finRange n).foldl (fun s i => if 1 ≤ i.val then s + o.differences i • o.b0 i else s) (0 : Mat n)).IsHermitian
    have : ∀ (l : List (Fin n)) (z : Mat n), z.IsHermitian →
        (l.foldl (fun s i => if 1 ≤ i.val then s + o.differences i • o.b0 i else s) z).IsHermitian := by
      intro l
      induction l with
      | nil => intro z hz; exact hz
      | cons i l ih =>
        intro z hz
        rw [List.foldl_cons]
        apply ih
        split
        · rw [ho.b0]; exact hz.add (real_smul_hermitian _ (projector_hermitian i))
        · exact hz
    exact this _ _ Matrix.isHermitian_zero

theorem uTransform_hermitian {H A : Mat n} (hH : H.IsHermitian) (t : ℝ) (hA : A.IsHermitian) : (uTransform H t A).IsHermitian := by
  unfold uTransform
  rw [Matrix.IsHermitian]
  simp only [Matrix.conjTranspose_mul, phase_star hH, neg_neg, hA.eq, Matrix.mul_assoc]

/-- A state and a Hamiltonian that do not commute, and the solution from 0 to 1. -/
example : ∃ c₀ c : Fin 3 → ℝ, ∑ f, c f = ∑ f, c₀ f ∧ (∀ f, 0 ≤ c f ∧ c f ≤ ∑ f, c₀ f) ∧
    ∀ f, evalFlavorAtNode (atTime (fill (demo .interaction) (fun _ _ _ => 1) .flavor) 0 0 1
      (uTransform (toB1 mix45 (projector 0)) (1 - 0) (projector 0))) f 0 0 = .ok (c f) := by
  have hH : (toB1 mix45 (projector 0)).IsHermitian := toB1_hermitian _ (projector_hermitian 0)
  obtain ⟨c₀, c, _, h2, h3, h4⟩ := c55_integrated (fill (demo .interaction) (fun _ _ _ => 1) .flavor)
    (good_fill (demo .interaction) (demo_ready _) rfl _ _) 0 0 (by simp [fill, iniH0, setIniFlavorProjectors, demo])
    (fun _ => toB1 mix45 (projector 0)) (fun t => uTransform (toB1 mix45 (projector 0)) (t - 0) (projector 0)) 0 1
    (solves_constant _ _ 0 1) (fun t _ => uTransform_hermitian hH _ (projector_hermitian 0)) 0 1 (by simp) (by simp)
  refine ⟨c₀, c, h3, h4 (uTransform_pos hH _ ?_), h2⟩
  have : (projector 0 : Mat 3) = (projector 0)ᴴ * projector 0 := by
    rw [(projector_hermitian (n := 3) 0).eq, projector, Matrix.single_mul_single_same, one_mul]
  rw [this]
  exact Matrix.posSemidef_conjTranspose_mul_self _

/-- One type and one node. -/
noncomputable def demo1 (basis : Basis) : Obj 3 := { demo basis with nt := .neutrino, nrhos := 1, ne := 1 }

theorem demo1_ready (b : Basis) : Ready (demo1 b) := ⟨fun _ => rfl, fun _ => mix45_unitary, rfl⟩

/-- A negative content is cleared, the others stay. -/
example : ∃ o', positivize (fill (demo1 .mass) (fun _ _ f => if f = 0 then -1 else 2) .flavor) = .ok o' ∧
    evalFlavorAtNode o' 0 0 0 = .ok 0 ∧ evalFlavorAtNode o' 1 0 0 = .ok 2 ∧ evalFlavorAtNode o' 2 0 0 = .ok 2 := by
  have hm : Matched (fill (demo1 .mass) (fun _ _ f => if f = 0 then -1 else 2) .flavor) :=
    (c56_matched (demo1 .mass)).2 _ _ rfl
  obtain ⟨o', h1, h2, _⟩ := c56_positivize_partial _ (good_fill (demo1 .mass) (demo1_ready .mass) rfl
    (fun _ _ f => if f = 0 then -1 else 2) .flavor) hm
  have hk : ∀ f : Fin 3, evalFlavorAtNode (fill (demo1 .mass) (fun _ _ f => if f = 0 then -1 else 2) .flavor) f 0 0 =
      .ok (if f = 0 then -1 else 2) := fun f =>
    fill_flavour (demo1 .mass) (demo1_ready .mass) (fun _ _ f => if f = 0 then -1 else 2) rfl 0 0 (by simp [demo1]) (by simp [demo1]) f
  have hx : ∀ f : Fin 3, evalFlavorAtNode o' f 0 0 = .ok (if (if f = 0 then (-1 : ℝ) else 2) < 0 then 0 else (if f = 0 then -1 else 2)) := by
    intro f
    obtain ⟨x, hx1, hx2⟩ := h2 0 0 f (by simp [fill, iniH0, setIniFlavorProjectors, demo1, demo]) (by simp [fill, iniH0, setIniFlavorProjectors, demo1, demo])
    rw [hk f] at hx1
    cases hx1
    exact hx2
  refine ⟨o', h1, ?_, ?_, ?_⟩
  · rw [hx, if_pos rfl]; norm_num
  · rw [hx 1, if_neg (by decide : ¬(1 : Fin 3) = 0)]; norm_num
  · rw [hx 2, if_neg (by decide : ¬(2 : Fin 3) = 0)]; norm_num

/-! ## Where C56 fails -/

/-- The content of flavour `f` after `PositivizeFlavors` on one node and type, the state being minus the first flavour projector. -/
theorem positivize_demo (o : Obj 3) (ho : Good o) (hr : o.nrhos = 1) (he : o.ne = 1) (D : Mat 3) (hD : o.evolB1 0 0 0 = D)
    (hst : o.state 0 0 = (-1 : ℝ) • op o 0 0 0) (h1 : 0 ≤ dot (op o 0 1 0) D) (h2 : 0 ≤ dot (op o 0 2 0) D) :
    ∃ o', positivize o = .ok o' ∧ ∀ f, evalFlavorAtNode o' f 0 0 = .ok (dot (op o 0 f 0) D - if f = 0 then 1 else 0) := by
  have hr0 : 0 < o.nrhos := by omega
  have hd : ∀ f g, dot (op o 0 f 0) (op o 0 g 0) = if f = g then 1 else 0 := fun f g => dot_op ho hr0 0 f g
  have e0 : (pass o 0 0 o.state 0) 0 0 = (-1 : ℝ) • op o 0 0 0 + D := by
    rw [pass_self, hst, dot_smul, hd, if_pos rfl, hD]
    norm_num
  have e1 : (pass o 0 0 (pass o 0 0 o.state 0) 1) 0 0 = (-1 : ℝ) • op o 0 0 0 + D := by
    have hx : ¬dot (op o 0 1 0) ((-1 : ℝ) • op o 0 0 0 + D) < 0 := by
      rw [dot_add, dot_smul, hd, if_neg (by decide), mul_zero, zero_add]; exact not_lt.2 h1
    rw [pass_self, e0, if_neg hx, zero_smul, sub_zero]
  have e2 : (pass o 0 0 (pass o 0 0 (pass o 0 0 o.state 0) 1) 2) 0 0 = (-1 : ℝ) • op o 0 0 0 + D := by
    have hx : ¬dot (op o 0 2 0) ((-1 : ℝ) • op o 0 0 0 + D) < 0 := by
      rw [dot_add, dot_smul, hd, if_neg (by decide), mul_zero, zero_add]; exact not_lt.2 h2
    rw [pass_self, e1, if_neg hx, zero_smul, sub_zero]
  have hp : passes o = pass o 0 0 (pass o 0 0 (pass o 0 0 o.state 0) 1) 2 := by
    unfold passes
    rw [hr, he]
    rfl
  refine ⟨_, positivize_eq ho, fun f => ?_⟩
  rw [eval_eq (good_state ho (passes o)) hr0]
  show Outcome.ok (dot (op o 0 f 0) (passes o 0 0)) = _
  rw [hp, e2, dot_add, dot_smul, hd]
  congr 1
  split <;> ring

theorem toB1_apply (U : Mat n) (f i j : Fin n) : toB1 U (projector f) i j = U i f * star (U j f) := by
  unfold toB1 projector
  rw [Matrix.mul_apply, Finset.sum_eq_single f]
  · rw [Matrix.mul_single_apply_same, mul_one, Matrix.conjTranspose_apply]
  · intro k _ hk
    rw [Matrix.mul_single_apply_of_ne _ _ _ _ _ hk, zero_mul]
  · intro h; exact absurd (Finset.mem_univ f) h

theorem dot3 (A B : Mat 3) : dot A B = (A 0 0 * B 0 0 + A 0 1 * B 1 0 + A 0 2 * B 2 0 + (A 1 0 * B 0 1 + A 1 1 * B 1 1 + A 1 2 * B 2 1) +
    (A 2 0 * B 0 2 + A 2 1 * B 1 2 + A 2 2 * B 2 2)).re := by
  unfold dot
  simp only [Matrix.trace, Matrix.diag_apply, Matrix.mul_apply, Fin.sum_univ_three]

theorem mix45_zero : toB1 mix45 (projector 0) = !![1 / 2, -(1 / 2), 0; -(1 / 2), 1 / 2, 0; 0, 0, 0] := by
  have h := root_mul
  ext i j
  rw [toB1_apply]
  fin_cases i <;> fin_cases j <;> simp [mix45, h]

theorem mix45_one : toB1 mix45 (projector 1) = !![1 / 2, 1 / 2, 0; 1 / 2, 1 / 2, 0; 0, 0, 0] := by
  have h := root_mul
  ext i j
  rw [toB1_apply]
  fin_cases i <;> fin_cases j <;> simp [mix45, h]

theorem mix45_two : toB1 mix45 (projector 2) = !![0, 0, 0; 0, 0, 0; 0, 0, 1] := by
  ext i j
  rw [toB1_apply]
  fin_cases i <;> fin_cases j <;> simp [mix45]

/-- The low-pass filter when all frequencies are above the cut-off: what oscillates is removed. -/
def removeOscillating (A : Mat 3) : Mat 3 := Matrix.of fun i j => if i = j then A i j else 0

theorem fill_demo_op (b : Basis) (v : Nat → Nat → Fin 3 → ℝ) (f : Fin 3) :
    op (fill (demo1 b) v .flavor) 0 f 0 = toB1 mix45 (projector f) ∧ (fill (demo1 b) v .flavor).b1 0 f = toB1 mix45 (projector f) ∧
    (fill (demo1 b) v .flavor).state 0 0 = ∑ j, v 0 0 j • toB1 mix45 (projector j) := by
  have hb : (fill (demo1 b) v .flavor).b1 0 f = toB1 mix45 (projector f) := by
    unfold fill iniH0 setIniFlavorProjectors; simp [demo1, demo]
  refine ⟨?_, hb, ?_⟩
  · unfold op
    rw [hb]
    have : (fill (demo1 b) v .flavor).t - (fill (demo1 b) v .flavor).tini = 0 := by
      unfold fill iniH0 setIniFlavorProjectors; simp [demo1, demo]
    rw [this, evolve_zero_time, ite_self]
  · unfold fill iniH0 setIniFlavorProjectors
    simp only [demo1, demo, if_true, foldl_finRange, Nat.zero_lt_one, and_self]

/-- Minus one of the first flavour. -/
def minusOne : Nat → Nat → Fin 3 → ℝ := fun _ _ f => if f = 0 then -1 else 0

theorem sum_minusOne (P : Fin 3 → Mat 3) : ∑ j, minusOne 0 0 j • P j = (-1 : ℝ) • P 0 := by
  simp [minusOne]

/-- C56, disagreement: with the low-pass filter on, the stored projectors are filtered and the reading is not. Here one flavour has content
-1 and the others 0; after `PositivizeFlavors` it has content -1/2 and another flavour has gained 1/2. -/
theorem c56_filtered_violated : ∃ o o' : Obj 3, Good o ∧ o = evolveProjectors (fill (demo1 .interaction) minusOne .flavor) removeOscillating o.t ∧
    (evalFlavorAtNode o 0 0 0 = .ok (-1) ∧ evalFlavorAtNode o 1 0 0 = .ok 0) ∧ positivize o = .ok o' ∧
    evalFlavorAtNode o' 0 0 0 = .ok (-1 / 2) ∧ evalFlavorAtNode o' 1 0 0 = .ok (1 / 2) := by
  let p := fill (demo1 .interaction) minusOne .flavor
  have hg : Good p := good_fill (demo1 .interaction) (demo1_ready _) rfl _ _
  have hf := fill_demo_op .interaction minusOne
  have hp1 : p.nrhos = 1 ∧ p.ne = 1 ∧ p.t - p.tini = 0 := by
    refine ⟨?_, ?_, ?_⟩ <;> simp [p, fill, iniH0, setIniFlavorProjectors, demo1, demo]
  let o := evolveProjectors p removeOscillating p.t
  have ho : Good o := ⟨⟨hg.ready.b0, hg.ready.mixing, hg.ready.nrhos⟩, hg.ienergy, hg.b1, hg.dm2⟩
  have hop : ∀ f, op o 0 f 0 = toB1 mix45 (projector f) := fun f => (hf f).1
  have hD : o.evolB1 0 0 0 = removeOscillating (toB1 mix45 (projector 0)) := by
    show (if 0 < p.nrhos ∧ 0 < p.ne then removeOscillating (evolve (p.h0s 0) (p.t - p.tini) (p.b1 0 0)) else p.evolB1 0 0 0) = _
    rw [if_pos (by rw [hp1.1, hp1.2.1]; simp), hp1.2.2, evolve_zero_time, (hf 0).2.1]
  have hst : o.state 0 0 = (-1 : ℝ) • op o 0 0 0 := by
    rw [hop]
    exact (hf 0).2.2.trans (sum_minusOne _)
  have d0 : dot (op o 0 0 0) (removeOscillating (toB1 mix45 (projector 0))) = 1 / 2 := by
    rw [hop, dot3, mix45_zero]; simp [removeOscillating]; norm_num
  have d1 : dot (op o 0 1 0) (removeOscillating (toB1 mix45 (projector 0))) = 1 / 2 := by
    rw [hop, dot3, mix45_zero, mix45_one]; simp [removeOscillating]; norm_num
  have d2 : dot (op o 0 2 0) (removeOscillating (toB1 mix45 (projector 0))) = 0 := by
    rw [hop, dot3, mix45_zero, mix45_two]; simp [removeOscillating]
  obtain ⟨o', h1, h2⟩ := positivize_demo o ho hp1.1 hp1.2.1 _ hD hst (by rw [d1]; norm_num) (by rw [d2])
  have hr : 0 < o.nrhos := by rw [show o.nrhos = 1 from hp1.1]; exact Nat.zero_lt_one
  refine ⟨o, o', ho, rfl, ⟨?_, ?_⟩, h1, ?_, ?_⟩
  · rw [eval_eq ho hr, hst, dot_smul, dot_op ho hr, if_pos rfl, mul_one]
  · rw [eval_eq ho hr, hst, dot_smul, dot_op ho hr, if_neg (by decide), mul_zero]
  · rw [h2, d0, if_pos rfl]; norm_num
  · rw [h2, d1, if_neg (by decide)]; norm_num

end Verif.Density
