import Verif.Density.Ratio
import Verif.Density.PictureProps

/-!
# C123: flavour ratios from far away

The full claim: if a beam of given flavour contents has travelled through vacuum, reading it with all oscillations averaged out gives the
contents of the formula: the probability of each mass state in each initial flavour, times that of the final flavour in the mass state.
-/

namespace Verif.Density

open Matrix
open Matter (NT)

variable {n : Nat}

/-! ## Specification -/

/-- The matrix `U`, flavours being rows and mass states columns, is that of the beam: of neutrinos as it stands, of antineutrinos
conjugated. -/
def MixesWith (o : Obj n) (U : Mat n) : Prop := (∀ i f, o.mixing 0 i f = star (U f i)) ∨ ∀ i f, o.mixing 0 i f = U f i

/-- The squared masses relative to the first one. -/
def massOf (o : Obj n) (i : Fin n) : ℝ := if i.val = 0 then 0 else o.differences i

/-- The phase between two mass states after a way `L`. -/
noncomputable def vacuumPhase (o : Obj n) (L : ℝ) (i j : Fin n) : ℝ := (massOf o i - massOf o j) / (2 * o.energies 0) * L

/-- The probability that a neutrino of one flavour is found as another one once the mass states have lost their coherence. -/
noncomputable def incoherent (U : Mat n) (a b : Fin n) : ℝ := ∑ i, ‖U a i‖ ^ 2 * ‖U b i‖ ^ 2

/-- A single-energy object in the interaction picture, its oscillations on, that is ready to be given a beam. -/
structure Beamline (o : Obj n) : Prop where
  ready : Ready o
  ienergy : o.ienergy = true
  single : o.ne = 1
  picture : o.basis ≠ .mass
  full : o.full = false
  osc : o.ioscillations = true

/-- The object at the end of a way `L` through vacuum: contents `v` are set, and the state follows the equation of motion given to the
integrator. -/
def Arrives (o : Obj n) (hn : 3 ≤ n) (v : Fin n → ℝ) (L : ℝ) (o' : Obj n) : Prop :=
  ∃ (c : ℝ) (ye : ℝ → ℝ) (ρ : ℝ → Mat n),
    Solves (motion c (fun _ => 0) ye (Fin.castLE hn) (fill o (fun _ _ => v) .flavor) 0 0) ρ o.trackStart (o.trackStart + L) ∧
    ρ o.trackStart = (fill o (fun _ _ => v) .flavor).state 0 0 ∧
    o' = atTime (fill o (fun _ _ => v) .flavor) 0 0 (o.trackStart + L) (ρ (o.trackStart + L))

/-! ## Lemmas -/

theorem foldl_add_real {α : Type} (l : List α) (f : α → ℝ) (z : ℝ) : l.foldl (fun s a => s + f a) z = z + (l.map f).sum := by
  induction l generalizing z with
  | nil => simp
  | cons a l ih => rw [List.foldl_cons, ih, List.map_cons, List.sum_cons, add_assoc]

theorem foldl_finRange_real (f : Fin n → ℝ) (z : ℝ) : (List.finRange n).foldl (fun s j => s + f j) z = z + ∑ j, f j := by
  rw [foldl_add_real, ← List.ofFn_eq_map, List.sum_ofFn]

theorem flavourRatio_sum (U : Mat n) (v : Fin n → ℝ) (f : Fin n) :
    flavourRatio U v f = ∑ i, Complex.normSq (U f i) * ∑ a, Complex.normSq (U a i) * v a := by
  unfold flavourRatio
  simp only [foldl_finRange_real, zero_add]
  apply Finset.sum_congr rfl
  intro i _
  rw [Finset.mul_sum]
  apply Finset.sum_congr rfl
  intro a _
  ring

theorem fill_fields (o : Obj n) (he : o.ienergy = true) (v : Nat → Nat → Fin n → ℝ) :
    (fill o v .flavor).mixing = o.mixing ∧ (fill o v .flavor).basis = o.basis ∧ (fill o v .flavor).full = o.full ∧
    (fill o v .flavor).ne = o.ne ∧ (fill o v .flavor).nrhos = o.nrhos ∧ (fill o v .flavor).energies = o.energies ∧
    (fill o v .flavor).ioscillations = o.ioscillations ∧ (fill o v .flavor).tini = o.trackStart ∧ (fill o v .flavor).ienergy = true := by
  unfold fill iniH0 setIniFlavorProjectors
  simp only [he, if_true, and_self]

theorem fill_masses (o : Obj n) (ho : Ready o) (v : Nat → Nat → Fin n → ℝ) :
    (fill o v .flavor).dm2 = Matrix.diagonal fun i => ((massOf o i : ℝ) : ℂ) := by
  have h : (fill o v .flavor).dm2 = (List.finRange n).foldl (fun s i => if 1 ≤ i.val then s + o.differences i • o.b0 i else s) 0 := by
    unfold fill iniH0 setIniFlavorProjectors
    dsimp only
    split <;> rfl
  have e : (fun (s : Mat n) (i : Fin n) => if 1 ≤ i.val then s + o.differences i • o.b0 i else s) =
      fun s i => s + massOf o i • (projector i : Mat n) := by
    funext s i
    unfold massOf
    rw [ho.b0]
    by_cases hi : i.val = 0
    · rw [if_neg (by omega), if_pos hi, zero_smul, add_zero]
    · rw [if_pos (by omega), if_neg hi]
  rw [h, e, foldl_finRange, sum_projectors]

/-- The state does not change on the way. -/
theorem arrives_state {o : Obj n} (hb : Beamline o) (hr : 0 < o.nrhos) {hn : 3 ≤ n} {v : Fin n → ℝ} {L : ℝ} (hL : 0 ≤ L) {o' : Obj n}
    (h : Arrives o hn v L o') : o' = atTime (fill o (fun _ _ => v) .flavor) 0 0 (o.trackStart + L) (∑ a, v a • toB1 (o.mixing 0) (projector a)) := by
  obtain ⟨c, ye, ρ, hs, h0, rfl⟩ := h
  have hp : Prepared (fill o (fun _ _ => v) .flavor) 0 0 :=
    c97_prepared o hb.ready hb.ienergy _ .flavor 0 0 (by rw [hb.single]; exact Nat.one_pos) hr
  have hz : ∀ y, matter c 0 y (fill o (fun _ _ => v) .flavor) 0 = 0 := by
    intro y
    unfold matter Matter.matterTerm Matter.flavourPotential
    simp only [mul_zero, zero_mul, ite_self, zero_smul, Finset.sum_const_zero]
  have hm : motion c (fun _ => 0) ye (Fin.castLE hn) (fill o (fun _ _ => v) .flavor) 0 0 = fun _ => 0 := by
    funext t
    rw [motion_vacuum c (fun _ => 0) ye hn hp t rfl, hz, if_neg (by rw [(fill_fields o hb.ienergy _).2.1]; exact hb.picture)]
    unfold evolve; rw [Matrix.mul_zero, Matrix.zero_mul]
  rw [hm] at hs
  have hst : (fill o (fun _ _ => v) .flavor).state 0 0 = ∑ a, v a • toB1 (o.mixing 0) (projector a) := by
    unfold fill iniH0 setIniFlavorProjectors
    simp only [hb.ienergy, if_true, foldl_finRange, hb.single, hr, Nat.one_pos, and_self, hb.ready.b0]
  rw [hs.unique _ ⟨by linarith, le_refl _⟩, uTransform_zero_ham, h0, hst]

theorem nrhos_pos {o : Obj n} (ho : Ready o) : 0 < o.nrhos := by
  rw [ho.nrhos]; split <;> decide

theorem later_phase {o : Obj n} (hb : Beamline o) (v : Fin n → ℝ) (L : ℝ) (A : Mat n) (i j : Fin n) :
    phaseDifference (h0 (atTime (fill o (fun _ _ => v) .flavor) 0 0 (o.trackStart + L) A) (o.energies 0))
      ((atTime (fill o (fun _ _ => v) .flavor) 0 0 (o.trackStart + L) A).t - (atTime (fill o (fun _ _ => v) .flavor) 0 0 (o.trackStart + L) A).tini) i j =
      vacuumPhase o L i j := by
  have hf := fill_fields o hb.ienergy (fun _ _ => v)
  have hd := fill_masses o hb.ready (fun _ _ => v)
  show phaseDifference (h0 (fill o (fun _ _ => v) .flavor) (o.energies 0)) (o.trackStart + L - (fill o (fun _ _ => v) .flavor).tini) i j = _
  unfold phaseDifference vacuumPhase h0
  rw [hf.2.2.2.2.2.2.2.1, hf.2.2.2.2.2.2.1, hb.osc, if_pos rfl, hd, Matrix.smul_apply, Matrix.smul_apply, Matrix.diagonal_apply_eq,
    Matrix.diagonal_apply_eq, Complex.real_smul, Complex.real_smul, ← Complex.ofReal_mul, ← Complex.ofReal_mul, Complex.ofReal_re,
    Complex.ofReal_re, add_sub_cancel_left, div_div, div_eq_mul_inv, div_eq_mul_inv]
  ring

/-! ## Properties -/

/-- The loop of the example is the sum over initial flavours of the incoherent probability times the content; the contents of all flavours
together are those of the beam, and none is negative. -/
theorem c123_loop (U : Mat n) (v : Fin n → ℝ) :
    (∀ f, flavourRatio U v f = ∑ a, incoherent U a f * v a) ∧
    (U * Uᴴ = 1 → ∑ f, flavourRatio U v f = ∑ a, v a) ∧
    ((∀ a, 0 ≤ v a) → ∀ f, 0 ≤ flavourRatio U v f) := by
  have h1 : ∀ f, flavourRatio U v f = ∑ a, incoherent U a f * v a := by
    intro f
    rw [flavourRatio_sum]
    unfold incoherent
    simp only [Finset.mul_sum, Finset.sum_mul]
    rw [Finset.sum_comm]
    refine Finset.sum_congr rfl fun a _ => Finset.sum_congr rfl fun i _ => ?_
    rw [Complex.normSq_eq_norm_sq, Complex.normSq_eq_norm_sq]
    ring
  refine ⟨h1, fun hU => ?_, fun hv f => ?_⟩
  · have hU' : Uᴴ * U = 1 := (show Unitary U from hU).star_mul
    have hcol : ∀ i, ∑ f, Complex.normSq (U f i) = 1 := by
      intro i
      have := congrFun (congrFun hU' i) i
      rw [Matrix.mul_apply, Matrix.one_apply_eq] at this
      simp only [Matrix.conjTranspose_apply, Complex.star_def, ← Complex.normSq_eq_conj_mul_self] at this
      exact_mod_cast this
    have hrow : ∀ a, ∑ i, Complex.normSq (U a i) = 1 := by
      intro a
      have := congrFun (congrFun hU a) a
      rw [Matrix.mul_apply, Matrix.one_apply_eq] at this
      simp only [Matrix.conjTranspose_apply, Complex.star_def, Complex.mul_conj] at this
      exact_mod_cast this
    simp only [flavourRatio_sum]
    rw [Finset.sum_comm]
    simp only [← Finset.sum_mul, hcol, one_mul]
    rw [Finset.sum_comm]
    simp only [← Finset.sum_mul, hrow, one_mul]
  · rw [h1]
    exact Finset.sum_nonneg fun a _ => mul_nonneg (Finset.sum_nonneg fun i _ => by positivity) (hv a)

/-- The contents read with averaging are those of the loop over the mixing matrix, provided that every phase exceeds the scale. -/
theorem c123_scale (o : Obj n) (hb : Beamline o) (hn : 3 ≤ n) (U : Mat n) (hU : MixesWith o U) (v : Fin n → ℝ) (L : ℝ) (hL : 0 ≤ L) (o' : Obj n)
    (ho' : Arrives o hn v L o') (scale : ℝ) (h : ∀ i j, i ≠ j → scale < |vacuumPhase o L i j|) (f : Fin n) :
    evalFlavorAveraged1 o' f scale = .ok (flavourRatio U v f) := by
  have hr := nrhos_pos hb.ready
  rw [arrives_state hb hr hL ho']
  have hf := fill_fields o hb.ienergy (fun _ _ => v)
  generalize hA : (∑ a, v a • toB1 (o.mixing 0) (projector a) : Mat n) = A
  have hg : Good (atTime (fill o (fun _ _ => v) .flavor) 0 0 (o.trackStart + L) A) := good_atTime (good_fill o hb.ready hb.ienergy _ _) 0 0 _ _
  have hd : DiagonalMasses (atTime (fill o (fun _ _ => v) .flavor) 0 0 (o.trackStart + L) A) := diagonal_fill o hb.ready (fun _ _ => v) .flavor
  have hbas : (atTime (fill o (fun _ _ => v) .flavor) 0 0 (o.trackStart + L) A).basis ≠ .mass := by
    show (fill o (fun _ _ => v) .flavor).basis ≠ .mass
    rw [hf.2.1]; exact hb.picture
  have hne : (atTime (fill o (fun _ _ => v) .flavor) 0 0 (o.trackStart + L) A).ne = 1 := by
    show (fill o (fun _ _ => v) .flavor).ne = 1
    rw [hf.2.2.2.1, hb.single]
  have hfull : (atTime (fill o (fun _ _ => v) .flavor) 0 0 (o.trackStart + L) A).full = false := by
    show (fill o (fun _ _ => v) .flavor).full = false
    rw [hf.2.2.1, hb.full]
  have hen : (atTime (fill o (fun _ _ => v) .flavor) 0 0 (o.trackStart + L) A).energies 0 = o.energies 0 := by
    show (fill o (fun _ _ => v) .flavor).energies 0 = o.energies 0
    rw [hf.2.2.2.2.2.1]
  have hmix : (atTime (fill o (fun _ _ => v) .flavor) 0 0 (o.trackStart + L) A).mixing = o.mixing := hf.1
  have hst : (atTime (fill o (fun _ _ => v) .flavor) 0 0 (o.trackStart + L) A).state 0 0 = A := by
    simp only [atTime, and_self, if_true]
  have hph := fun i j => later_phase hb v L A i j
  have hrr : 0 < (atTime (fill o (fun _ _ => v) .flavor) 0 0 (o.trackStart + L) A).nrhos := by
    show 0 < (fill o (fun _ _ => v) .flavor).nrhos
    rw [hf.2.2.2.2.1]; exact hr
  generalize atTime (fill o (fun _ _ => v) .flavor) 0 0 (o.trackStart + L) A = w at *
  have hout : ¬outside w (w.energies 0) := by unfold outside; rw [hne]; simp
  have key := c83_incoherent w hg hd hbas 0 hrr (fun _ _ => A) (w.energies 0) hout scale
    (fun i j hij => by rw [hen, hph]; exact h i j hij) f
  rw [evalFlavorAveraged, if_neg (by rw [hg.ienergy]; simp), if_neg (by simp), if_neg hout, if_neg (by simp), if_neg hbas] at key
  rw [evalFlavorAveraged1, if_neg (by rw [hg.ienergy]; simp), if_neg (by rw [hne]; simp), if_neg hbas, if_neg (by rw [hfull]; simp), hst, key,
    flavourRatio_sum, hmix]
  congr 1
  have hn2 : ∀ i g, Complex.normSq (o.mixing 0 i g) = Complex.normSq (U g i) := by
    intro i g
    rcases hU with hU | hU
    · rw [hU, Complex.star_def, Complex.normSq_conj]
    · rw [hU]
  refine Finset.sum_congr rfl fun i _ => ?_
  rw [hn2, mul_comm]
  congr 1
  rw [← hA, Matrix.sum_apply, Complex.re_sum]
  refine Finset.sum_congr rfl fun a _ => ?_
  rw [Matrix.smul_apply, toB1_apply, Complex.star_def, Complex.mul_conj, hn2, Complex.real_smul, ← Complex.ofReal_mul, Complex.ofReal_re, mul_comm]

/-- With the scale set to zero, the two ways of the example agree after any distance if the masses are all different. Missing from the full
claim: equal masses (`c123_degenerate_violated`). -/
theorem c123_ratio_partial (o : Obj n) (hb : Beamline o) (hE : o.energies 0 ≠ 0) (hm : Function.Injective (massOf o)) (hn : 3 ≤ n) (U : Mat n)
    (hU : MixesWith o U) (v : Fin n → ℝ) (L : ℝ) (hL : 0 < L) (o' : Obj n) (ho' : Arrives o hn v L o') (f : Fin n) :
    evalFlavorAveraged1 o' f 0 = .ok (flavourRatio U v f) := by
  refine c123_scale o hb hn U hU v L hL.le o' ho' 0 (fun i j hij => ?_) f
  unfold vacuumPhase
  exact abs_pos.2 (mul_ne_zero (div_ne_zero (sub_ne_zero.2 fun h => hij (hm h)) (mul_ne_zero two_ne_zero hE)) hL.ne')

/-- With a scale that no phase exceeds, the example prints what it would print without averaging. -/
theorem c123_unaveraged (o : Obj n) (hb : Beamline o) (hn : 3 ≤ n) (v : Fin n → ℝ) (L : ℝ) (hL : 0 ≤ L) (o' : Obj n)
    (ho' : Arrives o hn v L o') (scale : ℝ) (h : ∀ i j, |vacuumPhase o L i j| ≤ scale) (f : Fin n) :
    evalFlavorAveraged1 o' f scale = evalFlavor1 o' f := by
  rw [arrives_state hb (nrhos_pos hb.ready) hL ho']
  have hf := fill_fields o hb.ienergy (fun _ _ => v)
  generalize (∑ a, v a • toB1 (o.mixing 0) (projector a) : Mat n) = A
  have hen : (atTime (fill o (fun _ _ => v) .flavor) 0 0 (o.trackStart + L) A).energies 0 = o.energies 0 := by
    show (fill o (fun _ _ => v) .flavor).energies 0 = o.energies 0
    rw [hf.2.2.2.2.2.1]
  have hph := fun i j => later_phase hb v L A i j
  generalize atTime (fill o (fun _ _ => v) .flavor) 0 0 (o.trackStart + L) A = w at *
  unfold evalFlavorAveraged1 evalFlavor1 expectationAveraged expectation
  have : averagedEvolve (h0 w (w.energies 0)) (w.t - w.tini) scale (w.b1 0 f) = evolve (h0 w (w.energies 0)) (w.t - w.tini) (w.b1 0 f) := by
    ext i j
    simp only [averagedEvolve, Matrix.of_apply]
    rw [if_neg]
    rintro ⟨_, h1⟩
    rw [hen, hph] at h1
    exact absurd (h i j) (not_le.2 h1)
  rw [this]

/-! ## Instance and violation -/

/-- In vacuum every beam arrives. -/
theorem arrives (o : Obj n) (hb : Beamline o) (hn : 3 ≤ n) (v : Fin n → ℝ) (L : ℝ) : ∃ o', Arrives o hn v L o' := by
  have hp : Prepared (fill o (fun _ _ => v) .flavor) 0 0 :=
    c97_prepared o hb.ready hb.ienergy _ .flavor 0 0 (by rw [hb.single]; exact Nat.one_pos) (nrhos_pos hb.ready)
  have ht := (fill_fields o hb.ienergy (fun _ _ => v)).2.2.2.2.2.2.2.1
  obtain ⟨ρ, h1, h2⟩ := vacuum_solution 1 (fun _ => 1) hn hp ((fill o (fun _ _ => v) .flavor).state 0 0) (o.trackStart + L)
  rw [ht] at h1 h2
  exact ⟨_, 1, fun _ => 1, ρ, h2, h1, rfl⟩

theorem demoThird_beamline : Beamline demoThird := ⟨demoThird_ready, rfl, rfl, by simp [demoThird, demo1, demo], rfl, rfl⟩

theorem demoThird_mixes : MixesWith demoThird mixThird := by
  refine Or.inr fun i f => ?_
  show mixThird i f = mixThird f i
  fin_cases i <;> fin_cases f <;> rfl

theorem demoThird_masses : Function.Injective (massOf demoThird) := by
  intro i j
  fin_cases i <;> fin_cases j <;> simp [massOf, demoThird]

theorem third_loop (f : Fin 3) : flavourRatio mixThird ![1, 2, 0] f = if f = 0 then 1 else if f = 1 then 10 / 9 else 8 / 9 := by
  rw [flavourRatio_sum]
  fin_cases f <;> simp [Fin.sum_univ_three, mixThird, Complex.normSq_apply] <;> norm_num

/-- The pion beam of the example, with contents 1, 2 and 0. -/
example (L : ℝ) (hL : 0 < L) : ∃ o', Arrives demoThird (le_refl 3) ![1, 2, 0] L o' ∧ evalFlavorAveraged1 o' 0 0 = .ok 1 := by
  obtain ⟨o', h⟩ := arrives demoThird demoThird_beamline (le_refl 3) ![1, 2, 0] L
  refine ⟨o', h, ?_⟩
  rw [c123_ratio_partial demoThird demoThird_beamline (by simp [demoThird, demo1, demo]) demoThird_masses _ mixThird demoThird_mixes _ L hL o' h,
    third_loop]
  rfl

/-- Mixing keeps the total of three; the second flavour keeps more than the third has got. -/
example : ∑ f, flavourRatio mixThird ![1, 2, 0] f = 3 ∧ flavourRatio mixThird ![1, 2, 0] 2 < flavourRatio mixThird ![1, 2, 0] 1 ∧
    flavourRatio mixThird ![1, 2, 0] 2 = ∑ a, incoherent mixThird a 2 * (![1, 2, 0] : Fin 3 → ℝ) a := by
  refine ⟨?_, ?_, (c123_loop mixThird ![1, 2, 0]).1 2⟩
  · rw [(c123_loop mixThird ![1, 2, 0]).2.1 mixThird_unitary, Fin.sum_univ_three]
    show (1 : ℝ) + 2 + 0 = 3
    norm_num
  · rw [third_loop, third_loop, if_neg (by decide), if_neg (by decide), if_neg (by decide), if_pos rfl]
    norm_num

theorem third_phase (L : ℝ) (i j : Fin 3) : vacuumPhase demoThird L i j = ((i.val : ℝ) - j.val) * L := by
  unfold vacuumPhase
  have : ∀ k : Fin 3, massOf demoThird k = k.val := by
    intro k
    fin_cases k <;> simp [massOf, demoThird]
  rw [this, this]
  simp [demoThird, demo1, demo]

/-- After a way of four all phases exceed three; after a way of one half none does. -/
example (f : Fin 3) (o' o'' : Obj 3) (h' : Arrives demoThird (le_refl 3) ![1, 2, 0] 4 o') (h'' : Arrives demoThird (le_refl 3) ![1, 2, 0] (1 / 2) o'') :
    evalFlavorAveraged1 o' f 3 = .ok (flavourRatio mixThird ![1, 2, 0] f) ∧ evalFlavorAveraged1 o'' f 3 = evalFlavor1 o'' f := by
  constructor
  · refine c123_scale demoThird demoThird_beamline _ mixThird demoThird_mixes _ 4 (by norm_num) o' h' 3 (fun i j hij => ?_) f
    rw [third_phase]
    fin_cases i <;> fin_cases j <;> first | exact absurd rfl hij | norm_num
  · refine c123_unaveraged demoThird demoThird_beamline _ _ (1 / 2) (by norm_num) o'' h'' 3 (fun i j => ?_) f
    rw [third_phase]
    fin_cases i <;> fin_cases j <;> norm_num [abs_le]

/-- If all masses are the same, nothing is averaged out, whatever the scale: the beam arrives as it left. -/
theorem c123_degenerate (o : Obj n) (hb : Beamline o) (hm : ∀ i, massOf o i = 0) (hn : 3 ≤ n) (v : Fin n → ℝ) (L : ℝ) (hL : 0 ≤ L) (o' : Obj n)
    (ho' : Arrives o hn v L o') (scale : ℝ) (hs : 0 ≤ scale) (f : Fin n) : evalFlavorAveraged1 o' f scale = .ok (v f) := by
  have hr := nrhos_pos hb.ready
  rw [c123_unaveraged o hb hn v L hL o' ho' scale (fun i j => by unfold vacuumPhase; rw [hm, hm, sub_self, zero_div, zero_mul, abs_zero]; exact hs),
    arrives_state hb hr hL ho']
  have hf := fill_fields o hb.ienergy (fun _ _ => v)
  have hg := good_fill o hb.ready hb.ienergy (fun _ _ => v) .flavor
  have hd : (fill o (fun _ _ => v) .flavor).dm2 = 0 := by
    rw [fill_masses o hb.ready]
    ext i j
    simp [Matrix.diagonal_apply, hm]
  have hb1 : (fill o (fun _ _ => v) .flavor).b1 0 f = toB1 (o.mixing 0) (projector f) := by
    rw [hg.b1 0 f (by rw [hf.2.2.2.2.1]; exact hr), hf.1]
  have hh : h0 (fill o (fun _ _ => v) .flavor) ((fill o (fun _ _ => v) .flavor).energies 0) = 0 := by
    unfold h0
    rw [hd, smul_zero, ite_self]
  generalize hA : (∑ a, v a • toB1 (o.mixing 0) (projector a) : Mat n) = A
  have hv : evalFlavor1 (atTime (fill o (fun _ _ => v) .flavor) 0 0 (o.trackStart + L) A) f =
      .ok (dot A (evolve (h0 (fill o (fun _ _ => v) .flavor) ((fill o (fun _ _ => v) .flavor).energies 0))
        (o.trackStart + L - (fill o (fun _ _ => v) .flavor).tini) ((fill o (fun _ _ => v) .flavor).b1 0 f))) := by
    unfold evalFlavor1 expectation atTime
    dsimp only
    rw [if_neg (by rw [hf.2.2.2.2.2.2.2.2]; simp), if_neg (by rw [hf.2.2.2.1, hb.single]; simp), if_neg (by rw [hf.2.1]; exact hb.picture),
      if_neg (by rw [hf.2.2.1, hb.full]; simp), if_pos ⟨rfl, rfl⟩]
    rfl
  rw [hv, hh, evolve_zero_ham, hb1, ← hA, dot_comm, dot_sum]
  congr 1
  rw [Finset.sum_eq_single f]
  · rw [dot_smul, dot_b1 (hb.ready.mixing 0), if_pos rfl, mul_one]
  · intro a _ ha
    rw [dot_smul, dot_b1 (hb.ready.mixing 0), if_neg (Ne.symm ha), mul_zero]
  · intro h; exact absurd (Finset.mem_univ f) h

/-- Three flavours that mix, of one mass. -/
noncomputable def massless : Obj 3 := { demoThird with differences := fun _ => 0 }

theorem massless_beamline : Beamline massless :=
  ⟨⟨demoThird_ready.b0, demoThird_ready.mixing, demoThird_ready.nrhos⟩, rfl, rfl, demoThird_beamline.picture, rfl, rfl⟩

/-- With equal masses full averaging leaves the beam as it was, after any distance, where the formula mixes it. -/
theorem c123_degenerate_violated (L : ℝ) (hL : 0 ≤ L) : ∃ (o o' : Obj 3) (U : Mat 3), Beamline o ∧ o.energies 0 ≠ 0 ∧ MixesWith o U ∧
    Arrives o (le_refl 3) ![1, 2, 0] L o' ∧ evalFlavorAveraged1 o' 2 0 = .ok 0 ∧ flavourRatio U ![1, 2, 0] 2 = 8 / 9 := by
  obtain ⟨o', h⟩ := arrives massless massless_beamline (le_refl 3) ![1, 2, 0] L
  refine ⟨massless, o', mixThird, massless_beamline, by simp [massless, demoThird, demo1, demo], demoThird_mixes, h, ?_, ?_⟩
  · rw [c123_degenerate massless massless_beamline (fun i => by simp [massOf, massless]) _ _ L hL o' h 0 (le_refl 0)]
    rfl
  · rw [third_loop]; rfl

end Verif.Density
