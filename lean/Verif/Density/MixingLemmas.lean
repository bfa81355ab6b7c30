import Verif.Density.Mixing
import Verif.Density.Lemmas

namespace Verif.Density

open Matrix
open Matter (NT)

variable {n : Nat}

/-! ## Flipping phases -/

theorem mem_cpPairs (m a b : Nat) : (a, b) ∈ cpPairs m ↔ a < b ∧ b < m := by
  unfold cpPairs
  simp only [List.mem_flatMap, List.mem_range, List.mem_map, List.mem_range'_1, Prod.mk.injEq]
  constructor
  · rintro ⟨i, hi, j, hj, rfl, rfl⟩; omega
  · intro h; exact ⟨a, by omega, b, by omega, rfl, rfl⟩

theorem nodup_cpPairs (m : Nat) : (cpPairs m).Nodup := by
  unfold cpPairs
  rw [List.nodup_flatMap]
  constructor
  · intro i _
    exact (List.nodup_range' (step := 1)).map fun a b h => by simpa using h
  · refine List.Pairwise.imp ?_ (List.nodup_range (n := m))
    intro a b hab x hx hy
    simp only [List.mem_map] at hx hy
    obtain ⟨j, _, rfl⟩ := hx
    obtain ⟨k, _, h⟩ := hy
    simp at h
    exact hab h.1.symm

theorem flip_phase (l : List (Nat × Nat)) (hl : l.Nodup) (p : Params) :
    let q := l.foldl (fun p ij => p.setPhase ij (-p.phase ij.1 ij.2)) p
    q.angle = p.angle ∧ ∀ a b, q.phase a b = if (a, b) ∈ l then -p.phase a b else p.phase a b := by
  induction l generalizing p with
  | nil => simp
  | cons x xs ih =>
    obtain ⟨hx, hxs⟩ := List.nodup_cons.1 hl
    obtain ⟨h1, h2⟩ := ih hxs (p.setPhase x (-p.phase x.1 x.2))
    refine ⟨h1, fun a b => ?_⟩
    rw [List.foldl_cons, h2 a b]
    by_cases hab : (a, b) = x
    · subst hab
      rw [if_neg hx, if_pos (by simp)]
      simp [Params.setPhase]
    · have h3 : (p.setPhase x (-p.phase x.1 x.2)).phase a b = p.phase a b := by simp [Params.setPhase, hab]
      rw [h3]
      simp [hab]

/-- Whether phases are reversed for this type. -/
def anti (nt : NT) (rho : Nat) : Prop := nt = .antineutrino ∨ (nt = .both ∧ rho = 1)

theorem cpFix_anti {nt : NT} {rho : Nat} (h : anti nt rho) (m : Nat) (p : Params) :
    (cpFix nt m rho p).angle = p.angle ∧ ∀ a b, (cpFix nt m rho p).phase a b = if a < b ∧ b < m then -p.phase a b else p.phase a b := by
  unfold cpFix
  rw [if_pos (show nt = .antineutrino ∨ (nt = .both ∧ rho = 1) from h)]
  obtain ⟨h1, h2⟩ := flip_phase (cpPairs m) (nodup_cpPairs m) p
  refine ⟨h1, fun a b => ?_⟩
  rw [h2]
  simp only [mem_cpPairs]

theorem cpFix_nu {nt : NT} {rho : Nat} (h : ¬anti nt rho) (m : Nat) (p : Params) : cpFix nt m rho p = p := by
  unfold cpFix; rw [if_neg (show ¬(nt = .antineutrino ∨ (nt = .both ∧ rho = 1)) from h)]

theorem Params.ext' {p q : Params} (h1 : p.angle = q.angle) (h2 : ∀ a b, p.phase a b = q.phase a b) : p = q := by
  cases p; cases q
  simp only [Params.mk.injEq]
  exact ⟨h1, by funext a b; exact h2 a b⟩

/-- Flipped twice is not flipped. -/
theorem cpFix_twice (nt : NT) (m rho : Nat) (p : Params) : cpFix nt m rho (cpFix nt m rho p) = p := by
  by_cases h : anti nt rho
  · obtain ⟨h1, h2⟩ := cpFix_anti h m p
    obtain ⟨h3, h4⟩ := cpFix_anti h m (cpFix nt m rho p)
    apply Params.ext'
    · rw [h3, h1]
    · intro a b
      rw [h4, h2]
      split <;> simp
  · rw [cpFix_nu h, cpFix_nu h]

/-! ## The matrix -/

theorem rotation_conj (i j : Fin n) (θ δ : ℝ) : rotation i j θ (-δ) = (rotation i j θ δ).map (starRingEnd ℂ) := by
  ext a b
  simp only [rotation, Matrix.of_apply, Matrix.map_apply, Real.cos_neg, Real.sin_neg]
  repeat' split
  all_goals simp [Complex.conj_ofReal, -Complex.ofReal_cos, -Complex.ofReal_sin]

/-- Reversing the phases conjugates the matrix. -/
theorem mixingMatrix_conj (pairs : List (Fin n × Fin n)) (p q : Params) (ha : q.angle = p.angle)
    (hp : ∀ ij ∈ pairs, q.phase ij.1 ij.2 = -p.phase ij.1 ij.2) : mixingMatrix pairs q = (mixingMatrix pairs p).map (starRingEnd ℂ) := by
  unfold mixingMatrix
  induction pairs with
  | nil => ext a b; simp [Matrix.one_apply]
  | cons x xs ih =>
    rw [List.map_cons, List.prod_cons, List.map_cons, List.prod_cons, Matrix.map_mul, ih (fun ij h => hp ij (List.mem_cons_of_mem _ h)),
      hp x (by simp), ha, rotation_conj]

theorem mixingMatrix_congr (pairs : List (Fin n × Fin n)) (p q : Params) (ha : q.angle = p.angle)
    (hp : ∀ ij ∈ pairs, q.phase ij.1 ij.2 = p.phase ij.1 ij.2) : mixingMatrix pairs q = mixingMatrix pairs p := by
  unfold mixingMatrix
  congr 1
  apply List.map_congr_left
  intro ij h
  rw [ha, hp ij h]

theorem rotation_unitary (i j : Fin n) (hij : i ≠ j) (θ δ : ℝ) : Unitary (rotation i j θ δ) := by
  have hc := Real.cos_sq_add_sin_sq θ
  have hd := Real.cos_sq_add_sin_sq δ
  have hc' : (Real.cos θ : ℂ) ^ 2 + (Real.sin θ : ℂ) ^ 2 = 1 := by exact_mod_cast hc
  have hd' : (Real.cos δ : ℂ) ^ 2 + (Real.sin δ : ℂ) ^ 2 = 1 := by exact_mod_cast hd
  unfold Unitary
  ext a b
  rw [Matrix.mul_apply]
  have hji : j ≠ i := hij.symm
  by_cases hai : a = i
  · subst hai
    rw [← Finset.add_sum_erase _ _ (Finset.mem_univ a), ← Finset.add_sum_erase _ _ (Finset.mem_erase.2 ⟨hji, Finset.mem_univ j⟩),
      Finset.sum_eq_zero]
    · by_cases hba : b = a
      · subst hba
        simp [rotation, hij, hji, Complex.conj_ofReal, -Complex.ofReal_cos, -Complex.ofReal_sin]
        linear_combination hc' + (Real.sin θ : ℂ) ^ 2 * hd' - (Real.sin θ : ℂ) ^ 2 * (Real.sin δ : ℂ) ^ 2 * Complex.I_sq
      · by_cases hbj : b = j
        · subst hbj
          simp [rotation, hij, hji, Complex.conj_ofReal, -Complex.ofReal_cos, -Complex.ofReal_sin]
          ring
        · have : a ≠ b := fun h => hba h.symm
          have hjb : j ≠ b := fun h => hbj h.symm
          simp [rotation, hij, hji, hba, hbj, this]
    · intro c hc2
      simp only [Finset.mem_erase, Finset.mem_univ, and_true] at hc2
      have h1 : a ≠ c := fun h => hc2.2 h.symm
      simp [rotation, hc2.1, hc2.2, hij, h1]
  · by_cases haj : a = j
    · subst haj
      rw [← Finset.add_sum_erase _ _ (Finset.mem_univ a), ← Finset.add_sum_erase _ _ (Finset.mem_erase.2 ⟨hij, Finset.mem_univ i⟩),
        Finset.sum_eq_zero]
      · by_cases hba : b = a
        · subst hba
          simp [rotation, hij, hji, Complex.conj_ofReal, -Complex.ofReal_cos, -Complex.ofReal_sin]
          linear_combination hc' + (Real.sin θ : ℂ) ^ 2 * hd' - (Real.sin θ : ℂ) ^ 2 * (Real.sin δ : ℂ) ^ 2 * Complex.I_sq
        · by_cases hbi : b = i
          · subst hbi
            simp [rotation, hij, hji, Complex.conj_ofReal, -Complex.ofReal_cos, -Complex.ofReal_sin]
            ring
          · have h1 : a ≠ b := fun h => hba h.symm
            have h2 : i ≠ b := fun h => hbi h.symm
            simp [rotation, hij, hji, hba, hbi, h1]
      · intro c hc2
        simp only [Finset.mem_erase, Finset.mem_univ, and_true] at hc2
        have h1 : a ≠ c := fun h => hc2.2 h.symm
        simp [rotation, hc2.1, hc2.2, hji, h1]
    · rw [Finset.sum_eq_single a]
      · by_cases hba : b = a
        · subst hba; simp [rotation, hai, haj]
        · have h1 : a ≠ b := fun h => hba h.symm
          simp [rotation, hai, haj, hba, h1]
      · intro c _ hca
        have : a ≠ c := fun h => hca h.symm
        simp [rotation, hai, haj, this]
      · simp

theorem mixingMatrix_unitary (pairs : List (Fin n × Fin n)) (hp : ∀ ij ∈ pairs, ij.1 ≠ ij.2) (p : Params) : Unitary (mixingMatrix pairs p) := by
  unfold mixingMatrix
  induction pairs with
  | nil => simp [Unitary]
  | cons x xs ih =>
    have h1 := rotation_unitary x.1 x.2 (hp x (by simp)) (p.angle x.1 x.2) (p.phase x.1 x.2)
    have h2 := ih fun ij h => hp ij (List.mem_cons_of_mem _ h)
    unfold Unitary at h1 h2 ⊢
    rw [List.map_cons, List.prod_cons, Matrix.conjTranspose_mul, Matrix.mul_assoc, ← Matrix.mul_assoc _ _ (rotation _ _ _ _)ᴴ, h2, Matrix.one_mul,
      h1]

/-! ## The loops -/

theorem rotated_eq (pairs : List (Fin n × Fin n)) (nt : NT) (rho : Nat) (p : Params) (A : Mat n) :
    rotated pairs nt rho p A = (p, toB1 (mixingMatrix pairs (cpFix nt n rho p)) A) := by
  unfold rotated; dsimp only; rw [cpFix_twice]

theorem evol_loop (pairs : List (Fin n × Fin n)) (nt : NT) (rho : Nat) (f : Fin n) (A : Mat n) (l : List Nat) (s : Projectors n) :
    l.foldl (rotateEvol pairs nt rho f A) s =
      { s with
        evolB1 := fun rho' f' e' =>
          if rho' = rho ∧ f' = f ∧ e' ∈ l then toB1 (mixingMatrix pairs (cpFix nt n rho s.params)) A else s.evolB1 rho' f' e' } := by
  induction l generalizing s with
  | nil => simp
  | cons e es ih =>
    rw [List.foldl_cons, ih]
    unfold rotateEvol
    dsimp only
    rw [rotated_eq]
    congr 1
    funext rho' f' e'
    by_cases h1 : rho' = rho ∧ f' = f <;> by_cases h2 : e' = e <;> by_cases h3 : e' ∈ es <;> simp [h1, h2, h3]
    all_goals first
      | rfl
      | (intro a b; exact absurd ⟨a, b⟩ h1)

/-- Both arrays for one type, over a list of flavours. -/
theorem flavour_loop (pairs : List (Fin n × Fin n)) (nt : NT) (rho ne : Nat) (l : List (Fin n)) (s : Projectors n) :
    l.foldl (fun s f => rotateB1 pairs nt rho f (s.b0 f) ((List.range ne).foldl (rotateEvol pairs nt rho f (s.b0 f)) s)) s =
      { s with
        b1 := fun rho' f' => if rho' = rho ∧ f' ∈ l then toB1 (mixingMatrix pairs (cpFix nt n rho s.params)) (s.b0 f') else s.b1 rho' f'
        evolB1 := fun rho' f' e' =>
          if rho' = rho ∧ f' ∈ l ∧ e' < ne then toB1 (mixingMatrix pairs (cpFix nt n rho s.params)) (s.b0 f') else s.evolB1 rho' f' e' } := by
  induction l generalizing s with
  | nil => simp
  | cons f fs ih =>
    rw [List.foldl_cons, ih, evol_loop]
    unfold rotateB1
    dsimp only
    rw [rotated_eq]
    dsimp only
    congr 1
    · funext rho' f'
      by_cases h1 : rho' = rho <;> by_cases h2 : f' = f <;> by_cases h3 : f' ∈ fs <;> simp [h1, h2, h3]
    · funext rho' f' e'
      by_cases h1 : rho' = rho <;> by_cases h2 : f' = f <;> by_cases h3 : f' ∈ fs <;> by_cases h4 : e' < ne <;> simp [h1, h2, h3, h4]

theorem setIni_loop (pairs : List (Fin n × Fin n)) (nt : NT) (ne : Nat) (l : List Nat) (s : Projectors n) :
    l.foldl (fun s rho => (List.finRange n).foldl (fun s f =>
      rotateB1 pairs nt rho f (s.b0 f) ((List.range ne).foldl (rotateEvol pairs nt rho f (s.b0 f)) s)) s) s =
      { s with
        b1 := fun rho f => if rho ∈ l then toB1 (mixingMatrix pairs (cpFix nt n rho s.params)) (s.b0 f) else s.b1 rho f
        evolB1 := fun rho f e =>
          if rho ∈ l ∧ e < ne then toB1 (mixingMatrix pairs (cpFix nt n rho s.params)) (s.b0 f) else s.evolB1 rho f e } := by
  induction l generalizing s with
  | nil => simp
  | cons r rs ih =>
    rw [List.foldl_cons, ih, flavour_loop]
    dsimp only
    congr 1
    · funext rho f
      by_cases h1 : rho = r <;> by_cases h2 : rho ∈ rs <;> simp [h1, h2, List.mem_finRange]
    · funext rho f e
      by_cases h1 : rho = r <;> by_cases h2 : rho ∈ rs <;> by_cases h3 : e < ne <;> simp [h1, h2, h3, List.mem_finRange]

theorem b1_flavours (pairs : List (Fin n × Fin n)) (nt : NT) (rho : Nat) (l : List (Fin n)) (s : Projectors n) :
    l.foldl (fun s f => rotateB1 pairs nt rho f (projector f) s) s =
      { s with b1 := fun rho' f' => if rho' = rho ∧ f' ∈ l then toB1 (mixingMatrix pairs (cpFix nt n rho s.params)) (projector f') else s.b1 rho' f' } := by
  induction l generalizing s with
  | nil => simp
  | cons f fs ih =>
    rw [List.foldl_cons, ih]
    unfold rotateB1
    dsimp only
    rw [rotated_eq]
    dsimp only
    congr 1
    funext rho' f'
    by_cases h1 : rho' = rho <;> by_cases h2 : f' = f <;> by_cases h3 : f' ∈ fs <;> simp [h1, h2, h3]

theorem b1_loop (pairs : List (Fin n × Fin n)) (nt : NT) (l : List Nat) (s : Projectors n) :
    l.foldl (fun s rho => (List.finRange n).foldl (fun s f => rotateB1 pairs nt rho f (projector f) s) s) s =
      { s with b1 := fun rho f => if rho ∈ l then toB1 (mixingMatrix pairs (cpFix nt n rho s.params)) (projector f) else s.b1 rho f } := by
  induction l generalizing s with
  | nil => simp
  | cons r rs ih =>
    rw [List.foldl_cons, ih, b1_flavours]
    dsimp only
    congr 1
    funext rho f
    by_cases h1 : rho = r <;> by_cases h2 : rho ∈ rs <;> simp [h1, h2, List.mem_finRange]

theorem evol_flavours (pairs : List (Fin n × Fin n)) (nt : NT) (rho ne : Nat) (l : List (Fin n)) (s : Projectors n) :
    l.foldl (fun s f => (List.range ne).foldl (rotateEvol pairs nt rho f (projector f)) s) s =
      { s with
        evolB1 := fun rho' f' e' => if rho' = rho ∧ f' ∈ l ∧ e' < ne then
          toB1 (mixingMatrix pairs (cpFix nt n rho s.params)) (projector f') else s.evolB1 rho' f' e' } := by
  induction l generalizing s with
  | nil => simp
  | cons f fs ih =>
    rw [List.foldl_cons, ih, evol_loop]
    dsimp only
    congr 1
    funext rho' f' e'
    by_cases h1 : rho' = rho <;> by_cases h2 : f' = f <;> by_cases h3 : f' ∈ fs <;> by_cases h4 : e' < ne <;> simp [h1, h2, h3, h4]

theorem evol_types (pairs : List (Fin n × Fin n)) (nt : NT) (ne : Nat) (l : List Nat) (s : Projectors n) :
    l.foldl (fun s rho => (List.finRange n).foldl (fun s f => (List.range ne).foldl (rotateEvol pairs nt rho f (projector f)) s) s) s =
      { s with
        evolB1 := fun rho f e => if rho ∈ l ∧ e < ne then
          toB1 (mixingMatrix pairs (cpFix nt n rho s.params)) (projector f) else s.evolB1 rho f e } := by
  induction l generalizing s with
  | nil => simp
  | cons r rs ih =>
    rw [List.foldl_cons, ih, evol_flavours]
    dsimp only
    congr 1
    funext rho f e
    by_cases h1 : rho = r <;> by_cases h2 : rho ∈ rs <;> by_cases h3 : e < ne <;> simp [h1, h2, h3, List.mem_finRange]

/-! ## Transposes -/

theorem transpose_projector (f : Fin n) : (projector f)ᵀ = projector f := by
  unfold projector; rw [Matrix.transpose_single]

theorem transpose_toB1_conj (U : Mat n) (f : Fin n) : (toB1 (U.map (starRingEnd ℂ)) (projector f))ᵀ = toB1 U (projector f) := by
  unfold toB1
  rw [Matrix.transpose_mul, Matrix.transpose_mul, transpose_projector, ← Matrix.mul_assoc]
  congr 1
  · congr 1
    ext a b; simp

theorem transpose_phase {H : Mat n} (h : Hᵀ = H) (t : ℝ) : (phase H t)ᵀ = phase H t := by
  unfold phase
  rw [← Matrix.exp_transpose, Matrix.transpose_smul, h]

theorem dot_transpose (A B : Mat n) : dot Aᵀ Bᵀ = dot A B := by
  unfold dot
  rw [← Matrix.transpose_mul, Matrix.trace_transpose, Matrix.trace_mul_comm]

theorem transpose_evolve {H : Mat n} (h : Hᵀ = H) (t : ℝ) (A : Mat n) : (evolve H t A)ᵀ = evolve H (-t) Aᵀ := by
  unfold evolve
  rw [Matrix.transpose_mul, Matrix.transpose_mul, transpose_phase h, transpose_phase h, neg_neg, Matrix.mul_assoc]

theorem dot_evolve_move (H A B : Mat n) (t : ℝ) : dot A (evolve H (-t) B) = dot (evolve H t A) B := by
  unfold evolve
  rw [dot_move, neg_neg]

end Verif.Density
