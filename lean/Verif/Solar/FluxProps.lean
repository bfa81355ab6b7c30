import Verif.Solar.Model
import Mathlib.Tactic.NormNum
import Mathlib.Tactic.Linarith

/-!
# C107: solar neutrinos, the fluxes and the mean over the production regions
-/

namespace Verif.Solar

/-- The table of a component covers `x`. -/
def Spline.Covers (s : Spline) (x : ℚ) : Prop := s.first ≤ x ∧ x ≤ s.last

theorem Spline.eval_covered {s : Spline} {x : ℚ} (h : s.Covers x) : s.eval x = .ok (s.at_ x) :=
  if_neg (fun hc => hc.elim (fun h' => absurd h.1 (not_le.2 h')) (fun h' => absurd h.2 (not_le.2 h')))

theorem Spline.eval_inv {s : Spline} {x y : ℚ} (h : s.eval x = .ok y) : y = s.at_ x := by
  unfold Spline.eval at h
  split at h
  · cases h
  · exact (Outcome.ok.inj h).symm

/-- The energies of a component with a continuous spectrum. -/
def Flux.continuum : Flux → Option (ℚ × ℚ)
  | .pp => some (5040, 423410)
  | .hep => some (18784, 18784000)
  | .b8 => some (20000, 16560000)
  | .n13 => some (5995, 1199000)
  | .o15 => some (3464, 1732000)
  | .f17 => some (3480, 1740000)
  | _ => none

/-- The flux of every component at every point: refused outside the Sun; nothing outside the energy range of the model; a line has its
radial flux whatever the energy; a continuous component the product of radial flux and spectrum strictly inside its own range and nothing
elsewhere; electrons and dark matter are not fluxes. -/
theorem c107_flux (m : Sun) (R E : ℚ) (t : Flux) :
    ((R < 0 ∨ 1 < R) → m.nuFlux R E t = .throws) ∧
      (0 ≤ R → R ≤ 1 →
        ((E < 3464 ∨ 18784000 < E) → m.nuFlux R E t = .ok 0) ∧
          (3464 ≤ E → E ≤ 18784000 →
            (t = .pep ∨ t = .be7 → (m.radial t).Covers (R * Rsun) → m.nuFlux R E t = .ok ((m.radial t).at_ (R * Rsun))) ∧
              (∀ lo hi, t.continuum = some (lo, hi) →
                (lo < E → E < hi → (m.radial t).Covers (R * Rsun) → (m.spectral t).Covers E →
                    m.nuFlux R E t = .ok ((m.radial t).at_ (R * Rsun) * (m.spectral t).at_ E)) ∧
                  ((E ≤ lo ∨ hi ≤ E) → m.nuFlux R E t = .ok 0)) ∧
              (t = .electron ∨ t = .dm → m.nuFlux R E t = .throws))) := by
  constructor
  · intro h
    exact if_pos h.symm
  · intro h0 h1
    have hR : ¬(R > 1 ∨ R < 0) := by rintro (h | h) <;> linarith
    constructor
    · intro h
      unfold Sun.nuFlux
      rw [if_neg hR, if_pos (show E < Emin ∨ E > Emax from h)]
    · intro e0 e1
      have hE : ¬(E < Emin ∨ E > Emax) := by
        unfold Emin Emax
        rintro (h | h) <;> linarith
      refine ⟨?_, ?_, ?_⟩
      · rintro (rfl | rfl) hc <;>
        · unfold Sun.nuFlux
          rw [if_neg hR, if_neg hE]
          exact Spline.eval_covered hc
      · intro lo hi hl
        have hlim : t.limits = [lo, hi] := by
          cases t <;> simp only [Flux.continuum, Option.some.injEq, Prod.mk.injEq, reduceCtorEq] at hl <;> obtain ⟨rfl, rfl⟩ := hl <;> rfl
        constructor
        · intro a b hc hs
          unfold Sun.nuFlux
          rw [if_neg hR, if_neg hE, hlim]
          dsimp only
          rw [if_pos ⟨a, b⟩, Spline.eval_covered hc, Spline.eval_covered hs]
          rfl
        · intro h
          unfold Sun.nuFlux
          rw [if_neg hR, if_neg hE, hlim]
          dsimp only
          rw [if_neg]
          rintro ⟨a, b⟩
          rcases h with h | h <;> linarith
      · rintro (rfl | rfl) <;>
        · unfold Sun.nuFlux
          rw [if_neg hR, if_neg hE]
          rfl

/-- Tables of ones that cover what they may. -/
def plain : Sun where
  radial _ := { first := 0, last := Rsun, at_ := fun _ => 1 }
  spectral _ := { first := 0, last := Emax, at_ := fun _ => 2 }

example : plain.nuFlux (1 / 2) 10000 .pp = .ok 2 ∧ plain.nuFlux (1 / 2) 10000 .be7 = .ok 1 ∧ plain.nuFlux (1 / 2) 10000 .b8 = .ok 0 ∧
    plain.nuFlux 2 10000 .b8 = .throws := by decide +kernel

theorem nuFlux_nonneg {m : Sun} (hr : ∀ t x, 0 ≤ (m.radial t).at_ x) (hs : ∀ t x, 0 ≤ (m.spectral t).at_ x) {R E f : ℚ} {t : Flux}
    (h : m.nuFlux R E t = .ok f) : 0 ≤ f := by
  unfold Sun.nuFlux at h
  split at h
  · cases h
  · split at h
    · exact le_of_eq (Outcome.ok.inj h)
    · split at h
      · rw [Spline.eval_inv h]; exact hr _ _
      · split at h
        · cases ha : (m.radial t).eval (R * Rsun) with
          | ok a =>
            rw [ha] at h
            cases hb : (m.spectral t).eval E with
            | ok b =>
              rw [hb] at h
              have e := Outcome.ok.inj h
              rw [← e, Spline.eval_inv ha, Spline.eval_inv hb]
              exact mul_nonneg (hr _ _) (hs _ _)
            | throws => rw [hb] at h; cases h
            | ub => rw [hb] at h; cases h
          | throws => rw [ha] at h; cases h
          | ub => rw [ha] at h; cases h
        · exact le_of_eq (Outcome.ok.inj h)
      · cases h

/-- A fold that has failed stays failed. -/
theorem fold_bind {α : Type} (g : ℚ → α → Outcome ℚ) (l : List α) (x : Outcome ℚ) :
    l.foldl (fun (acc : Outcome ℚ) t => acc.bind fun s => g s t) x = x.bind fun s => l.foldl (fun (acc : Outcome ℚ) t => acc.bind fun s => g s t) (.ok s) := by
  induction l generalizing x with
  | nil => cases x <;> rfl
  | cons t l ih =>
    cases x with
    | ok s => rfl
    | throws => rw [List.foldl_cons, ih]; rfl
    | ub => rw [List.foldl_cons, ih]; rfl

/-- Two folds whose steps keep `P` keep `P`. -/
theorem fold_two {α : Type} {g h : ℚ → α → Outcome ℚ} {P : ℚ → ℚ → Prop} {l : List α}
    (hstep : ∀ t ∈ l, ∀ s s', P s s' → ∀ a b, g s t = .ok a → h s' t = .ok b → P a b) :
    ∀ s s' : ℚ, P s s' → ∀ a b : ℚ, l.foldl (fun (acc : Outcome ℚ) t => acc.bind fun s => g s t) (.ok s) = .ok a →
      l.foldl (fun (acc : Outcome ℚ) t => acc.bind fun s => h s t) (.ok s') = .ok b → P a b := by
  induction l with
  | nil => intro s s' hp a b ha hb; cases ha; cases hb; exact hp
  | cons t l ih =>
    intro s s' hp a b ha hb
    rw [List.foldl_cons, Outcome.bind_ok, fold_bind] at ha hb
    cases hg : g s t with
    | ok x =>
      cases hh : h s' t with
      | ok y =>
        rw [hg] at ha
        rw [hh] at hb
        exact ih (fun t ht => hstep t (List.mem_cons_of_mem _ ht)) x y (hstep t List.mem_cons_self s s' hp x y hg hh) a b ha hb
      | throws => rw [hh] at hb; cases hb
      | ub => rw [hh] at hb; cases hb
    | throws => rw [hg] at ha; cases ha
    | ub => rw [hg] at ha; cases ha

theorem bind_inv {α β : Type} {x : Outcome α} {f : α → Outcome β} {b : β} (h : x.bind f = .ok b) : ∃ a, x = .ok a ∧ f a = .ok b := by
  cases x with
  | ok a => exact ⟨a, rfl, h⟩
  | throws => cases h
  | ub => cases h

/-- One integrand against the other. -/
theorem integrand_two {m : Sun} {P : ℚ → ℚ → Prop} {probability : ℚ → ℚ → Outcome ℚ} {E r : ℚ} (h0 : P 0 0)
    (hstep : ∀ e t s s' w f, P s s' → probability e r = .ok w → m.nuFlux r e t = .ok f → P (s + w * f) (s' + 1 * f)) {a b : ℚ}
    (ha : m.integrand probability E r = .ok a) (hb : m.integrand (fun _ _ => .ok 1) E r = .ok b) : P a b := by
  unfold Sun.integrand at ha hb
  refine fold_two (P := P) (l := Flux.terms E) (g := fun s (t : Flux × ℚ) => (probability t.2 r).bind fun w => (m.nuFlux r t.2 t.1).bind fun f => .ok (s + w * f))
    (h := fun s (t : Flux × ℚ) => (Outcome.ok 1).bind fun w => (m.nuFlux r t.2 t.1).bind fun f => .ok (s + w * f)) ?_ 0 0 h0 a b ha hb
  intro t _ s s' hp x y hx hy
  obtain ⟨w, hw, hx⟩ := bind_inv hx
  obtain ⟨f, hf, hx⟩ := bind_inv hx
  rw [Outcome.bind_ok, hf] at hy
  rw [← Outcome.ok.inj hx, ← Outcome.ok.inj hy]
  exact hstep _ _ _ _ _ _ hp hw hf

theorem rule_two {P : ℚ → ℚ → Prop} {nodes : List (ℚ × ℚ)} {f g : ℚ → Outcome ℚ} (h0 : P 0 0)
    (hstep : ∀ x ∈ nodes, ∀ s s' y z, P s s' → f x.1 = .ok y → g x.1 = .ok z → P (s + x.2 * y) (s' + x.2 * z)) {a b : ℚ}
    (ha : rule nodes f = .ok a) (hb : rule nodes g = .ok b) : P a b := by
  unfold rule at ha hb
  refine fold_two (P := P) (l := nodes) (g := fun s (x : ℚ × ℚ) => (f x.1).bind fun y => .ok (s + x.2 * y)) (h := fun s (x : ℚ × ℚ) => (g x.1).bind fun y => .ok (s + x.2 * y))
    ?_ 0 0 h0 a b ha hb
  intro x hx s s' hp y z hy hz
  obtain ⟨u, hu, hy⟩ := bind_inv hy
  obtain ⟨v, hv, hz⟩ := bind_inv hz
  rw [← Outcome.ok.inj hy, ← Outcome.ok.inj hz]
  exact hstep x hx s s' u v hp hu hv

/-- When there is an answer it is a mean of the probabilities: it lies between any two bounds for them. In particular it is a probability, and it
is the common value of probabilities that are all the same. -/
theorem c107_mean (m : Sun) (nodes : List (ℚ × ℚ)) (probability : ℚ → ℚ → Outcome ℚ) (E x low high : ℚ) (hw : ∀ y ∈ nodes, 0 ≤ y.2)
    (hr : ∀ t y, 0 ≤ (m.radial t).at_ y) (hs : ∀ t y, 0 ≤ (m.spectral t).at_ y)
    (hp : ∀ e r p, probability e r = .ok p → low ≤ p ∧ p ≤ high) (h : m.peeSquare nodes probability E = .ok (some x)) : low ≤ x ∧ x ≤ high := by
  unfold Sun.peeSquare at h
  obtain ⟨norm, hn, h⟩ := bind_inv h
  obtain ⟨num, hnum, h⟩ := bind_inv h
  have key : 0 ≤ norm ∧ low * norm ≤ num ∧ num ≤ high * norm := by
    refine rule_two (P := fun a b => 0 ≤ b ∧ low * b ≤ a ∧ a ≤ high * b) ⟨le_refl _, by simp, by simp⟩ ?_ hnum hn
    intro node hnode s s' y z hP hy hz
    have inner : 0 ≤ z ∧ low * z ≤ y ∧ y ≤ high * z := by
      refine integrand_two (P := fun a b => 0 ≤ b ∧ low * b ≤ a ∧ a ≤ high * b) ⟨le_refl _, by simp, by simp⟩ ?_ hy hz
      intro e t s s' w f hP hw hf
      have hf0 := nuFlux_nonneg hr hs hf
      have b := hp _ _ _ hw
      have := mul_le_mul_of_nonneg_right b.1 hf0
      have := mul_le_mul_of_nonneg_right b.2 hf0
      refine ⟨by linarith [hP.1], by linarith [hP.2.1], by linarith [hP.2.2]⟩
    have w0 := hw node hnode
    have := mul_nonneg w0 inner.1
    have := mul_le_mul_of_nonneg_left inner.2.1 w0
    have := mul_le_mul_of_nonneg_left inner.2.2 w0
    refine ⟨by linarith [hP.1], by linarith [hP.2.1], by linarith [hP.2.2]⟩
  have h := Outcome.ok.inj h
  split at h
  · cases h
  · rename_i hne
    have hx := Option.some.inj h
    have hpos : 0 < norm := lt_of_le_of_ne key.1 (Ne.symm hne)
    rw [← hx, mul_one_div]
    exact ⟨(le_div_iff₀ hpos).2 key.2.1, (div_le_iff₀ hpos).2 key.2.2⟩

example : plain.peeSquare [(1 / 4, 1), (1 / 2, 2)] (fun _ r => .ok r) 10000 = .ok (some (5 / 12)) := by decide +kernel

/-- What both integrands add up at a positive energy: every continuous component at that energy, and each line once, at its own energy, when it is
closer than one percent. -/
theorem c107_components {E : ℚ} (hE : 0 < E) : (Flux.terms E).Nodup ∧ ∀ t e, (t, e) ∈ Flux.terms E ↔
    (t.continuum.isSome ∧ e = E) ∨ (t = .pep ∧ e = 1440000 ∧ |E - 1440000| < E / 100) ∨ (t = .be7 ∧ e = 861800 ∧ |E - 861800| < E / 100) := by
  have close : ∀ l : ℚ, (E ≠ 0 ∧ |E - l| / E < 1 / 100) ↔ |E - l| < E / 100 := fun l => by
    rw [div_lt_iff₀ hE]
    exact ⟨fun h => by linarith [h.2], fun h => ⟨hE.ne', by linarith⟩⟩
  have ht : Flux.terms E = [(.pp, E)] ++ (if |E - 1440000| < E / 100 then [(.pep, 1440000)] else []) ++ [(.hep, E)] ++
      (if |E - 861800| < E / 100 then [(.be7, 861800)] else []) ++ [(.b8, E), (.n13, E), (.o15, E), (.f17, E)] := by
    simp only [Flux.terms, Flux.components, List.filterMap_cons, List.filterMap_nil, Flux.isline, Flux.limits, close]
    by_cases h1 : |E - 1440000| < E / 100 <;> by_cases h2 : |E - 861800| < E / 100 <;> simp [h1, h2]
  rw [ht]
  constructor
  · by_cases h1 : |E - 1440000| < E / 100 <;> by_cases h2 : |E - 861800| < E / 100 <;> simp [h1, h2]
  · intro t e
    by_cases h1 : |E - 1440000| < E / 100 <;> by_cases h2 : |E - 861800| < E / 100 <;> cases t <;> simp [h1, h2, Flux.continuum]

example : Flux.terms 861000 = [(.pp, 861000), (.hep, 861000), (.be7, 861800), (.b8, 861000), (.n13, 861000), (.o15, 861000), (.f17, 861000)] := by
  decide +kernel

/-! ## Where the mean is a number -/

/-- A sum of non-negative terms that all exist, one of which is positive. -/
theorem fold_pos {α : Type} {g : α → Outcome ℚ} {l : List α} (hg : ∀ t ∈ l, ∃ a, g t = .ok a ∧ 0 ≤ a) :
    ∀ s : ℚ, 0 ≤ s → ∃ a : ℚ, l.foldl (fun (acc : Outcome ℚ) t => acc.bind fun s => (g t).bind fun f => .ok (s + f)) (.ok s) = .ok a ∧ s ≤ a ∧
      ((∃ t ∈ l, ∃ b, g t = .ok b ∧ 0 < b) → 0 < a) := by
  induction l with
  | nil => intro s hs; exact ⟨s, rfl, le_refl _, fun ⟨_, ht, _⟩ => absurd ht List.not_mem_nil⟩
  | cons t l ih =>
    intro s hs
    obtain ⟨x, hx, hx0⟩ := hg t List.mem_cons_self
    obtain ⟨a, ha, hle, hpos⟩ := ih (fun t ht => hg t (List.mem_cons_of_mem _ ht)) (s + x) (by linarith)
    refine ⟨a, ?_, by linarith, ?_⟩
    · rw [List.foldl_cons, Outcome.bind_ok, hx, Outcome.bind_ok]; exact ha
    · rintro ⟨u, hu, b, hb, hb0⟩
      rcases List.mem_cons.1 hu with rfl | hu
      · rw [hx] at hb
        have := Outcome.ok.inj hb
        linarith
      · exact hpos ⟨u, hu, b, hb, hb0⟩

/-- Every table covers what it is asked for at the nodes, and is positive. -/
structure Sun.Complete (m : Sun) (nodes : List (ℚ × ℚ)) : Prop where
  inside : ∀ x ∈ nodes, 0 ≤ x.1 ∧ x.1 ≤ 1 ∧ 0 < x.2
  radial : ∀ x ∈ nodes, ∀ t, (m.radial t).Covers (x.1 * Rsun)
  spectral : ∀ t lo hi e, t.continuum = some (lo, hi) → lo < e → e < hi → (m.spectral t).Covers e
  positive : ∀ t x, 0 < (m.radial t).at_ x ∧ 0 < (m.spectral t).at_ x

theorem terms_mem {E e : ℚ} {t : Flux} (h : (t, e) ∈ Flux.terms E) : ((∃ l, t.continuum = some l) ∧ e = E) ∨ (t = .pep ∧ e = 1440000) ∨ (t = .be7 ∧ e = 861800) := by
  unfold Flux.terms at h
  obtain ⟨u, hu, h⟩ := List.mem_filterMap.1 h
  simp only [Flux.components, List.mem_cons, List.not_mem_nil, or_false] at hu
  rcases hu with rfl | rfl | rfl | rfl | rfl | rfl | rfl | rfl
  all_goals
    simp only [Flux.isline, Flux.limits, if_true, Bool.true_eq_false, if_false, Option.some.injEq, Prod.mk.injEq,
      Option.ite_none_right_eq_some] at h
  · exact .inl ⟨by rw [← h.1]; exact ⟨_, rfl⟩, h.2.symm⟩
  · exact .inr (.inl ⟨h.2.1.symm, h.2.2.symm⟩)
  · exact .inl ⟨by rw [← h.1]; exact ⟨_, rfl⟩, h.2.symm⟩
  · exact .inr (.inr ⟨h.2.1.symm, h.2.2.symm⟩)
  all_goals exact .inl ⟨by rw [← h.1]; exact ⟨_, rfl⟩, h.2.symm⟩

theorem flux_exists {m : Sun} {nodes : List (ℚ × ℚ)} (hm : m.Complete nodes) {x : ℚ × ℚ} (hx : x ∈ nodes) {E : ℚ} (h0 : 3464 ≤ E)
    (h1 : E ≤ 18784000) {t : Flux} {lo hi : ℚ} (hc : t.continuum = some (lo, hi)) :
    ∃ f, m.nuFlux x.1 E t = .ok f ∧ 0 ≤ f ∧ (lo < E → E < hi → 0 < f) := by
  have hi' := hm.inside x hx
  have hf := ((((c107_flux m x.1 E t).2 hi'.1 hi'.2.1).2 h0 h1).2.1 lo hi hc)
  by_cases hin : lo < E ∧ E < hi
  · have hp := mul_pos (hm.positive t (x.1 * Rsun)).1 (hm.positive t E).2
    exact ⟨_, hf.1 hin.1 hin.2 (hm.radial x hx t) (hm.spectral t lo hi E hc hin.1 hin.2), hp.le, fun _ _ => hp⟩
  · refine ⟨0, hf.2 ?_, le_refl _, fun a b => absurd ⟨a, b⟩ hin⟩
    by_contra hn
    push Not at hn
    exact hin hn

/-- Full statement: `PeeSquare` is a number for every energy of the model. Shown strictly inside the range: some component shines at each of
these energies. -/
theorem c107_number_partial (m : Sun) (nodes : List (ℚ × ℚ)) (hm : m.Complete nodes) (hne : nodes ≠ []) (probability : ℚ → ℚ → Outcome ℚ)
    (hp : ∀ e r, ∃ p, probability e r = .ok p ∧ 0 ≤ p) (E : ℚ) (h0 : 3464 < E) (h1 : E < 18784000) :
    ∃ x, m.peeSquare nodes probability E = .ok (some x) := by
  have flux : ∀ x ∈ nodes, ∀ t ∈ Flux.terms E, ∃ f, m.nuFlux x.1 t.2 t.1 = .ok f ∧ 0 ≤ f := by
    rintro x hx ⟨t, e⟩ ht
    have hi' := hm.inside x hx
    rcases terms_mem ht with ⟨⟨⟨lo, hi⟩, hl⟩, rfl⟩ | ⟨rfl, rfl⟩ | ⟨rfl, rfl⟩
    · obtain ⟨f, hf, hf0, _⟩ := flux_exists hm hx h0.le h1.le hl
      exact ⟨f, hf, hf0⟩
    · exact ⟨_, (((c107_flux m x.1 1440000 .pep).2 hi'.1 hi'.2.1).2 (by norm_num) (by norm_num)).1 (.inl rfl) (hm.radial x hx _),
        (hm.positive _ _).1.le⟩
    · exact ⟨_, (((c107_flux m x.1 861800 .be7).2 hi'.1 hi'.2.1).2 (by norm_num) (by norm_num)).1 (.inr rfl) (hm.radial x hx _),
        (hm.positive _ _).1.le⟩
  have shines : ∀ x ∈ nodes, ∃ t ∈ Flux.terms E, ∃ f, m.nuFlux x.1 t.2 t.1 = .ok f ∧ 0 < f := by
    intro x hx
    have hmem : ∀ t ∈ Flux.components, t.isline = false → (t, E) ∈ Flux.terms E := fun t ht hl =>
      List.mem_filterMap.2 ⟨t, ht, if_pos hl⟩
    by_cases ho : E < 1732000
    · obtain ⟨f, hf, _, hpos⟩ := flux_exists hm hx h0.le h1.le (t := .o15) rfl
      exact ⟨_, hmem .o15 (by decide) rfl, f, hf, hpos h0 ho⟩
    · obtain ⟨f, hf, _, hpos⟩ := flux_exists hm hx h0.le h1.le (t := .hep) rfl
      exact ⟨_, hmem .hep (by decide) rfl, f, hf, hpos (by linarith) h1⟩
  have inner : ∀ (w : ℚ → ℚ → Outcome ℚ), (∀ e r, ∃ p, w e r = .ok p ∧ 0 ≤ p) → ∀ x ∈ nodes, ∃ a, m.integrand w E x.1 = .ok a ∧ 0 ≤ a ∧
      ((∀ e r p, w e r = .ok p → 0 < p) → 0 < a) := by
    intro w hw x hx
    obtain ⟨a, ha, h0a, hpos⟩ := fold_pos (g := fun t : Flux × ℚ => (w t.2 x.1).bind fun p => (m.nuFlux x.1 t.2 t.1).bind fun f => .ok (p * f))
      (l := Flux.terms E) (by
        intro t ht
        obtain ⟨f, hf, hf0⟩ := flux x hx t ht
        obtain ⟨p, hp, hp0⟩ := hw t.2 x.1
        exact ⟨p * f, by rw [hp, Outcome.bind_ok, hf, Outcome.bind_ok], mul_nonneg hp0 hf0⟩) 0 (le_refl _)
    refine ⟨a, ?_, h0a, fun hw' => ?_⟩
    · rw [← ha]
      unfold Sun.integrand
      congr 1
      funext acc t
      congr 1
      funext s
      cases w t.2 x.1 with
      | ok p => cases m.nuFlux x.1 t.2 t.1 <;> rfl
      | throws => rfl
      | ub => rfl
    · obtain ⟨t, ht, f, hf, hf0⟩ := shines x hx
      obtain ⟨p, hp, _⟩ := hw t.2 x.1
      exact hpos ⟨t, ht, p * f, by rw [hp, Outcome.bind_ok, hf, Outcome.bind_ok], mul_pos (hw' _ _ _ hp) hf0⟩
  have outer : ∀ (w : ℚ → ℚ → Outcome ℚ), (∀ e r, ∃ p, w e r = .ok p ∧ 0 ≤ p) → ∃ a, rule nodes (m.integrand w E) = .ok a ∧ 0 ≤ a ∧
      ((∀ e r p, w e r = .ok p → 0 < p) → 0 < a) := by
    intro w hw
    obtain ⟨a, ha, h0a, hpos⟩ := fold_pos (g := fun x : ℚ × ℚ => (m.integrand w E x.1).bind fun y => .ok (x.2 * y)) (l := nodes) (by
        intro x hx
        obtain ⟨y, hy, hy0, _⟩ := inner w hw x hx
        exact ⟨x.2 * y, by rw [hy, Outcome.bind_ok], mul_nonneg (hm.inside x hx).2.2.le hy0⟩) 0 (le_refl _)
    refine ⟨a, ?_, h0a, fun hw' => ?_⟩
    · rw [← ha]
      unfold rule
      congr 1
      funext acc x
      congr 1
      funext s
      cases m.integrand w E x.1 <;> rfl
    · obtain ⟨x, hx⟩ := List.exists_mem_of_ne_nil _ hne
      obtain ⟨y, hy, _, hy0⟩ := inner w hw x hx
      exact hpos ⟨x, hx, x.2 * y, by rw [hy, Outcome.bind_ok], mul_pos (hm.inside x hx).2.2 (hy0 hw')⟩
  obtain ⟨norm, hn, _, hn0⟩ := outer (fun _ _ => .ok 1) (fun _ _ => ⟨1, rfl, zero_le_one⟩)
  obtain ⟨num, hnum, _⟩ := outer probability hp
  have hn0 : norm ≠ 0 := (hn0 (fun _ _ p h => by rw [← Outcome.ok.inj h]; exact one_pos)).ne'
  refine ⟨num * (1 / norm), ?_⟩
  unfold Sun.peeSquare Sun.integratedFluxes
  rw [hn, Outcome.bind_ok, hnum, Outcome.bind_ok, if_neg hn0]

theorem plain_complete : plain.Complete [(1 / 4, 1), (1 / 2, 2)] where
  inside := by
    intro x hx
    simp only [List.mem_cons, List.not_mem_nil, or_false] at hx
    rcases hx with rfl | rfl <;> norm_num
  radial := by
    intro x hx t
    simp only [List.mem_cons, List.not_mem_nil, or_false] at hx
    rcases hx with rfl | rfl <;> exact ⟨by unfold plain Rsun; norm_num, by unfold plain Rsun; norm_num⟩
  spectral := by
    intro t lo hi e hc hlo hhi
    cases t <;> simp only [Flux.continuum, Option.some.injEq, Prod.mk.injEq, reduceCtorEq] at hc <;> obtain ⟨rfl, rfl⟩ := hc <;>
      exact ⟨by unfold plain; dsimp only; linarith, by unfold plain Emax; dsimp only; linarith⟩
  positive := fun _ _ => ⟨one_pos, two_pos⟩

example : ∃ x, plain.peeSquare [(1 / 4, 1), (1 / 2, 2)] (fun _ r => .ok (r * r)) 15000000 = .ok (some x) :=
  ⟨3 / 16, by decide +kernel⟩

/-- At both ends of the range, where `nuFlux` does not yet refuse the energy, no component shines whatever the tables: the normalisation is one
over zero. -/
theorem c107_edges_violated (m : Sun) (r : ℚ) (h0 : 0 ≤ r) (h1 : r ≤ 1) (w : ℚ) (p : ℚ) :
    m.peeSquare [(r, w)] (fun _ _ => .ok p) Emin = .ok none ∧ m.peeSquare [(r, w)] (fun _ _ => .ok p) Emax = .ok none := by
  have ht : Flux.terms Emin = [(.pp, Emin), (.hep, Emin), (.b8, Emin), (.n13, Emin), (.o15, Emin), (.f17, Emin)] ∧
      Flux.terms Emax = [(.pp, Emax), (.hep, Emax), (.b8, Emax), (.n13, Emax), (.o15, Emax), (.f17, Emax)] := by decide +kernel
  have z : ∀ t lo hi E, t.continuum = some (lo, hi) → 3464 ≤ E → E ≤ 18784000 → (E ≤ lo ∨ hi ≤ E) → m.nuFlux r E t = .ok 0 :=
    fun t lo hi E hc a b h => ((((c107_flux m r E t).2 h0 h1).2 a b).2.1 lo hi hc).2 h
  constructor
  · have f := fun t lo hi hc h => z t lo hi Emin hc (by unfold Emin; norm_num) (by unfold Emin; norm_num) h
    have a1 := f .pp _ _ rfl (.inl (by unfold Emin; norm_num))
    have a2 := f .hep _ _ rfl (.inl (by unfold Emin; norm_num))
    have a3 := f .b8 _ _ rfl (.inl (by unfold Emin; norm_num))
    have a4 := f .n13 _ _ rfl (.inl (by unfold Emin; norm_num))
    have a5 := f .o15 _ _ rfl (.inl (by unfold Emin; norm_num))
    have a6 := f .f17 _ _ rfl (.inl (by unfold Emin; norm_num))
    simp [Sun.peeSquare, Sun.integratedFluxes, rule, Sun.integrand, ht.1, a1, a2, a3, a4, a5, a6]
  · have f := fun t lo hi hc h => z t lo hi Emax hc (by unfold Emax; norm_num) (by unfold Emax; norm_num) h
    have a1 := f .pp _ _ rfl (.inr (by unfold Emax; norm_num))
    have a2 := f .hep _ _ rfl (.inr (by unfold Emax; norm_num))
    have a3 := f .b8 _ _ rfl (.inr (by unfold Emax; norm_num))
    have a4 := f .n13 _ _ rfl (.inr (by unfold Emax; norm_num))
    have a5 := f .o15 _ _ rfl (.inr (by unfold Emax; norm_num))
    have a6 := f .f17 _ _ rfl (.inr (by unfold Emax; norm_num))
    simp [Sun.peeSquare, Sun.integratedFluxes, rule, Sun.integrand, ht.2, a1, a2, a3, a4, a5, a6]

/-- The test whether an energy is close to a line is not one for negative energies: both lines are counted at minus one electronvolt. -/
theorem c107_negative_violated : plain.integratedFluxes [(1 / 2, 1)] (-1) = .ok 2 := by decide +kernel

/-! ## The tables -/

/-- The electron density is that of the table at the radius, which is given in units of that of the Sun; radii outside the Sun or the table are
refused. -/
theorem c107_electrons (m : Sun) (R : ℚ) :
    ((R < 0 ∨ 1 < R ∨ R * 69662651411.1 < (m.radial .electron).first ∨ (m.radial .electron).last < R * 69662651411.1) → m.eDensity R = .throws) ∧
      (0 ≤ R → R ≤ 1 → (m.radial .electron).first ≤ R * 69662651411.1 → R * 69662651411.1 ≤ (m.radial .electron).last →
        m.eDensity R = .ok ((m.radial .electron).at_ (R * 69662651411.1))) := by
  have e : (Rsun : ℚ) = 69662651411.1 := rfl
  unfold Sun.eDensity Spline.eval
  rw [e]
  constructor
  · rintro (h | h | h)
    · rw [if_pos (Or.inr h)]
    · rw [if_pos (Or.inl h)]
    · rw [if_pos h, ite_self]
  · intro h0 h1 h2 h3
    rw [if_neg (by push Not; exact ⟨h1, h0⟩), if_neg (by push Not; exact ⟨h2, h3⟩)]

example : plain.eDensity (1 / 2) = .ok 1 ∧ plain.eDensity 2 = .throws :=
  ⟨(c107_electrons plain (1 / 2)).2 (by norm_num) (by norm_num) (by norm_num [plain]) (by norm_num [plain, Rsun]),
    (c107_electrons plain 2).1 (Or.inr (Or.inl (by norm_num)))⟩

/-- Full statement: a model can be made from a table. The first radius is never stored, and the splines are made with it. -/
theorem c107_table_violated (x : ℚ) (xs : List ℚ) : splineInit (x :: xs) = .ub := by
  unfold splineInit abscissae
  rw [List.mapIdx_cons, List.foldr_cons]
  rfl

/-- Full statement: every radius that is not refused has a flux. The tables that come with the code begin at one centimetre and end below the
radius that `R = 1` stands for, so that centre and surface are refused by the interpolation. -/
theorem c107_domain_violated (m : Sun) (t : Flux) (h : (m.radial t).first = 1 ∧ (m.radial t).last = 69597878253.4) (ht : t.isline = true) :
    m.nuFlux 0 1000000 t = .throws ∧ m.nuFlux 1 1000000 t = .throws := by
  have hl : (m.radial t).eval (0 * Rsun) = .throws ∧ (m.radial t).eval (1 * Rsun) = .throws := by
    unfold Spline.eval
    rw [h.1, h.2]
    exact ⟨if_pos (.inl (by norm_num)), if_pos (.inr (by unfold Rsun; norm_num))⟩
  have e1 : ¬((0 : ℚ) > 1 ∨ (0 : ℚ) < 0) := by norm_num
  have e2 : ¬((1 : ℚ) > 1 ∨ (1 : ℚ) < 0) := by norm_num
  have e3 : ¬((1000000 : ℚ) < Emin ∨ (1000000 : ℚ) > Emax) := by unfold Emin Emax; norm_num
  cases t <;> simp only [Flux.isline, Bool.false_eq_true] at ht <;>
  · unfold Sun.nuFlux
    rw [if_neg e1, if_neg e3, if_neg e2, if_neg e3]
    exact hl

example : Flux.isline .be7 = true ∧ Flux.isline .pep = true ∧ splineInit [1, 2, 3] = .ub ∧ splineInit [] = .ok [] := by decide

end Verif.Solar
