import Verif.XS.Validate

/-!
# Property C70: validation of the interaction tables
-/

namespace Verif.XS

/-! ## Specification -/

/-- The currents of deep inelastic scattering. -/
inductive Dis where
  | NC
  | CC

def Dis.cur : Dis → Cur
  | .NC => .NC
  | .CC => .CC

def Two.get (x : Two) : Dis → Dbl
  | .NC => x.nc
  | .CC => x.cc

/-- The total cross section supplied for energy number e1: at the first energy itself, otherwise the average over the interval below. -/
def Provider.tot (p : Provider) (c : Cur) (nt : NType) (flv e1 : Nat) : Outcome Dbl :=
  if 0 < e1 then p.avgTotal c nt flv e1 else p.total c nt flv e1

/-- The differential cross section supplied for the energies number e1 and e2. -/
def Provider.diff (p : Provider) (c : Cur) (nt : NType) (flv e1 e2 : Nat) : Outcome Dbl :=
  if e2 = 0 then p.single c nt flv e1 0 else p.avgSingle c nt flv e1 e2

/-- Negative or not finite. -/
def Invalid (v : Dbl) : Prop := ∀ x : Rat, v = .fin x → x < 0

/-- The cross sections end normally or with an exception. -/
def Provider.Defined (p : Provider) : Prop :=
  (∀ c nt f e, p.total c nt f e ≠ .ub) ∧ (∀ c nt f e, p.avgTotal c nt f e ≠ .ub) ∧ (∀ c nt f e e', p.single c nt f e e' ≠ .ub) ∧
    ∀ c nt f e e', p.avgSingle c nt f e e' ≠ .ub

/-! ## Lemmas -/

theorem fill_ok {α : Type} {f : Nat → Outcome α} : ∀ {n : Nat} {l : List α}, fill f n = .ok l →
    l.length = n ∧ ∀ i, i < n → ∃ a, f i = .ok a ∧ l[i]? = some a := by
  intro n
  induction n with
  | zero =>
    intro l h
    injection h with h
    subst h
    exact ⟨rfl, fun i hi => absurd hi (by omega)⟩
  | succ n ih =>
    intro l h
    unfold fill at h
    cases hf : fill f n with
    | ub => rw [hf] at h; cases h
    | throws => rw [hf] at h; cases h
    | ok l' =>
      rw [hf, Outcome.bind_ok] at h
      cases hn : f n with
      | ub => rw [hn] at h; cases h
      | throws => rw [hn] at h; cases h
      | ok a =>
        rw [hn, Outcome.bind_ok] at h
        injection h with h
        subst h
        obtain ⟨h1, h2⟩ := ih hf
        refine ⟨by simp [h1], fun i hi => ?_⟩
        by_cases he : i = n
        · subst he
          exact ⟨a, hn, by rw [List.getElem?_append_right (by omega), h1]; simp⟩
        · obtain ⟨b, hb, hg⟩ := h2 i (by omega)
          exact ⟨b, hb, by rw [List.getElem?_append_left (by omega)]; exact hg⟩

theorem fill_total {α : Type} {f : Nat → Outcome α} : ∀ {n : Nat}, (∀ i, i < n → ∃ a, f i = .ok a) → ∃ l, fill f n = .ok l := by
  intro n
  induction n with
  | zero => intro _; exact ⟨[], rfl⟩
  | succ n ih =>
    intro h
    obtain ⟨l, hl⟩ := ih fun i hi => h i (by omega)
    obtain ⟨a, ha⟩ := h n (by omega)
    exact ⟨l ++ [a], by rw [fill, hl, Outcome.bind_ok, ha, Outcome.bind_ok]⟩

theorem bind_ne_ub {α β : Type} {x : Outcome α} {f : α → Outcome β} (hx : x ≠ .ub) (hf : ∀ a, x = .ok a → f a ≠ .ub) : x.bind f ≠ .ub := by
  cases x with
  | ok a => exact hf a rfl
  | throws => simp
  | ub => exact absurd rfl hx

theorem fill_ne_ub {α : Type} {f : Nat → Outcome α} : ∀ {n : Nat}, (∀ i, i < n → f i ≠ .ub) → fill f n ≠ .ub := by
  intro n
  induction n with
  | zero => intro _; simp [fill]
  | succ n ih =>
    intro h
    exact bind_ne_ub (ih fun i hi => h i (by omega)) fun l _ => bind_ne_ub (h n (by omega)) fun a _ => by simp

theorem bind_ok_inv {α β : Type} {x : Outcome α} {f : α → Outcome β} {b : β} (h : x.bind f = .ok b) : ∃ a, x = .ok a ∧ f a = .ok b := by
  cases x with
  | ok a => exact ⟨a, rfl, h⟩
  | throws => cases h
  | ub => cases h

theorem bad_iff (v : Dbl) : v.bad = true ↔ Invalid v := by
  cases v with
  | fin x => simp [Dbl.bad, Invalid]
  | pinf => simp [Dbl.bad, Invalid]
  | ninf => simp [Dbl.bad, Invalid]
  | nan => simp [Dbl.bad, Invalid]

theorem good_iff (v : Dbl) : ¬v.bad = true ↔ ∃ x, v = .fin x ∧ 0 ≤ x := by
  cases v with
  | fin x => simp [Dbl.bad]
  | pinf => simp [Dbl.bad]
  | ninf => simp [Dbl.bad]
  | nan => simp [Dbl.bad]

theorem bad_scale {v : Dbl} {u : Rat} (hu : 0 < u) : (v.scale u).bad = v.bad := by
  cases v with
  | fin x =>
    simp only [Dbl.scale, Dbl.bad]
    by_cases h : x < 0
    · rw [decide_eq_true h, decide_eq_true (mul_neg_of_neg_of_pos h hu)]
    · rw [decide_eq_false h, decide_eq_false (not_lt.2 (mul_nonneg (not_lt.1 h) hu.le))]
  | pinf => rfl
  | ninf => rfl
  | nan => rfl

theorem validate_ok {flv : Nat} {v w : Dbl} (h : validate flv v = .ok w) : w = v ∧ (flv < 3 → ¬v.bad = true) := by
  unfold validate at h
  split at h
  · cases h
  · rename_i hc
    injection h with h
    exact ⟨h.symm, fun hf hb => hc ⟨hf, hb⟩⟩

theorem validate_accepts {flv : Nat} {v : Dbl} (h : flv < 3 → ¬v.bad = true) : validate flv v = .ok v := by
  unfold validate
  rw [if_neg fun hc => h hc.1 hc.2]

theorem validate_ne_ub (flv : Nat) (v : Dbl) : validate flv v ≠ .ub := by
  unfold validate
  split <;> simp

/-- What an accepted entry holds. -/
theorem diffEntry_ok {p : Provider} {u : Rat} {nt : NType} {flv e1 e2 : Nat} {x : Two} (h : diffEntry p u nt flv e1 e2 = .ok x) (c : Dis) :
    ∃ d, p.diff c.cur nt flv e1 e2 = .ok d ∧ x.get c = d.scale u ∧ (flv < 3 → ¬(d.scale u).bad = true) := by
  unfold diffEntry at h
  unfold Provider.diff
  by_cases he : e2 = 0
  · rw [if_pos he] at h ⊢
    obtain ⟨a, ha, h⟩ := bind_ok_inv h
    obtain ⟨a', ha', h⟩ := bind_ok_inv h
    obtain ⟨b, hb, h⟩ := bind_ok_inv h
    obtain ⟨b', hb', h⟩ := bind_ok_inv h
    injection h with h
    subst h
    obtain ⟨rfl, va⟩ := validate_ok ha'
    obtain ⟨rfl, vb⟩ := validate_ok hb'
    cases c
    · exact ⟨a, ha, rfl, va⟩
    · exact ⟨b, hb, rfl, vb⟩
  · rw [if_neg he] at h ⊢
    obtain ⟨a, ha, h⟩ := bind_ok_inv h
    obtain ⟨a', ha', h⟩ := bind_ok_inv h
    obtain ⟨b, hb, h⟩ := bind_ok_inv h
    obtain ⟨b', hb', h⟩ := bind_ok_inv h
    injection h with h
    subst h
    obtain ⟨rfl, va⟩ := validate_ok ha'
    obtain ⟨rfl, vb⟩ := validate_ok hb'
    cases c
    · exact ⟨a, ha, rfl, va⟩
    · exact ⟨b, hb, rfl, vb⟩

theorem totalEntry_ok {p : Provider} {u : Rat} {nt : NType} {flv e1 : Nat} {x : Two} (h : totalEntry p u nt flv e1 = .ok x) (c : Dis) :
    ∃ s, p.tot c.cur nt flv e1 = .ok s ∧ x.get c = s.scale u ∧ (flv < 3 → ¬(s.scale u).bad = true) := by
  unfold totalEntry at h
  unfold Provider.tot
  obtain ⟨s, hs, h⟩ := bind_ok_inv h
  obtain ⟨v1, h1, h⟩ := bind_ok_inv h
  obtain ⟨v2, h2, h⟩ := bind_ok_inv h
  injection h with h
  subst h
  obtain ⟨-, g1⟩ := validate_ok h1
  obtain ⟨-, g2⟩ := validate_ok h2
  by_cases he : 0 < e1
  · rw [if_pos he] at hs ⊢
    obtain ⟨b, hb, hs⟩ := bind_ok_inv hs
    obtain ⟨a, ha, hs⟩ := bind_ok_inv hs
    injection hs with hs
    subst hs
    cases c
    · exact ⟨a, ha, rfl, g2⟩
    · exact ⟨b, hb, rfl, g1⟩
  · rw [if_neg he] at hs ⊢
    obtain ⟨b, hb, hs⟩ := bind_ok_inv hs
    obtain ⟨a, ha, hs⟩ := bind_ok_inv hs
    injection hs with hs
    subst hs
    cases c
    · exact ⟨a, ha, rfl, g2⟩
    · exact ⟨b, hb, rfl, g1⟩

/-- A quotient that has been accepted. -/
theorem normal_ok {flv : Nat} (hf : flv < 3) {d s : Rat} (hd : 0 ≤ d) (hs : 0 ≤ s) {y : Dbl} (h : normal flv (.fin d) (.fin s) = .ok y) :
    (d ≠ 0 → s ≠ 0) ∧ ∃ z, y = .fin z ∧ 0 ≤ z ∧ z * s = d := by
  unfold normal at h
  split at h
  · rename_i he
    injection he with he
    injection h with h
    subst h
    subst he
    exact ⟨fun h => absurd rfl h, 0, rfl, le_refl 0, zero_mul s⟩
  · rename_i he
    have hd0 : d ≠ 0 := fun h => he (by rw [h])
    obtain ⟨rfl, hb⟩ := validate_ok h
    by_cases h0 : s = 0
    · have hpos : 0 < d := lt_of_le_of_ne hd (Ne.symm hd0)
      refine absurd ?_ (hb hf)
      simp [Dbl.div, h0, hpos, Dbl.bad]
    · refine ⟨fun _ => h0, d / s, by simp [Dbl.div, h0], div_nonneg hd hs, div_mul_cancel₀ d h0⟩

theorem normal_accepts {flv : Nat} {d s : Dbl} (h : flv < 3 → ∃ x y : Rat, d = .fin x ∧ s = .fin y ∧ 0 ≤ x ∧ 0 ≤ y ∧ (x ≠ 0 → y ≠ 0)) :
    ∃ y, normal flv d s = .ok y := by
  unfold normal
  split
  · exact ⟨_, rfl⟩
  · rename_i hd
    refine ⟨_, validate_accepts fun hf => ?_⟩
    obtain ⟨x, y, rfl, rfl, hx, hy, hxy⟩ := h hf
    have hx0 : x ≠ 0 := fun h => hd (by rw [h])
    rw [good_iff]
    exact ⟨x / y, by simp [Dbl.div, hxy hx0], div_nonneg hx hy⟩

theorem normal_ne_ub (flv : Nat) (d s : Dbl) : normal flv d s ≠ .ub := by
  unfold normal
  split
  · simp
  · exact validate_ne_ub _ _

/-- The line stored for a target, a type, a flavour and an energy, and where it came from. -/
theorem target_ok {p : Provider} {uD uT : Rat} {types : List NType} {numneu ne : Nat} {T : List (List (List Stored))}
    (h : target p uD uT types numneu ne = .ok T) {rho : Nat} {nt : NType} (hr : types[rho]? = some nt) {flv e1 : Nat} (hf : flv < numneu)
    (he : e1 < ne) : ∃ a b st l, T[rho]? = some a ∧ a[flv]? = some b ∧ b[e1]? = some st ∧ line p uD uT nt flv e1 = .ok l ∧ st.total = l.total ∧
      spectrum flv e1 l = .ok st.dNdE := by
  unfold target at h
  obtain ⟨lines, hl, h⟩ := bind_ok_inv h
  obtain ⟨hrl, -⟩ := List.getElem?_eq_some_iff.1 hr
  obtain ⟨-, g1⟩ := fill_ok hl
  obtain ⟨-, g2⟩ := fill_ok h
  obtain ⟨x, hx, lx⟩ := g1 rho hrl
  rw [hr, Outcome.ofOption_some, Outcome.bind_ok] at hx
  obtain ⟨y, hy, ly⟩ := (fill_ok hx).2 flv hf
  obtain ⟨l, hl', ll⟩ := (fill_ok hy).2 e1 he
  obtain ⟨a, ha, la⟩ := g2 rho hrl
  rw [lx, Outcome.ofOption_some, Outcome.bind_ok] at ha
  obtain ⟨b, hb, lb⟩ := (fill_ok ha).2 flv hf
  rw [ly, Outcome.ofOption_some, Outcome.bind_ok] at hb
  obtain ⟨st, hst, lst⟩ := (fill_ok hb).2 e1 he
  rw [ll, Outcome.ofOption_some, Outcome.bind_ok] at hst
  obtain ⟨sp, hsp, hst⟩ := bind_ok_inv hst
  injection hst with hst
  subst hst
  exact ⟨a, b, _, l, la, lb, lst, hl', rfl, hsp⟩

/-! ## What is in the tables -/

/-- What is known about one line of an active flavour. -/
theorem line_valid {p : Provider} {uD uT : Rat} (hD : 0 < uD) (hT : 0 < uT) {nt : NType} {flv e1 : Nat} (hf : flv < 3) {l : Line} {sp : List Two}
    (hl : line p uD uT nt flv e1 = .ok l) (hs : spectrum flv e1 l = .ok sp) (c : Dis) :
    ∃ s, p.tot c.cur nt flv e1 = .ok (.fin s) ∧ 0 ≤ s ∧ l.total.get c = .fin (s * uT) ∧
      (∀ e2, e2 < max 1 e1 → ∃ d, p.diff c.cur nt flv e1 e2 = .ok (.fin d) ∧ 0 ≤ d) ∧
      ∀ e2, e2 < e1 → ∃ d x z, p.diff c.cur nt flv e1 e2 = .ok (.fin d) ∧ (d ≠ 0 → s ≠ 0) ∧ sp[e2]? = some x ∧ x.get c = .fin z ∧ 0 ≤ z ∧
        z * (s * uT) = d * uD := by
  unfold line at hl
  obtain ⟨ds, hds, hl⟩ := bind_ok_inv hl
  obtain ⟨tt, htt, hl⟩ := bind_ok_inv hl
  injection hl with hl
  subst hl
  obtain ⟨s, hs1, hs2, hs3⟩ := totalEntry_ok htt c
  have hs4 := hs3 hf
  rw [bad_scale hT, good_iff] at hs4
  obtain ⟨s', rfl, hs0⟩ := hs4
  have hdiff : ∀ e2, e2 < max 1 e1 → ∃ y d, ds[e2]? = some y ∧ p.diff c.cur nt flv e1 e2 = .ok (.fin d) ∧ 0 ≤ d ∧ y.get c = .fin (d * uD) := by
    intro e2 he
    obtain ⟨y, hy, gy⟩ := (fill_ok hds).2 e2 he
    obtain ⟨d, d1, d2, d3⟩ := diffEntry_ok hy c
    have d4 := d3 hf
    rw [bad_scale hD, good_iff] at d4
    obtain ⟨d', rfl, hd0⟩ := d4
    exact ⟨y, d', gy, d1, hd0, d2⟩
  refine ⟨s', hs1, hs0, hs2, fun e2 he => ?_, fun e2 he => ?_⟩
  · obtain ⟨-, d, -, h1, h2, -⟩ := hdiff e2 he
    exact ⟨d, h1, h2⟩
  · obtain ⟨y, d, gy, h1, h2, h3⟩ := hdiff e2 (by omega)
    obtain ⟨x, hx, gx⟩ := (fill_ok hs).2 e2 he
    dsimp only at hx
    rw [gy, Outcome.ofOption_some, Outcome.bind_ok] at hx
    obtain ⟨a, ha, hx⟩ := bind_ok_inv hx
    obtain ⟨b, hb, hx⟩ := bind_ok_inv hx
    injection hx with hx
    subst hx
    have hn : normal flv (.fin (d * uD)) (.fin (s' * uT)) = .ok (Two.get ⟨a, b⟩ c) := by
      cases c
      · rw [← h3]
        exact (congrArg (normal flv _) hs2.symm).trans ha
      · rw [← h3]
        exact (congrArg (normal flv _) hs2.symm).trans hb
    obtain ⟨hz, z, e1', e2', e3'⟩ := normal_ok hf (mul_nonneg h2 hD.le) (mul_nonneg hs0 hT.le) hn
    exact ⟨d, _, z, h1, fun hd hs => hz (mul_ne_zero hd hD.ne') (by rw [hs, zero_mul]), gx, e1', e2', e3'⟩

/-- C70: if the construction completes then, for every target, type, active flavour, energy and current, the stored total cross section is the one
supplied (times the unit), finite and not negative; every stored spectrum is finite and not negative, and spectrum times total is the differential
cross section supplied (times the unit). -/
theorem c70_valid (targets : List Provider) (el : Option Provider) (NTy : NT) (gl : Bool) (uD uT : Rat) (hD : 0 < uD) (hT : 0 < uT) (numneu ne : Nat)
    (T : AllTables) (h : getCrossSections targets el NTy gl uD uT numneu ne = .ok T) (t : Nat) (p : Provider) (ht : targets[t]? = some p) (rho : Nat)
    (nt : NType) (hr : NTy.types[rho]? = some nt) (flv : Nat) (hf : flv < 3) (hn : flv < numneu) (e1 : Nat) (he : e1 < ne) (c : Dis) :
    ∃ x y z st s, T.dis[t]? = some x ∧ x[rho]? = some y ∧ y[flv]? = some z ∧ z[e1]? = some st ∧
      p.tot c.cur nt flv e1 = .ok (.fin s) ∧ 0 ≤ s ∧ st.total.get c = .fin (s * uT) ∧
      ∀ e2, e2 < e1 → ∃ d w v, p.diff c.cur nt flv e1 e2 = .ok (.fin d) ∧ st.dNdE[e2]? = some w ∧ w.get c = .fin v ∧ 0 ≤ v ∧
        v * (s * uT) = d * uD := by
  unfold getCrossSections at h
  obtain ⟨dis, hdis, h⟩ := bind_ok_inv h
  have hT' : T.dis = dis := by
    split at h
    · cases el with
      | none => cases h
      | some q =>
        obtain ⟨g, -, h⟩ := bind_ok_inv h
        injection h with h
        rw [← h]
    · injection h with h
      rw [← h]
  obtain ⟨htl, -⟩ := List.getElem?_eq_some_iff.1 ht
  obtain ⟨x, hx, gx⟩ := (fill_ok hdis).2 t htl
  rw [ht, Outcome.ofOption_some, Outcome.bind_ok] at hx
  obtain ⟨a, b, st, l, h1, h2, h3, hl, htot, hsp⟩ := target_ok hx hr hn he
  obtain ⟨s, s1, s2, s3, -, s5⟩ := line_valid hD hT hf hl hsp c
  refine ⟨x, a, b, st, s, hT' ▸ gx, h1, h2, h3, s1, s2, htot ▸ s3, fun e2 he2 => ?_⟩
  obtain ⟨d, w, v, d1, -, d3, d4, d5, d6⟩ := s5 e2 he2
  exact ⟨d, w, v, d1, d3, d4, d5, d6⟩

/-! ## When the construction throws -/

theorem diffEntry_ne_ub {p : Provider} (hp : p.Defined) (u : Rat) (nt : NType) (flv e1 e2 : Nat) : diffEntry p u nt flv e1 e2 ≠ .ub := by
  unfold diffEntry
  split
  · exact bind_ne_ub (hp.2.2.1 _ _ _ _ _) fun _ _ => bind_ne_ub (validate_ne_ub _ _) fun _ _ => bind_ne_ub (hp.2.2.1 _ _ _ _ _) fun _ _ =>
      bind_ne_ub (validate_ne_ub _ _) fun _ _ => by simp
  · exact bind_ne_ub (hp.2.2.2 _ _ _ _ _) fun _ _ => bind_ne_ub (validate_ne_ub _ _) fun _ _ => bind_ne_ub (hp.2.2.2 _ _ _ _ _) fun _ _ =>
      bind_ne_ub (validate_ne_ub _ _) fun _ _ => by simp

theorem totalEntry_ne_ub {p : Provider} (hp : p.Defined) (u : Rat) (nt : NType) (flv e1 : Nat) : totalEntry p u nt flv e1 ≠ .ub := by
  unfold totalEntry
  refine bind_ne_ub ?_ fun _ _ => bind_ne_ub (validate_ne_ub _ _) fun _ _ => bind_ne_ub (validate_ne_ub _ _) fun _ _ => by simp
  split
  · exact bind_ne_ub (hp.2.1 _ _ _ _) fun _ _ => bind_ne_ub (hp.2.1 _ _ _ _) fun _ _ => by simp
  · exact bind_ne_ub (hp.1 _ _ _ _) fun _ _ => bind_ne_ub (hp.1 _ _ _ _) fun _ _ => by simp

theorem line_ne_ub {p : Provider} (hp : p.Defined) (uD uT : Rat) (nt : NType) (flv e1 : Nat) : line p uD uT nt flv e1 ≠ .ub :=
  bind_ne_ub (fill_ne_ub fun _ _ => diffEntry_ne_ub hp _ _ _ _ _) fun _ _ => bind_ne_ub (totalEntry_ne_ub hp _ _ _ _) fun _ _ => by simp

theorem line_length {p : Provider} {uD uT : Rat} {nt : NType} {flv e1 : Nat} {l : Line} (h : line p uD uT nt flv e1 = .ok l) :
    l.diff.length = max 1 e1 := by
  unfold line at h
  obtain ⟨d, hd, h⟩ := bind_ok_inv h
  obtain ⟨s, hs, h⟩ := bind_ok_inv h
  injection h with h
  subst h
  exact (fill_ok hd).1

theorem get_of_length {α : Type} {l : List α} {n i : Nat} (h : l.length = n) (hi : i < n) : ∃ a, l[i]? = some a :=
  ⟨l[i]'(by omega), List.getElem?_eq_getElem (by omega)⟩

theorem target_ne_ub {p : Provider} (hp : p.Defined) (uD uT : Rat) (types : List NType) (numneu ne : Nat) : target p uD uT types numneu ne ≠ .ub := by
  unfold target
  refine bind_ne_ub (fill_ne_ub fun rho hr => ?_) fun lines hl => fill_ne_ub fun rho hr => ?_
  · rw [List.getElem?_eq_getElem hr, Outcome.ofOption_some, Outcome.bind_ok]
    exact fill_ne_ub fun flv _ => fill_ne_ub fun e1 _ => line_ne_ub hp _ _ _ _ _
  · obtain ⟨x, hx, lx⟩ := (fill_ok hl).2 rho hr
    rw [List.getElem?_eq_getElem hr, Outcome.ofOption_some, Outcome.bind_ok] at hx
    rw [lx, Outcome.ofOption_some, Outcome.bind_ok]
    refine fill_ne_ub fun flv hf => ?_
    obtain ⟨y, hy, ly⟩ := (fill_ok hx).2 flv hf
    rw [ly, Outcome.ofOption_some, Outcome.bind_ok]
    refine fill_ne_ub fun e1 he => ?_
    obtain ⟨l, hl', ll⟩ := (fill_ok hy).2 e1 he
    rw [ll, Outcome.ofOption_some, Outcome.bind_ok]
    refine bind_ne_ub (fill_ne_ub fun e2 he2 => ?_) fun _ _ => by simp
    obtain ⟨d, hd⟩ := get_of_length (line_length hl') (i := e2) (by omega)
    rw [hd, Outcome.ofOption_some, Outcome.bind_ok]
    exact bind_ne_ub (normal_ne_ub _ _ _) fun _ _ => bind_ne_ub (normal_ne_ub _ _ _) fun _ _ => by simp

theorem glashow_ne_ub {p : Provider} (hp : p.Defined) (uD uT : Rat) (ne : Nat) : glashow p uD uT ne ≠ .ub := by
  unfold glashow
  refine bind_ne_ub (fill_ne_ub fun e1 _ => bind_ne_ub ?_ fun s _ => bind_ne_ub (fill_ne_ub fun e2 _ => ?_) fun _ _ => by simp) fun rows hrows =>
    bind_ne_ub (fill_ne_ub fun e1 he => ?_) fun _ _ => by simp
  · split
    · exact hp.2.1 _ _ _ _
    · exact hp.1 _ _ _ _
  · split
    · exact hp.2.2.1 _ _ _ _ _
    · exact hp.2.2.2 _ _ _ _ _
  · obtain ⟨r, hr, lr⟩ := (fill_ok hrows).2 e1 he
    obtain ⟨s, -, hr⟩ := bind_ok_inv hr
    obtain ⟨d, hd, hr⟩ := bind_ok_inv hr
    injection hr with hr
    subst hr
    rw [lr, Outcome.ofOption_some, Outcome.bind_ok]
    refine fill_ne_ub fun e2 he2 => ?_
    have hlen := (fill_ok hd).1
    obtain ⟨v, hv⟩ := get_of_length (l := d.map (Dbl.scale · uD)) (n := max 1 e1) (i := e2) (by simp [hlen]) (by omega)
    dsimp only
    rw [hv, Outcome.ofOption_some, Outcome.bind_ok]
    simp

/-- C70: if some total or differential cross section supplied for an active flavour is negative or not finite, or a differential cross section is
not zero although the total cross section is zero, the construction throws. -/
theorem c70_throws (targets : List Provider) (el : Option Provider) (NTy : NT) (gl : Bool) (uD uT : Rat) (hD : 0 < uD) (hT : 0 < uT) (numneu ne : Nat)
    (hp : ∀ p ∈ targets, p.Defined) (hel : ∀ p, el = some p → p.Defined) (p : Provider) (hpt : p ∈ targets) (nt : NType) (hnt : nt ∈ NTy.types)
    (flv : Nat) (hf : flv < 3) (hn : flv < numneu) (e1 : Nat) (he : e1 < ne) (c : Dis)
    (hbad : (∃ v, p.tot c.cur nt flv e1 = .ok v ∧ Invalid v) ∨
      (∃ e2 v, (e2 = 0 ∨ e2 < e1) ∧ p.diff c.cur nt flv e1 e2 = .ok v ∧ Invalid v) ∨
      (∃ e2 v, e2 < e1 ∧ p.diff c.cur nt flv e1 e2 = .ok v ∧ v ≠ .fin 0 ∧ p.tot c.cur nt flv e1 = .ok (.fin 0))) :
    getCrossSections targets el NTy gl uD uT numneu ne = .throws := by
  obtain ⟨t, ht⟩ := List.getElem?_of_mem hpt
  obtain ⟨rho, hr⟩ := List.getElem?_of_mem hnt
  obtain ⟨htl, -⟩ := List.getElem?_eq_some_iff.1 ht
  have hnub : getCrossSections targets el NTy gl uD uT numneu ne ≠ .ub := by
    unfold getCrossSections
    refine bind_ne_ub (fill_ne_ub fun i hi => ?_) fun dis _ => ?_
    · rw [List.getElem?_eq_getElem hi, Outcome.ofOption_some, Outcome.bind_ok]
      exact target_ne_ub (hp _ (List.getElem_mem hi)) _ _ _ _ _
    · split
      · cases el with
        | none => simp
        | some q => exact bind_ne_ub (glashow_ne_ub (hel q rfl) _ _ _) fun _ _ => by simp
      · simp
  cases hres : getCrossSections targets el NTy gl uD uT numneu ne with
  | throws => rfl
  | ub => exact absurd hres hnub
  | ok T =>
    exfalso
    unfold getCrossSections at hres
    obtain ⟨dis, hdis, -⟩ := bind_ok_inv hres
    obtain ⟨x, hx, -⟩ := (fill_ok hdis).2 t htl
    rw [ht, Outcome.ofOption_some, Outcome.bind_ok] at hx
    obtain ⟨a, b, st, l, -, -, -, hl, -, hsp⟩ := target_ok hx hr hn he
    obtain ⟨s, s1, s2, -, s4, s5⟩ := line_valid hD hT hf hl hsp c
    rcases hbad with ⟨v, hv, hi⟩ | ⟨e2, v, h2, hv, hi⟩ | ⟨e2, v, h2, hv, hv0, hs0⟩
    · rw [s1] at hv
      injection hv with hv
      exact absurd (hi s hv.symm) (not_lt.2 s2)
    · obtain ⟨d, hd, hd0⟩ := s4 e2 (by omega)
      rw [hd] at hv
      injection hv with hv
      exact absurd (hi d hv.symm) (not_lt.2 hd0)
    · obtain ⟨d, -, -, hd, hds, -⟩ := s5 e2 h2
      rw [hd] at hv
      injection hv with hv
      rw [s1] at hs0
      injection hs0 with hs0
      injection hs0 with hs0
      exact hds (fun hz => hv0 (by rw [← hv, hz])) hs0

/-- Everything supplied for this object is in order: nothing throws, and for active flavours all values are finite and not negative, and the total
is not zero where a differential cross section is not. -/
def Provider.InOrder (p : Provider) (types : List NType) (numneu ne : Nat) : Prop :=
  ∀ nt ∈ types, ∀ flv, flv < numneu → ∀ e1, e1 < ne → ∀ c : Dis, ∃ s, p.tot c.cur nt flv e1 = .ok s ∧ (flv < 3 → ¬Invalid s) ∧
    ∀ e2, e2 = 0 ∨ e2 < e1 → ∃ d, p.diff c.cur nt flv e1 e2 = .ok d ∧ (flv < 3 → ¬Invalid d ∧ (d ≠ .fin 0 → s ≠ .fin 0))

theorem scale_zero {v : Dbl} {u : Rat} (hu : 0 < u) : v.scale u = .fin 0 ↔ v = .fin 0 := by
  cases v <;> simp [Dbl.scale, hu.ne']

theorem line_accepts {p : Provider} {uD uT : Rat} (hD : 0 < uD) (hT : 0 < uT) {types : List NType} {numneu ne : Nat} (h : p.InOrder types numneu ne)
    {nt : NType} (hnt : nt ∈ types) {flv e1 : Nat} (hf : flv < numneu) (he : e1 < ne) :
    ∃ l sp, line p uD uT nt flv e1 = .ok l ∧ spectrum flv e1 l = .ok sp := by
  obtain ⟨sN, tN, vN, dN⟩ := h nt hnt flv hf e1 he .NC
  obtain ⟨sC, tC, vC, dC⟩ := h nt hnt flv hf e1 he .CC
  have key : ∀ e2, e2 = 0 ∨ e2 < e1 → ∃ a b, diffEntry p uD nt flv e1 e2 = .ok ⟨a.scale uD, b.scale uD⟩ ∧
      (flv < 3 → ¬Invalid a ∧ (a ≠ .fin 0 → sN ≠ .fin 0)) ∧ (flv < 3 → ¬Invalid b ∧ (b ≠ .fin 0 → sC ≠ .fin 0)) := by
    intro e2 h2
    obtain ⟨a, ha, va⟩ := dN e2 h2
    obtain ⟨b, hb, vb⟩ := dC e2 h2
    refine ⟨a, b, ?_, va, vb⟩
    unfold Provider.diff at ha hb
    unfold diffEntry
    have ga : validate flv (a.scale uD) = .ok (a.scale uD) := validate_accepts fun hf => by rw [bad_scale hD, bad_iff]; exact (va hf).1
    have gb : validate flv (b.scale uD) = .ok (b.scale uD) := validate_accepts fun hf => by rw [bad_scale hD, bad_iff]; exact (vb hf).1
    by_cases h0 : e2 = 0
    · rw [if_pos h0] at ha hb ⊢
      rw [show p.single .NC nt flv e1 0 = .ok a from ha, Outcome.bind_ok, ga, Outcome.bind_ok, show p.single .CC nt flv e1 0 = .ok b from hb,
        Outcome.bind_ok, gb, Outcome.bind_ok]
    · rw [if_neg h0] at ha hb ⊢
      rw [show p.avgSingle .NC nt flv e1 e2 = .ok a from ha, Outcome.bind_ok, ga, Outcome.bind_ok,
        show p.avgSingle .CC nt flv e1 e2 = .ok b from hb, Outcome.bind_ok, gb, Outcome.bind_ok]
  obtain ⟨ds, hds⟩ := fill_total (f := diffEntry p uD nt flv e1) (n := max 1 e1) fun e2 h2 => by
    obtain ⟨a, b, hab, -⟩ := key e2 (by omega)
    exact ⟨_, hab⟩
  have htot : totalEntry p uT nt flv e1 = .ok ⟨sN.scale uT, sC.scale uT⟩ := by
    unfold Provider.tot at tN tC
    unfold totalEntry
    have ga : validate flv (sN.scale uT) = .ok (sN.scale uT) := validate_accepts fun hf => by rw [bad_scale hT, bad_iff]; exact vN hf
    have gb : validate flv (sC.scale uT) = .ok (sC.scale uT) := validate_accepts fun hf => by rw [bad_scale hT, bad_iff]; exact vC hf
    by_cases h0 : 0 < e1
    · rw [if_pos h0] at tN tC ⊢
      rw [show p.avgTotal .CC nt flv e1 = .ok sC from tC, Outcome.bind_ok, show p.avgTotal .NC nt flv e1 = .ok sN from tN, Outcome.bind_ok,
        Outcome.bind_ok, gb, Outcome.bind_ok, ga, Outcome.bind_ok]
    · rw [if_neg h0] at tN tC ⊢
      rw [show p.total .CC nt flv e1 = .ok sC from tC, Outcome.bind_ok, show p.total .NC nt flv e1 = .ok sN from tN, Outcome.bind_ok,
        Outcome.bind_ok, gb, Outcome.bind_ok, ga, Outcome.bind_ok]
  have hok : ∀ {d s : Dbl}, (flv < 3 → ¬Invalid d ∧ (d ≠ .fin 0 → s ≠ .fin 0)) → (flv < 3 → ¬Invalid s) →
      ∃ y, normal flv (d.scale uD) (s.scale uT) = .ok y := by
    intro d s hd hs
    refine normal_accepts fun hf => ?_
    have h1 := (hd hf).1
    have h2 := hs hf
    rw [← bad_iff, good_iff] at h1 h2
    obtain ⟨x, rfl, hx⟩ := h1
    obtain ⟨y, rfl, hy⟩ := h2
    refine ⟨_, _, rfl, rfl, mul_nonneg hx hD.le, mul_nonneg hy hT.le, fun hne => ?_⟩
    have hx0 : x ≠ 0 := fun h => hne (by rw [h, zero_mul])
    have hy0 : y ≠ 0 := fun h => (hd hf).2 (fun he => hx0 (by injection he)) (by rw [h])
    exact mul_ne_zero hy0 hT.ne'
  obtain ⟨sp, hsp⟩ := fill_total (n := e1) (f := fun e2 => (Outcome.ofOption ds[e2]?).bind fun d => (normal flv d.nc (sN.scale uT)).bind fun a =>
      (normal flv d.cc (sC.scale uT)).bind fun b => .ok (Two.mk a b)) fun e2 h2 => by
    obtain ⟨a, b, hab, ha, hb⟩ := key e2 (by omega)
    obtain ⟨y, hy, gy⟩ := (fill_ok hds).2 e2 (by omega)
    rw [hab] at hy
    injection hy with hy
    subst hy
    obtain ⟨u, hu⟩ := hok ha vN
    obtain ⟨v, hv⟩ := hok hb vC
    refine ⟨⟨u, v⟩, ?_⟩
    rw [gy, Outcome.ofOption_some, Outcome.bind_ok, hu, Outcome.bind_ok, hv, Outcome.bind_ok]
  exact ⟨⟨ds, ⟨sN.scale uT, sC.scale uT⟩⟩, sp, by rw [line, hds, Outcome.bind_ok, htot, Outcome.bind_ok], hsp⟩

/-- C70: it throws for no other reason. If everything supplied for the targets is in order, the construction completes, without tables of the Glashow
resonance, if that is off or there are no antineutrinos; otherwise it throws exactly if there are no electron cross sections or they throw. -/
theorem c70_accepts (targets : List Provider) (el : Option Provider) (NTy : NT) (gl : Bool) (uD uT : Rat) (hD : 0 < uD) (hT : 0 < uT) (numneu ne : Nat)
    (hp : ∀ p ∈ targets, p.InOrder NTy.types numneu ne) :
    (gl = false ∨ NTy = .neutrino → ∃ T, getCrossSections targets el NTy gl uD uT numneu ne = .ok T ∧ T.gr = none) ∧
    (gl = true → NTy ≠ .neutrino → (el = none → getCrossSections targets el NTy gl uD uT numneu ne = .throws) ∧
      ∀ p, el = some p → ((∃ g T, glashow p uD uT ne = .ok g ∧ getCrossSections targets el NTy gl uD uT numneu ne = .ok T ∧ T.gr = some g) ∨
        (glashow p uD uT ne = .throws ∧ getCrossSections targets el NTy gl uD uT numneu ne = .throws) ∨
        (glashow p uD uT ne = .ub ∧ getCrossSections targets el NTy gl uD uT numneu ne = .ub))) := by
  have key : ∀ p ∈ targets, ∃ T, target p uD uT NTy.types numneu ne = .ok T := by
    intro p hpt
    have ho := hp p hpt
    have hline : ∀ rho nt, NTy.types[rho]? = some nt → ∀ flv, flv < numneu → ∀ e1, e1 < ne →
        ∃ l sp, line p uD uT nt flv e1 = .ok l ∧ spectrum flv e1 l = .ok sp := fun rho nt hr flv hf e1 he =>
      line_accepts hD hT ho (List.mem_of_getElem? hr) hf he
    obtain ⟨lines, hl⟩ := fill_total (n := NTy.types.length) (f := fun rho => (Outcome.ofOption NTy.types[rho]?).bind fun nt =>
        fill (fun flv => fill (line p uD uT nt flv) ne) numneu) fun rho hr => by
      rw [List.getElem?_eq_getElem hr, Outcome.ofOption_some, Outcome.bind_ok]
      refine fill_total fun flv hf => fill_total fun e1 he => ?_
      obtain ⟨l, -, h1, -⟩ := hline rho _ (List.getElem?_eq_getElem hr) flv hf e1 he
      exact ⟨l, h1⟩
    unfold target
    rw [hl, Outcome.bind_ok]
    refine fill_total fun rho hr => ?_
    obtain ⟨x, hx, lx⟩ := (fill_ok hl).2 rho hr
    rw [List.getElem?_eq_getElem hr, Outcome.ofOption_some, Outcome.bind_ok] at hx
    rw [lx, Outcome.ofOption_some, Outcome.bind_ok]
    refine fill_total fun flv hf => ?_
    obtain ⟨y, hy, ly⟩ := (fill_ok hx).2 flv hf
    rw [ly, Outcome.ofOption_some, Outcome.bind_ok]
    refine fill_total fun e1 he => ?_
    obtain ⟨l, hl', ll⟩ := (fill_ok hy).2 e1 he
    obtain ⟨l2, sp, h1, h2⟩ := hline rho _ (List.getElem?_eq_getElem hr) flv hf e1 he
    rw [hl'] at h1
    injection h1 with h1
    subst h1
    exact ⟨_, by rw [ll, Outcome.ofOption_some, Outcome.bind_ok, h2, Outcome.bind_ok]⟩
  unfold getCrossSections
  obtain ⟨dis, hdis⟩ := fill_total (n := targets.length) (f := fun t => (Outcome.ofOption targets[t]?).bind fun p => target p uD uT NTy.types numneu ne)
    fun t htl => by
      rw [List.getElem?_eq_getElem htl, Outcome.ofOption_some, Outcome.bind_ok]
      exact key _ (List.getElem_mem htl)
  constructor
  · intro h
    refine ⟨⟨dis, none⟩, ?_, rfl⟩
    rw [hdis, Outcome.bind_ok, if_neg]
    rintro ⟨h1, h2⟩
    rcases h with rfl | rfl
    · cases h1
    · rcases h2 with h2 | h2 <;> cases h2
  · intro h1 h2
    have hc : gl = true ∧ (NTy = .both ∨ NTy = .antineutrino) := ⟨h1, by cases NTy <;> simp_all⟩
    rw [hdis, Outcome.bind_ok, if_pos hc]
    refine ⟨fun h => by rw [h], ?_⟩
    rintro p rfl
    dsimp only
    cases hg : glashow p uD uT ne with
    | ok g => exact .inl ⟨g, ⟨dis, some g⟩, rfl, rfl, rfl⟩
    | throws => exact .inr (.inl ⟨rfl, rfl⟩)
    | ub => exact .inr (.inr ⟨rfl, rfl⟩)

/-! ## The Glashow resonance -/

/-- C70 fails for the tables of the Glashow resonance (which belong to the active flavour electron): they are not validated. With cross sections that
are zero everywhere the construction completes and the stored spectrum is not a number. -/
theorem c70_glashow_violated : (getCrossSections [nullProvider] (some nullProvider) .both true 1 1 3 2).map (fun T => T.gr.map (·.dNdE)) =
    .ok (some [[], [.nan]]) := by
  decide +kernel

/-- C70 fails for the Glashow resonance: a negative total cross section is stored. -/
theorem c70_glashow_negative_violated : ∃ p : Provider, p.total .GR .antineutrino 0 0 = .ok (.fin (-1)) ∧
    (getCrossSections [nullProvider] (some p) .antineutrino true 1 1 3 1).map (fun T => T.gr.map (·.sigma)) = .ok (some [.fin (-1)]) :=
  ⟨{ nullProvider with total := fun _ _ _ _ => .ok (.fin (-1)) }, rfl, by decide +kernel⟩

/-! ## Examples -/

/-- Totals 2, differentials 1. -/
def someProvider : Provider := ⟨fun _ _ _ _ => .ok (.fin 2), fun _ _ _ _ => .ok (.fin 2), fun _ _ _ _ _ => .ok (.fin 1), fun _ _ _ _ _ => .ok (.fin 1)⟩

/-- As in `c70_valid`: tables with a spectrum of one half. -/
example : (getCrossSections [someProvider] none .both false 1 1 3 2).map (fun T => ((((T.dis[0]?.bind (·[1]?)).bind (·[2]?)).bind (·[1]?)).map
    fun st => (st.total.nc, st.dNdE.map (·.cc)))) = .ok (some (.fin 2, [.fin (1 / 2)])) := by
  decide +kernel

/-- Totals that are not a number at the first energy. -/
def nanProvider : Provider := { someProvider with total := fun _ _ _ _ => .ok .nan }

/-- As in `c70_throws`. -/
example : nanProvider.Defined ∧ nanProvider.tot Dis.NC.cur .neutrino 1 0 = .ok .nan ∧ Invalid .nan ∧
    (getCrossSections [nanProvider] none .both false 1 1 3 2).map (fun _ => ()) = .throws := by
  refine ⟨⟨by simp [nanProvider], by simp [nanProvider, someProvider], by simp [nanProvider, someProvider], by simp [nanProvider, someProvider]⟩, rfl,
    fun x h => ?_, by decide +kernel⟩
  cases h

/-- As in `c70_accepts`. -/
example : someProvider.InOrder NT.both.types 4 5 := by
  intro nt _ flv _ e1 _ c
  refine ⟨.fin 2, by unfold Provider.tot; split <;> rfl, fun _ h => absurd (h 2 rfl) (by norm_num), fun e2 _ =>
    ⟨.fin 1, by unfold Provider.diff; split <;> rfl, fun _ => ⟨fun h => absurd (h 1 rfl) (by norm_num), fun _ h => by injection h with h; norm_num at h⟩⟩⟩

end Verif.XS
