import Verif.Atm.EarthModel
import Verif.Body.ProfileProps

/-!
# Property C111: neutrinos of an atmospheric object go from the top of the atmosphere of its Earth to the surface
-/

namespace Verif.Atm

open Bodies (Units Body Track Tab trackLength atmLength)

/-! ## Lemmas -/

theorem mapM_some {α β : Type} (f : α → β) : ∀ l : List α, (l.mapM fun a => some (f a)) = some (l.map f)
  | [] => rfl
  | a :: l => by
    rw [List.mapM_cons, mapM_some f l]
    rfl

theorem make_eq (u : Units) (b : Body) (h : ℝ) (hb : HasHeight b h) (costh : List ℝ) :
    Globe.make u b costh = some ⟨b, costh, costh.map fun c => (b, Bodies.mkAtmTrackCosine u c (6371 * u.km) (h * u.km))⟩ := by
  obtain ⟨t, ht⟩ := hb
  unfold Globe.make
  have : b.makeTrackWithCosine u = fun c => some (Bodies.mkAtmTrackCosine u c (6371 * u.km) (h * u.km)) := by
    funext c
    simp only [Body.makeTrackWithCosine, ht]
  rw [this, mapM_some]
  simp only [Option.map_some, List.map_map]
  rfl

theorem setHeight_hasHeight {b : Body} {h : ℝ} (hb : HasHeight b h) (h' : ℝ) : HasHeight (b.setAtmosphereHeight h') h' := by
  obtain ⟨t, ht⟩ := hb
  exact ⟨t, by simp only [Body.setAtmosphereHeight, ht]⟩

theorem hasHeight_unique {b : Body} {h h' : ℝ} (hb : HasHeight b h) (hb' : HasHeight b h') : h = h' := by
  obtain ⟨t, ht⟩ := hb
  obtain ⟨t', ht'⟩ := hb'
  rw [ht] at ht'
  injection ht'

/-- What an operation gives the object: an `EarthAtm` if it was one. -/
def EarthOp.Sound : EarthOp → Prop
  | .model b => ∃ h, HasHeight b h
  | .height _ => True

/-- All nodes hold the Earth of the object and the track made when it was constructed. -/
def KeepsTracks (u : Units) (h0 : ℝ) (costh : List ℝ) (g : Globe) : Prop :=
  g.costh = costh ∧ (∃ h, HasHeight g.earth h) ∧
    g.nodes = costh.map fun c => (g.earth, Bodies.mkAtmTrackCosine u c (6371 * u.km) (h0 * u.km))

theorem holds_step {u : Units} {h0 : ℝ} {costh : List ℝ} {g : Globe} (hg : KeepsTracks u h0 costh g) (op : EarthOp) (ho : op.Sound) :
    KeepsTracks u h0 costh (g.step op) := by
  obtain ⟨h1, ⟨h, h2⟩, h3⟩ := hg
  cases op with
  | model b =>
    refine ⟨h1, ho, ?_⟩
    show g.nodes.map _ = _
    rw [h3, List.map_map]
    rfl
  | height x =>
    refine ⟨h1, ⟨x, setHeight_hasHeight h2 x⟩, ?_⟩
    show g.nodes.map _ = _
    rw [h3, List.map_map]
    rfl

theorem holds_run {u : Units} {h0 : ℝ} {costh : List ℝ} : ∀ (ops : List EarthOp) {g : Globe}, KeepsTracks u h0 costh g → (∀ op ∈ ops, op.Sound) →
    KeepsTracks u h0 costh (g.run ops)
  | [], _, hg, _ => hg
  | op :: ops, _, hg, ho => holds_run ops (holds_step hg op (ho op List.mem_cons_self)) fun o h => ho o (List.mem_cons_of_mem _ h)

theorem radicand_pos (c R h : ℝ) (hR : 0 < R) (hh : 0 < h) : 0 ≤ (R + h) * (R + h) - R * R * (1 - c * c) := by
  nlinarith [mul_pos hR hh, mul_pos hh hh, mul_self_nonneg (R * c)]

/-- The square of the distance at the end of a track of another height. -/
theorem end_square (c R h L : ℝ) (hR : 0 < R) (hh : 0 < h) :
    (R + h) * (R + h) + L * L - (L + (√((R + h) * (R + h) - R * R * (1 - c * c)) + R * c)) * L =
      R * R + (√((R + h) * (R + h) - R * R * (1 - c * c)) + R * c) * (atmLength c R h - L) := by
  have hS := Real.mul_self_sqrt (radicand_pos c R h hR hh)
  unfold atmLength
  dsimp only
  generalize √((R + h) * (R + h) - R * R * (1 - c * c)) = S at hS
  linear_combination -hS

theorem root_above (c R h : ℝ) (hR : 0 < R) (hh : 0 < h) : 0 < √((R + h) * (R + h) - R * R * (1 - c * c)) + R * c := by
  have : -(R * c) < √((R + h) * (R + h) - R * R * (1 - c * c)) := by
    by_cases hc : 0 ≤ -(R * c)
    · rw [Real.lt_sqrt hc]
      nlinarith [mul_pos hR hh, mul_pos hh hh]
    · exact lt_of_lt_of_le (not_le.1 hc) (Real.sqrt_nonneg _)
  linarith

theorem length_strict (c R : ℝ) {h h' : ℝ} (hR : 0 < R) (hh : 0 < h) (hlt : h < h') : atmLength c R h < atmLength c R h' := by
  unfold atmLength
  dsimp only
  have : √((R + h) * (R + h) - R * R * (1 - c * c)) < √((R + h') * (R + h') - R * R * (1 - c * c)) := by
    apply Real.sqrt_lt_sqrt (radicand_pos c R h hR hh)
    nlinarith
  linarith

theorem length_km {u : Units} (hkm : 0 < u.km) (c R h : ℝ) : atmLength c (R * u.km) (h * u.km) = u.km * atmLength c R h := by
  unfold atmLength
  dsimp only
  rw [show (R * u.km + h * u.km) * (R * u.km + h * u.km) - R * u.km * (R * u.km) * (1 - c * c) =
    (u.km * u.km) * ((R + h) * (R + h) - R * R * (1 - c * c)) by ring, Real.sqrt_mul (by positivity),
    Real.sqrt_mul_self hkm.le]
  ring

/-- The end of a track made for height `h0`, seen by an Earth of height `h`. -/
theorem end_distance (u : Units) (hkm : 0 < u.km) (b : Body) (h h0 c : ℝ) (hb : HasHeight b h) (hh : 0 < h) :
    ∃ r, distanceAt u b (Bodies.mkAtmTrackCosine u c (6371 * u.km) (h0 * u.km))
        (Bodies.mkAtmTrackCosine u c (6371 * u.km) (h0 * u.km)).xend = some r ∧ 0 ≤ r ∧
      (h0 < h → 0 < h0 → 6371 < r) ∧ (h < h0 → r < 6371) ∧ (h = h0 → r = 6371) := by
  obtain ⟨t, ht⟩ := hb
  simp only [distanceAt, ht, Bodies.mkAtmTrackCosine]
  refine ⟨_, rfl, ?_⟩
  unfold Bodies.atmDistance
  rw [length_km hkm, mul_div_cancel_left₀ _ hkm.ne']
  dsimp only
  rw [end_square c 6371 h _ (by norm_num) hh]
  have hd := root_above c 6371 h (by norm_num) hh
  generalize hS : √((6371 + h) * (6371 + h) - 6371 * 6371 * (1 - c * c)) + 6371 * c = d at hd
  refine ⟨?_, ?_, ?_, ?_⟩
  · split
    · exact Real.sqrt_nonneg _
    · exact le_refl _
  · intro hlt h0p
    have hl := length_strict c 6371 (by norm_num) h0p hlt
    have hp := mul_pos hd (sub_pos.2 hl)
    rw [if_pos (by nlinarith), Real.lt_sqrt (by norm_num)]
    nlinarith
  · intro hlt
    have hl := length_strict c 6371 (by norm_num) hh hlt
    have hp := mul_pos hd (sub_pos.2 hl)
    split
    · rw [Real.sqrt_lt' (by norm_num)]
      nlinarith
    · norm_num
  · intro heq
    rw [heq, sub_self, mul_zero, add_zero, if_pos (by norm_num), Real.sqrt_mul_self (by norm_num)]

/-- The start of any track. -/
theorem start_distance (u : Units) (b : Body) (h c R H : ℝ) (hb : HasHeight b h) (hh : 0 < h) :
    distanceAt u b (Bodies.mkAtmTrackCosine u c R H) (Bodies.mkAtmTrackCosine u c R H).xini = some (6371 + h) := by
  obtain ⟨t, ht⟩ := hb
  simp only [distanceAt, ht, Bodies.mkAtmTrackCosine]
  unfold Bodies.atmDistance
  dsimp only
  rw [zero_div, mul_zero, mul_zero, add_zero, sub_zero, if_pos (by positivity), Real.sqrt_mul_self (by positivity)]

theorem mkEarthAtm_height {xs rho ye : List ℝ} {b : Body} (hb : Bodies.mkEarthAtm xs rho ye = .ok b) : HasHeight b 22 := by
  unfold Bodies.mkEarthAtm at hb
  cases ht : Tab.make xs rho ye with
  | ok t =>
    rw [ht] at hb
    have : b = ⟨.earthAtm t 6371 22 (6371 + 22), false⟩ := (Outcome.ok.inj hb).symm
    exact ⟨t, by rw [this]⟩
  | throws => rw [ht] at hb; cases hb
  | ub => rw [ht] at hb; cases hb

/-- An Earth the constructor makes from a table of three rows. -/
theorem some_earth : ∃ b, Bodies.mkEarthAtm [0, 1 / 2, 1] [13, 5, 3] [1 / 2, 1 / 2, 1 / 2] = .ok b := by
  obtain ⟨t, ht⟩ := Bodies.tab_some [0, 1 / 2, 1] [13, 5, 3] [1 / 2, 1 / 2, 1 / 2] rfl rfl (by decide) (by norm_num)
  simp only [Bodies.mkEarthAtm, ht, Outcome.map]
  exact ⟨_, rfl⟩

/-- The nodes of an object that was constructed with height `h0` and holds an Earth of height `h`. -/
theorem holds_nodes {u : Units} (hkm : 0 < u.km) {h0 h : ℝ} {costh : List ℝ} {g : Globe} (hg : KeepsTracks u h0 costh g) (hb : HasHeight g.earth h)
    (hh : 0 < h) (hh0 : 0 < h0) (p : Body × Track) (hp : p ∈ g.nodes) :
    p.1 = g.earth ∧ FromTheTop u p ∧ ∃ r, distanceAt u p.1 p.2 p.2.xend = some r ∧ (h0 < h ↔ 6371 < r) ∧ (h < h0 ↔ r < 6371) := by
  rw [hg.2.2] at hp
  obtain ⟨c, _, rfl⟩ := List.mem_map.1 hp
  refine ⟨rfl, fun h' hb' => ?_, ?_⟩
  · have := hasHeight_unique hb hb'
    subst this
    exact start_distance u g.earth h c _ _ hb hh
  · obtain ⟨r, hr, _, h1, h2, h3⟩ := end_distance u hkm g.earth h h0 c hb hh
    refine ⟨r, hr, ⟨fun hl => h1 hl hh0, fun hl => ?_⟩, ⟨h2, fun hl => ?_⟩⟩
    · rcases lt_trichotomy h h0 with hc | hc | hc
      · exact absurd (h2 hc) (not_lt.2 hl.le)
      · exact absurd (h3 hc) hl.ne'
      · exact hc
    · rcases lt_trichotomy h h0 with hc | hc | hc
      · exact hc
      · exact absurd (h3 hc) hl.ne
      · exact absurd (h1 hc hh0) (not_lt.2 hl.le)

theorem holds_make {u : Units} {b : Body} {h : ℝ} (hb : HasHeight b h) {costh : List ℝ} {g : Globe} (hg : Globe.make u b costh = some g) :
    KeepsTracks u h costh g := by
  rw [make_eq u b h hb] at hg
  have := Option.some.inj hg
  subst this
  exact ⟨rfl, ⟨h, hb⟩, rfl⟩

/-! ## C111 -/

/-- C111: as constructed, with whatever height the Earth has at that moment, the neutrinos of every node go from the top of the atmosphere to the
surface. -/
theorem c111_constructed (u : Units) (hkm : 0 < u.km) (b : Body) (h : ℝ) (hb : HasHeight b h) (hh : 0 < h) (costh : List ℝ) :
    ∃ g, Globe.make u b costh = some g ∧ g.nodes.length = costh.length ∧ ∀ p ∈ g.nodes, p.1 = b ∧ FromTheTop u p ∧ ToTheSurface u p := by
  refine ⟨_, make_eq u b h hb costh, by simp, ?_⟩
  intro p hp
  obtain ⟨h1, h2, r, h3, h4, h5⟩ := holds_nodes hkm (holds_make hb (make_eq u b h hb costh)) hb hh hh p hp
  refine ⟨h1, h2, ?_⟩
  unfold ToTheSurface
  rw [h3, le_antisymm (not_lt.1 fun hc => lt_irrefl _ (h4.2 hc)) (not_lt.1 fun hc => lt_irrefl _ (h5.2 hc))]

/-- The Earth the constructor makes from a table. -/
example (u : Units) (hkm : 0 < u.km) : ∃ b g, Bodies.mkEarthAtm [0, 1 / 2, 1] [13, 5, 3] [1 / 2, 1 / 2, 1 / 2] = .ok b ∧ Globe.make u b [-1, 0, 1] = some g ∧
    g.nodes.length = 3 ∧ ∀ p ∈ g.nodes, p.1 = b ∧ FromTheTop u p ∧ ToTheSurface u p := by
  obtain ⟨b, hb⟩ := some_earth
  obtain ⟨g, h1, h2, h3⟩ := c111_constructed u hkm b 22 (mkEarthAtm_height hb) (by norm_num) [-1, 0, 1]
  exact ⟨b, g, hb, h1, h2, h3⟩

/-- C111, the part that holds of every history: after any sequence of changes of the Earth all nodes hold the current Earth, their neutrinos
start at the top of its atmosphere, and they end at the surface exactly if its height is the one the object was constructed with. Missing is
that they end at the surface for the other heights. -/
theorem c111_history_partial (u : Units) (hkm : 0 < u.km) (b : Body) (h0 : ℝ) (hb : HasHeight b h0) (hh0 : 0 < h0) (costh : List ℝ) (g : Globe)
    (hg : Globe.make u b costh = some g) (ops : List EarthOp) (hops : ∀ op ∈ ops, op.Sound) (h : ℝ) (hh : 0 < h)
    (he : HasHeight (g.run ops).earth h) :
    (g.run ops).nodes.length = costh.length ∧
      ∀ p ∈ (g.run ops).nodes, p.1 = (g.run ops).earth ∧ FromTheTop u p ∧ (ToTheSurface u p ↔ h = h0) := by
  have hr := holds_run ops (holds_make hb hg) hops
  refine ⟨by rw [hr.2.2, List.length_map], fun p hp => ?_⟩
  obtain ⟨h1, h2, r, h3, h4, h5⟩ := holds_nodes hkm hr he hh hh0 p hp
  refine ⟨h1, h2, ?_⟩
  unfold ToTheSurface
  rw [h3, Option.some.injEq]
  constructor
  · intro hc
    subst hc
    exact le_antisymm (not_lt.1 fun hc => lt_irrefl _ (h4.1 hc)) (not_lt.1 fun hc => lt_irrefl _ (h5.1 hc))
  · intro hc
    subst hc
    exact le_antisymm (not_lt.1 fun hc => lt_irrefl _ (h4.2 hc)) (not_lt.1 fun hc => lt_irrefl _ (h5.2 hc))

/-- Raising the atmosphere to 30 km and putting it back to 22 km: the neutrinos arrive again. -/
example (u : Units) (hkm : 0 < u.km) : ∃ b g, HasHeight b 22 ∧ Globe.make u b [-1, 0, 1] = some g ∧
    (∀ p ∈ (g.run [.height 30]).nodes, ¬ToTheSurface u p) ∧ ∀ p ∈ (g.run [.height 30, .height 22]).nodes, ToTheSurface u p := by
  obtain ⟨b, hb⟩ := some_earth
  have hb := mkEarthAtm_height hb
  obtain ⟨g, h1, _, _⟩ := c111_constructed u hkm b 22 hb (by norm_num) [-1, 0, 1]
  obtain ⟨h', hh'⟩ := (holds_make hb h1).2.1
  refine ⟨b, g, hb, h1, fun p hp hs => ?_, fun p hp => ?_⟩
  · have := ((c111_history_partial u hkm b 22 hb (by norm_num) _ g h1 [.height 30] (by simp [EarthOp.Sound]) 30 (by norm_num)
      (setHeight_hasHeight hh' 30)).2 p hp).2.2.1 hs
    norm_num at this
  · exact ((c111_history_partial u hkm b 22 hb (by norm_num) _ g h1 [.height 30, .height 22] (by simp [EarthOp.Sound]) 22 (by norm_num)
      (setHeight_hasHeight (setHeight_hasHeight hh' 30) 22)).2 p hp).2.2.2 rfl

/-- C111: the Earth the object holds after any sequence of changes is the one last given, with the height last set. -/
theorem c111_current (g : Globe) (ops : List EarthOp) (b : Body) (h : ℝ) :
    (g.run (ops ++ [.model b])).earth = b ∧
      ((∃ h', HasHeight (g.run ops).earth h') → HasHeight (g.run (ops ++ [.height h])).earth h) := by
  constructor
  · unfold Globe.run
    rw [List.foldl_append]
    rfl
  · rintro ⟨h', hh⟩
    unfold Globe.run at hh ⊢
    rw [List.foldl_append]
    exact setHeight_hasHeight hh h

example : ∃ (g : Globe) (b : Body), HasHeight b 22 ∧ HasHeight (g.run [.model b, .height 30]).earth 30 := by
  obtain ⟨b, hb⟩ := some_earth
  have hb := mkEarthAtm_height hb
  let g : Globe := ⟨b, [], []⟩
  exact ⟨g, b, hb, (c111_current g [.model b] b 30).2 ⟨22, hb⟩⟩

/-- C111 fails after `Set_EarthModel` with an Earth whose atmosphere has another height: with a higher atmosphere the neutrinos of every node
stop above the surface, with a lower one they go on below it. -/
theorem c111_replaced_violated (u : Units) (hkm : 0 < u.km) (b : Body) (h0 : ℝ) (hb : HasHeight b h0) (hh0 : 0 < h0) (costh : List ℝ)
    (g : Globe) (hg : Globe.make u b costh = some g) (b' : Body) (h : ℝ) (hb' : HasHeight b' h) (hh : 0 < h) :
    (g.setEarthModel b').nodes.length = costh.length ∧
      ∀ p ∈ (g.setEarthModel b').nodes, ∃ r, distanceAt u p.1 p.2 p.2.xend = some r ∧ (h0 < h → 6371 < r) ∧ (h < h0 → r < 6371) := by
  have hl : (g.setEarthModel b').nodes.length = costh.length := by
    simp [Globe.setEarthModel, (holds_make hb hg).2.2]
  refine ⟨hl, fun p hp => ?_⟩
  obtain ⟨_, _, r, h3, h4, h5⟩ := holds_nodes hkm (holds_step (holds_make hb hg) (.model b') ⟨h, hb'⟩) hb' hh hh0 p hp
  exact ⟨r, h3, h4.1, h5.1⟩

/-- Another Earth whose atmosphere was raised to 30 km: the neutrinos stop above the surface. -/
example (u : Units) (hkm : 0 < u.km) : ∃ b b' g, HasHeight b 22 ∧ HasHeight b' 30 ∧ Globe.make u b [-1, 0, 1] = some g ∧
    (g.setEarthModel b').nodes.length = 3 ∧
    ∀ p ∈ (g.setEarthModel b').nodes, ∃ r, distanceAt u p.1 p.2 p.2.xend = some r ∧ 6371 < r := by
  obtain ⟨b, hb⟩ := some_earth
  have hb := mkEarthAtm_height hb
  obtain ⟨g, h1, _, _⟩ := c111_constructed u hkm b 22 hb (by norm_num) [-1, 0, 1]
  obtain ⟨h2, h3⟩ := c111_replaced_violated u hkm b 22 hb (by norm_num) _ g h1 _ 30 (setHeight_hasHeight hb 30) (by norm_num)
  refine ⟨b, _, g, hb, setHeight_hasHeight hb 30, h1, h2, fun p hp => ?_⟩
  obtain ⟨r, hr, h4, _⟩ := h3 p hp
  exact ⟨r, hr, h4 (by norm_num)⟩

/-- C111 fails in the same way after `SetAtmosphereHeight` of the Earth the object holds. -/
theorem c111_raised_violated (u : Units) (hkm : 0 < u.km) (b : Body) (h0 : ℝ) (hb : HasHeight b h0) (hh0 : 0 < h0) (costh : List ℝ)
    (g : Globe) (hg : Globe.make u b costh = some g) (h : ℝ) (hh : 0 < h) :
    (g.setAtmosphereHeight h).nodes.length = costh.length ∧
      ∀ p ∈ (g.setAtmosphereHeight h).nodes, ∃ r, distanceAt u p.1 p.2 p.2.xend = some r ∧ (h0 < h → 6371 < r) ∧ (h < h0 → r < 6371) := by
  have hm := holds_make hb hg
  have hl : (g.setAtmosphereHeight h).nodes.length = costh.length := by
    simp [Globe.setAtmosphereHeight, hm.2.2]
  refine ⟨hl, fun p hp => ?_⟩
  have he : HasHeight (g.step (.height h)).earth h := by
    obtain ⟨h', hh'⟩ := hm.2.1
    exact setHeight_hasHeight hh' h
  obtain ⟨_, _, r, h3, h4, h5⟩ := holds_nodes hkm (holds_step hm (.height h) trivial) he hh hh0 p hp
  exact ⟨r, h3, h4.1, h5.1⟩

/-- The atmosphere lowered to 10 km: the neutrinos end below the surface. -/
example (u : Units) (hkm : 0 < u.km) : ∃ b g, HasHeight b 22 ∧ Globe.make u b [-1, 0, 1] = some g ∧
    (g.setAtmosphereHeight 10).nodes.length = 3 ∧
    ∀ p ∈ (g.setAtmosphereHeight 10).nodes, ∃ r, distanceAt u p.1 p.2 p.2.xend = some r ∧ r < 6371 := by
  obtain ⟨b, hb⟩ := some_earth
  have hb := mkEarthAtm_height hb
  obtain ⟨g, h1, _, _⟩ := c111_constructed u hkm b 22 hb (by norm_num) [-1, 0, 1]
  obtain ⟨h2, h3⟩ := c111_raised_violated u hkm b 22 hb (by norm_num) _ g h1 10 (by norm_num)
  refine ⟨b, g, hb, h1, h2, fun p hp => ?_⟩
  obtain ⟨r, hr, _, h4⟩ := h3 p hp
  exact ⟨r, hr, h4 (by norm_num)⟩

end Verif.Atm
