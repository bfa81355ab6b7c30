import Verif.XS.FilesLemmas

/-! C67: cross-section tables through text and HDF5 files. -/

namespace Verif.XS

open Verif.Interp

/-! ## Specification -/

/-- Two objects give the same cross sections, whatever is asked. -/
def SameCrossSections (t t' : Tables) : Prop :=
  ∀ f nt c, (∀ E, total t' f nt c E = total t f nt c E) ∧ ∀ E1 E2, single t' f nt c E1 E2 = single t f nt c E1 E2

/-- A flavour whose eight tables are all over the energies from `lo` to `hi` (as logarithms). -/
structure Over (lo hi : ℝ) (p : PerFlavor) : Prop where
  s : ∀ k, ∃ x y, ofVectors x y = .ok (p.s k) ∧ x.head? = some lo ∧ x.getLast? = some hi
  d : ∀ k, ∃ g xs ys, BiCubic.make g xs ys = .ok (p.d k) ∧ xs.head? = some lo ∧ xs.getLast? = some hi

/-- The differential tables have as many energies as z values. -/
def Square (p : PerFlavor) : Prop := ∀ k, (p.d k).data.n0 = (p.d k).data.n1

/-- `n` values from 0 to 1 in equal steps. -/
noncomputable def evenly (n : Nat) : List ℝ := (List.range n).map fun (j : Nat) => (j : ℝ) / ((n - 1 : Nat) : ℝ)

/-- All tables of a flavour over the same energies and z values. -/
structure OnGrid (en zs : List ℝ) (p : PerFlavor) : Prop where
  s : ∀ k, ∃ y, ofVectors en y = .ok (p.s k)
  d : ∀ k, ∃ g, BiCubic.make g en zs = .ok (p.d k)

/-- All stored numbers are exact as `float`. -/
structure Exact (fl : ℝ → ℝ) (p : PerFlavor) : Prop where
  s : ∀ k, ∀ v ∈ (p.s k).ordinates, fl v = v
  d : ∀ k i j, i < (p.d k).data.n0 → j < (p.d k).data.n1 → fl ((p.d k).data.at_ i j) = (p.d k).data.at_ i j

/-! ## Lemmas -/

/-- The same totals, and the same differentials as functions. -/
def SamePer (p p' : PerFlavor) : Prop := ∀ k, p'.s k = p.s k ∧ ∀ x y, (p'.d k).eval x y = (p.d k).eval x y

theorem same_of_per {t t' : Tables} (h1 : t'.Emin = t.Emin) (h2 : t'.Emax = t.Emax)
    (h : ∀ f, f < 3 → ∃ p p', t.data f = some p ∧ t'.data f = some p' ∧ SamePer p p') : SameCrossSections t t' := by
  intro f nt c
  by_cases hf : f < 3
  · obtain ⟨p, p', hp, hp', hs⟩ := h f hf
    have key : ∀ again E, totalWith again t' f nt c E = totalWith again t f nt c E := by
      intro again E
      unfold totalWith
      simp only [h1, h2, getFlavor, hp, hp', Outcome.bind_ok, (hs _).1]
    constructor
    · intro E
      unfold total
      rw [key]
      congr 1
      funext E'
      exact key _ _
    · intro E1 E2
      unfold single
      simp only [h1, h2, getFlavor, hp, hp', Outcome.bind_ok, (hs _).2]
  · exact ⟨fun E => by rw [(c65_sterile_zero t' f (by omega) nt c E 0 0).1, (c65_sterile_zero t f (by omega) nt c E 0 0).1],
      fun E1 E2 => by rw [(c65_sterile_zero t' f (by omega) nt c 0 E1 E2).2, (c65_sterile_zero t f (by omega) nt c 0 E1 E2).2]⟩

/-- Only the totals. -/
theorem totals_of_per {t t' : Tables} (h1 : t'.Emin = t.Emin) (h2 : t'.Emax = t.Emax)
    (h : ∀ f, f < 3 → ∃ p p', t.data f = some p ∧ t'.data f = some p' ∧ ∀ k, p'.s k = p.s k) (f : Nat) (nt : NType) (c : Cur) (E : ℝ) :
    total t' f nt c E = total t f nt c E := by
  by_cases hf : f < 3
  · obtain ⟨p, p', hp, hp', hs⟩ := h f hf
    have key : ∀ again E, totalWith again t' f nt c E = totalWith again t f nt c E := by
      intro again E
      unfold totalWith
      simp only [h1, h2, getFlavor, hp, hp', Outcome.bind_ok, hs _]
    unfold total
    rw [key]
    congr 1
    funext E'
    exact key _ _
  · rw [(c65_sterile_zero t' f (by omega) nt c E 0 0).1, (c65_sterile_zero t f (by omega) nt c E 0 0).1]

theorem made_sizes {g : Grid2 ℝ} {xs ys : List ℝ} {b : BiCubic ℝ} (h : BiCubic.make g xs ys = .ok b) :
    b.data = g ∧ b.xs = xs ∧ b.ys = ys ∧ xs.length = g.n1 ∧ ys.length = g.n0 ∧
    ((g.n0 ≠ 0 ∨ g.n1 ≠ 0) → 3 ≤ xs.length ∧ xs.Pairwise (· < ·) ∧ 3 ≤ ys.length ∧ ys.Pairwise (· < ·)) := by
  obtain ⟨-, h1, h2, h3⟩ := make_congr h rfl rfl fun _ _ _ _ => rfl
  have hc := (c25_constructor_throws_iff g xs ys).1
  rw [h] at hc
  have hc := mt hc.2 (by simp)
  simp only [not_or, not_not] at hc
  refine ⟨h1, h2, h3, hc.1, hc.2.1, ?_⟩
  intro hne
  have h3 := not_and.1 hc.2.2 hne
  rw [not_or, not_not, not_not] at h3
  exact ⟨h3.1.1, h3.1.2, h3.2.1, h3.2.2⟩

theorem evenly_length (n : Nat) : (evenly n).length = n := by simp [evenly]

theorem evenly_get (n j : Nat) (h : j < n) : (evenly n)[j]? = some ((j : ℝ) / ((n - 1 : Nat) : ℝ)) := by
  simp [evenly, h]

theorem evenly_increasing (n : Nat) (h : 3 ≤ n) : (evenly n).Pairwise (· < ·) := by
  unfold evenly
  rw [List.pairwise_map]
  refine List.pairwise_lt_range.imp ?_
  intro a b hab
  have : (0 : ℝ) < ((n - 1 : Nat) : ℝ) := by exact_mod_cast (by omega : 0 < n - 1)
  exact (div_lt_div_iff_of_pos_right this).2 (by exact_mod_cast hab)

/-- What a differential table becomes on its way through a text file: over the same energies and evenly spaced z values, with the values
transposed. -/
def Turned (b b' : BiCubic ℝ) : Prop :=
  ∃ g', BiCubic.make g' b.xs (evenly b.xs.length) = .ok b' ∧ g'.n0 = b.xs.length ∧ g'.n1 = b.xs.length ∧
    ∀ i j, i < b.xs.length → j < b.xs.length → g'.at_ j i = b.data.at_ i j

theorem read2D_write2D {g : Grid2 ℝ} {xs ys : List ℝ} {b : BiCubic ℝ} (h : BiCubic.make g xs ys = .ok b) (hsq : g.n0 = g.n1)
    {lo hi : ℝ} (hlo : xs.head? = some lo) (hhi : xs.getLast? = some hi) :
    ∃ rows b', write2D id b = .ok rows ∧ read2D rows = .ok (b', pow10 lo, pow10 hi) ∧ Turned b b' := by
  obtain ⟨hd, hx, hy, hl1, hl2, hinc⟩ := made_sizes h
  have hpos : 0 < xs.length := by
    cases xs with
    | nil => simp at hlo
    | cons a as => simp
  obtain ⟨h3, hp, h3', -⟩ := hinc (by omega)
  have hw := write2D_spec id b g.at_ (by
    intro i j hi hj
    rw [hd]
    rw [hx] at hi
    rw [hy] at hj
    exact cellAt_inside g i j (by omega) (by omega))
  have hr := read2D_rows xs ys g.at_ h3 hp h3' hlo hhi
  simp only [hx, hy, id] at hw
  have hn : ys.length = xs.length := by omega
  have hval : ∀ i j, i < xs.length → j < xs.length →
      (fun j i => logOrTiny ((((List.range xs.length).flatMap fun i => (List.range ys.length).map fun j =>
        [pow10 (xs.getD i 0) / GeV, ys.getD j 0, pow10 (g.at_ i j)]).map (·.getD 2 0)).getD (i * ys.length + j) 0)) j i = g.at_ i j := by
    intro i j hi hj
    exact rows_value xs ys g.at_ i j hi (by omega)
  generalize (fun j i => logOrTiny ((((List.range xs.length).flatMap fun i => (List.range ys.length).map fun j =>
        [pow10 (xs.getD i 0) / GeV, ys.getD j 0, pow10 (g.at_ i j)]).map (·.getD 2 0)).getD (i * ys.length + j) 0)) = at' at hr hval
  have hmk : ∃ b', BiCubic.make ⟨ys.length, xs.length, at'⟩ xs (evenly ys.length) = .ok b' := by
    have hc := c25_constructor_throws_iff ⟨ys.length, xs.length, at'⟩ xs (evenly ys.length)
    cases e : BiCubic.make ⟨ys.length, xs.length, at'⟩ xs (evenly ys.length) with
    | ok b' => exact ⟨b', rfl⟩
    | ub => exact absurd e hc.2
    | throws =>
      rcases hc.1.1 e with hc | hc | ⟨-, hc | hc⟩
      · exact absurd rfl hc
      · exact absurd (evenly_length _) hc
      · exact absurd ⟨h3, hp⟩ hc
      · exact absurd ⟨by rw [evenly_length]; omega, evenly_increasing _ (by omega)⟩ hc
  obtain ⟨b', hb'⟩ := hmk
  refine ⟨_, b', hw, ?_, ⟨ys.length, xs.length, at'⟩, ?_, ?_, ?_, ?_⟩
  · rw [hr]
    unfold evenly at hb'
    rw [hb']
    rfl
  · rw [hx, ← hn]
    rw [hn] at hb' ⊢
    exact hb'
  · rw [hx]; exact hn
  · rw [hx]
  · intro i j hi hj
    rw [hx] at hi hj
    rw [hd]
    exact hval i j hi hj

theorem fin4_get {α : Type} {a b c d : α} {P : Fin 4 → α → Prop} (h0 : P 0 a) (h1 : P 1 b) (h2 : P 2 c) (h3 : P 3 d) :
    ∀ k, P k (fin4 a b c d k) := by
  intro k
  match k with
  | 0 => exact h0
  | 1 => exact h1
  | 2 => exact h2
  | 3 => exact h3

theorem fin4_eta {α : Type} (f : Fin 4 → α) : fin4 (f 0) (f 1) (f 2) (f 3) = f := by
  funext k
  exact fin4_get (P := fun k a => a = f k) rfl rfl rfl rfl k

theorem checked_ok {α : Type} (a : α) (r : ℝ × ℝ) : checked r (.ok (a, r.1, r.2)) = .ok a := by
  unfold checked
  rw [Outcome.bind_ok, if_neg (by simp)]

/-- What the tables of a flavour become on their way through text files. -/
def TurnedPer (p p' : PerFlavor) : Prop := ∀ k, p'.s k = p.s k ∧ Turned (p.d k) (p'.d k)

theorem flavour_text {lo hi : ℝ} {p : PerFlavor} (ho : Over lo hi p) (hsq : Square p) :
    ∃ x, writeFlavor id p = .ok x ∧ x.complete = true ∧ ∃ p', TurnedPer p p' ∧
      ∀ range, range = none ∨ range = some (pow10 lo, pow10 hi) → readFlavorText x range = .ok (p', pow10 lo, pow10 hi) := by
  have hd : ∀ k, ∃ rows b', write2D id (p.d k) = .ok rows ∧ read2D rows = .ok (b', pow10 lo, pow10 hi) ∧ Turned (p.d k) b' := by
    intro k
    obtain ⟨g, xs, ys, hm, h1, h2⟩ := ho.d k
    have := hsq k
    rw [(made_sizes hm).1] at this
    exact read2D_write2D hm this h1 h2
  choose rows b' hw hr ht using hd
  have hs : ∀ k, read1D (write1D id (p.s k)) = .ok (p.s k, pow10 lo, pow10 hi) := by
    intro k
    obtain ⟨x, y, hm, h1, h2⟩ := ho.s k
    exact read1D_write1D hm h1 h2
  refine ⟨⟨fun k => some (write1D id (p.s k)), fin4 (some (rows 0)) (some (rows 1)) (some (rows 2)) (some (rows 3))⟩,
    by unfold writeFlavor; simp only [hw, Outcome.bind_ok], ?_, ⟨p.s, b'⟩, fun k => ⟨rfl, ht k⟩, ?_⟩
  · simp [TextSet.complete, List.finRange, fin4]
  · intro range hrange
    have hrg : (if unset range then (pow10 lo, pow10 hi) else range.getD (0, 0)) = (pow10 lo, pow10 hi) := by
      rcases hrange with rfl | rfl
      · rfl
      · split <;> rfl
    unfold readFlavorText
    simp only [file, fin4, Outcome.bind_ok, hs, hr, hrg]
    have ck := fun {α : Type} (a : α) => checked_ok a (pow10 lo, pow10 hi)
    simp only at ck
    simp only [ck, Outcome.bind_ok]
    rw [fin4_eta p.s, fin4_eta b']

/-! ## Text files -/

/-- C67 through text files, exactly, for square tables and numbers printed exactly: the totals are kept; each differential table comes back
transposed, and over evenly spaced z values: the value at energy `i` and z number `j` is the one that was at energy `j` and z number `i`. -/
theorem c67_text_turns (t : Tables) (lo hi : ℝ) (hlo : pow10 lo = t.Emin) (hhi : pow10 hi = t.Emax) (p : Nat → PerFlavor)
    (hp : ∀ f, f < 3 → t.data f = some (p f) ∧ Over lo hi (p f) ∧ Square (p f)) :
    ∃ (files : TextFiles) (t' : Tables) (p' : Nat → PerFlavor), writeText id t = .ok files ∧ fromText files = .ok t' ∧ t'.Emin = t.Emin ∧ t'.Emax = t.Emax ∧
      (∀ f nt c E, total t' f nt c E = total t f nt c E) ∧
      ∀ f, f < 3 → t'.data f = some (p' f) ∧ TurnedPer (p f) (p' f) ∧ ∀ (k : Fin 4) (i j : Nat) (x x' z : ℝ), ((p f).d k).xs[i]? = some x →
        ((p f).d k).xs[j]? = some x' → ((p f).d k).ys[i]? = some z →
        ((p' f).d k).eval x ((j : ℝ) / ((((p f).d k).xs.length - 1 : Nat) : ℝ)) = ((p f).d k).eval x' z := by
  obtain ⟨h0, o0, q0⟩ := hp 0 (by omega)
  obtain ⟨h1, o1, q1⟩ := hp 1 (by omega)
  obtain ⟨h2, o2, q2⟩ := hp 2 (by omega)
  obtain ⟨x0, w0, c0, p0, t0, r0⟩ := flavour_text o0 q0
  obtain ⟨x1, w1, c1, p1, t1, r1⟩ := flavour_text o1 q1
  obtain ⟨x2, w2, c2, p2, t2, r2⟩ := flavour_text o2 q2
  have hread : fromText ⟨TextSet.empty, fin3 x0 x1 x2⟩ = .ok ⟨pow10 lo, pow10 hi, three p0 p1 p2⟩ := by
    unfold fromText
    rw [if_neg (by simp [TextSet.complete, TextSet.empty, List.finRange])]
    simp only [fin3, c0, c1, c2, Bool.and_self, if_true]
    simp only [r0 none (Or.inl rfl), Outcome.bind_ok, r1 _ (Or.inr rfl), r2 _ (Or.inr rfl)]
  have hper : ∀ f, f < 3 → ∃ q q', t.data f = some q ∧ (three p0 p1 p2) f = some q' ∧ TurnedPer q q' ∧ q = p f := by
    intro f hf
    match f, hf with
    | 0, _ => exact ⟨_, _, h0, rfl, t0, rfl⟩
    | 1, _ => exact ⟨_, _, h1, rfl, t1, rfl⟩
    | 2, _ => exact ⟨_, _, h2, rfl, t2, rfl⟩
  refine ⟨_, _, fun f => ((three p0 p1 p2) f).getD p0, ?_, hread, hlo, hhi, ?_, ?_⟩
  · unfold writeText
    simp only [getFlavor, h0, h1, h2, Outcome.bind_ok, w0, w1, w2]
  · intro f nt c E
    refine totals_of_per hlo hhi ?_ f nt c E
    intro f hf
    obtain ⟨q, q', hq, hq', ht, -⟩ := hper f hf
    exact ⟨q, q', hq, hq', fun k => (ht k).1⟩
  · intro f hf
    obtain ⟨q, q', hq, hq', ht, hqp⟩ := hper f hf
    subst hqp
    dsimp only
    rw [hq']
    refine ⟨rfl, ht, ?_⟩
    intro k i j x x' z hx hx' hz
    obtain ⟨-, ov, sq⟩ := hp f hf
    obtain ⟨g, xs, ys, hm, -, -⟩ := ov.d k
    obtain ⟨g', hm', e0, e1, hv⟩ := (ht k).2
    have hi : i < ((p f).d k).xs.length := (List.getElem?_eq_some_iff.1 hx).1
    have hj : j < ((p f).d k).xs.length := (List.getElem?_eq_some_iff.1 hx').1
    obtain ⟨md, mx, my, -⟩ := made_sizes hm
    rw [Option.getD_some, c25_reproduces_nodes g' _ _ _ hm' i j _ _ hx (evenly_get _ j hj), hv i j hi hj, md]
    rw [mx] at hx'
    rw [my] at hz
    rw [c25_reproduces_nodes g xs ys _ hm j i _ _ hx' hz]

/-- C67 through text files, partial: square symmetric tables over evenly spaced z values come back as they were. Missing: all others, and
numbers that six digits do not give exactly; see the violations below. -/
theorem c67_text_partial (t : Tables) (lo hi : ℝ) (hlo : pow10 lo = t.Emin) (hhi : pow10 hi = t.Emax) (p : Nat → PerFlavor)
    (hp : ∀ f, f < 3 → t.data f = some (p f) ∧ Over lo hi (p f) ∧ Square (p f) ∧ ∀ k, ((p f).d k).ys = evenly ((p f).d k).ys.length ∧
      ∀ i j, i < ((p f).d k).data.n0 → j < ((p f).d k).data.n0 → ((p f).d k).data.at_ i j = ((p f).d k).data.at_ j i) :
    ∃ files t', writeText id t = .ok files ∧ fromText files = .ok t' ∧ t'.Emin = t.Emin ∧ t'.Emax = t.Emax ∧ SameCrossSections t t' := by
  obtain ⟨files, t', p', hw, hr, h1, h2, -, hd⟩ := c67_text_turns t lo hi hlo hhi p fun f hf => ⟨(hp f hf).1, (hp f hf).2.1, (hp f hf).2.2.1⟩
  refine ⟨files, t', hw, hr, h1, h2, same_of_per h1 h2 ?_⟩
  intro f hf
  obtain ⟨hd', ht, -⟩ := hd f hf
  obtain ⟨hpd, ov, sq, hsym⟩ := hp f hf
  refine ⟨_, _, hpd, hd', fun k => ⟨(ht k).1, ?_⟩⟩
  obtain ⟨g', hm', e0, e1, hv⟩ := (ht k).2
  obtain ⟨g, xs, ys, hm, -, -⟩ := ov.d k
  obtain ⟨md, mx, my, l1, l2, -⟩ := made_sizes hm
  have hsq := sq k
  rw [md] at hsq
  have hys : evenly ((p f).d k).xs.length = ys := by
    have := (hsym k).1
    rw [my] at this
    rw [this, mx]
    congr 1
    omega
  rw [hys, mx] at hm'
  have hag : ∀ i j, i < g.n0 → j < g.n1 → g'.at_ i j = g.at_ i j := by
    intro i j hi hj
    rw [hv j i (by rw [mx]; omega) (by rw [mx]; omega), (hsym k).2 _ _ (by rw [md]; omega) (by rw [md]; omega), md]
  have he0 : g'.n0 = g.n0 := by rw [e0, mx]; omega
  have he1 : g'.n1 = g.n1 := by rw [e1, mx]; omega
  intro x y
  have := (make_congr hm he0 he1 hag).1
  rw [hm'] at this
  rw [Outcome.ok.inj this]
  exact eval_withData hm he0 he1 hag x y

/-! ## HDF5 files -/

theorem flavour_hdf {fl : ℝ → ℝ} {en zs : List ℝ} {p : PerFlavor} (hg : OnGrid en zs p) (hsq : Square p) (hx : Exact fl p) :
    ∃ p', readFlavorHDF5 en zs (writeFlavorHDF5 fl p) = .ok p' ∧ SamePer p p' := by
  have hs : ∀ k, readTotal en ((p.s k).ordinates.map fl) = .ok (p.s k) := by
    intro k
    obtain ⟨y, hy⟩ := hg.s k
    have hm : (p.s k).ordinates.map fl = (p.s k).ordinates := by
      conv_rhs => rw [← List.map_id (p.s k).ordinates]
      exact List.map_congr_left fun v hv => hx.s k v hv
    rw [hm, (c21_accessors en y _ hy).2]
    unfold ofVectors at hy
    by_cases hl : en.length = y.length
    · rw [if_pos hl] at hy
      unfold readTotal
      rw [if_neg (by omega), hy]
    · rw [if_neg hl] at hy
      cases hy
  have hd : ∀ k, ∃ b', readDifferential en zs ⟨(p.d k).data.n0, (p.d k).data.n1, fun i j => fl ((p.d k).data.at_ i j)⟩ = .ok b' ∧
      ∀ x y, b'.eval x y = (p.d k).eval x y := by
    intro k
    obtain ⟨g, hm⟩ := hg.d k
    obtain ⟨md, mx, my, l1, l2, -⟩ := made_sizes hm
    have hq := hsq k
    have he := hx.d k
    rw [md] at hq he ⊢
    have mc := make_congr (g' := ⟨g.n0, g.n1, fun i j => fl (g.at_ i j)⟩) hm rfl rfl he
    refine ⟨_, ?_, fun x y => eval_withData (g' := ⟨g.n0, g.n1, fun i j => fl (g.at_ i j)⟩) hm rfl rfl he x y⟩
    unfold readDifferential
    rw [if_neg (by dsimp only; omega), if_neg (by dsimp only; omega)]
    exact mc.1
  choose b' hb hev using hd
  refine ⟨⟨p.s, b'⟩, ?_, fun k => ⟨rfl, hev k⟩⟩
  unfold readFlavorHDF5 writeFlavorHDF5
  simp only [hs, hb, Outcome.bind_ok]
  rw [fin4_eta p.s, fin4_eta b']

/-- The file that is written. -/
def stored (fl : ℝ → ℝ) (first e ta : PerFlavor) (taLink : Nat) : H5File :=
  ⟨(first.d 0).xs.map fl, (first.d 0).ys.map fl, none, fin3 (some 0) (some 0) (some taLink),
    fun k => if k = 2 then writeFlavorHDF5 fl ta else writeFlavorHDF5 fl e⟩

theorem map_exact {fl : ℝ → ℝ} {l : List ℝ} (h : ∀ v ∈ l, fl v = v) : l.map fl = l := by
  conv_rhs => rw [← List.map_id l]
  exact List.map_congr_left h

/-- C67 through HDF5 files, partial: if all tables are square and over the same energies and z values, the muon has the electron's tables, and
all numbers are exact as `float`, everything comes back as it was. Missing: all else; see the violations below. -/
theorem c67_hdf_partial (fl : ℝ → ℝ) (same : Bool × Bool) (first : PerFlavor) (t : Tables) (en zs : List ℝ) (e ta : PerFlavor)
    (h0 : t.data 0 = some e) (h1 : t.data 1 = some e) (h2 : t.data 2 = some ta) (hsame : same.1 = true ∨ same.2 = true → ta = e)
    (hfirst : first = e ∨ first = ta) (hge : OnGrid en zs e) (hgt : OnGrid en zs ta) (hqe : Square e) (hqt : Square ta)
    (hxe : Exact fl e) (hxt : Exact fl ta) (hen : ∀ v ∈ en, fl v = v) (hzs : ∀ v ∈ zs, fl v = v) (hlo : ∀ v ∈ en.head?, pow10 v = t.Emin)
    (hhi : ∀ v ∈ en.getLast?, pow10 v = t.Emax) :
    ∃ x t', writeHDF fl same first t = .ok x ∧ fromHDF x = .ok t' ∧ t'.Emin = t.Emin ∧ t'.Emax = t.Emax ∧ SameCrossSections t t' := by
  have hf : (first.d 0).xs.map fl = en ∧ (first.d 0).ys.map fl = zs := by
    have : OnGrid en zs first := by rcases hfirst with rfl | rfl <;> assumption
    obtain ⟨g, hm⟩ := this.d 0
    obtain ⟨-, mx, my, -⟩ := made_sizes hm
    rw [mx, my, map_exact hen, map_exact hzs]
    exact ⟨rfl, rfl⟩
  obtain ⟨y, hy⟩ := hge.s 0
  have h3 : 3 ≤ en.length := by
    have hr := (c24_rejects_exactly en y).1
    rw [hy] at hr
    have hr := mt hr.2 (by simp)
    simp only [not_or, not_not] at hr
    omega
  obtain ⟨lo, elo⟩ : ∃ lo, en.head? = some lo := by
    cases en with
    | nil => simp at h3
    | cons a as => exact ⟨a, rfl⟩
  obtain ⟨hi, ehi⟩ : ∃ hi, en.getLast? = some hi := by
    rw [List.getLast?_eq_getElem?, List.getElem?_eq_getElem (by omega)]
    exact ⟨_, rfl⟩
  have plo := hlo lo elo
  have phi := hhi hi ehi
  obtain ⟨pe, re, se⟩ := flavour_hdf hge hqe hxe
  obtain ⟨pt, rt, st⟩ := flavour_hdf hgt hqt hxt
  by_cases hs : same.1 = true ∨ same.2 = true
  · have hte := hsame hs
    subst hte
    refine ⟨stored fl first ta ta 0, ⟨pow10 lo, pow10 hi, three pe pe pe⟩, ?_, ?_, plo, phi, ?_⟩
    · unfold writeHDF
      have hl : (if same.1 = true then Outcome.ok 0 else (Outcome.ofOption (t.data 1)).bind fun _ => .ok (if same.2 = true then 0 else 2)) =
          Outcome.ok 0 := by
        by_cases hs1 : same.1 = true
        · rw [if_pos hs1]
        · rw [if_neg hs1, h1, Outcome.ofOption_some, Outcome.bind_ok, if_pos (hs.resolve_left hs1)]
      rw [hl]
      simp only [getFlavor, h0, h2, Outcome.bind_ok, Outcome.ofOption_some]
      rfl
    · unfold fromHDF stored
      simp only [hf.1, hf.2, elo, ehi, Outcome.ofOption_some, Outcome.bind_ok]
      simp [fin3, re]
    · refine same_of_per plo phi ?_
      intro f hf
      match f, hf with
      | 0, _ => exact ⟨_, _, h0, rfl, se⟩
      | 1, _ => exact ⟨_, _, h1, rfl, se⟩
      | 2, _ => exact ⟨_, _, h2, rfl, se⟩
  · have hs1 : ¬same.1 = true := fun h => hs (Or.inl h)
    have hs2 : ¬same.2 = true := fun h => hs (Or.inr h)
    refine ⟨stored fl first e ta 2, ⟨pow10 lo, pow10 hi, three pe pe pt⟩, ?_, ?_, plo, phi, ?_⟩
    · unfold writeHDF
      rw [if_neg hs1, h1, if_neg hs2]
      simp only [getFlavor, h0, h2, Outcome.bind_ok, Outcome.ofOption_some]
      rfl
    · unfold fromHDF stored
      simp only [hf.1, hf.2, elo, ehi, Outcome.ofOption_some, Outcome.bind_ok]
      simp [fin3, re, rt]
    · refine same_of_per plo phi ?_
      intro f hf
      match f, hf with
      | 0, _ => exact ⟨_, _, h0, rfl, se⟩
      | 1, _ => exact ⟨_, _, h1, rfl, se⟩
      | 2, _ => exact ⟨_, _, h2, rfl, st⟩

end Verif.XS
