import Verif.XS.ValidateProps

/-!
C115, the tables: those `GetCrossSections` makes for an object for one type are those it makes for that type in an object for both.
-/

namespace Verif.XS

/-! ## Lemmas -/

/-- What is taken for one type (1090-1118). -/
def linesOf (p : Provider) (uD uT : Rat) (numneu ne : Nat) (nt : NType) : Outcome (List (List Line)) :=
  fill (fun flv => fill (line p uD uT nt flv) ne) numneu

/-- What is made of it (1120-1140). -/
def storedOf (numneu ne : Nat) (ls : List (List Line)) : Outcome (List (List Stored)) :=
  fill (fun flv => (Outcome.ofOption ls[flv]?).bind fun ls => fill (fun e1 =>
    (Outcome.ofOption ls[e1]?).bind fun l => (spectrum flv e1 l).bind fun sp => .ok ⟨l.total, sp⟩) ne) numneu

theorem fill_one {α : Type} (f : Nat → Outcome α) : fill f 1 = (f 0).bind fun a => .ok [a] := by
  simp only [fill, Outcome.bind_ok, List.nil_append]

theorem fill_two {α : Type} (f : Nat → Outcome α) : fill f 2 = (f 0).bind fun a => (f 1).bind fun b => .ok [a, b] := by
  simp only [fill, Outcome.bind_ok, List.nil_append]
  cases f 0 <;> simp

theorem target_one (p : Provider) (uD uT : Rat) (a : NType) (numneu ne : Nat) : target p uD uT [a] numneu ne =
    (linesOf p uD uT numneu ne a).bind fun x => (storedOf numneu ne x).bind fun x' => .ok [x'] := by
  unfold target
  show ((fill _ 1).bind fun lines => fill _ 1) = _
  simp only [fill_one, List.getElem?_cons_zero, Outcome.ofOption_some, Outcome.bind_ok]
  show ((linesOf p uD uT numneu ne a).bind fun x => .ok [x]).bind _ = _
  cases linesOf p uD uT numneu ne a <;> rfl

theorem target_two (p : Provider) (uD uT : Rat) (a b : NType) (numneu ne : Nat) : target p uD uT [a, b] numneu ne =
    (linesOf p uD uT numneu ne a).bind fun x => (linesOf p uD uT numneu ne b).bind fun y =>
      (storedOf numneu ne x).bind fun x' => (storedOf numneu ne y).bind fun y' => .ok [x', y'] := by
  unfold target
  show ((fill _ 2).bind fun lines => fill _ 2) = _
  simp only [fill_two, List.getElem?_cons_zero, List.getElem?_cons_succ, Outcome.ofOption_some, Outcome.bind_ok]
  show ((linesOf p uD uT numneu ne a).bind fun x => (linesOf p uD uT numneu ne b).bind fun y => .ok [x, y]).bind _ = _
  cases linesOf p uD uT numneu ne a <;> cases linesOf p uD uT numneu ne b <;> rfl

/-- A target is accepted for both types exactly if for each, and what is stored is what is stored for each. -/
theorem target_split (p : Provider) (uD uT : Rat) (a b : NType) (numneu ne : Nat) (z : List (List (List Stored))) :
    target p uD uT [a, b] numneu ne = .ok z ↔ ∃ x y, z = [x, y] ∧ target p uD uT [a] numneu ne = .ok [x] ∧ target p uD uT [b] numneu ne = .ok [y] := by
  rw [target_two, target_one, target_one]
  cases linesOf p uD uT numneu ne a <;> cases linesOf p uD uT numneu ne b <;> simp
  rename_i x y
  cases storedOf numneu ne x <;> cases storedOf numneu ne y <;> simp [eq_comm]

theorem target_one_shape {p : Provider} {uD uT : Rat} {a : NType} {numneu ne : Nat} {z : List (List (List Stored))}
    (h : target p uD uT [a] numneu ne = .ok z) : ∃ x, z = [x] := by
  rw [target_one] at h
  obtain ⟨x, _, h⟩ := bind_ok_inv h
  obtain ⟨x', _, h⟩ := bind_ok_inv h
  exact ⟨x', (Outcome.ok.inj h).symm⟩

theorem fill_iff {α : Type} {f : Nat → Outcome α} {n : Nat} {l : List α} :
    fill f n = .ok l ↔ l.length = n ∧ ∀ i, i < n → ∃ a, f i = .ok a ∧ l[i]? = some a := by
  refine ⟨fill_ok, fun ⟨hl, h⟩ => ?_⟩
  obtain ⟨l', hl'⟩ := fill_total fun i hi => (h i hi).imp fun _ h => h.1
  obtain ⟨h1, h2⟩ := fill_ok hl'
  rw [hl']
  refine congrArg _ (List.ext_getElem? fun i => ?_)
  by_cases hi : i < n
  · obtain ⟨a, ha, hg⟩ := h i hi
    obtain ⟨b, hb, hg'⟩ := h2 i hi
    rw [ha] at hb
    rw [hg, hg', Outcome.ok.inj hb]
  · rw [List.getElem?_eq_none (by omega), List.getElem?_eq_none (by omega)]

theorem fill_split {α : Type} {f g h : Nat → Outcome (List α)} {n : Nat}
    (hs : ∀ i, i < n → ∀ z, f i = .ok z ↔ ∃ x y, z = [x, y] ∧ g i = .ok [x] ∧ h i = .ok [y])
    (hg : ∀ i, i < n → ∀ z, g i = .ok z → ∃ x, z = [x]) (hh : ∀ i, i < n → ∀ z, h i = .ok z → ∃ x, z = [x]) (Z : List (List α)) :
    fill f n = .ok Z ↔ ∃ X Y, fill g n = .ok X ∧ fill h n = .ok Y ∧ Z = List.zipWith (· ++ ·) X Y := by
  constructor
  · intro hf
    obtain ⟨h1, h2⟩ := fill_ok hf
    have hg' : ∃ X, fill g n = .ok X := fill_total fun i hi => by
      obtain ⟨z, hz, _⟩ := h2 i hi
      obtain ⟨x, y, _, hx, _⟩ := (hs i hi z).1 hz
      exact ⟨_, hx⟩
    have hh' : ∃ X, fill h n = .ok X := fill_total fun i hi => by
      obtain ⟨z, hz, _⟩ := h2 i hi
      obtain ⟨x, y, _, _, hy⟩ := (hs i hi z).1 hz
      exact ⟨_, hy⟩
    obtain ⟨X, hX⟩ := hg'
    obtain ⟨Y, hY⟩ := hh'
    refine ⟨X, Y, hX, hY, List.ext_getElem? fun i => ?_⟩
    obtain ⟨lX, eX⟩ := fill_ok hX
    obtain ⟨lY, eY⟩ := fill_ok hY
    by_cases hi : i < n
    · obtain ⟨z, hz, gz⟩ := h2 i hi
      obtain ⟨x, y, rfl, hx, hy⟩ := (hs i hi z).1 hz
      obtain ⟨x', hx', gx⟩ := eX i hi
      obtain ⟨y', hy', gy⟩ := eY i hi
      rw [hx] at hx'
      rw [hy] at hy'
      rw [gz, List.getElem?_zipWith, gx, gy, ← Outcome.ok.inj hx', ← Outcome.ok.inj hy']
      rfl
    · rw [List.getElem?_eq_none (by omega), List.getElem?_eq_none (by rw [List.length_zipWith]; omega)]
  · rintro ⟨X, Y, hX, hY, rfl⟩
    obtain ⟨lX, eX⟩ := fill_ok hX
    obtain ⟨lY, eY⟩ := fill_ok hY
    refine fill_iff.2 ⟨by rw [List.length_zipWith]; omega, fun i hi => ?_⟩
    obtain ⟨x, hx, gx⟩ := eX i hi
    obtain ⟨y, hy, gy⟩ := eY i hi
    obtain ⟨x, rfl⟩ := hg i hi x hx
    obtain ⟨y, rfl⟩ := hh i hi y hy
    exact ⟨[x, y], (hs i hi _).2 ⟨x, y, rfl, hx, hy⟩, by rw [List.getElem?_zipWith, gx, gy]; rfl⟩

/-! ## C115 -/

/-- C115, the tables (1046-1167): `GetCrossSections` succeeds for both types exactly if it succeeds for neutrinos and for antineutrinos. What it then
stores for a target is what is stored for neutrinos, followed by what is stored for antineutrinos; the tables of the Glashow resonance are those made
for antineutrinos, and none are made for neutrinos. -/
theorem c115_tables (targets : List Provider) (el : Option Provider) (gl : Bool) (uD uT : Rat) (numneu ne : Nat) (T : AllTables) :
    getCrossSections targets el .both gl uD uT numneu ne = .ok T ↔
      ∃ T₀ T₁, getCrossSections targets el .neutrino gl uD uT numneu ne = .ok T₀ ∧
        getCrossSections targets el .antineutrino gl uD uT numneu ne = .ok T₁ ∧
        T.dis = List.zipWith (· ++ ·) T₀.dis T₁.dis ∧ T.gr = T₁.gr ∧ T₀.gr = none ∧
        (∀ x, x ∈ T₀.dis → x.length = 1) ∧ (∀ x, x ∈ T₁.dis → x.length = 1) ∧ T₀.dis.length = targets.length ∧ T₁.dis.length = targets.length := by
  have shape : ∀ (a : NType) (i : Nat), i < targets.length → ∀ z,
      ((Outcome.ofOption targets[i]?).bind fun p => target p uD uT [a] numneu ne) = .ok z → ∃ x, z = [x] := by
    intro a i hi z hz
    rw [List.getElem?_eq_getElem hi, Outcome.ofOption_some, Outcome.bind_ok] at hz
    exact target_one_shape hz
  have single : ∀ (a : NType) X, fill (fun t => (Outcome.ofOption targets[t]?).bind fun p => target p uD uT [a] numneu ne) targets.length = .ok X →
      (∀ x, x ∈ X → x.length = 1) ∧ X.length = targets.length := by
    intro a X hX
    obtain ⟨lX, eX⟩ := fill_ok hX
    refine ⟨fun x hx => ?_, lX⟩
    obtain ⟨i, hi, rfl⟩ := List.getElem_of_mem hx
    obtain ⟨z, hz, gz⟩ := eX i (by omega)
    obtain ⟨y, rfl⟩ := shape a i (by omega) z hz
    rw [List.getElem?_eq_getElem hi] at gz
    rw [Option.some.inj gz]
    rfl
  have split := fill_split (f := fun t => (Outcome.ofOption targets[t]?).bind fun p => target p uD uT [NType.neutrino, NType.antineutrino] numneu ne)
    (g := fun t => (Outcome.ofOption targets[t]?).bind fun p => target p uD uT [NType.neutrino] numneu ne)
    (h := fun t => (Outcome.ofOption targets[t]?).bind fun p => target p uD uT [NType.antineutrino] numneu ne) (n := targets.length)
    (fun i hi z => by
      rw [List.getElem?_eq_getElem hi, Outcome.ofOption_some, Outcome.bind_ok, Outcome.bind_ok, Outcome.bind_ok]
      exact target_split _ _ _ _ _ _ _ _) (shape _) (shape _)
  unfold getCrossSections
  show ((fill (fun t => (Outcome.ofOption targets[t]?).bind fun p => target p uD uT [NType.neutrino, NType.antineutrino] numneu ne) targets.length).bind _) = _ ↔
    ∃ T₀ T₁, ((fill (fun t => (Outcome.ofOption targets[t]?).bind fun p => target p uD uT [NType.neutrino] numneu ne) targets.length).bind _) = _ ∧
      ((fill (fun t => (Outcome.ofOption targets[t]?).bind fun p => target p uD uT [NType.antineutrino] numneu ne) targets.length).bind _) = _ ∧ _
  constructor
  · intro h
    obtain ⟨Z, hZ, h⟩ := bind_ok_inv h
    obtain ⟨X, Y, hX, hY, rfl⟩ := (split Z).1 hZ
    rw [hX, hY, Outcome.bind_ok, Outcome.bind_ok]
    have s0 := single _ X hX
    have s1 := single _ Y hY
    cases gl with
    | false =>
      simp only [Bool.false_eq_true, false_and, if_false] at h ⊢
      obtain rfl := Outcome.ok.inj h
      exact ⟨⟨X, none⟩, ⟨Y, none⟩, rfl, rfl, rfl, rfl, rfl, s0.1, s1.1, s0.2, s1.2⟩
    | true =>
      simp only [reduceCtorEq, or_false, or_true, and_true, and_false, if_true, if_false] at h ⊢
      cases el with
      | none => cases h
      | some p =>
        dsimp only at h ⊢
        obtain ⟨g, hg, h⟩ := bind_ok_inv h
        obtain rfl := Outcome.ok.inj h
        exact ⟨⟨X, none⟩, ⟨Y, some g⟩, rfl, by rw [hg]; rfl, rfl, rfl, rfl, s0.1, s1.1, s0.2, s1.2⟩
  · rintro ⟨T₀, T₁, h0, h1, hd, hg, -⟩
    obtain ⟨X, hX, h0⟩ := bind_ok_inv h0
    obtain ⟨Y, hY, h1⟩ := bind_ok_inv h1
    rw [(split _).2 ⟨X, Y, hX, hY, rfl⟩, Outcome.bind_ok]
    have d0 : T₀.dis = X := by
      cases gl <;> simp only [Bool.false_eq_true, reduceCtorEq, or_false, and_false, if_false] at h0 <;> rw [← Outcome.ok.inj h0]
    cases gl with
    | false =>
      simp only [Bool.false_eq_true, false_and, if_false] at h1 ⊢
      obtain rfl := Outcome.ok.inj h1
      cases T
      simp only at hd hg
      rw [hd, hg, d0]
    | true =>
      simp only [reduceCtorEq, or_false, or_true, and_true, if_true] at h1 ⊢
      cases el with
      | none => cases h1
      | some p =>
        dsimp only at h1 ⊢
        obtain ⟨g, hp, h1⟩ := bind_ok_inv h1
        obtain rfl := Outcome.ok.inj h1
        rw [hp, Outcome.bind_ok]
        cases T
        simp only at hd hg
        rw [hd, hg, d0]

/-- Totals 2 for neutrinos and 4 for antineutrinos, differentials 1. -/
def twoTypes : Provider := ⟨fun _ nt _ _ => .ok (.fin (if nt = .neutrino then 2 else 4)), fun _ nt _ _ => .ok (.fin (if nt = .neutrino then 2 else 4)),
  fun _ _ _ _ _ => .ok (.fin 1), fun _ _ _ _ _ => .ok (.fin 1)⟩

/-- As in `c115_tables`: for antineutrinos the spectrum of a quarter, which is in the second place of the tables for both. -/
example : (getCrossSections [twoTypes, someProvider] (some someProvider) .both true 1 1 3 2).map (fun T => ((((T.dis[0]?.bind (·[1]?)).bind (·[2]?)).bind (·[1]?)).map
      fun st => (st.total.nc, st.dNdE.map (·.cc)))) = .ok (some (.fin 4, [.fin (1 / 4)])) ∧
    (getCrossSections [twoTypes, someProvider] (some someProvider) .antineutrino true 1 1 3 2).map (fun T => ((((T.dis[0]?.bind (·[0]?)).bind (·[2]?)).bind (·[1]?)).map
      fun st => (st.total.nc, st.dNdE.map (·.cc)))) = .ok (some (.fin 4, [.fin (1 / 4)])) := by
  decide +kernel

end Verif.XS
