import Verif.Body.Serial

/-!
# State files of the first version

Files with `nusquids_version_number` up to 100000 have the body as an identifier with parameters, and the track as parameters with the
position (`/repo/src/nuSQuIDS.cpp` 2149-2167, 2354-2375). Nothing in the present code writes them; what they hold is taken to be what
`GetId`, `GetBodyParams`, `GetTrackParams` and `GetX` report, which are still there.
-/

namespace Verif.Bodies

/-- The columns of the data files that the constructors without arguments read (body.cpp 303, 452, 555, 849). -/
structure Standard where
  earth : List ℝ × List ℝ × List ℝ
  sun : List ℝ × List ℝ × List ℝ
  sunASnu : List ℝ × List ℝ × List ℝ
  earthAtm : List ℝ × List ℝ × List ℝ

/-- `GetId` (body.h 177, 234, 310, 410, 513, 621, 737). -/
def Kind.id : Kind → Nat
  | .vacuum => 1
  | .constant .. => 2
  | .variable _ => 3
  | .earth .. => 4
  | .sun .. => 5
  | .sunASnu .. => 6
  | .earthAtm .. => 7

/-- What the file has of body and track. -/
structure OldFile where
  id : Nat
  body : List ℝ
  track : List ℝ
  x : ℝ

/-- What the members report. -/
noncomputable def saveOld (b : Body) (t : Track) : OldFile := ⟨b.kind.id, b.params, t.params, t.x⟩

/-- An entry of an array of parameters; beyond the end, undefined. -/
def entry (l : List ℝ) (i : Nat) : Outcome ℝ := .ofOption l[i]?

/-- `n` entries from the `i`-th. -/
def entries (l : List ℝ) (i : Nat) : Nat → Outcome (List ℝ)
  | 0 => .ok []
  | n + 1 => (entry l i).bind fun v => (entries l (i + 1) n).map (v :: ·)

/-- A track of one of the classes that add nothing, from two parameters. -/
def twoParams (name : String) (tp : List ℝ) : Outcome Track :=
  (entry tp 0).bind fun a => (entry tp 1).bind fun b => .ok (mkPlainTrack name a a b)

/-- `SetBodyTrack` (2718-2777); `none`: the process ends (2774). -/
noncomputable def setBodyTrack (u : Units) (d : Standard) (id : Nat) (bp tp : List ℝ) : Outcome (Option (Body × Track)) :=
  match id with
  | 1 => (twoParams "VacuumTrack" tp).map fun t => some (mkVacuum, t)
  | 2 => (entry bp 0).bind fun rho => (entry bp 1).bind fun ye =>
      (twoParams "ConstantDensityTrack" tp).map fun t => some (mkConstant rho ye, t)
  | 3 =>
    let xn := bp.length / 3
    (entries bp 0 xn).bind fun xx => (entries bp xn xn).bind fun rho => (entries bp (2 * xn) xn).bind fun ye =>
      (mkVariable xx rho ye).bind fun b => (twoParams "VariableDensityTrack" tp).map fun t => some (b, t)
  | 4 => (mkEarth d.earth.1 d.earth.2.1 d.earth.2.2).bind fun b =>
      (entry tp 0).bind fun a => (entry tp 1).bind fun e => (entry tp 2).bind fun l => .ok (some (b, mkEarthTrack a a e l))
  | 5 => (mkSun u d.sun.1 d.sun.2.1 d.sun.2.2).bind fun b => (twoParams "SunTrack" tp).map fun t => some (b, t)
  | 6 => (mkSunASnuFile u d.sunASnu.1 d.sunASnu.2.1 d.sunASnu.2.2).bind fun b =>
      (entry tp 0).bind fun a => (entry tp 1).bind fun e => .ok (some (b, mkSunASnuTrack u a a e))
  | 7 => (mkEarthAtm d.earthAtm.1 d.earthAtm.2.1 d.earthAtm.2.2).bind fun b =>
      (entry tp 2).bind fun phi =>
        match b.makeTrack u phi with
        | some t => .ok (some (b, t))
        | none => .ub
  | _ => .ok none

/-- Body and track of such a file (2354-2375): `SetBodyTrack`, then `SetX`. -/
noncomputable def readOld (u : Units) (d : Standard) (f : OldFile) : Outcome (Option (Body × Track)) :=
  (setBodyTrack u d f.id f.body f.track).map fun r => r.map fun (b, t) => (b, t.setX f.x)

/-! ## Lemmas -/

theorem entries_eq (l : List ℝ) (n : Nat) : ∀ i, i + n ≤ l.length → entries l i n = .ok ((l.drop i).take n) := by
  induction n with
  | zero => intro i _; simp [entries]
  | succ n ih =>
    intro i h
    have hi : i < l.length := by omega
    have h1 : entry l i = .ok l[i] := by
      unfold entry
      rw [List.getElem?_eq_getElem hi]
      rfl
    unfold entries
    rw [h1, ih (i + 1) (by omega), List.drop_eq_getElem_cons hi]
    rfl

/-- The three columns of a table are found again. -/
theorem columns (xs rho ye : List ℝ) (h1 : rho.length = xs.length) (h2 : ye.length = xs.length) :
    (xs ++ rho ++ ye).length / 3 = xs.length ∧ entries (xs ++ rho ++ ye) 0 xs.length = .ok xs ∧
    entries (xs ++ rho ++ ye) xs.length xs.length = .ok rho ∧ entries (xs ++ rho ++ ye) (2 * xs.length) xs.length = .ok ye := by
  have hl : (xs ++ rho ++ ye).length = 3 * xs.length := by simp [h1, h2]; omega
  refine ⟨by omega, ?_, ?_, ?_⟩
  · rw [entries_eq _ _ _ (by omega)]
    simp
  · rw [entries_eq _ _ _ (by omega), List.append_assoc, List.drop_left, ← h1, List.take_left]
  · rw [entries_eq _ _ _ (by omega)]
    have : 2 * xs.length = (xs ++ rho).length := by simp [h1]; omega
    rw [this, List.drop_left, ← h2, List.take_length]

end Verif.Bodies
