import Verif.Lifecycle.Model

/-! What the life-cycle properties say, in terms of the history of calls and how they ended. -/

namespace Verif.Life

/-- Some call satisfied `p` and no later one satisfied `q`. -/
def Since (p q : Op × Status → Prop) (tr : List (Op × Status)) : Prop :=
  ∃ pre x post, tr = pre ++ x :: post ∧ p x ∧ ∀ y ∈ post, ¬q y

/-- The last `Set_Body` gave a body. -/
def BodySet (tr : List (Op × Status)) : Prop :=
  Since (fun x => ∃ b, x.1 = .setBody (some b)) (fun x => ∃ b, x.1 = .setBody b) tr

/-- A track was given. -/
def TrackSet (tr : List (Op × Status)) : Prop := ∃ t, (Op.setTrack (some t), Status.ok) ∈ tr

/-- The energies were given, to the constructor or with `Set_E`. -/
def EnergySet (c : Ctor) (tr : List (Op × Status)) : Prop :=
  (∃ E n nt i x, c = .multi E n nt i x) ∨ ∃ e, (Op.setE e, Status.ok) ∈ tr

/-- An accepted `Set_initial_state`. -/
def IsInitial (x : Op × Status) : Prop := ∃ d b, x = (.setInitial d b, .ok)

/-- An accepted call that changes the Hamiltonian. -/
def Invalidates (x : Op × Status) : Prop :=
  (∃ e, x = (.setE e, .ok)) ∨ (∃ i j v, x = (.setAngle i j v, .ok)) ∨ (∃ i j v, x = (.setPhase i j v, .ok)) ∨
    (∃ i v, x = (.setDm2 i v, .ok)) ∨ x = (.setDefaults, .ok)

/-- An initial state was set and nothing invalidated it. -/
def StateValid (tr : List (Op × Status)) : Prop := Since IsInitial Invalidates tr

/-- Everything `EvolveState` needs. -/
def Ready (c : Ctor) (tr : List (Op × Status)) : Prop := BodySet tr ∧ TrackSet tr ∧ EnergySet c tr ∧ StateValid tr

/-- The value last given to `Set_CPPhase(i,j)`; zero before; reset by `Set_MixingParametersToDefault` for the pair (0,2). -/
def lastPhase (i j : Nat) (tr : List (Op × Status)) : Rat :=
  tr.foldl (fun v x => match x with
    | (.setPhase a b w, .ok) => if a = i ∧ b = j then w else v
    | (.setDefaults, .ok) => if i = 0 ∧ j = 2 then 0 else v
    | _ => v) 0

/-- `rho` holds antineutrinos. -/
def Anti (nt : NT) (rho : Nat) : Prop := nt = .antineutrino ∨ (nt = .both ∧ rho = 1)

/-- The projector of flavour `flv` in slot `rho`, in force during the segment, was computed from the angles and phases the getters
report, with the phases reversed for antineutrinos. -/
def ProjCurrent (s : Obj) (seg : Segment) : Prop :=
  ∀ rho flv, rho < s.nrhos → flv < s.numneu →
    (seg.proj rho flv).flv = flv ∧
    (∀ i j, i < j → j < s.numneu → getAngle s i j = .ok ((seg.proj rho flv).angle i j)) ∧
    (∀ i j, i < j → j < s.numneu → (Anti s.nt rho → getPhase s i j = .ok (-(seg.proj rho flv).phase i j)) ∧
      (¬Anti s.nt rho → getPhase s i j = .ok ((seg.proj rho flv).phase i j)))

/-- Entry `k` of the vacuum Hamiltonian in force was computed from energy `k` and the mass differences the getters report. -/
def H0Current (s : Obj) (seg : Segment) : Prop :=
  seg.h0.length = s.energies.length ∧
  ∀ (k : Nat) (e : Rat) (key : H0Key), s.energies[k]? = some e → seg.h0[k]? = some key →
    key.energy = e ∧ ∀ i, 0 < i → i < s.numneu → getDm2 s i = .ok (key.dm2 i)

/-- It was computed with the current setting of the oscillation switch. -/
def OscCurrent (s : Obj) (seg : Segment) : Prop := seg.osc = s.osc ∧ ∀ key ∈ seg.h0, key.osc = s.osc

/-- The track was set, or put back at its start by setting the state. -/
def PlacesTrack (x : Op × Status) : Prop := (∃ t, x = (.setTrack (some t), .ok)) ∨ IsInitial x

/-- An evolution that went through. -/
def Evolved (x : Op × Status) : Prop := x = (.evolve, .ok)

/-- The basis the user chose last; the interaction basis before. -/
def chosenBasis (tr : List (Op × Status)) : Basis :=
  tr.foldl (fun b x => match x with | (.setBasis b', .ok) => b' | _ => b) .interaction

/-- A call that chooses cross sections or processes. -/
def Configures : Op → Prop
  | .setXs _ | .setTau _ | .setGlashow _ => True
  | _ => False

/-- A call that needs the interaction tables. -/
def UsesTables : Op → Prop
  | .evolve | .initInteractions => True
  | _ => False

/-- The cross sections chosen last: by `SetNeutrinoCrossSections`, else by the constructor. -/
def chosenXs (c : Ctor) (tr : List (Op × Status)) : Option Xs :=
  tr.foldl (fun v x => match x with | (.setXs y, .ok) => y | _ => v) (match c with | .single _ _ => none | .multi _ _ _ _ x => x)

/-- The cross sections in force: those chosen, else the default ones. -/
def xsInForce (dflt : Option Xs) (c : Ctor) (tr : List (Op × Status)) : Option Xs :=
  match chosenXs c tr with
  | some x => some x
  | none => dflt

/-- A library from which the tables can be computed: nucleons, valid values, and electrons for the Glashow resonance of antineutrinos. -/
def Supplies (x : Xs) (glashow : Bool) (nt : NT) : Prop :=
  x.valid = true ∧ (x.perNucleon = true ∨ x.isoscalar = true) ∧ (glashow = true → nt ≠ .neutrino → x.hasElectron = true)

end Verif.Life
