import Verif.Density.TransportProps

/-!
# Bodies that emit neutrinos

Model of the array `current_external_flux`: `Set_NeutrinoSources` (nuSQuIDS.h 1047-1055), `Set_Body` (nuSQuIDS.cpp 1196-1199), the call of
`injected_neutrino_flux` in `PreDerive` (282-285), and two bodies: one that does not emit (body.h 133) and `EmittingVacuum`
(examples/Extended_Source/nu_source.h 23-41). What is done with the array is modelled in `Interact/Update.lean`.
-/

namespace Verif.Density

/-- The array over nodes, types and flavours. -/
abbrev Flux := Nat → Nat → Nat → ℝ

/-- What `injected_neutrino_flux` makes of the array it is given, by the position on the track. -/
abbrev Emitter := Flux → ℝ → Flux

/-- `flux[e][r][f] = x`. -/
def Flux.put (a : Flux) (e r f : Nat) (x : ℝ) : Flux := fun e' r' f' => if e' = e ∧ r' = r ∧ f' = f then x else a e' r' f'

/-- `Body::injected_neutrino_flux` (body.h 133): nothing. -/
def silent : Emitter := fun a _ => a

/-- `EmittingVacuum::injected_neutrino_flux` (nu_source.h 30-39). -/
noncomputable def emittingVacuum (ne nrhos numneu flavor : Nat) (length : ℝ) : Emitter := fun a x =>
  Update.loop 0 ne (fun ei a => Update.loop 0 nrhos (fun rhoi a => Update.loop 0 numneu (fun flv a =>
    a.put ei rhoi flv (if flv = flavor then Real.exp (-x / length) else 0)) a) a) a

/-- The members that decide on the emission. -/
structure Emission where
  /-- `enable_neutrino_sources` -/
  on : Bool
  /-- `current_external_flux` -/
  flux : Flux
  body : Emitter
  /-- `time_offset` -/
  offset : ℝ

/-- `Set_NeutrinoSources`: switching on clears the array. -/
def Emission.setSources (m : Emission) (b : Bool) : Emission := { m with on := b, flux := if b then fun _ _ _ => 0 else m.flux }

/-- `Set_Body`. -/
def Emission.setBody (m : Emission) (b : Emitter) : Emission := { m with body := b }

/-- `PreDerive(t)`. -/
def Emission.preDerive (m : Emission) (t : ℝ) : Emission := if m.on then { m with flux := m.body m.flux (t - m.offset) } else m

inductive EmissionCall where
  | setSources (b : Bool)
  | setBody (b : Emitter)
  | preDerive (t : ℝ)

def Emission.step (m : Emission) : EmissionCall → Emission
  | .setSources b => m.setSources b
  | .setBody b => m.setBody b
  | .preDerive t => m.preDerive t

def Emission.run (m : Emission) (l : List EmissionCall) : Emission := l.foldl Emission.step m

/-- What an evolution that starts here adds at each time. -/
def Emission.along (m : Emission) (t : ℝ) : Flux := (m.preDerive t).flux

/-! ## Lemmas -/

theorem put_loop (n : Nat) (a : Flux) (e r : Nat) (x : Nat → ℝ) (e' r' f' : Nat) :
    Update.loop 0 n (fun f (a : Flux) => a.put e r f (x f)) a e' r' f' = if e' = e ∧ r' = r ∧ f' < n then x f' else a e' r' f' := by
  induction n with
  | zero => rw [Update.loop_zero 0 0 (le_refl _)]; simp
  | succ n ih =>
    rw [Update.loop_succ 0 n (Nat.zero_le _)]
    unfold Flux.put at *
    rw [ih]
    grind

theorem put_loops (m n : Nat) (a : Flux) (e : Nat) (x : Nat → ℝ) (e' r' f' : Nat) :
    Update.loop 0 m (fun r (a : Flux) => Update.loop 0 n (fun f (a : Flux) => a.put e r f (x f)) a) a e' r' f' =
      if e' = e ∧ r' < m ∧ f' < n then x f' else a e' r' f' := by
  induction m with
  | zero => rw [Update.loop_zero 0 0 (le_refl _)]; simp
  | succ m ih =>
    rw [Update.loop_succ 0 m (Nat.zero_le _), put_loop, ih]
    grind

theorem emittingVacuum_eq (ne nrhos numneu flavor : Nat) (length : ℝ) (a : Flux) (x : ℝ) (e r f : Nat) :
    emittingVacuum ne nrhos numneu flavor length a x e r f =
      if e < ne ∧ r < nrhos ∧ f < numneu then (if f = flavor then Real.exp (-x / length) else 0) else a e r f := by
  unfold emittingVacuum
  induction ne with
  | zero => rw [Update.loop_zero 0 0 (le_refl _)]; simp
  | succ ne ih =>
    rw [Update.loop_succ 0 ne (Nat.zero_le _), put_loops, ih]
    grind

end Verif.Density
