import Verif.Interact.Cache
import Verif.Interact.Matter

/-!
C48-C50: `nuSQUIDS::UpdateInteractions` (nuSQuIDS.cpp 585-965), `GammaRho` (363-372) and `InteractionsRho` (374-431).

The tables are functions of their indices; the loops read them at indices below the extents given by `InitializeInteractionVectors`
(259-276), which are not checked again here. Work buffers are lists of the padded length, filled in place by the loops in the order of
the code. The two code paths, without and with oscillations, are written out separately as in the code. `SU_vector`s are elements of a
vector space `V`; their product is a function `dot`.
-/

namespace Verif.Update

open Matter (NT Targets Consts)

variable {K : Type} [Field K] [LinearOrder K] {V : Type} [AddCommGroup V] [Module K V]

/-- Everything `UpdateInteractions` reads. -/
structure Net (K V : Type) where
  ne : Nat
  nrhos : Nat
  numneu : Nat
  nt : NT
  tau : Bool
  glashow : Bool
  sources : Bool
  /-- `delE` -/
  delE : Nat → K
  /-- `sigma_NC[trg][rho][flv][e]`, `sigma_CC` -/
  sigmaNC : Nat → Nat → Nat → Nat → K
  sigmaCC : Nat → Nat → Nat → Nat → K
  sigmaGR : Nat → K
  /-- `dNdE_NC[trg][rho][flv][e2][e1]`, `dNdE_CC` -/
  dNdE_NC : Nat → Nat → Nat → Nat → Nat → K
  dNdE_CC : Nat → Nat → Nat → Nat → Nat → K
  dNdE_GR : Nat → Nat → K
  /-- `dNdE_tau_all[rho][et][e1]`, `dNdE_tau_lep` -/
  tauAll : Nat → Nat → Nat → K
  tauLep : Nat → Nat → Nat → K
  consts : Consts K
  targets : Targets
  /-- `current_density`, `current_ye` -/
  density : K
  ye : K
  /-- `evol_b1_proj[rho][flv][e]` -/
  proj : Nat → Nat → Nat → V
  /-- `estate[e].rho[rho]` -/
  state : Nat → Nat → V
  dot : V → V → K
  /-- `current_external_flux[e][rho][flv]` -/
  ext : Nat → Nat → Nat → K

/-- `for(i = lo; i < hi; i++)`. -/
def loop {S : Type} (lo hi : Nat) (f : Nat → S → S) (s : S) : S := (List.range' lo (hi - lo)).foldl (fun s i => f i s) s

/-- A loop over the targets with the entry of an array of that length. -/
def forTargets {S : Type} (l : List K) (f : Nat → K → S → S) (s : S) : S := l.zipIdx.foldl (fun s x => f x.2 x.1 s) s

/-- `for(e1 = 0; e1 < m; e1++) buf[e1] += f(e1)`. -/
def addBelow (buf : List K) (m : Nat) (f : Nat → K) : List K := buf.mapIdx fun e1 x => if e1 < m then x + f e1 else x

/-- A zeroed buffer of padded length. -/
def zeros (ne : Nat) : List K := List.replicate (Cache.roundUp ne) 0

/-- `GetTargetNumberDensities` and `GetTargetNumberFractions` (596-598). -/
def Net.densities (n : Net K V) : List K := Matter.densities n.consts n.targets n.density n.ye
def Net.fractions (n : Net K V) : List K := Matter.fractions n.targets n.ye

/-- `LinAcc` (601-612) over the targets: the first contribution replaces the old value. -/
def linAcc (old : K) (l : List K) (f : Nat → K → K) : K :=
  forTargets l (fun trg d acc => if trg = 0 then f trg d else acc + f trg d) old

/-- `invlen_NC[rho][flv][e]` (614-622); `old` is what was there. -/
def Net.invNC (n : Net K V) (old : K) (rho flv e : Nat) : K := linAcc old n.densities fun trg d => n.sigmaNC trg rho flv e * d

/-- `invlen_CC[rho][flv][e]` (614-622). -/
def Net.invCC (n : Net K V) (old : K) (rho flv e : Nat) : K := linAcc old n.densities fun trg d => n.sigmaCC trg rho flv e * d

/-- Electron number density for the Glashow resonance (635). -/
def Net.numE (n : Net K V) : K :=
  match n.densities with
  | [d] => d * n.ye
  | d :: _ => d
  | [] => 0

/-- `invlen_GR[e]` (642-645). -/
def Net.invGR (n : Net K V) (e : Nat) : K := n.sigmaGR e * n.numE

/-- `iglashow && (NT == both or NT == antineutrino)`, and the index used (629-632). -/
def Net.gr (n : Net K V) : Bool := n.glashow && (decide (n.nt = .both) || decide (n.nt = .antineutrino))
def Net.grRho (n : Net K V) : Nat := if n.nt = .both then 1 else 0

/-- `invlen_INT[rho][flv][e]` (623, 645). -/
def Net.invINT (n : Net K V) (oldN oldC : K) (rho flv e : Nat) : K :=
  let base := n.invNC oldN rho flv e + n.invCC oldC rho flv e
  if n.gr && decide (rho = n.grRho) && decide (flv = 0) then base + n.invGR e else base

/-- `GammaRho` (363-372) with interactions on. -/
def Net.gamma (n : Net K V) (oldN oldC : K) (e rho : Nat) : V :=
  (1 / 2 * n.invINT oldN oldC rho 0 e) • n.proj rho 0 e + (1 / 2 * n.invINT oldN oldC rho 1 e) • n.proj rho 1 e +
    (1 / 2 * n.invINT oldN oldC rho 2 e) • n.proj rho 2 e

/-! ## Without oscillations (668-856) -/

/-- `flavor_factors[rho][alpha]` after the NC loop (673-701). -/
def Net.ncNoOsc (n : Net K V) (old : K) (rho a : Nat) : List K :=
  let projector := n.proj rho a 0
  loop 1 n.ne (fun e2 buf =>
    let flux := n.dot projector (n.state e2 rho) * (n.invNC old rho a e2 * n.delE (e2 - 1))
    forTargets n.fractions (fun trg tFrac buf => addBelow buf e2 fun e1 => tFrac * flux * n.dNdE_NC trg rho a e2 e1) buf) (zeros n.ne)

/-- `for(et = 1; et < m; et++) buf[et] += f(et)`. -/
def addFromOne (buf : List K) (m : Nat) (f : Nat → K) : List K := buf.mapIdx fun et x => if 1 ≤ et ∧ et < m then x + f et else x

/-- `tau_decay_fluxes` and `tau_bar_decay_fluxes` (703-742). -/
def Net.tauFluxesNoOsc (n : Net K V) (old : K) : List K × List K :=
  let pTau := n.proj 0 2 0
  let pTauBar := n.proj 1 2 0
  loop 1 n.ne (fun en bufs =>
    let flux := n.dot pTau (n.state en 0)
    let fluxBar := n.dot pTauBar (n.state en 1)
    if flux ≤ 0 ∧ fluxBar ≤ 0 then bufs
    else
      let dEn := n.delE (en - 1)
      let invCC := n.invCC old 0 2 en
      let invCCbar := n.invCC old 1 2 en
      forTargets n.fractions (fun trg tFrac bufs =>
        (addFromOne bufs.1 en fun et => flux * invCC * dEn * tFrac * n.dNdE_CC trg 0 2 en et * n.delE (et - 1),
         addFromOne bufs.2 en fun et => fluxBar * invCCbar * dEn * tFrac * n.dNdE_CC trg 1 2 en et * n.delE (et - 1))) bufs)
    (zeros n.ne, zeros n.ne)

/-- The four buffers of the decay loop. -/
structure TauBufs (K : Type) where
  lep : List K
  lepBar : List K
  tau : List K
  tauBar : List K

/-- The decay loop (757-786): leptonic decays into local buffers, all decays directly into the nu_tau factors. -/
def Net.tauDecaysNoOsc (n : Net K V) (old : K) (tau tauBar : List K) : TauBufs K :=
  let fl := n.tauFluxesNoOsc old
  loop 1 n.ne (fun et b =>
    let f := fl.1.getD et 0
    let fBar := fl.2.getD et 0
    ⟨addBelow b.lep et fun e1 => fBar * n.tauLep 1 et e1, addBelow b.lepBar et fun e1 => f * n.tauLep 0 et e1,
     addBelow b.tau et fun e1 => f * n.tauAll 0 et e1, addBelow b.tauBar et fun e1 => fBar * n.tauAll 1 et e1⟩)
    ⟨zeros n.ne, zeros n.ne, tau, tauBar⟩

/-- Adds one buffer to another, entry by entry up to `m`. -/
def addBuf (buf : List K) (m : Nat) (other : List K) : List K := addBelow buf m fun e1 => other.getD e1 0

/-- `flavor_factors` after the tau regeneration (702-796). -/
def Net.withTauNoOsc (n : Net K V) (old : K) (rho a : Nat) : List K :=
  if n.tau then
    let b := n.tauDecaysNoOsc old (n.ncNoOsc old 0 2) (n.ncNoOsc old 1 2)
    if rho = 0 then
      if a = 2 then b.tau else addBuf (n.ncNoOsc old rho a) (Cache.roundUp n.ne) b.lep
    else
      if a = 2 then b.tauBar else addBuf (n.ncNoOsc old rho a) (Cache.roundUp n.ne) b.lepBar
  else n.ncNoOsc old rho a

/-- `gr_factors` (798-813). -/
def Net.grNoOsc (n : Net K V) : List K :=
  let projector := n.proj n.grRho 0 0
  loop 1 n.ne (fun e2 buf =>
    let flux := n.dot projector (n.state e2 n.grRho)
    let fluxInv := flux * n.invGR e2 * n.delE (e2 - 1)
    addBelow buf e2 fun e1 => fluxInv * n.dNdE_GR e2 e1) (zeros n.ne)

/-- `flavor_factors` complete (814-826). -/
def Net.factorsNoOsc (n : Net K V) (old : K) (rho a : Nat) : List K :=
  let f := n.withTauNoOsc old rho a
  if n.gr && decide (rho = n.grRho) then addBuf f n.ne n.grNoOsc else f

/-- The sources added to the whole cache (843-853). -/
def Net.addSources (n : Net K V) (cache : Nat → Nat → V) : Nat → Nat → V := fun rho e1 =>
  if rho < n.nrhos ∧ e1 < n.ne then
    loop 0 n.numneu (fun i v => v + n.ext e1 rho i • n.proj rho i e1) (cache rho e1)
  else cache rho e1

/-- `interaction_cache` (828-856): zeroed, then for each particle type its factors on the projectors of the first node and, inside the
same loop, the sources of every particle type. -/
def Net.cache (n : Net K V) (old : K) : Nat → Nat → V :=
  loop 0 n.nrhos (fun rho cache =>
    let cache : Nat → Nat → V := fun r e1 =>
      if r = rho ∧ e1 < n.ne then
        cache r e1 + (n.factorsNoOsc old rho 0).getD e1 0 • n.proj rho 0 0 + (n.factorsNoOsc old rho 1).getD e1 0 • n.proj rho 1 0 +
          (n.factorsNoOsc old rho 2).getD e1 0 • n.proj rho 2 0
      else cache r e1
    if n.sources then n.addSources cache else cache) fun _ _ => 0

/-! ## With oscillations (857-965) -/

/-- `nc_factors[rho][alpha]` (860-885). -/
def Net.ncOsc (n : Net K V) (old : K) (rho a : Nat) : List K :=
  loop 1 n.ne (fun e2 buf =>
    let flux := n.dot (n.proj rho a e2) (n.state e2 rho) * (n.invNC old rho a e2 * n.delE (e2 - 1))
    forTargets n.fractions (fun trg tFrac buf => addBelow buf e2 fun e1 => tFrac * flux * n.dNdE_NC trg rho a e2 e1) buf) (zeros n.ne)

/-- `tau_decay_fluxes` and `tau_bar_decay_fluxes` (888-918). -/
def Net.tauFluxesOsc (n : Net K V) (old : K) : List K × List K :=
  loop 1 n.ne (fun en bufs =>
    let flux := n.dot (n.proj 0 2 en) (n.state en 0)
    let fluxBar := n.dot (n.proj 1 2 en) (n.state en 1)
    if flux ≤ 0 ∧ fluxBar ≤ 0 then bufs
    else
      let dEn := n.delE (en - 1)
      let invCC := n.invCC old 0 2 en
      let invCCbar := n.invCC old 1 2 en
      forTargets n.fractions (fun trg tFrac bufs =>
        (addFromOne bufs.1 en fun et => flux * invCC * dEn * tFrac * n.dNdE_CC trg 0 2 en et * n.delE (et - 1),
         addFromOne bufs.2 en fun et => fluxBar * invCCbar * dEn * tFrac * n.dNdE_CC trg 1 2 en et * n.delE (et - 1))) bufs)
    (zeros n.ne, zeros n.ne)

/-- `tau_lep_decays[0]`, `[1]`, `tau_hadlep_decays[0]`, `[1]` (921-948). -/
def Net.tauDecaysOsc (n : Net K V) (old : K) : TauBufs K :=
  let fl := n.tauFluxesOsc old
  loop 1 n.ne (fun et b =>
    let f := fl.1.getD et 0
    let fBar := fl.2.getD et 0
    ⟨addBelow b.lep et fun e1 => fBar * n.tauLep 1 et e1, addBelow b.lepBar et fun e1 => f * n.tauLep 0 et e1,
     addBelow b.tau et fun e1 => f * n.tauAll 0 et e1, addBelow b.tauBar et fun e1 => fBar * n.tauAll 1 et e1⟩)
    ⟨zeros n.ne, zeros n.ne, zeros n.ne, zeros n.ne⟩

/-- `gr_factors` (951-964). -/
def Net.grOsc (n : Net K V) : List K :=
  loop 1 n.ne (fun e2 buf =>
    let flux := n.dot (n.proj n.grRho 0 e2) (n.state e2 n.grRho)
    let fluxInv := flux * n.invGR e2 * n.delE (e2 - 1)
    addBelow buf e2 fun e1 => fluxInv * n.dNdE_GR e2 e1) (zeros n.ne)

/-- One of the three factors of `InteractionsRho` (390-413). -/
def Net.factorOsc (n : Net K V) (old : K) (e1 rho a : Nat) : K :=
  let f := (n.ncOsc old rho a).getD e1 0
  let f :=
    if n.tau then
      let d := n.tauDecaysOsc old
      f + (if a = 2 then (if rho = 0 then d.tau else d.tauBar) else (if rho = 0 then d.lep else d.lepBar)).getD e1 0
    else f
  let f := if n.glashow && ((decide (n.nt = .both) && decide (rho = 1)) || decide (n.nt = .antineutrino)) then f + n.grOsc.getD e1 0 else f
  if n.sources then f + n.ext e1 rho a else f

/-- `InteractionsRho(e1, rho)` with interactions and oscillations (390-430). -/
def Net.termOsc (n : Net K V) (old : K) (e1 rho : Nat) : V :=
  let term := n.factorOsc old e1 rho 0 • n.proj rho 0 e1 + n.factorOsc old e1 rho 1 • n.proj rho 1 e1 + n.factorOsc old e1 rho 2 • n.proj rho 2 e1
  if n.sources then loop 3 n.numneu (fun i v => v + n.ext e1 rho i • n.proj rho i e1) term else term

/-- `InteractionsRho(e1, rho)` with interactions and without oscillations (375-376). -/
def Net.termNoOsc (n : Net K V) (old : K) (e1 rho : Nat) : V := n.cache old rho e1

/-- `GammaRho` (363-372) with the flag `iinteraction`. -/
def Net.gammaRho (n : Net K V) (iint : Bool) (oldN oldC : K) (e rho : Nat) : V := if iint then n.gamma oldN oldC e rho else 0

/-- `InteractionsRho` (374-431) with the flags `iinteraction` and `ioscillations`; `n.sources` is `enable_neutrino_sources`. -/
def Net.interactionsRho (n : Net K V) (iint osc : Bool) (old : K) (e1 rho : Nat) : V :=
  if iint && !osc then n.termNoOsc old e1 rho
  else if !iint && !n.sources then 0
  else if !iint then loop 1 n.numneu (fun i v => v + n.ext e1 rho i • n.proj rho i e1) (n.ext e1 rho 0 • n.proj rho 0 e1)
  else n.termOsc old e1 rho

end Verif.Update
