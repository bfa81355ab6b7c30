import Verif.StateIO.TableIO
import Verif.MArray.Spec

/-! Vocabulary of C94: which tables there are, their names and sizes, and what it means that a table is held somewhere. -/

namespace Verif.TableIO

open Marr (MArray InRange)

variable {K : Type} [Zero K]

/-- The eight tables. -/
inductive Which where
  | sigmaCC | sigmaNC | sigmaGR | dNdECC | dNdENC | dNdEGR | tauAll | tauLep
  deriving DecidableEq

def Tables.get (t : Tables K) : Which → MArray K
  | .sigmaCC => t.sigmaCC
  | .sigmaNC => t.sigmaNC
  | .sigmaGR => t.sigmaGR
  | .dNdECC => t.dNdECC
  | .dNdENC => t.dNdENC
  | .dNdEGR => t.dNdEGR
  | .tauAll => t.tauAll
  | .tauLep => t.tauLep

/-- The name of its dataset. -/
def Which.name : Which → String
  | .sigmaCC => "sigmacc"
  | .sigmaNC => "sigmanc"
  | .sigmaGR => "sigmagr"
  | .dNdECC => "dNdEcc"
  | .dNdENC => "dNdEnc"
  | .dNdEGR => "dNdEgr"
  | .tauAll => "dNdEtauall"
  | .tauLep => "dNdEtaulep"

/-- The sizes of all dimensions but the last, which is the energy of the outgoing particle or of the only one. -/
def Which.lead (c : Sizes) (nT : Nat) : Which → List Nat
  | .sigmaCC | .sigmaNC => [nT, c.nrhos, c.numneu]
  | .sigmaGR => []
  | .dNdECC | .dNdENC => [nT, c.nrhos, c.numneu, c.ne]
  | .dNdEGR => [c.ne]
  | .tauAll | .tauLep => [c.nrhos, c.ne]

/-- Every table has its size, the rows padded to a multiple of four. -/
def Shaped (c : Sizes) (t : Tables K) : Prop :=
  ∀ w : Which, (t.get w).extents = w.lead c t.targets.length ++ [Cache.roundUp c.ne] ∧ (t.get w).WF

/-- The entry of a dataset at some indices. -/
def Data.entry (d : Data K) (idx : List Nat) : Outcome K := MArray.at ⟨d.dims, d.dims.prod, d.data⟩ idx

/-- A dataset has as many elements as its extents say. -/
def Data.WF (d : Data K) : Prop := d.data.length = d.dims.prod

/-- Both have the same entries at the nodes. -/
def SameEntries (lead : List Nat) (ne : Nat) (x y : List Nat → Outcome K) : Prop :=
  ∀ idx e, InRange lead idx → e < ne → ∃ v, x (idx ++ [e]) = .ok v ∧ y (idx ++ [e]) = .ok v

/-- The entries beyond the nodes are zero. -/
def ZeroPadding (lead : List Nat) (ne r : Nat) (x : List Nat → Outcome K) : Prop :=
  ∀ idx e, InRange lead idx → ne ≤ e → e < r → x (idx ++ [e]) = .ok 0

end Verif.TableIO
