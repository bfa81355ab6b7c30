import Verif.Base

/-!
C47: the memory layout of the interaction cache, `nuSQUIDS::SetUpInteractionCache` (nuSQuIDS.cpp 491-583), and the rounding of array
rows, `round_up_to_aligned` (nuSQuIDS.h 132-134).

`sizeof(double)` is 8 and `alignof(double)` is 8, as on all platforms the alignment code is active on. Offsets into the store count doubles;
addresses count bytes. Sizes are natural numbers, with subtraction as in the code (where it would wrap, the model stops at zero; C47
proves the subtractions are exact). The store returned by `new double[]` starts at `addr`.
-/

namespace Verif.Cache

/-- `round_up_to_aligned(n)` (nuSQuIDS.h 132-134): `(n & ~3) + ((n & 3) ? 4 : 0)`, the masks written as arithmetic. -/
def roundUp (n : Nat) : Nat := (n - n % 4) + (if n % 4 ≠ 0 then 4 else 0)

/-- Headroom in doubles (505, 527). -/
def headroom (numneu : Nat) : Nat := if 1 < numneu then (32 - 8) / 8 else 0

/-- Padding between vectors in doubles (506, 528-548). -/
def padding (numneu : Nat) : Nat :=
  let vs := numneu * numneu
  if 1 < numneu then
    if vs % 2 ≠ 0 then
      let overhang := ((vs - 1) * 8) % 32
      let gap := 32 - overhang
      if gap = 8 then 0
      else if gap < 8 then (32 - (8 - gap)) / 8
      else (gap - 8) / 8
    else
      let overhang := (vs * 8) % 32
      if overhang ≠ 0 then (32 - overhang) / 8 else 0
  else 0

/-- `interaction_cache_store_size` (553). -/
def storeSize (numneu nvec : Nat) : Nat := headroom numneu + nvec * (numneu * numneu) + (nvec - 1) * padding numneu

/-- The pointer after the adjustment (560-568), as an offset. -/
def firstOffset (numneu addr : Nat) : Nat :=
  let vs := numneu * numneu
  if 1 < numneu then
    if vs % 2 ≠ 0 then
      if (addr + 8) % 32 ≠ 0 then (32 - (addr + 8) % 32) / 8 else 0
    else if addr % 32 ≠ 0 then (32 - addr % 32) / 8 else 0
  else 0

/-- The check before a vector is placed (572-578); true if the fatal error is raised. -/
def misplaced (numneu addr off : Nat) : Bool :=
  decide (1 < numneu) &&
    ((decide (numneu % 2 = 1) && decide ((addr + 8 * off) % 32 ≠ 32 - 8)) || (decide (numneu % 2 = 0) && decide ((addr + 8 * off) % 32 ≠ 0)))

/-- The inner loop over energies (571-581): places `n` vectors from offset `off` on; the offsets used, and the pointer after. -/
def placeRow (numneu addr : Nat) : Nat → Nat → Outcome (List Nat × Nat)
  | 0, off => .ok ([], off)
  | n + 1, off =>
    if misplaced numneu addr off then .throws
    else (placeRow numneu addr n (off + (numneu * numneu + padding numneu))).bind fun r => .ok (off :: r.1, r.2)

/-- The outer loop over particle types (570-582). -/
def placeRows (numneu addr ne : Nat) : Nat → Nat → Outcome (List (List Nat))
  | 0, _ => .ok []
  | n + 1, off =>
    (placeRow numneu addr ne off).bind fun r => (placeRows numneu addr ne n r.2).bind fun rs => .ok (r.1 :: rs)

/-- What `SetUpInteractionCache` leaves: the store's address and size, and the offset of the vector of each particle type and energy, with
the number of components each was made for. -/
structure Layout where
  addr : Nat
  size : Nat
  dim : Nat
  offsets : List (List Nat)
  deriving DecidableEq, Repr

/-- Building the cache (497-583) in a store allocated at `addr`. -/
def build (numneu nrhos ne addr : Nat) : Outcome Layout :=
  (placeRows numneu addr ne nrhos (firstOffset numneu addr)).bind fun rows =>
    .ok ⟨addr, storeSize numneu (nrhos * ne), numneu, rows⟩

/-- The extents of the array of vectors: number of rows and length of a row. -/
def Layout.Extents (l : Layout) (nrhos ne : Nat) : Prop := l.offsets.length = nrhos ∧ ∀ row ∈ l.offsets, row.length = ne

instance (l : Layout) (nrhos ne : Nat) : Decidable (l.Extents nrhos ne) := by unfold Layout.Extents; infer_instance

/-- `SetUpInteractionCache` (491-583): an existing cache of the same extents is kept. -/
def setUp (old : Option Layout) (numneu nrhos ne addr : Nat) : Outcome Layout :=
  match old with
  | some l => if l.Extents nrhos ne then .ok l else build numneu nrhos ne addr
  | none => build numneu nrhos ne addr

/-! ## What is claimed -/

/-- The cache holds a vector of `dim*dim` components for each type and energy; they lie inside the store, do not overlap, and each is
aligned: its first component on 32 bytes if the number of components is even, its second if odd. -/
structure Sound (l : Layout) (numneu nrhos ne : Nat) : Prop where
  shape : l.Extents nrhos ne
  dim : l.dim = numneu
  inside : ∀ row ∈ l.offsets, ∀ off ∈ row, off + numneu * numneu ≤ l.size
  apart : l.offsets.flatten.Pairwise fun a b => a + numneu * numneu ≤ b
  aligned : 2 ≤ numneu → ∀ row ∈ l.offsets, ∀ off ∈ row,
    if numneu * numneu % 2 = 0 then (l.addr + 8 * off) % 32 = 0 else (l.addr + 8 * (off + 1)) % 32 = 0

end Verif.Cache
