import Verif.Base

/-!
# Model of the chunk-shape loop of `writeArrayH5` (`/repo/include/nuSQuIDS/tools.h` 323-342)

Only reached with `compressLevel > 0`. The loop visits the dimensions from last to first, so the model takes the extents in
that order and the result is reversed back by `chunkDims`.
-/

namespace Verif.Tools

/-- `targetChunkSize` (tools.h 328), in bytes. -/
def target : Nat := 2 ^ 16

/-- One turn (tools.h 330-338): the entry of `chunkDims` and the new `size`. `dimi` is an `unsigned int`; the division by a zero
`size` is undefined behaviour. `size` is an `unsigned long`: the product is reduced modulo 2^64. -/
def chunkTurn (size extent : Nat) : Outcome (Nat × Nat) :=
  if size < target then
    if size = 0 then .ub
    else
      let dimi := target / size % 2 ^ 32
      let dimi := if extent < dimi ∨ dimi = 0 then extent % 2 ^ 32 else dimi
      .ok (dimi, size * dimi % 2 ^ 64)
  else .ok (1, size)

/-- The loop over the extents, last dimension first. -/
def chunkLoop : (size : Nat) → List Nat → Outcome (List Nat)
  | _, [] => .ok []
  | size, e :: es => (chunkTurn size e).bind fun (c, size) => (chunkLoop size es).map (c :: ·)

/-- `chunkDims` for an element type of `elem` bytes. -/
def chunkDims (elem : Nat) (extents : List Nat) : Outcome (List Nat) :=
  (chunkLoop elem extents.reverse).map List.reverse

end Verif.Tools
