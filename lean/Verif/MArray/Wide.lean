import Verif.MArray.Model

/-!
# Sizes of 64 bits (marray.h 252-297, 658-695, 836-842, 948-1056, 1326-1330)

The same operations as in `Model.lean` with every size and offset reduced to 64 bits, as `size_t` is, and an allocator that refuses more than
`mem` elements.
-/

namespace Verif.Marr

/-- `compute_total_size` (1326-1330). -/
def acc64 (l : List Nat) : Nat := l.foldl (fun acc e => acc * e % 2 ^ 64) 1

/-- Construction from extents (658-695). -/
def ofDims64 [Inhabited α] (mem rank : Nat) (dims : List Nat) : Outcome (MArray α) :=
  if dims.length ≠ rank then .throws
  else if acc64 dims > mem then .throws
  else .ok ⟨dims, acc64 dims, List.replicate (acc64 dims) default⟩

/-- Chained subscripts (254-280). -/
def chain64 : (exts idx : List Nat) → (off : Nat) → Nat
  | e :: es, j :: js, off => chain64 es js ((off * e % 2 ^ 64 + j) % 2 ^ 64)
  | _, _, off => off

/-- The offset addressed by `m[i0][i1]...`. -/
def offset64 (exts idx : List Nat) : Nat :=
  match idx with
  | [] => 0
  | i :: is => chain64 exts.tail is i

def MArray.at64 (a : MArray α) (idx : List Nat) : Outcome α :=
  if idx.length = a.extents.length then .ofOption a.data[offset64 a.extents idx]? else .ub

/-- `insert` (948-1056): the new buffer has the wrapped size (954, 1011), the loops write as many elements as they copy and add. Writing beyond the
buffer is undefined. -/
def MArray.insert64 (mem : Nat) (a : MArray α) (dim pos num : Nat) (val : α) : Outcome (MArray α) :=
  if h : dim < a.extents.length then
    let e := a.extents[dim]
    if pos ≤ e then
      let iterations := accU32 (a.extents.take dim)
      let remainder := e - pos
      let chunk := accU32 (a.extents.drop (dim + 1))
      let newTotal := iterations * ((e + num) % 2 ^ 64) % 2 ^ 64 * chunk % 2 ^ 64
      if newTotal > mem then .throws
      else match insertLoop (pos * chunk % 2 ^ 64) (num * chunk % 2 ^ 64) (remainder * chunk % 2 ^ 64) val iterations a.data with
        | some d => if d.length > newTotal then .ub else .ok ⟨a.extents.set dim ((e + num) % 2 ^ 64), newTotal, d⟩
        | none => .ub
    else .ub
  else .ub

end Verif.Marr
