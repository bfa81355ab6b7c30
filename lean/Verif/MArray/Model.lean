import Verif.Base
import Mathlib.Algebra.BigOperators.Group.List.Basic

/-!
# Model of `nusquids::marray` (include/nuSQuIDS/marray.h)

An array is its list of extents, its stored total size and the sequence of elements in its buffer (row-major).
Sizes are natural numbers; the places where the C++ accumulates a product in a 32-bit type are modelled with the
truncation, because properties C01, C02-C06 depend on it. Wrap-around of 64-bit products is not modelled here
but in `Wide.lean`.
-/

namespace Verif.Marr

/-- marray.h:1317-1320, the data members `extents`, `total_size_and_alloc`, `data`. The allocator is not modelled. -/
structure MArray (α : Type u) where
  extents : List Nat
  total : Nat
  data : List α
  deriving DecidableEq, Repr

/-! ## Products as the code accumulates them -/

/-- `std::accumulate(b,e,1u,std::multiplies<size_type>())` (marray.h:950, 952, 1007, 1009, 1061, 1063, 1130, 1132,
1173): the accumulator has the type of the initial value `1u`, a 32-bit unsigned integer, so each partial product is
truncated to 32 bits. -/
def accU32 (l : List Nat) : Nat := l.foldl (fun acc e => acc * e % 2 ^ 32) 1

/-- The value of a 64-bit `size_t` product converted to `int` (marray.h:851, 867, 885, 903: the initial value `1` is an
`int`), as the bit pattern of the `int` sign-extended to 64 bits when it is used as `size_t` again. -/
def truncInt (x : Nat) : Nat :=
  if x % 2 ^ 32 < 2 ^ 31 then x % 2 ^ 32 else x % 2 ^ 32 + (2 ^ 64 - 2 ^ 32)

/-- `std::accumulate(b,e,1,std::multiplies<size_type>())` followed by the conversion to `size_t` (marray.h:851). -/
def accInt (l : List Nat) : Nat := l.foldl (fun acc e => truncInt (acc * e)) 1

/-- `std::accumulate(b,e,1UL,std::multiplies<size_type>())` (marray.h:1329); for 64-bit wrap-around see `Wide.lean`. -/
def accU64 (l : List Nat) : Nat := l.foldl (fun acc e => acc * e) 1

/-! ## Subscripts -/

/-- Chained subscripts after the first one (marray.h:254-280): the proxy constructor multiplies the offset by the next
extent, `operator[]` adds the index. -/
def chain : (exts idx : List Nat) → (off : Nat) → Nat
  | e :: es, j :: js, off => chain es js (off * e + j)
  | _, _, off => off

/-- Offset addressed by `m[i0][i1]...` (marray.h:282-297 and 836-842, then the proxies). -/
def chainedOffset (exts idx : List Nat) : Nat :=
  match idx with
  | [] => 0
  | i :: is => chain exts.tail is i

/-- Loop of the index-list subscript (marray.h:852-858): `none` is the integer division by zero that occurs when an
extent other than the first is zero. `rest` are the extents not yet divided out. -/
def listLoop : (rest idx : List Nat) → (stride off : Nat) → Option Nat
  | _, [], _, off => some off
  | [], i :: is, stride, off => listLoop [] is stride (off + i * stride)
  | e :: es, i :: is, stride, off =>
    if e = 0 then none else listLoop es is (stride / e) (off + i * stride)

/-- Offset addressed by `m[{i0,i1,...}]` (marray.h:846-912, four identical overloads), 64-bit arithmetic of the final
offset not modelled. -/
def listOffset (exts idx : List Nat) : Option Nat :=
  listLoop exts.tail idx (accInt exts.tail) 0

/-- Read through chained subscripts; the rank is a template parameter, so a wrong number of subscripts does not compile
and is mapped to `ub` here. Reading outside the buffer is undefined behaviour. -/
def MArray.at (a : MArray α) (idx : List Nat) : Outcome α :=
  if idx.length = a.extents.length then .ofOption a.data[chainedOffset a.extents idx]? else .ub

/-- Read through the index-list subscript; `assert(indices.size()==Rank)` at marray.h:847. -/
def MArray.atList (a : MArray α) (idx : List Nat) : Outcome α :=
  if idx.length = a.extents.length then
    match listOffset a.extents idx with
    | some off => .ofOption a.data[off]?
    | none => .ub
  else .ub

/-- marray.h:1308-1315 `getCoordinate`, from the distance of the iterator to `begin()`. Division by zero: `none`. -/
def coordLoop : (exts : List Nat) → (dim offset divisor : Nat) → Option Nat
  | [], _, _, _ => none
  | e :: _, 0, offset, divisor =>
    if e = 0 ∨ divisor / e = 0 then none else some (offset / (divisor / e))
  | e :: es, dim + 1, offset, divisor =>
    if e = 0 ∨ divisor / e = 0 then none else coordLoop es dim (offset % (divisor / e)) (divisor / e)

def MArray.getCoordinate (a : MArray α) (pos dim : Nat) : Option Nat :=
  coordLoop a.extents dim pos a.total

/-! ## Construction -/

/-- marray.h:649-653. -/
def MArray.empty (rank : Nat) : MArray α := ⟨List.replicate rank 0, 0, []⟩

/-- marray.h:658-695 with `compute_total_size` (1326-1330): default-constructed contents. -/
def MArray.ofDims [Inhabited α] (rank : Nat) (dims : List Nat) : Outcome (MArray α) :=
  if dims.length ≠ rank then .throws
  else .ok ⟨dims, accU64 dims, List.replicate (accU64 dims) default⟩

/-- marray.h:757-775: construction from an iterator range. -/
def MArray.ofRange (rank : Nat) (dims : List Nat) (src : List α) : Outcome (MArray α) :=
  if dims.length ≠ rank then .throws
  else if src.length ≠ accU64 dims then .throws
  else .ok ⟨dims, accU64 dims, src⟩

/-- marray.h:304-311 `initializer_for_rank`: a list of lists of ... of values. -/
def Nest (α : Type u) : Nat → Type u
  | 0 => α
  | n + 1 => List (Nest α n)

/-- marray.h:313-336 `initializer_shape_checker::check`: `false` means `logic_error`. The recursion follows the
template recursion; at rank 1 only the size is compared. -/
def shapeOk : (n : Nat) → (exts : List Nat) → Nest α n → Bool
  | 0, _, _ => true
  | _ + 1, [], _ => false
  | n + 1, e :: es, (l : List (Nest α n)) => l.length == e && l.all (fun x => shapeOk n es x)

/-- marray.h:338-359 `multidimensional_initializer::initialize`: order in which the values are written. -/
def flattenNest : (n : Nat) → Nest α n → List α
  | 0, (x : α) => [x]
  | n + 1, (l : List (Nest α n)) => (l.map (flattenNest n)).flatten

/-- marray.h:727-744. -/
def MArray.ofNest (rank : Nat) (dims : List Nat) (init : Nest α rank) : Outcome (MArray α) :=
  if dims.length ≠ rank then .throws
  else if shapeOk rank dims init then .ok ⟨dims, accU64 dims, flattenNest rank init⟩
  else .throws

/-- marray.h:827-834: assignment from a nested list requires the array's own shape and overwrites the elements. -/
def MArray.assignNest (a : MArray α) (init : Nest α a.extents.length) : Outcome (MArray α) :=
  if shapeOk a.extents.length a.extents init then .ok { a with data := flattenNest _ init } else .throws

/-! ## Insert, erase, resize, reshape -/

/-- Reading `n` consecutive elements; running off the buffer is undefined behaviour (`none`). -/
def takeExact (n : Nat) (l : List α) : Option (List α) := if n ≤ l.length then some (l.take n) else none

/-- Loop of `insert` (marray.h:961-971 and 1017-1027): per outer iteration copy `posC` old items, write `numC` copies of
`val`, copy `remC` old items. `rd` is what is left to read. -/
def insertLoop (posC numC remC : Nat) (val : α) : (iterations : Nat) → (rd : List α) → Option (List α)
  | 0, _ => some []
  | i + 1, rd => do
    let first ← takeExact posC rd
    let rd1 := rd.drop posC
    let second ← takeExact remC rd1
    let rest ← insertLoop posC numC remC val i (rd1.drop remC)
    return first ++ List.replicate numC val ++ second ++ rest

/-- marray.h:948-1056 `insert(dim,pos,num,val)` when no element operation throws. -/
def MArray.insert (a : MArray α) (dim pos num : Nat) (val : α) : Outcome (MArray α) :=
  if h : dim < a.extents.length then
    let e := a.extents[dim]
    if pos ≤ e then
      let iterations := accU32 (a.extents.take dim)
      let remainder := e - pos
      let chunk := accU32 (a.extents.drop (dim + 1))
      match insertLoop (pos * chunk) (num * chunk) (remainder * chunk) val iterations a.data with
      | some d => .ok ⟨a.extents.set dim (e + num), iterations * (e + num) * chunk, d⟩
      | none => .ub
    else .ub
  else .ub

/-- Loop of `erase` (marray.h:1143-1149): copy `posC` items, skip `numC`, copy `remC`. -/
def eraseLoop (posC numC remC : Nat) : (iterations : Nat) → (rd : List α) → Option (List α)
  | 0, _ => some []
  | i + 1, rd => do
    let first ← takeExact posC rd
    let rd1 := (rd.drop posC).drop numC
    let second ← takeExact remC rd1
    let rest ← eraseLoop posC numC remC i (rd1.drop remC)
    return first ++ second ++ rest

/-- marray.h:1124-1163 `erase(dim,pos,num)` when no element operation throws. The counter `i` is a 32-bit `unsigned`
compared with `iterations`, which is below 2^32 by construction. -/
def MArray.erase (a : MArray α) (dim pos num : Nat) : Outcome (MArray α) :=
  if h : dim < a.extents.length then
    let e := a.extents[dim]
    if pos < e ∧ pos + num ≤ e then
      let iterations := accU32 (a.extents.take dim)
      let remainder := e - (pos + num)
      let chunk := accU32 (a.extents.drop (dim + 1))
      match eraseLoop (pos * chunk) (num * chunk) (remainder * chunk) iterations a.data with
      | some d => .ok ⟨a.extents.set dim (e - num), iterations * (e - num) * chunk, d⟩
      | none => .ub
    else .ub
  else .ub

/-- marray.h:930-936 `resize(dim,size)`; new entries are `T()`. -/
def MArray.resizeDim [Inhabited α] (a : MArray α) (dim size : Nat) : Outcome (MArray α) :=
  if h : dim < a.extents.length then
    let e := a.extents[dim]
    if size < e then a.erase dim size (e - size)
    else if size > e then a.insert dim e (size - e) default
    else .ok a
  else .ub

/-- Loop of marray.h:943-944. -/
def resizeLoop [Inhabited α] : (dim : Nat) → (sizes : List Nat) → MArray α → Outcome (MArray α)
  | _, [], a => .ok a
  | dim, s :: ss, a => (a.resizeDim dim s).bind (resizeLoop (dim + 1) ss)

/-- marray.h:938-945 `resize(new_extents)`. -/
def MArray.resize [Inhabited α] (a : MArray α) (newExtents : List Nat) : Outcome (MArray α) :=
  if newExtents.length ≠ a.extents.length then .throws else resizeLoop 0 newExtents a

/-- marray.h:1170-1177 `reshape(new_extents)`. -/
def MArray.reshape (a : MArray α) (newExtents : List Nat) : Outcome (MArray α) :=
  if newExtents.length ≠ a.extents.length then .throws
  else if accU32 newExtents ≠ a.total then .throws
  else .ok { a with extents := newExtents }

/-! ## First and last element -/

/-- marray.h:1287-1288. -/
def MArray.front (a : MArray α) : Outcome α := .ofOption a.data[0]?

/-- marray.h:1289 (non-const): `data[size()-1]`; for an empty array `size()-1` wraps and the access is out of range. -/
def MArray.back (a : MArray α) : Outcome α :=
  if a.total = 0 then .ub else .ofOption a.data[a.total - 1]?

/-- marray.h:1290 (const): returns `size()-1` converted to the element type. `conv` is that conversion. -/
def MArray.backConst (conv : Nat → α) (a : MArray α) : Outcome α :=
  .ok (conv (if a.total = 0 then 2 ^ 64 - 1 else a.total - 1))

end Verif.Marr
