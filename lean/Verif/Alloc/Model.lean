import Verif.Base

/-!
# `aligned_allocator` (include/nuSQuIDS/aligned_alloc.h)

Addresses and `size_t` are natural numbers below 2^64; the reductions to 64 and 8 bits that the C++ types perform are
explicit. `new char[needed]` is represented by the address `p` it returns (its failure is the system's `bad_alloc`).
Memory is a function from addresses to byte values.
-/

namespace Verif.Alloc

/-- aligned_alloc.h:155-157: `1UL << align_pow` converted to `uint32_t`. -/
def getAlign (alignPow : Nat) : Nat := 2 ^ alignPow % 2 ^ 32

/-- aligned_alloc.h:81-83. -/
def maxSize (alignPow sizeofT : Nat) : Nat := (2 ^ 64 - 1 - getAlign alignPow) / sizeofT

/-- aligned_alloc.h:112-114: the number of bytes requested from the system, in 64-bit arithmetic. -/
def needed (alignPow sizeofT n : Nat) : Nat := (n * sizeofT % 2 ^ 64 + getAlign alignPow) % 2 ^ 64

/-- What `allocate` did: the address returned and the memory afterwards. -/
structure Allocation where
  ret : Nat
  mem : Nat → Nat

/-- aligned_alloc.h:107-133; `p` is the address the system hands out. -/
def allocate (alignPow sizeofT n p : Nat) (mem : Nat → Nat) : Outcome Allocation :=
  if n > maxSize alignPow sizeofT then .throws
  else
    let alignment := getAlign alignPow
    let offset := (alignment - p % alignment) % 2 ^ 8                      -- uint8_t, line 120
    let ret := ((p &&& (2 ^ 64 - 1 - (alignment - 1))) + alignment) % 2 ^ 64   -- line 128
    .ok ⟨ret, fun a => if a = ret - 1 then offset else mem a⟩                  -- line 130

/-- aligned_alloc.h:135-145: the address passed to `delete[]`; `none` for a null pointer. -/
def deallocate (mem : Nat → Nat) (ptr : Nat) : Option Nat :=
  if ptr = 0 then none else some (ptr - mem (ptr - 1))

end Verif.Alloc
