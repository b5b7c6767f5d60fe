import Verif.Model.Outcome

/-!
# Dynamic arrays and alignment (mem.h)

`size_t` is 64 bits wide: every product and sum is reduced modulo `2^64`. A heap block is the list of its bytes, `none` for a
byte that was never written. `avail k` says whether an allocation of `k` bytes succeeds: gslib calls `fail` when it does not.
-/

namespace Gslib.DynArray
open Gslib

/-- number of values of `size_t` (simplification: a 64-bit target) -/
def sizeMod : Nat := 18446744073709551616

/-- reduction to `size_t` -/
def wrap (n : Nat) : Nat := n % sizeMod

/-- a byte of the heap, `none` while it is indeterminate -/
abbrev Cell := Option UInt8

/-- mem.h:111 `struct array { void *ptr; size_t n,max; }`; `block` is what `ptr` points to -/
structure Arr where
  block : List Cell
  n : Nat
  max : Nat
  deriving DecidableEq, Repr

/-- mem.h:112 `null_array` -/
def nullArray : Arr := ⟨[], 0, 0⟩

/-- C library `realloc`: the common prefix is kept, new bytes are indeterminate -/
def reallocBlock (b : List Cell) (k : Nat) : List Cell := b.take k ++ List.replicate (k - b.length) none

/-- mem.h:113-117 `array_init_` with mem.h:45-55 `smalloc` (`if(!res && size) fail(...)`) -/
def arrayInit (avail : Nat → Bool) (max size : Nat) : Outcome Arr :=
  if avail (wrap (max * size)) ∨ wrap (max * size) = 0 then .ok ⟨List.replicate (wrap (max * size)) none, 0, max⟩ else .abort

/-- mem.h:118-122 `array_resize_` with mem.h:71-90 `srealloc` -/
def arrayResize (avail : Nat → Bool) (a : Arr) (max size : Nat) : Outcome Arr :=
  if avail (wrap (max * size)) ∨ wrap (max * size) = 0 then .ok ⟨reallocBlock a.block (wrap (max * size)), a.n, max⟩ else .abort

/-- mem.h:128-129: the new capacity chosen when `max<min` -/
def growTo (max min : Nat) : Nat :=
  let m := wrap (max + (max / 2 + 1))
  if m < min then min else m

/-- mem.h:123-133 `array_reserve_` -/
def arrayReserve (avail : Nat → Bool) (a : Arr) (min size : Nat) : Outcome Arr :=
  if a.max < min then arrayResize avail a (growTo a.max min) size else .ok a

/-- C library `memcpy` of the bytes `s` to offset `off` of block `b`; undefined outside the block -/
def memcpyAt (b : List Cell) (off : Nat) (s : List UInt8) : Outcome (List Cell) :=
  if off + s.length ≤ b.length then .ok (b.take off ++ s.map some ++ b.drop (off + s.length)) else .ub

/-- mem.h:140-146 `array_cat_`; `s` holds the `n*size` bytes of the `n` appended rows -/
def arrayCat (avail : Nat → Bool) (size : Nat) (d : Arr) (s : List UInt8) (n : Nat) : Outcome Arr :=
  (arrayReserve avail d (wrap (d.n + n)) size).bind fun d =>
  if s.length < wrap (n * size) then .ub else
  (memcpyAt d.block (wrap (d.n * size)) (s.take (wrap (n * size)))).bind fun b =>
  .ok ⟨b, wrap (d.n + n), d.max⟩

/-- a call made on an array -/
inductive Op where
  /-- `array_reserve(T,a,min)` -/
  | reserve (min : Nat)
  /-- `array_cat(T,a,s,n)` -/
  | cat (s : List UInt8) (n : Nat)
  deriving Repr

/-- one call -/
def Op.run (avail : Nat → Bool) (size : Nat) (a : Arr) : Op → Outcome Arr
  | .reserve min => arrayReserve avail a min size
  | .cat s n => arrayCat avail size a s n

/-- a sequence of calls -/
def runOps (avail : Nat → Bool) (size : Nat) : List Op → Arr → Outcome Arr
  | [], a => .ok a
  | o :: os, a => (o.run avail size a).bind (runOps avail size os)

/-- mem.h:168 `align_as_` -/
def alignAs (a n : Nat) : Nat := wrap (wrap (wrap (n + a) + (sizeMod - 1)) / a * a)

end Gslib.DynArray
