/-!
# A tiny memory model for buffers

A family of buffers indexed by `ι`; every cell is `none` while it is uninitialised.
Reading an uninitialised cell, or accessing an index `≥ cap`, is undefined behaviour and makes the
`Option` computation return `none`.
-/

namespace Gslib

/-- buffers: location ↦ index ↦ contents (`none` = uninitialised) -/
abbrev Bufs (ι α : Type) := ι → Nat → Option α

/-- bounds-checked read -/
def rd {ι α : Type} (cap : Nat) (m : Bufs ι α) (b : ι) (k : Nat) : Option α :=
  if k < cap then m b k else none

/-- bounds-checked write -/
def wr {ι α : Type} [DecidableEq ι] (cap : Nat) (m : Bufs ι α) (b : ι) (k : Nat) (v : α) :
    Option (Bufs ι α) :=
  if k < cap then some (fun b' k' => if b' = b ∧ k' = k then some v else m b' k') else none

/-- the first `n` cells of a buffer as a list; `none` if one of them is uninitialised -/
def readList {α : Type} (f : Nat → Option α) (n : Nat) : Option (List α) :=
  (List.range n).mapM f

end Gslib
