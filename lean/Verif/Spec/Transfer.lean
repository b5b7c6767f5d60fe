import Mathlib.Data.List.Perm.Basic

/-!
# Specification of struct array transfers (independent of the model)

A row is the list of its components in the transferred arrays, a component is a list of bytes.
-/

namespace Gslib.Spec

/-- one row: its bytes in each array -/
abbrev Row := List (List Nat)

/-- the arrays holding a list of rows, `n` arrays -/
def colsOf (n : Nat) (R : List Row) : List (List (List Nat)) := (List.range n).map fun j => R.map fun r => r.getD j []

/-- the number with little endian bytes `bs` -/
def leVal (bs : List Nat) : Nat := bs.foldr (fun b acc => b + 256 * acc) 0

/-- the four bytes of a 32 bit number, little endian -/
def leBytes (w : Nat) : List Nat := [w % 256, w / 256 % 256, w / 65536 % 256, w / 16777216 % 256]

/-- the processor field at offset `pOff` of the first component of a row -/
def procField (pOff : Nat) (r : Row) : Nat := leVal (((r.getD 0 []).drop pOff).take 4)

/-- the row with its processor field replaced by `w`, everything else unchanged -/
def setProcField (pOff w : Nat) (r : Row) : Row :=
  ((r.getD 0 []).take pOff ++ leBytes w ++ (r.getD 0 []).drop (pOff + 4)) :: r.tail

/-- all rows on processes `0..np-1` whose destination is `p`; `R q` are the rows on process `q`, `D q` their
destinations; `f q r` is what becomes of row `r` sent by process `q` -/
def received (np : Nat) (R : Nat → List Row) (D : Nat → List Nat) (f : Nat → Row → Row) (p : Nat) : List Row :=
  (List.range np).flatMap fun q => (((R q).zip (D q)).filter fun x => x.2 = p).map fun x => f q x.1

/-- the number of rows for `p` -/
def receivedCount (np : Nat) (R : Nat → List Row) (D : Nat → List Nat) (p : Nat) : Nat := (received np R D (fun _ r => r) p).length

end Gslib.Spec
