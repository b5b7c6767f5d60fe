import Verif.Spec.SarraySort
import Verif.Spec.Strided

/-!
# Specification: arrays of structs in memory
-/

namespace Gslib.Spec

/-- struct number `i` of the array at `base`: its `size` bytes, numbered from 0 -/
def memRow (base size : Nat) (m : Bytes) (i : Nat) : Bytes := fun k => if k < size then m (base + i * size + k) else none

/-- the array of `n` structs at `base` -/
def memRows (base size n : Nat) (m : Bytes) : List Bytes := (List.range n).map (memRow base size m)

/-- a sort field of a struct: `off` is `offsetof`; an unsigned integer of `D` bytes, or a `float`/`double` of `sz` bytes, `val` is the number its contents stands for -/
inductive MemField (κ : Type) where
  | int (D off : Nat)
  | real (sz off : Nat) (val : Nat → κ)

/-- the contents of a variable that begins at byte `off` -/
def varAt (off : Nat) (row : Bytes) : Nat := match row off with | some c => c.1 | none => 0

/-- a field as a sort key of the bytes of a struct -/
def MemField.key {κ : Type} : MemField κ → Key Bytes κ
  | .int _ off => .nat (varAt off)
  | .real _ off val => .ord fun r => val (varAt off r)

/-- the field of every struct of the array has a value -/
def MemField.Stored {κ : Type} (base size n : Nat) (m : Bytes) : MemField κ → Prop
  | .int D off => 0 < D ∧ off + D ≤ size ∧ ∀ i, i < n → ∃ v, v < 256 ^ D ∧ HoldsAt m D (base + i * size + off) v
  | .real sz off _ => 0 < sz ∧ off + sz ≤ size ∧ ∀ i, i < n → ∃ v, HoldsAt m sz (base + i * size + off) v

/-- the bytes of the array belong to an object -/
def Allocated (base len : Nat) (m : Bytes) : Prop := ∀ b, base ≤ b → b < base + len → (m b).isSome = true

end Gslib.Spec
