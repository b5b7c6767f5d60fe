import Verif.Spec.Gs

/-!
# Specification of gs_unique (independent of the model)
-/

namespace Gslib.Spec

/-- `ids'` is a version of the ids `ids` of `np` processes in which every id that has an unflagged entry has exactly one, on one process; entries which are
zero or flagged (negative) are unchanged, and no absolute value is changed -/
structure UniqueOf (np : Nat) (ids ids' : Nat → List Int) : Prop where
  length : ∀ q, q < np → (ids' q).length = (ids q).length
  abs : ∀ q, q < np → ∀ i : Nat, (ids' q)[i]?.map Int.natAbs = (ids q)[i]?.map Int.natAbs
  flagged : ∀ q, q < np → ∀ (i : Nat) (x : Int), (ids q)[i]? = some x → x ≤ 0 → (ids' q)[i]? = some x
  one : ∀ a : Int, 0 < a → (∃ q, q < np ∧ a ∈ ids q) → ∃! x : Nat × Nat, x.1 < np ∧ (ids' x.1)[x.2]? = some a

/-- a flagged entry `-a` is not the first entry with this id, if the process has an unflagged entry `a` -/
def FlaggedLater (ids : List Int) : Prop :=
  ∀ (i : Nat) (a : Int), 0 < a → ids[i]? = some (-a) → a ∈ ids → ∃ k < i, ids[k]? = some a

end Gslib.Spec
