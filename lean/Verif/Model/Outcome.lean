/-!
# Outcome of a gslib call
-/

namespace Gslib

/-- result of a gslib call: a value, a call of `fail(1,...)` / `MPI_Abort` (program aborts with a message), or
undefined behaviour -/
inductive Outcome (α : Type) where
  | ok (v : α)
  | abort
  | ub
  deriving DecidableEq, Repr

/-- undefined behaviour of an `Option` computation -/
def Outcome.ofOption {α : Type} : Option α → Outcome α
  | some v => .ok v
  | none => .ub

/-- continue on success -/
def Outcome.bind {α β : Type} : Outcome α → (α → Outcome β) → Outcome β
  | .ok v, f => f v
  | .abort, _ => .abort
  | .ub, _ => .ub

end Gslib
