import Verif.Model.FindptsDrv
import Verif.Spec.ElFlags

/-!
# Specification of the point search driver: each point by itself
-/

namespace Gslib.Spec
open Gslib.El

/-- at most `n` steps `step`, none once `conv` holds -/
def iter {P : Type} (conv : P → Bool) (step : P → P) : Nat → P → P
  | 0, p => p
  | n + 1, p => if conv p then p else iter conv step n (step p)

/-- the state of a point before its first step: at the seed, no constraints, infinite distance -/
def startPt {K : Type} {D : Nat} (big zero one : K) (x r : Fin D → K) (i : Nat) : Pt K D := ⟨x, r, none, big, zero, one, i, 0⟩

/-- the low 5 flag bits are those of a configuration, with or without the converged bit -/
def Valid2 (f : U32) : Prop := ∃ r s : Con, f = flags2 r s ∨ f = flags2 r s ||| 16

/-- the low 7 flag bits are those of a configuration, with or without the converged bit -/
def Valid3 (f : U32) : Prop := ∃ r s t : Con, f = flags3 r s t ∨ f = flags3 r s t ||| 64

/-- converged: bit 4 -/
def conv2 (f : U32) : Bool := f.getLsbD 4

/-- converged: bit 6 -/
def conv3 (f : U32) : Bool := f.getLsbD 6

end Gslib.Spec
