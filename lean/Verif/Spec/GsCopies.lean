import Verif.Spec.GsBits

/-!
# Specification: copies of one value after gs (C67)
-/

namespace Gslib.Spec
open Gslib Gslib.Gs Gslib.Nb

variable {T : Type}

/-- entry `i` of the data of a process: one value, the `vn` components of a vector, or the values in the `vn` arrays (`none` past the end) -/
def entryOf (m : Mode) (r : UserData T) (i : Nat) : List (Option T) :=
  match m with
  | .plain => [(arrayOf r)[i]?]
  | .vec vn => (List.range vn).map fun k => (arrayOf r)[i * vn + k]?
  | .many vn => (List.range vn).map fun k => (arrayNo k r)[i]?

/-- entry `i` of a process with these ids gets the combination of the values with id `a`: every entry with id `a` or `-a` without transpose, the entries with id `a` with transpose -/
def Receives (t : Bool) (ids : List Int) (a i : Nat) : Prop :=
  a ≠ 0 ∧ ∃ x, ids[i]? = some x ∧ if t then x = a else x.natAbs = a

end Gslib.Spec
