import Verif.Spec.Gs
import Mathlib.Data.Multiset.AddSub

/-!
# Specification: combining values with an operation that need not be associative or commutative (rounding)
-/

namespace Gslib.Spec

variable {T : Type}

/-- `y` is the result of combining the values `m`, each of them once, by `f`, in some order and with some bracketing; `e` may be combined with them any number of times -/
inductive Combines (f : T → T → T) (e : T) : Multiset T → T → Prop
  | val (x : T) : Combines f e {x} x
  | none : Combines f e 0 e
  | op {m n : Multiset T} {x y : T} : Combines f e m x → Combines f e n y → Combines f e (m + n) (f x y)

/-- the values that are combined to give each entry of the result of gather-scatter on process `q`; compare `gsOut`, `gsOutT` -/
def gsTerms (t : Bool) (np : Nat) (ids : Nat → List Int) (v : Nat → List T) (q : Nat) : List (List T) :=
  if t then
    ((ids q).zip (v q)).zipIdx.map fun x =>
      if 0 < x.1.1 then members np ids v x.1.1.natAbs
      else if x.1.1 < 0 ∧ loneFlagged (ids q) x.2 x.1.1.natAbs then pick (fun y => y.natAbs = x.1.1.natAbs) (ids q) (v q)
      else [x.1.2]
  else ((ids q).zip (v q)).map fun x => if x.1 = 0 then [x.2] else unflagged np ids v x.1.natAbs

/-- `out` is a possible result of gather-scatter of the values `v` on process `q`: each entry combines the values it has to, and the entries with id 0 are the given ones -/
structure GsCombines (f : T → T → T) (e : T) (t : Bool) (np : Nat) (ids : Nat → List Int) (v : Nat → List T) (q : Nat) (out : List T) : Prop where
  terms : List.Forall₂ (fun (l : List T) y => Combines f e (l : Multiset T) y) (gsTerms t np ids v q) out
  zero : ∀ i : Nat, (ids q)[i]? = some 0 → out[i]? = (v q)[i]?

end Gslib.Spec
