import Verif.Model.FindptsLocal
import Verif.Model.Crystal
import Mathlib.Algebra.BigOperators.Fin

/-!
# Specification of the point search

A candidate for a point is a pair (process, element); `find q el` is what the search in element `el` of process `q` yields for the point.
-/

namespace Gslib.Spec
open Gslib Gslib.Fp

variable {D : Nat} {K : Type} [LinearOrder K]

/-- the result of `findpts` for a point: `code`, `proc`, `el`, `r`, `dist2` -/
structure PtRes (D : Nat) where
  code : Nat
  proc : Nat
  el : Nat
  r : Fin D → Nat
  dist2 : Nat

/-- the result is the one of candidate `(q, el)` -/
def Of (find : Nat → Nat → FRes D) (res : PtRes D) (q el : Nat) : Prop :=
  res.proc = q ∧ res.el = el ∧ res.r = (find q el).r ∧ res.dist2 = (find q el).dist2

/-- `res` is a best result among the candidates `C`: "not found" when there is none; "internal" when the search found the point inside an element, and then the result is from such an element; else "border", with the least distance
among all candidates -/
def IsBest (val : Nat → K) (find : Nat → Nat → FRes D) (C : Nat → Nat → Prop) (res : PtRes D) : Prop :=
  (res.code = 2 ∧ ∀ q el, ¬ C q el) ∨
  (res.code = 0 ∧ ∃ q el, C q el ∧ (find q el).internal = true ∧ Of find res q el) ∨
  (res.code = 1 ∧ (∀ q el, C q el → (find q el).internal = false) ∧
    ∃ q el, C q el ∧ Of find res q el ∧ ∀ q' el', C q' el' → val (find q el).dist2 ≤ val (find q' el').dist2)

/-- the arguments of a call of `findpts` on `np` processes: points `xs p` (with session ids) and room for as many results on each; the messages stay below `INT_MAX` bytes -/
structure CallOk (np : Nat) (xs : Nat → List (Pt D × Nat)) (outs : Nat → List (LRes D)) : Prop where
  room : ∀ p, p < np → (outs p).length = (xs p).length
  double : ∀ p, p < np → ∀ x ∈ xs p, (∀ d, x.1 d < 2 ^ 64) ∧ x.2 < 2 ^ 32
  npt : ∀ p, p < np → (xs p).length ≤ 2 ^ 32
  small : (∑ p ∈ Finset.range np, (xs p).length) * np * (8 * D + 48) < Crystal.intMax

end Gslib.Spec
