import Mathlib.Algebra.BigOperators.Group.Finset.Basic
import Mathlib.Algebra.BigOperators.Ring.Finset

/-!
# Tensor products

Column-major arrays as lists: entry `(i,j)` of an array with `n` rows is entry `i+n*j` of the list.
-/

namespace Gslib.Spec
open Finset
variable {K : Type} [CommSemiring K]

/-- entry `i` of an array -/
def ent (l : List K) (i : Nat) : K := l.getD i 0

/-- entry `(i,j)` of `A B` for a matrix `A` with `nc` rows and `na` columns -/
def mulEnt (nc na : Nat) (A B : List K) (i j : Nat) : K := ∑ k ∈ range na, ent A (i + nc * k) * ent B (k + na * j)

/-- entry `(i,j)` of `Aᵀ B` for a matrix `A` with `na` rows -/
def tmulEnt (na : Nat) (A B : List K) (i j : Nat) : K := ∑ k ∈ range na, ent A (k + na * i) * ent B (k + na * j)

/-- `[Jr ⊗ Js] u` for row vectors (`u` is `nr` by `ns`) -/
def interp2 (Jr : Nat → K) (nr : Nat) (Js : Nat → K) (ns : Nat) (u : List K) : K :=
  ∑ i ∈ range nr, ∑ j ∈ range ns, Jr i * Js j * ent u (i + nr * j)

/-- `[Jr ⊗ Js ⊗ Jt] u` for row vectors (`u` is `nr` by `ns` by `nt`) -/
def interp3 (Jr : Nat → K) (nr : Nat) (Js : Nat → K) (ns : Nat) (Jt : Nat → K) (nt : Nat) (u : List K) : K :=
  ∑ i ∈ range nr, ∑ j ∈ range ns, ∑ k ∈ range nt, Jr i * Js j * Jt k * ent u (i + nr * (j + ns * k))

end Gslib.Spec
