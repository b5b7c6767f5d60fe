import Mathlib.Order.Defs.LinearOrder
import Mathlib.Data.List.Perm.Basic

/-!
# Specification of sorting (independent of the model)

`IsStableSort key l out` : `out` is *the* stable sorted rearrangement of `l` by `key`.
`IsSortingPerm A p` : `p` is a permutation of `0..n-1` which lists `A` in non-decreasing order.
-/

namespace Gslib.Spec

/-- `out` is a rearrangement of `l`, non-decreasing in `key`, and for every key value the entries
with this key appear in `out` in the same order as in `l` (stability). -/
structure IsStableSort {α κ : Type*} [LinearOrder κ] (key : α → κ) (l out : List α) : Prop where
  perm : out.Perm l
  sorted : out.Pairwise (fun a b => key a ≤ key b)
  stable : ∀ k : κ, out.filter (fun a => decide (key a = k)) = l.filter (fun a => decide (key a = k))

/-- `p` is a permutation of the indices of a table with `n` entries. -/
def IsPermTable (n : Nat) (p : List Nat) : Prop := p.Perm (List.range n)

/-- `i` occurs before `j` in the list `q`. -/
def Before (q : List Nat) (i j : Nat) : Prop := [i, j].Sublist q

/-- The contract of `sortp` stated on the *indices*: `p` is a permutation of `0..n-1` that lists the
keys `A` in non-decreasing order, and indices with equal keys keep the relative order they have in
`q` (the starting permutation; `0,1,...,n-1` when there is none). -/
structure IsStableSortPerm {κ : Type*} [LinearOrder κ] (A : List κ) (q p : List Nat) : Prop where
  perm : IsPermTable A.length p
  sorted : p.Pairwise fun i j => ∀ x y, A[i]? = some x → A[j]? = some y → x ≤ y
  stable : ∀ i j x, A[i]? = some x → A[j]? = some x → (Before p i j ↔ Before q i j)

end Gslib.Spec
