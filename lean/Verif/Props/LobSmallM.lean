import Verif.Props.LobSetup

/-!
# C37: `m > n` is not enough
-/

namespace Gslib.Props
open Gslib.Num Gslib.Poly Gslib.Spec Gslib.Lob Finset Polynomial

theorem poly1_prod {K : Type} [Field K] (n : Nat) (z u : Nat → K) (x : K) :
    poly1 n z u x = ∑ i ∈ range n, u i * ∏ j ∈ (range n).erase i, (z i - z j)⁻¹ * (x - z j) := by
  unfold poly1 basisAt
  refine sum_congr rfl fun i _ => ?_
  rw [Lagrange.basis, eval_prod]
  congr 1
  refine prod_congr rfl fun j _ => ?_
  simp [Lagrange.basisDivisor]

/-- the doubles nearest to the Chebyshev nodes for `m=5` -/
def cheb5 (j : Nat) : ℚ := if j = 1 then -(70710678118654757 / 100000000000000000) else if j = 3 then 70710678118654757 / 100000000000000000 else 0

/-- **Finding** with `n=4`, `m=5` (the header says "we expect m>n") the interval is wrong too: for the values 0.6, 1.2, 0.1, -0.3 at the 4 nodes `lob_bnd_1` returns the lower
bound -0.3, but the cubic polynomial with these values is less than -0.306 at 0.945 -/
theorem lob_bnd_wrong_for_m_5 :
    ((setup 1 (1/100) (fun _ => 0) cheb5 4 5).bind fun D => (bnd1 4 5 D 4 (memOf [3/5, 6/5, 1/10, -3/10]) 0 10 0 (fun _ => none)).map fun r => r.1.1) = some (-3/10) ∧
    poly1 4 (fixVal 4) (fun i => ([3/5, 6/5, 1/10, -3/10] : List ℚ).getD i 0) (189/200) < -306/1000 := by
  constructor
  · decide +kernel
  · rw [poly1_prod]
    decide +kernel

end Gslib.Props
