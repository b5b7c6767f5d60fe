import Verif.Lemmas.ObboxRun
import Verif.Lemmas.LobDir

/-!
# Polynomials on the boundary of the square and of the cube
-/

namespace Gslib.Obb
open Gslib.Num Gslib.Poly Gslib.Lob Gslib.Spec Finset Polynomial
variable {K : Type} [Field K]

theorem basisAt_node {n : Nat} {z : Nat → K} (hz : ∀ i < n, ∀ j < n, z i = z j → i = j) {i j : Nat} (hi : i < n) (hj : j < n) : basisAt n z i (z j) = if i = j then 1 else 0 := by
  have hinj : Set.InjOn z (range n : Set Nat) := fun i hi j hj e => hz i (by simpa using hi) j (by simpa using hj) e
  unfold basisAt
  by_cases h : i = j
  · subst h; rw [if_pos rfl, Lagrange.eval_basis_self hinj (mem_range.2 hi)]
  · rw [if_neg h, Lagrange.eval_basis_of_ne h (mem_range.2 hj)]

/-- at a node the sum has one term -/
theorem sum_basis_node {n : Nat} {z : Nat → K} (hz : ∀ i < n, ∀ j < n, z i = z j → i = j) {j : Nat} (hj : j < n) (a : Nat → K) : ∑ i ∈ range n, a i * basisAt n z i (z j) = a j := by
  rw [sum_eq_single j]
  · rw [basisAt_node hz hj hj, if_pos rfl, mul_one]
  · intro i hi hij
    rw [basisAt_node hz (mem_range.1 hi) hj, if_neg hij, mul_zero]
  · intro h; exact absurd (mem_range.2 hj) h

section two
variable {nr ns : Nat} {zr zs : Nat → K} (hzr : ∀ i < nr, ∀ j < nr, zr i = zr j → i = j) (hzs : ∀ i < ns, ∀ j < ns, zs i = zs j → i = j)

include hzs in
theorem poly2_row (V : Nat → K) {j : Nat} (hj : j < ns) (r : K) : poly2 nr zr ns zs V r (zs j) = poly1 nr zr (fun i => V (nr * j + i)) r := by
  unfold poly2 poly1
  rw [sum_basis_node hzs hj]
  refine sum_congr rfl fun i _ => ?_
  rw [Nat.add_comm]

include hzr in
theorem poly2_col (V : Nat → K) {i : Nat} (hi : i < nr) (s : K) : poly2 nr zr ns zs V (zr i) s = poly1 ns zs (fun j => V (i + nr * j)) s := by
  unfold poly2 poly1
  refine sum_congr rfl fun j _ => ?_
  rw [sum_basis_node hzr hi]
end two

section three
variable {nr ns nt : Nat} {zr zs zt : Nat → K} (hzr : ∀ i < nr, ∀ j < nr, zr i = zr j → i = j) (hzs : ∀ i < ns, ∀ j < ns, zs i = zs j → i = j)
  (hzt : ∀ i < nt, ∀ j < nt, zt i = zt j → i = j)

include hzt in
theorem poly3_rs (V : Nat → K) {k : Nat} (hk : k < nt) (r s : K) : poly3 nr zr ns zs nt zt V r s (zt k) = poly2 nr zr ns zs (fun i => V (nr * ns * k + i)) r s := by
  unfold poly3 poly2
  rw [sum_basis_node hzt hk]
  refine sum_congr rfl fun j _ => ?_
  congr 1
  refine sum_congr rfl fun i _ => ?_
  rw [show i + nr * (j + ns * k) = nr * ns * k + (i + nr * j) by ring]

include hzs in
theorem poly3_rt (V : Nat → K) {j : Nat} (hj : j < ns) (r t : K) : poly3 nr zr ns zs nt zt V r (zs j) t = poly2 nr zr nt zt (fun q => V (q / nr * (ns * nr) + q % nr + nr * j)) r t := by
  unfold poly3 poly2
  refine sum_congr rfl fun k _ => ?_
  rw [sum_basis_node hzs hj]
  congr 1
  refine sum_congr rfl fun i hi => ?_
  have := div_mod_at (c := k) (mem_range.1 hi)
  beta_reduce
  rw [show i + nr * k = k * nr + i by ring, this.1, this.2, show i + nr * (j + ns * k) = k * (ns * nr) + i + nr * j by ring]

include hzr in
theorem poly3_st (V : Nat → K) {i : Nat} (hi : i < nr) (s t : K) : poly3 nr zr ns zs nt zt V (zr i) s t = poly2 ns zs nt zt (fun q => V (i + nr * q)) s t := by
  unfold poly3 poly2
  refine sum_congr rfl fun k _ => ?_
  congr 1
  refine sum_congr rfl fun j _ => ?_
  rw [sum_basis_node hzr hi]
end three

theorem poly2_tVal {nr ns : Nat} (hnr : 2 ≤ nr) (hns : 2 ≤ ns) {zr zs : Nat → K} (hzr : ∀ i < nr, ∀ j < nr, zr i = zr j → i = j) (hzs : ∀ i < ns, ∀ j < ns, zs i = zs j → i = j)
    (d : Nat) (x0 : Nat → K) (Ji : Nat → Nat → K) (U : Nat → Nat → K) (c : Nat) (r s : K) :
    poly2 nr zr ns zs (tVal d x0 Ji U c) r s = ∑ e ∈ range d, Ji c e * (poly2 nr zr ns zs (U e) r s - x0 e) := by
  have h1 := (basis_sums hnr hzr r).1
  have h2 := (basis_sums hns hzs s).1
  have e : ∀ e ∈ range d, Ji c e * (poly2 nr zr ns zs (U e) r s - x0 e) =
      ∑ j ∈ range ns, ∑ i ∈ range nr, Ji c e * (U e (i + nr * j) - x0 e) * basisAt nr zr i r * basisAt ns zs j s := by
    intro e _
    have : x0 e = ∑ j ∈ range ns, ∑ i ∈ range nr, x0 e * basisAt nr zr i r * basisAt ns zs j s := by
      have : ∀ j ∈ range ns, ∑ i ∈ range nr, x0 e * basisAt nr zr i r * basisAt ns zs j s = x0 e * basisAt ns zs j s := by
        intro j _
        rw [← sum_mul, ← mul_sum, h1, mul_one]
      rw [sum_congr rfl this, ← mul_sum, h2, mul_one]
    conv_lhs => rw [this]
    unfold poly2
    rw [← sum_sub_distrib, mul_sum]
    refine sum_congr rfl fun j _ => ?_
    rw [sum_mul, ← sum_sub_distrib, mul_sum]
    refine sum_congr rfl fun i _ => ?_
    ring
  rw [sum_congr rfl e, sum_comm]
  unfold poly2 tVal
  refine sum_congr rfl fun j _ => ?_
  rw [sum_comm, sum_mul]
  refine sum_congr rfl fun i _ => ?_
  rw [sum_mul, sum_mul]

theorem poly3_tVal {nr ns nt : Nat} (hnr : 2 ≤ nr) (hns : 2 ≤ ns) (hnt : 2 ≤ nt) {zr zs zt : Nat → K} (hzr : ∀ i < nr, ∀ j < nr, zr i = zr j → i = j) (hzs : ∀ i < ns, ∀ j < ns, zs i = zs j → i = j)
    (hzt : ∀ i < nt, ∀ j < nt, zt i = zt j → i = j)
    (d : Nat) (x0 : Nat → K) (Ji : Nat → Nat → K) (U : Nat → Nat → K) (c : Nat) (r s t : K) :
    poly3 nr zr ns zs nt zt (tVal d x0 Ji U c) r s t = ∑ e ∈ range d, Ji c e * (poly3 nr zr ns zs nt zt (U e) r s t - x0 e) := by
  have h3 := (basis_sums hnt hzt t).1
  have e1 : ∀ V : Nat → K, poly3 nr zr ns zs nt zt V r s t = ∑ k ∈ range nt, poly2 nr zr ns zs (fun i => V (nr * ns * k + i)) r s * basisAt nt zt k t := by
    intro V
    unfold poly3 poly2
    refine sum_congr rfl fun k _ => ?_
    congr 1
    refine sum_congr rfl fun j _ => ?_
    congr 1
    refine sum_congr rfl fun i _ => ?_
    rw [show i + nr * (j + ns * k) = nr * ns * k + (i + nr * j) by ring]
  have e2 : ∀ k ∈ range nt, poly2 nr zr ns zs (fun i => tVal d x0 Ji U c (nr * ns * k + i)) r s * basisAt nt zt k t =
      ∑ e ∈ range d, (Ji c e * (poly2 nr zr ns zs (fun i => U e (nr * ns * k + i)) r s - x0 e)) * basisAt nt zt k t := by
    intro k _
    rw [← sum_mul]
    congr 1
    exact poly2_tVal hnr hns hzr hzs d x0 Ji (fun e i => U e (nr * ns * k + i)) c r s
  rw [e1, sum_congr rfl e2, sum_comm]
  refine sum_congr rfl fun e _ => ?_
  rw [e1]
  have : x0 e = ∑ k ∈ range nt, x0 e * basisAt nt zt k t := by rw [← mul_sum, h3, mul_one]
  conv_rhs => rw [this, ← sum_sub_distrib, mul_sum]
  refine sum_congr rfl fun k _ => ?_
  ring

end Gslib.Obb
