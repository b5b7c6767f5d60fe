import Verif.Lemmas.NumMem
import Verif.Model.Lagrange
import Mathlib.LinearAlgebra.Lagrange
import Mathlib.Algebra.Polynomial.Derivative
import Mathlib.Tactic.Ring
import Mathlib.Tactic.LinearCombination

/-!
# Closed forms of the Lagrange recurrences
-/

namespace Gslib.Poly
open Gslib.Num

section Rec
variable {R : Type} [CommRing R]

/-- products of the first `k` differences -/
def U0 (d : Nat → R) : Nat → R
  | 0 => 1
  | k + 1 => U0 d k * d k

/-- half the derivative of `U0` -/
def U1 (d : Nat → R) : Nat → R
  | 0 => 0
  | k + 1 => U1 d k * d k + U0 d k

/-- a quarter of the second derivative of `U0` -/
def U2 (d : Nat → R) : Nat → R
  | 0 => 0
  | k + 1 => U2 d k * d k + 2 * U1 d k

/-- the differences from the top -/
def rev (n : Nat) (d : Nat → R) (j : Nat) : R := d (n - 1 - j)

theorem U0_eq (d : Nat → R) : ∀ k, U0 d k = ∏ j ∈ Finset.range k, d j
  | 0 => by simp [U0]
  | k + 1 => by rw [U0, U0_eq d k, Finset.prod_range_succ]

theorem U_map {R' : Type} [CommRing R'] (φ : R →+* R') (d : Nat → R) :
    ∀ k, φ (U0 d k) = U0 (fun j => φ (d j)) k ∧ φ (U1 d k) = U1 (fun j => φ (d j)) k ∧ φ (U2 d k) = U2 (fun j => φ (d j)) k
  | 0 => by simp [U0, U1, U2]
  | k + 1 => by
      obtain ⟨h0, h1, h2⟩ := U_map φ d k
      refine ⟨?_, ?_, ?_⟩
      · simp only [U0, map_mul, h0]
      · simp only [U1, map_mul, map_add, h0, h1]
      · simp only [U2, map_mul, map_add, h1, h2, map_ofNat]

theorem prod_split (n i : Nat) (hi : i < n) (d : Nat → R) :
    U0 d i * U0 (rev n d) (n - 1 - i) = ∏ j ∈ (Finset.range n).erase i, d j := by
  rw [U0_eq, U0_eq]
  have h1 : ∏ j ∈ Finset.range (n - 1 - i), rev n d j = ∏ j ∈ Finset.Ico (i + 1) n, d j := by
    rw [Finset.prod_Ico_eq_prod_range, show n - (i + 1) = n - 1 - i by omega, ← Finset.prod_range_reflect]
    refine Finset.prod_congr rfl fun j hj => ?_
    have := Finset.mem_range.mp hj
    rw [rev]; congr 1; omega
  rw [h1]
  have h2 : (Finset.range n).erase i = Finset.range i ∪ Finset.Ico (i + 1) n := by
    ext j; simp only [Finset.mem_erase, Finset.mem_range, Finset.mem_union, Finset.mem_Ico]; omega
  rw [h2, Finset.prod_union]
  exact Finset.disjoint_left.mpr fun j hj hj' => by
    simp only [Finset.mem_range, Finset.mem_Ico] at hj hj'; omega
end Rec

section Poly
variable {K : Type} [Field K]
open Polynomial

/-- `2(X-z_j)` -/
noncomputable def dP (z : Nat → K) (j : Nat) : K[X] := C 2 * (X - C (z j))

theorem derivative_U (d : Nat → K[X]) (hd : ∀ j, derivative (d j) = C 2) :
    ∀ k, derivative (U0 d k) = C 2 * U1 d k ∧ derivative (U1 d k) = C 2 * U2 d k
  | 0 => by simp [U0, U1, U2]
  | k + 1 => by
      obtain ⟨h0, h1⟩ := derivative_U d hd k
      simp only [U0, U1, U2, derivative_mul, derivative_add, h0, h1, hd]
      have : (C 2 : K[X]) = 2 := map_ofNat C 2
      rw [this]
      constructor <;> ring

theorem derivative_dP (z : Nat → K) (j : Nat) : derivative (dP z j) = C 2 := by simp [dP]

theorem derivative_rev_dP (z : Nat → K) (n j : Nat) : derivative (rev n (dP z) j) = C 2 := derivative_dP z _

/-- the unscaled cardinal polynomial `∏_{j≠i} 2(X-z_j)` -/
noncomputable def cardP (n : Nat) (z : Nat → K) (i : Nat) : K[X] := U0 (dP z) i * U0 (rev n (dP z)) (n - 1 - i)

theorem derivative_cardP (n : Nat) (z : Nat → K) (i : Nat) :
    derivative (cardP n z i) = C 2 * (U1 (dP z) i * U0 (rev n (dP z)) (n - 1 - i) + U0 (dP z) i * U1 (rev n (dP z)) (n - 1 - i)) := by
  rw [cardP, derivative_mul, (derivative_U _ (derivative_dP z) i).1, (derivative_U _ (derivative_rev_dP z n) _).1]
  ring

theorem derivative2_cardP (n : Nat) (z : Nat → K) (i : Nat) :
    derivative (derivative (cardP n z i)) = C 4 * (U2 (dP z) i * U0 (rev n (dP z)) (n - 1 - i) +
      2 * U1 (dP z) i * U1 (rev n (dP z)) (n - 1 - i) + U0 (dP z) i * U2 (rev n (dP z)) (n - 1 - i)) := by
  rw [derivative_cardP, derivative_mul, derivative_add, derivative_mul, derivative_mul, (derivative_U _ (derivative_dP z) i).1,
    (derivative_U _ (derivative_rev_dP z n) _).1, (derivative_U _ (derivative_dP z) i).2, (derivative_U _ (derivative_rev_dP z n) _).2]
  simp only [derivative_C]
  have e4 : (C 4 : K[X]) = C 2 * C 2 := by rw [← C_mul]; norm_num
  have : (C 2 : K[X]) = 2 := map_ofNat C 2
  rw [e4, this]
  ring

variable (n : Nat) (z : Nat → K) (x : K)

/-- the differences at `x` -/
def dx (j : Nat) : K := 2 * (x - z j)

theorem eval_dP (j : Nat) : (evalRingHom x) (dP z j) = dx z x j := by simp [dP, dx]

theorem eval_U (k : Nat) : eval x (U0 (dP z) k) = U0 (dx z x) k ∧ eval x (U1 (dP z) k) = U1 (dx z x) k ∧
    eval x (U2 (dP z) k) = U2 (dx z x) k := by
  have := U_map (evalRingHom x) (dP z) k
  simpa only [eval_dP, coe_evalRingHom] using this

theorem eval_V (k : Nat) : eval x (U0 (rev n (dP z)) k) = U0 (rev n (dx z x)) k ∧ eval x (U1 (rev n (dP z)) k) = U1 (rev n (dx z x)) k ∧
    eval x (U2 (rev n (dP z)) k) = U2 (rev n (dx z x)) k := by
  have := U_map (evalRingHom x) (rev n (dP z)) k
  have e : (fun j => (evalRingHom x) (rev n (dP z) j)) = rev n (dx z x) := by
    funext j; exact eval_dP z x _
  rw [e] at this
  exact this

theorem cardP_eq (i : Nat) (hi : i < n) : cardP n z i = ∏ j ∈ (Finset.range n).erase i, dP z j := prod_split n i hi _

theorem eval_cardP_self_ne (h2 : (2 : K) ≠ 0) (hz : ∀ i < n, ∀ j < n, z i = z j → i = j) (i : Nat) (hi : i < n) :
    eval (z i) (cardP n z i) ≠ 0 := by
  rw [cardP_eq n z i hi, eval_prod]
  refine Finset.prod_ne_zero_iff.mpr fun j hj => ?_
  obtain ⟨hji, hj⟩ := Finset.mem_erase.mp hj
  have hj := Finset.mem_range.mp hj
  simp only [dP, eval_mul, eval_C, eval_sub, eval_X]
  exact mul_ne_zero h2 (sub_ne_zero.mpr fun e => hji (hz i hi j hj e).symm)

/-- scaled to 1 at its node it is Mathlib's Lagrange basis polynomial -/
theorem cardP_basis (h2 : (2 : K) ≠ 0) (hz : ∀ i < n, ∀ j < n, z i = z j → i = j) (i : Nat) (hi : i < n) :
    C (1 / eval (z i) (cardP n z i)) * cardP n z i = Lagrange.basis (Finset.range n) z i := by
  have hne := eval_cardP_self_ne n z h2 hz i hi
  rw [Lagrange.basis]
  have : ∀ j ∈ (Finset.range n).erase i, Lagrange.basisDivisor (z i) (z j) = C (1 / eval (z i) (dP z j)) * dP z j := by
    intro j hj
    have hne' : z i - z j ≠ 0 := by
      obtain ⟨hji, hj⟩ := Finset.mem_erase.mp hj
      exact sub_ne_zero.mpr fun e => hji (hz i hi j (Finset.mem_range.mp hj) e).symm
    rw [Lagrange.basisDivisor, dP]
    simp only [eval_mul, eval_C, eval_sub, eval_X]
    rw [← mul_assoc, ← C_mul]
    congr 2
    field_simp
  rw [Finset.prod_congr rfl this, Finset.prod_mul_distrib, ← cardP_eq n z i hi, cardP_eq n z i hi, eval_prod, ← map_prod]
  congr 2
  rw [one_div, ← Finset.prod_inv_distrib]
  exact Finset.prod_congr rfl fun j _ => by rw [one_div]
end Poly
end Gslib.Poly
