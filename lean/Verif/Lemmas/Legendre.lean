import Verif.Model.Legendre
import Verif.Spec.Legendre
import Mathlib.Tactic.Ring
import Mathlib.Algebra.CharZero.Infinite
import Mathlib.Tactic.FieldSimp
import Mathlib.Tactic.LinearCombination

/-!
# Recurrences of the Legendre polynomials, from Rodrigues' formula
-/

namespace Gslib.Poly
open Polynomial Gslib.Spec
variable {K : Type} [Field K] [CharZero K]

/-- the scale factor of Rodrigues' formula -/
def rodC (K : Type) [Field K] (n : Nat) : K := (2 ^ n * (n.factorial : K))⁻¹

theorem rodC_succ (n : Nat) : rodC K (n + 1) * (2 * ((n : K) + 1)) = rodC K n := by
  have h : ((n : K) + 1) ≠ 0 := Nat.cast_add_one_ne_zero n
  have h' : (n.factorial : K) ≠ 0 := Nat.cast_ne_zero.mpr n.factorial_ne_zero
  rw [rodC, rodC, Nat.factorial_succ, Nat.cast_mul, Nat.cast_succ]
  field_simp
  ring

theorem derivative_g (n : Nat) : derivative ((X ^ 2 - 1 : K[X]) ^ (n + 1)) = C (2 * ((n : K) + 1)) * (X * (X ^ 2 - 1) ^ n) := by
  rw [derivative_pow_succ, derivative_sub, derivative_X_pow, derivative_one]
  simp only [C_mul, C_add, map_natCast, map_one, map_ofNat, Nat.cast_ofNat]
  ring

theorem legP_zero : legendreP K 0 = 1 := by simp [legendreP]

theorem legP_one : legendreP K 1 = X := by
  simp only [legendreP, Function.iterate_one, pow_one, Nat.factorial_one, Nat.cast_one, mul_one]
  rw [derivative_sub, derivative_X_pow, derivative_one]
  simp only [Nat.cast_ofNat, map_ofNat, sub_zero, pow_one, Nat.add_one_sub_one]
  rw [← mul_assoc, ← C_ofNat, ← C_mul, inv_mul_cancel₀ (show (2 : K) ≠ 0 from OfNat.ofNat_ne_zero 2), C_1, one_mul]

/-- `P'_{n+1} = X P'_n + (n+1) P_n` -/
theorem legP_A (n : Nat) : derivative (legendreP K (n + 1)) = X * derivative (legendreP K n) + C ((n : K) + 1) * legendreP K n := by
  rw [legendreP, derivative_C_mul, ← Function.iterate_succ_apply' (f := derivative), Function.iterate_succ_apply, derivative_g,
    iterate_derivative_C_mul, mul_comm X, iterate_derivative_mul_X, ← mul_assoc, ← C_mul]
  rw [show (2 ^ (n + 1) * ((n + 1).factorial : K))⁻¹ = rodC K (n + 1) from rfl, rodC_succ, legendreP, derivative_C_mul,
    ← Function.iterate_succ_apply' (f := derivative)]
  rw [show (2 ^ n * (n.factorial : K))⁻¹ = rodC K n from rfl]
  simp only [nsmul_eq_mul, Nat.add_sub_cancel, Nat.cast_add, Nat.cast_one, C_add, map_natCast, C_1]
  ring

/-- `P'_{n+2} = (2n+3) P_{n+1} + P'_n` -/
theorem legP_C (n : Nat) : derivative (legendreP K (n + 2)) = C (2 * (n : K) + 3) * legendreP K (n + 1) + derivative (legendreP K n) := by
  have hg : derivative (derivative ((X ^ 2 - 1 : K[X]) ^ (n + 2))) =
      C (2 * ((n : K) + 2) * (2 * n + 3)) * (X ^ 2 - 1) ^ (n + 1) + C (4 * ((n : K) + 1) * (n + 2)) * (X ^ 2 - 1) ^ n := by
    rw [derivative_g, derivative_C_mul, derivative_mul, derivative_g, derivative_X]
    simp only [C_mul, C_add, map_natCast, map_one, map_ofNat, Nat.cast_add, Nat.cast_one]
    ring
  have e1 : rodC K (n + 2) * (2 * ((n : K) + 2)) = rodC K (n + 1) := by
    have := rodC_succ (K := K) (n + 1)
    rw [← this]; push_cast; ring
  have e2 : rodC K (n + 2) * (4 * ((n : K) + 1) * (n + 2)) = rodC K n := by
    rw [← rodC_succ (K := K) n, ← e1]; ring
  rw [legendreP, derivative_C_mul, ← Function.iterate_succ_apply' (f := derivative), Function.iterate_succ_apply,
    Function.iterate_succ_apply, hg, iterate_map_add, iterate_derivative_C_mul, iterate_derivative_C_mul, mul_add,
    ← mul_assoc, ← mul_assoc, ← C_mul, ← C_mul]
  rw [show (2 ^ (n + 2) * ((n + 2).factorial : K))⁻¹ = rodC K (n + 2) from rfl, e2, ← mul_assoc (rodC K (n + 2)), e1]
  rw [legendreP, legendreP, derivative_C_mul, ← Function.iterate_succ_apply' (f := derivative)]
  rw [show (2 ^ n * (n.factorial : K))⁻¹ = rodC K n from rfl, show (2 ^ (n + 1) * ((n + 1).factorial : K))⁻¹ = rodC K (n + 1) from rfl,
    C_mul]
  ring

/-- `X P'_{n+1} = P'_n + (n+1) P_{n+1}` -/
theorem legP_B (n : Nat) : X * derivative (legendreP K (n + 1)) = derivative (legendreP K n) + C ((n : K) + 1) * legendreP K (n + 1) := by
  have hA := legP_A (K := K) (n + 1)
  have hC := legP_C (K := K) n
  simp only [C_mul, C_add, map_natCast, map_one, map_ofNat, Nat.cast_add, Nat.cast_one] at *
  linear_combination hC - hA

/-- Bonnet's recurrence -/
theorem legP_bonnet (n : Nat) : C ((n : K) + 2) * legendreP K (n + 2) =
    C (2 * (n : K) + 3) * X * legendreP K (n + 1) - C ((n : K) + 1) * legendreP K n := by
  have hA0 := legP_A (K := K) n
  have hA1 := legP_A (K := K) (n + 1)
  have hB0 := legP_B (K := K) n
  have hB1 := legP_B (K := K) (n + 1)
  simp only [C_mul, C_add, map_natCast, map_one, map_ofNat, Nat.cast_add, Nat.cast_one] at *
  linear_combination X * hA1 - hB1 - hA0 + X * hB0

/-- recurrence of the first derivatives -/
theorem legP_d1 (n : Nat) : C ((n : K) + 1) * derivative (legendreP K (n + 2)) =
    C (2 * (n : K) + 3) * X * derivative (legendreP K (n + 1)) - C ((n : K) + 2) * derivative (legendreP K n) := by
  have hC := legP_C (K := K) n
  have hB0 := legP_B (K := K) n
  simp only [C_mul, C_add, map_natCast, map_one, map_ofNat, Nat.cast_add, Nat.cast_one] at *
  linear_combination ((n : K[X]) + 1) * hC - (2 * (n : K[X]) + 3) * hB0

/-- recurrence of the second derivatives -/
theorem legP_d2 (n : Nat) : C (n : K) * derivative (derivative (legendreP K (n + 2))) =
    C (2 * (n : K) + 3) * X * derivative (derivative (legendreP K (n + 1))) - C ((n : K) + 3) * derivative (derivative (legendreP K n)) := by
  have h1 := congrArg derivative (legP_d1 (K := K) n)
  have hC := congrArg derivative (legP_C (K := K) n)
  rw [derivative_C_mul, derivative_sub, mul_assoc, derivative_C_mul, derivative_mul, derivative_X, derivative_C_mul] at h1
  rw [derivative_add, derivative_C_mul] at hC
  simp only [C_mul, C_add, map_natCast, map_one, map_ofNat, Nat.cast_add, Nat.cast_one] at *
  linear_combination h1 - hC

end Gslib.Poly
