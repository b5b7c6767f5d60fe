import Verif.Lemmas.Legendre
import Mathlib.Algebra.Polynomial.Eval.Degree

/-!
# C34: Legendre evaluation
-/

namespace Gslib.Props
open Gslib.Poly Gslib.Spec Polynomial
variable {K : Type} [Field K] [CharZero K]

/-- `P_n(x)` -/
noncomputable def P (x : K) (n : Nat) : K := (legendreP K n).eval x
/-- `P_n'(x)` -/
noncomputable def P1 (x : K) (n : Nat) : K := (derivative (legendreP K n)).eval x
/-- `P_n''(x)` -/
noncomputable def P2 (x : K) (n : Nat) : K := (derivative (derivative (legendreP K n))).eval x

theorem P_rec (x : K) (n : Nat) : ((n : K) + 2) * P x (n + 2) = (2 * n + 3) * x * P x (n + 1) - (n + 1) * P x n := by
  have := congrArg (eval x) (legP_bonnet (K := K) n)
  simpa only [eval_mul, eval_sub, eval_C, eval_X, P, P1, P2] using this

theorem P1_rec (x : K) (n : Nat) : ((n : K) + 1) * P1 x (n + 2) = (2 * n + 3) * x * P1 x (n + 1) - (n + 2) * P1 x n := by
  have := congrArg (eval x) (legP_d1 (K := K) n)
  simpa only [eval_mul, eval_sub, eval_C, eval_X, P, P1, P2] using this

theorem P2_rec (x : K) (n : Nat) : (n : K) * P2 x (n + 2) = (2 * n + 3) * x * P2 x (n + 1) - (n + 3) * P2 x n := by
  have := congrArg (eval x) (legP_d2 (K := K) n)
  simpa only [eval_mul, eval_sub, eval_C, eval_X, P, P1, P2] using this

theorem natc_ne (j k : Nat) : (((j : K) + 1 + k)) ≠ 0 := by
  have : ((j + 1 + k : Nat) : K) ≠ 0 := Nat.cast_ne_zero.mpr (by omega)
  push_cast at this; exact this

theorem legLoop_spec (n : Nat) (x : K) (j : Nat) : ∃ j', legLoop n x (j + 1) (P x j, P x (j + 1)) = (P x j', P x (j' + 1)) ∧
    j' % 2 = j % 2 ∧ n ≤ j' + 1 ∧ (j' = j ∨ j' ≤ n) := by
  by_cases h : j + 1 < n
  · rw [legLoop, if_pos h]
    have e0 : ((2 * ((j + 1 : Nat) : K) + 1) * x * P x (j + 1) - ((j + 1 : Nat) : K) * P x j) / (((j + 1 : Nat) : K) + 1) = P x (j + 2) := by
      rw [div_eq_iff (by have := natc_ne (K := K) j 1; push_cast at *; exact this)]
      have := P_rec x j
      push_cast; linear_combination -this
    have e1 : ((2 * ((j + 1 : Nat) : K) + 3) * x * P x (j + 2) - (((j + 1 : Nat) : K) + 1) * P x (j + 1)) / (((j + 1 : Nat) : K) + 2) = P x (j + 3) := by
      rw [div_eq_iff (by have := natc_ne (K := K) j 2; push_cast at *; exact this)]
      have := P_rec x (j + 1)
      push_cast at *; linear_combination -this
    simp only [e0, e1]
    obtain ⟨j', h1, h2, h3, h4⟩ := legLoop_spec n x (j + 2)
    exact ⟨j', h1, by omega, h3, by omega⟩
  · rw [legLoop, if_neg h]
    exact ⟨j, rfl, rfl, by omega, Or.inl rfl⟩
termination_by n - j

theorem legLoop1_spec (n : Nat) (x : K) (j : Nat) : ∃ j', legLoop1 n x (j + 2) (P1 x (j + 2), P1 x (j + 1)) = (P1 x (j' + 2), P1 x (j' + 1)) ∧
    j' % 2 = j % 2 ∧ n ≤ j' + 2 ∧ (j' = j ∨ j' + 1 ≤ n) := by
  by_cases h : j + 2 < n
  · rw [legLoop1, if_pos h]
    have e0 : ((2 * ((j + 2 : Nat) : K) + 1) * x * P1 x (j + 2) - (((j + 2 : Nat) : K) + 1) * P1 x (j + 1)) / ((j + 2 : Nat) : K) = P1 x (j + 3) := by
      rw [div_eq_iff (by exact Nat.cast_ne_zero.mpr (by omega))]
      have := P1_rec x (j + 1)
      push_cast at *; linear_combination -this
    have e1 : ((2 * ((j + 2 : Nat) : K) + 3) * x * P1 x (j + 3) - (((j + 2 : Nat) : K) + 2) * P1 x (j + 2)) / (((j + 2 : Nat) : K) + 1) = P1 x (j + 4) := by
      rw [div_eq_iff (by have := natc_ne (K := K) (j + 2) 0; push_cast at *; simpa using this)]
      have := P1_rec x (j + 2)
      push_cast at *; linear_combination -this
    simp only [e0, e1]
    obtain ⟨j', h1, h2, h3, h4⟩ := legLoop1_spec n x (j + 2)
    exact ⟨j', h1, by omega, h3, by omega⟩
  · rw [legLoop1, if_neg h]
    exact ⟨j, rfl, rfl, by omega, Or.inl rfl⟩
termination_by n - j

theorem legLoop2_spec (n : Nat) (x : K) (j : Nat) : ∃ j', legLoop2 n x (j + 3) (P2 x (j + 2), P2 x (j + 3)) = (P2 x (j' + 2), P2 x (j' + 3)) ∧
    j' % 2 = j % 2 ∧ n ≤ j' + 3 ∧ (j' = j ∨ j' + 2 ≤ n) := by
  by_cases h : j + 3 < n
  · rw [legLoop2, if_pos h]
    have e0 : ((2 * ((j + 3 : Nat) : K) + 1) * x * P2 x (j + 3) - (((j + 3 : Nat) : K) + 2) * P2 x (j + 2)) / (((j + 3 : Nat) : K) - 1) = P2 x (j + 4) := by
      rw [div_eq_iff (by
        have : ((j + 2 : Nat) : K) ≠ 0 := Nat.cast_ne_zero.mpr (by omega)
        intro e; apply this; push_cast at *; linear_combination e)]
      have := P2_rec x (j + 2)
      push_cast at *; linear_combination -this
    have e1 : ((2 * ((j + 3 : Nat) : K) + 3) * x * P2 x (j + 4) - (((j + 3 : Nat) : K) + 3) * P2 x (j + 3)) / ((j + 3 : Nat) : K) = P2 x (j + 5) := by
      rw [div_eq_iff (by exact Nat.cast_ne_zero.mpr (by omega))]
      have := P2_rec x (j + 3)
      push_cast at *; linear_combination -this
    simp only [e0, e1]
    obtain ⟨j', h1, h2, h3, h4⟩ := legLoop2_spec n x (j + 2)
    exact ⟨j', h1, by omega, h3, by omega⟩
  · rw [legLoop2, if_neg h]
    exact ⟨j, rfl, rfl, by omega, Or.inl rfl⟩
termination_by n - j

/-- **C34** `legendre(n,x)` is the Legendre polynomial of degree `n` (Rodrigues' formula) at `x` -/
theorem legendre_correct (n : Nat) (x : K) : legendre n x = (legendreP K n).eval x := by
  have h0 : (1 : K) = P x 0 := by rw [P, legP_zero, eval_one]
  have h1 : x = P x 1 := by rw [P, legP_one, eval_X]
  have : ((1 : K), x) = (P x 0, P x (0 + 1)) := by rw [← h0, ← h1]
  rw [legendre, this]
  obtain ⟨j', e, h2, h3, h4⟩ := legLoop_spec n x 0
  rw [Nat.zero_add] at e
  rw [e]
  dsimp only
  show (if n % 2 = 0 then _ else _) = P x n
  split_ifs with h
  · congr 1; omega
  · congr 1; omega

theorem legP_two : derivative (legendreP K 2) = C 3 * X := by
  rw [legP_A, legP_one]
  simp only [derivative_X, Nat.cast_one, C_add, C_1]
  have : (C 3 : K[X]) = 3 := map_ofNat C 3
  rw [this]; ring

theorem legP_three : derivative (derivative (legendreP K 3)) = C 15 * X := by
  have h2 := legP_two (K := K)
  have h1 := legP_A (K := K) 2
  rw [h1]
  simp only [derivative_add, derivative_mul, derivative_X, derivative_C, h2]
  have : (C 3 : K[X]) = 3 := map_ofNat C 3
  have h15 : (C 15 : K[X]) = 15 := map_ofNat C 15
  simp only [Nat.cast_ofNat, C_add, C_ofNat, C_1, this, h15, derivative_ofNat]
  ring

/-- **C34** `legendre_d1(n,x)` is the derivative of that polynomial at `x` (`n>0`) -/
theorem legendre_d1_correct (n : Nat) (hn : 0 < n) (x : K) : legendreD1 n x = (derivative (legendreP K n)).eval x := by
  have h0 : (3 : K) * x = P1 x 2 := by rw [P1, legP_two, eval_mul, eval_C, eval_X]
  have h1 : (1 : K) = P1 x 1 := by rw [P1, legP_one, derivative_X, eval_one]
  have : ((3 : K) * x, (1 : K)) = (P1 x (0 + 2), P1 x (0 + 1)) := by rw [← h0, ← h1]
  rw [legendreD1, this]
  obtain ⟨j', e, h2, h3, h4⟩ := legLoop1_spec n x 0
  rw [Nat.zero_add] at e
  rw [e]
  dsimp only
  show (if n % 2 = 0 then _ else _) = P1 x n
  split_ifs with h
  · congr 1; omega
  · congr 1; omega

/-- **C34** `legendre_d2(n,x)` is the second derivative at `x` (`n>1`) -/
theorem legendre_d2_correct (n : Nat) (hn : 1 < n) (x : K) : legendreD2 n x = (derivative (derivative (legendreP K n))).eval x := by
  have h0 : (3 : K) = P2 x 2 := by rw [P2, legP_two, derivative_C_mul, derivative_X, mul_one, eval_C]
  have h1 : (15 : K) * x = P2 x 3 := by rw [P2, legP_three, eval_mul, eval_C, eval_X]
  have : ((3 : K), (15 : K) * x) = (P2 x (0 + 2), P2 x (0 + 3)) := by rw [← h0, ← h1]
  rw [legendreD2, this]
  obtain ⟨j', e, h2, h3, h4⟩ := legLoop2_spec n x 0
  rw [Nat.zero_add] at e
  rw [e]
  dsimp only
  show (if n % 2 = 0 then _ else _) = P2 x n
  split_ifs with h
  · congr 1; omega
  · congr 1; omega

/-- **C34** the three-term recurrence -/
theorem legendre_recurrence (n : Nat) (x : K) :
    ((n : K) + 2) * legendre (n + 2) x = (2 * n + 3) * x * legendre (n + 1) x - (n + 1) * legendre n x := by
  simp only [legendre_correct]; exact P_rec x n

/-- **C34** value at 1 -/
theorem legendre_one : ∀ n : Nat, legendre n (1 : K) = 1
  | 0 => by rw [legendre_correct, legP_zero, eval_one]
  | 1 => by rw [legendre_correct, legP_one, eval_X]
  | n + 2 => by
      have h := legendre_recurrence n (1 : K)
      rw [legendre_one (n + 1), legendre_one n] at h
      have hne := natc_ne (K := K) n 1
      apply mul_left_cancel₀ hne
      push_cast; linear_combination h

/-- **C34** parity -/
theorem legendre_parity (x : K) : ∀ n : Nat, legendre n (-x) = (-1) ^ n * legendre n x
  | 0 => by simp [legendre_correct, legP_zero]
  | 1 => by simp [legendre_correct, legP_one]
  | n + 2 => by
      have h := legendre_recurrence n (-x)
      have h' := legendre_recurrence n x
      rw [legendre_parity x (n + 1), legendre_parity x n] at h
      have hne := natc_ne (K := K) n 1
      apply mul_left_cancel₀ hne
      rw [pow_succ] at h
      rw [pow_add]
      push_cast; linear_combination h - (-1) ^ n * h' 

/-- **C34** the derivative relations connecting the three functions: `(1-x^2) P_n'' - 2x P_n' + n(n+1) P_n = 0` -/
theorem legendre_ode (n : Nat) (hn : 1 < n) (x : K) :
    (1 - x ^ 2) * legendreD2 n x - 2 * x * legendreD1 n x + n * (n + 1) * legendre n x = 0 := by
  rw [legendre_correct, legendre_d1_correct n (by omega), legendre_d2_correct n hn]
  obtain ⟨k, rfl⟩ : ∃ k, n = k + 1 := ⟨n - 1, by omega⟩
  have hA := legP_A (K := K) k
  have hB := legP_B (K := K) k
  have hA' := congrArg (eval x) (congrArg derivative hA)
  have hB' := congrArg (eval x) (congrArg derivative hB)
  have hA := congrArg (eval x) hA
  have hB := congrArg (eval x) hB
  simp only [derivative_add, derivative_mul, derivative_X, derivative_C, eval_add, eval_mul, eval_C, eval_X, eval_one, eval_zero] at *
  push_cast
  linear_combination hA' - x * hB' - ((k : K) + 2) * hB

end Gslib.Props
