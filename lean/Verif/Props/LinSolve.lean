import Verif.Model.LinSolve
import Mathlib.LinearAlgebra.Matrix.NonsingularInverse
import Mathlib.LinearAlgebra.Matrix.Notation
import Mathlib.Tactic.FieldSimp
import Mathlib.Tactic.Ring
import Mathlib.Tactic.LinearCombination
import Mathlib.Tactic.FinCases
import Mathlib.Tactic.NormNum

/-!
# C48: small linear solves

A row-major array is read as a Mathlib matrix; the specification is Mathlib's matrix-vector product, determinant and inverse.
-/

namespace Gslib.Spec
variable {K : Type}

/-- row-major 2x2 -/
def mat2 (A : Fin 4 → K) : Matrix (Fin 2) (Fin 2) K := !![A 0, A 1; A 2, A 3]

/-- row-major 3x3 -/
def mat3 (A : Fin 9 → K) : Matrix (Fin 3) (Fin 3) K := !![A 0, A 1, A 2; A 3, A 4, A 5; A 6, A 7, A 8]

/-- symmetric 2x2 from its upper triangle -/
def symMat2 (A : Fin 3 → K) : Matrix (Fin 2) (Fin 2) K := !![A 0, A 1; A 1, A 2]

end Gslib.Spec

namespace Gslib.Props
open Gslib.Lin Gslib.Spec
variable {K : Type} [Field K]

/-- **C48** `lin_solve_2` -/
theorem lin_solve_2_correct (A : Fin 4 → K) (y : Fin 2 → K) (h : (mat2 A).det ≠ 0) : (mat2 A).mulVec (linSolve2 A y) = y := by
  rw [mat2, Matrix.det_fin_two_of] at h
  have hi := mul_inv_cancel₀ h
  funext i
  fin_cases i
  all_goals
    simp [mat2, linSolve2, Matrix.mulVec, dotProduct, Fin.sum_univ_two]
    generalize (A 0 * A 3 - A 1 * A 2)⁻¹ = i at *
    first | linear_combination y 0 * hi | linear_combination y 1 * hi

/-- **C48** `lin_solve_sym_2` -/
theorem lin_solve_sym_2_correct (A : Fin 3 → K) (y : Fin 2 → K) (h : (symMat2 A).det ≠ 0) :
    (symMat2 A).mulVec (linSolveSym2 A y) = y := by
  rw [symMat2, Matrix.det_fin_two_of] at h
  have hi := mul_inv_cancel₀ h
  funext i
  fin_cases i
  all_goals
    simp [symMat2, linSolveSym2, Matrix.mulVec, dotProduct, Fin.sum_univ_two]
    generalize (A 0 * A 2 - A 1 * A 1)⁻¹ = i at *
    first | linear_combination y 0 * hi | linear_combination y 1 * hi

theorem det3_ne {A : Fin 9 → K} (h : (mat3 A).det ≠ 0) :
    A 0 * (A 4 * A 8 - A 5 * A 7) + A 1 * (A 5 * A 6 - A 3 * A 8) + A 2 * (A 3 * A 7 - A 4 * A 6) ≠ 0 := by
  rw [mat3, Matrix.det_fin_three] at h
  intro e
  apply h
  simp
  linear_combination e

/-- **C48** `lin_solve_3` -/
theorem lin_solve_3_correct (A : Fin 9 → K) (y : Fin 3 → K) (h : (mat3 A).det ≠ 0) : (mat3 A).mulVec (linSolve3 A y) = y := by
  have h' := det3_ne h
  have hi := mul_inv_cancel₀ h'
  funext i
  fin_cases i
  all_goals
    simp [mat3, linSolve3, Matrix.mulVec, dotProduct, Fin.sum_univ_three]
    generalize (A 0 * (A 4 * A 8 - A 5 * A 7) + A 1 * (A 5 * A 6 - A 3 * A 8) + A 2 * (A 3 * A 7 - A 4 * A 6))⁻¹ = i at *
    first | linear_combination y 0 * hi | linear_combination y 1 * hi | linear_combination y 2 * hi

/-- **C48** `mat_inv_2` -/
theorem mat_inv_2_correct (A : Fin 4 → K) (h : (mat2 A).det ≠ 0) : mat2 (matInv2 A) * mat2 A = 1 ∧ mat2 A * mat2 (matInv2 A) = 1 := by
  rw [mat2, Matrix.det_fin_two_of] at h
  have h1 : mat2 (matInv2 A) * mat2 A = 1 := by
    have hi := mul_inv_cancel₀ h
    ext i j
    fin_cases i <;> fin_cases j
    all_goals
      simp [mat2, matInv2, Matrix.mul_apply, Fin.sum_univ_two]
      generalize (A 0 * A 3 - A 1 * A 2)⁻¹ = i at *
      first | linear_combination hi | linear_combination (0 : K) * hi
  exact ⟨h1, mul_eq_one_comm.1 h1⟩

/-- **C48** `mat_inv_3` -/
theorem mat_inv_3_correct (A : Fin 9 → K) (h : (mat3 A).det ≠ 0) : mat3 (matInv3 A) * mat3 A = 1 ∧ mat3 A * mat3 (matInv3 A) = 1 := by
  have h' := det3_ne h
  have h1 : mat3 (matInv3 A) * mat3 A = 1 := by
    have hi := mul_inv_cancel₀ h'
    ext i j
    fin_cases i <;> fin_cases j
    all_goals
      simp [mat3, matInv3, Matrix.mul_apply, Fin.sum_univ_three]
      generalize (A 0 * (A 4 * A 8 - A 5 * A 7) + A 1 * (A 5 * A 6 - A 3 * A 8) + A 2 * (A 3 * A 7 - A 4 * A 6))⁻¹ = i at *
      first | linear_combination hi | linear_combination (0 : K) * hi
  exact ⟨h1, mul_eq_one_comm.1 h1⟩

/-- a non-singular case of each kind -/
example : (mat2 (![1, 2, 3, 4] : Fin 4 → ℚ)).det ≠ 0 ∧ (symMat2 (![2, 1, 3] : Fin 3 → ℚ)).det ≠ 0 ∧
    (mat3 (![1, 2, 3, 0, 1, 4, 5, 6, 0] : Fin 9 → ℚ)).det ≠ 0 := by
  refine ⟨?_, ?_, ?_⟩
  · rw [mat2, Matrix.det_fin_two_of]; simp; norm_num
  · rw [symMat2, Matrix.det_fin_two_of]; simp; norm_num
  · rw [mat3, Matrix.det_fin_three]; simp; norm_num

end Gslib.Props
