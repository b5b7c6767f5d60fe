import Verif.Props.Legendre
import Verif.Model.GllTable
import Mathlib.Topology.Algebra.Polynomial
import Mathlib.Topology.Order.IntermediateValue
import Mathlib.Topology.Instances.Real.Lemmas

/-!
# C53: the tabulated Lobatto nodes are accurate
-/

namespace Gslib.Props
open Gslib.Poly Gslib.Spec Polynomial

/-- `(P_{k+1}'(x), P_{k+2}'(x))` by the recurrence, over the rationals -/
def d1pair (x : ℚ) : Nat → ℚ × ℚ
  | 0 => (1, 3 * x)
  | k + 1 => let p := d1pair x k; (p.2, ((2 * (k : ℚ) + 5) * x * p.2 - ((k : ℚ) + 3) * p.1) / ((k : ℚ) + 2))

theorem d1pair_eq (x : ℚ) : ∀ k, d1pair x k = (P1 x (k + 1), P1 x (k + 2))
  | 0 => by
      rw [d1pair, P1, P1, legP_one, legP_two, derivative_X, eval_one, eval_mul, eval_C, eval_X]
  | k + 1 => by
      rw [d1pair, d1pair_eq x k]
      dsimp only
      refine Prod.ext rfl ?_
      have h := P1_rec x (k + 1)
      dsimp only
      rw [div_eq_iff (by positivity)]
      push_cast at h
      linear_combination -h

/-- `10^-49` -/
def tol : ℚ := 1 / 10 ^ 49

/-- sign change of `P_{n-1}'` around every tabulated value -/
def signsOk (n : Nat) : Bool :=
  (gllz n).all fun g => decide ((d1pair (g - tol) (n - 2)).1 * (d1pair (g + tol) (n - 2)).1 < 0)

theorem signs : ∀ n < 25, 4 ≤ n → signsOk n = true := by decide +kernel

theorem eval_cast_d1 (n : Nat) (q : ℚ) : (derivative (legendreP ℝ n)).eval (q : ℝ) = ((derivative (legendreP ℚ n)).eval q : ℚ) := by
  have hmap : legendreP ℝ n = (legendreP ℚ n).map (algebraMap ℚ ℝ) := by
    rw [legendreP, legendreP, Polynomial.map_mul, map_C, ← iterate_derivative_map]
    simp
  rw [hmap, derivative_map, eval_map]
  have := (derivative (legendreP ℚ n)).eval₂_at_apply (algebraMap ℚ ℝ) q
  simpa using this

/-- **C53** every tabulated interior Lobatto node of order `n<=24` is within `10^-49` of a root of `P_{n-1}'`, the defining equation of
the interior Gauss-Lobatto-Legendre nodes -/
theorem gllz_accurate (n : Nat) (h4 : 4 ≤ n) (h24 : n ≤ 24) (g : ℚ) (hg : g ∈ gllz n) :
    ∃ r : ℝ, (derivative (legendreP ℝ (n - 1))).eval r = 0 ∧ |r - g| ≤ 1 / 10 ^ 49 := by
  have hs := signs n (by omega) h4
  rw [signsOk, List.all_eq_true] at hs
  have hs := of_decide_eq_true (hs g hg)
  rw [d1pair_eq, d1pair_eq] at hs
  dsimp only at hs
  rw [show n - 2 + 1 = n - 1 by omega] at hs
  set f : ℝ → ℝ := fun x => (derivative (legendreP ℝ (n - 1))).eval x with hf
  have hprod : f ((g - tol : ℚ) : ℝ) * f ((g + tol : ℚ) : ℝ) < 0 := by
    rw [hf]; dsimp only
    rw [eval_cast_d1, eval_cast_d1]
    exact_mod_cast hs
  have hle : ((g - tol : ℚ) : ℝ) ≤ ((g + tol : ℚ) : ℝ) := by
    have : (0 : ℚ) < tol := by norm_num [tol]
    exact_mod_cast (by linarith : g - tol ≤ g + tol)
  have hcont : ContinuousOn f (Set.Icc ((g - tol : ℚ) : ℝ) ((g + tol : ℚ) : ℝ)) := (Polynomial.continuous _).continuousOn
  have key : ∃ r ∈ Set.Icc ((g - tol : ℚ) : ℝ) ((g + tol : ℚ) : ℝ), f r = 0 := by
    rcases mul_neg_iff.mp hprod with ⟨h1, h2⟩ | ⟨h1, h2⟩
    · exact intermediate_value_Icc' hle hcont ⟨h2.le, h1.le⟩
    · exact intermediate_value_Icc hle hcont ⟨h1.le, h2.le⟩
  obtain ⟨r, ⟨hr1, hr2⟩, hr⟩ := key
  refine ⟨r, hr, ?_⟩
  have e1 : ((g - tol : ℚ) : ℝ) = (g : ℝ) - 1 / 10 ^ 49 := by rw [tol]; push_cast; ring
  have e2 : ((g + tol : ℚ) : ℝ) = (g : ℝ) + 1 / 10 ^ 49 := by rw [tol]; push_cast; ring
  rw [e1] at hr1; rw [e2] at hr2
  rw [abs_le]
  constructor <;> linarith

end Gslib.Props
