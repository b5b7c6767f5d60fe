import Verif.Props.Quad
import Verif.Lemmas.QuadTab
import Verif.Props.QuadNodes
import Mathlib.MeasureTheory.Integral.IntervalIntegral.FundThmCalculus
import Mathlib.Analysis.Calculus.Deriv.Polynomial
import Mathlib.Topology.Algebra.Polynomial
import Mathlib.Analysis.SpecialFunctions.Sqrt

/-!
# C57: the quadrature rules are exact
-/

namespace Gslib.Props
open Gslib.Poly Gslib.Spec Gslib.Num Polynomial

/-- over the reals, `ExactUpTo` says that the rule gives the integral over `[-1,1]` of every polynomial of degree at most `d` -/
theorem exactUpTo_integral (n d : Nat) (v u : Nat → ℝ) :
    ExactUpTo n d v u ↔ ∀ p : ℝ[X], p.natDegree ≤ d → ∑ i ∈ Finset.range n, u i * p.eval (v i) = ∫ x in (-1 : ℝ)..1, p.eval x := by
  have ftc : ∀ q : ℝ[X], ∫ x in (-1 : ℝ)..1, (derivative q).eval x = q.eval 1 - q.eval (-1) := fun q =>
    intervalIntegral.integral_eq_sub_of_hasDerivAt (fun x _ => q.hasDerivAt x) ((derivative q).continuous.intervalIntegrable _ _)
  constructor
  · intro h p hp
    obtain ⟨q, rfl, hq⟩ := exists_primitive p
    rw [ftc]; exact h q (by omega)
  · intro h q hq
    rw [h (derivative q) ((natDegree_derivative_le _).trans (by omega)), ftc]

variable {K : Type} [Field K] [LinearOrder K] [IsStrictOrderedRing K]

/-- **C57** if the nodes computed by `gauss_quad` are `n` distinct zeros of `P_n`, the rule with the computed weights is exact for all
polynomials of degree at most `2n-1` -/
theorem gauss_quad_exact (cap fuel n : Nat) (eps : K) (guess : Nat → K) (z w z' w' : Mem K) (hc : n ≤ cap) (hn : 0 < n)
    (h : gaussQuad cap fuel eps guess n z w = some (z', w'))
    (hroot : ∀ i < n, ∀ x, z' i = some x → (legendreP K n).eval x = 0) (hdist : ∀ i < n, ∀ j < n, z' i = z' j → i = j) :
    ∃ v u : Nat → K, (∀ i < n, z' i = some (v i)) ∧ (∀ i < n, w' i = some (u i)) ∧ ExactUpTo n (2 * n - 1) v u := by
  obtain ⟨v, u, hv, hw, -, hu, -⟩ := gauss_quad_symmetric cap fuel n eps guess z w z' w' hc hn h
  exact ⟨v, u, hv.filled, hw, gauss_exact n hn v
    (fun i hi j hj e => hdist i hi j hj (by rw [hv.filled i hi, hv.filled j hj, e]))
    (fun i hi => hroot i hi _ (hv.filled i hi)) u hu⟩

/-- **C57** if the inner nodes computed by `lobatto_quad` are distinct zeros of `P_{n-1}'` (and not ±1), the rule with the computed weights is
exact for all polynomials of degree at most `2n-3` -/
theorem lobatto_quad_exact (cap fuel n : Nat) (eps : K) (guess : Nat → K) (z w z' w' : Mem K) (hc : n ≤ cap) (hn : 2 ≤ n)
    (h : lobattoQuad cap fuel eps guess n z w = some (z', w'))
    (hroot : ∀ i, 0 < i → i < n - 1 → ∀ x, z' i = some x → (derivative (legendreP K (n - 1))).eval x = 0)
    (hdist : ∀ i < n, ∀ j < n, z' i = z' j → i = j) :
    ∃ v u : Nat → K, (∀ i < n, z' i = some (v i)) ∧ (∀ i < n, w' i = some (u i)) ∧ ExactUpTo n (2 * n - 3) v u := by
  obtain ⟨v, u, hv, ha, hb, hw, -, hu, -⟩ := lobatto_quad_symmetric cap fuel n eps guess z w z' w' hc hn h
  exact ⟨v, u, hv.filled, hw, lobatto_exact n hn v
    (fun i hi j hj e => hdist i hi j hj (by rw [hv.filled i hi, hv.filled j hj, e])) ha hb
    (fun i hi hi' => hroot i hi hi' _ (hv.filled i (by omega))) u hu⟩

/-- **C57** for `2<=n<=24` (tabulated nodes) `lobatto_quad` always returns, and the rule it stores integrates every polynomial of degree at
most `2n-3` up to `10^-45` times the sum of the absolute values of its coefficients: with `q` of degree at most `2n-2` the integral of
`q'` is `q(1)-q(-1)` -/
theorem lobatto_quad_tabulated (cap fuel n : Nat) (eps : K) (guess : Nat → K) (z w : Mem K) (hc : n ≤ cap) (hn : 2 ≤ n) (h24 : n ≤ 24) :
    ∃ z' w' : Mem K, lobattoQuad cap fuel eps guess n z w = some (z', w') ∧
    ∃ v u : Nat → K, (∀ i < n, z' i = some (v i)) ∧ (∀ i < n, w' i = some (u i)) ∧
      ∀ q : K[X], q.natDegree ≤ 2 * n - 2 →
        |∑ i ∈ Finset.range n, u i * (derivative q).eval (v i) - (q.eval 1 - q.eval (-1))| ≤
          1 / 10 ^ 45 * ∑ k ∈ Finset.range (2 * n - 2), |(derivative q).coeff k| := by
  obtain ⟨z1, e, h1, -⟩ := lobattoFix_run cap n z hn h24 hc
  have e' : lobattoNodes cap fuel eps guess n z = some z1 := by rw [lobattoNodes, if_neg (by omega), if_pos hn, e]
  obtain ⟨v0, hv0, -⟩ := (lobatto_nodes_symmetric cap fuel n eps guess z hc hn).2 z1 e'
  have hg : ∀ x : K, (fun x => 2 / (((n : K) - 1) * n * legendre (n - 1) x * legendre (n - 1) x)) (-x) =
      (fun x => 2 / (((n : K) - 1) * n * legendre (n - 1) x * legendre (n - 1) x)) x := by
    intro x
    dsimp only
    have := legendre_sq_even (n - 1) x
    congr 1
    linear_combination ((n : K) - 1) * n * this
  obtain ⟨w2, e2, -, -⟩ := weights_run cap n (by omega) hc z1 w v0 hv0
    (fun x => 2 / (((n : K) - 1) * n * legendre (n - 1) x * legendre (n - 1) x)) hg _ (fun i hi w => rfl)
  have hq : lobattoQuad cap fuel eps guess n z w = some (z1, w2) := by
    unfold lobattoQuad; rw [e', Option.bind_some]; exact e2
  obtain ⟨v, u, hv, -, -, hw, -, hu, -⟩ := lobatto_quad_symmetric cap fuel n eps guess z w z1 w2 hc hn hq
  have hvv : ∀ i < n, v i = fixVal n i := by
    intro i hi
    have a := hv.filled i hi
    rw [has_zero h1 i hi] at a
    exact (Option.some.inj a).symm
  refine ⟨z1, w2, hq, fixVal n, u, has_zero h1, hw, fun q hqd => ?_⟩
  exact tab_error n hn h24 u (fun i hi => by rw [hu i hi, hvv i hi]) q hqd

/-! ## cases that meet the hypotheses -/

/-- Simpson's rule -/
theorem lobatto_quad_simpson (fuel : Nat) (eps : K) (guess : Nat → K) : ∃ z' w' : Mem K,
    lobattoQuad 3 fuel eps guess 3 (fun _ => none) (fun _ => none) = some (z', w') ∧
    ∃ v u : Nat → K, (∀ i < 3, z' i = some (v i)) ∧ (∀ i < 3, w' i = some (u i)) ∧ ExactUpTo 3 3 v u := by
  obtain ⟨z', w', h, -⟩ := lobatto_quad_tabulated 3 fuel 3 eps guess (fun _ => none) (fun _ => none) le_rfl (by omega) (by omega)
  obtain ⟨v, u, hv, ha, hb, -⟩ := lobatto_quad_symmetric 3 fuel 3 eps guess _ _ z' w' le_rfl (by omega) h
  have h0 := hv.filled 0 (by omega)
  have h1 := hv.filled 1 (by omega)
  have h2 := hv.filled 2 (by omega)
  rw [ha] at h0; rw [hb] at h2
  rw [show v 1 = 0 from hv.mid rfl] at h1
  refine ⟨z', w', h, lobatto_quad_exact 3 fuel 3 eps guess _ _ z' w' le_rfl (by omega) h ?_ ?_⟩
  · intro i hi hi' x hx
    obtain rfl : i = 1 := by omega
    rw [h1] at hx
    obtain rfl : 0 = x := Option.some.inj hx
    rw [legP_two, eval_mul, eval_X, mul_zero]
  · have a1 : (-1 : K) ≠ 0 := by norm_num
    have a2 : (-1 : K) ≠ 1 := by norm_num
    have a3 : (0 : K) ≠ 1 := by norm_num
    intro i hi j hj e
    have hi' : i = 0 ∨ i = 1 ∨ i = 2 := by omega
    have hj' : j = 0 ∨ j = 1 ∨ j = 2 := by omega
    rcases hi' with rfl | rfl | rfl <;> rcases hj' with rfl | rfl | rfl <;> first
      | rfl
      | (rw [h0, h1] at e; exact absurd (Option.some.inj e) a1)
      | (rw [h1, h0] at e; exact absurd (Option.some.inj e).symm a1)
      | (rw [h0, h2] at e; exact absurd (Option.some.inj e) a2)
      | (rw [h2, h0] at e; exact absurd (Option.some.inj e).symm a2)
      | (rw [h1, h2] at e; exact absurd (Option.some.inj e) a3)
      | (rw [h2, h1] at e; exact absurd (Option.some.inj e).symm a3)

/-- the rule with the two nodes `±1/√3` is exact for cubic polynomials -/
theorem gauss_quad_two : ∃ z' w' : Mem ℝ, gaussQuad 2 1 (1 / 10 ^ 10) (fun _ => -√(1 / 3)) 2 (fun _ => none) (fun _ => none) = some (z', w') ∧
    ∃ v u : Nat → ℝ, (∀ i < 2, z' i = some (v i)) ∧ (∀ i < 2, w' i = some (u i)) ∧ ExactUpTo 2 3 v u := by
  have hpos : 0 < √((1 : ℝ) / 3) := Real.sqrt_pos.mpr (by norm_num)
  obtain ⟨z', e, h0⟩ := gauss_nodes_at_zeros 2 0 2 (1 / 10 ^ 10) (fun _ => -√(1 / 3)) (fun _ => none) le_rfl (by norm_num)
    (fun i _ => ⟨leg2_zero, by linarith⟩)
  obtain ⟨v, hv, -⟩ := gauss_nodes_symmetric 2 1 2 _ _ _ z' le_rfl e
  have hg : ∀ x : ℝ, (fun x => 2 * (1 - x * x) / ((((2 : Nat) : ℝ) + 1) * legendre (2 + 1) x * ((((2 : Nat) : ℝ) + 1) * legendre (2 + 1) x))) (-x) =
      (fun x => 2 * (1 - x * x) / ((((2 : Nat) : ℝ) + 1) * legendre (2 + 1) x * ((((2 : Nat) : ℝ) + 1) * legendre (2 + 1) x))) x := by
    intro x
    dsimp only
    have := legendre_sq_even (2 + 1) x
    congr 1
    · ring
    · linear_combination (((2 : Nat) : ℝ) + 1) ^ 2 * this
  obtain ⟨w2, e2, -, -⟩ := weights_run 2 2 (by omega) le_rfl z' (fun _ => none) v hv
    (fun x => 2 * (1 - x * x) / ((((2 : Nat) : ℝ) + 1) * legendre (2 + 1) x * ((((2 : Nat) : ℝ) + 1) * legendre (2 + 1) x))) hg _ (fun i hi w => rfl)
  have hq : gaussQuad 2 1 (1 / 10 ^ 10) (fun _ => -√(1 / 3)) 2 (fun _ => none) (fun _ => none) = some (z', w2) := by
    unfold gaussQuad; rw [e, Option.bind_some]; exact e2
  have a0 : z' 0 = some (-√(1 / 3)) := h0 0 (by omega)
  have a1 : z' 1 = some √(1 / 3) := by
    have h1 := hv.filled 1 (by omega)
    have h2 : v 1 = -v 0 := hv.sym 0 (by omega)
    have h3 := hv.filled 0 (by omega)
    rw [a0] at h3
    rw [h1, h2, ← Option.some.inj h3, neg_neg]
  refine ⟨z', w2, hq, gauss_quad_exact 2 1 2 _ _ _ _ z' w2 le_rfl (by omega) hq ?_ ?_⟩
  · intro i hi x hx
    have hi' : i = 0 ∨ i = 1 := by omega
    rcases hi' with rfl | rfl
    · rw [a0] at hx; rw [← Option.some.inj hx]; exact leg2_zero
    · rw [a1] at hx
      have := legendre_parity (√((1 : ℝ) / 3)) 2
      rw [legendre_correct, legendre_correct, leg2_zero] at this
      rw [← Option.some.inj hx]; linarith
  · intro i hi j hj e
    have hi' : i = 0 ∨ i = 1 := by omega
    have hj' : j = 0 ∨ j = 1 := by omega
    have hne : (-√((1 : ℝ) / 3)) ≠ √(1 / 3) := by linarith
    rcases hi' with rfl | rfl <;> rcases hj' with rfl | rfl <;> first
      | rfl
      | (rw [a0, a1] at e; exact absurd (Option.some.inj e) hne)
      | (rw [a1, a0] at e; exact absurd (Option.some.inj e).symm hne)

end Gslib.Props
