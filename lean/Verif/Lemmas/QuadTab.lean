import Verif.Lemmas.Quad
import Verif.Lemmas.QuadExact
import Verif.Model.GllTable
import Mathlib.Algebra.Order.Floor.Ring
import Mathlib.Data.Rat.Floor
import Mathlib.Algebra.Algebra.Rat
import Mathlib.Tactic.Linarith
import Mathlib.Tactic.NormNum
import Mathlib.Algebra.BigOperators.Intervals

/-!
# Moments of the Lobatto rule with tabulated nodes
-/

namespace Gslib.Poly
open Polynomial Gslib.Spec Gslib.Props

/-- `(P_k(x), P_{k+1}(x))` by the recurrence, over the rationals -/
def ppair (x : ℚ) : Nat → ℚ × ℚ
  | 0 => (1, x)
  | k + 1 => let p := ppair x k; (p.2, ((2 * (k : ℚ) + 3) * x * p.2 - ((k : ℚ) + 1) * p.1) / ((k : ℚ) + 2))

theorem ppair_eq (x : ℚ) : ∀ k, ppair x k = (P x k, P x (k + 1))
  | 0 => by rw [ppair, P, P, legP_one, legP_zero, eval_one, eval_X]
  | k + 1 => by
      rw [ppair, ppair_eq x k]
      dsimp only
      refine Prod.ext rfl ?_
      have h := P_rec x k
      dsimp only
      rw [div_eq_iff (by positivity)]
      linear_combination -h

/-- the values `lobatto_nodes_fix` stores, as a list over the rationals -/
def tabNode (n i : Nat) : ℚ :=
  if i = 0 then -1 else if i = n - 1 then 1 else if i < n / 2 then -((gllz n).getD (i - 1) 0)
  else if n - 1 - i < n / 2 then (gllz n).getD (n - 1 - i - 1) 0 else 0

/-- weight by the formula of lobatto_quad, rounded down to a multiple of `10^-60` -/
def tabW (n i : Nat) : ℚ := (((2 / (((n : ℚ) - 1) * n * (ppair (tabNode n i) (n - 1)).1 ^ 2)) * 10 ^ 60).floor : ℚ) / 10 ^ 60

/-- `∑ w_i v_i^k` with a list of nodes and weights -/
def moment (l : List (ℚ × ℚ)) (k : Nat) : ℚ := (l.map fun p => p.2 * p.1 ^ k).sum

/-- `∫ x^k` over `[-1,1]` -/
def mono (k : Nat) : ℚ := if k % 2 = 0 then 2 / ((k : ℚ) + 1) else 0

/-- the check for one `n` -/
def tabOk (n : Nat) : Bool :=
  let l := (List.range n).map fun i => (tabNode n i, tabW n i)
  l.all (fun p => decide (-1 ≤ p.1) && decide (p.1 ≤ 1)) &&
  (List.range (2 * n - 2)).all fun k => decide (-1 / 10 ^ 46 ≤ moment l k - mono k) && decide (moment l k - mono k ≤ 1 / 10 ^ 46)

set_option maxRecDepth 100000 in
theorem tab_checked : ∀ n < 25, 2 ≤ n → tabOk n = true := by decide +kernel

theorem floor_near (x : ℚ) : |x - ((x * 10 ^ 60).floor : ℚ) / 10 ^ 60| ≤ 1 / 10 ^ 60 := by
  have h1 : (((x * 10 ^ 60).floor : ℤ) : ℚ) ≤ x * 10 ^ 60 := Int.floor_le (x * 10 ^ 60)
  have h2 : x * 10 ^ 60 < (((x * 10 ^ 60).floor : ℤ) : ℚ) + 1 := Int.lt_floor_add_one (x * 10 ^ 60)
  set f : ℚ := (((x * 10 ^ 60).floor : ℤ) : ℚ)
  have e : x - f / 10 ^ 60 = (x * 10 ^ 60 - f) / 10 ^ 60 := by field_simp
  rw [e, abs_of_nonneg (div_nonneg (by linarith) (by positivity))]
  exact div_le_div_of_nonneg_right (by linarith) (by positivity)

theorem moment_eq (n k : Nat) (f g : Nat → ℚ) : moment ((List.range n).map fun i => (f i, g i)) k = ∑ i ∈ Finset.range n, g i * f i ^ k := by
  rw [moment, List.map_map]
  induction n with
  | zero => rfl
  | succ n ih => rw [List.range_succ, List.map_append, List.sum_append, ih, Finset.sum_range_succ]; simp

/-- the weight by the formula of lobatto_quad -/
noncomputable def tabU (n i : Nat) : ℚ := 2 / (((n : ℚ) - 1) * n * (legendreP ℚ (n - 1)).eval (tabNode n i) ^ 2)

/-- moments of the rule with the tabulated nodes and exact weights -/
theorem tab_moments (n : Nat) (h2 : 2 ≤ n) (h24 : n ≤ 24) (k : Nat) (hk : k < 2 * n - 2) :
    |∑ i ∈ Finset.range n, tabU n i * tabNode n i ^ k - mono k| ≤ 1 / 10 ^ 45 := by
  have h := tab_checked n (by omega) h2
  simp only [tabOk, Bool.and_eq_true, List.all_eq_true, decide_eq_true_eq] at h
  obtain ⟨hv, hm⟩ := h
  have hv : ∀ i < n, |tabNode n i| ≤ 1 := fun i hi =>
    abs_le.mpr (hv (tabNode n i, tabW n i) (List.mem_map.mpr ⟨i, List.mem_range.mpr hi, rfl⟩))
  have hm := hm k (List.mem_range.mpr hk)
  rw [moment_eq] at hm
  have hd : |∑ i ∈ Finset.range n, tabU n i * tabNode n i ^ k - ∑ i ∈ Finset.range n, tabW n i * tabNode n i ^ k| ≤ n * (1 / 10 ^ 60) := by
    rw [← Finset.sum_sub_distrib]
    refine (Finset.abs_sum_le_sum_abs _ _).trans ?_
    have : ∀ i ∈ Finset.range n, |tabU n i * tabNode n i ^ k - tabW n i * tabNode n i ^ k| ≤ 1 / 10 ^ 60 := by
      intro i hi
      rw [← sub_mul, abs_mul, abs_pow]
      have h1 : |tabNode n i| ^ k ≤ 1 := pow_le_one₀ (abs_nonneg _) (hv i (Finset.mem_range.mp hi))
      have h2 : |tabU n i - tabW n i| ≤ 1 / 10 ^ 60 := by
        have := floor_near (tabU n i)
        rw [tabW, ppair_eq]
        exact this
      calc _ ≤ |tabU n i - tabW n i| * 1 := mul_le_mul_of_nonneg_left h1 (abs_nonneg _)
        _ ≤ _ := by rw [mul_one]; exact h2
    refine (Finset.sum_le_sum this).trans ?_
    rw [Finset.sum_const, Finset.card_range, nsmul_eq_mul]
  have hn : (n : ℚ) ≤ 24 := by exact_mod_cast h24
  set A := ∑ i ∈ Finset.range n, tabU n i * tabNode n i ^ k
  set B := ∑ i ∈ Finset.range n, tabW n i * tabNode n i ^ k
  rw [abs_le] at hd ⊢
  have h60 : (n : ℚ) * (1 / 10 ^ 60) ≤ 24 * (1 / 10 ^ 60) := mul_le_mul_of_nonneg_right hn (by positivity)
  norm_num at *
  constructor <;> linarith [hm.1, hm.2, hd.1, hd.2]

variable {K : Type} [Field K] [CharZero K]

theorem integ_X_pow (k : Nat) : integ (X ^ k : K[X]) = ((mono k : ℚ) : K) := by
  have h0 : ((k : K) + 1) ≠ 0 := Nat.cast_add_one_ne_zero k
  have h : derivative (C (1 / ((k : K) + 1)) * X ^ (k + 1)) = X ^ k := by
    rw [derivative_C_mul, derivative_X_pow, Nat.add_sub_cancel, ← mul_assoc, ← C_mul]
    push_cast
    rw [div_mul_cancel₀ _ h0, C_1, one_mul]
  rw [← h, integ_eq, mono]
  simp only [eval_mul, eval_C, eval_pow, eval_X, one_pow]
  split_ifs with hk
  · have : (-1 : K) ^ (k + 1) = -1 := Odd.neg_one_pow (by rw [Nat.odd_iff]; omega)
    rw [this]; push_cast; ring
  · have : (-1 : K) ^ (k + 1) = 1 := Even.neg_one_pow (by rw [Nat.even_iff]; omega)
    rw [this]; push_cast; ring

theorem legP_cast (n : Nat) (x : ℚ) : (legendreP K n).eval (x : K) = (((legendreP ℚ n).eval x : ℚ) : K) := by
  have hmap : legendreP K n = (legendreP ℚ n).map (algebraMap ℚ K) := by
    rw [legendreP, legendreP, Polynomial.map_mul, map_C, ← iterate_derivative_map]
    simp
  rw [hmap, eval_map]
  have := (legendreP ℚ n).eval₂_at_apply (algebraMap ℚ K) x
  simpa using this

theorem fixVal_cast (n i : Nat) : (fixVal n i : K) = ((tabNode n i : ℚ) : K) := by
  unfold fixVal tabNode gllzVal
  split_ifs <;> push_cast <;> rfl

/-- error of the rule with the tabulated nodes -/
theorem tab_error [LinearOrder K] [IsStrictOrderedRing K] (n : Nat) (h2 : 2 ≤ n) (h24 : n ≤ 24) (u : Nat → K)
    (hu : ∀ i < n, u i = 2 / (((n : K) - 1) * n * (legendreP K (n - 1)).eval (fixVal n i) ^ 2)) (q : K[X]) (hq : q.natDegree ≤ 2 * n - 2) :
    |∑ i ∈ Finset.range n, u i * (derivative q).eval (fixVal n i) - (q.eval 1 - q.eval (-1))| ≤
      1 / 10 ^ 45 * ∑ k ∈ Finset.range (2 * n - 2), |(derivative q).coeff k| := by
  have hd : (derivative q).natDegree < 2 * n - 2 := lt_of_le_of_lt (natDegree_derivative_le _) (by omega)
  set p := derivative q with hp
  have e1 : ∑ i ∈ Finset.range n, u i * p.eval (fixVal n i) =
      ∑ k ∈ Finset.range (2 * n - 2), p.coeff k * ((∑ i ∈ Finset.range n, tabU n i * tabNode n i ^ k : ℚ) : K) := by
    have : ∀ i ∈ Finset.range n, u i * p.eval (fixVal n i) =
        ∑ k ∈ Finset.range (2 * n - 2), p.coeff k * (((tabU n i * tabNode n i ^ k : ℚ)) : K) := by
      intro i hi
      rw [eval_eq_sum_range' hd, Finset.mul_sum]
      refine Finset.sum_congr rfl fun k _ => ?_
      rw [hu i (Finset.mem_range.mp hi), fixVal_cast, legP_cast, tabU]
      push_cast; ring
    rw [Finset.sum_congr rfl this, Finset.sum_comm]
    refine Finset.sum_congr rfl fun k _ => ?_
    rw [← Finset.mul_sum]; push_cast; rfl
  have e2 : q.eval 1 - q.eval (-1) = ∑ k ∈ Finset.range (2 * n - 2), p.coeff k * ((mono k : ℚ) : K) := by
    rw [← integ_eq, ← hp]
    conv_lhs => rw [p.as_sum_range_C_mul_X_pow' hd]
    rw [integ_sum]
    refine Finset.sum_congr rfl fun k _ => ?_
    rw [integ_C_mul, integ_X_pow]
  rw [e1, e2, ← Finset.sum_sub_distrib, Finset.mul_sum]
  refine (Finset.abs_sum_le_sum_abs _ _).trans (Finset.sum_le_sum fun k hk => ?_)
  rw [← mul_sub, abs_mul, mul_comm]
  refine mul_le_mul_of_nonneg_right ?_ (abs_nonneg _)
  have := tab_moments n h2 h24 k (Finset.mem_range.mp hk)
  have h' : ((|∑ i ∈ Finset.range n, tabU n i * tabNode n i ^ k - mono k| : ℚ) : K) ≤ ((1 / 10 ^ 45 : ℚ) : K) := Rat.cast_le.mpr this
  push_cast at h' ⊢
  exact h'

end Gslib.Poly
