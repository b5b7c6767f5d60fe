import Verif.Lemmas.LobCheb
import Mathlib.Algebra.Polynomial.Eval.Degree
import Mathlib.Algebra.Polynomial.Derivative

/-!
# A certificate for `Good`

A product of linear factors, expanded about the centre of a cell; bounds for its second and third derivative on the cell from the coefficients. The coefficients are read off the value of the product at a
large power of two, so that the kernel computes with few, large natural numbers.
-/

namespace Gslib.Lob
open Polynomial

/-- distance of two natural numbers -/
noncomputable def absd (h x : ℕ) : ℕ := Nat.add (Nat.sub x h) (Nat.sub h x)

/-- sums of `k(k-1)|a_k| R^(k-2)` and of `k(k-1)(k-2)|a_k| R^(k-2)`, with `a_k+h` the digits of `Q` in base `2^B` -/
noncomputable def sums (B h R : ℕ) (n : ℕ) : ℕ → ℕ → ℕ × ℕ :=
  @Nat.rec (fun _ => ℕ → ℕ → ℕ × ℕ) (fun _ _ => (0, 0)) (fun _ ih Q k =>
    (fun (d : ℕ) (s : ℕ × ℕ) => (Nat.add d (Nat.mul R s.1), Nat.add (Nat.mul (Nat.sub k 2) d) (Nat.mul R s.2)))
      (Nat.mul (Nat.mul k (Nat.sub k 1)) (absd h (Nat.mod Q (Nat.pow 2 B))))
      (ih (Nat.shiftRight Q B) (Nat.add k 1))) n

theorem sums_zero (B h R Q k : ℕ) : sums B h R 0 Q k = (0, 0) := rfl

theorem sums_succ (B h R n Q k : ℕ) : sums B h R (n + 1) Q k =
    (k * (k - 1) * absd h (Q % 2 ^ B) + R * (sums B h R n (Q >>> B) (k + 1)).1,
     (k - 2) * (k * (k - 1) * absd h (Q % 2 ^ B)) + R * (sums B h R n (Q >>> B) (k + 1)).2) := rfl

/-- the number with digits `g k, g (k+1), ...` -/
def packed (B : ℕ) (g : ℕ → ℕ) (n k : ℕ) : ℕ := ∑ t ∈ Finset.range n, g (k + t) * (2 ^ B) ^ t

theorem packed_succ (B : ℕ) (g : ℕ → ℕ) (n k : ℕ) : packed B g (n + 1) k = g k + 2 ^ B * packed B g n (k + 1) := by
  unfold packed
  rw [Finset.sum_range_succ', Finset.mul_sum, add_comm]
  simp only [add_zero, pow_zero, mul_one]
  congr 1
  refine Finset.sum_congr rfl fun t _ => ?_
  rw [show k + (t + 1) = k + 1 + t by ring]
  ring

theorem packed_mod {B : ℕ} {g : ℕ → ℕ} (hg : ∀ k, g k < 2 ^ B) (n k : ℕ) : packed B g (n + 1) k % 2 ^ B = g k := by
  rw [packed_succ, Nat.add_mul_mod_self_left, Nat.mod_eq_of_lt (hg k)]

theorem packed_shift {B : ℕ} {g : ℕ → ℕ} (hg : ∀ k, g k < 2 ^ B) (n k : ℕ) : packed B g (n + 1) k >>> B = packed B g n (k + 1) := by
  rw [packed_succ, Nat.shiftRight_eq_div_pow, Nat.add_mul_div_left _ _ (by positivity), Nat.div_eq_of_lt (hg k), Nat.zero_add]

theorem sums_packed {B h R : ℕ} {g : ℕ → ℕ} (hg : ∀ k, g k < 2 ^ B) : ∀ n k, sums B h R n (packed B g n k) k =
    (∑ t ∈ Finset.range n, (k + t) * (k + t - 1) * absd h (g (k + t)) * R ^ t, ∑ t ∈ Finset.range n, (k + t - 2) * ((k + t) * (k + t - 1) * absd h (g (k + t))) * R ^ t) := by
  intro n
  induction n with
  | zero => intro k; simp [sums_zero]
  | succ n ih =>
    intro k
    rw [sums_succ, packed_mod hg, packed_shift hg, ih (k + 1), Finset.sum_range_succ', Finset.sum_range_succ']
    simp only [add_zero, pow_zero, mul_one, Finset.mul_sum]
    refine Prod.ext ?_ ?_ <;> dsimp only <;> rw [add_comm] <;> congr 1 <;> refine Finset.sum_congr rfl fun t _ => ?_ <;> rw [show k + (t + 1) = k + 1 + t by ring] <;> ring

/-! ### Products of linear factors -/

/-- product of `X+c` -/
noncomputable def linP (l : List ℤ) : ℤ[X] := (l.map fun c => X + C c).prod

theorem linP_nil : linP [] = 1 := rfl
theorem linP_cons (c : ℤ) (l : List ℤ) : linP (c :: l) = (X + C c) * linP l := rfl

theorem linP_eval (l : List ℤ) (x : ℤ) : (linP l).eval x = (l.map fun c => x + c).prod := by
  induction l with
  | nil => simp [linP_nil]
  | cons c l ih => rw [linP_cons]; simp [ih]

theorem linP_degree (l : List ℤ) : (linP l).natDegree ≤ l.length := by
  induction l with
  | nil => simp [linP_nil]
  | cons c l ih =>
    rw [linP_cons]
    refine natDegree_mul_le.trans ?_
    rw [natDegree_X_add_C, List.length_cons]
    omega

theorem linP_coeff {K : ℤ} (hK : 0 ≤ K) (l : List ℤ) (hl : ∀ c ∈ l, |c| + 1 ≤ K) (k : ℕ) : |(linP l).coeff k| ≤ K ^ l.length := by
  induction l generalizing k with
  | nil =>
    rw [linP_nil, coeff_one]
    split_ifs <;> simp
  | cons c l ih =>
    have h1 : |c| + 1 ≤ K := hl c List.mem_cons_self
    have ih := ih fun c hc => hl c (List.mem_cons_of_mem _ hc)
    rw [linP_cons, add_mul, coeff_add, coeff_C_mul, List.length_cons, pow_succ]
    have e1 : |(X * linP l).coeff k| ≤ K ^ l.length := by
      cases k with
      | zero => rw [mul_coeff_zero, coeff_X_zero, zero_mul, abs_zero]; positivity
      | succ k => rw [coeff_X_mul]; exact ih k
    have e2 : |c * (linP l).coeff k| ≤ |c| * K ^ l.length := by
      rw [abs_mul]
      exact mul_le_mul_of_nonneg_left (ih k) (abs_nonneg c)
    have e3 := abs_add_le ((X * linP l).coeff k) (c * (linP l).coeff k)
    have e4 : 0 ≤ K ^ l.length := by positivity
    have e5 := mul_le_mul_of_nonneg_left h1 e4
    nlinarith

/-- value at `2^B`, with an offset, as packed digits -/
theorem linP_packed {B h n : ℕ} (l : List ℤ) (hn : l.length < n) : (linP l).eval (2 ^ B) + ∑ k ∈ Finset.range n, (h : ℤ) * (2 ^ B) ^ k =
    ∑ k ∈ Finset.range n, ((linP l).coeff k + h) * (2 ^ B) ^ k := by
  rw [eval_eq_sum_range' (lt_of_le_of_lt (linP_degree l) hn), ← Finset.sum_add_distrib]
  refine Finset.sum_congr rfl fun k _ => by ring

/-! ### Bounds for derivatives -/

/-- bound for the second derivative and its deviation from the value at 0 -/
theorem d2_bound {p : ℝ[X]} {n : ℕ} (hp : p.natDegree < n + 2) {R Y : ℝ} (hY : |Y| ≤ R) : let U := ∑ t ∈ Finset.range n, ((t : ℝ) + 2) * (t + 1) * |p.coeff (t + 2)| * R ^ t
    |(derivative^[2] p).eval Y| ≤ U ∧ (0 < n → |(derivative^[2] p).eval Y - 2 * p.coeff 2| ≤ U - 2 * |p.coeff 2|) := by
  intro U
  have hR : 0 ≤ R := (abs_nonneg Y).trans hY
  have hdeg : (derivative^[2] p).natDegree < n ∨ (derivative^[2] p) = 0 := by
    by_cases h : p.natDegree < 2
    · right; exact iterate_derivative_eq_zero h
    · left
      have := natDegree_iterate_derivative p 2
      omega
  have hc : ∀ k, (derivative^[2] p).coeff k = ((k : ℝ) + 2) * (k + 1) * p.coeff (k + 2) := by
    intro k
    rw [Function.iterate_succ, Function.iterate_one, Function.comp_apply, coeff_derivative, coeff_derivative]
    push_cast; ring
  have he : (derivative^[2] p).eval Y = ∑ t ∈ Finset.range n, ((t : ℝ) + 2) * (t + 1) * p.coeff (t + 2) * Y ^ t := by
    rcases hdeg with h | h
    · rw [eval_eq_sum_range' h]
      exact Finset.sum_congr rfl fun t _ => by rw [hc]
    · rw [h, eval_zero]
      symm
      refine Finset.sum_eq_zero fun t _ => ?_
      rw [← hc, h, coeff_zero, zero_mul]
  have hterm : ∀ t : ℕ, |((t : ℝ) + 2) * (t + 1) * p.coeff (t + 2) * Y ^ t| ≤ ((t : ℝ) + 2) * (t + 1) * |p.coeff (t + 2)| * R ^ t := by
    intro t
    rw [abs_mul, abs_mul, abs_pow, abs_of_nonneg (by positivity : (0 : ℝ) ≤ ((t : ℝ) + 2) * (t + 1))]
    exact mul_le_mul_of_nonneg_left (pow_le_pow_left₀ (abs_nonneg Y) hY t) (by positivity)
  refine ⟨?_, fun hn => ?_⟩
  · rw [he]
    exact (Finset.abs_sum_le_sum_abs _ _).trans (Finset.sum_le_sum fun t _ => hterm t)
  · obtain ⟨n', rfl⟩ : ∃ n', n = n' + 1 := ⟨n - 1, by omega⟩
    rw [he]
    have hU : U = (∑ t ∈ Finset.range n', (((t + 1 : ℕ) : ℝ) + 2) * ((t + 1 : ℕ) + 1) * |p.coeff (t + 1 + 2)| * R ^ (t + 1)) + 2 * |p.coeff 2| := by
      show ∑ t ∈ Finset.range (n' + 1), _ = _
      rw [Finset.sum_range_succ']
      congr 1
      simp
    rw [hU, Finset.sum_range_succ']
    have e0 : ((0 : ℕ) : ℝ) + 2 = 2 := by norm_num
    simp only [Nat.cast_zero, zero_add, mul_one, pow_zero]
    rw [add_sub_cancel_right, add_sub_cancel_right]
    exact (Finset.abs_sum_le_sum_abs _ _).trans (Finset.sum_le_sum fun t _ => hterm (t + 1))

/-- the same for the third derivative -/
theorem d3_bound {p : ℝ[X]} {n : ℕ} (hp : p.natDegree < n + 2) (hn : 1 < n) {R Y : ℝ} (hY : |Y| ≤ R) :
    let U := ∑ t ∈ Finset.range n, ((t : ℝ) + 2) * (t + 1) * t * |p.coeff (t + 2)| * R ^ t
    R * |(derivative^[3] p).eval Y| ≤ U ∧ R * |(derivative^[3] p).eval Y - 6 * p.coeff 3| ≤ U - 6 * R * |p.coeff 3| := by
  intro U
  have hR : 0 ≤ R := (abs_nonneg Y).trans hY
  obtain ⟨n', rfl⟩ : ∃ n', n = n' + 2 := ⟨n - 2, by omega⟩
  have hdeg : (derivative^[3] p).natDegree < n' + 1 ∨ (derivative^[3] p) = 0 := by
    by_cases h : p.natDegree < 3
    · right; exact iterate_derivative_eq_zero h
    · left
      have := natDegree_iterate_derivative p 3
      omega
  have hc : ∀ k, (derivative^[3] p).coeff k = ((k : ℝ) + 3) * (k + 2) * (k + 1) * p.coeff (k + 3) := by
    intro k
    rw [Function.iterate_succ, Function.iterate_succ, Function.iterate_one, Function.comp_apply, Function.comp_apply, coeff_derivative, coeff_derivative, coeff_derivative]
    push_cast; ring
  have he : (derivative^[3] p).eval Y = ∑ t ∈ Finset.range (n' + 1), ((t : ℝ) + 3) * (t + 2) * (t + 1) * p.coeff (t + 3) * Y ^ t := by
    rcases hdeg with h | h
    · rw [eval_eq_sum_range' h]
      exact Finset.sum_congr rfl fun t _ => by rw [hc]
    · rw [h, eval_zero]
      symm
      refine Finset.sum_eq_zero fun t _ => ?_
      rw [← hc, h, coeff_zero, zero_mul]
  have hterm : ∀ t : ℕ, |((t : ℝ) + 3) * (t + 2) * (t + 1) * p.coeff (t + 3) * Y ^ t| ≤ ((t : ℝ) + 3) * (t + 2) * (t + 1) * |p.coeff (t + 3)| * R ^ t := by
    intro t
    rw [abs_mul, abs_mul, abs_pow, abs_of_nonneg (by positivity : (0 : ℝ) ≤ ((t : ℝ) + 3) * (t + 2) * (t + 1))]
    exact mul_le_mul_of_nonneg_left (pow_le_pow_left₀ (abs_nonneg Y) hY t) (by positivity)
  set V := ∑ t ∈ Finset.range (n' + 1), ((t : ℝ) + 3) * (t + 2) * (t + 1) * |p.coeff (t + 3)| * R ^ t with hV
  have hU : U = R * V := by
    show ∑ t ∈ Finset.range (n' + 1 + 1), _ = _
    rw [Finset.sum_range_succ', hV, Finset.mul_sum]
    simp only [Nat.cast_zero, mul_zero, zero_mul, add_zero]
    refine Finset.sum_congr rfl fun t _ => ?_
    push_cast
    rw [show t + 1 + 2 = t + 3 by ring]
    ring
  rw [hU]
  refine ⟨mul_le_mul_of_nonneg_left ?_ hR, ?_⟩
  · rw [he]
    exact (Finset.abs_sum_le_sum_abs _ _).trans (Finset.sum_le_sum fun t _ => hterm t)
  · rw [show R * V - 6 * R * |p.coeff 3| = R * (V - 6 * |p.coeff 3|) by ring]
    refine mul_le_mul_of_nonneg_left ?_ hR
    rw [he, hV, Finset.sum_range_succ', Finset.sum_range_succ']
    have e6 : ((0 : ℕ) : ℝ) + 3 = 3 := by norm_num
    have e7 : (((0 : ℕ) : ℝ) + 3) * (((0 : ℕ) : ℝ) + 2) * (((0 : ℕ) : ℝ) + 1) = 6 := by norm_num
    rw [e7]
    simp only [zero_add, pow_zero, mul_one]
    rw [add_sub_cancel_right, add_sub_cancel_right]
    exact (Finset.abs_sum_le_sum_abs _ _).trans (Finset.sum_le_sum fun t _ => hterm (t + 1))

end Gslib.Lob
