import Verif.Spec.Lagrange
import Verif.Lemmas.LagrangeRun

/-!
# C32, C33: Lagrange interpolation and its derivatives
-/

namespace Gslib.Props
open Gslib.Num Gslib.Poly Gslib.Spec Polynomial
variable {K : Type} [Field K]

theorem LagCall.rows_le {n : Nat} {c : LagCall K} (h : c.Ok n) : rows c.der * n ≤ c.pcap := by
  obtain ⟨h0, h1, h2⟩ := h
  unfold rows
  split_ifs with h h'
  · exact h2 (by omega)
  · exact h1 (by omega)
  · omega

theorem lagRunAll_run {n : Nat} (hn : 0 < n) {z w : Nat → K} : ∀ (hist : List (LagCall K)), (∀ c ∈ hist, c.Ok n) → ∀ m, Data n z w m →
    ∃ m', lagRunAll n hist m = some m' ∧ Data n z w m'
  | [], _, m, h => ⟨m, rfl, h⟩
  | c :: cs, hc, m, h => by
      obtain ⟨p', m', e, h', -⟩ := eval_run (cap := lagrangeSize n) (Nat.le_refl _) hn c.der
        (LagCall.rows_le (hc c (by simp))) c.x (p := c.p) h
      obtain ⟨m'', e', h''⟩ := lagRunAll_run hn cs (fun c hc' => hc c (by simp [hc'])) m' h'
      refine ⟨m'', ?_, h''⟩
      rw [lagRunAll, lagRun, e]; exact e'

/-- **C32, C33** set-up followed by any history of evaluations is free of out-of-bounds and uninitialised accesses, and the next
evaluation stores, for every node `i`, the Lagrange basis polynomial of the nodes (Mathlib's `Lagrange.basis`) at `x`, its first
derivative if `der >= 1` and its second derivative if `der >= 2`; nothing else in `p` changes -/
theorem lagrange_eval_correct (h2 : (2 : K) ≠ 0) {n : Nat} (hn : 0 < n) {z : Nat → K} (hz : ∀ i < n, ∀ j < n, z i = z j → i = j)
    {hist : List (LagCall K)} (hh : ∀ c ∈ hist, c.Ok n) {c : LagCall K} (hc : c.Ok n) :
    ∃ p, lagResult n z hist c = some p ∧
      (∀ i < n, p i = some ((Lagrange.basis (Finset.range n) z i).eval c.x)) ∧
      (1 ≤ c.der → ∀ i < n, p (n + i) = some ((derivative (Lagrange.basis (Finset.range n) z i)).eval c.x)) ∧
      (2 ≤ c.der → ∀ i < n, p (2 * n + i) = some ((derivative (derivative (Lagrange.basis (Finset.range n) z i))).eval c.x)) ∧
      (∀ k, n ≤ k → (1 ≤ c.der → 2 * n ≤ k) → (2 ≤ c.der → 3 * n ≤ k) → p k = c.p k) := by
  obtain ⟨m0, e0, h0⟩ := setup_run n hn z
  obtain ⟨m1, e1, h1⟩ := lagRunAll_run hn hist hh m0 h0
  obtain ⟨p', m', e, -, r0, r1, r2, ro⟩ := eval_run (cap := lagrangeSize n) (Nat.le_refl _) hn c.der (LagCall.rows_le hc) c.x (p := c.p) h1
  refine ⟨p', ?_, ?_, ?_, ?_, ?_⟩
  · rw [lagResult, e0]
    simp only [Option.bind_some, e1, lagRun, e, Option.map_some]
  · intro i hi
    have := r0 i hi
    rw [Nat.zero_add] at this
    rw [this, (rows_basis n z h2 hz c.x i hi).1]
  · intro hd i hi
    rw [r1 (by omega) i hi, (rows_basis n z h2 hz c.x i hi).2.1]
  · intro hd i hi
    rw [r2 (by omega) i hi, (rows_basis n z h2 hz c.x i hi).2.2]
  · intro k hk hk1 hk2
    refine ro k (Or.inr ?_)
    unfold rows
    split_ifs with h h'
    · have := hk2 (by omega); omega
    · have := hk1 (by omega); omega
    · omega

/-- **C32** interpolation is exact for every polynomial of degree below `n`; the value row is cardinal; the values sum to 1 -/
theorem lagrange_interpolates (h2 : (2 : K) ≠ 0) {n : Nat} (hn : 0 < n) {z : Nat → K} (hz : ∀ i < n, ∀ j < n, z i = z j → i = j)
    {hist : List (LagCall K)} (hh : ∀ c ∈ hist, c.Ok n) {c : LagCall K} (hc : c.Ok n) :
    ∃ p, lagResult n z hist c = some p ∧
      (∀ q : K[X], q.degree < n → ∑ i ∈ Finset.range n, val p i * q.eval (z i) = q.eval c.x) ∧
      ∑ i ∈ Finset.range n, val p i = 1 ∧
      (∀ j < n, c.x = z j → ∀ i < n, val p i = if i = j then 1 else 0) := by
  obtain ⟨p, e, h0, -⟩ := lagrange_eval_correct h2 hn hz hh hc
  have hinj : Set.InjOn z (Finset.range n : Set Nat) := fun a ha b hb hab => hz a (by simpa using ha) b (by simpa using hb) hab
  have hq : ∀ q : K[X], q.degree < n → ∑ i ∈ Finset.range n, val p i * q.eval (z i) = q.eval c.x := by
    intro q hq
    conv_rhs => rw [Lagrange.eq_interpolate hinj (f := q) (by simpa using hq), Lagrange.interpolate_apply, eval_finsetSum]
    refine Finset.sum_congr rfl fun i hi => ?_
    rw [val, h0 i (Finset.mem_range.mp hi), Option.getD_some, eval_mul, eval_C, mul_comm]
  refine ⟨p, e, hq, ?_, ?_⟩
  · have := hq 1 (by rw [degree_one]; exact_mod_cast hn)
    simpa using this
  · intro j hj hx i hi
    rw [val, h0 i hi, Option.getD_some, hx]
    split_ifs with hij
    · subst hij; exact Lagrange.eval_basis_self hinj (by simpa using hi)
    · exact Lagrange.eval_basis_of_ne hij (by simpa using hj)

/-- **C33** the derivative rows give the exact first and second derivatives of every polynomial of degree below `n` -/
theorem lagrange_derivatives (h2 : (2 : K) ≠ 0) {n : Nat} (hn : 0 < n) {z : Nat → K} (hz : ∀ i < n, ∀ j < n, z i = z j → i = j)
    {hist : List (LagCall K)} (hh : ∀ c ∈ hist, c.Ok n) {c : LagCall K} (hc : c.Ok n) :
    ∃ p, lagResult n z hist c = some p ∧ ∀ q : K[X], q.degree < n →
      (1 ≤ c.der → ∑ i ∈ Finset.range n, val p (n + i) * q.eval (z i) = (derivative q).eval c.x) ∧
      (2 ≤ c.der → ∑ i ∈ Finset.range n, val p (2 * n + i) * q.eval (z i) = (derivative (derivative q)).eval c.x) := by
  obtain ⟨p, e, -, h1, h2', -⟩ := lagrange_eval_correct h2 hn hz hh hc
  have hinj : Set.InjOn z (Finset.range n : Set Nat) := fun a ha b hb hab => hz a (by simpa using ha) b (by simpa using hb) hab
  refine ⟨p, e, fun q hq => ⟨fun hd => ?_, fun hd => ?_⟩⟩
  · conv_rhs => rw [Lagrange.eq_interpolate hinj (f := q) (by simpa using hq), Lagrange.interpolate_apply, derivative_sum, eval_finsetSum]
    refine Finset.sum_congr rfl fun i hi => ?_
    rw [val, h1 hd i (Finset.mem_range.mp hi), Option.getD_some, derivative_C_mul, eval_mul, eval_C, mul_comm]
  · conv_rhs => rw [Lagrange.eq_interpolate hinj (f := q) (by simpa using hq), Lagrange.interpolate_apply, derivative_sum, derivative_sum, eval_finsetSum]
    refine Finset.sum_congr rfl fun i hi => ?_
    rw [val, h2' hd i (Finset.mem_range.mp hi), Option.getD_some, derivative_C_mul, derivative_C_mul, eval_mul, eval_C, mul_comm]

/-- the hypotheses hold for three rational nodes, an earlier call with `der=0` and a call with `der=2` -/
theorem lagrange_example : ((2 : ℚ) ≠ 0) ∧ 0 < 3 ∧ (∀ i < 3, ∀ j < 3, (i : ℚ) = j → i = j) ∧
    (∀ c ∈ [(⟨3, fun _ => none, 0, 7⟩ : LagCall ℚ)], c.Ok 3) ∧ (⟨9, fun _ => none, 2, 5⟩ : LagCall ℚ).Ok 3 := by
  refine ⟨by norm_num, by omega, fun i _ j _ h => by exact_mod_cast h, ?_, ?_⟩
  · intro c hc; simp at hc; subst hc; simp [LagCall.Ok]
  · simp [LagCall.Ok]

end Gslib.Props
