import Verif.Spec.QuadExact
import Verif.Lemmas.Legendre
import Verif.Props.Legendre
import Mathlib.Algebra.Polynomial.Derivative
import Mathlib.LinearAlgebra.Lagrange
import Mathlib.Tactic.Ring
import Mathlib.Tactic.FieldSimp
import Mathlib.Tactic.LinearCombination

/-!
# Exactness of the Gauss and Lobatto rules with exact nodes
-/

namespace Gslib.Poly
open Polynomial Gslib.Spec Gslib.Props
variable {K : Type} [Field K] [CharZero K]

/-- every polynomial has a primitive -/
theorem exists_primitive (p : K[X]) : ∃ q : K[X], derivative q = p ∧ q.natDegree ≤ p.natDegree + 1 := by
  refine ⟨∑ k ∈ Finset.range (p.natDegree + 1), C (p.coeff k / ((k : K) + 1)) * X ^ (k + 1), ?_, ?_⟩
  · rw [derivative_sum]
    conv_rhs => rw [p.as_sum_range_C_mul_X_pow]
    refine Finset.sum_congr rfl fun k _ => ?_
    rw [derivative_C_mul, derivative_X_pow, Nat.add_sub_cancel, ← mul_assoc, ← C_mul]
    congr 2
    have : ((k : K) + 1) ≠ 0 := Nat.cast_add_one_ne_zero k
    push_cast; field_simp
  · refine natDegree_sum_le_of_forall_le _ _ fun k hk => ?_
    refine (natDegree_C_mul_X_pow_le _ _).trans ?_
    have := Finset.mem_range.mp hk; omega

/-- a primitive, chosen -/
noncomputable def prim (p : K[X]) : K[X] := (exists_primitive p).choose

theorem derivative_prim (p : K[X]) : derivative (prim p) = p := (exists_primitive p).choose_spec.1

/-- the integral over `[-1,1]` -/
noncomputable def integ (p : K[X]) : K := (prim p).eval 1 - (prim p).eval (-1)

theorem integ_eq (q : K[X]) : integ (derivative q) = q.eval 1 - q.eval (-1) := by
  have h : derivative (prim (derivative q) - q) = 0 := by rw [derivative_sub, derivative_prim, sub_self]
  obtain ⟨c, hc⟩ := natDegree_eq_zero.mp (derivative_eq_zero.mp h)
  have h1 := congrArg (eval 1) hc
  have h2 := congrArg (eval (-1)) hc
  simp only [eval_C, eval_sub] at h1 h2
  rw [integ]; linear_combination h2 - h1

theorem integ_add (p q : K[X]) : integ (p + q) = integ p + integ q := by
  conv_lhs => rw [← derivative_prim p, ← derivative_prim q, ← derivative_add, integ_eq]
  simp only [eval_add, integ]; ring

theorem integ_C_mul (c : K) (p : K[X]) : integ (C c * p) = c * integ p := by
  conv_lhs => rw [← derivative_prim p, ← derivative_C_mul, integ_eq]
  simp only [eval_mul, eval_C, integ]; ring

theorem integ_zero : integ (0 : K[X]) = 0 := by
  have := integ_eq (0 : K[X]); simpa using this

theorem integ_neg (p : K[X]) : integ (-p) = -integ p := by
  have := integ_C_mul (-1) p
  simpa using this

theorem integ_sum {ι : Type} (s : Finset ι) (f : ι → K[X]) : integ (∑ i ∈ s, f i) = ∑ i ∈ s, integ (f i) := by
  classical
  induction s using Finset.induction_on with
  | empty => simp [integ_zero]
  | insert a s ha ih => rw [Finset.sum_insert ha, Finset.sum_insert ha, integ_add, ih]

/-- integration by parts -/
theorem integ_parts (f g : K[X]) : integ (derivative f * g) = (f * g).eval 1 - (f * g).eval (-1) - integ (f * derivative g) := by
  have := integ_eq (f * g)
  rw [derivative_mul, integ_add] at this
  linear_combination this

theorem integ_rod (n : Nat) : ∀ (j : Nat) (p : K[X]), j ≤ n →
    integ (derivative^[n] ((X ^ 2 - 1) ^ n) * p) = (-1) ^ j * integ (derivative^[n - j] ((X ^ 2 - 1) ^ n) * derivative^[j] p)
  | 0, p, _ => by simp
  | j + 1, p, h => by
    rw [integ_rod n j p (by omega), show n - j = (n - (j + 1)) + 1 by omega, Function.iterate_succ_apply' derivative (n - (j + 1)), integ_parts]
    have hd := pow_sub_dvd_iterate_derivative_pow (X ^ 2 - 1 : K[X]) n (n - (j + 1))
    obtain ⟨s, hs⟩ := hd
    have h0 : n - (n - (j + 1)) ≠ 0 := by omega
    rw [hs, Function.iterate_succ_apply' derivative j]
    simp [h0, pow_succ]

theorem iter_derivative_eq_zero (p : K[X]) (n : Nat) (h : p.natDegree < n) : derivative^[n] p = 0 :=
  iterate_derivative_eq_zero h

/-- `P_n` is orthogonal to all polynomials of lower degree -/
theorem legP_orth (n : Nat) (p : K[X]) (h : p.natDegree < n) : integ (legendreP K n * p) = 0 := by
  rw [legendreP, mul_assoc, integ_C_mul, integ_rod n n p le_rfl, iterate_derivative_eq_zero h]
  simp [integ_zero]

theorem legP_eval_one (n : Nat) : (legendreP K n).eval 1 = 1 := by rw [← legendre_correct, legendre_one]

theorem legP_eval_neg_one (n : Nat) : (legendreP K n).eval (-1) = (-1) ^ n := by
  rw [← legendre_correct, legendre_parity, legendre_one, mul_one]

theorem legP_ne_zero (n : Nat) : legendreP K n ≠ 0 := by
  intro h; have := legP_eval_one (K := K) n; simp [h] at this

theorem legP_natDegree_le (n : Nat) : (legendreP K n).natDegree ≤ n := by
  rw [legendreP]
  refine (natDegree_C_mul_le _ _).trans ?_
  refine (natDegree_iterate_derivative _ _).trans ?_
  have : ((X ^ 2 - 1 : K[X]) ^ n).natDegree ≤ 2 * n := by
    refine natDegree_pow_le.trans ?_
    have : (X ^ 2 - 1 : K[X]).natDegree ≤ 2 := by compute_degree
    nlinarith
  omega

/-- `(1-X²) P'_{n+1} = (n+1) (P_n - X P_{n+1})` -/
theorem legP_D (n : Nat) : (1 - X ^ 2) * derivative (legendreP K (n + 1)) = C ((n : K) + 1) * (legendreP K n - X * legendreP K (n + 1)) := by
  have hA := legP_A (K := K) n
  have hB := legP_B (K := K) n
  linear_combination hA - X * hB

/-- the differential equation -/
theorem legP_ode (n : Nat) : derivative ((1 - X ^ 2) * derivative (legendreP K n)) = -(C ((n : K) * (n + 1)) * legendreP K n) := by
  cases n with
  | zero => simp [legP_zero]
  | succ n =>
    have hB := legP_B (K := K) n
    rw [legP_D, derivative_C_mul, derivative_sub, derivative_mul, derivative_X, one_mul]
    push_cast
    simp only [C_mul, C_add, map_natCast, map_one] at *
    linear_combination ((n : K[X]) + 1) * (-hB)

/-- at a zero of `P_n`: `(1-x²) P_n'' = 2x P_n'` -/
theorem legP_ode_eval (n : Nat) (x : K) : (1 - x ^ 2) * (derivative (derivative (legendreP K n))).eval x =
    2 * x * (derivative (legendreP K n)).eval x - n * (n + 1) * (legendreP K n).eval x := by
  have h := congrArg (eval x) (legP_ode (K := K) n)
  simp only [derivative_mul, derivative_sub, derivative_one, derivative_X_pow, eval_add, eval_mul, eval_sub, eval_one, eval_pow, eval_X,
    eval_neg, eval_C, eval_zero, Nat.cast_ofNat, Nat.add_one_sub_one, pow_one] at h
  linear_combination h

/-- a polynomial of degree at most `n` that vanishes on `n` distinct points, and is not zero, has degree `n` and divides every polynomial
that vanishes there -/
theorem dvd_of_nodes (n : Nat) (W : K[X]) (hW : W ≠ 0) (hd : W.natDegree ≤ n) (v : Nat → K)
    (hv : ∀ i < n, ∀ j < n, v i = v j → i = j) (h0 : ∀ i < n, W.eval (v i) = 0) :
    W.natDegree = n ∧ ∀ p : K[X], (∀ i < n, p.eval (v i) = 0) → W ∣ p := by
  classical
  set ω : K[X] := ∏ i ∈ Finset.range n, (X - C (v i)) with hω
  have hm : ω.Monic := monic_prod_of_monic _ _ fun i _ => monic_X_sub_C _
  have hωd : ω.natDegree = n := by
    rw [hω, natDegree_prod_of_monic _ _ fun i _ => monic_X_sub_C _]; simp
  have hdvd : ∀ p : K[X], (∀ i < n, p.eval (v i) = 0) → ω ∣ p := by
    intro p hp
    refine Finset.prod_dvd_of_coprime ?_ ?_
    · intro i hi j hj hij
      have := hv i (by simpa using hi) j (by simpa using hj)
      exact isCoprime_X_sub_C_of_isUnit_sub (sub_ne_zero.mpr fun h => hij (this h)).isUnit
    · intro i hi
      exact dvd_iff_isRoot.mpr (hp i (by simpa using hi))
  obtain ⟨c, hc⟩ := hdvd W h0
  have hc0 : c ≠ 0 := fun h => hW (by rw [hc, h, mul_zero])
  have hdeg : W.natDegree = n + c.natDegree := by rw [hc, natDegree_mul hm.ne_zero hc0, hωd]
  have hcd : c.natDegree = 0 := by omega
  refine ⟨by omega, fun p hp => ?_⟩
  obtain ⟨k, hk⟩ := natDegree_eq_zero.mp hcd
  have hk0 : k ≠ 0 := fun h => hc0 (by rw [← hk, h, C_0])
  obtain ⟨s, hs⟩ := hdvd p hp
  refine ⟨C k⁻¹ * s, ?_⟩
  rw [hs, hc, ← hk]
  have : C k * C k⁻¹ = (1 : K[X]) := by rw [← C_mul, mul_inv_cancel₀ hk0, C_1]
  linear_combination (-(ω * s)) * this

/-- interpolatory rules whose node polynomial `W` is orthogonal to polynomials of degree less than `m` are exact up to degree `n+m-1` -/
theorem exact_of_orth (n m : Nat) (hn : 0 < n) (W : K[X]) (hW : W ≠ 0) (hd : W.natDegree ≤ n) (v : Nat → K)
    (hv : ∀ i < n, ∀ j < n, v i = v j → i = j) (h0 : ∀ i < n, W.eval (v i) = 0)
    (horth : ∀ s : K[X], s.natDegree < m → integ (W * s) = 0) :
    ∃ w : Nat → K, ∀ p : K[X], p.natDegree < n + m → integ p = ∑ i ∈ Finset.range n, w i * p.eval (v i) := by
  classical
  obtain ⟨hdeg, hdvd⟩ := dvd_of_nodes n W hW hd v hv h0
  have hinj : Set.InjOn v (Finset.range n : Finset Nat) := fun i hi j hj h => hv i (by simpa using hi) j (by simpa using hj) h
  refine ⟨fun i => integ (Lagrange.basis (Finset.range n) v i), fun p hp => ?_⟩
  set r : K[X] := Lagrange.interpolate (Finset.range n) v (fun i => p.eval (v i)) with hr
  have hrd : r.natDegree < n := by
    have := Lagrange.degree_interpolate_lt (s := Finset.range n) (v := v) (fun i => p.eval (v i)) hinj
    rw [Finset.card_range] at this
    by_cases hr0 : r = 0
    · rw [hr0, natDegree_zero]; exact hn
    · exact (natDegree_lt_iff_degree_lt hr0).mpr this
  have hri : ∀ i < n, r.eval (v i) = p.eval (v i) := fun i hi =>
    Lagrange.eval_interpolate_at_node _ hinj (Finset.mem_range.mpr hi)
  obtain ⟨s, hs⟩ := hdvd (p - r) (fun i hi => by rw [eval_sub, hri i hi, sub_self])
  have hs' : integ (W * s) = 0 := by
    by_cases hs0 : s = 0
    · rw [hs0, mul_zero, integ_zero]
    rcases Nat.eq_zero_or_pos m with hm | hm
    · exfalso
      have h1 : (W * s).natDegree = n + s.natDegree := by rw [natDegree_mul hW hs0, hdeg]
      have h2 : (p - r).natDegree ≤ max p.natDegree r.natDegree := natDegree_sub_le _ _
      rw [hs, h1] at h2
      have := (le_max_iff.mp h2); omega
    · refine horth s ?_
      have h1 : (W * s).natDegree = n + s.natDegree := by rw [natDegree_mul hW hs0, hdeg]
      have h2 : (p - r).natDegree ≤ max p.natDegree r.natDegree := natDegree_sub_le _ _
      rw [hs, h1] at h2
      have := (le_max_iff.mp h2); omega
  have hp' : p = W * s + r := by rw [← hs]; ring
  calc integ p = integ r := by rw [hp', integ_add, hs', zero_add]
    _ = _ := by
      rw [hr, Lagrange.interpolate_apply, integ_sum]
      refine Finset.sum_congr rfl fun i _ => ?_
      rw [integ_C_mul, mul_comm]

/-- the value and the derivative at `x` of `W / (X-x)` -/
theorem quot_root (W : K[X]) (x : K) (h : W.eval x = 0) : ∃ g : K[X], W = (X - C x) * g ∧ g.eval x = (derivative W).eval x ∧
    2 * (derivative g).eval x = (derivative (derivative W)).eval x := by
  obtain ⟨g, hg⟩ := dvd_iff_isRoot.mpr (show IsRoot W x from h)
  refine ⟨g, hg, ?_, ?_⟩
  · rw [hg]; simp [derivative_mul]
  · rw [hg]; simp [derivative_mul]; ring

/-- exactness of the Gauss rule -/
theorem gauss_exact (n : Nat) (hn : 0 < n) (v : Nat → K) (hv : ∀ i < n, ∀ j < n, v i = v j → i = j)
    (h0 : ∀ i < n, (legendreP K n).eval (v i) = 0) (u : Nat → K)
    (hu : ∀ i < n, u i = 2 * (1 - v i ^ 2) / (((n : K) + 1) * (legendreP K (n + 1)).eval (v i)) ^ 2) : ExactUpTo n (2 * n - 1) v u := by
  classical
  obtain ⟨w, hw⟩ := exact_of_orth n n hn (legendreP K n) (legP_ne_zero n) (legP_natDegree_le n) v hv h0 (fun s hs => legP_orth n s hs)
  have key : ∀ i < n, u i = w i := by
    intro i hi
    set x := v i with hx
    obtain ⟨g, hg, g0, g1⟩ := quot_root (legendreP K n) x (h0 i hi)
    have hone := legP_eval_one (K := K) n
    have ha : 1 - x ≠ 0 := by
      intro h
      have e : v i = 1 := by rw [← hx]; linear_combination -h
      have := h0 i hi; rw [e, legP_eval_one] at this; exact one_ne_zero this
    have hb : 1 + x ≠ 0 := by
      intro h
      have e : v i = -1 := by rw [← hx]; linear_combination h
      have := h0 i hi; rw [e, legP_eval_neg_one] at this
      exact pow_ne_zero n (neg_ne_zero.mpr one_ne_zero) this
    have hgd : g.natDegree < n := by
      have hg0 : g ≠ 0 := fun h => legP_ne_zero (K := K) n (by rw [hg, h, mul_zero])
      have := legP_natDegree_le (K := K) n
      rw [hg, natDegree_mul (X_sub_C_ne_zero x) hg0, natDegree_X_sub_C] at this
      omega
    have hgo : ∀ j < n, j ≠ i → g.eval (v j) = 0 := by
      intro j hj hji
      have := h0 j hj
      rw [hg, eval_mul, eval_sub, eval_X, eval_C] at this
      exact (mul_eq_zero.mp this).resolve_left (sub_ne_zero.mpr fun h => hji (hv j hj i hi h))
    have hgone : g.eval 1 * (1 - x) = 1 := by
      rw [hg, eval_mul, eval_sub, eval_X, eval_C] at hone; linear_combination hone
    have hq := hw (derivative ((1 + X) * g ^ 2)) (by
      refine lt_of_le_of_lt (natDegree_derivative_le _) ?_
      have h1 : ((1 + X) * g ^ 2 : K[X]).natDegree ≤ 1 + 2 * g.natDegree := by
        refine natDegree_mul_le.trans (Nat.add_le_add ?_ natDegree_pow_le)
        compute_degree
      omega)
    have hd : ∀ y : K, (derivative ((1 + X) * g ^ 2)).eval y = g.eval y * (g.eval y + 2 * (1 + y) * (derivative g).eval y) := by
      intro y
      rw [derivative_mul, derivative_pow]
      simp only [derivative_add, derivative_one, derivative_X, eval_add, eval_mul, eval_pow, eval_one, eval_X, Nat.cast_ofNat, C_ofNat,
        eval_ofNat, eval_zero]
      ring
    rw [integ_eq, Finset.sum_eq_single i] at hq
    · rw [hd, ← hx, g0] at hq
      simp only [eval_mul, eval_add, eval_one, eval_X, eval_pow] at hq
      have hode := legP_ode_eval n x
      rw [show (legendreP K n).eval x = 0 from h0 i hi] at hode
      set d := (derivative (legendreP K n)).eval x with hdd
      -- `(1-x) * (stuff)`
      have e1 : w i * d ^ 2 * (1 - x ^ 2) = 2 := by
        have e2 : (1 - x) * (d + 2 * (1 + x) * (derivative g).eval x) = d * (1 + x) := by
          linear_combination (1 - x ^ 2) * g1 + hode
        have e3 : w i * (d * (d * (1 + x))) = (1 - x) * (2 * g.eval 1 ^ 2) := by
          rw [← e2]; linear_combination (-(1 - x)) * hq
        have e4 : (1 - x) * (w i * (d * (d * (1 + x)))) = 2 * (g.eval 1 * (1 - x)) ^ 2 := by rw [e3]; ring
        rw [hgone] at e4; linear_combination e4
      have hP : ((n : K) + 1) * (legendreP K (n + 1)).eval x = -(1 - x ^ 2) * d := by
        have hA := congrArg (eval x) (legP_A (K := K) n)
        have hB := congrArg (eval x) (legP_B (K := K) n)
        simp only [eval_add, eval_mul, eval_X, eval_C] at hA hB
        rw [show (legendreP K n).eval x = 0 from h0 i hi] at hA
        rw [hdd]; linear_combination x * hA - hB
      have hx2 : (1 - x ^ 2) ≠ 0 := by rw [show 1 - x ^ 2 = (1 - x) * (1 + x) by ring]; exact mul_ne_zero ha hb
      have hd0 : d ≠ 0 := by intro h; rw [h] at e1; simp at e1
      rw [hu i hi, ← hx, hP, show (-(1 - x ^ 2) * d) ^ 2 = (1 - x ^ 2) ^ 2 * d ^ 2 by ring, ← e1]
      field_simp
    · intro j hj hji
      rw [hd, hgo j (Finset.mem_range.mp hj) hji]; ring
    · intro h; exact absurd (Finset.mem_range.mpr hi) h
  intro q hq
  rw [← integ_eq, hw (derivative q) (lt_of_le_of_lt (natDegree_derivative_le _) (by omega))]
  exact Finset.sum_congr rfl fun i hi => by rw [key i (Finset.mem_range.mp hi)]

/-- `(1-X²) P_N'` is orthogonal to all polynomials of degree less than `N-1` -/
theorem lob_orth (N : Nat) (s : K[X]) (h : s.natDegree + 1 < N) : integ ((1 - X ^ 2) * derivative (legendreP K N) * s) = 0 := by
  obtain ⟨S, hS, hd⟩ := exists_primitive s
  have hp := integ_parts ((1 - X ^ 2) * derivative (legendreP K N)) S
  rw [legP_ode, hS] at hp
  have h1 : integ (-(C ((N : K) * (N + 1)) * legendreP K N) * S) = 0 := by
    rw [show -(C ((N : K) * (N + 1)) * legendreP K N) * S = C (-((N : K) * (N + 1))) * (legendreP K N * S) by
      rw [C_neg]; ring, integ_C_mul, legP_orth N S (by omega), mul_zero]
  rw [h1] at hp
  have e1 : ((1 - X ^ 2) * derivative (legendreP K N) * S).eval 1 = 0 := by simp
  have e2 : ((1 - X ^ 2) * derivative (legendreP K N) * S).eval (-1) = 0 := by simp
  rw [e1, e2] at hp
  linear_combination hp

/-- the differential equation of `P_N'` at a zero of it: `(1-x²) P_N''' = 4x P_N''` -/
theorem legP_ode3 (N : Nat) (x : K) (h : (derivative (legendreP K N)).eval x = 0) :
    (1 - x ^ 2) * (derivative (derivative (derivative (legendreP K N)))).eval x = 4 * x * (derivative (derivative (legendreP K N))).eval x := by
  have e := congrArg (eval x) (congrArg derivative (legP_ode (K := K) N))
  simp only [derivative_mul, derivative_sub, derivative_one, derivative_X_pow, derivative_add, derivative_neg, derivative_C, derivative_X,
    eval_add, eval_mul, eval_sub, eval_one, eval_pow, eval_X, derivative_ofNat,
    eval_neg, eval_C, eval_zero, Nat.cast_ofNat, Nat.add_one_sub_one, pow_one, h] at e
  linear_combination e

/-- `2 P_N'(±1) = ±N(N+1) P_N(±1)` -/
theorem legP_d1_end (N : Nat) (x : K) (hx : x ^ 2 = 1) : 2 * (derivative (legendreP K N)).eval x = N * (N + 1) * x * (legendreP K N).eval x := by
  have := legP_ode_eval N x
  rw [hx] at this
  linear_combination (-x) * this - 2 * (derivative (legendreP K N)).eval x * hx

theorem legP_d1_ne_zero (N : Nat) (hN : 0 < N) : derivative (legendreP K N) ≠ 0 := by
  intro h
  have := legP_d1_end N (1 : K) (by ring)
  rw [h, legP_eval_one] at this
  have h1 : (N : K) ≠ 0 := Nat.cast_ne_zero.mpr (by omega)
  have h2 : (N : K) + 1 ≠ 0 := Nat.cast_add_one_ne_zero N
  simp only [eval_zero, mul_zero, mul_one] at this
  exact mul_ne_zero h1 h2 this.symm

/-- exactness of the Lobatto rule -/
theorem lobatto_exact (n : Nat) (hn : 2 ≤ n) (v : Nat → K) (hv : ∀ i < n, ∀ j < n, v i = v j → i = j) (ha : v 0 = -1) (hb : v (n - 1) = 1)
    (h0 : ∀ i, 0 < i → i < n - 1 → (derivative (legendreP K (n - 1))).eval (v i) = 0) (u : Nat → K)
    (hu : ∀ i < n, u i = 2 / (((n : K) - 1) * n * (legendreP K (n - 1)).eval (v i) ^ 2)) : ExactUpTo n (2 * n - 3) v u := by
  classical
  obtain ⟨N, rfl⟩ : ∃ N, n = N + 1 := ⟨n - 1, by omega⟩
  simp only [Nat.add_sub_cancel] at hb h0 hu
  set P := legendreP K N with hP
  set D := derivative P with hD
  have hN0 : (N : K) ≠ 0 := Nat.cast_ne_zero.mpr (by omega)
  have hN1 : (N : K) + 1 ≠ 0 := Nat.cast_add_one_ne_zero N
  have hNN : (N : K) * (N + 1) ≠ 0 := mul_ne_zero hN0 hN1
  have hDne : D ≠ 0 := legP_d1_ne_zero N (by omega)
  have h1X : (1 - X ^ 2 : K[X]) ≠ 0 := by
    intro h; have := congrArg (eval 0) h; simp at this
  have hWne : (1 - X ^ 2) * D ≠ 0 := mul_ne_zero h1X hDne
  have hPd : P.natDegree ≤ N := legP_natDegree_le N
  have hDd : D.natDegree ≤ N - 1 := (natDegree_derivative_le _).trans (by omega)
  have hWd : ((1 - X ^ 2) * D).natDegree ≤ N + 1 := by
    have h2 : (1 - X ^ 2 : K[X]).natDegree ≤ 2 := by compute_degree
    refine natDegree_mul_le.trans ?_
    omega
  have hW0 : ∀ i < N + 1, ((1 - X ^ 2) * D).eval (v i) = 0 := by
    intro i hi
    rcases Nat.eq_zero_or_pos i with rfl | hi0
    · rw [ha]; simp
    by_cases hiN : i = N
    · subst hiN; rw [hb]; simp
    · rw [eval_mul, h0 i hi0 (by omega), mul_zero]
  obtain ⟨w, hw⟩ := exact_of_orth (N + 1) (N - 1) (by omega) _ hWne hWd v hv hW0 (fun s hs => lob_orth N s (by omega))
  have hone : P.eval 1 = 1 := legP_eval_one N
  have hmone : P.eval (-1) = (-1) ^ N := legP_eval_neg_one N
  have hsq : P.eval (-1) ^ 2 = 1 := by rw [hmone, ← pow_mul, mul_comm, pow_mul]; simp
  have hd1 : 2 * D.eval 1 = N * (N + 1) := by
    have := legP_d1_end N (1 : K) (by ring)
    rw [← hP, ← hD, hone] at this; linear_combination this
  have hdm : 2 * D.eval (-1) = -(N * (N + 1) * P.eval (-1)) := by
    have := legP_d1_end N (-1 : K) (by ring)
    rw [← hP, ← hD] at this; linear_combination this
  have hiP : integ P = 0 := by
    have := legP_orth N (1 : K[X]) (by rw [natDegree_one]; omega)
    rwa [mul_one] at this
  -- the right end point
  have wR : w N * (N * (N + 1)) = 2 := by
    have hp := integ_parts P (1 + X)
    rw [show derivative (1 + X : K[X]) = 1 by simp, mul_one, hiP, ← hD] at hp
    rw [hw (D * (1 + X)) (by
      refine lt_of_le_of_lt natDegree_mul_le ?_
      have : (1 + X : K[X]).natDegree ≤ 1 := by compute_degree
      omega), Finset.sum_eq_single N] at hp
    · rw [hb] at hp
      simp only [eval_mul, eval_add, eval_one, eval_X, hone] at hp
      linear_combination hp - w N * hd1
    · intro j hj hjN
      have hj := Finset.mem_range.mp hj
      rcases Nat.eq_zero_or_pos j with rfl | hj0
      · rw [ha]; simp
      · rw [eval_mul, h0 j hj0 (by omega)]; ring
    · intro h; exact absurd (Finset.mem_range.mpr (by omega)) h
  have wL : w 0 * (N * (N + 1)) = 2 := by
    have hp := integ_parts P (1 - X)
    rw [show derivative (1 - X : K[X]) = -1 by simp, show P * (-1) = -P by ring, integ_neg, hiP, ← hD] at hp
    rw [hw (D * (1 - X)) (by
      refine lt_of_le_of_lt natDegree_mul_le ?_
      have : (1 - X : K[X]).natDegree ≤ 1 := by compute_degree
      omega), Finset.sum_eq_single 0] at hp
    · rw [ha] at hp
      simp only [eval_mul, eval_sub, eval_one, eval_X, hone] at hp
      linear_combination (-P.eval (-1)) * hp + w 0 * P.eval (-1) * hdm + (2 - w 0 * (N * (N + 1))) * hsq
    · intro j hj hj0
      have hj := Finset.mem_range.mp hj
      by_cases hjN : j = N
      · subst hjN; rw [hb]; simp
      · rw [eval_mul, h0 j (by omega) (by omega)]; ring
    · intro h; exact absurd (Finset.mem_range.mpr (by omega)) h
  have key : ∀ i < N + 1, u i = w i := by
    intro i hi
    have hui := hu i hi
    push_cast at hui
    rw [add_sub_cancel_right] at hui
    rcases Nat.eq_zero_or_pos i with rfl | hi0
    · rw [hui, ha, hsq, mul_one, div_eq_iff hNN, wL]
    by_cases hiN : i = N
    · subst hiN; rw [hui, hb, hone, one_pow, mul_one, div_eq_iff hNN, wR]
    have hx0 := h0 i hi0 (by omega)
    set x := v i with hx
    have hxa : 1 - x ≠ 0 := by
      intro h
      have : v i = v N := by rw [hb, ← hx]; linear_combination -h
      exact hiN (hv i hi N (by omega) this)
    have hxb : 1 + x ≠ 0 := by
      intro h
      have : v i = v 0 := by rw [ha, ← hx]; linear_combination h
      exact absurd (hv i hi 0 (by omega) this) (by omega)
    obtain ⟨g, hg, g0, g1⟩ := quot_root D x hx0
    have hg0 : g ≠ 0 := fun h => hDne (by rw [hg, h, mul_zero])
    have hgd : g.natDegree + 1 ≤ N - 1 := by
      have := hDd
      rw [hg, natDegree_mul (X_sub_C_ne_zero x) hg0, natDegree_X_sub_C] at this
      omega
    have hgo : ∀ j < N + 1, j ≠ i → 0 < j → j ≠ N → g.eval (v j) = 0 := by
      intro j hj hji hj0 hjN
      have := h0 j hj0 (by omega)
      rw [hg, eval_mul, eval_sub, eval_X, eval_C] at this
      exact (mul_eq_zero.mp this).resolve_left (sub_ne_zero.mpr fun h => hji (hv j hj i hi h))
    have hgone : 2 * (g.eval 1 * (1 - x)) = N * (N + 1) := by
      rw [hg, eval_mul, eval_sub, eval_X, eval_C] at hd1; linear_combination hd1
    have hq := hw (derivative ((1 + X) ^ 2 * (1 - X) * g ^ 2)) (by
      refine lt_of_le_of_lt (natDegree_derivative_le _) ?_
      have h1 : ((1 + X) ^ 2 * (1 - X) * g ^ 2 : K[X]).natDegree ≤ 3 + 2 * g.natDegree := by
        refine natDegree_mul_le.trans (Nat.add_le_add ?_ natDegree_pow_le)
        compute_degree
      omega)
    have hd : ∀ y : K, (derivative ((1 + X) ^ 2 * (1 - X) * g ^ 2)).eval y =
        (1 + y) * g.eval y * ((1 - 3 * y) * g.eval y + 2 * (1 + y) * (1 - y) * (derivative g).eval y) := by
      intro y
      rw [derivative_mul, derivative_mul, derivative_pow, derivative_pow]
      simp only [derivative_add, derivative_sub, derivative_one, derivative_X, eval_add, eval_mul, eval_pow, eval_one, eval_X, Nat.cast_ofNat,
        eval_sub, C_ofNat, eval_ofNat, eval_zero]
      ring
    have hsum : ∑ j ∈ Finset.range (N + 1), w j * (derivative ((1 + X) ^ 2 * (1 - X) * g ^ 2)).eval (v j) =
        w i * (derivative ((1 + X) ^ 2 * (1 - X) * g ^ 2)).eval x + w N * (derivative ((1 + X) ^ 2 * (1 - X) * g ^ 2)).eval 1 := by
      rw [← Finset.sum_subset (s₁ := {i, N})]
      · rw [Finset.sum_pair hiN, hb]
      · intro j hj
        simp only [Finset.mem_insert, Finset.mem_singleton] at hj
        exact Finset.mem_range.mpr (by omega)
      · intro j hj hj'
        have hj := Finset.mem_range.mp hj
        simp only [Finset.mem_insert, Finset.mem_singleton, not_or] at hj'
        rcases Nat.eq_zero_or_pos j with rfl | hj0
        · rw [hd, ha]; ring
        · rw [hd, hgo j hj hj'.1 hj0 hj'.2]; ring
    rw [integ_eq, hsum, hd, hd, g0] at hq
    have hode3 := legP_ode3 N x hx0
    have hode := legP_ode_eval N x
    rw [← hP, ← hD] at hode hode3
    rw [hx0] at hode
    simp only [eval_mul, eval_add, eval_sub, eval_one, eval_X, eval_pow] at hq
    set E := (derivative D).eval x with hE
    have e1 : (1 - 3 * x) * E + 2 * (1 + x) * (1 - x) * (derivative g).eval x = (1 + x) * E := by
      linear_combination (1 - x ^ 2) * g1 + hode3
    rw [e1] at hq
    -- `w x E² (1+x)² = w_N 4 g(1)²`
    have e2 : w i * ((1 + x) * E) ^ 2 = w N * 4 * g.eval 1 ^ 2 := by linear_combination -hq
    have e3 : (1 - x) * ((1 + x) * E) = -(N * (N + 1) * P.eval x) := by linear_combination hode
    have e4 : w i * ((N : K) * (N + 1)) ^ 2 * P.eval x ^ 2 = w N * ((N : K) * (N + 1)) ^ 2 := by
      calc w i * ((N : K) * (N + 1)) ^ 2 * P.eval x ^ 2 = w i * (-(N * (N + 1) * P.eval x)) ^ 2 := by ring
        _ = (1 - x) ^ 2 * (w i * ((1 + x) * E) ^ 2) := by rw [← e3]; ring
        _ = w N * (2 * (g.eval 1 * (1 - x))) ^ 2 := by rw [e2]; ring
        _ = _ := by rw [hgone]
    have e5 : w i * P.eval x ^ 2 = w N := by
      apply mul_left_cancel₀ (pow_ne_zero 2 hNN)
      linear_combination e4
    have hwN : w N ≠ 0 := by intro h; rw [h] at wR; simp at wR
    have hPx : P.eval x ≠ 0 := by intro h; rw [h] at e5; apply hwN; rw [← e5]; ring
    rw [hui, div_eq_iff (mul_ne_zero hNN (pow_ne_zero 2 hPx)), ← wR, ← e5]
    ring
  intro q hq
  rw [← integ_eq, hw (derivative q) (lt_of_le_of_lt (natDegree_derivative_le _) (by omega))]
  exact Finset.sum_congr rfl fun i hi => by rw [key i (Finset.mem_range.mp hi)]

end Gslib.Poly
