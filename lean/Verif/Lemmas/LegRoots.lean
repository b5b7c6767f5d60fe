import Verif.Lemmas.RealRoots

/-!
# Zeros of the Legendre polynomials and of their derivatives
-/

namespace Gslib.Poly
open Polynomial Gslib.Spec Gslib.Props

theorem card_iter (p : ℝ[X]) : ∀ k : Nat, Multiset.card p.roots ≤ Multiset.card (derivative^[k] p).roots + k
  | 0 => by simp
  | k + 1 => by
    have h1 := card_iter p k
    have h2 := card_roots_le_derivative (derivative^[k] p)
    rw [Function.iterate_succ_apply']
    omega

theorem card_base (n : Nat) : Multiset.card ((X ^ 2 - 1 : ℝ[X]) ^ n).roots = 2 * n := by
  have e : (X ^ 2 - 1 : ℝ[X]) = (X - C 1) * (X - C (-1)) := by
    simp only [C_neg, C_1]; ring
  have h0 : (X - C 1) * (X - C (-1)) ≠ (0 : ℝ[X]) := mul_ne_zero (X_sub_C_ne_zero _) (X_sub_C_ne_zero _)
  rw [roots_pow, Multiset.card_nsmul, e, roots_mul h0, roots_X_sub_C, roots_X_sub_C]
  simp; ring

theorem legP_card (n : Nat) : Multiset.card (legendreP ℝ n).roots = n ∧ (legendreP ℝ n).natDegree = n := by
  have h1 := card_iter ((X ^ 2 - 1 : ℝ[X]) ^ n) n
  rw [card_base] at h1
  have h2 : (legendreP ℝ n).roots = (derivative^[n] ((X ^ 2 - 1 : ℝ[X]) ^ n)).roots := by
    rw [legendreP, roots_C_mul]
    have : (n.factorial : ℝ) ≠ 0 := Nat.cast_ne_zero.mpr n.factorial_ne_zero
    positivity
  have h3 := card_roots' (legendreP ℝ n)
  have h4 := legP_natDegree_le (K := ℝ) n
  rw [h2] at h3 ⊢
  omega

theorem legP_realRooted (n : Nat) : RealRooted (legendreP ℝ n) (legendreP ℝ n).leadingCoeff (legendreP ℝ n).roots :=
  realRooted_of_card _ (legP_ne_zero n) (by rw [(legP_card n).1, (legP_card n).2])

theorem legD_card (n : Nat) : Multiset.card (derivative (legendreP ℝ n)).roots = n - 1 ∧ (derivative (legendreP ℝ n)).natDegree = n - 1 := by
  have h1 := card_roots_le_derivative (legendreP ℝ n)
  rw [(legP_card n).1] at h1
  have h3 := card_roots' (derivative (legendreP ℝ n))
  have h4 := natDegree_derivative_le (legendreP ℝ n)
  rw [(legP_card n).2] at h4
  omega

theorem legD_realRooted (n : Nat) (hn : 0 < n) :
    RealRooted (derivative (legendreP ℝ n)) (derivative (legendreP ℝ n)).leadingCoeff (derivative (legendreP ℝ n)).roots :=
  realRooted_of_card _ (legP_d1_ne_zero n hn) (by rw [(legD_card n).1, (legD_card n).2])

/-- the zeros of `P_n` are simple -/
theorem legP_simple (x : ℝ) : ∀ n : Nat, (legendreP ℝ n).eval x = 0 → (derivative (legendreP ℝ n)).eval x = 0 → False
  | 0, h, _ => by rw [legP_zero, eval_one] at h; exact one_ne_zero h
  | n + 1, h, h' => by
    have hD := congrArg (eval x) (legP_D (K := ℝ) n)
    have hB := congrArg (eval x) (legP_B (K := ℝ) n)
    simp only [eval_mul, eval_sub, eval_add, eval_X, eval_C, h, h', mul_zero, add_zero, sub_zero] at hD hB
    have hn : ((n : ℝ) + 1) ≠ 0 := Nat.cast_add_one_ne_zero n
    refine legP_simple x n ?_ hB.symm
    exact ((mul_eq_zero.mp hD.symm).resolve_left hn)

/-- the zeros of `P_n'` are simple -/
theorem legD_simple (x : ℝ) (n : Nat) (hn : 0 < n) (h : (derivative (legendreP ℝ n)).eval x = 0)
    (h' : (derivative (derivative (legendreP ℝ n))).eval x = 0) : False := by
  have := legP_ode_eval n x
  rw [h, h', mul_zero, mul_zero, zero_sub] at this
  have h1 : (n : ℝ) ≠ 0 := Nat.cast_ne_zero.mpr (by omega)
  have h2 : (n : ℝ) + 1 ≠ 0 := Nat.cast_add_one_ne_zero n
  exact legP_simple x n ((mul_eq_zero.mp (neg_eq_zero.mp this.symm)).resolve_left (mul_ne_zero h1 h2)) h

/-- a double zero in the list of zeros is a zero of the derivative -/
theorem not_mem_of_simple {f : ℝ[X]} {c : ℝ} {t : Multiset ℝ} {r : ℝ} (h : RealRooted f c (r ::ₘ t)) (hs : (derivative f).eval r ≠ 0) : r ∉ t := by
  intro hr
  obtain ⟨t', rfl⟩ := Multiset.exists_cons_of_mem hr
  apply hs
  rw [h.eq, prodS_cons, prodS_cons]
  simp [derivative_mul]

/-- growth outside of `(-1,1)` -/
theorem P_pos (x : ℝ) (hx : 1 ≤ x) : ∀ n : Nat, 0 < P x n ∧ P x n ≤ P x (n + 1)
  | 0 => by
    rw [P, P, legP_zero, legP_one, eval_one, eval_X]; exact ⟨one_pos, hx⟩
  | n + 1 => by
    obtain ⟨h1, h2⟩ := P_pos x hx n
    have h3 : 0 < P x (n + 1) := lt_of_lt_of_le h1 h2
    refine ⟨h3, ?_⟩
    have := P_rec x n
    have hn : (0 : ℝ) ≤ n := Nat.cast_nonneg n
    have q : ((n : ℝ) + 2) * P x (n + 1) ≤ (n + 2) * P x (n + 2) := by
      rw [this]
      have a1 : (2 * (n : ℝ) + 3) * P x (n + 1) ≤ (2 * n + 3) * x * P x (n + 1) := by
        have : (2 * (n : ℝ) + 3) * 1 ≤ (2 * n + 3) * x := mul_le_mul_of_nonneg_left hx (by positivity)
        rw [mul_one] at this
        exact mul_le_mul_of_nonneg_right this h3.le
      have a2 : ((n : ℝ) + 1) * P x n ≤ (n + 1) * P x (n + 1) := mul_le_mul_of_nonneg_left h2 (by positivity)
      nlinarith
    exact le_of_mul_le_mul_left q (by positivity)

theorem P1_pos (x : ℝ) (hx : 1 ≤ x) : ∀ n : Nat, 0 < P1 x (n + 1) ∧ P1 x (n + 1) ≤ P1 x (n + 2)
  | 0 => by
    rw [P1, P1, legP_one, legP_two, derivative_X, eval_one, eval_mul, eval_C, eval_X]; exact ⟨one_pos, by linarith⟩
  | n + 1 => by
    obtain ⟨h1, h2⟩ := P1_pos x hx n
    have h3 : 0 < P1 x (n + 2) := lt_of_lt_of_le h1 h2
    refine ⟨h3, ?_⟩
    have := P1_rec x (n + 1)
    have hn : (0 : ℝ) ≤ n := Nat.cast_nonneg n
    push_cast at this
    have q : ((n : ℝ) + 1 + 1) * P1 x (n + 2) ≤ (n + 1 + 1) * P1 x (n + 3) := by
      rw [this]
      have a1 : (2 * ((n : ℝ) + 1) + 3) * P1 x (n + 2) ≤ (2 * (n + 1) + 3) * x * P1 x (n + 2) := by
        have : (2 * ((n : ℝ) + 1) + 3) * 1 ≤ (2 * (n + 1) + 3) * x := mul_le_mul_of_nonneg_left hx (by positivity)
        rw [mul_one] at this
        exact mul_le_mul_of_nonneg_right this h3.le
      have a2 : ((n : ℝ) + 1 + 2) * P1 x (n + 1) ≤ (n + 1 + 2) * P1 x (n + 2) := mul_le_mul_of_nonneg_left h2 (by positivity)
      nlinarith
    exact le_of_mul_le_mul_left q (by positivity)

theorem P1_parity (x : ℝ) : ∀ n : Nat, P1 (-x) (n + 1) = (-1) ^ n * P1 x (n + 1)
  | 0 => by simp [P1, legP_one]
  | 1 => by simp [P1, legP_two]
  | n + 2 => by
      have h := P1_rec (-x) (n + 1)
      have h' := P1_rec x (n + 1)
      rw [P1_parity x (n + 1), P1_parity x n] at h
      have hne : ((n : ℝ) + 1 + 1) ≠ 0 := by positivity
      apply mul_left_cancel₀ hne
      push_cast at h h'
      rw [pow_succ] at h
      rw [pow_add]
      linear_combination h - (-1) ^ n * h'

/-- the zeros of `P_n` are in `(-1,1)` -/
theorem legP_root_mem (n : Nat) (x : ℝ) (h : (legendreP ℝ n).eval x = 0) : -1 < x ∧ x < 1 := by
  constructor
  · by_contra hx
    push Not at hx
    have h1 := (P_pos (-x) (by linarith) n).1
    have h2 := legendre_parity x n
    rw [legendre_correct, legendre_correct, h, mul_zero] at h2
    rw [P, h2] at h1; exact lt_irrefl _ h1
  · by_contra hx
    push Not at hx
    have h1 := (P_pos x hx n).1
    rw [P, h] at h1; exact lt_irrefl _ h1

/-- the zeros of `P_n'` are in `(-1,1)` -/
theorem legD_root_mem (n : Nat) (hn : 0 < n) (x : ℝ) (h : (derivative (legendreP ℝ n)).eval x = 0) : -1 < x ∧ x < 1 := by
  obtain ⟨k, rfl⟩ : ∃ k, n = k + 1 := ⟨n - 1, by omega⟩
  constructor
  · by_contra hx
    push Not at hx
    have h1 := (P1_pos (-x) (by linarith) k).1
    have h2 := P1_parity x k
    rw [show P1 x (k + 1) = 0 from h, mul_zero] at h2
    rw [h2] at h1; exact lt_irrefl _ h1
  · by_contra hx
    push Not at hx
    have h1 := (P1_pos x hx k).1
    rw [show P1 x (k + 1) = 0 from h] at h1; exact lt_irrefl _ h1

theorem legP_ode' (n : Nat) : (1 - X ^ 2) * derivative (derivative (legendreP ℝ n)) =
    C 2 * X * derivative (legendreP ℝ n) - C ((n : ℝ) * (n + 1)) * legendreP ℝ n := by
  have h := legP_ode (K := ℝ) n
  rw [derivative_mul, derivative_sub, derivative_one, derivative_X_pow] at h
  simp only [Nat.cast_ofNat, Nat.add_one_sub_one, pow_one] at h
  linear_combination h

theorem legD_ode' (n : Nat) : (1 - X ^ 2) * derivative (derivative (derivative (legendreP ℝ n))) =
    C 4 * X * derivative (derivative (legendreP ℝ n)) - C ((n : ℝ) * (n + 1) - 2) * derivative (legendreP ℝ n) := by
  have h := congrArg derivative (legP_ode' n)
  simp only [derivative_mul, derivative_sub, derivative_one, derivative_X_pow, derivative_C, derivative_X, Nat.cast_ofNat, Nat.add_one_sub_one,
    pow_one, zero_mul, zero_add, mul_one, zero_sub] at h
  rw [C_sub]
  have e4 : (C 4 : ℝ[X]) = C 2 + C 2 := by rw [← C_add]; norm_num
  rw [e4]
  linear_combination h

/-- the zeros of `P_n` are at least `5/(n(n+1))` apart -/
theorem legP_gap (n : Nat) (hn : 2 ≤ n) (r : ℝ) (t : Multiset ℝ) (h : (legendreP ℝ n).roots = r ::ₘ t) :
    ∀ z ∈ t, 5 / ((n : ℝ) * (n + 1)) ≤ |r - z| := by
  intro z hz
  have hR := legP_realRooted n
  rw [h] at hR
  have h0 : (legendreP ℝ n).eval r = 0 := (hR.root_iff r).mpr (Multiset.mem_cons_self r t)
  have hrt := not_mem_of_simple hR (fun hd => legP_simple r n h0 hd)
  obtain ⟨b1, b2⟩ := legP_root_mem n r h0
  have hsep := zeros_separated hR hrt 2 ((n : ℝ) * (n + 1)) (by norm_num) (legP_ode' n) (by nlinarith) z hz
  have hn' : (2 : ℝ) ≤ n := by exact_mod_cast hn
  set M := (n : ℝ) * (n + 1) with hM
  have hM6 : 6 ≤ M := by rw [hM]; nlinarith
  rw [div_le_iff₀ (by linarith), ← abs_of_pos (by linarith : 0 < M), ← abs_mul]
  refine le_of_sq_le_sq ?_ (abs_nonneg _)
  rw [sq_abs]
  have q : (2 : ℝ) ^ 2 + 8 * 2 + 4 * (M - 2) = 4 * (M + 3) := by ring
  rw [q] at hsep
  have q2 : 60 ≤ (M + 3) ^ 2 * (r - z) ^ 2 := by nlinarith
  have q3 : 5 * (M + 3) ^ 2 ≤ 12 * M ^ 2 := by nlinarith
  have q4 : 5 * (M + 3) ^ 2 * (r - z) ^ 2 ≤ 12 * M ^ 2 * (r - z) ^ 2 := mul_le_mul_of_nonneg_right q3 (sq_nonneg _)
  nlinarith

/-- the zeros of `P_N'` are at least `10/(N(N+1))` apart -/
theorem legD_gap (N : Nat) (hN : 5 ≤ N) (r : ℝ) (t : Multiset ℝ) (h : (derivative (legendreP ℝ N)).roots = r ::ₘ t) :
    ∀ z ∈ t, 10 / ((N : ℝ) * (N + 1)) ≤ |r - z| := by
  intro z hz
  have hR := legD_realRooted N (by omega)
  rw [h] at hR
  have h0 : (derivative (legendreP ℝ N)).eval r = 0 := (hR.root_iff r).mpr (Multiset.mem_cons_self r t)
  have hrt := not_mem_of_simple hR (fun hd => legD_simple r N (by omega) h0 hd)
  obtain ⟨b1, b2⟩ := legD_root_mem N (by omega) r h0
  have hsep := zeros_separated hR hrt 4 ((N : ℝ) * (N + 1) - 2) (by norm_num) (legD_ode' N) (by nlinarith) z hz
  have hn' : (5 : ℝ) ≤ N := by exact_mod_cast hN
  set M := (N : ℝ) * (N + 1) with hM
  have hM6 : 30 ≤ M := by rw [hM]; nlinarith
  rw [div_le_iff₀ (by linarith), ← abs_of_pos (by linarith : 0 < M), ← abs_mul]
  refine le_of_sq_le_sq ?_ (abs_nonneg _)
  rw [sq_abs]
  have q : (4 : ℝ) ^ 2 + 8 * 4 + 4 * (M - 2 - 4) = 4 * (M + 6) := by ring
  rw [q] at hsep
  have q2 : 144 ≤ (M + 6) ^ 2 * (r - z) ^ 2 := by nlinarith
  have q3 : 25 * (M + 6) ^ 2 ≤ 36 * M ^ 2 := by nlinarith
  have q4 : 25 * (M + 6) ^ 2 * (r - z) ^ 2 ≤ 36 * M ^ 2 * (r - z) ^ 2 := mul_le_mul_of_nonneg_right q3 (sq_nonneg _)
  nlinarith

end Gslib.Poly
