import Verif.Model.LegFl
import Verif.Props.Legendre
import Verif.Props.LagFl

/-!
# C76: Legendre polynomials in floating point
-/

namespace Gslib.Props
open Gslib.Poly Gslib.LegFl Gslib.Spec Polynomial
open Gslib.TensorFl (Apx)

/-- `dif y p b q` is `y*p-b*q` with every operation rounded, or with one product contracted (`m` or `m'` is then exact) -/
def IsDif (dif : ℝ → ℝ → ℝ → ℝ → ℝ) (u : ℝ) : Prop :=
  ∀ y p b q, ∃ m m', |m - y * p| ≤ u * |y * p| ∧ |m' - b * q| ≤ u * |b * q| ∧ |dif y p b q - (m - m')| ≤ u * |m - m'|

/-- the three term recurrence with all terms added: the sum of the absolute values of the terms of `P_n` -/
noncomputable def absLeg (y : ℝ) : Nat → ℝ
  | 0 => 1
  | 1 => y
  | n + 2 => ((2 * n + 3) * y * absLeg y (n + 1) + (n + 1) * absLeg y n) / (n + 2)

/-- likewise for `P_n'` -/
noncomputable def absLeg1 (y : ℝ) : Nat → ℝ
  | 0 => 0
  | 1 => 1
  | n + 2 => ((2 * n + 3) * y * absLeg1 y (n + 1) + (n + 2) * absLeg1 y n) / (n + 1)

variable {rnd : ℝ → ℝ} {dif : ℝ → ℝ → ℝ → ℝ → ℝ} {u : ℝ}

theorem stepFl_apx (h0 : 0 ≤ u) (hr : ∀ y, |rnd y - y| ≤ u * |y|) (hd : IsDif dif u) {k l : Nat} {x c p P A b q Q B e : ℝ} (hc : 0 ≤ c) (hb : 0 ≤ b) (he : 0 ≤ e)
    (hp : Apx u k p P A) (hq : Apx u l q Q B) (hl : l ≤ k) :
    Apx u (k + 4) (stepFl rnd dif x c p b q e) ((c * x * P - b * Q) / e) ((c * |x| * A + b * B) / e) := by
  obtain ⟨m, m', h1, h2, h3⟩ := hd (rnd (c * x)) p b q
  have a1 : Apx u (0 + 1) (rnd (c * x)) (c * x) (c * |x|) := by
    have : |c * x| = c * |x| := by rw [abs_mul, abs_of_nonneg hc]
    exact this ▸ (Apx.exact u (c * x)).rnd h0 (hr _)
  have a2 := (Apx.mul2 h0 a1 hp).rnd h0 h1
  have a3 : Apx u (l + 1) m' (b * Q) (b * B) := by
    have := hq.mul b
    rw [abs_of_nonneg hb, mul_comm q, mul_comm Q, mul_comm B] at this
    exact this.rnd h0 h2
  have a4 := (a3.mono h0 (by omega : l + 1 ≤ 0 + 1 + k + 1)).mul (-1)
  have a5 := a2.add a4
  have a6 : Apx u (0 + 1 + k + 1) (m - m') (c * x * P - b * Q) (c * |x| * A + b * B) := by
    have e1 : m + m' * -1 = m - m' := by ring
    have e2 : c * x * P + b * Q * -1 = c * x * P - b * Q := by ring
    rw [e1, e2, abs_neg, abs_one, mul_one] at a5
    exact a5
  have a7 := ((a6.rnd h0 h3).mul e⁻¹).rnd h0 (hr _)
  rw [abs_of_nonneg (inv_nonneg.2 he), ← div_eq_mul_inv, ← div_eq_mul_inv, ← div_eq_mul_inv, show 0 + 1 + k + 1 + 1 + 1 = k + 4 by ring] at a7
  exact a7

theorem loop0_apx (h0 : 0 ≤ u) (hr : ∀ y, |rnd y - y| ≤ u * |y|) (hd : IsDif dif u) (n : Nat) (x : ℝ) (j : Nat) (a b : ℝ) (ha : Apx u (4 * j) a (P x j) (absLeg |x| j))
    (hb : Apx u (4 * (j + 1)) b (P x (j + 1)) (absLeg |x| (j + 1))) :
    ∃ j' a' b', loop0 rnd dif n x (j + 1) (a, b) = (a', b') ∧ Apx u (4 * j') a' (P x j') (absLeg |x| j') ∧ Apx u (4 * (j' + 1)) b' (P x (j' + 1)) (absLeg |x| (j' + 1)) ∧
      j' % 2 = j % 2 ∧ n ≤ j' + 1 ∧ (j' = j ∨ j' ≤ n) := by
  by_cases h : j + 1 < n
  · rw [loop0, if_pos h]
    have key : ∀ (i : Nat) {p q : ℝ}, Apx u (4 * (i + 1)) p (P x (i + 1)) (absLeg |x| (i + 1)) → Apx u (4 * i) q (P x i) (absLeg |x| i) →
        Apx u (4 * (i + 2)) (stepFl rnd dif x (2 * (i : ℝ) + 3) p ((i : ℝ) + 1) q ((i : ℝ) + 2)) (P x (i + 2)) (absLeg |x| (i + 2)) := by
      intro i p q hp hq
      have := stepFl_apx h0 hr hd (x := x) (c := 2 * (i : ℝ) + 3) (b := (i : ℝ) + 1) (e := (i : ℝ) + 2) (by positivity) (by positivity) (by positivity) hp hq (by omega)
      rw [show P x (i + 2) = ((2 * (i : ℝ) + 3) * x * P x (i + 1) - ((i : ℝ) + 1) * P x i) / ((i : ℝ) + 2) by
        rw [eq_div_iff (by positivity)]; linear_combination P_rec x i]
      rw [absLeg, show 4 * (i + 2) = 4 * (i + 1) + 4 by ring]
      exact this
    have k0 := key j hb ha
    have k1 := key (j + 1) k0 hb
    obtain ⟨j', a', b', e, h1, h2, h3, h4, h5⟩ := loop0_apx h0 hr hd n x (j + 2) _ _ k0 k1
    refine ⟨j', a', b', ?_, h1, h2, by omega, h4, by omega⟩
    rw [← e]
    have e1 : 2 * ((j + 1 : Nat) : ℝ) + 1 = 2 * (j : ℝ) + 3 := by push_cast; ring
    have e2 : ((j + 1 : Nat) : ℝ) = (j : ℝ) + 1 := by push_cast; ring
    have e3 : ((j + 1 : Nat) : ℝ) + 1 = (j : ℝ) + 2 := by push_cast; ring
    dsimp only
    rw [e1, e3, e2]
  · rw [loop0, if_neg h]
    exact ⟨j, a, b, rfl, ha, hb, rfl, by omega, Or.inl rfl⟩
termination_by n - j

/-- **C76** `legendre(n,x)` in floating point is the Legendre polynomial of degree `n` at `x` up to `(1+u)^(4n) - 1` times the sum of the absolute values of its terms -/
theorem legendre_rounded (h0 : 0 ≤ u) (hr : ∀ y, |rnd y - y| ≤ u * |y|) (hd : IsDif dif u) (n : Nat) (x : ℝ) :
    |legendreFl rnd dif n x - (legendreP ℝ n).eval x| ≤ ((1 + u) ^ (4 * n) - 1) * absLeg |x| n := by
  have p0 : P x 0 = 1 := by rw [P, legP_zero, eval_one]
  have p1 : P x 1 = x := by rw [P, legP_one, eval_X]
  have i0 : Apx u (4 * 0) 1 (P x 0) (absLeg |x| 0) := by rw [p0, absLeg]; simpa using Apx.exact u 1
  have i1 : Apx u (4 * (0 + 1)) x (P x (0 + 1)) (absLeg |x| (0 + 1)) := by
    show Apx u 4 x (P x 1) (absLeg |x| 1)
    rw [p1, absLeg]; exact (Apx.exact u x).mono h0 (by omega)
  obtain ⟨j', a', b', e, h1, h2, h3, h4, h5⟩ := loop0_apx h0 hr hd n x 0 1 x i0 i1
  rw [Nat.zero_add] at e
  rw [legendreFl, e]
  dsimp only
  show |(if n % 2 = 0 then _ else _) - P x n| ≤ _
  split_ifs with h
  · rw [show n = j' by omega]; exact h1.2
  · rw [show n = j' + 1 by omega]; exact h2.2

theorem loop1_apx (h0 : 0 ≤ u) (hr : ∀ y, |rnd y - y| ≤ u * |y|) (hd : IsDif dif u) (n : Nat) (x : ℝ) (j : Nat) (a b : ℝ) (ha : Apx u (4 * (j + 2)) a (P1 x (j + 2)) (absLeg1 |x| (j + 2)))
    (hb : Apx u (4 * (j + 1)) b (P1 x (j + 1)) (absLeg1 |x| (j + 1))) :
    ∃ j' a' b', loop1 rnd dif n x (j + 2) (a, b) = (a', b') ∧ Apx u (4 * (j' + 2)) a' (P1 x (j' + 2)) (absLeg1 |x| (j' + 2)) ∧ Apx u (4 * (j' + 1)) b' (P1 x (j' + 1)) (absLeg1 |x| (j' + 1)) ∧
      j' % 2 = j % 2 ∧ n ≤ j' + 2 ∧ (j' = j ∨ j' + 1 ≤ n) := by
  by_cases h : j + 2 < n
  · rw [loop1, if_pos h]
    have key : ∀ (i : Nat) {p q : ℝ}, Apx u (4 * (i + 1)) p (P1 x (i + 1)) (absLeg1 |x| (i + 1)) → Apx u (4 * i) q (P1 x i) (absLeg1 |x| i) →
        Apx u (4 * (i + 2)) (stepFl rnd dif x (2 * (i : ℝ) + 3) p ((i : ℝ) + 2) q ((i : ℝ) + 1)) (P1 x (i + 2)) (absLeg1 |x| (i + 2)) := by
      intro i p q hp hq
      have := stepFl_apx h0 hr hd (x := x) (c := 2 * (i : ℝ) + 3) (b := (i : ℝ) + 2) (e := (i : ℝ) + 1) (by positivity) (by positivity) (by positivity) hp hq (by omega)
      rw [show P1 x (i + 2) = ((2 * (i : ℝ) + 3) * x * P1 x (i + 1) - ((i : ℝ) + 2) * P1 x i) / ((i : ℝ) + 1) by
        rw [eq_div_iff (by positivity)]; linear_combination P1_rec x i]
      rw [absLeg1, show 4 * (i + 2) = 4 * (i + 1) + 4 by ring]
      exact this
    have k0 := key (j + 1) ha hb
    have k1 := key (j + 2) k0 ha
    obtain ⟨j', a', b', e, h1, h2, h3, h4, h5⟩ := loop1_apx h0 hr hd n x (j + 2) _ _ k1 k0
    refine ⟨j', a', b', ?_, h1, h2, by omega, h4, by omega⟩
    rw [← e]
    have c1 : 2 * ((j + 2 : Nat) : ℝ) + 1 = 2 * ((j + 1 : Nat) : ℝ) + 3 := by push_cast; ring
    have c2 : ((j + 2 : Nat) : ℝ) + 1 = ((j + 1 : Nat) : ℝ) + 2 := by push_cast; ring
    have c3 : ((j + 1 : Nat) : ℝ) + 1 = ((j + 2 : Nat) : ℝ) := by push_cast; ring
    dsimp only
    rw [c1, c3, c2]
  · rw [loop1, if_neg h]
    exact ⟨j, a, b, rfl, ha, hb, rfl, by omega, Or.inl rfl⟩
termination_by n - j

/-- **C76, derivative** `legendre_d1(n,x)` (`n>0`) -/
theorem legendre_d1_rounded (h0 : 0 ≤ u) (hr : ∀ y, |rnd y - y| ≤ u * |y|) (hd : IsDif dif u) (n : Nat) (hn : 0 < n) (x : ℝ) :
    |legendreD1Fl rnd dif n x - (derivative (legendreP ℝ n)).eval x| ≤ ((1 + u) ^ (4 * n) - 1) * absLeg1 |x| n := by
  have p2 : P1 x 2 = 3 * x := by rw [P1, legP_two, eval_mul, eval_C, eval_X]
  have p1 : P1 x 1 = 1 := by rw [P1, legP_one, derivative_X, eval_one]
  have i1 : Apx u (4 * (0 + 1)) 1 (P1 x (0 + 1)) (absLeg1 |x| (0 + 1)) := by
    show Apx u 4 1 (P1 x 1) (absLeg1 |x| 1)
    rw [p1, absLeg1]
    have : Apx u 0 1 1 1 := by simpa using Apx.exact u 1
    exact this.mono h0 (by omega)
  have i2 : Apx u (4 * (0 + 2)) (rnd (3 * x)) (P1 x (0 + 2)) (absLeg1 |x| (0 + 2)) := by
    show Apx u 8 (rnd (3 * x)) (P1 x 2) (absLeg1 |x| 2)
    have e : absLeg1 |x| 2 = |3 * x| := by
      rw [abs_mul]; norm_num [absLeg1]
    rw [p2, e]
    exact ((Apx.exact u (3 * x)).rnd h0 (hr _)).mono h0 (by omega)
  obtain ⟨j', a', b', e, h1, h2, h3, h4, h5⟩ := loop1_apx h0 hr hd n x 0 _ _ i2 i1
  rw [Nat.zero_add] at e
  rw [legendreD1Fl, e]
  dsimp only
  show |(if n % 2 = 0 then _ else _) - P1 x n| ≤ _
  split_ifs with h
  · rw [show n = j' + 2 by omega]; exact h1.2
  · rw [show n = j' + 1 by omega]; exact h2.2

/-- likewise for `P_n''` -/
noncomputable def absLeg2 (y : ℝ) : Nat → ℝ
  | 0 => 0
  | 1 => 0
  | 2 => 3
  | n + 3 => ((2 * n + 5) * y * absLeg2 y (n + 2) + (n + 4) * absLeg2 y (n + 1)) / (n + 1)

theorem loop2_apx (h0 : 0 ≤ u) (hr : ∀ y, |rnd y - y| ≤ u * |y|) (hd : IsDif dif u) (n : Nat) (x : ℝ) (j : Nat) (a b : ℝ) (ha : Apx u (4 * (j + 2)) a (P2 x (j + 2)) (absLeg2 |x| (j + 2)))
    (hb : Apx u (4 * (j + 3)) b (P2 x (j + 3)) (absLeg2 |x| (j + 3))) :
    ∃ j' a' b', loop2 rnd dif n x (j + 3) (a, b) = (a', b') ∧ Apx u (4 * (j' + 2)) a' (P2 x (j' + 2)) (absLeg2 |x| (j' + 2)) ∧ Apx u (4 * (j' + 3)) b' (P2 x (j' + 3)) (absLeg2 |x| (j' + 3)) ∧
      j' % 2 = j % 2 ∧ n ≤ j' + 3 ∧ (j' = j ∨ j' + 2 ≤ n) := by
  by_cases h : j + 3 < n
  · rw [loop2, if_pos h]
    have key : ∀ (i : Nat) {p q : ℝ}, Apx u (4 * (i + 2)) p (P2 x (i + 2)) (absLeg2 |x| (i + 2)) → Apx u (4 * (i + 1)) q (P2 x (i + 1)) (absLeg2 |x| (i + 1)) →
        Apx u (4 * (i + 3)) (stepFl rnd dif x (2 * (i : ℝ) + 5) p ((i : ℝ) + 4) q ((i : ℝ) + 1)) (P2 x (i + 3)) (absLeg2 |x| (i + 3)) := by
      intro i p q hp hq
      have := stepFl_apx h0 hr hd (x := x) (c := 2 * (i : ℝ) + 5) (b := (i : ℝ) + 4) (e := (i : ℝ) + 1) (by positivity) (by positivity) (by positivity) hp hq (by omega)
      rw [show P2 x (i + 3) = ((2 * (i : ℝ) + 5) * x * P2 x (i + 2) - ((i : ℝ) + 4) * P2 x (i + 1)) / ((i : ℝ) + 1) by
        rw [eq_div_iff (by positivity)]
        have := P2_rec x (i + 1)
        push_cast at this
        linear_combination this]
      rw [absLeg2, show 4 * (i + 3) = 4 * (i + 2) + 4 by ring]
      exact this
    have k0 := key (j + 1) hb ha
    have k1 := key (j + 2) k0 hb
    obtain ⟨j', a', b', e, h1, h2, h3, h4, h5⟩ := loop2_apx h0 hr hd n x (j + 2) _ _ k0 k1
    refine ⟨j', a', b', ?_, h1, h2, by omega, h4, by omega⟩
    rw [← e]
    have c1 : 2 * ((j + 3 : Nat) : ℝ) + 1 = 2 * ((j + 1 : Nat) : ℝ) + 5 := by push_cast; ring
    have c2 : ((j + 3 : Nat) : ℝ) + 2 = ((j + 1 : Nat) : ℝ) + 4 := by push_cast; ring
    have c3 : ((j + 3 : Nat) : ℝ) - 1 = ((j + 1 : Nat) : ℝ) + 1 := by push_cast; ring
    have c4 : 2 * ((j + 3 : Nat) : ℝ) + 3 = 2 * ((j + 2 : Nat) : ℝ) + 5 := by push_cast; ring
    have c5 : ((j + 3 : Nat) : ℝ) + 3 = ((j + 2 : Nat) : ℝ) + 4 := by push_cast; ring
    have c6 : ((j + 3 : Nat) : ℝ) = ((j + 2 : Nat) : ℝ) + 1 := by push_cast; ring
    dsimp only
    rw [c1, c2, c3, c4, c5, c6]
  · rw [loop2, if_neg h]
    exact ⟨j, a, b, rfl, ha, hb, rfl, by omega, Or.inl rfl⟩
termination_by n - j

/-- **C76, second derivative** `legendre_d2(n,x)` (`n>1`) -/
theorem legendre_d2_rounded (h0 : 0 ≤ u) (hr : ∀ y, |rnd y - y| ≤ u * |y|) (hd : IsDif dif u) (n : Nat) (hn : 1 < n) (x : ℝ) :
    |legendreD2Fl rnd dif n x - (derivative (derivative (legendreP ℝ n))).eval x| ≤ ((1 + u) ^ (4 * n) - 1) * absLeg2 |x| n := by
  have p2 : P2 x 2 = 3 := by rw [P2, legP_two, derivative_C_mul, derivative_X, mul_one, eval_C]
  have p3 : P2 x 3 = 15 * x := by rw [P2, legP_three, eval_mul, eval_C, eval_X]
  have i2 : Apx u (4 * (0 + 2)) 3 (P2 x (0 + 2)) (absLeg2 |x| (0 + 2)) := by
    show Apx u 8 3 (P2 x 2) (absLeg2 |x| 2)
    rw [p2, absLeg2]
    have : Apx u 0 3 3 3 := by simpa using Apx.exact u 3
    exact this.mono h0 (by omega)
  have i3 : Apx u (4 * (0 + 3)) (rnd (15 * x)) (P2 x (0 + 3)) (absLeg2 |x| (0 + 3)) := by
    show Apx u 12 (rnd (15 * x)) (P2 x 3) (absLeg2 |x| 3)
    have e : absLeg2 |x| 3 = |15 * x| := by
      rw [abs_mul]; norm_num [absLeg2]; ring
    rw [p3, e]
    exact ((Apx.exact u (15 * x)).rnd h0 (hr _)).mono h0 (by omega)
  obtain ⟨j', a', b', e, h1, h2, h3, h4, h5⟩ := loop2_apx h0 hr hd n x 0 _ _ i2 i3
  rw [Nat.zero_add] at e
  rw [legendreD2Fl, e]
  dsimp only
  show |(if n % 2 = 0 then _ else _) - P2 x n| ≤ _
  split_ifs with h
  · rw [show n = j' + 2 by omega]; exact h1.2
  · rw [show n = j' + 3 by omega]; exact h2.2

/-- the hypotheses are met: arithmetic that is always off by 1%, second degree; at `x = 1/2` the polynomial is `-1/8` and the bound has the factor `7/8` -/
example : |legendreFl (K := ℝ) (fun y => y * (101 / 100)) (fun y p b q => (y * p * (101 / 100) - b * q * (101 / 100)) * (101 / 100)) 2 (1 / 2) - (-1 / 8)| ≤ ((1 + 1 / 100 : ℝ) ^ 8 - 1) * (7 / 8) := by
  have hr : ∀ y : ℝ, |y * (101 / 100) - y| ≤ 1 / 100 * |y| := fun y => by
    rw [show y * (101 / 100) - y = 1 / 100 * y by ring, abs_mul, abs_of_pos (by norm_num : (0 : ℝ) < 1 / 100)]
  have := legendre_rounded (by norm_num) hr (dif := fun y p b q => (y * p * (101 / 100) - b * q * (101 / 100)) * (101 / 100)) (fun y p b q => ⟨_, _, hr _, hr _, hr _⟩) 2 (1 / 2)
  have e : (legendreP ℝ 2).eval (1 / 2) = -1 / 8 := by
    have := P_rec (1 / 2 : ℝ) 0
    have p0 : P (1 / 2 : ℝ) 0 = 1 := by rw [P, legP_zero, eval_one]
    have p1 : P (1 / 2 : ℝ) 1 = 1 / 2 := by rw [P, legP_one, eval_X]
    change P (1 / 2 : ℝ) 2 = _
    norm_num [p0, p1] at this
    linarith
  rw [e, abs_of_pos (by norm_num : (0 : ℝ) < 1 / 2)] at this
  have ea : absLeg (1 / 2) 2 = 7 / 8 := by norm_num [absLeg]
  rw [ea] at this
  exact this

end Gslib.Props
