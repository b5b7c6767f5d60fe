import Verif.Lemmas.LobSetup

/-!
# The table of `lob_bnd_setup` for polynomials of degree at most 2
-/

namespace Gslib.Lob
open Gslib.Num Gslib.Poly Gslib.Spec Finset Polynomial
variable {K : Type} [Field K] [LinearOrder K] [IsStrictOrderedRing K]

/-- `c0 + c1 x + a x^2` -/
def quad (c0 c1 a x : K) : K := c0 + c1 * x + a * x ^ 2

/-- the pair stored at node `j` for a polynomial of degree at most 2 -/
def quadVal (m : Nat) (h : Nat → K) (c0 c1 a : K) (j : Nat) : K × K :=
  if j = 0 ∨ j = m - 1 then (quad c0 c1 a (h j), quad c0 c1 a (h j)) else
  nodeBounds (h j) ((h j + h (j - 1)) / 2) ((h j + h (j + 1)) / 2) (quad c0 c1 a ((h j + h (j - 1)) / 2)) (c1 + 2 * a * ((h j + h (j - 1)) / 2))
    (quad c0 c1 a ((h j + h (j + 1)) / 2)) (c1 + 2 * a * ((h j + h (j + 1)) / 2)) (quad c0 c1 a (h j))

theorem nodeBounds_le (x xl xr pl dl pr dr p : K) : let b := nodeBounds x xl xr pl dl pr dr p
    (b.1 ≤ p ∧ b.1 ≤ pl + (x - xl) * dl ∧ b.1 ≤ pr + (x - xr) * dr) ∧ (p ≤ b.2 ∧ pl + (x - xl) * dl ≤ b.2 ∧ pr + (x - xr) * dr ≤ b.2) := by
  dsimp only
  unfold nodeBounds
  dsimp only
  generalize pl + (x - xl) * dl = cl
  generalize pr + (x - xr) * dr = cr
  by_cases h1 : cl < cr
  · simp only [if_pos h1]
    refine ⟨?_, ?_⟩
    · split_ifs with h2
      · exact ⟨le_refl _, h2.le, (h2.trans h1).le⟩
      · exact ⟨not_lt.1 h2, le_refl _, h1.le⟩
    · split_ifs with h2
      · exact ⟨le_refl _, (h1.trans h2).le, h2.le⟩
      · exact ⟨not_lt.1 h2, h1.le, le_refl _⟩
  · simp only [if_neg h1]
    have h1 := not_lt.1 h1
    refine ⟨?_, ?_⟩
    · split_ifs with h2
      · exact ⟨le_refl _, h2.le.trans h1, h2.le⟩
      · exact ⟨not_lt.1 h2, h1, le_refl _⟩
    · split_ifs with h2
      · exact ⟨le_refl _, h2.le, h1.trans h2.le⟩
      · exact ⟨not_lt.1 h2, le_refl _, h1⟩

/-- at every node the pair encloses the value; at interior nodes also the value minus `a` times the squared half length of either adjacent segment -/
theorem quadVal_le (m : Nat) (h : Nat → K) (c0 c1 a : K) (j : Nat) :
    ((quadVal m h c0 c1 a j).1 ≤ quad c0 c1 a (h j) ∧ quad c0 c1 a (h j) ≤ (quadVal m h c0 c1 a j).2) ∧
    (j ≠ 0 → j ≠ m - 1 → ((quadVal m h c0 c1 a j).1 ≤ quad c0 c1 a (h j) - a * ((h j - h (j - 1)) / 2) ^ 2 ∧ quad c0 c1 a (h j) - a * ((h j - h (j - 1)) / 2) ^ 2 ≤ (quadVal m h c0 c1 a j).2) ∧
      ((quadVal m h c0 c1 a j).1 ≤ quad c0 c1 a (h j) - a * ((h (j + 1) - h j) / 2) ^ 2 ∧ quad c0 c1 a (h j) - a * ((h (j + 1) - h j) / 2) ^ 2 ≤ (quadVal m h c0 c1 a j).2)) := by
  by_cases hj : j = 0 ∨ j = m - 1
  · refine ⟨?_, fun h1 h2 => by omega⟩
    rw [quadVal, if_pos hj]
    exact ⟨le_refl _, le_refl _⟩
  · have := nodeBounds_le (h j) ((h j + h (j - 1)) / 2) ((h j + h (j + 1)) / 2) (quad c0 c1 a ((h j + h (j - 1)) / 2)) (c1 + 2 * a * ((h j + h (j - 1)) / 2))
      (quad c0 c1 a ((h j + h (j + 1)) / 2)) (c1 + 2 * a * ((h j + h (j + 1)) / 2)) (quad c0 c1 a (h j))
    dsimp only at this
    rw [quadVal, if_neg hj]
    obtain ⟨⟨a1, a2, a3⟩, b1, b2, b3⟩ := this
    have e1 : quad c0 c1 a ((h j + h (j - 1)) / 2) + (h j - (h j + h (j - 1)) / 2) * (c1 + 2 * a * ((h j + h (j - 1)) / 2)) = quad c0 c1 a (h j) - a * ((h j - h (j - 1)) / 2) ^ 2 := by
      unfold quad; ring
    have e2 : quad c0 c1 a ((h j + h (j + 1)) / 2) + (h j - (h j + h (j + 1)) / 2) * (c1 + 2 * a * ((h j + h (j + 1)) / 2)) = quad c0 c1 a (h j) - a * ((h (j + 1) - h j) / 2) ^ 2 := by
      unfold quad; ring
    rw [e1] at a2 b2
    rw [e2] at a3 b3
    exact ⟨⟨a1, b1⟩, fun _ _ => ⟨⟨a2, b2⟩, a3, b3⟩⟩

theorem quad_plin (c0 c1 a x y t : K) : quad c0 c1 a ((1 - t) * x + t * y) = (1 - t) * quad c0 c1 a x + t * quad c0 c1 a y - a * (t * (1 - t)) * (y - x) ^ 2 := by
  unfold quad; ring

/-- one segment: pairs `p`, `q` at its ends enclose the values there, and the values minus `a d P`, `a d Q`; enough if the average of `P` and `Q` is large enough -/
theorem quad_segment {c0 c1 a x y t P Q : K} {p q : K × K} (h0 : 0 ≤ t) (h1 : t ≤ 1)
    (hp : p.1 ≤ quad c0 c1 a x ∧ quad c0 c1 a x ≤ p.2) (hq : q.1 ≤ quad c0 c1 a y ∧ quad c0 c1 a y ≤ q.2)
    (hp' : p.1 ≤ quad c0 c1 a x - a * P ∧ quad c0 c1 a x - a * P ≤ p.2) (hq' : q.1 ≤ quad c0 c1 a y - a * Q ∧ quad c0 c1 a y - a * Q ≤ q.2)
    (hPQ : t * (1 - t) * (y - x) ^ 2 ≤ (1 - t) * P + t * Q) :
    (1 - t) * p.1 + t * q.1 ≤ quad c0 c1 a ((1 - t) * x + t * y) ∧ quad c0 c1 a ((1 - t) * x + t * y) ≤ (1 - t) * p.2 + t * q.2 := by
  rw [quad_plin]
  have s0 : 0 ≤ 1 - t := sub_nonneg.2 h1
  generalize quad c0 c1 a x = X at *
  generalize quad c0 c1 a y = Y at *
  have hpos : 0 ≤ t * (1 - t) * (y - x) ^ 2 := mul_nonneg (mul_nonneg h0 s0) (sq_nonneg _)
  have m1 := mul_le_mul_of_nonneg_left hp.1 s0
  have m2 := mul_le_mul_of_nonneg_left hp.2 s0
  have m3 := mul_le_mul_of_nonneg_left hq.1 h0
  have m4 := mul_le_mul_of_nonneg_left hq.2 h0
  have n1 := mul_le_mul_of_nonneg_left hp'.1 s0
  have n2 := mul_le_mul_of_nonneg_left hp'.2 s0
  have n3 := mul_le_mul_of_nonneg_left hq'.1 h0
  have n4 := mul_le_mul_of_nonneg_left hq'.2 h0
  rcases le_total 0 a with ha | ha
  · have k1 := mul_nonneg ha hpos
    have k2 := mul_le_mul_of_nonneg_left hPQ ha
    constructor <;> nlinarith
  · have k1 := mul_nonneg (neg_nonneg.2 ha) hpos
    have k2 := mul_le_mul_of_nonneg_left hPQ (neg_nonneg.2 ha)
    constructor <;> nlinarith

/-- the spacing under which the table is valid for polynomials of degree 2: the first and last segments are at most half as long as their neighbours -/
structure EndSpacing (m : Nat) (h : Nat → K) : Prop where
  four : 4 ≤ m
  left : 2 * (h 1 - h 0) ≤ h 2 - h 1
  left0 : 0 ≤ h 1 - h 0
  right : 2 * (h (m - 1) - h (m - 2)) ≤ h (m - 2) - h (m - 3)
  right0 : 0 ≤ h (m - 1) - h (m - 2)

theorem quad_valid {m : Nat} {h : Nat → K} (hs : EndSpacing m h) (c0 c1 a : K) : PLBounds m h (quadVal m h c0 c1 a) (quad c0 c1 a) := by
  intro j hj t h0 h1
  have s0 : 0 ≤ 1 - t := sub_nonneg.2 h1
  have h4 := hs.four
  have hp := quadVal_le m h c0 c1 a j
  have hq := quadVal_le m h c0 c1 a (j + 1)
  unfold plin
  by_cases hj0 : j = 0
  · subst hj0
    have hq' := (hq.2 (by omega) (by omega)).2
    refine quad_segment (P := 0) (Q := ((h (0 + 1 + 1) - h (0 + 1)) / 2) ^ 2) h0 h1 hp.1 hq.1 (by rw [mul_zero, sub_zero]; exact hp.1) hq' ?_
    have l0 := hs.left0
    have hl : h 1 - h 0 ≤ (h 2 - h 1) / 2 := by linarith [hs.left]
    have : (h 1 - h 0) ^ 2 ≤ ((h 2 - h 1) / 2) ^ 2 := pow_le_pow_left₀ l0 hl 2
    have k1 := mul_le_mul_of_nonneg_left this h0
    have k2 := mul_nonneg (mul_nonneg h0 h0) (sq_nonneg (h 1 - h 0))
    show t * (1 - t) * (h 1 - h 0) ^ 2 ≤ (1 - t) * 0 + t * ((h 2 - h 1) / 2) ^ 2
    nlinarith
  · by_cases hj1 : j + 1 = m - 1
    · have hp' := (hp.2 (by omega) (by omega)).1
      have e : m - 2 = j := by omega
      have e' : m - 3 = j - 1 := by omega
      have l0 := hs.right0
      have hl := hs.right
      rw [← hj1, e] at l0
      rw [← hj1, e, e'] at hl
      refine quad_segment (P := ((h j - h (j - 1)) / 2) ^ 2) (Q := 0) h0 h1 hp.1 hq.1 hp' (by rw [mul_zero, sub_zero]; exact hq.1) ?_
      have hl : h (j + 1) - h j ≤ (h j - h (j - 1)) / 2 := by linarith
      have : (h (j + 1) - h j) ^ 2 ≤ ((h j - h (j - 1)) / 2) ^ 2 := pow_le_pow_left₀ l0 hl 2
      have k1 := mul_le_mul_of_nonneg_left this s0
      have k2 := mul_nonneg (mul_nonneg s0 s0) (sq_nonneg (h (j + 1) - h j))
      nlinarith
    · have hp' := (hp.2 (by omega) (by omega)).2
      have hq' := (hq.2 (by omega) (by omega)).1
      rw [Nat.add_sub_cancel] at hq'
      refine quad_segment (P := ((h (j + 1) - h j) / 2) ^ 2) (Q := ((h (j + 1) - h j) / 2) ^ 2) h0 h1 hp.1 hq.1 hp' hq' ?_
      have := mul_nonneg (sq_nonneg (1 - 2 * t)) (sq_nonneg (h (j + 1) - h j))
      nlinarith

/-- degree 1: no condition on the spacing -/
theorem lin_valid {m : Nat} {h : Nat → K} (c0 c1 : K) : PLBounds m h (quadVal m h c0 c1 0) (quad c0 c1 0) := by
  intro j hj t h0 h1
  have s0 : 0 ≤ 1 - t := sub_nonneg.2 h1
  have hp := quadVal_le m h c0 c1 0 j
  have hq := quadVal_le m h c0 c1 0 (j + 1)
  unfold plin
  refine quad_segment (P := (h (j + 1) - h j) ^ 2) (Q := (h (j + 1) - h j) ^ 2) h0 h1 hp.1 hq.1 (by rw [zero_mul, sub_zero]; exact hp.1) (by rw [zero_mul, sub_zero]; exact hq.1) ?_
  have := mul_nonneg (mul_nonneg h0 h0) (sq_nonneg (h (j + 1) - h j))
  have := mul_nonneg (mul_nonneg s0 s0) (sq_nonneg (h (j + 1) - h j))
  have := mul_nonneg (mul_nonneg h0 s0) (sq_nonneg (h (j + 1) - h j))
  nlinarith

end Gslib.Lob
