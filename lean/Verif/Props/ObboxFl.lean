import Verif.Model.ObboxFl
import Verif.Props.LobValid
import Verif.Props.LagFl

/-!
# C73: the bounding box test in floating point
-/

namespace Gslib.Props
open Gslib.Spec Gslib.Obb Gslib.Num Gslib.Poly Gslib.Lob Finset
open Gslib.TensorFl (IsFma Apx)

/-- `p` is in the box `x[c].min <= p[c] <= x[c].max` and `|A (p - c0)| <= 1 + w |A| |p - c0|` in all `d` coordinates; with negative `w` the parallelogram is shrunk -/
def InBoxUpTo (d : Nat) (w : ℝ) (c0 : Nat → ℝ) (A : Nat → Nat → ℝ) (x : Nat → ℝ × ℝ) (p : Nat → ℝ) : Prop :=
  ∀ c < d, ((x c).1 ≤ p c ∧ p c ≤ (x c).2) ∧ |∑ e ∈ range d, A c e * (p e - c0 e)| ≤ 1 + w * ∑ e ∈ range d, |A c e| * |p e - c0 e|

/-- with `w = 0` this is the exact test -/
theorem inBoxUpTo_zero {d : Nat} {c0 : Nat → ℝ} {A : Nat → Nat → ℝ} {x : Nat → ℝ × ℝ} {p : Nat → ℝ} : InBoxUpTo d 0 c0 A x p ↔ InBox d c0 A x p := by
  unfold InBoxUpTo InBox
  simp [abs_le]

theorem rnd_nonneg {rnd : ℝ → ℝ} {u : ℝ} (h1 : u < 1) (hr : ∀ y, |rnd y - y| ≤ u * |y|) (y : ℝ) : 0 ≤ rnd y ↔ 0 ≤ y := by
  have h := abs_le.1 (hr y)
  constructor
  · intro h0
    by_contra hy
    rw [abs_of_neg (not_le.1 hy)] at h
    nlinarith
  · intro h0
    rw [abs_of_nonneg h0] at h
    nlinarith

theorem rnd_nonpos {rnd : ℝ → ℝ} {u : ℝ} (h1 : u < 1) (hr : ∀ y, |rnd y - y| ≤ u * |y|) (y : ℝ) : rnd y ≤ 0 ↔ y ≤ 0 := by
  have h := abs_le.1 (hr y)
  constructor
  · intro h0
    by_contra hy
    rw [abs_of_pos (not_le.1 hy)] at h
    nlinarith
  · intro h0
    rw [abs_of_nonpos h0] at h
    nlinarith

/-- the rounded product has the sign of the exact one -/
theorem rnd_range {rnd : ℝ → ℝ} {u : ℝ} (h1 : u < 1) (hr : ∀ y, |rnd y - y| ≤ u * |y|) {a b x : ℝ} (h : a ≤ b) : 0 ≤ rnd (rnd (x - a) * rnd (b - x)) ↔ a ≤ x ∧ x ≤ b := by
  rw [rnd_nonneg h1 hr, ← mul_range h, mul_nonneg_iff, mul_nonneg_iff, rnd_nonneg h1 hr, rnd_nonneg h1 hr, rnd_nonpos h1 hr, rnd_nonpos h1 hr]

theorem rnd_unit {rnd : ℝ → ℝ} {u : ℝ} (h1 : u < 1) (hr : ∀ y, |rnd y - y| ≤ u * |y|) (r : ℝ) : 0 ≤ rnd (rnd (r + 1) * rnd (1 - r)) ↔ |r| ≤ 1 := by
  have := rnd_range h1 hr (a := -1) (b := 1) (x := r) (by norm_num)
  rwa [sub_neg_eq_add, ← abs_le] at this

theorem ite_nonneg {a b : ℝ} : 0 ≤ (if a < 0 then a else b) ↔ 0 ≤ a ∧ 0 ≤ b := by
  split_ifs with h
  · exact ⟨fun h' => absurd h (not_lt.2 h'), fun h' => h'.1⟩
  · exact ⟨fun h' => ⟨not_lt.1 h, h'⟩, fun h' => h'.2⟩

theorem apx_dots {rnd : ℝ → ℝ} {u : ℝ} (h0 : 0 ≤ u) (hr : ∀ y, |rnd y - y| ≤ u * |y|) (d k : Nat) (a y c : Nat → ℝ) {v : ℝ}
    (hv : |v - ∑ e ∈ range d, a e * rnd (y e - c e)| ≤ ((1 + u) ^ k - 1) * ∑ e ∈ range d, |a e * rnd (y e - c e)|) :
    |v - ∑ e ∈ range d, a e * (y e - c e)| ≤ ((1 + u) ^ (k + 1) - 1) * ∑ e ∈ range d, |a e| * |y e - c e| := by
  have hd : ∀ e < d, Apx u 1 (a e * rnd (y e - c e)) (a e * (y e - c e)) (|a e| * |y e - c e|) := by
    intro e _
    have := ((Apx.exact u (y e - c e)).rnd h0 (hr _)).mul (a e)
    rwa [mul_comm (rnd _), mul_comm (y e - c e), mul_comm |y e - c e|] at this
  have e2 : ∀ e < d, Apx u 1 |a e * rnd (y e - c e)| (|a e| * |y e - c e|) (|a e| * |y e - c e|) := by
    intro e he
    have := apx_abs (hd e he)
    rwa [abs_mul (a e) (y e - c e)] at this
  exact Apx.trans h0 hv (Apx.sum hd) (Apx.sum e2)

/-- **C73, 2D**: `obbox_test_2` in floating point never rejects a point that satisfies the inequalities of the stored box with a margin of `((1+u)^3-1) |A||x-c0|` in the parallelogram, and never accepts one that violates them by more than that; the axis-aligned part is exact. `dot2` is any evaluation of `a b + c d` with at most two roundings per term -/
theorem obbox_test_rounded_2 {rnd : ℝ → ℝ} {dot2 : ℝ → ℝ → ℝ → ℝ → ℝ} {u : ℝ} (h0 : 0 ≤ u) (h1 : u < 1) (hr : ∀ y, |rnd y - y| ≤ u * |y|)
    (hd : ∀ a x b y, |dot2 a x b y - (a * x + b * y)| ≤ ((1 + u) ^ 2 - 1) * (|a * x| + |b * y|)) (b : Box ℝ) (hb : ∀ c < 2, (b.x c).1 ≤ (b.x c).2) (p : Nat → ℝ) :
    (InBoxUpTo 2 (-((1 + u) ^ 3 - 1)) b.c0 b.A b.x p → 0 ≤ testFl2 rnd dot2 b p) ∧ (0 ≤ testFl2 rnd dot2 b p → InBoxUpTo 2 ((1 + u) ^ 3 - 1) b.c0 b.A b.x p) := by
  have key : ∀ c, |dot2 (b.A c 0) (rnd (p 0 - b.c0 0)) (b.A c 1) (rnd (p 1 - b.c0 1)) - ∑ e ∈ range 2, b.A c e * (p e - b.c0 e)|
      ≤ ((1 + u) ^ 3 - 1) * ∑ e ∈ range 2, |b.A c e| * |p e - b.c0 e| := fun c => by
    refine apx_dots h0 hr 2 2 (b.A c) p b.c0 ?_
    simp only [sum_range_succ, sum_range_zero, zero_add]
    exact hd _ _ _ _
  have iff : 0 ≤ testFl2 rnd dot2 b p ↔ ∀ c < 2, ((b.x c).1 ≤ p c ∧ p c ≤ (b.x c).2) ∧ |dot2 (b.A c 0) (rnd (p 0 - b.c0 0)) (b.A c 1) (rnd (p 1 - b.c0 1))| ≤ 1 := by
    unfold testFl2 axisTestFl2
    dsimp only
    rw [ite_nonneg, ite_nonneg, ite_nonneg, rnd_unit h1 hr, rnd_unit h1 hr, rnd_range h1 hr (hb 0 (by omega)), rnd_range h1 hr (hb 1 (by omega))]
    constructor
    · rintro ⟨⟨h1, h2⟩, h3, h4⟩ c hc
      have : c = 0 ∨ c = 1 := by omega
      rcases this with rfl | rfl
      · exact ⟨h1, h3⟩
      · exact ⟨h2, h4⟩
    · intro h
      exact ⟨⟨(h 0 (by omega)).1, (h 1 (by omega)).1⟩, (h 0 (by omega)).2, (h 1 (by omega)).2⟩
  rw [iff]
  constructor <;> intro h c hc
  · refine ⟨(h c hc).1, ?_⟩
    have a1 := (h c hc).2
    have a2 := abs_sub_abs_le_abs_sub (dot2 (b.A c 0) (rnd (p 0 - b.c0 0)) (b.A c 1) (rnd (p 1 - b.c0 1))) (∑ e ∈ range 2, b.A c e * (p e - b.c0 e))
    have a3 := key c
    rw [neg_mul] at a1
    linarith
  · refine ⟨(h c hc).1, ?_⟩
    have a1 := (h c hc).2
    have a2 := abs_sub_abs_le_abs_sub (∑ e ∈ range 2, b.A c e * (p e - b.c0 e)) (dot2 (b.A c 0) (rnd (p 0 - b.c0 0)) (b.A c 1) (rnd (p 1 - b.c0 1)))
    have a3 := key c
    rw [abs_sub_comm] at a3
    linarith

/-- **C73, 3D**: `obbox_test_3` likewise, with `(1+u)^4-1` -/
theorem obbox_test_rounded_3 {rnd : ℝ → ℝ} {dot3 : ℝ → ℝ → ℝ → ℝ → ℝ → ℝ → ℝ} {u : ℝ} (h0 : 0 ≤ u) (h1 : u < 1) (hr : ∀ y, |rnd y - y| ≤ u * |y|)
    (hd : ∀ a x b y c z, |dot3 a x b y c z - (a * x + b * y + c * z)| ≤ ((1 + u) ^ 3 - 1) * (|a * x| + |b * y| + |c * z|)) (b : Box ℝ) (hb : ∀ c < 3, (b.x c).1 ≤ (b.x c).2) (p : Nat → ℝ) :
    (InBoxUpTo 3 (-((1 + u) ^ 4 - 1)) b.c0 b.A b.x p → 0 ≤ testFl3 rnd dot3 b p) ∧ (0 ≤ testFl3 rnd dot3 b p → InBoxUpTo 3 ((1 + u) ^ 4 - 1) b.c0 b.A b.x p) := by
  have key : ∀ c, |dot3 (b.A c 0) (rnd (p 0 - b.c0 0)) (b.A c 1) (rnd (p 1 - b.c0 1)) (b.A c 2) (rnd (p 2 - b.c0 2)) - ∑ e ∈ range 3, b.A c e * (p e - b.c0 e)|
      ≤ ((1 + u) ^ 4 - 1) * ∑ e ∈ range 3, |b.A c e| * |p e - b.c0 e| := fun c => by
    refine apx_dots h0 hr 3 3 (b.A c) p b.c0 ?_
    simp only [sum_range_succ, sum_range_zero, zero_add]
    exact hd _ _ _ _ _ _
  have iff : 0 ≤ testFl3 rnd dot3 b p ↔ ∀ c < 3, ((b.x c).1 ≤ p c ∧ p c ≤ (b.x c).2) ∧
      |dot3 (b.A c 0) (rnd (p 0 - b.c0 0)) (b.A c 1) (rnd (p 1 - b.c0 1)) (b.A c 2) (rnd (p 2 - b.c0 2))| ≤ 1 := by
    unfold testFl3 axisTestFl3
    dsimp only
    rw [ite_nonneg, ite_nonneg, ite_nonneg, ite_nonneg, ite_nonneg, rnd_unit h1 hr, rnd_unit h1 hr, rnd_unit h1 hr, rnd_range h1 hr (hb 0 (by omega)), rnd_range h1 hr (hb 1 (by omega)),
      rnd_range h1 hr (hb 2 (by omega))]
    constructor
    · rintro ⟨⟨h1, h2, h3⟩, h4, h5, h6⟩ c hc
      have : c = 0 ∨ c = 1 ∨ c = 2 := by omega
      rcases this with rfl | rfl | rfl
      · exact ⟨h1, h4⟩
      · exact ⟨h2, h5⟩
      · exact ⟨h3, h6⟩
    · intro h
      exact ⟨⟨(h 0 (by omega)).1, (h 1 (by omega)).1, (h 2 (by omega)).1⟩, (h 0 (by omega)).2, (h 1 (by omega)).2, (h 2 (by omega)).2⟩
  rw [iff]
  constructor <;> intro h c hc
  · refine ⟨(h c hc).1, ?_⟩
    have a1 := (h c hc).2
    have a2 := abs_sub_abs_le_abs_sub (dot3 (b.A c 0) (rnd (p 0 - b.c0 0)) (b.A c 1) (rnd (p 1 - b.c0 1)) (b.A c 2) (rnd (p 2 - b.c0 2))) (∑ e ∈ range 3, b.A c e * (p e - b.c0 e))
    have a3 := key c
    rw [neg_mul] at a1
    linarith
  · refine ⟨(h c hc).1, ?_⟩
    have a1 := (h c hc).2
    have a2 := abs_sub_abs_le_abs_sub (∑ e ∈ range 3, b.A c e * (p e - b.c0 e)) (dot3 (b.A c 0) (rnd (p 0 - b.c0 0)) (b.A c 1) (rnd (p 1 - b.c0 1)) (b.A c 2) (rnd (p 2 - b.c0 2)))
    have a3 := key c
    rw [abs_sub_comm] at a3
    linarith

/-- evaluating `a b + c d` with or without a fused multiply-add meets the hypothesis of C73 -/
theorem dot2_ok {step : ℝ → ℝ → ℝ → ℝ} {mul : ℝ → ℝ → ℝ} {u : ℝ} (hf : IsFma step mul u) (a x b y : ℝ) :
    |step (mul a x) b y - (a * x + b * y)| ≤ ((1 + u) ^ 2 - 1) * (|a * x| + |b * y|) := by
  have h1 := (Apx.exact u (a * x)).rnd hf.u0 (hf.mul a x)
  obtain ⟨m, hm, hs⟩ := hf.step (mul a x) b y
  exact ((h1.add ((Apx.exact u (b * y)).rnd hf.u0 hm)).rnd hf.u0 hs).2

theorem dot3_ok {step : ℝ → ℝ → ℝ → ℝ} {mul : ℝ → ℝ → ℝ} {u : ℝ} (hf : IsFma step mul u) (a x b y c z : ℝ) :
    |step (step (mul a x) b y) c z - (a * x + b * y + c * z)| ≤ ((1 + u) ^ 3 - 1) * (|a * x| + |b * y| + |c * z|) := by
  have h1 := (Apx.exact u (a * x)).rnd hf.u0 (hf.mul a x)
  obtain ⟨m, hm, hs⟩ := hf.step (mul a x) b y
  have h2 := (h1.add ((Apx.exact u (b * y)).rnd hf.u0 hm)).rnd hf.u0 hs
  obtain ⟨m', hm', hs'⟩ := hf.step (step (mul a x) b y) c z
  exact ((h2.add (((Apx.exact u (c * z)).rnd hf.u0 hm').mono hf.u0 (by omega : 1 ≤ 2))).rnd hf.u0 hs').2

/-- **C73**: a point of the box before it is enlarged by the relative tolerance `tol` (so `|A (x - c0)| <= 1/(1+tol)`) passes the test in floating point if `(1+tol) ((1+u)^3-1) |A||x-c0| <= tol` -/
theorem obbox_test_tolerance_2 {rnd : ℝ → ℝ} {dot2 : ℝ → ℝ → ℝ → ℝ → ℝ} {u tol : ℝ} (h0 : 0 ≤ u) (h1 : u < 1) (ht : 0 ≤ tol) (hr : ∀ y, |rnd y - y| ≤ u * |y|)
    (hd : ∀ a x b y, |dot2 a x b y - (a * x + b * y)| ≤ ((1 + u) ^ 2 - 1) * (|a * x| + |b * y|)) (b : Box ℝ) (p : Nat → ℝ)
    (hx : ∀ c < 2, (b.x c).1 ≤ p c ∧ p c ≤ (b.x c).2) (hA : ∀ c < 2, |∑ e ∈ range 2, b.A c e * (p e - b.c0 e)| ≤ 1 / (1 + tol))
    (hs : ∀ c < 2, (1 + tol) * (((1 + u) ^ 3 - 1) * ∑ e ∈ range 2, |b.A c e| * |p e - b.c0 e|) ≤ tol) : 0 ≤ testFl2 rnd dot2 b p := by
  refine (obbox_test_rounded_2 h0 h1 hr hd b (fun c hc => (hx c hc).1.trans (hx c hc).2) p).1 fun c hc => ⟨hx c hc, ?_⟩
  have e : (1 : ℝ) = 1 / (1 + tol) + tol / (1 + tol) := by field_simp
  have := (le_div_iff₀' (by linarith : 0 < 1 + tol)).2 (hs c hc)
  have := hA c hc
  linarith

/-- **C73** likewise in 3D -/
theorem obbox_test_tolerance_3 {rnd : ℝ → ℝ} {dot3 : ℝ → ℝ → ℝ → ℝ → ℝ → ℝ → ℝ} {u tol : ℝ} (h0 : 0 ≤ u) (h1 : u < 1) (ht : 0 ≤ tol) (hr : ∀ y, |rnd y - y| ≤ u * |y|)
    (hd : ∀ a x b y c z, |dot3 a x b y c z - (a * x + b * y + c * z)| ≤ ((1 + u) ^ 3 - 1) * (|a * x| + |b * y| + |c * z|)) (b : Box ℝ) (p : Nat → ℝ)
    (hx : ∀ c < 3, (b.x c).1 ≤ p c ∧ p c ≤ (b.x c).2) (hA : ∀ c < 3, |∑ e ∈ range 3, b.A c e * (p e - b.c0 e)| ≤ 1 / (1 + tol))
    (hs : ∀ c < 3, (1 + tol) * (((1 + u) ^ 4 - 1) * ∑ e ∈ range 3, |b.A c e| * |p e - b.c0 e|) ≤ tol) : 0 ≤ testFl3 rnd dot3 b p := by
  refine (obbox_test_rounded_3 h0 h1 hr hd b (fun c hc => (hx c hc).1.trans (hx c hc).2) p).1 fun c hc => ⟨hx c hc, ?_⟩
  have e : (1 : ℝ) = 1 / (1 + tol) + tol / (1 + tol) := by field_simp
  have := (le_div_iff₀' (by linarith : 0 < 1 + tol)).2 (hs c hc)
  have := hA c hc
  linarith

/-- **C73, 2D**, from the mesh to the test: every point of an element with nonzero Jacobian inside passes `obbox_test_2` in floating point for the box of `obbox_calc_2` (computed exactly), if the rounding errors are within the tolerance -/
theorem obbox_calc_test_rounded_2 (fuel : Nat) (eps : ℝ) (guess : Nat → Nat → ℝ) {nr mr ns ms nel ucap : Nat} (hnr : 2 ≤ nr) (hnr' : nr ≤ 24) (hmr : 4 * nr ≤ mr)
    (hns : 2 ≤ ns) (hns' : ns ≤ 24) (hms : 4 * ns ≤ ms)
    {tol : ℝ} (htol : 0 ≤ tol) {el : Nat → Mem ℝ} {X : Nat → Nat → ℝ} (hel : ∀ c < 2, Has (el c) 0 (nel * (nr * ns)) (X c)) (hcap : nel * (nr * ns) ≤ ucap)
    (hjac : ∀ e < nel, ∀ r s, -1 < r → r < 1 → -1 < s → s < 1 → jac2 (fun c => poly2 nr (fixVal nr) ns (fixVal ns) fun i => X c (e * (nr * ns) + i)) r s ≠ 0)
    {rnd : ℝ → ℝ} {dot2 : ℝ → ℝ → ℝ → ℝ → ℝ} {u : ℝ} (h0 : 0 ≤ u) (h1 : u < 1) (hr : ∀ y, |rnd y - y| ≤ u * |y|)
    (hd : ∀ a x b y, |dot2 a x b y - (a * x + b * y)| ≤ ((1 + u) ^ 2 - 1) * (|a * x| + |b * y|)) :
    ∃ out, calc2 fuel eps guess cheb nr mr ns ms nel tol ucap el = some out ∧ ∀ e < nel, ∃ b, out e = some b ∧
      ∀ r s, -1 ≤ r → r ≤ 1 → -1 ≤ s → s ≤ 1 →
        let p : Nat → ℝ := fun c => poly2 nr (fixVal nr) ns (fixVal ns) (fun i => X c (e * (nr * ns) + i)) r s
        (∀ c < 2, (1 + tol) * (((1 + u) ^ 3 - 1) * ∑ e ∈ range 2, |b.A c e| * |p e - b.c0 e|) ≤ tol) → 0 ≤ testFl2 rnd dot2 b p := by
  obtain ⟨out, eo, h⟩ := obbox_calc_2_covers_poly fuel eps guess hnr hnr' hmr hns hns' hms htol hel hcap hjac
  refine ⟨out, eo, fun e he => ?_⟩
  obtain ⟨b, eb, hb⟩ := h e he
  refine ⟨b, eb, fun r s a1 a2 a3 a4 => ?_⟩
  intro p hs
  obtain ⟨k1, _, _, k4⟩ := hb r s a1 a2 a3 a4
  exact obbox_test_tolerance_2 h0 h1 htol hr hd b p (fun c hc => (k1 c hc).1) k4 hs

/-- **C73, 3D** likewise -/
theorem obbox_calc_test_rounded_3 (fuel : Nat) (eps : ℝ) (guess : Nat → Nat → ℝ) {nr mr ns ms nt mt nel ucap : Nat} (hnr : 2 ≤ nr) (hnr' : nr ≤ 24) (hmr : 4 * nr ≤ mr)
    (hns : 2 ≤ ns) (hns' : ns ≤ 24) (hms : 4 * ns ≤ ms) (hnt : 2 ≤ nt) (hnt' : nt ≤ 24) (hmt : 4 * nt ≤ mt)
    {tol : ℝ} (htol : 0 ≤ tol) {el : Nat → Mem ℝ} {X : Nat → Nat → ℝ} (hel : ∀ c < 3, Has (el c) 0 (nel * (nr * ns * nt)) (X c)) (hcap : nel * (nr * ns * nt) ≤ ucap)
    (hjac : ∀ e < nel, ∀ r s t, -1 < r → r < 1 → -1 < s → s < 1 → -1 < t → t < 1 →
      jac3 (fun c => poly3 nr (fixVal nr) ns (fixVal ns) nt (fixVal nt) fun i => X c (e * (nr * ns * nt) + i)) r s t ≠ 0)
    {rnd : ℝ → ℝ} {dot3 : ℝ → ℝ → ℝ → ℝ → ℝ → ℝ → ℝ} {u : ℝ} (h0 : 0 ≤ u) (h1 : u < 1) (hr : ∀ y, |rnd y - y| ≤ u * |y|)
    (hd : ∀ a x b y c z, |dot3 a x b y c z - (a * x + b * y + c * z)| ≤ ((1 + u) ^ 3 - 1) * (|a * x| + |b * y| + |c * z|)) :
    ∃ out, calc3 fuel eps guess cheb nr mr ns ms nt mt nel tol ucap el = some out ∧ ∀ e < nel, ∃ b, out e = some b ∧
      ∀ r s t, -1 ≤ r → r ≤ 1 → -1 ≤ s → s ≤ 1 → -1 ≤ t → t ≤ 1 →
        let p : Nat → ℝ := fun c => poly3 nr (fixVal nr) ns (fixVal ns) nt (fixVal nt) (fun i => X c (e * (nr * ns * nt) + i)) r s t
        (∀ c < 3, (1 + tol) * (((1 + u) ^ 4 - 1) * ∑ e ∈ range 3, |b.A c e| * |p e - b.c0 e|) ≤ tol) → 0 ≤ testFl3 rnd dot3 b p := by
  obtain ⟨out, eo, h⟩ := obbox_calc_3_covers_poly fuel eps guess hnr hnr' hmr hns hns' hms hnt hnt' hmt htol hel hcap hjac
  refine ⟨out, eo, fun e he => ?_⟩
  obtain ⟨b, eb, hb⟩ := h e he
  refine ⟨b, eb, fun r s t a1 a2 a3 a4 a5 a6 => ?_⟩
  intro p hs
  obtain ⟨k1, _, _, k4⟩ := hb r s t a1 a2 a3 a4 a5 a6
  exact obbox_test_tolerance_3 h0 h1 htol hr hd b p (fun c hc => (k1 c hc).1) k4 hs

/-- the hypotheses are met: exact arithmetic (`u = 1/4` allowed, none used), unit box, its centre and tolerance 1/2 -/
example : 0 ≤ testFl2 (fun y : ℝ => y) (fun a x b y => a * x + b * y) ⟨fun _ => 0, fun c e => if c = e then 1 else 0, fun _ => (-1, 1)⟩ (fun c => if c = 0 then 1 / 4 else 0) := by
  refine obbox_test_tolerance_2 (u := 1 / 4) (tol := 1 / 2) (by norm_num) (by norm_num) (by norm_num) (fun y => by simp) (fun a x b y => ?_) _ _ (fun c hc => ?_) (fun c hc => ?_) fun c hc => ?_
  · simp only [sub_self, abs_zero]
    exact mul_nonneg (by norm_num) (by positivity)
  all_goals
    have : c = 0 ∨ c = 1 := by omega
    rcases this with rfl | rfl <;> simp [sum_range_succ] <;> norm_num

end Gslib.Props
