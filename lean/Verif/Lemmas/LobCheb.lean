import Verif.Lemmas.LobSeg
import Verif.Spec.LobBnd
import Mathlib.Analysis.SpecialFunctions.Trigonometric.Inverse
import Mathlib.Analysis.SpecialFunctions.Trigonometric.Bounds
import Mathlib.Analysis.Convex.SpecificFunctions.Deriv
import Mathlib.Analysis.Real.Pi.Bounds

/-!
# Piecewise linear bounds from tangents at midpoints: Chebyshev nodes

`Good f2 f3 d`: a condition on second and third derivative, in terms of the angle of a point, under which the bounds hold on all segments of the nodes `-cos(j*pi/(m-1))` with `pi/(m-1)<=d`.
-/

namespace Gslib.Lob
open Gslib.Spec

/-- second derivative of constant sign, and nearly constant, at the ends; near an inflection point the third derivative has constant sign and does not vary too much -/
structure Good (f2 f3 : ℝ → ℝ) (d : ℝ) : Prop where
  left : ∃ σ k : ℝ, (σ = 1 ∨ σ = -1) ∧ 0 ≤ k ∧ ∀ θ, 0 ≤ θ → θ ≤ 2 * d → k ≤ σ * f2 (-Real.cos θ) ∧ σ * f2 (-Real.cos θ) ≤ 2 * k
  right : ∃ σ k : ℝ, (σ = 1 ∨ σ = -1) ∧ 0 ≤ k ∧ ∀ θ, Real.pi - 2 * d ≤ θ → θ ≤ Real.pi → k ≤ σ * f2 (-Real.cos θ) ∧ σ * f2 (-Real.cos θ) ≤ 2 * k
  infl : ∀ θ, 0 ≤ θ → θ ≤ Real.pi → f2 (-Real.cos θ) = 0 → ∃ σ : ℝ, (σ = 1 ∨ σ = -1) ∧
    (∀ φ, 0 ≤ φ → φ ≤ Real.pi → |φ - θ| ≤ 9 / 8 * d → 0 ≤ σ * f3 (-Real.cos φ)) ∧
    (∃ (J : ℕ) (k K : ℝ), 3 ≤ J ∧ J * d ≤ θ ∧ 0 ≤ k ∧ 12 * J * K ≤ k * (2 * J + 1) ^ 2 ∧
      ∀ φ, 0 ≤ φ → θ - 9 / 16 * d ≤ φ → φ ≤ θ → k ≤ σ * f3 (-Real.cos φ) ∧ σ * f3 (-Real.cos φ) ≤ K) ∧
    (∃ (J : ℕ) (k K : ℝ), 3 ≤ J ∧ J * d ≤ Real.pi - θ ∧ 0 ≤ k ∧ 12 * J * K ≤ k * (2 * J + 1) ^ 2 ∧
      ∀ φ, φ ≤ Real.pi → θ ≤ φ → φ ≤ θ + 9 / 16 * d → k ≤ σ * f3 (-Real.cos φ) ∧ σ * f3 (-Real.cos φ) ≤ K)

theorem Good.refl {f2 f3 : ℝ → ℝ} {d : ℝ} (h : Good f2 f3 d) : Good (fun x => f2 (-x)) (fun x => -f3 (-x)) d where
  left := by
    obtain ⟨σ, k, h1, h2, h3⟩ := h.right
    refine ⟨σ, k, h1, h2, fun θ a b => ?_⟩
    have := h3 (Real.pi - θ) (by linarith) (by linarith)
    rwa [Real.cos_pi_sub] at this
  right := by
    obtain ⟨σ, k, h1, h2, h3⟩ := h.left
    refine ⟨σ, k, h1, h2, fun θ a b => ?_⟩
    have := h3 (Real.pi - θ) (by linarith) (by linarith)
    rwa [Real.cos_pi_sub] at this
  infl := by
    intro θ h0 h1 hz
    obtain ⟨σ, hs, h3, ⟨J, k, K, a1, a2, a3, a4, a5⟩, J', k', K', b1, b2, b3, b4, b5⟩ := h.infl (Real.pi - θ) (by linarith) (by linarith) (by rw [Real.cos_pi_sub]; exact hz)
    refine ⟨-σ, by rcases hs with rfl | rfl <;> simp, ?_, ⟨J', k', K', b1, by linarith, b3, b4, ?_⟩, J, k, K, a1, a2, a3, a4, ?_⟩
    · intro φ c0 c1 c2
      have := h3 (Real.pi - φ) (by linarith) (by linarith) (by rw [show Real.pi - φ - (Real.pi - θ) = -(φ - θ) by ring, abs_neg]; exact c2)
      rw [Real.cos_pi_sub] at this
      simpa using this
    · intro φ c0 c1 c2
      have := b5 (Real.pi - φ) (by linarith) (by linarith) (by linarith)
      rw [Real.cos_pi_sub] at this
      simpa using this
    · intro φ c0 c1 c2
      have := a5 (Real.pi - φ) (by linarith) (by linarith) (by linarith)
      rw [Real.cos_pi_sub] at this
      simpa using this

theorem Good.scale_pos {f2 f3 : ℝ → ℝ} {d w : ℝ} (hw : 0 ≤ w) (h : Good f2 f3 d) (hz : w ≠ 0) : Good (fun x => w * f2 x) (fun x => w * f3 x) d where
  left := by
    obtain ⟨σ, k, h1, h2, h3⟩ := h.left
    refine ⟨σ, w * k, h1, mul_nonneg hw h2, fun θ a b => ?_⟩
    have := h3 θ a b
    have m1 := mul_le_mul_of_nonneg_left this.1 hw
    have m2 := mul_le_mul_of_nonneg_left this.2 hw
    constructor <;> linarith
  right := by
    obtain ⟨σ, k, h1, h2, h3⟩ := h.right
    refine ⟨σ, w * k, h1, mul_nonneg hw h2, fun θ a b => ?_⟩
    have := h3 θ a b
    have m1 := mul_le_mul_of_nonneg_left this.1 hw
    have m2 := mul_le_mul_of_nonneg_left this.2 hw
    constructor <;> linarith
  infl := by
    intro θ h0 h1 hz'
    obtain ⟨σ, hs, h3, ⟨J, k, K, a1, a2, a3, a4, a5⟩, J', k', K', b1, b2, b3, b4, b5⟩ := h.infl θ h0 h1 ((mul_eq_zero.1 hz').resolve_left hz)
    refine ⟨σ, hs, ?_, ⟨J, w * k, w * K, a1, a2, mul_nonneg hw a3, ?_, ?_⟩, J', w * k', w * K', b1, b2, mul_nonneg hw b3, ?_, ?_⟩
    · intro φ c0 c1 c2
      have := mul_nonneg hw (h3 φ c0 c1 c2)
      linarith
    · have := mul_le_mul_of_nonneg_left a4 hw
      linarith
    · intro φ c0 c1 c2
      have := a5 φ c0 c1 c2
      have m1 := mul_le_mul_of_nonneg_left this.1 hw
      have m2 := mul_le_mul_of_nonneg_left this.2 hw
      constructor <;> linarith
    · have := mul_le_mul_of_nonneg_left b4 hw
      linarith
    · intro φ c0 c1 c2
      have := b5 φ c0 c1 c2
      have m1 := mul_le_mul_of_nonneg_left this.1 hw
      have m2 := mul_le_mul_of_nonneg_left this.2 hw
      constructor <;> linarith

theorem Good.neg {f2 f3 : ℝ → ℝ} {d : ℝ} (h : Good f2 f3 d) : Good (fun x => -f2 x) (fun x => -f3 x) d where
  left := by
    obtain ⟨σ, k, h1, h2, h3⟩ := h.left
    refine ⟨-σ, k, by rcases h1 with rfl | rfl <;> simp, h2, fun θ a b => ?_⟩
    have := h3 θ a b
    simpa using this
  right := by
    obtain ⟨σ, k, h1, h2, h3⟩ := h.right
    refine ⟨-σ, k, by rcases h1 with rfl | rfl <;> simp, h2, fun θ a b => ?_⟩
    have := h3 θ a b
    simpa using this
  infl := by
    intro θ h0 h1 hz'
    obtain ⟨σ, hs, h3, ⟨J, k, K, a1, a2, a3, a4, a5⟩, J', k', K', b1, b2, b3, b4, b5⟩ := h.infl θ h0 h1 (neg_eq_zero.1 hz')
    refine ⟨-σ, by rcases hs with rfl | rfl <;> simp, ?_, ⟨J, k, K, a1, a2, a3, a4, ?_⟩, J', k', K', b1, b2, b3, b4, ?_⟩
    · intro φ c0 c1 c2
      simpa using h3 φ c0 c1 c2
    · intro φ c0 c1 c2
      simpa using a5 φ c0 c1 c2
    · intro φ c0 c1 c2
      simpa using b5 φ c0 c1 c2

theorem Good.scale {f2 f3 : ℝ → ℝ} {d w : ℝ} (h : Good f2 f3 d) (hz : w ≠ 0) : Good (fun x => w * f2 x) (fun x => w * f3 x) d := by
  rcases le_total 0 w with hw | hw
  · exact h.scale_pos hw hz
  · have := (h.scale_pos (w := -w) (by linarith) (by simpa using hz)).neg
    simpa using this

/-! ### Angles -/

theorem cos_le_iff {a b : ℝ} (ha : 0 ≤ a) (ha' : a ≤ Real.pi) (hb : 0 ≤ b) (hb' : b ≤ Real.pi) : Real.cos a ≤ Real.cos b ↔ b ≤ a :=
  Real.strictAntiOn_cos.le_iff_ge ⟨ha, ha'⟩ ⟨hb, hb'⟩

/-- the angle of a point -/
theorem angle {x : ℝ} (h0 : -1 ≤ x) (h1 : x ≤ 1) : ∃ θ, 0 ≤ θ ∧ θ ≤ Real.pi ∧ x = -Real.cos θ :=
  ⟨Real.arccos (-x), Real.arccos_nonneg _, Real.arccos_le_pi _, by rw [Real.cos_arccos (by linarith) (by linarith), neg_neg]⟩

/-- the midpoint of a segment is close to the point in the middle of the angles -/
theorem mid_angle {d ψ : ℝ} (hd : 0 < d) (hd' : d ≤ 1 / 4) (h1 : 5 / 2 * d ≤ ψ) (h2 : ψ ≤ Real.pi - 5 / 2 * d) :
    Real.cos (ψ + d / 16) ≤ Real.cos ψ * Real.cos (d / 2) ∧ Real.cos ψ * Real.cos (d / 2) ≤ Real.cos (ψ - d / 16) := by
  have key : ∀ ψ, 5 / 2 * d ≤ ψ → ψ ≤ Real.pi - 5 / 2 * d → Real.cos (ψ + d / 16) ≤ Real.cos ψ * Real.cos (d / 2) := by
    intro ψ h1 h2
    rw [Real.cos_add]
    have hs : 0 ≤ Real.sin ψ := Real.sin_nonneg_of_nonneg_of_le_pi (by linarith) (by linarith)
    have hsd : d / 16 * (1 - 1 / 256) ≤ Real.sin (d / 16) := by
      have := Real.sin_gt_sub_cube (x := d / 16) (by linarith)
      have : (d / 16) ^ 3 / 6 ≤ d / 16 * (1 / 256) := by
        have : d ^ 2 ≤ 1 / 16 := by nlinarith
        nlinarith
      linarith
    have hsd0 : 0 ≤ Real.sin (d / 16) := by nlinarith
    rcases le_total (Real.cos ψ) 0 with hc | hc
    · have e1 : Real.cos (d / 2) ≤ Real.cos (d / 16) := Real.cos_le_cos_of_nonneg_of_le_pi (by linarith) (by linarith [Real.pi_gt_three]) (by linarith)
      have := mul_nonneg hs hsd0
      nlinarith
    · have hψ : ψ ≤ Real.pi / 2 := by
        by_contra hcon
        have : Real.cos ψ < 0 := Real.cos_neg_of_pi_div_two_lt_of_lt (by linarith) (by linarith)
        linarith
      have hs2 : 9 / 4 * d ≤ Real.sin ψ := by
        have m1 : Real.sin (5 / 2 * d) ≤ Real.sin ψ := Real.sin_le_sin_of_le_of_le_pi_div_two (by linarith [Real.pi_gt_three]) hψ h1
        have := Real.sin_gt_sub_cube (x := 5 / 2 * d) (by linarith)
        have : (5 / 2 * d) ^ 3 / 6 ≤ 1 / 4 * d := by
          have : d ^ 2 ≤ 1 / 16 := by nlinarith
          nlinarith
        linarith
      have e1 : Real.cos (d / 16) ≤ 1 := Real.cos_le_one _
      have e2 : 1 - (d / 2) ^ 2 / 2 ≤ Real.cos (d / 2) := Real.one_sub_sq_div_two_le_cos
      have e3 := Real.cos_le_one ψ
      have e4 : Real.cos ψ * (Real.cos (d / 16) - Real.cos (d / 2)) ≤ d ^ 2 / 8 := by
        have : Real.cos (d / 16) - Real.cos (d / 2) ≤ d ^ 2 / 8 := by linarith
        have hd2 : 0 ≤ d ^ 2 / 8 := by positivity
        nlinarith
      have e5 : d ^ 2 / 8 ≤ Real.sin ψ * Real.sin (d / 16) := by
        have : 9 / 4 * d * (d / 16 * (1 - 1 / 256)) ≤ Real.sin ψ * Real.sin (d / 16) := mul_le_mul hs2 hsd (by nlinarith) hs
        nlinarith [mul_pos hd hd]
      linarith
  refine ⟨key ψ h1 h2, ?_⟩
  have := key (Real.pi - ψ) (by linarith) (by linarith)
  rw [show Real.pi - ψ + d / 16 = Real.pi - (ψ - d / 16) by ring, Real.cos_pi_sub, Real.cos_pi_sub] at this
  linarith

theorem abs_mul_cos (x y : ℝ) : -1 ≤ -(Real.cos x * Real.cos y) ∧ -(Real.cos x * Real.cos y) ≤ 1 := by
  have h : |Real.cos x * Real.cos y| ≤ 1 := by
    rw [abs_mul]
    exact mul_le_one₀ (Real.abs_cos_le_one x) (abs_nonneg _) (Real.abs_cos_le_one y)
  rw [abs_le] at h
  constructor <;> linarith [h.1, h.2]

/-- lengths of neighbouring segments -/
theorem sin_ratio {j : ℕ} {d : ℝ} (hj : 1 ≤ j) (hd : 0 ≤ d) (h : (j + 1 / 2) * d ≤ Real.pi) : (2 * j - 1) * Real.sin ((j + 1 / 2) * d) ≤ (2 * j + 1) * Real.sin ((j - 1 / 2) * d) := by
  have hj' : (1 : ℝ) ≤ j := by exact_mod_cast hj
  have hc := strictConcaveOn_sin_Icc.concaveOn
  have hx : (j + 1 / 2 : ℝ) * d ∈ Set.Icc 0 Real.pi := ⟨by positivity, h⟩
  have h0 : (0 : ℝ) ∈ Set.Icc 0 Real.pi := ⟨le_refl _, Real.pi_pos.le⟩
  have hp : (0 : ℝ) < 2 * j + 1 := by linarith
  have := hc.2 hx h0 (show (0 : ℝ) ≤ (2 * j - 1) / (2 * j + 1) from div_nonneg (by linarith) hp.le) (show (0 : ℝ) ≤ 2 / (2 * j + 1) by positivity) (by field_simp; ring)
  simp only [smul_eq_mul, mul_zero, add_zero, Real.sin_zero] at this
  rw [show (2 * (j : ℝ) - 1) / (2 * j + 1) * ((j + 1 / 2) * d) = (j - 1 / 2) * d by field_simp, div_mul_eq_mul_div, div_le_iff₀ hp] at this
  linarith

/-! ### All segments -/

/-- midpoint of segment `j` -/
noncomputable def midp (H : ℕ → ℝ) (j : ℕ) : ℝ := (H j + H (j + 1)) / 2

/-- the pair at a node encloses the value there; at interior nodes also the tangents at the midpoints of the adjacent segments -/
structure NodeOk (f f1 : ℝ → ℝ) (m : ℕ) (H : ℕ → ℝ) (b : ℕ → ℝ × ℝ) : Prop where
  val : ∀ j < m, (b j).1 ≤ f (H j) ∧ f (H j) ≤ (b j).2
  lt : ∀ j, j + 2 < m → (b (j + 1)).1 ≤ tang f f1 (midp H j) (H (j + 1)) ∧ tang f f1 (midp H j) (H (j + 1)) ≤ (b (j + 1)).2
  rt : ∀ j, 0 < j → j + 1 < m → (b j).1 ≤ tang f f1 (midp H j) (H j) ∧ tang f f1 (midp H j) (H j) ≤ (b j).2

variable {f f1 f2 f3 : ℝ → ℝ}

theorem tang_neg (c x : ℝ) : tang (fun x => -f x) (fun x => -f1 x) c x = -tang f f1 c x := by unfold tang; ring

theorem tang_refl (c x : ℝ) : tang (fun x => f (-x)) (fun x => -f1 (-x)) (-c) (-x) = tang f f1 c x := by simp only [tang, neg_neg]; ring

/-- `seg_inflection` with either sign of the third derivative -/
theorem seg_infl_left (h : D3 f f1 f2 f3) {σ p a q c b k K la ua lb ub : ℝ} (hσ : σ = 1 ∨ σ = -1) (hpa : p ≤ a) (haq : a ≤ q) (hqc : q ≤ c) (hcb : c ≤ b) (hq : f2 q = 0)
    (h3 : ∀ y, p ≤ y → y ≤ b → 0 ≤ σ * f3 y) (hk : ∀ y, a ≤ y → y ≤ q → k ≤ σ * f3 y ∧ σ * f3 y ≤ K) (k0 : 0 ≤ k)
    (hkK : 3 * K * ((q - a) ^ 2 - (a - p) ^ 2) ≤ 2 * k * (q - a) ^ 2)
    (va : la ≤ f a ∧ f a ≤ ua) (ta : la ≤ tang f f1 c a ∧ tang f f1 c a ≤ ua) (tb : lb ≤ tang f f1 c b ∧ tang f f1 c b ≤ ub)
    (tp : la ≤ tang f f1 p a ∧ tang f f1 p a ≤ ua) (vb : lb ≤ f b ∧ f b ≤ ub) : Between f a b la ua lb ub := by
  rcases hσ with rfl | rfl
  · simp only [one_mul] at h3 hk
    exact seg_inflection h hpa haq hqc hcb hq h3 (fun y h1 h2 => (hk y h1 h2).1) (fun y h1 h2 => (hk y h1 h2).2) k0 hkK va.1 ta.1 tb.1 tp.2 vb.2
  · simp only [neg_mul, one_mul] at h3 hk
    refine Between.neg (seg_inflection h.neg hpa haq hqc hcb (by rw [hq, neg_zero]) h3 (fun y h1 h2 => (hk y h1 h2).1) (fun y h1 h2 => (hk y h1 h2).2) k0 hkK ?_ ?_ ?_ ?_ ?_)
    · exact neg_le_neg va.2
    · rw [tang_neg]; exact neg_le_neg ta.2
    · rw [tang_neg]; exact neg_le_neg tb.2
    · rw [tang_neg]; exact neg_le_neg tp.1
    · exact neg_le_neg vb.1

/-- the same with the inflection point in the right half -/
theorem seg_infl_right (h : D3 f f1 f2 f3) {σ p a q c b k K la ua lb ub : ℝ} (hσ : σ = 1 ∨ σ = -1) (hpa : b ≤ p) (haq : q ≤ b) (hqc : c ≤ q) (hcb : a ≤ c) (hq : f2 q = 0)
    (h3 : ∀ y, a ≤ y → y ≤ p → 0 ≤ σ * f3 y) (hk : ∀ y, q ≤ y → y ≤ b → k ≤ σ * f3 y ∧ σ * f3 y ≤ K) (k0 : 0 ≤ k)
    (hkK : 3 * K * ((b - q) ^ 2 - (p - b) ^ 2) ≤ 2 * k * (b - q) ^ 2)
    (va : lb ≤ f b ∧ f b ≤ ub) (ta : lb ≤ tang f f1 c b ∧ tang f f1 c b ≤ ub) (tb : la ≤ tang f f1 c a ∧ tang f f1 c a ≤ ua)
    (tp : lb ≤ tang f f1 p b ∧ tang f f1 p b ≤ ub) (vb : la ≤ f a ∧ f a ≤ ua) : Between f a b la ua lb ub := by
  refine Between.refl (seg_infl_left h.refl (σ := -σ) (p := -p) (q := -q) (c := -c) (k := k) (K := K) ?_ (neg_le_neg hpa) (neg_le_neg haq) (neg_le_neg hqc) (neg_le_neg hcb) ?_ ?_ ?_ k0 ?_ ?_ ?_ ?_ ?_ ?_)
  · rcases hσ with rfl | rfl <;> simp
  · rw [neg_neg, hq]
  · intro y h1 h2
    have := h3 (-y) (by linarith) (by linarith)
    simpa using this
  · intro y h1 h2
    have := hk (-y) (by linarith) (by linarith)
    simpa using this
  · rw [show (-q - -b) ^ 2 = (b - q) ^ 2 by ring, show (-b - -p) ^ 2 = (p - b) ^ 2 by ring]; exact hkK
  · rw [neg_neg]; exact va
  · rw [tang_refl]; exact ta
  · rw [tang_refl]; exact tb
  · rw [tang_refl]; exact tp
  · rw [neg_neg]; exact vb

theorem ratio_mono {J j : ℕ} {k K : ℝ} (hJ : 1 ≤ J) (h : J ≤ j) (k0 : 0 ≤ k) (hJK : 12 * J * K ≤ k * (2 * J + 1) ^ 2) : 12 * j * K ≤ k * (2 * j + 1) ^ 2 := by
  have h1 : (1 : ℝ) ≤ J := by exact_mod_cast hJ
  have h2 : (J : ℝ) ≤ j := by exact_mod_cast h
  have hj0 : (0 : ℝ) ≤ j := by linarith
  have m := mul_le_mul_of_nonneg_left hJK hj0
  have key : (j : ℝ) * (2 * J + 1) ^ 2 ≤ J * (2 * j + 1) ^ 2 := by
    have : 0 ≤ ((j : ℝ) - J) * (4 * J * j - 1) := mul_nonneg (by linarith) (by nlinarith)
    nlinarith
  have m2 := mul_le_mul_of_nonneg_left key k0
  have : (J : ℝ) * (12 * j * K) ≤ J * (k * (2 * j + 1) ^ 2) := by nlinarith
  exact le_of_mul_le_mul_left this (by linarith)

/-- condition on the third derivative in the form used by `seg_inflection` -/
theorem ratio_seg {j : ℕ} {k K x e D : ℝ} (hj : 1 ≤ j) (k0 : 0 ≤ k) (K0 : 0 ≤ K) (hx : 0 ≤ x) (hxD : x ≤ D) (he : (2 * j - 1) * D ≤ (2 * j + 1) * e)
    (hjK : 12 * j * K ≤ k * (2 * j + 1) ^ 2) : 3 * K * (x ^ 2 - e ^ 2) ≤ 2 * k * x ^ 2 := by
  have h1 : (1 : ℝ) ≤ j := by exact_mod_cast hj
  have hp : (0 : ℝ) < 2 * j + 1 := by linarith
  have e1 : (2 * j - 1) * x ≤ (2 * j + 1) * e := le_trans (mul_le_mul_of_nonneg_left hxD (by linarith)) he
  have e2 : ((2 * j - 1) * x) ^ 2 ≤ ((2 * j + 1) * e) ^ 2 := pow_le_pow_left₀ (mul_nonneg (by linarith) hx) e1 2
  have m1 := mul_le_mul_of_nonneg_left e2 (by linarith : 0 ≤ 3 * K)
  have m2 := mul_le_mul_of_nonneg_right hjK (mul_nonneg (by norm_num : (0 : ℝ) ≤ 2) (sq_nonneg x))
  have : (2 * j + 1 : ℝ) ^ 2 * (3 * K * (x ^ 2 - e ^ 2)) ≤ (2 * j + 1) ^ 2 * (2 * k * x ^ 2) := by nlinarith
  exact le_of_mul_le_mul_left this (by positivity)

theorem good_end (h : D3 f f1 f2 f3) {m : ℕ} {d D : ℝ} (hm : 4 ≤ m) (hd : 0 < d) (hd' : d ≤ 1 / 4) (hdD : d ≤ D) {H : ℕ → ℝ} (hH : ∀ j < m, H j = -Real.cos (j * d)) {b : ℕ → ℝ × ℝ}
    (hb : NodeOk f f1 m H b)
    (hG : ∃ σ k : ℝ, (σ = 1 ∨ σ = -1) ∧ 0 ≤ k ∧ ∀ θ, 0 ≤ θ → θ ≤ 2 * D → k ≤ σ * f2 (-Real.cos θ) ∧ σ * f2 (-Real.cos θ) ≤ 2 * k) :
    Between f (H 0) (H 1) (b 0).1 (b 0).2 (b 1).1 (b 1).2 := by
  obtain ⟨σ, k, hσ, k0, hk⟩ := hG
  have hpi := Real.pi_gt_three
  have e0 : H 0 = -1 := by rw [hH 0 (by omega)]; simp
  have e1 : H 1 = -Real.cos d := by rw [hH 1 (by omega)]; simp
  have e2 : H 2 = -(2 * Real.cos d ^ 2 - 1) := by rw [hH 2 (by omega), ← Real.cos_two_mul]; simp
  have hc : 31 / 32 ≤ Real.cos d := by
    have := Real.one_sub_sq_div_two_le_cos (x := d)
    nlinarith
  have hc1 := Real.cos_le_one d
  have h01 : H 0 ≤ H 1 := by rw [e0, e1]; linarith
  have h12 : H 1 ≤ H 2 := by rw [e1, e2]; nlinarith
  have hp : H 1 ≤ midp H 1 := by unfold midp; linarith
  have hp2 : midp H 1 ≤ H 2 := by unfold midp; linarith
  have hrange : ∀ y, H 0 ≤ y → y ≤ midp H 1 → k ≤ σ * f2 y ∧ σ * f2 y ≤ 2 * k := by
    intro y h1 h2
    have h2' := h2.trans hp2
    have hy1 : y ≤ 1 := by rw [e2] at h2'; nlinarith
    obtain ⟨θ, t0, t1, rfl⟩ := angle (by rw [e0] at h1; exact h1) hy1
    refine hk θ t0 ?_
    have : Real.cos (2 * d) ≤ Real.cos θ := by rw [Real.cos_two_mul]; rw [e2] at h2'; linarith
    have := (cos_le_iff (by linarith) (by linarith) t0 t1).1 this
    linarith
  have hkK : 2 * k * (H 1 - H 0) ^ 2 ≤ k * (midp H 1 - H 1) ^ 2 := by
    unfold midp
    rw [e0, e1, e2]
    have key : 2 * (1 - Real.cos d) ^ 2 ≤ ((1 - Real.cos d) * (1 + 2 * Real.cos d) / 2) ^ 2 := by
      have : 8 ≤ (1 + 2 * Real.cos d) ^ 2 := by nlinarith
      nlinarith [mul_nonneg (sq_nonneg (1 - Real.cos d)) (sub_nonneg.2 this)]
    have m1 := mul_le_mul_of_nonneg_left key k0
    have : ((-Real.cos d + -(2 * Real.cos d ^ 2 - 1)) / 2 - -Real.cos d) = (1 - Real.cos d) * (1 + 2 * Real.cos d) / 2 := by ring
    rw [this]
    have : (-Real.cos d - -1) ^ 2 = (1 - Real.cos d) ^ 2 := by ring
    rw [this]
    linarith
  have v0 := hb.val 0 (by omega)
  have v1 := hb.val 1 (by omega)
  have t1 := hb.rt 1 (by omega) (by omega)
  rcases hσ with rfl | rfl
  · simp only [one_mul] at hrange
    exact seg_end h h01 hp (fun y a c => (hrange y a c).1) (fun y a c => (hrange y a c).2) k0 hkK v0.1 t1.1 v0.2 v1.2
  · simp only [neg_mul, one_mul] at hrange
    refine Between.neg (seg_end h.neg h01 hp (fun y a c => (hrange y a c).1) (fun y a c => (hrange y a c).2) k0 hkK (neg_le_neg v0.2) ?_ (neg_le_neg v0.1) (neg_le_neg v1.1))
    rw [tang_neg]; exact neg_le_neg t1.2

set_option maxHeartbeats 1000000 in
/-- segments other than the first and the last -/
theorem good_inner (h : D3 f f1 f2 f3) {m : ℕ} {d D : ℝ} (hd : 0 < d) (hd' : d ≤ 1 / 4) (hdD : d ≤ D) (hmd : ((m : ℝ) - 1) * d = Real.pi) {H : ℕ → ℝ}
    (hH : ∀ j < m, H j = -Real.cos (j * d)) {b : ℕ → ℝ × ℝ} (hb : NodeOk f f1 m H b) (hG : Good f2 f3 D) {j : ℕ} (hj : 0 < j) (hj' : j + 2 < m) :
    Between f (H j) (H (j + 1)) (b j).1 (b j).2 (b (j + 1)).1 (b (j + 1)).2 := by
  have hjR : (0 : ℝ) < j := by exact_mod_cast hj
  have hjm : (j : ℝ) + 3 ≤ m := by exact_mod_cast hj'
  have hD : 0 < D := lt_of_lt_of_le hd hdD
  have tm : ((j : ℝ) + 3) * d ≤ m * d := mul_le_mul_of_nonneg_right hjm hd.le
  have top : ((j : ℝ) + 2) * d ≤ Real.pi := by linarith
  have ea : H j = -Real.cos (j * d) := hH j (by omega)
  have eb : H (j + 1) = -Real.cos ((j + 1) * d) := by rw [hH (j + 1) (by omega)]; push_cast; ring_nf
  have hab : H j ≤ H (j + 1) := by
    rw [ea, eb]
    have := (cos_le_iff (a := (j + 1) * d) (b := j * d) (by positivity) (by linarith) (by positivity) (by linarith)).2 (by linarith)
    linarith
  have hac : H j ≤ midp H j := by unfold midp; linarith
  have hcb : midp H j ≤ H (j + 1) := by unfold midp; linarith
  have va := hb.val j (by omega)
  have vb := hb.val (j + 1) (by omega)
  have ta := hb.rt j hj (by omega)
  have tb := hb.lt j hj'
  have hcont : Continuous f2 := continuous_iff_continuousAt.2 fun x => (h.d3 x).continuousAt
  have hm1 : -1 ≤ H j := by rw [ea]; linarith [Real.cos_le_one (j * d)]
  have hm2 : H (j + 1) ≤ 1 := by rw [eb]; linarith [Real.neg_one_le_cos ((j + 1) * d)]
  by_cases hz : ∃ q, H j ≤ q ∧ q ≤ H (j + 1) ∧ f2 q = 0
  · obtain ⟨q, q1, q2, hq⟩ := hz
    obtain ⟨θ, t0, t1, rfl⟩ := angle (hm1.trans q1) (q2.trans hm2)
    obtain ⟨σ, hσ, h3, ⟨J, k, K, a1, a2, a3, a4, a5⟩, J', k', K', b1, b2, b3, b4, b5⟩ := hG.infl θ t0 t1 hq
    have lo : j * d ≤ θ := by
      rw [ea] at q1
      exact (cos_le_iff t0 t1 (by positivity) (by linarith)).1 (by linarith)
    have hi : θ ≤ (j + 1) * d := by
      rw [eb] at q2
      exact (cos_le_iff (by positivity) (by linarith) t0 t1).1 (by linarith)
    have b1R : (3 : ℝ) ≤ J' := by exact_mod_cast b1
    have a1R : (3 : ℝ) ≤ J := by exact_mod_cast a1
    have aD : 3 * D ≤ J * D := mul_le_mul_of_nonneg_right a1R hD.le
    have bD : 3 * D ≤ J' * D := mul_le_mul_of_nonneg_right b1R hD.le
    -- at least three segments on either side
    have hj2 : 2 ≤ j := by
      by_contra hcon
      have : (j : ℝ) ≤ 1 := by exact_mod_cast (by omega : j ≤ 1)
      have m1 := mul_le_mul_of_nonneg_right this hd.le
      linarith
    have hjm' : (j : ℝ) + 4 ≤ m := by
      by_contra hcon
      have m1 := mul_lt_mul_of_pos_right (not_le.1 hcon) hd
      linarith
    have hj2R : (2 : ℝ) ≤ j := by exact_mod_cast hj2
    have tm4 : ((j : ℝ) + 4) * d ≤ m * d := mul_le_mul_of_nonneg_right hjm' hd.le
    have tj2 : 2 * d ≤ j * d := mul_le_mul_of_nonneg_right hj2R hd.le
    have hm5 : j + 3 < m := by
      have : j + 4 ≤ m := by exact_mod_cast hjm'
      omega
    -- midpoints and half lengths
    have mid : ∀ i : ℕ, i + 1 < m → midp H i = -(Real.cos ((i + 1 / 2) * d) * Real.cos (d / 2)) ∧ (H (i + 1) - H i) / 2 = Real.sin ((i + 1 / 2) * d) * Real.sin (d / 2) := by
      intro i hi
      have e1 := hH i (by omega)
      have e2 := hH (i + 1) hi
      rw [show (i : ℝ) * d = (i + 1 / 2) * d - d / 2 by ring, Real.cos_sub] at e1
      rw [show ((i + 1 : ℕ) : ℝ) * d = (i + 1 / 2) * d + d / 2 by push_cast; ring, Real.cos_add] at e2
      unfold midp
      rw [e1, e2]
      constructor <;> ring
    have hsd : 0 ≤ Real.sin (d / 2) := Real.sin_nonneg_of_nonneg_of_le_pi (by linarith) (by linarith [Real.pi_gt_three])
    obtain ⟨mj, lj⟩ := mid j (by omega)
    have hpos : ∀ i : ℕ, 0 < i → i + 1 < m → 0 ≤ (i : ℝ) ∧ ((i : ℝ) + 1) * d ≤ Real.pi := by
      intro i _ h
      have : (i : ℝ) + 2 ≤ m := by exact_mod_cast h
      have m1 := mul_le_mul_of_nonneg_right this hd.le
      exact ⟨by positivity, by linarith⟩
    have angc := mid_angle (ψ := (j + 1 / 2) * d) hd hd' (by linarith) (by linarith)
    rcases le_total (-Real.cos θ) (midp H j) with hqc | hqc
    · -- inflection point in the left half
      clear b5 b4 b3 b2 bD b1R b1 hpos hcont
      obtain ⟨i, rfl⟩ : ∃ i, j = i + 1 := ⟨j - 1, by omega⟩
      push_cast at *
      have hiR : (1 : ℝ) ≤ i := by linarith
      obtain ⟨mi, li⟩ := mid i (by omega)
      have hi2 : θ ≤ ((i : ℝ) + 1 + 1 / 2) * d + d / 16 := by
        rw [mj] at hqc
        have : Real.cos (((i : ℝ) + 1 + 1 / 2) * d + d / 16) ≤ Real.cos θ := by linarith [angc.1]
        exact (cos_le_iff (by linarith) (by linarith) t0 t1).1 this
      have hJj : J ≤ i + 1 := by
        by_contra hcon
        have : (i : ℝ) + 2 ≤ J := by exact_mod_cast (by omega : i + 2 ≤ J)
        have m1 : ((i : ℝ) + 2) * D ≤ J * D := mul_le_mul_of_nonneg_right this hD.le
        have m2 : ((i : ℝ) + 2) * d ≤ (i + 2) * D := mul_le_mul_of_nonneg_left hdD (by positivity)
        linarith
      have hJR : (3 : ℝ) ≤ (i : ℝ) + 1 := le_trans a1R (by exact_mod_cast hJj)
      have tJ : 3 * d ≤ ((i : ℝ) + 1) * d := mul_le_mul_of_nonneg_right hJR hd.le
      have angp := mid_angle (ψ := ((i : ℝ) + 1 / 2) * d) hd hd' (by linarith) (by linarith)
      have hpa : midp H i ≤ H (i + 1) := by
        unfold midp
        have : 0 ≤ (H (i + 1) - H i) / 2 := by
          rw [li]
          refine mul_nonneg (Real.sin_nonneg_of_nonneg_of_le_pi (by positivity) ?_) hsd
          linarith
        linarith
      have tp := hb.lt i (by omega)
      have K0 : 0 ≤ K := by
        have := a5 θ t0 (by linarith) (le_refl _)
        linarith
      refine seg_infl_left h hσ (p := midp H i) (q := -Real.cos θ) (c := midp H (i + 1)) (k := k) (K := K) hpa q1 hqc hcb hq ?_ ?_ a3 ?_ va ta tb tp vb
      · intro y h1 h2
        have y0 : -1 ≤ y := by
          rw [mi] at h1
          exact (abs_mul_cos _ _).1.trans h1
        obtain ⟨φ, s0, s1, rfl⟩ := angle y0 (h2.trans hm2)
        refine h3 φ s0 s1 ?_
        have u1 : ((i : ℝ) + 1 / 2) * d - d / 16 ≤ φ := by
          rw [mi] at h1
          refine (cos_le_iff s0 s1 (by linarith) (by linarith)).1 ?_
          linarith [angp.2]
        have u2 : φ ≤ ((i : ℝ) + 1 + 1) * d := by
          rw [eb] at h2
          exact (cos_le_iff (by positivity) (by linarith) s0 s1).1 (by linarith)
        rw [abs_le]
        constructor <;> linarith
      · intro y h1 h2
        obtain ⟨φ, s0, s1, rfl⟩ := angle (hm1.trans h1) ((h2.trans q2).trans hm2)
        have u1 : ((i : ℝ) + 1) * d ≤ φ := by
          rw [ea] at h1
          exact (cos_le_iff s0 s1 (by positivity) (by linarith)).1 (by linarith)
        have u2 : φ ≤ θ := (cos_le_iff t0 t1 s0 s1).1 (by linarith)
        exact a5 φ s0 (by linarith) u2
      · have hs := sin_ratio (j := i + 1) (d := d) (by omega) hd.le (by push_cast; linarith)
        have rr := ratio_mono (by omega) hJj a3 a4
        refine ratio_seg (j := i + 1) (D := (H (i + 1 + 1) - H (i + 1)) / 2) (by omega) a3 K0 (by linarith) ?_ ?_ rr
        · unfold midp at hqc; linarith
        · have e3 : H (i + 1) - midp H i = (H (i + 1) - H i) / 2 := by unfold midp; ring
          rw [e3, lj, li]
          have := mul_le_mul_of_nonneg_right hs hsd
          push_cast at this ⊢
          rw [show ((i : ℝ) + 1 - 1 / 2) * d = ((i : ℝ) + 1 / 2) * d by ring] at this
          linarith
    · -- inflection point in the right half
      clear a5 a4 a3 a2 aD a1R a1 hpos hcont
      obtain ⟨mi, li⟩ := mid (j + 1) (by omega)
      push_cast at mi li
      have lo2 : ((j : ℝ) + 1 / 2) * d - d / 16 ≤ θ := by
        rw [mj] at hqc
        have : Real.cos θ ≤ Real.cos (((j : ℝ) + 1 / 2) * d - d / 16) := by linarith [angc.2]
        exact (cos_le_iff t0 t1 (by linarith) (by linarith)).1 this
      -- number of segments to the right
      obtain ⟨r, hr⟩ : ∃ r, m = j + 2 + r := ⟨m - (j + 2), by omega⟩
      have hrR : (m : ℝ) = j + 2 + r := by rw [hr]; push_cast; ring
      have hJj : J' ≤ r := by
        by_contra hcon
        have : (r : ℝ) + 1 ≤ J' := by exact_mod_cast (by omega : r + 1 ≤ J')
        have : ((r : ℝ) + 1) * D ≤ J' * D := mul_le_mul_of_nonneg_right this hD.le
        rw [← hmd, hrR] at b2
        have : ((r : ℝ) + 1) * d ≤ (r + 1) * D := mul_le_mul_of_nonneg_left hdD (by positivity)
        linarith
      have hr3 : (3 : ℝ) ≤ r := le_trans b1R (by exact_mod_cast hJj)
      have hr3' : 3 ≤ r := le_trans b1 hJj
      have tr : 3 * d ≤ (r : ℝ) * d := mul_le_mul_of_nonneg_right hr3 hd.le
      have hmd' : ((j : ℝ) + 2 + r - 1) * d = Real.pi := by rw [← hrR]; exact hmd
      have angp := mid_angle (ψ := ((j : ℝ) + 1 + 1 / 2) * d) hd hd' (by linarith) (by linarith)
      have hpa : H (j + 1) ≤ midp H (j + 1) := by
        unfold midp
        have : 0 ≤ (H (j + 1 + 1) - H (j + 1)) / 2 := by
          rw [li]
          refine mul_nonneg (Real.sin_nonneg_of_nonneg_of_le_pi (by positivity) ?_) hsd
          linarith
        linarith
      have tp := hb.rt (j + 1) (by omega) (by omega)
      have K0 : 0 ≤ K' := by
        have := b5 θ t1 (le_refl _) (by linarith)
        linarith
      refine seg_infl_right h hσ (p := midp H (j + 1)) (q := -Real.cos θ) (c := midp H j) (k := k') (K := K') hpa q2 hqc hac hq ?_ ?_ b3 ?_ vb tb ta tp va
      · intro y h1 h2
        have y0 : y ≤ 1 := by
          rw [mi] at h2
          exact h2.trans (abs_mul_cos _ _).2
        obtain ⟨φ, s0, s1, rfl⟩ := angle (hm1.trans h1) y0
        refine h3 φ s0 s1 ?_
        have u1 : φ ≤ ((j : ℝ) + 1 + 1 / 2) * d + d / 16 := by
          rw [mi] at h2
          refine (cos_le_iff (by linarith) (by linarith) s0 s1).1 ?_
          linarith [angp.1]
        have u2 : (j : ℝ) * d ≤ φ := by
          rw [ea] at h1
          exact (cos_le_iff s0 s1 (by positivity) (by linarith)).1 (by linarith)
        rw [abs_le]
        constructor <;> linarith
      · intro y h1 h2
        obtain ⟨φ, s0, s1, rfl⟩ := angle ((hm1.trans q1).trans h1) (h2.trans hm2)
        have u1 : φ ≤ ((j : ℝ) + 1) * d := by
          rw [eb] at h2
          exact (cos_le_iff (by positivity) (by linarith) s0 s1).1 (by linarith)
        have u2 : θ ≤ φ := (cos_le_iff s0 s1 t0 t1).1 (by linarith)
        exact b5 φ s1 u2 (by linarith)
      · have hs := sin_ratio (j := r) (d := d) (by omega) hd.le (by linarith)
        have rr := ratio_mono (by omega) hJj b3 b4
        refine ratio_seg (j := r) (D := (H (j + 1) - H j) / 2) (by omega) b3 K0 (by linarith) ?_ ?_ rr
        · unfold midp at hqc; linarith
        · have e3 : midp H (j + 1) - H (j + 1) = (H (j + 1 + 1) - H (j + 1)) / 2 := by unfold midp; ring
          rw [e3, lj, li]
          have m1 := mul_le_mul_of_nonneg_right hs hsd
          have f1 : Real.sin (((j : ℝ) + 1 / 2) * d) = Real.sin (((r : ℝ) + 1 / 2) * d) := by
            rw [← Real.sin_pi_sub, ← hmd, hrR]; congr 1; ring
          have f2 : Real.sin (((j : ℝ) + 1 + 1 / 2) * d) = Real.sin (((r : ℝ) - 1 / 2) * d) := by
            rw [← Real.sin_pi_sub, ← hmd, hrR]; congr 1; ring
          rw [f1, f2]
          linarith
  · -- no inflection point
    have hsign : (∀ y, H j ≤ y → y ≤ H (j + 1) → 0 ≤ f2 y) ∨ (∀ y, H j ≤ y → y ≤ H (j + 1) → f2 y ≤ 0) := by
      by_contra hcon
      push Not at hcon
      obtain ⟨⟨x, x1, x2, hx⟩, y, y1, y2, hy⟩ := hcon
      have : (0 : ℝ) ∈ f2 '' Set.uIcc x y := intermediate_value_uIcc hcont.continuousOn (by rw [Set.mem_uIcc]; exact Or.inl ⟨hx.le, hy.le⟩)
      obtain ⟨q, hq, hq0⟩ := this
      rw [Set.mem_uIcc] at hq
      refine hz ⟨q, ?_, ?_, hq0⟩ <;> rcases hq with hq | hq <;> linarith [hq.1, hq.2]
    rcases hsign with hs | hs
    · exact seg_convex h hac hcb hs ta.1 tb.1 va.2 vb.2
    · refine Between.neg (seg_convex h.neg hac hcb (fun y a c => neg_nonneg.2 (hs y a c)) ?_ ?_ (neg_le_neg va.1) (neg_le_neg vb.1))
      · rw [tang_neg]; exact neg_le_neg ta.2
      · rw [tang_neg]; exact neg_le_neg tb.2

/-- all segments -/
theorem good_bounds (h : D3 f f1 f2 f3) {m : ℕ} {d D : ℝ} (hm : 4 ≤ m) (hd : 0 < d) (hd' : d ≤ 1 / 4) (hdD : d ≤ D) (hmd : ((m : ℝ) - 1) * d = Real.pi) {H : ℕ → ℝ}
    (hH : ∀ j < m, H j = -Real.cos (j * d)) {b : ℕ → ℝ × ℝ} (hb : NodeOk f f1 m H b) (hG : Good f2 f3 D) : PLBounds m H b f := by
  have main : ∀ j, j + 1 < m → Between f (H j) (H (j + 1)) (b j).1 (b j).2 (b (j + 1)).1 (b (j + 1)).2 := by
    intro j hj
    by_cases hj0 : j = 0
    · subst hj0; exact good_end h hm hd hd' hdD hH hb hG.left
    · by_cases hj1 : j + 2 = m
      · -- the last segment, by reflection
        have hrefl : ∀ i < m, H (m - 1 - i) = Real.cos (i * d) := by
          intro i hi
          rw [hH _ (by omega), Nat.cast_sub (by omega), Nat.cast_sub (by omega), ← Real.cos_pi_sub, ← hmd]
          congr 1
          push_cast; ring
        have := good_end h.refl (H := fun i => -H (m - 1 - i)) (b := fun i => b (m - 1 - i)) hm hd hd' hdD (fun i hi => by rw [hrefl i hi])
          ⟨fun i hi => by beta_reduce; rw [neg_neg]; exact hb.val _ (by omega),
           fun i hi => by
            have := hb.rt (m - 1 - (i + 1)) (by omega) (by omega)
            have e : midp (fun i => -H (m - 1 - i)) i = -midp H (m - 1 - (i + 1)) := by
              unfold midp; rw [show m - 1 - (i + 1) + 1 = m - 1 - i by omega]; ring
            rw [e, tang_refl]
            exact this,
           fun i hi hi' => by
            have := hb.lt (m - 1 - (i + 1)) (by omega)
            have e : midp (fun i => -H (m - 1 - i)) i = -midp H (m - 1 - (i + 1)) := by
              unfold midp; rw [show m - 1 - (i + 1) + 1 = m - 1 - i by omega]; ring
            rw [show m - 1 - (i + 1) + 1 = m - 1 - i by omega] at this
            rw [e, tang_refl]
            exact this⟩ hG.refl.left
        have e0 : m - 1 - 0 = j + 1 := by omega
        have e1 : m - 1 - 1 = j := by omega
        rw [e0, e1] at this
        exact Between.refl this
      · exact good_inner h hd hd' hdD hmd hH hb hG (by omega) (by omega)
  intro j hj t h0 h1
  exact main j hj t h0 h1

end Gslib.Lob
