import Mathlib.Analysis.Calculus.Deriv.MeanValue
import Mathlib.Analysis.Calculus.Deriv.Pow
import Mathlib.Analysis.Calculus.Deriv.Add
import Mathlib.Analysis.Calculus.Deriv.Mul
import Mathlib.Tactic.LinearCombination

/-!
# Piecewise linear bounds from tangents at midpoints: one segment

`f` is a function on the reals with derivatives `f1`, `f2`, `f3`. On a segment `[a,b]` with midpoint `c` a pair of lines is given by lower and upper values at `a` and at `b`
that enclose the value of `f` and the tangents at `c` and at the midpoint of the neighbouring segment.
-/

namespace Gslib.Lob

/-- `f1`, `f2`, `f3` are the first three derivatives of `f` -/
structure D3 (f f1 f2 f3 : ℝ → ℝ) : Prop where
  d1 : ∀ x, HasDerivAt f (f1 x) x
  d2 : ∀ x, HasDerivAt f1 (f2 x) x
  d3 : ∀ x, HasDerivAt f2 (f3 x) x

/-- value at `x` of the tangent at `c` -/
def tang (f f1 : ℝ → ℝ) (c x : ℝ) : ℝ := f c + (x - c) * f1 c

theorem le_of_deriv {g g' : ℝ → ℝ} {a b : ℝ} (hg : ∀ x, HasDerivAt g (g' x) x) (hab : a ≤ b) (h : ∀ x, a ≤ x → x ≤ b → 0 ≤ g' x) : g a ≤ g b := by
  have hm : MonotoneOn g (Set.Icc a b) := by
    refine monotoneOn_of_deriv_nonneg (convex_Icc a b) (fun x _ => (hg x).continuousAt.continuousWithinAt) (fun x _ => (hg x).differentiableAt.differentiableWithinAt) ?_
    intro x hx
    rw [interior_Icc] at hx
    rw [(hg x).deriv]
    exact h x hx.1.le hx.2.le
  exact hm ⟨le_refl _, hab⟩ ⟨hab, le_refl _⟩ hab

variable {f f1 f2 f3 : ℝ → ℝ}

theorem D3.neg (h : D3 f f1 f2 f3) : D3 (fun x => -f x) (fun x => -f1 x) (fun x => -f2 x) (fun x => -f3 x) :=
  ⟨fun x => (h.d1 x).neg, fun x => (h.d2 x).neg, fun x => (h.d3 x).neg⟩

theorem deriv_refl {g g' : ℝ → ℝ} (hg : ∀ x, HasDerivAt g (g' x) x) (x : ℝ) : HasDerivAt (fun x => g (-x)) (-g' (-x)) x := by
  have := (hg (-x)).comp x (hasDerivAt_neg x)
  exact this.congr_deriv (by ring)

/-- reflection -/
theorem D3.refl (h : D3 f f1 f2 f3) : D3 (fun x => f (-x)) (fun x => -f1 (-x)) (fun x => f2 (-x)) (fun x => -f3 (-x)) :=
  ⟨fun x => deriv_refl h.d1 x, fun x => ((deriv_refl h.d2 x).neg).congr_deriv (by ring), fun x => deriv_refl h.d3 x⟩

/-- a function with non-negative second derivative is above its tangents -/
theorem tang_le (h : D3 f f1 f2 f3) {a b c x : ℝ} (hc : a ≤ c) (hc' : c ≤ b) (hx : a ≤ x) (hx' : x ≤ b) (h2 : ∀ y, a ≤ y → y ≤ b → 0 ≤ f2 y) : tang f f1 c x ≤ f x := by
  have hd : ∀ y, HasDerivAt (fun y => f y - (y - c) * f1 c) (f1 y - f1 c) y := fun y => by
    have := (h.d1 y).sub (((hasDerivAt_id y).sub_const c).mul_const (f1 c))
    exact this.congr_deriv (by simp)
  unfold tang
  rcases le_total c x with hcx | hcx
  · have := le_of_deriv hd hcx fun y h1 h2' => sub_nonneg.2 (le_of_deriv h.d2 h1 fun z h3 h4 => h2 z (hc.trans h3) ((h4.trans h2').trans hx'))
    simp only [sub_self, zero_mul, sub_zero] at this
    linarith
  · have := le_of_deriv (g := fun y => -(f y - (y - c) * f1 c)) (g' := fun y => -(f1 y - f1 c)) (fun y => (hd y).neg) hcx fun y h1 h2' => by
      have := le_of_deriv h.d2 h2' fun z h3 h4 => h2 z ((hx.trans h1).trans h3) (h4.trans hc')
      linarith
    simp only [sub_self, zero_mul, sub_zero] at this
    linarith

/-- a function with non-negative second derivative is below its chords -/
theorem le_chord (h : D3 f f1 f2 f3) {a b ua ub t : ℝ} (hab : a ≤ b) (h0 : 0 ≤ t) (h1 : t ≤ 1) (h2 : ∀ y, a ≤ y → y ≤ b → 0 ≤ f2 y) (ha : f a ≤ ua) (hb : f b ≤ ub) :
    f ((1 - t) * a + t * b) ≤ (1 - t) * ua + t * ub := by
  have hx : a ≤ (1 - t) * a + t * b := by nlinarith
  have hx' : (1 - t) * a + t * b ≤ b := by nlinarith
  have k1 := tang_le h hx hx' (le_refl a) hab h2
  have k2 := tang_le h hx hx' hab (le_refl b) h2
  unfold tang at k1 k2
  have m1 := mul_le_mul_of_nonneg_left (k1.trans ha) (sub_nonneg.2 h1)
  have m2 := mul_le_mul_of_nonneg_left (k2.trans hb) h0
  linarith

/-- the two lines of a segment -/
def Between (f : ℝ → ℝ) (a b la ua lb ub : ℝ) : Prop :=
  ∀ t, 0 ≤ t → t ≤ 1 → (1 - t) * la + t * lb ≤ f ((1 - t) * a + t * b) ∧ f ((1 - t) * a + t * b) ≤ (1 - t) * ua + t * ub

theorem Between.neg {a b la ua lb ub : ℝ} (h : Between (fun x => -f x) a b (-ua) (-la) (-ub) (-lb)) : Between f a b la ua lb ub := fun t h0 h1 => by
  have := h t h0 h1
  constructor <;> linarith [this.1, this.2]

theorem Between.refl {a b la ua lb ub : ℝ} (h : Between (fun x => f (-x)) (-b) (-a) lb ub la ua) : Between f a b la ua lb ub := fun t h0 h1 => by
  have := h (1 - t) (by linarith) (by linarith)
  beta_reduce at this
  rw [show -((1 - (1 - t)) * -b + (1 - t) * -a) = (1 - t) * a + t * b by ring] at this
  constructor <;> linarith [this.1, this.2]

/-- segments without inflection, convex -/
theorem seg_convex (h : D3 f f1 f2 f3) {a b c la ua lb ub : ℝ} (hac : a ≤ c) (hcb : c ≤ b) (h2 : ∀ y, a ≤ y → y ≤ b → 0 ≤ f2 y)
    (la1 : la ≤ tang f f1 c a) (lb1 : lb ≤ tang f f1 c b) (ua1 : f a ≤ ua) (ub1 : f b ≤ ub) : Between f a b la ua lb ub := by
  intro t h0 h1
  have hab := hac.trans hcb
  refine ⟨?_, le_chord h hab h0 h1 h2 ua1 ub1⟩
  have hx : a ≤ (1 - t) * a + t * b := by nlinarith
  have hx' : (1 - t) * a + t * b ≤ b := by nlinarith
  refine le_trans ?_ (tang_le h hac hcb hx hx' h2)
  have m1 := mul_le_mul_of_nonneg_left la1 (sub_nonneg.2 h1)
  have m2 := mul_le_mul_of_nonneg_left lb1 h0
  unfold tang at *
  linarith

/-- the tangents at `p` (left of `a`) and at the inflection point `q` (right of `a`), compared at `a` -/
theorem tang_left (h : D3 f f1 f2 f3) {p a q k K : ℝ} (hpa : p ≤ a) (haq : a ≤ q) (hq : f2 q = 0) (h3 : ∀ y, p ≤ y → y ≤ q → 0 ≤ f3 y)
    (hk : ∀ y, a ≤ y → y ≤ q → k ≤ f3 y) (hK : ∀ y, a ≤ y → y ≤ q → f3 y ≤ K) (k0 : 0 ≤ k)
    (hkK : 3 * K * ((q - a) ^ 2 - (a - p) ^ 2) ≤ 2 * k * (q - a) ^ 2) : tang f f1 q a ≤ tang f f1 p a := by
  set s := -f2 a with hs
  -- the value at `a` of the tangent at `x`
  have hH : ∀ x, HasDerivAt (fun x => f x + (a - x) * f1 x) ((a - x) * f2 x) x := fun x => by
    have := (h.d1 x).add (((hasDerivAt_const x a).sub (hasDerivAt_id x)).mul (h.d2 x))
    exact this.congr_deriv (by simp)
  have e1 : s * (a - p) ^ 2 / 2 ≤ (f p + (a - p) * f1 p) - f a := by
    have hd : ∀ x, HasDerivAt (fun x => -(f x + (a - x) * f1 x) + s * ((x - a) ^ 2 / 2)) (-((a - x) * f2 x) + s * (x - a)) x := fun x => by
      have h1 : HasDerivAt (fun x : ℝ => s * ((x - a) ^ 2 / 2)) (s * (x - a)) x := by
        have := ((((hasDerivAt_id x).sub_const a).pow 2).div_const 2).const_mul s
        exact this.congr_deriv (by simp)
      exact (hH x).neg.add h1
    have := le_of_deriv hd hpa fun x h1 h2 => by
      have : f2 x ≤ f2 a := le_of_deriv h.d3 h2 fun y h4 h5 => h3 y (h1.trans h4) (h5.trans haq)
      nlinarith
    simp only [sub_self, zero_mul, add_zero, ne_eq, OfNat.ofNat_ne_zero, not_false_eq_true, zero_pow, zero_div, mul_zero] at this
    nlinarith
  have e2 : (f q + (a - q) * f1 q) - f a ≤ s * (q - a) ^ 2 / 2 - k * (q - a) ^ 3 / 3 := by
    have hd : ∀ x, HasDerivAt (fun x => (s * ((x - a) ^ 2 / 2) - k * ((x - a) ^ 3 / 3)) - (f x + (a - x) * f1 x)) ((s * (x - a) - k * (x - a) ^ 2) - (a - x) * f2 x) x := fun x => by
      have h1 : HasDerivAt (fun x : ℝ => s * ((x - a) ^ 2 / 2)) (s * (x - a)) x := by
        have := ((((hasDerivAt_id x).sub_const a).pow 2).div_const 2).const_mul s
        exact this.congr_deriv (by simp)
      have h2 : HasDerivAt (fun x : ℝ => k * ((x - a) ^ 3 / 3)) (k * (x - a) ^ 2) x := by
        have := ((((hasDerivAt_id x).sub_const a).pow 3).div_const 3).const_mul k
        exact this.congr_deriv (by simp)
      exact (h1.sub h2).sub (hH x)
    have := le_of_deriv hd haq fun x h1 h2 => by
      have hd' : ∀ y, HasDerivAt (fun y => f2 y - k * y) (f3 y - k) y := fun y => by
        have := (h.d3 y).sub ((hasDerivAt_id y).const_mul k)
        exact this.congr_deriv (by simp)
      have := le_of_deriv hd' h1 fun y h4 h5 => sub_nonneg.2 (hk y h4 (h5.trans h2))
      have hx : 0 ≤ x - a := sub_nonneg.2 h1
      have : 0 ≤ f2 x + s - k * (x - a) := by rw [hs]; linarith
      nlinarith [mul_nonneg hx this]
    simp only [sub_self, zero_mul, add_zero, ne_eq, OfNat.ofNat_ne_zero, not_false_eq_true, zero_pow, zero_div, mul_zero] at this
    linarith
  have hs1 : s ≤ K * (q - a) := by
    have hd' : ∀ y, HasDerivAt (fun y => K * y - f2 y) (K - f3 y) y := fun y => by
      have := ((hasDerivAt_id y).const_mul K).sub (h.d3 y)
      exact this.congr_deriv (by simp)
    have := le_of_deriv hd' haq fun y h4 h5 => sub_nonneg.2 (hK y h4 h5)
    rw [hq] at this
    rw [hs]
    linarith
  have hs0 : 0 ≤ s := by
    have := le_of_deriv h.d3 haq fun y h4 h5 => h3 y (hpa.trans h4) h5
    rw [hq] at this
    rw [hs]; linarith
  have hqa : 0 ≤ q - a := sub_nonneg.2 haq
  have key : s * (q - a) ^ 2 / 2 - k * (q - a) ^ 3 / 3 ≤ s * (a - p) ^ 2 / 2 := by
    rcases le_total ((q - a) ^ 2) ((a - p) ^ 2) with hle | hle
    · have m1 := mul_le_mul_of_nonneg_left hle hs0
      have m2 : 0 ≤ k * (q - a) ^ 3 := mul_nonneg k0 (pow_nonneg hqa 3)
      linarith
    · have m1 := mul_le_mul_of_nonneg_right hs1 (sub_nonneg.2 hle)
      have m2 := mul_le_mul_of_nonneg_right hkK hqa
      nlinarith
  unfold tang
  linarith

/-- a segment with an inflection point `q` in its left half; concave before, convex after -/
theorem seg_inflection (h : D3 f f1 f2 f3) {p a q c b k K la ua lb ub : ℝ} (hpa : p ≤ a) (haq : a ≤ q) (hqc : q ≤ c) (hcb : c ≤ b) (hq : f2 q = 0)
    (h3 : ∀ y, p ≤ y → y ≤ b → 0 ≤ f3 y) (hk : ∀ y, a ≤ y → y ≤ q → k ≤ f3 y) (hK : ∀ y, a ≤ y → y ≤ q → f3 y ≤ K) (k0 : 0 ≤ k)
    (hkK : 3 * K * ((q - a) ^ 2 - (a - p) ^ 2) ≤ 2 * k * (q - a) ^ 2)
    (la1 : la ≤ f a) (la2 : la ≤ tang f f1 c a) (lb1 : lb ≤ tang f f1 c b) (ua1 : tang f f1 p a ≤ ua) (ub1 : f b ≤ ub) : Between f a b la ua lb ub := by
  have hqb := hqc.trans hcb
  have hneg : ∀ y, a ≤ y → y ≤ q → f2 y ≤ 0 := fun y h1 h2 => by
    have := le_of_deriv h.d3 h2 fun z h4 h5 => h3 z ((hpa.trans h1).trans h4) (h5.trans hqb)
    linarith
  have hpos : ∀ y, q ≤ y → y ≤ b → 0 ≤ f2 y := fun y h1 h2 => by
    have := le_of_deriv h.d3 h1 fun z h4 h5 => h3 z ((hpa.trans haq).trans h4) (h5.trans h2)
    linarith
  have hua : tang f f1 q a ≤ ua := (tang_left h hpa haq hq (fun y h1 h2 => h3 y h1 (h2.trans hqb)) hk hK k0 hkK).trans ua1
  have hub : tang f f1 q b ≤ ub := (tang_le h (le_refl q) hqb hqb (le_refl b) hpos).trans ub1
  intro t h0 h1
  have s0 : 0 ≤ 1 - t := sub_nonneg.2 h1
  set x := (1 - t) * a + t * b with hx
  have hax : a ≤ x := by rw [hx]; nlinarith
  have hxb : x ≤ b := by rw [hx]; nlinarith
  have up : tang f f1 q x ≤ (1 - t) * ua + t * ub := by
    have m1 := mul_le_mul_of_nonneg_left hua s0
    have m2 := mul_le_mul_of_nonneg_left hub h0
    have : tang f f1 q x = (1 - t) * tang f f1 q a + t * tang f f1 q b := by unfold tang; rw [hx]; ring
    linarith
  have lo : (1 - t) * la + t * lb ≤ tang f f1 c x := by
    have m1 := mul_le_mul_of_nonneg_left la2 s0
    have m2 := mul_le_mul_of_nonneg_left lb1 h0
    have : tang f f1 c x = (1 - t) * tang f f1 c a + t * tang f f1 c b := by unfold tang; rw [hx]; ring
    linarith
  rcases le_total x q with hxq | hxq
  · refine ⟨?_, ?_⟩
    · -- concave part, between `a` and `q`
      rcases eq_or_lt_of_le haq with e | hlt
      · have : x = a := le_antisymm (by rw [e]; exact hxq) hax
        have ht : t * (b - a) = 0 := by rw [hx] at this; linarith
        have hcx : tang f f1 c x ≤ f x := by
          rw [this, e]; exact tang_le h hqc hcb (le_refl q) hqb hpos
        exact lo.trans hcx
      · set r := (x - a) / (q - a) with hr
        have hqa : 0 < q - a := sub_pos.2 hlt
        have r0 : 0 ≤ r := div_nonneg (sub_nonneg.2 hax) hqa.le
        have r1 : r ≤ 1 := (div_le_one hqa).2 (by linarith)
        have er : (1 - r) * a + r * q = x := by rw [hr]; field_simp; ring
        have hlq : tang f f1 c q ≤ f q := tang_le h hqc hcb (le_refl q) hqb hpos
        -- value of the lower line at `q`
        have key := le_chord h.neg (a := a) (b := q) (ua := -la) (ub := -((1 - (q - a) / (b - a)) * la + (q - a) / (b - a) * lb)) haq r0 r1
          (fun y h1 h2 => neg_nonneg.2 (hneg y h1 h2)) (neg_le_neg la1) (by
            have hba : 0 < b - a := by linarith
            set u := (q - a) / (b - a) with hu
            have u0 : 0 ≤ u := div_nonneg hqa.le hba.le
            have u1 : u ≤ 1 := (div_le_one hba).2 (by linarith)
            have eu : (1 - u) * a + u * b = q := by rw [hu]; field_simp; ring
            have m1 := mul_le_mul_of_nonneg_left la2 (sub_nonneg.2 u1)
            have m2 := mul_le_mul_of_nonneg_left lb1 u0
            have : tang f f1 c q = (1 - u) * tang f f1 c a + u * tang f f1 c b := by unfold tang; rw [← eu]; ring
            have hh : (1 - u) * la + u * lb ≤ f q := by linarith
            exact neg_le_neg hh)
        rw [er] at key
        have hba : b - a ≠ 0 := by intro e; linarith
        have hxt : x - a = t * (b - a) := by rw [hx]; ring
        have e2 : r * ((q - a) / (b - a)) = t := by rw [hr, hxt]; field_simp
        have e3 : (1 - r) * -la + r * -((1 - (q - a) / (b - a)) * la + (q - a) / (b - a) * lb) = -((1 - t) * la + t * lb) := by
          rw [← e2]; ring
        rw [e3] at key
        linarith
    · have := tang_le h.neg (a := a) (b := q) (c := q) (x := x) haq (le_refl q) hax hxq fun y h1 h2 => neg_nonneg.2 (hneg y h1 h2)
      unfold tang at this up
      linarith
  · refine ⟨lo.trans (tang_le h hqc hcb hxq hxb hpos), ?_⟩
    -- convex part, between `q` and `b`
    rcases eq_or_lt_of_le hqb with e | hlt
    · have : x = q := le_antisymm (by rw [e]; exact hxb) hxq
      rw [this]
      rw [this] at up
      unfold tang at up
      linarith
    · set r := (x - q) / (b - q) with hr
      have hbq : 0 < b - q := sub_pos.2 hlt
      have r0 : 0 ≤ r := div_nonneg (sub_nonneg.2 hxq) hbq.le
      have r1 : r ≤ 1 := (div_le_one hbq).2 (by linarith)
      have er : (1 - r) * q + r * b = x := by rw [hr]; field_simp; ring
      have hba : 0 < b - a := by linarith
      have key := le_chord h (a := q) (b := b) (ua := (1 - (q - a) / (b - a)) * ua + (q - a) / (b - a) * ub) (ub := ub) hqb r0 r1 hpos (by
          set u := (q - a) / (b - a) with hu
          have u0 : 0 ≤ u := div_nonneg (by linarith) hba.le
          have u1 : u ≤ 1 := (div_le_one hba).2 (by linarith)
          have eu : (1 - u) * a + u * b = q := by rw [hu]; field_simp; ring
          have m1 := mul_le_mul_of_nonneg_left hua (sub_nonneg.2 u1)
          have m2 := mul_le_mul_of_nonneg_left hub u0
          have : tang f f1 q q = (1 - u) * tang f f1 q a + u * tang f f1 q b := by
            unfold tang; linear_combination -(f1 q) * eu
          have e0 : tang f f1 q q = f q := by unfold tang; ring
          linarith) ub1
      rw [er] at key
      have hxt : x - a = t * (b - a) := by rw [hx]; ring
      have hxq' : x - q = r * (b - q) := by rw [hr]; field_simp
      have e3 : (1 - r) * ((1 - (q - a) / (b - a)) * ua + (q - a) / (b - a) * ub) + r * ub = (1 - t) * ua + t * ub := by
        have e4 : (1 - r) * (1 - (q - a) / (b - a)) = 1 - t := by
          have hba' := hba.ne'
          field_simp
          linarith
        linear_combination (ua - ub) * e4
      rw [e3] at key
      exact key

/-- the first segment `[a,b]`, convex: the tangent at `p` (right of `b`) is used at `b`; at `a` the value itself is used -/
theorem seg_end (h : D3 f f1 f2 f3) {a b p k K la ua lb ub : ℝ} (hab : a ≤ b) (hbp : b ≤ p) (hk : ∀ y, a ≤ y → y ≤ p → k ≤ f2 y) (hK : ∀ y, a ≤ y → y ≤ p → f2 y ≤ K)
    (k0 : 0 ≤ k) (hkK : K * (b - a) ^ 2 ≤ k * (p - b) ^ 2) (la1 : la ≤ f a) (lb1 : lb ≤ tang f f1 p b) (ua1 : f a ≤ ua) (ub1 : f b ≤ ub) : Between f a b la ua lb ub := by
  have h2 : ∀ y, a ≤ y → y ≤ p → 0 ≤ f2 y := fun y h1 h2 => k0.trans (hk y h1 h2)
  have h2' : ∀ y, a ≤ y → y ≤ b → 0 ≤ f2 y := fun y h1 h3 => h2 y h1 (h3.trans hbp)
  -- the tangent at `p` is below `f` by at least `k (p-b)^2/2` at `b`
  have e1 : tang f f1 p b ≤ f b - k * (p - b) ^ 2 / 2 := by
    have hd : ∀ x, HasDerivAt (fun x => -(f x + (b - x) * f1 x) - k * ((x - b) ^ 2 / 2)) (-((b - x) * f2 x) - k * (x - b)) x := fun x => by
      have h1 : HasDerivAt (fun x : ℝ => k * ((x - b) ^ 2 / 2)) (k * (x - b)) x := by
        have := ((((hasDerivAt_id x).sub_const b).pow 2).div_const 2).const_mul k
        exact this.congr_deriv (by simp)
      have hH : HasDerivAt (fun x => f x + (b - x) * f1 x) ((b - x) * f2 x) x := by
        have := (h.d1 x).add (((hasDerivAt_const x b).sub (hasDerivAt_id x)).mul (h.d2 x))
        exact this.congr_deriv (by simp)
      exact hH.neg.sub h1
    have := le_of_deriv hd hbp fun x h1 h2 => by
      have := hk x (hab.trans h1) h2
      nlinarith
    simp only [sub_self, zero_mul, add_zero, ne_eq, OfNat.ofNat_ne_zero, not_false_eq_true, zero_pow, zero_div, mul_zero, sub_zero] at this
    unfold tang
    linarith
  -- `f` is above its tangent at `a` by at most `K (b-a)^2/2` at `b`
  have e2 : f b ≤ tang f f1 a b + K * (b - a) ^ 2 / 2 := by
    have hd1 : ∀ x, HasDerivAt (fun x => K * x - f1 x) (K - f2 x) x := fun x => by
      have := ((hasDerivAt_id x).const_mul K).sub (h.d2 x)
      exact this.congr_deriv (by simp)
    have hd : ∀ x, HasDerivAt (fun x => ((x - a) * f1 a + K * ((x - a) ^ 2 / 2)) - f x) ((f1 a + K * (x - a)) - f1 x) x := fun x => by
      have h1 : HasDerivAt (fun x : ℝ => K * ((x - a) ^ 2 / 2)) (K * (x - a)) x := by
        have := ((((hasDerivAt_id x).sub_const a).pow 2).div_const 2).const_mul K
        exact this.congr_deriv (by simp)
      have h2 : HasDerivAt (fun x : ℝ => (x - a) * f1 a) (f1 a) x := by
        have := ((hasDerivAt_id x).sub_const a).mul_const (f1 a)
        exact this.congr_deriv (by simp)
      exact (h2.add h1).sub (h.d1 x)
    have := le_of_deriv hd hab fun x h1 h2 => by
      have := le_of_deriv hd1 h1 fun y h4 h5 => sub_nonneg.2 (hK y h4 ((h5.trans h2).trans hbp))
      linarith
    simp only [sub_self, zero_mul, add_zero, ne_eq, OfNat.ofNat_ne_zero, not_false_eq_true, zero_pow, zero_div, mul_zero, zero_add] at this
    unfold tang
    linarith
  intro t h0 h1
  refine ⟨?_, le_chord h hab h0 h1 h2' ua1 ub1⟩
  have hx : a ≤ (1 - t) * a + t * b := by nlinarith
  have hx' : (1 - t) * a + t * b ≤ b := by nlinarith
  refine le_trans ?_ (tang_le h (le_refl a) hab hx hx' h2')
  have m1 := mul_le_mul_of_nonneg_left la1 (sub_nonneg.2 h1)
  have lb2 : lb ≤ tang f f1 a b := by linarith
  have m2 := mul_le_mul_of_nonneg_left lb2 h0
  unfold tang at *
  linarith

end Gslib.Lob
