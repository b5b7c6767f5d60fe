import Verif.Lemmas.QuadExact
import Mathlib.Analysis.Calculus.LocalExtr.Polynomial
import Mathlib.Algebra.Polynomial.Splits
import Mathlib.Tactic.Linarith
import Mathlib.Tactic.Positivity

/-!
# Newton's method for polynomials all of whose zeros are real
-/

namespace Gslib.Poly
open Polynomial Gslib.Spec Gslib.Props

/-- the monic polynomial with zeros `s` -/
noncomputable def prodS (s : Multiset ℝ) : ℝ[X] := (s.map fun z => X - C z).prod

theorem prodS_cons (z : ℝ) (s : Multiset ℝ) : prodS (z ::ₘ s) = (X - C z) * prodS s := by simp [prodS]

theorem prodS_eval_ne (x : ℝ) (s : Multiset ℝ) : x ∉ s → (prodS s).eval x ≠ 0 := by
  induction s using Multiset.induction_on with
  | empty => intro _; simp [prodS]
  | cons z s ih =>
    intro h
    rw [Multiset.mem_cons, not_or] at h
    rw [prodS_cons, eval_mul, eval_sub, eval_X, eval_C]
    exact mul_ne_zero (sub_ne_zero.mpr h.1) (ih h.2)

theorem prodS_d1 (x : ℝ) (s : Multiset ℝ) : x ∉ s →
    (derivative (prodS s)).eval x = (prodS s).eval x * (s.map fun z => 1 / (x - z)).sum := by
  induction s using Multiset.induction_on with
  | empty => intro _; simp [prodS]
  | cons z s ih =>
    intro h
    rw [Multiset.mem_cons, not_or] at h
    have hz : x - z ≠ 0 := sub_ne_zero.mpr h.1
    rw [prodS_cons, derivative_mul, Multiset.map_cons, Multiset.sum_cons]
    simp only [derivative_sub, derivative_X, derivative_C, sub_zero, one_mul, eval_add, eval_mul, eval_sub, eval_X, eval_C, ih h.2]
    field_simp

theorem prodS_d2 (x : ℝ) (s : Multiset ℝ) : x ∉ s →
    (derivative (prodS s)).eval x ^ 2 - (prodS s).eval x * (derivative (derivative (prodS s))).eval x =
      (prodS s).eval x ^ 2 * (s.map fun z => 1 / (x - z) ^ 2).sum := by
  induction s using Multiset.induction_on with
  | empty => intro _; simp [prodS]
  | cons z s ih =>
    intro h
    rw [Multiset.mem_cons, not_or] at h
    have hz : x - z ≠ 0 := sub_ne_zero.mpr h.1
    have ih := ih h.2
    rw [prodS_cons, derivative_mul, Multiset.map_cons, Multiset.sum_cons]
    simp only [derivative_sub, derivative_X, derivative_C, sub_zero, one_mul, derivative_add, derivative_mul, eval_add, eval_mul, eval_sub,
      eval_X, eval_C]
    have e : ((x - z) * (prodS s).eval x) ^ 2 * (1 / (x - z) ^ 2 + (s.map fun z => 1 / (x - z) ^ 2).sum) =
        (prodS s).eval x ^ 2 + (x - z) ^ 2 * ((prodS s).eval x ^ 2 * (s.map fun z => 1 / (x - z) ^ 2).sum) := by
      field_simp
    rw [e, ← ih]; ring

/-- `f` has only real zeros, `s` -/
structure RealRooted (f : ℝ[X]) (c : ℝ) (s : Multiset ℝ) : Prop where
  c0 : c ≠ 0
  eq : f = C c * prodS s

theorem RealRooted.root_iff {f : ℝ[X]} {c : ℝ} {s : Multiset ℝ} (h : RealRooted f c s) (x : ℝ) : f.eval x = 0 ↔ x ∈ s := by
  constructor
  · intro h0
    by_contra hx
    rw [h.eq, eval_mul, eval_C] at h0
    exact mul_ne_zero h.c0 (prodS_eval_ne x s hx) h0
  · intro hx
    obtain ⟨t, rfl⟩ := Multiset.exists_cons_of_mem hx
    rw [h.eq, prodS_cons]; simp

theorem realRooted_of_card (f : ℝ[X]) (h0 : f ≠ 0) (h : Multiset.card f.roots = f.natDegree) : RealRooted f f.leadingCoeff f.roots :=
  ⟨leadingCoeff_ne_zero.mpr h0, (splits_iff_card_roots.mpr h).eq_prod_roots⟩

theorem abs_sum_le (s : Multiset ℝ) (f : ℝ → ℝ) (B : ℝ) (h : ∀ z ∈ s, |f z| ≤ B) : |(s.map f).sum| ≤ Multiset.card s * B := by
  induction s using Multiset.induction_on with
  | empty => simp
  | cons z s ih =>
    rw [Multiset.map_cons, Multiset.sum_cons, Multiset.card_cons]
    have h1 := h z (Multiset.mem_cons_self z s)
    have h2 := ih fun y hy => h y (Multiset.mem_cons_of_mem hy)
    push_cast
    calc _ ≤ |f z| + |(s.map f).sum| := abs_add_le _ _
      _ ≤ _ := by linarith

theorem le_sum_of_mem (s : Multiset ℝ) (f : ℝ → ℝ) (h : ∀ z ∈ s, 0 ≤ f z) (z : ℝ) (hz : z ∈ s) : f z ≤ (s.map f).sum := by
  obtain ⟨t, rfl⟩ := Multiset.exists_cons_of_mem hz
  rw [Multiset.map_cons, Multiset.sum_cons]
  have : 0 ≤ (t.map f).sum := Multiset.sum_nonneg fun y hy => by
    obtain ⟨w, hw, rfl⟩ := Multiset.mem_map.mp hy
    exact h w (Multiset.mem_cons_of_mem hw)
  linarith

/-- some zero is within `deg f * |f/f'|` -/
theorem near_root {f : ℝ[X]} {c : ℝ} {s : Multiset ℝ} (h : RealRooted f c s) (x : ℝ) (hd : (derivative f).eval x ≠ 0) :
    ∃ r ∈ s, |x - r| ≤ Multiset.card s * |f.eval x / (derivative f).eval x| := by
  have hs0 : ∃ r, r ∈ s := by
    by_contra hne
    push Not at hne
    have : s = 0 := Multiset.eq_zero_of_forall_notMem hne
    apply hd
    rw [h.eq, this]; simp [prodS]
  by_cases hx : x ∈ s
  · exact ⟨x, hx, by rw [sub_self, abs_zero]; positivity⟩
  by_contra hc
  push Not at hc
  set B := Multiset.card s * |f.eval x / (derivative f).eval x| with hB
  have hf0 : f.eval x ≠ 0 := fun h0 => hx ((h.root_iff x).mp h0)
  have hcard : 0 < (Multiset.card s : ℝ) := by
    obtain ⟨r, hr⟩ := hs0
    exact_mod_cast Multiset.card_pos.mpr (fun h0 => by rw [h0] at hr; exact Multiset.notMem_zero r hr)
  have hBpos : 0 < B := by
    rw [hB]; exact mul_pos hcard (abs_pos.mpr (div_ne_zero hf0 hd))
  have e : (derivative f).eval x = f.eval x * (s.map fun z => 1 / (x - z)).sum := by
    rw [h.eq, derivative_C_mul, eval_mul, eval_mul, eval_C, prodS_d1 x s hx]; ring
  -- strict bound of the sum
  have key : ∀ t : Multiset ℝ, t ≤ s → t ≠ 0 → |(t.map fun z => 1 / (x - z)).sum| < Multiset.card t * (1 / B) := by
    intro t
    induction t using Multiset.induction_on with
    | empty => intro _ h0; exact absurd rfl h0
    | cons z t ih =>
      intro hts _
      have hz : z ∈ s := Multiset.mem_of_le hts (Multiset.mem_cons_self z t)
      have h1 : |1 / (x - z)| < 1 / B := by
        rw [abs_div, abs_one]; exact one_div_lt_one_div_of_lt hBpos (hc z hz)
      rw [Multiset.map_cons, Multiset.sum_cons, Multiset.card_cons]
      push_cast
      rcases eq_or_ne t 0 with rfl | ht
      · simpa using h1
      · have h2 := ih ((Multiset.le_cons_self t z).trans hts) ht
        calc _ ≤ |1 / (x - z)| + |(t.map fun z => 1 / (x - z)).sum| := abs_add_le _ _
          _ < _ := by linarith
  obtain ⟨r, hr⟩ := hs0
  have hk := key s le_rfl (fun h0 => by rw [h0] at hr; exact Multiset.notMem_zero r hr)
  have hS : |(s.map fun z => 1 / (x - z)).sum| = |(derivative f).eval x| / |f.eval x| := by
    rw [e, abs_mul, mul_div_cancel_left₀ _ (abs_ne_zero.mpr hf0)]
  rw [hS, hB, abs_div] at hk
  have ha : |f.eval x| ≠ 0 := abs_ne_zero.mpr hf0
  have hb : |(derivative f).eval x| ≠ 0 := abs_ne_zero.mpr hd
  have : (Multiset.card s : ℝ) * (1 / (Multiset.card s * (|f.eval x| / |(derivative f).eval x|))) = |(derivative f).eval x| / |f.eval x| := by
    field_simp
  rw [this] at hk
  exact lt_irrefl _ hk

/-- error after a Newton step from a point close to a zero `r` that is separated from the others -/
theorem newton_step_error {f : ℝ[X]} {c : ℝ} {t : Multiset ℝ} {r : ℝ} (h : RealRooted f c (r ::ₘ t)) (γ δ x : ℝ) (hγ : 0 < γ)
    (hsep : ∀ z ∈ t, γ ≤ |r - z|) (hx : |x - r| ≤ δ) (hδ : 4 * (Multiset.card t + 1) * δ ≤ γ) :
    |x - f.eval x / (derivative f).eval x - r| ≤ 2 * Multiset.card t * δ ^ 2 / γ := by
  have hδ0 : 0 ≤ δ := (abs_nonneg _).trans hx
  have hm : (0 : ℝ) ≤ Multiset.card t := Nat.cast_nonneg _
  set m : ℝ := (Multiset.card t : ℝ) with hmd
  have h4 : 4 * δ ≤ γ := by nlinarith
  have hxt : ∀ z ∈ t, 3 / 4 * γ ≤ |x - z| := by
    intro z hz
    have h1 := hsep z hz
    have h2 : |r - z| ≤ |x - r| + |x - z| := by
      calc |r - z| = |(x - z) - (x - r)| := by congr 1; ring
        _ ≤ |x - z| + |x - r| := abs_sub _ _
        _ = _ := by ring
    linarith
  have hnot : x ∉ t := by
    intro hz
    have := hxt x hz
    rw [sub_self, abs_zero] at this
    linarith
  set S := (t.map fun z => 1 / (x - z)).sum with hS
  have hSb : |S| ≤ m * (4 / (3 * γ)) := by
    refine abs_sum_le t _ _ fun z hz => ?_
    rw [abs_div, abs_one]
    have := one_div_le_one_div_of_le (by positivity) (hxt z hz)
    calc _ ≤ _ := this
      _ = _ := by field_simp
  set e := x - r with he
  have hG := prodS_eval_ne x t hnot
  have hf : f.eval x = c * (e * (prodS t).eval x) := by
    rw [h.eq, prodS_cons]; simp [he]
  have hf' : (derivative f).eval x = c * ((prodS t).eval x * (1 + e * S)) := by
    rw [h.eq, prodS_cons, derivative_C_mul, derivative_mul]
    simp only [derivative_sub, derivative_X, derivative_C, sub_zero, one_mul, eval_add, eval_mul, eval_sub, eval_X, eval_C, prodS_d1 x t hnot]
    rw [← hS, ← he]; ring
  have heS : |e * S| ≤ 1 / 3 := by
    rw [abs_mul]
    calc |e| * |S| ≤ δ * (m * (4 / (3 * γ))) := mul_le_mul hx hSb (abs_nonneg _) hδ0
      _ = (4 * m * δ) / γ / 3 := by field_simp
      _ ≤ 1 / 3 := by
        have : 4 * m * δ / γ ≤ 1 := by rw [div_le_one hγ]; nlinarith
        linarith
  have hden : 2 / 3 ≤ 1 + e * S := by
    have := (abs_le.mp heS).1; linarith
  have hden0 : 1 + e * S ≠ 0 := by linarith
  have hc := h.c0
  have hq : f.eval x / (derivative f).eval x = e / (1 + e * S) := by
    rw [hf, hf']
    field_simp
  have hr : x - f.eval x / (derivative f).eval x - r = e ^ 2 * S / (1 + e * S) := by
    rw [hq]
    have : x = e + r := by rw [he]; ring
    rw [this]
    field_simp
    ring
  rw [hr, abs_div, abs_mul, abs_pow, abs_of_pos (by linarith : 0 < 1 + e * S)]
  have h1 : |e| ^ 2 * |S| ≤ δ ^ 2 * (m * (4 / (3 * γ))) :=
    mul_le_mul (pow_le_pow_left₀ (abs_nonneg _) hx 2) hSb (abs_nonneg _) (by positivity)
  calc |e| ^ 2 * |S| / (1 + e * S) ≤ δ ^ 2 * (m * (4 / (3 * γ))) / (2 / 3) :=
        div_le_div₀ (by positivity) h1 (by norm_num) hden
    _ = _ := by field_simp; ring

/-- separation of the zeros of a solution of `(1-x²) f'' = a x f' - b f` -/
theorem zeros_separated {f : ℝ[X]} {c : ℝ} {t : Multiset ℝ} {r : ℝ} (h : RealRooted f c (r ::ₘ t)) (hr : r ∉ t) (a b : ℝ) (ha : 0 < a)
    (hode : (1 - X ^ 2) * derivative (derivative f) = C a * X * derivative f - C b * f) (hr1 : 1 - r ^ 2 ≠ 0) :
    ∀ z ∈ t, 48 * (a ^ 2 + 8 * a) ≤ (a ^ 2 + 8 * a + 4 * (b - a)) ^ 2 * (r - z) ^ 2 := by
  intro z hz
  set G := prodS t with hG
  have hg0 : G.eval r ≠ 0 := prodS_eval_ne r t hr
  have h2 := prodS_d2 r t hr
  set Sg := (t.map fun z => 1 / (r - z) ^ 2).sum with hSg
  have hle : 1 / (r - z) ^ 2 ≤ Sg := le_sum_of_mem t (fun z => 1 / (r - z) ^ 2) (fun y _ => by positivity) z hz
  have hrz : r - z ≠ 0 := sub_ne_zero.mpr fun e => hr (e ▸ hz)
  have ho1 := congrArg (eval r) hode
  have ho2 := congrArg (eval r) (congrArg derivative hode)
  rw [h.eq, prodS_cons, ← hG] at ho1 ho2
  simp only [derivative_mul, derivative_sub, derivative_add, derivative_one, derivative_X_pow, derivative_neg, derivative_C, derivative_X,
    eval_add, eval_mul, eval_sub, eval_one, eval_pow, eval_X, derivative_ofNat, derivative_zero, derivative_natCast,
    eval_neg, eval_C, eval_zero, Nat.cast_ofNat, Nat.add_one_sub_one, pow_one, zero_mul, zero_add, sub_zero, add_zero, mul_zero,
    one_mul, mul_one, eval_ofNat, eval_natCast, C_ofNat, sub_self, zero_sub, eval_C_mul] at ho1 ho2
  rw [← hG] at h2
  set g0 := G.eval r
  set g1 := (derivative G).eval r
  set g2 := (derivative (derivative G)).eval r
  have hc := h.c0
  have e1 : (1 - r ^ 2) * (2 * g1) = a * r * g0 := by
    apply mul_left_cancel₀ hc; linear_combination ho1
  have e2 : (1 - r ^ 2) * (3 * g2) = (a + 2) * r * (2 * g1) - (b - a) * g0 := by
    apply mul_left_cancel₀ hc; linear_combination ho2
  set T := 1 - r ^ 2 with hT
  have hr2 : r ^ 2 = 1 - T := by rw [hT]; ring
  have e3 : 12 * T ^ 2 * Sg = T * (a ^ 2 + 8 * a + 4 * (b - a)) - (a ^ 2 + 8 * a) := by
    apply mul_left_cancel₀ (pow_ne_zero 2 hg0)
    have : g0 ^ 2 * (12 * T ^ 2 * Sg) = 12 * T ^ 2 * (g1 ^ 2 - g0 * g2) := by rw [h2]; ring
    rw [this]
    have q1 : 12 * T ^ 2 * (g1 ^ 2 - g0 * g2) = 3 * (T * (2 * g1)) ^ 2 - 4 * T * g0 * (T * (3 * g2)) := by ring
    rw [q1, e2]
    have q2 : 4 * T * g0 * ((a + 2) * r * (2 * g1) - (b - a) * g0) = 4 * g0 * (a + 2) * r * (T * (2 * g1)) - 4 * T * g0 ^ 2 * (b - a) := by ring
    rw [q2, e1]
    have q3 : 3 * (a * r * g0) ^ 2 - (4 * g0 * (a + 2) * r * (a * r * g0) - 4 * T * g0 ^ 2 * (b - a)) =
        g0 ^ 2 * (3 * a ^ 2 * r ^ 2 - 4 * (a + 2) * a * r ^ 2 + 4 * T * (b - a)) := by ring
    rw [q3, hr2]; ring
  set A := a ^ 2 + 8 * a with hA
  set B := A + 4 * (b - a) with hB
  have hApos : 0 < A := by rw [hA]; positivity
  -- `48 A Sg T² <= B² T²`
  have e4 : 48 * A * Sg ≤ B ^ 2 := by
    have hT2 : 0 < T ^ 2 := by positivity
    have : 48 * A * Sg * T ^ 2 ≤ B ^ 2 * T ^ 2 := by
      have q : 48 * A * Sg * T ^ 2 = 4 * A * (T * B - A) := by rw [← e3]; ring
      rw [q]; nlinarith [sq_nonneg (T * B - 2 * A)]
    exact le_of_mul_le_mul_right this hT2
  have hz2 : 0 < (r - z) ^ 2 := by positivity
  have e5 : 48 * A * (1 / (r - z) ^ 2) ≤ B ^ 2 := (mul_le_mul_of_nonneg_left hle (by positivity)).trans e4
  rw [mul_one_div, div_le_iff₀ hz2] at e5
  exact e5

end Gslib.Poly
