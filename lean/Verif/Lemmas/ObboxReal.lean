import Verif.Lemmas.ObboxCalc3
import Verif.Spec.Obbox
import Mathlib.Analysis.Calculus.Deriv.Polynomial
import Mathlib.Analysis.Calculus.Deriv.Add
import Mathlib.Analysis.Calculus.LocalExtr.Basic
import Mathlib.Topology.Algebra.Polynomial

/-!
# Extrema of polynomials on the square and on the cube
-/

namespace Gslib.Obb
open Gslib.Num Gslib.Poly Gslib.Lob Gslib.Spec Finset Polynomial

/-- a function without critical points inside attains its maximum on the boundary -/
theorem max2 {f fr fs : ℝ → ℝ → ℝ} (hc : Continuous fun p : ℝ × ℝ => f p.1 p.2) (hr : ∀ r s, HasDerivAt (fun a => f a s) (fr r s) r) (hs : ∀ r s, HasDerivAt (fun b => f r b) (fs r s) s)
    (hg : ∀ r s, -1 < r → r < 1 → -1 < s → s < 1 → fr r s ≠ 0 ∨ fs r s ≠ 0) {M : ℝ}
    (hM : ∀ r s, -1 ≤ r → r ≤ 1 → -1 ≤ s → s ≤ 1 → (r = -1 ∨ r = 1 ∨ s = -1 ∨ s = 1) → f r s ≤ M) :
    ∀ r s, -1 ≤ r → r ≤ 1 → -1 ≤ s → s ≤ 1 → f r s ≤ M := by
  intro r s h1 h2 h3 h4
  have hcomp : IsCompact (Set.Icc (-1 : ℝ) 1 ×ˢ Set.Icc (-1 : ℝ) 1) := isCompact_Icc.prod isCompact_Icc
  obtain ⟨⟨r0, s0⟩, hm, hmax⟩ := hcomp.exists_isMaxOn ⟨(r, s), ⟨⟨h1, h2⟩, ⟨h3, h4⟩⟩⟩ hc.continuousOn
  obtain ⟨⟨a1, a2⟩, ⟨a3, a4⟩⟩ := hm
  have hle : f r s ≤ f r0 s0 := hmax (show (r, s) ∈ _ from ⟨⟨h1, h2⟩, ⟨h3, h4⟩⟩)
  refine hle.trans ?_
  by_cases hb : r0 = -1 ∨ r0 = 1 ∨ s0 = -1 ∨ s0 = 1
  · exact hM r0 s0 a1 a2 a3 a4 hb
  · push Not at hb
    exfalso
    have b1 : -1 < r0 := lt_of_le_of_ne a1 (Ne.symm hb.1)
    have b2 : r0 < 1 := lt_of_le_of_ne a2 hb.2.1
    have b3 : -1 < s0 := lt_of_le_of_ne a3 (Ne.symm hb.2.2.1)
    have b4 : s0 < 1 := lt_of_le_of_ne a4 hb.2.2.2
    have l1 : IsLocalMax (fun a => f a s0) r0 := by
      filter_upwards [Ioo_mem_nhds b1 b2] with a ha
      exact hmax (show (a, s0) ∈ _ from ⟨⟨ha.1.le, ha.2.le⟩, ⟨a3, a4⟩⟩)
    have l2 : IsLocalMax (fun b => f r0 b) s0 := by
      filter_upwards [Ioo_mem_nhds b3 b4] with b hb
      exact hmax (show (r0, b) ∈ _ from ⟨⟨a1, a2⟩, ⟨hb.1.le, hb.2.le⟩⟩)
    rcases hg r0 s0 b1 b2 b3 b4 with h | h
    · exact h (l1.hasDerivAt_eq_zero (hr r0 s0))
    · exact h (l2.hasDerivAt_eq_zero (hs r0 s0))

/-- the same on the cube -/
theorem max3 {f fr fs ft : ℝ → ℝ → ℝ → ℝ} (hc : Continuous fun p : ℝ × ℝ × ℝ => f p.1 p.2.1 p.2.2) (hr : ∀ r s t, HasDerivAt (fun a => f a s t) (fr r s t) r)
    (hs : ∀ r s t, HasDerivAt (fun b => f r b t) (fs r s t) s) (ht : ∀ r s t, HasDerivAt (fun c => f r s c) (ft r s t) t)
    (hg : ∀ r s t, -1 < r → r < 1 → -1 < s → s < 1 → -1 < t → t < 1 → fr r s t ≠ 0 ∨ fs r s t ≠ 0 ∨ ft r s t ≠ 0) {M : ℝ}
    (hM : ∀ r s t, -1 ≤ r → r ≤ 1 → -1 ≤ s → s ≤ 1 → -1 ≤ t → t ≤ 1 → (r = -1 ∨ r = 1 ∨ s = -1 ∨ s = 1 ∨ t = -1 ∨ t = 1) → f r s t ≤ M) :
    ∀ r s t, -1 ≤ r → r ≤ 1 → -1 ≤ s → s ≤ 1 → -1 ≤ t → t ≤ 1 → f r s t ≤ M := by
  intro r s t h1 h2 h3 h4 h5 h6
  have hcomp : IsCompact (Set.Icc (-1 : ℝ) 1 ×ˢ Set.Icc (-1 : ℝ) 1 ×ˢ Set.Icc (-1 : ℝ) 1) := isCompact_Icc.prod (isCompact_Icc.prod isCompact_Icc)
  obtain ⟨⟨r0, s0, t0⟩, hm, hmax⟩ := hcomp.exists_isMaxOn ⟨(r, s, t), ⟨⟨h1, h2⟩, ⟨h3, h4⟩, ⟨h5, h6⟩⟩⟩ hc.continuousOn
  obtain ⟨⟨a1, a2⟩, ⟨a3, a4⟩, ⟨a5, a6⟩⟩ := hm
  have hle : f r s t ≤ f r0 s0 t0 := hmax (show (r, s, t) ∈ _ from ⟨⟨h1, h2⟩, ⟨h3, h4⟩, ⟨h5, h6⟩⟩)
  refine hle.trans ?_
  by_cases hb : r0 = -1 ∨ r0 = 1 ∨ s0 = -1 ∨ s0 = 1 ∨ t0 = -1 ∨ t0 = 1
  · exact hM r0 s0 t0 a1 a2 a3 a4 a5 a6 hb
  · push Not at hb
    exfalso
    have b1 : -1 < r0 := lt_of_le_of_ne a1 (Ne.symm hb.1)
    have b2 : r0 < 1 := lt_of_le_of_ne a2 hb.2.1
    have b3 : -1 < s0 := lt_of_le_of_ne a3 (Ne.symm hb.2.2.1)
    have b4 : s0 < 1 := lt_of_le_of_ne a4 hb.2.2.2.1
    have b5 : -1 < t0 := lt_of_le_of_ne a5 (Ne.symm hb.2.2.2.2.1)
    have b6 : t0 < 1 := lt_of_le_of_ne a6 hb.2.2.2.2.2
    have l1 : IsLocalMax (fun a => f a s0 t0) r0 := by
      filter_upwards [Ioo_mem_nhds b1 b2] with a ha
      exact hmax (show (a, s0, t0) ∈ _ from ⟨⟨ha.1.le, ha.2.le⟩, ⟨a3, a4⟩, ⟨a5, a6⟩⟩)
    have l2 : IsLocalMax (fun b => f r0 b t0) s0 := by
      filter_upwards [Ioo_mem_nhds b3 b4] with b hb
      exact hmax (show (r0, b, t0) ∈ _ from ⟨⟨a1, a2⟩, ⟨hb.1.le, hb.2.le⟩, ⟨a5, a6⟩⟩)
    have l3 : IsLocalMax (fun c => f r0 s0 c) t0 := by
      filter_upwards [Ioo_mem_nhds b5 b6] with b hb
      exact hmax (show (r0, s0, b) ∈ _ from ⟨⟨a1, a2⟩, ⟨a3, a4⟩, ⟨hb.1.le, hb.2.le⟩⟩)
    rcases hg r0 s0 t0 b1 b2 b3 b4 b5 b6 with h | h | h
    · exact h (l1.hasDerivAt_eq_zero (hr r0 s0 t0))
    · exact h (l2.hasDerivAt_eq_zero (hs r0 s0 t0))
    · exact h (l3.hasDerivAt_eq_zero (ht r0 s0 t0))

theorem basisAt_hasDeriv (n : Nat) (z : Nat → ℝ) (i : Nat) (x : ℝ) : HasDerivAt (fun a => basisAt n z i a) (dbasis n z x i) x := (Lagrange.basis (range n) z i).hasDerivAt x

theorem basisAt_cont (n : Nat) (z : Nat → ℝ) (i : Nat) : Continuous fun a => basisAt n z i a := (Lagrange.basis (range n) z i).continuous

section two
variable (nr : Nat) (zr : Nat → ℝ) (ns : Nat) (zs : Nat → ℝ) (V : Nat → ℝ)

theorem poly2_cont : Continuous fun p : ℝ × ℝ => poly2 nr zr ns zs V p.1 p.2 := by
  unfold poly2
  refine continuous_finsetSum _ fun j _ => Continuous.mul (continuous_finsetSum _ fun i _ => continuous_const.mul ((basisAt_cont nr zr i).comp continuous_fst)) ((basisAt_cont ns zs j).comp continuous_snd)

theorem poly2_dr (r s : ℝ) : HasDerivAt (fun a => poly2 nr zr ns zs V a s) (bil nr (dbasis nr zr r) ns (fun j => basisAt ns zs j s) V) r := by
  unfold poly2 bil
  refine HasDerivAt.fun_sum fun j _ => HasDerivAt.mul_const (HasDerivAt.fun_sum fun i _ => HasDerivAt.const_mul _ (basisAt_hasDeriv nr zr i r)) _

theorem poly2_ds (r s : ℝ) : HasDerivAt (fun b => poly2 nr zr ns zs V r b) (bil nr (fun i => basisAt nr zr i r) ns (dbasis ns zs s) V) s := by
  unfold poly2 bil
  refine HasDerivAt.fun_sum fun j _ => HasDerivAt.const_mul _ (basisAt_hasDeriv ns zs j s)
end two

section three
variable (nr : Nat) (zr : Nat → ℝ) (ns : Nat) (zs : Nat → ℝ) (nt : Nat) (zt : Nat → ℝ) (V : Nat → ℝ)

theorem poly3_cont : Continuous fun p : ℝ × ℝ × ℝ => poly3 nr zr ns zs nt zt V p.1 p.2.1 p.2.2 := by
  unfold poly3
  refine continuous_finsetSum _ fun k _ => Continuous.mul (continuous_finsetSum _ fun j _ => Continuous.mul (continuous_finsetSum _ fun i _ =>
    continuous_const.mul ((basisAt_cont nr zr i).comp continuous_fst)) ((basisAt_cont ns zs j).comp (continuous_fst.comp continuous_snd))) ((basisAt_cont nt zt k).comp (continuous_snd.comp continuous_snd))

theorem poly3_dr (r s t : ℝ) : HasDerivAt (fun a => poly3 nr zr ns zs nt zt V a s t) (tril nr (dbasis nr zr r) ns (fun j => basisAt ns zs j s) nt (fun k => basisAt nt zt k t) V) r := by
  unfold poly3 tril
  refine HasDerivAt.fun_sum fun k _ => HasDerivAt.mul_const (HasDerivAt.fun_sum fun j _ => HasDerivAt.mul_const (HasDerivAt.fun_sum fun i _ => HasDerivAt.const_mul _ (basisAt_hasDeriv nr zr i r)) _) _

theorem poly3_ds (r s t : ℝ) : HasDerivAt (fun b => poly3 nr zr ns zs nt zt V r b t) (tril nr (fun i => basisAt nr zr i r) ns (dbasis ns zs s) nt (fun k => basisAt nt zt k t) V) s := by
  unfold poly3 tril
  refine HasDerivAt.fun_sum fun k _ => HasDerivAt.mul_const (HasDerivAt.fun_sum fun j _ => HasDerivAt.const_mul _ (basisAt_hasDeriv ns zs j s)) _

theorem poly3_dt (r s t : ℝ) : HasDerivAt (fun c => poly3 nr zr ns zs nt zt V r s c) (tril nr (fun i => basisAt nr zr i r) ns (fun j => basisAt ns zs j s) nt (dbasis nt zt t) V) t := by
  unfold poly3 tril
  refine HasDerivAt.fun_sum fun k _ => HasDerivAt.const_mul _ (basisAt_hasDeriv nt zt k t)
end three

theorem full2 {f fr fs : ℝ → ℝ → ℝ} (hc : Continuous fun p : ℝ × ℝ => f p.1 p.2) (hr : ∀ r s, HasDerivAt (fun a => f a s) (fr r s) r) (hs : ∀ r s, HasDerivAt (fun b => f r b) (fs r s) s)
    (hg : ∀ r s, -1 < r → r < 1 → -1 < s → s < 1 → fr r s ≠ 0 ∨ fs r s ≠ 0) {b : ℝ × ℝ}
    (hM : ∀ r s, -1 ≤ r → r ≤ 1 → -1 ≤ s → s ≤ 1 → (r = -1 ∨ r = 1 ∨ s = -1 ∨ s = 1) → b.1 ≤ f r s ∧ f r s ≤ b.2) :
    (∀ r s, -1 ≤ r → r ≤ 1 → -1 ≤ s → s ≤ 1 → b.1 ≤ f r s ∧ f r s ≤ b.2) ∧ b.1 < b.2 := by
  have h1 := max2 hc hr hs hg (M := b.2) (fun r s a1 a2 a3 a4 h => (hM r s a1 a2 a3 a4 h).2)
  have h2 := max2 (f := fun r s => - f r s) (fr := fun r s => - fr r s) (fs := fun r s => - fs r s) hc.neg (fun r s => (hr r s).neg) (fun r s => (hs r s).neg)
    (fun r s a1 a2 a3 a4 => by simpa using hg r s a1 a2 a3 a4) (M := -b.1) (fun r s a1 a2 a3 a4 h => neg_le_neg (hM r s a1 a2 a3 a4 h).1)
  have h : ∀ r s, -1 ≤ r → r ≤ 1 → -1 ≤ s → s ≤ 1 → b.1 ≤ f r s ∧ f r s ≤ b.2 := fun r s a1 a2 a3 a4 => ⟨neg_le_neg_iff.1 (h2 r s a1 a2 a3 a4), h1 r s a1 a2 a3 a4⟩
  refine ⟨h, ?_⟩
  by_contra hb
  have hb := not_lt.1 hb
  have hle : ∀ r s, -1 ≤ r → r ≤ 1 → -1 ≤ s → s ≤ 1 → f r s ≤ f 0 0 := fun r s a1 a2 a3 a4 =>
    ((h r s a1 a2 a3 a4).2.trans hb).trans (h 0 0 (by norm_num) (by norm_num) (by norm_num) (by norm_num)).1
  have hn : Set.Ioo (-1 : ℝ) 1 ∈ nhds (0 : ℝ) := Ioo_mem_nhds (by norm_num) (by norm_num)
  have l1 : IsLocalMax (fun a => f a 0) 0 := by
    filter_upwards [hn] with a ha
    exact hle a 0 ha.1.le ha.2.le (by norm_num) (by norm_num)
  have l2 : IsLocalMax (fun b => f 0 b) 0 := by
    filter_upwards [hn] with a ha
    exact hle 0 a (by norm_num) (by norm_num) ha.1.le ha.2.le
  rcases hg 0 0 (by norm_num) (by norm_num) (by norm_num) (by norm_num) with h | h
  · exact h (l1.hasDerivAt_eq_zero (hr 0 0))
  · exact h (l2.hasDerivAt_eq_zero (hs 0 0))

theorem full3 {f fr fs ft : ℝ → ℝ → ℝ → ℝ} (hc : Continuous fun p : ℝ × ℝ × ℝ => f p.1 p.2.1 p.2.2) (hr : ∀ r s t, HasDerivAt (fun a => f a s t) (fr r s t) r)
    (hs : ∀ r s t, HasDerivAt (fun b => f r b t) (fs r s t) s) (ht : ∀ r s t, HasDerivAt (fun c => f r s c) (ft r s t) t)
    (hg : ∀ r s t, -1 < r → r < 1 → -1 < s → s < 1 → -1 < t → t < 1 → fr r s t ≠ 0 ∨ fs r s t ≠ 0 ∨ ft r s t ≠ 0) {b : ℝ × ℝ}
    (hM : ∀ r s t, -1 ≤ r → r ≤ 1 → -1 ≤ s → s ≤ 1 → -1 ≤ t → t ≤ 1 → (r = -1 ∨ r = 1 ∨ s = -1 ∨ s = 1 ∨ t = -1 ∨ t = 1) → b.1 ≤ f r s t ∧ f r s t ≤ b.2) :
    (∀ r s t, -1 ≤ r → r ≤ 1 → -1 ≤ s → s ≤ 1 → -1 ≤ t → t ≤ 1 → b.1 ≤ f r s t ∧ f r s t ≤ b.2) ∧ b.1 < b.2 := by
  have h1 := max3 hc hr hs ht hg (M := b.2) (fun r s t a1 a2 a3 a4 a5 a6 h => (hM r s t a1 a2 a3 a4 a5 a6 h).2)
  have h2 := max3 (f := fun r s t => - f r s t) (fr := fun r s t => - fr r s t) (fs := fun r s t => - fs r s t) (ft := fun r s t => - ft r s t) hc.neg (fun r s t => (hr r s t).neg)
    (fun r s t => (hs r s t).neg) (fun r s t => (ht r s t).neg)
    (fun r s t a1 a2 a3 a4 a5 a6 => by simpa using hg r s t a1 a2 a3 a4 a5 a6) (M := -b.1) (fun r s t a1 a2 a3 a4 a5 a6 h => neg_le_neg (hM r s t a1 a2 a3 a4 a5 a6 h).1)
  have h : ∀ r s t, -1 ≤ r → r ≤ 1 → -1 ≤ s → s ≤ 1 → -1 ≤ t → t ≤ 1 → b.1 ≤ f r s t ∧ f r s t ≤ b.2 :=
    fun r s t a1 a2 a3 a4 a5 a6 => ⟨neg_le_neg_iff.1 (h2 r s t a1 a2 a3 a4 a5 a6), h1 r s t a1 a2 a3 a4 a5 a6⟩
  refine ⟨h, ?_⟩
  by_contra hb
  have hb := not_lt.1 hb
  have hle : ∀ r s t, -1 ≤ r → r ≤ 1 → -1 ≤ s → s ≤ 1 → -1 ≤ t → t ≤ 1 → f r s t ≤ f 0 0 0 := fun r s t a1 a2 a3 a4 a5 a6 =>
    ((h r s t a1 a2 a3 a4 a5 a6).2.trans hb).trans (h 0 0 0 (by norm_num) (by norm_num) (by norm_num) (by norm_num) (by norm_num) (by norm_num)).1
  have hn : Set.Ioo (-1 : ℝ) 1 ∈ nhds (0 : ℝ) := Ioo_mem_nhds (by norm_num) (by norm_num)
  have l1 : IsLocalMax (fun a => f a 0 0) 0 := by
    filter_upwards [hn] with a ha
    exact hle a 0 0 ha.1.le ha.2.le (by norm_num) (by norm_num) (by norm_num) (by norm_num)
  have l2 : IsLocalMax (fun b => f 0 b 0) 0 := by
    filter_upwards [hn] with a ha
    exact hle 0 a 0 (by norm_num) (by norm_num) ha.1.le ha.2.le (by norm_num) (by norm_num)
  have l3 : IsLocalMax (fun b => f 0 0 b) 0 := by
    filter_upwards [hn] with a ha
    exact hle 0 0 a (by norm_num) (by norm_num) (by norm_num) (by norm_num) ha.1.le ha.2.le
  rcases hg 0 0 0 (by norm_num) (by norm_num) (by norm_num) (by norm_num) (by norm_num) (by norm_num) with h | h | h
  · exact h (l1.hasDerivAt_eq_zero (hr 0 0 0))
  · exact h (l2.hasDerivAt_eq_zero (hs 0 0 0))
  · exact h (l3.hasDerivAt_eq_zero (ht 0 0 0))

/-- a point in the ranges is in the box, with a margin of the tolerance in the parallelogram -/
theorem mkBox_in {d : Nat} {x0 : Nat → ℝ} {J Ji : Nat → Nat → ℝ} {ab tb : Nat → ℝ × ℝ} {tol : ℝ} (htol : 0 ≤ tol) (hJ : ∀ c < d, ∀ f < d, ∑ e ∈ range d, Ji c e * J e f = if c = f then 1 else 0)
    (hw : ∀ c < d, (tb c).1 < (tb c).2) {p : Nat → ℝ} (hab : ∀ c < d, (ab c).1 ≤ p c ∧ p c ≤ (ab c).2)
    (htb : ∀ c < d, (tb c).1 ≤ ∑ e ∈ range d, Ji c e * (p e - x0 e) ∧ ∑ e ∈ range d, Ji c e * (p e - x0 e) ≤ (tb c).2) :
    InBox d (mkBox d x0 J Ji ab tb tol).c0 (mkBox d x0 J Ji ab tb tol).A (mkBox d x0 J Ji ab tb tol).x p ∧
      ∀ c < d, |∑ e ∈ range d, (mkBox d x0 J Ji ab tb tol).A c e * (p e - (mkBox d x0 J Ji ab tb tol).c0 e)| ≤ 1 / (1 + tol) := by
  have key : ∀ c < d, ((mkBox d x0 J Ji ab tb tol).x c).1 ≤ p c ∧ p c ≤ ((mkBox d x0 J Ji ab tb tol).x c).2 := by
    intro c hc
    obtain ⟨h1, h2⟩ := hab c hc
    have : 0 ≤ ((ab c).2 - (ab c).1) * tol := mul_nonneg (by linarith) htol
    show ((ab c).1 + (ab c).2) / 2 - ((ab c).2 - (ab c).1) * (1 + tol) / 2 ≤ p c ∧ p c ≤ ((ab c).1 + (ab c).2) / 2 + ((ab c).2 - (ab c).1) * (1 + tol) / 2
    constructor <;> nlinarith
  suffices hk : ∀ c < d, |∑ e ∈ range d, (mkBox d x0 J Ji ab tb tol).A c e * (p e - (mkBox d x0 J Ji ab tb tol).c0 e)| ≤ 1 / (1 + tol) by
    refine ⟨fun c hc => ⟨key c hc, ?_⟩, hk⟩
    have h1 : 1 / (1 + tol) ≤ 1 := by rw [div_le_one (by linarith)]; linarith
    exact abs_le.1 ((hk c hc).trans h1)
  intro c hc
  · obtain ⟨h1, h2⟩ := htb c hc
    have hwc := sub_pos.2 (hw c hc)
    have e : ∑ e ∈ range d, (mkBox d x0 J Ji ab tb tol).A c e * (p e - (mkBox d x0 J Ji ab tb tol).c0 e) =
        2 / ((1 + tol) * ((tb c).2 - (tb c).1)) * (∑ e ∈ range d, Ji c e * (p e - x0 e) - ((tb c).1 + (tb c).2) / 2) := by
      have e1 : ∑ e ∈ range d, Ji c e * ∑ f ∈ range d, J e f * (((tb f).1 + (tb f).2) / 2) = ((tb c).1 + (tb c).2) / 2 := by
        have : ∀ e ∈ range d, Ji c e * ∑ f ∈ range d, J e f * (((tb f).1 + (tb f).2) / 2) = ∑ f ∈ range d, Ji c e * J e f * (((tb f).1 + (tb f).2) / 2) := by
          intro e _
          rw [mul_sum]
          refine sum_congr rfl fun f _ => ?_
          ring
        rw [sum_congr rfl this, sum_comm]
        have : ∀ f ∈ range d, ∑ e ∈ range d, Ji c e * J e f * (((tb f).1 + (tb f).2) / 2) = if c = f then ((tb f).1 + (tb f).2) / 2 else 0 := by
          intro f hf
          rw [← sum_mul, hJ c hc f (mem_range.1 hf)]
          split_ifs <;> ring
        rw [sum_congr rfl this, sum_ite_eq, if_pos (mem_range.2 hc)]
      rw [← e1, ← sum_sub_distrib, mul_sum]
      refine sum_congr rfl fun e _ => ?_
      show 2 / ((1 + tol) * ((tb c).2 - (tb c).1)) * Ji c e * (p e - (x0 e + ∑ f ∈ range d, J e f * (((tb f).1 + (tb f).2) / 2))) = _
      ring
    rw [e]
    generalize ∑ e ∈ range d, Ji c e * (p e - x0 e) = R at *
    have hpos : 0 < (1 + tol) * ((tb c).2 - (tb c).1) := mul_pos (by linarith) hwc
    rw [div_mul_eq_mul_div, abs_div, abs_of_pos hpos, div_le_div_iff₀ hpos (by linarith), one_mul, mul_comm (1 + tol)]
    refine mul_le_mul_of_nonneg_right (abs_le.2 ⟨?_, ?_⟩) (by linarith) <;> linarith

end Gslib.Obb
