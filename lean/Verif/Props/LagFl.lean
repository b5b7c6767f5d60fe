import Verif.Lemmas.LagFl
import Verif.Props.InterpFl

/-!
# C72: Lagrange weights and interpolation on an element in floating point
-/

namespace Gslib.Props
open Gslib.Spec Gslib.LagFl Finset
open Gslib.TensorFl (IsFma Apx)

/-- value of the exact Lagrange polynomial number `i` of the nodes `z` -/
noncomputable def lagExact (z : List ℝ) (i : Nat) (x : ℝ) : ℝ := (Lagrange.basis (range z.length) (ent z) i).eval x

theorem lag_apx {rnd : ℝ → ℝ} {u : ℝ} (h0 : 0 ≤ u) (h1 : u < 1) (hr : ∀ y, |rnd y - y| ≤ u * |y|) (z : List ℝ) (x : ℝ) :
    (evalFl rnd z (coefFl rnd z) x).length = z.length ∧ ∀ i < z.length, Apx (u / (1 - u)) (4 * z.length + 1) (ent (evalFl rnd z (coefFl rnd z) x) i) (lagExact z i x) |lagExact z i x| := by
  obtain ⟨l, hw⟩ := coefFl_rel h0 h1 hr z
  obtain ⟨le, he⟩ := evalFl_rel h0 h1 hr z (coefFl rnd z) l x
  refine ⟨le, fun i hi => ?_⟩
  have := he i hi _ _ (hw i hi)
  rw [dist_ratio z hi x] at this
  have h := this.apx h0 h1
  rw [show 2 * z.length + 1 + 2 * z.length = 4 * z.length + 1 by ring] at h
  exact h

/-- **C72, weights**: the weights that `lagrange_setup` and `lagrange_eval` compute for pairwise different nodes have, for every point `x` (also outside of the nodes, and arbitrarily close to a node), a relative error of at most `(1-u)^-(4n+1) - 1` -/
theorem lagrange_weights_rounded {rnd : ℝ → ℝ} {u : ℝ} (h0 : 0 ≤ u) (h1 : u < 1) (hr : ∀ y, |rnd y - y| ≤ u * |y|) (z : List ℝ) (_hz : z.Nodup) (x : ℝ) :
    (evalFl rnd z (coefFl rnd z) x).length = z.length ∧ ∀ i < z.length,
      |ent (evalFl rnd z (coefFl rnd z) x) i - lagExact z i x| ≤ (((1 - u)⁻¹) ^ (4 * z.length + 1) - 1) * |lagExact z i x| := by
  obtain ⟨l, h⟩ := lag_apx h0 h1 hr z x
  have e : 1 + u / (1 - u) = (1 - u)⁻¹ := by
    have : (1 - u) ≠ 0 := by linarith
    field_simp; ring
  exact ⟨l, fun i hi => e ▸ (h i hi).2⟩

theorem Apx.mul2 {u : ℝ} (hu : 0 ≤ u) {k l : Nat} {x X A y Y B : ℝ} (hx : Apx u k x X A) (hy : Apx u l y Y B) : Apx u (k + l) (x * y) (X * Y) (A * B) := by
  have hA := (abs_nonneg _).trans hx.1
  have hB := (abs_nonneg _).trans hy.1
  have c1 : (1 : ℝ) ≤ (1 + u) ^ k := one_le_pow₀ (by linarith)
  have h1 : |x| ≤ (1 + u) ^ k * A := by
    have := abs_add_le (x - X) X
    rw [sub_add_cancel] at this
    linarith [hx.1, hx.2]
  refine ⟨by rw [abs_mul]; exact mul_le_mul hx.1 hy.1 (abs_nonneg _) hA, ?_⟩
  rw [show x * y - X * Y = x * (y - Y) + (x - X) * Y by ring]
  refine (abs_add_le _ _).trans ?_
  rw [abs_mul, abs_mul]
  have a1 : |x| * |y - Y| ≤ (1 + u) ^ k * A * (((1 + u) ^ l - 1) * B) := mul_le_mul h1 hy.2 (abs_nonneg _) ((abs_nonneg _).trans h1)
  have a2 : |x - X| * |Y| ≤ ((1 + u) ^ k - 1) * A * B := mul_le_mul hx.2 hy.1 (abs_nonneg _) ((abs_nonneg _).trans hx.2)
  have e : ((1 + u) ^ (k + l) - 1) * (A * B) = (1 + u) ^ k * A * (((1 + u) ^ l - 1) * B) + ((1 + u) ^ k - 1) * A * B := by rw [pow_add]; ring
  linarith

theorem Apx.sum {u : ℝ} {k : Nat} {x X A : Nat → ℝ} : ∀ {n : Nat}, (∀ i < n, Apx u k (x i) (X i) (A i)) → Apx u k (∑ i ∈ range n, x i) (∑ i ∈ range n, X i) (∑ i ∈ range n, A i)
  | 0, _ => ⟨by simp, by simp⟩
  | n + 1, h => by
      rw [sum_range_succ, sum_range_succ, sum_range_succ]
      exact (Apx.sum fun i hi => h i (by omega)).add (h n (by omega))

/-- absolute values of approximations are approximations of absolute values -/
theorem apx_abs {u : ℝ} {k : Nat} {x X A : ℝ} (h : Apx u k x X A) : Apx u k |x| |X| A := by
  refine ⟨by rw [abs_abs]; exact h.1, (abs_abs_sub_abs_le_abs_sub x X).trans h.2⟩

/-- an error relative to perturbed data -/
theorem Apx.trans {u : ℝ} (hu : 0 ≤ u) {a b : Nat} {v I A I' A' : ℝ} (h : |v - I| ≤ ((1 + u) ^ a - 1) * A) (hI : Apx u b I I' A') (hA : Apx u b A A' A') :
    |v - I'| ≤ ((1 + u) ^ (a + b) - 1) * A' := by
  have c1 : (1 : ℝ) ≤ (1 + u) ^ a := one_le_pow₀ (by linarith)
  have h1 : A ≤ (1 + u) ^ b * A' := by
    have := (abs_le.1 hA.2).2
    linarith
  have h2 : ((1 + u) ^ a - 1) * A ≤ ((1 + u) ^ a - 1) * ((1 + u) ^ b * A') := mul_le_mul_of_nonneg_left h1 (by linarith)
  have h3 := abs_add_le (v - I) (I - I')
  rw [sub_add_sub_cancel] at h3
  have e : ((1 + u) ^ (a + b) - 1) * A' = ((1 + u) ^ a - 1) * ((1 + u) ^ b * A') + ((1 + u) ^ b - 1) * A' := by rw [pow_add]; ring
  linarith [hI.2]

theorem interp2_apx {u : ℝ} (hu : 0 ≤ u) {k l nr ns : Nat} {f F A g G B : Nat → ℝ} (v : List ℝ) (V : List ℝ) (hV : ∀ i, ent V i = |ent v i|)
    (hf : ∀ i < nr, Apx u k (f i) (F i) (A i)) (hg : ∀ j < ns, Apx u l (g j) (G j) (B j)) :
    Apx u (k + l) (interp2 f nr g ns v) (interp2 F nr G ns v) (interp2 A nr B ns V) := by
  unfold interp2
  refine Apx.sum fun i hi => Apx.sum fun j hj => ?_
  rw [hV]
  exact (Apx.mul2 hu (hf i hi) (hg j hj)).mul _

theorem interp3_apx {u : ℝ} (hu : 0 ≤ u) {k l m nr ns nt : Nat} {f F A g G B h H C : Nat → ℝ} (v : List ℝ) (V : List ℝ) (hV : ∀ i, ent V i = |ent v i|)
    (hf : ∀ i < nr, Apx u k (f i) (F i) (A i)) (hg : ∀ j < ns, Apx u l (g j) (G j) (B j)) (hh : ∀ j < nt, Apx u m (h j) (H j) (C j)) :
    Apx u (k + l + m) (interp3 f nr g ns h nt v) (interp3 F nr G ns H nt v) (interp3 A nr B ns C nt V) := by
  unfold interp3
  refine Apx.sum fun i hi => Apx.sum fun j hj => Apx.sum fun q hq => ?_
  rw [hV]
  exact (Apx.mul2 hu (Apx.mul2 hu (hf i hi) (hg j hj)) (hh q hq)).mul _

theorem flatMap_ent {A : Type} {n : Nat} (f : A → List ℝ) (hf : ∀ a, (f a).length = n) : ∀ (l : List A), (l.flatMap f).length = n * l.length ∧ ∀ p a, l[p]? = some a → ∀ i < n, ent (l.flatMap f) (n * p + i) = ent (f a) i
  | [] => by simp
  | b :: l => by
      obtain ⟨h1, h2⟩ := flatMap_ent f hf l
      refine ⟨by rw [List.flatMap_cons, List.length_append, h1, hf, List.length_cons]; ring, fun p a hp i hi => ?_⟩
      rw [List.flatMap_cons]
      unfold ent at h2 ⊢
      cases p with
      | zero =>
        simp only [List.getElem?_cons_zero, Option.some.injEq] at hp
        subst hp
        rw [List.getD_append _ _ _ _ (by rw [hf]; omega)]
        congr 1; omega
      | succ p =>
        rw [List.getElem?_cons_succ] at hp
        rw [List.getD_append_right _ _ _ _ (by rw [hf]; nlinarith), hf, ← h2 p a hp i hi]
        congr 1
        rw [Nat.mul_add, Nat.mul_one]; omega

theorem IsFma.widen {step : ℝ → ℝ → ℝ → ℝ} {mul : ℝ → ℝ → ℝ} {u u' : ℝ} (h : IsFma step mul u) (hu : u ≤ u') : IsFma step mul u' where
  u0 := h.u0.trans hu
  step s x y := by
    obtain ⟨m, a, b⟩ := h.step s x y
    exact ⟨m, a.trans (mul_le_mul_of_nonneg_right hu (abs_nonneg _)), b.trans (mul_le_mul_of_nonneg_right hu (abs_nonneg _))⟩
  mul x y := (h.mul x y).trans (mul_le_mul_of_nonneg_right hu (abs_nonneg _))

theorem le_div_one_sub {u : ℝ} (h0 : 0 ≤ u) (h1 : u < 1) : 0 ≤ u / (1 - u) ∧ u ≤ u / (1 - u) ∧ 1 + u / (1 - u) = (1 - u)⁻¹ := by
  have hp : 0 < 1 - u := by linarith
  refine ⟨div_nonneg h0 hp.le, ?_, ?_⟩
  · rw [le_div_iff₀ hp]; nlinarith
  · field_simp; ring

/-- **C72, 2D**: `findpts_el_eval_2` for an element with pairwise different nodes, in floating point: for every point, the value is that of the exact interpolating polynomial, up to `(1-u)^-(5(nr+ns)+4) - 1` times the sum of the absolute values of its terms -/
theorem findpts_el_eval_rounded_2 {rnd : ℝ → ℝ} {step : ℝ → ℝ → ℝ → ℝ} {mul : ℝ → ℝ → ℝ} {u : ℝ} (h1 : u < 1) (hr : ∀ y, |rnd y - y| ≤ u * |y|) (hf : IsFma step mul u)
    {zr zs : List ℝ} (_hzr : zr.Nodup) (_hzs : zs.Nodup) (pts : List (ℝ × ℝ)) {inp : List ℝ} (hi : zr.length * zs.length ≤ inp.length) :
    ∃ out, elEval2 rnd step zr zs pts inp = some out ∧ out.length = pts.length ∧ ∀ p r s, pts[p]? = some (r, s) →
      |ent out p - interp2 (fun i => lagExact zr i r) zr.length (fun j => lagExact zs j s) zs.length inp|
        ≤ (((1 - u)⁻¹) ^ (5 * (zr.length + zs.length) + 4) - 1) * interp2 (fun i => |lagExact zr i r|) zr.length (fun j => |lagExact zs j s|) zs.length (inp.map abs) := by
  have h0 := hf.u0
  obtain ⟨u0, u1, ue⟩ := le_div_one_sub h0 h1
  obtain ⟨lr, er⟩ := flatMap_ent (fun r : ℝ × ℝ => evalFl rnd zr (coefFl rnd zr) r.1) (fun r => (lag_apx h0 h1 hr zr r.1).1) pts
  obtain ⟨ls, es⟩ := flatMap_ent (fun r : ℝ × ℝ => evalFl rnd zs (coefFl rnd zs) r.2) (fun r => (lag_apx h0 h1 hr zs r.2).1) pts
  obtain ⟨out, e, l, h⟩ := interpolation_rounding_error_2 (IsFma.widen hf u1) (nr := zr.length) (ns := zs.length) (pn := pts.length) lr.ge ls.ge hi
  refine ⟨out, e, l, fun p r s hp => ?_⟩
  have hpl : p < pts.length := (List.getElem?_eq_some_iff.1 hp).1
  have hR : ∀ i < zr.length, Apx (u / (1 - u)) (4 * zr.length + 1) (ent (pts.flatMap fun r => evalFl rnd zr (coefFl rnd zr) r.1) (zr.length * p + i)) (lagExact zr i r) |lagExact zr i r| := by
    intro i hi; rw [er p _ hp i hi]; exact (lag_apx h0 h1 hr zr r).2 i hi
  have hS : ∀ i < zs.length, Apx (u / (1 - u)) (4 * zs.length + 1) (ent (pts.flatMap fun r => evalFl rnd zs (coefFl rnd zs) r.2) (zs.length * p + i)) (lagExact zs i s) |lagExact zs i s| := by
    intro i hi; rw [es p _ hp i hi]; exact (lag_apx h0 h1 hr zs s).2 i hi
  have hA := interp2_apx u0 (inp.map abs) (inp.map abs) (fun i => by rw [ent_abs, abs_abs]) (fun i hi => apx_abs (hR i hi)) fun i hi => apx_abs (hS i hi)
  have := Apx.trans u0 (h p hpl) (interp2_apx u0 inp (inp.map abs) (fun i => ent_abs _ i) hR hS) hA
  rw [ue] at this
  rwa [show zr.length + zs.length + 2 + (4 * zr.length + 1 + (4 * zs.length + 1)) = 5 * (zr.length + zs.length) + 4 by ring] at this

/-- **C72, 3D**: `findpts_el_eval_3`: the exact interpolating polynomial up to `(1-u)^-(5(nr+ns+nt)+6) - 1` times the sum of the absolute values of its terms -/
theorem findpts_el_eval_rounded_3 {rnd : ℝ → ℝ} {step : ℝ → ℝ → ℝ → ℝ} {mul : ℝ → ℝ → ℝ} {u : ℝ} (h1 : u < 1) (hr : ∀ y, |rnd y - y| ≤ u * |y|) (hf : IsFma step mul u)
    {zr zs zt : List ℝ} (hne : zr ≠ []) (_hzr : zr.Nodup) (_hzs : zs.Nodup) (_hzt : zt.Nodup) (pts : List (ℝ × ℝ × ℝ)) {inp : List ℝ} (hi : zr.length * zs.length * zt.length ≤ inp.length) :
    ∃ out, elEval3 rnd step mul zr zs zt pts inp = some out ∧ out.length = pts.length ∧ ∀ p r s t, pts[p]? = some (r, s, t) →
      |ent out p - interp3 (fun i => lagExact zr i r) zr.length (fun j => lagExact zs j s) zs.length (fun k => lagExact zt k t) zt.length inp|
        ≤ (((1 - u)⁻¹) ^ (5 * (zr.length + zs.length + zt.length) + 6) - 1) *
          interp3 (fun i => |lagExact zr i r|) zr.length (fun j => |lagExact zs j s|) zs.length (fun k => |lagExact zt k t|) zt.length (inp.map abs) := by
  have h0 := hf.u0
  obtain ⟨u0, u1, ue⟩ := le_div_one_sub h0 h1
  have hlen : ∀ r : ℝ × ℝ × ℝ, (evalFl rnd zr (coefFl rnd zr) r.1 ++ evalFl rnd zs (coefFl rnd zs) r.2.1).length = zr.length + zs.length := by
    intro r; rw [List.length_append, (lag_apx h0 h1 hr zr r.1).1, (lag_apx h0 h1 hr zs r.2.1).1]
  obtain ⟨lr, er⟩ := flatMap_ent (fun r : ℝ × ℝ × ℝ => evalFl rnd zr (coefFl rnd zr) r.1 ++ evalFl rnd zs (coefFl rnd zs) r.2.1) hlen pts
  obtain ⟨lt, et⟩ := flatMap_ent (fun r : ℝ × ℝ × ℝ => evalFl rnd zt (coefFl rnd zt) r.2.2) (fun r => (lag_apx h0 h1 hr zt r.2.2).1) pts
  obtain ⟨out, e, l, h⟩ := interpolation_rounding_error_3 (IsFma.widen hf u1) (nr := zr.length) (ns := zs.length) (nt := zt.length) (pn := pts.length) (List.length_pos_iff.2 hne) lr.ge lt.ge hi
  refine ⟨out, e, l, fun p r s t hp => ?_⟩
  have hpl : p < pts.length := (List.getElem?_eq_some_iff.1 hp).1
  have hR : ∀ i < zr.length, Apx (u / (1 - u)) (4 * zr.length + 1) (ent (pts.flatMap fun r => evalFl rnd zr (coefFl rnd zr) r.1 ++ evalFl rnd zs (coefFl rnd zs) r.2.1) ((zr.length + zs.length) * p + i)) (lagExact zr i r) |lagExact zr i r| := by
    intro i hi
    rw [er p _ hp i (by omega)]
    have : ent (evalFl rnd zr (coefFl rnd zr) r ++ evalFl rnd zs (coefFl rnd zs) s) i = ent (evalFl rnd zr (coefFl rnd zr) r) i := by
      unfold ent; exact List.getD_append _ _ _ _ (by rw [(lag_apx h0 h1 hr zr r).1]; exact hi)
    rw [this]
    exact (lag_apx h0 h1 hr zr r).2 i hi
  have hS : ∀ i < zs.length, Apx (u / (1 - u)) (4 * zs.length + 1) (ent (pts.flatMap fun r => evalFl rnd zr (coefFl rnd zr) r.1 ++ evalFl rnd zs (coefFl rnd zs) r.2.1) ((zr.length + zs.length) * p + zr.length + i)) (lagExact zs i s) |lagExact zs i s| := by
    intro i hi
    rw [add_assoc, er p _ hp (zr.length + i) (by omega)]
    have : ent (evalFl rnd zr (coefFl rnd zr) r ++ evalFl rnd zs (coefFl rnd zs) s) (zr.length + i) = ent (evalFl rnd zs (coefFl rnd zs) s) i := by
      unfold ent
      rw [List.getD_append_right _ _ _ _ (by rw [(lag_apx h0 h1 hr zr r).1]; omega), (lag_apx h0 h1 hr zr r).1, Nat.add_sub_cancel_left]
    rw [this]
    exact (lag_apx h0 h1 hr zs s).2 i hi
  have hT : ∀ i < zt.length, Apx (u / (1 - u)) (4 * zt.length + 1) (ent (pts.flatMap fun r => evalFl rnd zt (coefFl rnd zt) r.2.2) (zt.length * p + i)) (lagExact zt i t) |lagExact zt i t| := by
    intro i hi; rw [et p _ hp i hi]; exact (lag_apx h0 h1 hr zt t).2 i hi
  have hA := interp3_apx u0 (inp.map abs) (inp.map abs) (fun i => by rw [ent_abs, abs_abs]) (fun i hi => apx_abs (hR i hi)) (fun i hi => apx_abs (hS i hi)) fun i hi => apx_abs (hT i hi)
  have := Apx.trans u0 (h p hpl) (interp3_apx u0 inp (inp.map abs) (fun i => ent_abs _ i) hR hS hT) hA
  rw [ue] at this
  rwa [show zr.length + zs.length + zt.length + 3 + (4 * zr.length + 1 + (4 * zs.length + 1) + (4 * zt.length + 1)) = 5 * (zr.length + zs.length + zt.length) + 6 by ring] at this

/-- the hypotheses are met: nodes -1, 0, 1 and a rounding that enlarges every value by one percent -/
example : (1 / 100 : ℝ) < 1 ∧ (∀ y : ℝ, |y * (101 / 100) - y| ≤ 1 / 100 * |y|) ∧ [-1, 0, (1 : ℝ)].Nodup := by
  refine ⟨by norm_num, fun y => ?_, by norm_num⟩
  rw [show y * (101 / 100) - y = 1 / 100 * y by ring, abs_mul, abs_of_pos (by norm_num : (0 : ℝ) < 1 / 100)]

end Gslib.Props
