import Verif.Model.LagDerFl
import Verif.Props.LagFl
import Mathlib.Analysis.Calculus.Deriv.Mul
import Mathlib.Analysis.Calculus.Deriv.Add

/-!
# C75: derivatives of the Lagrange polynomials in floating point
-/

namespace Gslib.Props
open Gslib.Spec Gslib.LagFl Finset
open Gslib.TensorFl (IsFma Apx)

/-- the sum of the products of all entries but one -/
def dsum : List ℝ → ℝ
  | [] => 0
  | d :: l => l.prod + d * dsum l

theorem dsum_append : ∀ a b : List ℝ, dsum (a ++ b) = dsum a * b.prod + a.prod * dsum b
  | [], b => by simp [dsum]
  | d :: a, b => by rw [List.cons_append, dsum, dsum_append a b, dsum, List.prod_append, List.prod_cons]; ring

theorem abs_list_prod : ∀ l : List ℝ, |l.prod| = (l.map fun x => |x|).prod
  | [] => by simp
  | a :: l => by rw [List.prod_cons, abs_mul, abs_list_prod l, List.map_cons, List.prod_cons]

variable {rnd : ℝ → ℝ} {step : ℝ → ℝ → ℝ → ℝ} {mul : ℝ → ℝ → ℝ} {u : ℝ}

theorem apx_step (hf : IsFma step mul u) {v : ℝ} (hv : u ≤ v) {j k l : Nat} {s S A x X B y Y C : ℝ} (hs : Apx v j s S A) (hx : Apx v k x X B) (hy : Apx v l y Y C) (hj : j ≤ k + l + 1) :
    Apx v (k + l + 2) (step s x y) (S + X * Y) (A + B * C) := by
  have v0 : 0 ≤ v := hf.u0.trans hv
  obtain ⟨m, hm, hst⟩ := hf.step s x y
  have h1 := (Apx.mul2 v0 hx hy).rnd v0 (hm.trans (mul_le_mul_of_nonneg_right hv (abs_nonneg _)))
  exact ((hs.mono v0 hj).add h1).rnd v0 (hst.trans (mul_le_mul_of_nonneg_right hv (abs_nonneg _)))

theorem le_ratio (h0 : 0 ≤ u) (h1 : u < 1) : u ≤ u / (1 - u) := by
  rw [le_div_iff₀ (by linarith)]; nlinarith

theorem u1Row_apx (h0 : 0 ≤ u) (h1 : u < 1) (hr : ∀ z, |rnd z - z| ≤ u * |z|) (hf : IsFma step mul u) {d D : ℝ → ℝ} (hd : ∀ z, Rel u 1 (d z) (D z)) :
    ∀ (zs : List ℝ) (m k : Nat) (a A b B C : ℝ), m ≤ k → Rel u m a A → Apx (u / (1 - u)) k b B C → ∀ i < zs.length,
      Apx (u / (1 - u)) (k + 3 * i) (ent (u1Row step (zs.map d) (uRow rnd (zs.map d) a) b) i) (B * ((zs.map D).take i).prod + A * dsum ((zs.map D).take i))
        (C * ((zs.map fun z => |D z|).take i).prod + |A| * dsum ((zs.map fun z => |D z|).take i))
  | [], _, _, _, _, _, _, _, _, _, _, i, hi => by simp at hi
  | z :: zs, m, k, a, A, b, B, C, _, ha, hb, 0, _ => by simpa [u1Row, uRow, ent, dsum] using hb
  | z :: zs, m, k, a, A, b, B, C, hmk, ha, hb, i + 1, hi => by
      have h2 := (ha.mul h1 (hd z)).round h0 h1 hr
      have h3 := apx_step hf (le_ratio h0 h1) (ha.apx h0 h1) hb ((hd z).apx h0 h1) (by omega)
      have := u1Row_apx h0 h1 hr hf hd zs (m + 1 + 1) (k + 1 + 2) _ _ _ _ _ (by omega) h2 h3 i (by simpa using hi)
      have e1 : B * ((List.map D (z :: zs)).take (i + 1)).prod + A * dsum ((List.map D (z :: zs)).take (i + 1)) =
          (A + B * D z) * ((zs.map D).take i).prod + A * D z * dsum ((zs.map D).take i) := by
        rw [List.map_cons, List.take_succ_cons, List.prod_cons, dsum]; ring
      have e2 : C * ((List.map (fun z => |D z|) (z :: zs)).take (i + 1)).prod + |A| * dsum ((List.map (fun z => |D z|) (z :: zs)).take (i + 1)) =
          (|A| + C * |D z|) * ((zs.map fun z => |D z|).take i).prod + |A * D z| * dsum ((zs.map fun z => |D z|).take i) := by
        rw [List.map_cons, List.take_succ_cons, List.prod_cons, dsum, abs_mul]; ring
      rw [e1, e2, show k + 3 * (i + 1) = k + 1 + 2 + 3 * i by ring]
      exact this

theorem headD_ent (l : List ℝ) : l.headD 0 = ent l 0 := by unfold ent; cases l <;> rfl

theorem v1Row_apx (h0 : 0 ≤ u) (h1 : u < 1) (hr : ∀ z, |rnd z - z| ≤ u * |z|) (hf : IsFma step mul u) {d D : ℝ → ℝ} (hd : ∀ z, Rel u 1 (d z) (D z)) :
    ∀ (zs : List ℝ), ∀ i < zs.length, Apx (u / (1 - u)) (3 * (zs.length - 1 - i)) (ent (v1Row step (zs.map d) (vRow rnd (zs.map d))) i) (dsum ((zs.map D).drop (i + 1)))
      (dsum ((zs.map fun z => |D z|).drop (i + 1)))
  | [], i, hi => by simp at hi
  | [z], 0, _ => by simp [vRow, v1Row, ent, dsum, Apx]
  | [z], i + 1, hi => by simp at hi
  | z :: y :: zs, 0, _ => by
      have ih := v1Row_apx h0 h1 hr hf hd (y :: zs) 0 (by simp)
      have hv := vRow_rel h0 h1 hr hd (y :: zs) 0 (by simp)
      have h2 := apx_step hf (le_ratio h0 h1) (hv.apx h0 h1) ((hd y).apx h0 h1) ih (by omega)
      simp only [List.length_cons, List.map_cons, List.drop_succ_cons, List.drop_zero] at h2 ⊢
      obtain ⟨t, ht⟩ : ∃ t, vRow rnd (d z :: d y :: zs.map d) = t :: vRow rnd (d y :: zs.map d) := ⟨_, by rw [vRow]⟩
      obtain ⟨a, l, hl⟩ : ∃ a l, vRow rnd (d y :: zs.map d) = a :: l := by
        have := vRow_length (rnd := rnd) (d y :: zs.map d)
        cases h : vRow rnd (d y :: zs.map d) with
        | nil => rw [h] at this; simp at this
        | cons a l => exact ⟨a, l, rfl⟩
      rw [ht, hl, v1Row, headD_ent]
      rw [hl] at h2
      have e : |(zs.map D).prod| = (zs.map fun z => |D z|).prod := by rw [abs_list_prod, List.map_map]; rfl
      rw [dsum, dsum, ← e]
      rw [show 3 * (zs.length + 1 + 1 - 1 - 0) = 1 + 3 * (zs.length + 1 - 1 - 0) + 2 by omega]
      exact h2
  | z :: y :: zs, i + 1, hi => by
      have ih := v1Row_apx h0 h1 hr hf hd (y :: zs) i (by simpa using hi)
      simp only [List.length_cons, List.map_cons, List.drop_succ_cons] at ih ⊢
      obtain ⟨t, ht⟩ : ∃ t, vRow rnd (d z :: d y :: zs.map d) = t :: vRow rnd (d y :: zs.map d) := ⟨_, by rw [vRow]⟩
      obtain ⟨a, l, hl⟩ : ∃ a l, vRow rnd (d y :: zs.map d) = a :: l := by
        have := vRow_length (rnd := rnd) (d y :: zs.map d)
        cases h : vRow rnd (d y :: zs.map d) with
        | nil => rw [h] at this; simp at this
        | cons a l => exact ⟨a, l, rfl⟩
      rw [ht, hl, v1Row, show zs.length + 1 + 1 - 1 - (i + 1) = zs.length + 1 - 1 - i by omega]
      rw [hl] at ih
      exact ih

/-- products of all entries but number `i` and one more, summed -/
theorem dsum_erase : ∀ (l : List ℝ) (i : Nat), i < l.length → dsum (l.take i ++ l.drop (i + 1)) = ∑ k ∈ range l.length, if k = i then 0 else ∏ j ∈ range l.length, if j = i ∨ j = k then 1 else ent l j
  | [], i, h => by simp at h
  | a :: l, 0, _ => by
      have key : ∀ l : List ℝ, dsum l = ∑ k ∈ range l.length, ∏ j ∈ range l.length, if j = k then 1 else ent l j := by
        intro l
        induction l with
        | nil => simp [dsum]
        | cons a l ih =>
          rw [dsum, ih, List.length_cons, sum_range_succ', mul_sum, add_comm]
          congr 1
          · refine sum_congr rfl fun k _ => ?_
            rw [prod_range_succ', mul_comm]
            simp only [Nat.add_right_cancel_iff, Nat.zero_eq, (Nat.succ_ne_zero k).symm, Nat.add_eq_zero_iff, one_ne_zero, and_false, if_false]
            rfl
          · have := take_drop_prod (a :: l) 0 (by simp)
            simpa using this
      rw [List.take_zero, List.nil_append, List.length_cons, sum_range_succ', if_pos rfl, add_zero]
      rw [show List.drop (0 + 1) (a :: l) = l from rfl, key l]
      refine sum_congr rfl fun k _ => ?_
      rw [if_neg (by omega), prod_range_succ', if_pos (Or.inl rfl), mul_one]
      refine prod_congr rfl fun j _ => ?_
      by_cases e : j = k
      · subst e; simp
      · rw [if_neg e, if_neg (by omega)]; rfl
  | a :: l, i + 1, h => by
      have hi : i < l.length := by simpa using h
      have ih := dsum_erase l i hi
      rw [List.take_succ_cons, List.drop_succ_cons, List.cons_append, dsum, ih, List.prod_append, take_drop_prod l i hi, List.length_cons, sum_range_succ', mul_sum, add_comm]
      congr 1
      · refine sum_congr rfl fun k _ => ?_
        by_cases e : k = i
        · subst e; simp
        · rw [if_neg e, if_neg (by omega), prod_range_succ', mul_comm, if_neg (by omega)]
          congr 1
          refine prod_congr rfl fun j _ => ?_
          simp only [Nat.add_right_cancel_iff]; rfl
      · rw [if_neg (by omega), prod_range_succ', if_pos (Or.inr rfl), mul_one]
        refine prod_congr rfl fun j _ => ?_
        by_cases e : j = i
        · subst e; simp
        · rw [if_neg e, if_neg (by omega)]; rfl

/-- derivative of a product of linear factors -/
theorem hasDerivAt_prod : ∀ (l : List ℝ) (x : ℝ), HasDerivAt (fun y => (l.map fun z => 2 * (y - z)).prod) (2 * dsum (l.map fun z => 2 * (x - z))) x
  | [], x => by simpa [dsum] using hasDerivAt_const x (1 : ℝ)
  | z :: l, x => by
      have h1 : HasDerivAt (fun y : ℝ => 2 * (y - z)) 2 x := by simpa using ((hasDerivAt_id x).sub_const z).const_mul 2
      have := h1.mul (hasDerivAt_prod l x)
      simp only [List.map_cons, List.prod_cons, dsum]
      refine HasDerivAt.congr_deriv (this.congr_of_eventuallyEq (Filter.Eventually.of_forall fun _ => rfl)) ?_
      ring

theorem dist_eq_list (z : List ℝ) {i : Nat} (hi : i < z.length) (x : ℝ) : LagFl.dist z i x = ((z.take i ++ z.drop (i + 1)).map fun c => 2 * (x - c)).prod := by
  rw [List.map_append, List.prod_append, List.map_take, List.map_drop, take_drop_prod _ i (by simpa using hi), List.length_map]
  unfold LagFl.dist
  refine prod_congr rfl fun j hj => ?_
  rw [mem_range] at hj
  by_cases e : j = i
  · rw [if_pos e, if_pos e]
  · rw [if_neg e, if_neg e]
    unfold ent
    rw [List.getD_eq_getElem _ _ hj, List.getD_eq_getElem _ _ (by simpa using hj)]; simp

/-- `ell_i'(x)` in the sum of products form, with the absolute values of all terms: `sum_(k != i) 2 |w_i| prod_(j != i, k) |2 (x - z_j)|` with `w_i = 1 / prod_(j != i) 2 (z_i - z_j)` -/
noncomputable def absDeriv (z : List ℝ) (i : Nat) (x : ℝ) : ℝ :=
  2 * |1 / LagFl.dist z i (ent z i)| * ∑ k ∈ range z.length, if k = i then 0 else ∏ j ∈ range z.length, if j = i ∨ j = k then 1 else |2 * (x - ent z j)|

/-- **C75**: the derivatives that `lagrange_eval` computes, with the weights of `lagrange_setup` for pairwise different nodes, are those of the Lagrange polynomials, up to `(1-u)^-(5n+1) - 1` times the sum of the absolute values of the terms of the derivative -/
theorem lagrange_derivatives_rounded (h0 : 0 ≤ u) (h1 : u < 1) (hr : ∀ y, |rnd y - y| ≤ u * |y|) (hf : IsFma step (fun x y => rnd (x * y)) u) (z : List ℝ) (_hz : z.Nodup) (x : ℝ) :
    (evalDerFl rnd step z (coefFl rnd z) x).length = z.length ∧ ∀ i < z.length,
      |ent (evalDerFl rnd step z (coefFl rnd z) x) i - deriv (lagExact z i) x| ≤ (((1 - u)⁻¹) ^ (5 * z.length + 1) - 1) * absDeriv z i x := by
  refine ⟨by simp [evalDerFl], fun i hi => ?_⟩
  have hd : ∀ zi, Rel u 1 (2 * rnd (x - zi)) (2 * (x - zi)) := by
    intro zi
    have := (Rel.refl (u := u) (2 : ℝ)).mul h1 ((Rel.refl (x - zi)).round h0 h1 hr)
    simpa using this
  have v0 : 0 ≤ u / (1 - u) := h0.trans (le_ratio h0 h1)
  have hu := le_ratio h0 h1
  have rn : ∀ {k X A} {y : ℝ}, Apx (u / (1 - u)) k y X A → Apx (u / (1 - u)) (k + 1) (rnd y) X A := fun h => h.rnd v0 ((hr _).trans (mul_le_mul_of_nonneg_right hu (abs_nonneg _)))
  have a0 := (uRow_rel h0 h1 hr hd z 0 1 1 (Rel.refl 1) i hi).apx h0 h1
  have b0 := (vRow_rel h0 h1 hr hd z i hi).apx h0 h1
  have a1 := u1Row_apx h0 h1 hr hf hd z 0 0 1 1 0 0 0 (le_refl _) (Rel.refl 1) (by simp [Apx]) i hi
  have b1 := v1Row_apx h0 h1 hr hf hd z i hi
  have w := ((coefFl_rel h0 h1 hr z).2 i hi).apx h0 h1
  have s1 := apx_step hf hu (rn (Apx.mul2 v0 a1 b0)) (a0.mono v0 (by omega : 0 + 2 * i ≤ 3 * i)) b1 (by omega)
  have w2 : Apx (u / (1 - u)) (2 * z.length + 1) (2 * ent (coefFl rnd z) i) (2 * (1 / LagFl.dist z i (ent z i))) (2 * |1 / LagFl.dist z i (ent z i)|) := by
    have := w.mul 2
    rwa [abs_of_pos (by norm_num : (0 : ℝ) < 2), mul_comm _ 2, mul_comm _ (2 : ℝ), mul_comm _ (2 : ℝ)] at this
  have t := (rn (Apx.mul2 v0 w2 s1)).2
  have ev : ent (evalDerFl rnd step z (coefFl rnd z) x) i = rnd (2 * ent (coefFl rnd z) i *
      step (rnd (ent (u1Row step (z.map fun zi => 2 * rnd (x - zi)) (uRow rnd (z.map fun zi => 2 * rnd (x - zi)) 1) 0) i * ent (vRow rnd (z.map fun zi => 2 * rnd (x - zi))) i))
        (ent (uRow rnd (z.map fun zi => 2 * rnd (x - zi)) 1) i) (ent (v1Row step (z.map fun zi => 2 * rnd (x - zi)) (vRow rnd (z.map fun zi => 2 * rnd (x - zi)))) i)) := by
    unfold evalDerFl
    rw [ent, List.getD_eq_getElem _ _ (by simpa using hi), List.getElem_map, List.getElem_range]
    rfl
  have ed : deriv (lagExact z i) x = 2 * (1 / LagFl.dist z i (ent z i)) * dsum ((z.map fun zi => 2 * (x - zi)).take i ++ (z.map fun zi => 2 * (x - zi)).drop (i + 1)) := by
    have hl : lagExact z i = fun y => 1 / LagFl.dist z i (ent z i) * ((z.take i ++ z.drop (i + 1)).map fun c => 2 * (y - c)).prod := by
      funext y
      rw [← dist_eq_list z hi y, dist_ratio z hi y]; rfl
    rw [hl, ((hasDerivAt_prod (z.take i ++ z.drop (i + 1)) x).const_mul _).deriv, List.map_append, List.map_take, List.map_drop]
    ring
  have ea : absDeriv z i x = 2 * |1 / LagFl.dist z i (ent z i)| * dsum ((z.map fun zi => |2 * (x - zi)|).take i ++ (z.map fun zi => |2 * (x - zi)|).drop (i + 1)) := by
    rw [dsum_erase _ i (by simpa using hi), List.length_map]
    unfold absDeriv
    congr 1
    refine sum_congr rfl fun k _ => ?_
    by_cases e : k = i
    · rw [if_pos e, if_pos e]
    · rw [if_neg e, if_neg e]
      refine prod_congr rfl fun j hj => ?_
      rw [mem_range] at hj
      by_cases e : j = i ∨ j = k
      · rw [if_pos e, if_pos e]
      · rw [if_neg e, if_neg e]
        unfold ent
        rw [List.getD_eq_getElem _ _ hj, List.getD_eq_getElem _ _ (by simpa using hj)]; simp
  have e1 : 1 + u / (1 - u) = (1 - u)⁻¹ := by
    have : (1 - u) ≠ 0 := by linarith
    field_simp; ring
  have ep : |((z.map fun zi => 2 * (x - zi)).take i).prod| = ((z.map fun zi => |2 * (x - zi)|).take i).prod := by rw [abs_list_prod, List.map_take, List.map_map]; rfl
  have eq' : |((z.map fun zi => 2 * (x - zi)).drop (i + 1)).prod| = ((z.map fun zi => |2 * (x - zi)|).drop (i + 1)).prod := by rw [abs_list_prod, List.map_drop, List.map_map]; rfl
  rw [ev, ed, ea, dsum_append, dsum_append]
  simp only [one_mul, zero_mul, zero_add, abs_one, ep, eq', e1] at t
  rw [show 2 * z.length + 1 + (3 * i + 3 * (z.length - 1 - i) + 2) + 1 = 5 * z.length + 1 by omega] at t
  exact t

/-- twice the sum of the products of all entries but two -/
def dsum2 : List ℝ → ℝ
  | [] => 0
  | d :: l => 2 * dsum l + d * dsum2 l

theorem dsum2_append : ∀ a b : List ℝ, dsum2 (a ++ b) = dsum2 a * b.prod + 2 * dsum a * dsum b + a.prod * dsum2 b
  | [], b => by simp [dsum, dsum2]
  | d :: a, b => by rw [List.cons_append, dsum2, dsum2_append a b, dsum2, dsum, List.prod_cons, dsum_append]; ring

theorem hasDerivAt_dsum : ∀ (l : List ℝ) (x : ℝ), HasDerivAt (fun y => dsum (l.map fun z => 2 * (y - z))) (2 * dsum2 (l.map fun z => 2 * (x - z))) x
  | [], x => by simpa [dsum, dsum2] using hasDerivAt_const x (0 : ℝ)
  | z :: l, x => by
      have h1 : HasDerivAt (fun y : ℝ => 2 * (y - z)) 2 x := by simpa using ((hasDerivAt_id x).sub_const z).const_mul 2
      have := (hasDerivAt_prod l x).add (h1.mul (hasDerivAt_dsum l x))
      simp only [List.map_cons, dsum, dsum2]
      refine HasDerivAt.congr_deriv (this.congr_of_eventuallyEq (Filter.Eventually.of_forall fun _ => rfl)) ?_
      ring

theorem two_apx {v : ℝ} {k : Nat} {x X A : ℝ} (h : Apx v k x X A) : Apx v k (2 * x) (2 * X) (2 * A) := by
  have := h.mul 2
  rwa [abs_of_pos (by norm_num : (0 : ℝ) < 2), mul_comm _ 2, mul_comm _ (2 : ℝ), mul_comm _ (2 : ℝ)] at this

theorem u2Row_apx (h0 : 0 ≤ u) (h1 : u < 1) (hr : ∀ z, |rnd z - z| ≤ u * |z|) (hf : IsFma step mul u) {d D : ℝ → ℝ} (hd : ∀ z, Rel u 1 (d z) (D z)) :
    ∀ (zs : List ℝ) (m k : Nat) (a A b B B' c C C' : ℝ), m ≤ k → Rel u m a A → Apx (u / (1 - u)) k b B B' → Apx (u / (1 - u)) k c C C' → ∀ i < zs.length,
      Apx (u / (1 - u)) (k + 3 * i) (ent (u1Row step (zs.map d) ((u1Row step (zs.map d) (uRow rnd (zs.map d) a) b).map fun y => 2 * y) c) i)
        (C * ((zs.map D).take i).prod + 2 * B * dsum ((zs.map D).take i) + A * dsum2 ((zs.map D).take i))
        (C' * ((zs.map fun z => |D z|).take i).prod + 2 * B' * dsum ((zs.map fun z => |D z|).take i) + |A| * dsum2 ((zs.map fun z => |D z|).take i))
  | [], _, _, _, _, _, _, _, _, _, _, _, _, _, _, i, hi => by simp at hi
  | z :: zs, m, k, a, A, b, B, B', c, C, C', _, ha, hb, hc, 0, _ => by simpa [u1Row, uRow, ent, dsum, dsum2] using hc
  | z :: zs, m, k, a, A, b, B, B', c, C, C', hmk, ha, hb, hc, i + 1, hi => by
      have h2 := (ha.mul h1 (hd z)).round h0 h1 hr
      have h3 := apx_step hf (le_ratio h0 h1) (ha.apx h0 h1) hb ((hd z).apx h0 h1) (by omega)
      have h4 := apx_step hf (le_ratio h0 h1) (two_apx hb) hc ((hd z).apx h0 h1) (by omega)
      have := u2Row_apx h0 h1 hr hf hd zs (m + 1 + 1) (k + 1 + 2) _ _ _ _ _ _ _ _ (by omega) h2 h3 h4 i (by simpa using hi)
      have e1 : C * ((List.map D (z :: zs)).take (i + 1)).prod + 2 * B * dsum ((List.map D (z :: zs)).take (i + 1)) + A * dsum2 ((List.map D (z :: zs)).take (i + 1)) =
          (2 * B + C * D z) * ((zs.map D).take i).prod + 2 * (A + B * D z) * dsum ((zs.map D).take i) + A * D z * dsum2 ((zs.map D).take i) := by
        rw [List.map_cons, List.take_succ_cons, List.prod_cons, dsum, dsum2]; ring
      have e2 : C' * ((List.map (fun z => |D z|) (z :: zs)).take (i + 1)).prod + 2 * B' * dsum ((List.map (fun z => |D z|) (z :: zs)).take (i + 1)) + |A| * dsum2 ((List.map (fun z => |D z|) (z :: zs)).take (i + 1)) =
          (2 * B' + C' * |D z|) * ((zs.map fun z => |D z|).take i).prod + 2 * (|A| + B' * |D z|) * dsum ((zs.map fun z => |D z|).take i) + |A * D z| * dsum2 ((zs.map fun z => |D z|).take i) := by
        rw [List.map_cons, List.take_succ_cons, List.prod_cons, dsum, dsum2, abs_mul]; ring
      rw [e1, e2, show k + 3 * (i + 1) = k + 1 + 2 + 3 * i by ring]
      exact this

theorem vRow_cons2 (a y : ℝ) (l : List ℝ) : ∃ t, vRow rnd (a :: y :: l) = t :: vRow rnd (y :: l) := ⟨_, by rw [vRow]⟩

theorem v1Row_cons2 (a y : ℝ) (l : List ℝ) : ∃ t, v1Row step (a :: y :: l) (vRow rnd (a :: y :: l)) = t :: v1Row step (y :: l) (vRow rnd (y :: l)) := by
  obtain ⟨t, ht⟩ := vRow_cons2 (rnd := rnd) a y l
  cases h : vRow rnd (y :: l) with
  | nil => have := vRow_length (rnd := rnd) (y :: l); rw [h] at this; simp at this
  | cons b m => rw [ht, h, v1Row]; exact ⟨_, rfl⟩

theorem v1Row_ne (y : ℝ) (l : List ℝ) : ∃ b m, v1Row step (y :: l) (vRow rnd (y :: l)) = b :: m := by
  cases l with
  | nil => exact ⟨0, [], by rw [v1Row]⟩
  | cons z l => obtain ⟨t, h⟩ := v1Row_cons2 (rnd := rnd) (step := step) y z l; exact ⟨_, _, h⟩

theorem v2Row_apx (h0 : 0 ≤ u) (h1 : u < 1) (hr : ∀ z, |rnd z - z| ≤ u * |z|) (hf : IsFma step mul u) {d D : ℝ → ℝ} (hd : ∀ z, Rel u 1 (d z) (D z)) :
    ∀ (zs : List ℝ), ∀ i < zs.length, Apx (u / (1 - u)) (3 * (zs.length - 1 - i)) (ent (v1Row step (zs.map d) ((v1Row step (zs.map d) (vRow rnd (zs.map d))).map fun y => 2 * y)) i)
      (dsum2 ((zs.map D).drop (i + 1))) (dsum2 ((zs.map fun z => |D z|).drop (i + 1)))
  | [], i, hi => by simp at hi
  | [z], 0, _ => by simp [vRow, v1Row, ent, dsum2, Apx]
  | [z], i + 1, hi => by simp at hi
  | z :: y :: zs, 0, _ => by
      have ih := v2Row_apx h0 h1 hr hf hd (y :: zs) 0 (by simp)
      have hv := v1Row_apx h0 h1 hr hf hd (y :: zs) 0 (by simp)
      have h2 := apx_step hf (le_ratio h0 h1) (two_apx hv) ((hd y).apx h0 h1) ih (by omega)
      simp only [List.length_cons, List.map_cons, List.drop_succ_cons, List.drop_zero] at h2 ⊢
      obtain ⟨t, ht⟩ := v1Row_cons2 (rnd := rnd) (step := step) (d z) (d y) (zs.map d)
      obtain ⟨a, l, hl⟩ := v1Row_ne (rnd := rnd) (step := step) (d y) (zs.map d)
      rw [ht, hl, List.map_cons, List.map_cons, v1Row, headD_ent]
      rw [hl, List.map_cons] at h2
      rw [dsum2, dsum2]
      rw [show 3 * (zs.length + 1 + 1 - 1 - 0) = 1 + 3 * (zs.length + 1 - 1 - 0) + 2 by omega]
      exact h2
  | z :: y :: zs, i + 1, hi => by
      have ih := v2Row_apx h0 h1 hr hf hd (y :: zs) i (by simpa using hi)
      simp only [List.length_cons, List.map_cons, List.drop_succ_cons] at ih ⊢
      obtain ⟨t, ht⟩ := v1Row_cons2 (rnd := rnd) (step := step) (d z) (d y) (zs.map d)
      obtain ⟨a, l, hl⟩ := v1Row_ne (rnd := rnd) (step := step) (d y) (zs.map d)
      rw [ht, hl, List.map_cons, List.map_cons, v1Row, show zs.length + 1 + 1 - 1 - (i + 1) = zs.length + 1 - 1 - i by omega]
      rw [hl, List.map_cons] at ih
      exact ih

/-- `ell_i''(x)` as a sum of products, with the absolute values of all terms: `4 |w_i|` times the sum over the ordered pairs of different nodes other than `z_i` of the products of the `|2 (x - z_j)|` over the remaining nodes -/
noncomputable def absDeriv2 (z : List ℝ) (i : Nat) (x : ℝ) : ℝ :=
  4 * |1 / LagFl.dist z i (ent z i)| * dsum2 ((z.take i ++ z.drop (i + 1)).map fun c => |2 * (x - c)|)

/-- **C75, second derivatives**: up to `(1-u)^-(5n+2) - 1` times the sum of the absolute values of the terms -/
theorem lagrange_second_derivatives_rounded (h0 : 0 ≤ u) (h1 : u < 1) (hr : ∀ y, |rnd y - y| ≤ u * |y|) (hf : IsFma step (fun x y => rnd (x * y)) u) (z : List ℝ) (_hz : z.Nodup) (x : ℝ) :
    (evalDer2Fl rnd step z (coefFl rnd z) x).length = z.length ∧ ∀ i < z.length,
      |ent (evalDer2Fl rnd step z (coefFl rnd z) x) i - deriv (deriv (lagExact z i)) x| ≤ (((1 - u)⁻¹) ^ (5 * z.length + 2) - 1) * absDeriv2 z i x := by
  refine ⟨by simp [evalDer2Fl], fun i hi => ?_⟩
  have hd : ∀ zi, Rel u 1 (2 * rnd (x - zi)) (2 * (x - zi)) := by
    intro zi
    have := (Rel.refl (u := u) (2 : ℝ)).mul h1 ((Rel.refl (x - zi)).round h0 h1 hr)
    simpa using this
  have v0 : 0 ≤ u / (1 - u) := h0.trans (le_ratio h0 h1)
  have hu := le_ratio h0 h1
  have rn : ∀ {k X A} {y : ℝ}, Apx (u / (1 - u)) k y X A → Apx (u / (1 - u)) (k + 1) (rnd y) X A := fun h => h.rnd v0 ((hr _).trans (mul_le_mul_of_nonneg_right hu (abs_nonneg _)))
  have a0 := (uRow_rel h0 h1 hr hd z 0 1 1 (Rel.refl 1) i hi).apx h0 h1
  have b0 := (vRow_rel h0 h1 hr hd z i hi).apx h0 h1
  have a1 := u1Row_apx h0 h1 hr hf hd z 0 0 1 1 0 0 0 (le_refl _) (Rel.refl 1) (by simp [Apx]) i hi
  have b1 := v1Row_apx h0 h1 hr hf hd z i hi
  have a2 := u2Row_apx h0 h1 hr hf hd z 0 0 1 1 0 0 0 0 0 0 (le_refl _) (Rel.refl 1) (by simp [Apx]) (by simp [Apx]) i hi
  have b2 := v2Row_apx h0 h1 hr hf hd z i hi
  have w := ((coefFl_rel h0 h1 hr z).2 i hi).apx h0 h1
  have s1 := apx_step hf hu (rn (Apx.mul2 v0 a2 b0)) (two_apx a1) b1 (by omega)
  have s2 := apx_step hf hu s1 (a0.mono v0 (by omega : 0 + 2 * i ≤ 3 * i + 1)) b2 (by omega)
  have w2 : Apx (u / (1 - u)) (2 * z.length + 1) (4 * ent (coefFl rnd z) i) (4 * (1 / LagFl.dist z i (ent z i))) (4 * |1 / LagFl.dist z i (ent z i)|) := by
    have := two_apx (two_apx w)
    rwa [← mul_assoc, ← mul_assoc, ← mul_assoc, show (2 : ℝ) * 2 = 4 by norm_num] at this
  have t := (rn (Apx.mul2 v0 w2 s2)).2
  have ev : ent (evalDer2Fl rnd step z (coefFl rnd z) x) i = rnd (4 * ent (coefFl rnd z) i *
      step (step (rnd (ent (u1Row step (z.map fun zi => 2 * rnd (x - zi)) ((u1Row step (z.map fun zi => 2 * rnd (x - zi)) (uRow rnd (z.map fun zi => 2 * rnd (x - zi)) 1) 0).map fun y => 2 * y) 0) i *
            ent (vRow rnd (z.map fun zi => 2 * rnd (x - zi))) i))
          (2 * ent (u1Row step (z.map fun zi => 2 * rnd (x - zi)) (uRow rnd (z.map fun zi => 2 * rnd (x - zi)) 1) 0) i)
          (ent (v1Row step (z.map fun zi => 2 * rnd (x - zi)) (vRow rnd (z.map fun zi => 2 * rnd (x - zi)))) i))
        (ent (uRow rnd (z.map fun zi => 2 * rnd (x - zi)) 1) i)
        (ent (v1Row step (z.map fun zi => 2 * rnd (x - zi)) ((v1Row step (z.map fun zi => 2 * rnd (x - zi)) (vRow rnd (z.map fun zi => 2 * rnd (x - zi)))).map fun y => 2 * y)) i)) := by
    unfold evalDer2Fl
    rw [ent, List.getD_eq_getElem _ _ (by simpa using hi), List.getElem_map, List.getElem_range]
    rfl
  have ed : deriv (deriv (lagExact z i)) x = 4 * (1 / LagFl.dist z i (ent z i)) * dsum2 ((z.map fun zi => 2 * (x - zi)).take i ++ (z.map fun zi => 2 * (x - zi)).drop (i + 1)) := by
    have hl : lagExact z i = fun y => 1 / LagFl.dist z i (ent z i) * ((z.take i ++ z.drop (i + 1)).map fun c => 2 * (y - c)).prod := by
      funext y
      rw [← dist_eq_list z hi y, dist_ratio z hi y]; rfl
    have hl1 : deriv (lagExact z i) = fun y => 2 * (1 / LagFl.dist z i (ent z i)) * dsum ((z.take i ++ z.drop (i + 1)).map fun c => 2 * (y - c)) := by
      funext y
      rw [hl, ((hasDerivAt_prod (z.take i ++ z.drop (i + 1)) y).const_mul _).deriv]
      ring
    rw [hl1, ((hasDerivAt_dsum (z.take i ++ z.drop (i + 1)) x).const_mul _).deriv, List.map_append, List.map_take, List.map_drop]
    ring
  have e1 : 1 + u / (1 - u) = (1 - u)⁻¹ := by
    have : (1 - u) ≠ 0 := by linarith
    field_simp; ring
  have ep : |((z.map fun zi => 2 * (x - zi)).take i).prod| = ((z.map fun zi => |2 * (x - zi)|).take i).prod := by rw [abs_list_prod, List.map_take, List.map_map]; rfl
  have eq' : |((z.map fun zi => 2 * (x - zi)).drop (i + 1)).prod| = ((z.map fun zi => |2 * (x - zi)|).drop (i + 1)).prod := by rw [abs_list_prod, List.map_drop, List.map_map]; rfl
  rw [ev, ed]
  unfold absDeriv2
  rw [List.map_append, List.map_take, List.map_drop, dsum2_append, dsum2_append]
  simp only [one_mul, zero_mul, mul_zero, zero_add, abs_one, ep, eq', e1] at t
  rw [show 2 * z.length + 1 + (3 * i + 1 + 3 * (z.length - 1 - i) + 2) + 1 = 5 * z.length + 2 by omega] at t
  exact t

/-- the hypotheses are met: arithmetic that is always off by 1%, three nodes, every point -/
example (x : ℝ) : |ent (evalDerFl (fun y => y * (101 / 100)) (fun s x y => (s + x * y * (101 / 100)) * (101 / 100)) [-1, 0, 1] (coefFl (fun y => y * (101 / 100)) [-1, 0, 1]) x) 1 -
    deriv (lagExact [-1, 0, 1] 1) x| ≤ (((1 - 1 / 100 : ℝ)⁻¹) ^ 16 - 1) * absDeriv [-1, 0, 1] 1 x := by
  have hr : ∀ y : ℝ, |y * (101 / 100) - y| ≤ 1 / 100 * |y| := fun y => by
    rw [show y * (101 / 100) - y = 1 / 100 * y by ring, abs_mul, abs_of_pos (by norm_num : (0 : ℝ) < 1 / 100)]
  have h : IsFma (fun s x y => (s + x * y * (101 / 100)) * (101 / 100)) (fun x y : ℝ => x * y * (101 / 100)) (1 / 100) :=
    { u0 := by norm_num, step := fun s x y => ⟨x * y * (101 / 100), hr _, hr _⟩, mul := fun x y => hr _ }
  exact (lagrange_derivatives_rounded (by norm_num) (by norm_num) hr h [-1, 0, 1] (by norm_num) x).2 1 (by simp)

/-- the bound of the second derivative in the same case, at the node 0, is 4 * 1/4 * 2 times the factor -/
example : absDeriv2 [-1, 0, 1] 1 0 = 2 := by
  norm_num [absDeriv2, LagFl.dist, dsum2, dsum, Finset.prod_range_succ, ent]

end Gslib.Props
