import Verif.Model.LagFl
import Verif.Lemmas.TensorFl
import Mathlib.LinearAlgebra.Lagrange

/-!
# Relative errors of the Lagrange weights
-/

namespace Gslib.LagFl
open Gslib.Spec Finset

/-- `x` is `X` up to the relative error of `k` roundings -/
def Rel (u : ℝ) (k : Nat) (x X : ℝ) : Prop := ∃ θ, x = X * θ ∧ (1 - u) ^ k ≤ θ ∧ θ * (1 - u) ^ k ≤ 1

theorem Rel.refl {u : ℝ} (x : ℝ) : Rel u 0 x x := ⟨1, by simp, by simp, by simp⟩

theorem Rel.mul {u : ℝ} (h1 : u < 1) {k l : Nat} {x X y Y : ℝ} (hx : Rel u k x X) (hy : Rel u l y Y) : Rel u (k + l) (x * y) (X * Y) := by
  obtain ⟨a, rfl, a1, a2⟩ := hx
  obtain ⟨b, rfl, b1, b2⟩ := hy
  have p1 : 0 < (1 - u) ^ k := pow_pos (by linarith) _
  have p2 : 0 < (1 - u) ^ l := pow_pos (by linarith) _
  refine ⟨a * b, by ring, ?_, ?_⟩
  · rw [pow_add]; exact mul_le_mul a1 b1 p2.le (p1.le.trans a1)
  · rw [pow_add, show a * b * ((1 - u) ^ k * (1 - u) ^ l) = a * (1 - u) ^ k * (b * (1 - u) ^ l) by ring]
    exact mul_le_one₀ a2 (mul_nonneg (p2.le.trans b1) p2.le) b2

theorem Rel.round {rnd : ℝ → ℝ} {u : ℝ} (h0 : 0 ≤ u) (h1 : u < 1) (hr : ∀ z, |rnd z - z| ≤ u * |z|) {k : Nat} {x X : ℝ} (hx : Rel u k x X) : Rel u (k + 1) (rnd x) X := by
  have : Rel u 1 (rnd x) x := by
    by_cases hz : x = 0
    · subst hz
      have := hr 0
      rw [abs_zero, mul_zero, sub_zero, abs_nonpos_iff] at this
      exact ⟨1, by simp [this], by simpa using h0, by simpa using h0⟩
    · have h := hr x
      have hp : 0 < |x| := abs_pos.2 hz
      have e : |rnd x / x - 1| ≤ u := by
        rw [show rnd x / x - 1 = (rnd x - x) / x by field_simp, abs_div, div_le_iff₀ hp]; exact h
      rw [abs_le] at e
      refine ⟨rnd x / x, by field_simp, by rw [pow_one]; linarith [e.1], ?_⟩
      rw [pow_one]
      nlinarith [mul_nonneg h0 h0, e.2]
  obtain ⟨b, e, b1, b2⟩ := this
  obtain ⟨a, e', a1, a2⟩ := hx
  have := Rel.mul h1 (k := k) (l := 1) (x := a) (X := 1) (y := b) (Y := 1) ⟨a, by ring, a1, a2⟩ ⟨b, by ring, b1, b2⟩
  obtain ⟨c, e'', c1, c2⟩ := this
  refine ⟨c, ?_, c1, c2⟩
  rw [e, e', mul_assoc, e'', one_mul, one_mul]

theorem Rel.inv {u : ℝ} (h1 : u < 1) {k : Nat} {x X : ℝ} (hx : Rel u k x X) : Rel u k (1 / x) (1 / X) := by
  obtain ⟨a, rfl, a1, a2⟩ := hx
  have p1 : 0 < (1 - u) ^ k := pow_pos (by linarith) _
  have ha : 0 < a := lt_of_lt_of_le p1 a1
  refine ⟨a⁻¹, by rw [one_div, mul_inv, one_div], ?_, ?_⟩
  · rw [le_inv_comm₀ p1 ha, inv_eq_one_div, le_div_iff₀ p1]; exact a2
  · rw [inv_mul_le_iff₀ ha, mul_one]; exact a1

theorem Rel.apx {u : ℝ} (h0 : 0 ≤ u) (h1 : u < 1) {k : Nat} {x X : ℝ} (hx : Rel u k x X) : TensorFl.Apx (u / (1 - u)) k x X |X| := by
  obtain ⟨a, rfl, a1, a2⟩ := hx
  have hp : 0 < 1 - u := by linarith
  have p1 : 0 < (1 - u) ^ k := pow_pos hp _
  have p2 : (1 - u) ^ k ≤ 1 := pow_le_one₀ hp.le (by linarith)
  refine ⟨le_refl _, ?_⟩
  have e : 1 + u / (1 - u) = (1 - u)⁻¹ := by field_simp; ring
  rw [e, inv_pow, show X * a - X = (a - 1) * X by ring, abs_mul]
  refine mul_le_mul_of_nonneg_right ?_ (abs_nonneg X)
  have b1 : a ≤ ((1 - u) ^ k)⁻¹ := by rw [inv_eq_one_div, le_div_iff₀ p1]; exact a2
  have b2 : ((1 - u) ^ k) * ((1 - u) ^ k)⁻¹ = 1 := mul_inv_cancel₀ p1.ne'
  have b3 : 1 ≤ ((1 - u) ^ k)⁻¹ := (one_le_inv₀ p1).2 p2
  rw [abs_le]
  constructor
  · nlinarith [mul_self_nonneg (((1 - u) ^ k)⁻¹ - 1), mul_nonneg (sub_nonneg.2 p2) (sub_nonneg.2 b3)]
  · linarith

variable {rnd : ℝ → ℝ} {u : ℝ}

theorem uRow_length (ds : List ℝ) : ∀ u, (uRow rnd ds u).length = ds.length := by
  induction ds with
  | nil => intro u; rfl
  | cons d ds ih => intro u; simp [uRow, ih]

theorem vRow_length : ∀ ds : List ℝ, (vRow rnd ds).length = ds.length
  | [] => rfl
  | [_] => rfl
  | _ :: d :: ds => by rw [vRow, List.length_cons, vRow_length (d :: ds)]; rfl

theorem pRow_length : ∀ (w us vs : List ℝ), us.length = w.length → vs.length = w.length → (pRow rnd w us vs).length = w.length
  | [], us, vs, _, _ => by simp [pRow]
  | w :: ws, u :: us, v :: vs, h1, h2 => by
      rw [pRow, List.length_cons, pRow_length ws us vs (by simpa using h1) (by simpa using h2)]; rfl
  | w :: ws, [], _, h1, _ => by simp at h1
  | w :: ws, _ :: _, [], _, h2 => by simp at h2

theorem pRow_ent : ∀ (w us vs : List ℝ), us.length = w.length → vs.length = w.length → ∀ i < w.length, ent (pRow rnd w us vs) i = rnd (rnd (ent w i * ent us i) * ent vs i)
  | [], us, vs, _, _, i, h => by simp at h
  | w :: ws, u :: us, v :: vs, h1, h2, 0, _ => rfl
  | w :: ws, u :: us, v :: vs, h1, h2, i + 1, h => pRow_ent ws us vs (by simpa using h1) (by simpa using h2) i (by simpa using h)
  | w :: ws, [], _, h1, _, _, _ => by simp at h1
  | w :: ws, _ :: _, [], _, h2, _, _ => by simp at h2

theorem uRow_rel (h0 : 0 ≤ u) (h1 : u < 1) (hr : ∀ z, |rnd z - z| ≤ u * |z|) {d D : ℝ → ℝ} (hd : ∀ z, Rel u 1 (d z) (D z)) :
    ∀ (zs : List ℝ) (m : Nat) (a A : ℝ), Rel u m a A → ∀ i < zs.length, Rel u (m + 2 * i) (ent (uRow rnd (zs.map d) a) i) (A * ((zs.map D).take i).prod)
  | [], _, _, _, _, i, hi => by simp at hi
  | z :: zs, m, a, A, h, 0, _ => by simpa [uRow, ent] using h
  | z :: zs, m, a, A, h, i + 1, hi => by
      have h2 := (h.mul h1 (hd z)).round h0 h1 hr
      have := uRow_rel h0 h1 hr hd zs (m + 1 + 1) _ _ h2 i (by simpa using hi)
      rw [show m + 2 * (i + 1) = m + 1 + 1 + 2 * i by ring, List.map_cons, List.map_cons, List.take_succ_cons, List.prod_cons, ← mul_assoc]
      exact this

theorem vRow_rel (h0 : 0 ≤ u) (h1 : u < 1) (hr : ∀ z, |rnd z - z| ≤ u * |z|) {d D : ℝ → ℝ} (hd : ∀ z, Rel u 1 (d z) (D z)) :
    ∀ (zs : List ℝ), ∀ i < zs.length, Rel u (2 * (zs.length - 1 - i)) (ent (vRow rnd (zs.map d)) i) (((zs.map D).drop (i + 1)).prod)
  | [], i, hi => by simp at hi
  | [z], 0, _ => by simpa [vRow, ent] using Rel.refl 1
  | [z], i + 1, hi => by simp at hi
  | z :: y :: zs, 0, _ => by
      have ih := vRow_rel h0 h1 hr hd (y :: zs) 0 (by simp)
      have h2 := ((hd y).mul h1 ih).round h0 h1 hr
      simp only [List.length_cons, List.map_cons, List.drop_succ_cons, List.drop_zero, List.prod_cons] at h2 ⊢
      rw [show 2 * (zs.length + 1 + 1 - 1 - 0) = 1 + 2 * (zs.length + 1 - 1 - 0) + 1 by omega]
      have e : ent (vRow rnd (d z :: d y :: zs.map d)) 0 = rnd (d y * ent (vRow rnd (d y :: zs.map d)) 0) := by
        rw [vRow]
        have : (vRow rnd (d y :: zs.map d)).headD 0 = ent (vRow rnd (d y :: zs.map d)) 0 := by
          unfold ent; cases vRow rnd (d y :: zs.map d) <;> rfl
        rw [this]; rfl
      rw [e]
      exact h2
  | z :: y :: zs, i + 1, hi => by
      have ih := vRow_rel h0 h1 hr hd (y :: zs) i (by simpa using hi)
      simp only [List.length_cons, List.map_cons, List.drop_succ_cons] at ih ⊢
      rw [show zs.length + 1 + 1 - 1 - (i + 1) = zs.length + 1 - 1 - i by omega]
      exact ih

/-- product of all entries but one -/
theorem take_drop_prod : ∀ (l : List ℝ) (i : Nat), i < l.length → (l.take i).prod * (l.drop (i + 1)).prod = ∏ j ∈ range l.length, if j = i then 1 else ent l j
  | [], i, h => by simp at h
  | a :: l, 0, _ => by
      have key : ∀ l : List ℝ, l.prod = ∏ j ∈ range l.length, ent l j := by
        intro l
        induction l with
        | nil => simp
        | cons a l ih => rw [List.prod_cons, List.length_cons, prod_range_succ', ih, mul_comm]; rfl
      rw [List.length_cons, prod_range_succ']
      simp only [List.take_zero, List.prod_nil, Nat.zero_add, List.drop_succ_cons, List.drop_zero, one_mul, if_true, mul_one, Nat.add_eq_zero_iff, one_ne_zero, and_false, if_false]
      exact key l
  | a :: l, i + 1, h => by
      have ih := take_drop_prod l i (by simpa using h)
      rw [List.length_cons, prod_range_succ', List.take_succ_cons, List.drop_succ_cons, List.prod_cons, mul_assoc, ih, mul_comm]
      congr 1
      refine prod_congr rfl fun j _ => ?_
      by_cases e : j = i
      · subst e; simp
      · simp only [e, if_false, Nat.add_right_cancel_iff]; rfl

/-- the product of the doubled distances of `x` from the other nodes -/
def dist (z : List ℝ) (i : Nat) (x : ℝ) : ℝ := ∏ j ∈ range z.length, if j = i then 1 else 2 * (x - ent z j)

theorem evalFl_rel (h0 : 0 ≤ u) (h1 : u < 1) (hr : ∀ z, |rnd z - z| ≤ u * |z|) (z w : List ℝ) (hw : w.length = z.length) (x : ℝ) :
    (evalFl rnd z w x).length = z.length ∧ ∀ i < z.length, ∀ k W, Rel u k (ent w i) W → Rel u (k + 2 * z.length) (ent (evalFl rnd z w x) i) (W * dist z i x) := by
  have hd : ∀ zi, Rel u 1 (2 * rnd (x - zi)) (2 * (x - zi)) := by
    intro zi
    have := (Rel.refl (u := u) (2 : ℝ)).mul h1 ((Rel.refl (x - zi)).round h0 h1 hr)
    simpa using this
  have l1 := uRow_length (rnd := rnd) (z.map fun zi => 2 * rnd (x - zi)) 1
  have l2 := vRow_length (rnd := rnd) (z.map fun zi => 2 * rnd (x - zi))
  rw [List.length_map] at l1 l2
  refine ⟨(pRow_length _ _ _ (by omega) (by omega)).trans hw, fun i hi k W hW => ?_⟩
  have a := uRow_rel h0 h1 hr hd z 0 1 1 (Rel.refl 1) i hi
  have b := vRow_rel h0 h1 hr hd z i hi
  have c := (((hW.mul h1 a).round h0 h1 hr).mul h1 b).round h0 h1 hr
  unfold evalFl
  dsimp only
  rw [pRow_ent _ _ _ (by omega) (by omega) i (by omega)]
  have e : dist z i x = ((z.map fun zi => 2 * (x - zi)).take i).prod * ((z.map fun zi => 2 * (x - zi)).drop (i + 1)).prod := by
    rw [take_drop_prod _ i (by simpa using hi), List.length_map]
    unfold dist
    refine prod_congr rfl fun j hj => ?_
    rw [mem_range] at hj
    by_cases e : j = i
    · rw [if_pos e, if_pos e]
    · rw [if_neg e, if_neg e]
      unfold ent
      rw [List.getD_eq_getElem _ _ hj, List.getD_eq_getElem _ _ (by simpa using hj)]; simp
  rw [e, show k + 2 * z.length = k + (0 + 2 * i) + 1 + 2 * (z.length - 1 - i) + 1 by omega]
  rw [one_mul] at c
  rw [← mul_assoc W]
  exact c

theorem ent_set (l : List ℝ) (i j : Nat) (v : ℝ) (hi : i < l.length) : ent (l.set i v) j = if j = i then v else ent l j := by
  unfold ent
  rw [List.getD_eq_getElem?_getD, List.getD_eq_getElem?_getD, List.getElem?_set]
  by_cases h : i = j
  · subst h; simp [hi]
  · rw [if_neg h, if_neg (Ne.symm h)]

theorem coefLoop_rel (h0 : 0 ≤ u) (h1 : u < 1) (hr : ∀ z, |rnd z - z| ≤ u * |z|) (z : List ℝ) : ∀ (k i : Nat) (w : List ℝ), w.length = z.length → i + k = z.length →
    (∀ j < i, Rel u (2 * z.length + 1) (ent w j) (1 / dist z j (ent z j))) → (∀ j, i ≤ j → j < z.length → ent w j = 1) →
    (coefLoop rnd z k i w).length = z.length ∧ ∀ j < z.length, Rel u (2 * z.length + 1) (ent (coefLoop rnd z k i w) j) (1 / dist z j (ent z j))
  | 0, i, w, hw, hk, h2, _ => ⟨hw, fun j hj => h2 j (by omega)⟩
  | k + 1, i, w, hw, hk, h2, h3 => by
      rw [coefLoop]
      have hi : i < z.length := by omega
      have hone := h3 i (le_refl _) hi
      have hrow := (evalFl_rel h0 h1 hr z w hw (ent z i)).2 i hi 0 1 (by rw [hone]; exact Rel.refl 1)
      rw [one_mul, Nat.zero_add] at hrow
      have hnew := (hrow.inv h1).round h0 h1 hr
      refine coefLoop_rel h0 h1 hr z k (i + 1) _ (by simpa using hw) (by omega) ?_ ?_
      · intro j hj
        rw [ent_set _ _ _ _ (by omega)]
        by_cases e : j = i
        · subst e; rw [if_pos rfl]; exact hnew
        · rw [if_neg e]; exact h2 j (by omega)
      · intro j hj hj2
        rw [ent_set _ _ _ _ (by omega), if_neg (by omega)]; exact h3 j (by omega) hj2

theorem coefFl_rel (h0 : 0 ≤ u) (h1 : u < 1) (hr : ∀ z, |rnd z - z| ≤ u * |z|) (z : List ℝ) :
    (coefFl rnd z).length = z.length ∧ ∀ j < z.length, Rel u (2 * z.length + 1) (ent (coefFl rnd z) j) (1 / dist z j (ent z j)) :=
  coefLoop_rel h0 h1 hr z z.length 0 _ (by simp) (by omega) (fun j hj => by omega) fun j _ hj => by
    unfold ent
    rw [List.getD_eq_getElem _ _ (by simpa using hj)]; simp

theorem dist_ratio (z : List ℝ) {i : Nat} (hi : i < z.length) (x : ℝ) :
    1 / dist z i (ent z i) * dist z i x = (Lagrange.basis (range z.length) (ent z) i).eval x := by
  have e : ∀ y, dist z i y = ∏ j ∈ (range z.length).erase i, 2 * (y - ent z j) := by
    intro y
    unfold dist
    rw [← mul_prod_erase _ _ (mem_range.2 hi), if_pos rfl, one_mul]
    exact prod_congr rfl fun j hj => if_neg (ne_of_mem_erase hj)
  rw [e, e, Lagrange.basis, Polynomial.eval_prod, one_div, ← prod_inv_distrib, ← prod_mul_distrib]
  refine prod_congr rfl fun j _ => ?_
  rw [Lagrange.basisDivisor]
  simp only [Polynomial.eval_mul, Polynomial.eval_C, Polynomial.eval_sub, Polynomial.eval_X]
  rw [mul_inv]
  ring

end Gslib.LagFl
