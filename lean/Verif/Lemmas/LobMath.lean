import Verif.Lemmas.LobRun
import Verif.Spec.LobBnd
import Mathlib.Algebra.Order.BigOperators.Ring.Finset
import Mathlib.Tactic.Linarith
import Mathlib.Tactic.FieldSimp
import Mathlib.Tactic.LinearCombination

/-!
# Interval arithmetic behind lob_bnd.c
-/

namespace Gslib.Lob
open Gslib.Num Gslib.Poly Gslib.Spec Finset
variable {K : Type} [Field K] [LinearOrder K] [IsStrictOrderedRing K]

/-- `f` is between the averages of the lower and of the upper bounds with weights `wt` -/
def Enc (M : Nat) (wt : Nat → K) (F : Nat → K × K) (f : K) : Prop := ∑ c ∈ range M, wt c * (F c).1 ≤ f ∧ f ≤ ∑ c ∈ range M, wt c * (F c).2

/-- weights of an average -/
structure Wts (M : Nat) (wt : Nat → K) : Prop where
  pos : ∀ c < M, 0 ≤ wt c
  sum : ∑ c ∈ range M, wt c = 1

theorem enc_split {M : Nat} {wt : Nat → K} {F : Nat → K × K} {f : K} (hF : ∀ c < M, (F c).1 ≤ (F c).2) (he : Enc M wt F f) :
    ∃ P : Nat → K, (∀ c < M, (F c).1 ≤ P c ∧ P c ≤ (F c).2) ∧ f = ∑ c ∈ range M, wt c * P c := by
  obtain ⟨h1, h2⟩ := he
  have hlin : ∀ θ : K, ∑ c ∈ range M, wt c * ((F c).1 + θ * ((F c).2 - (F c).1)) = ∑ c ∈ range M, wt c * (F c).1 + θ * (∑ c ∈ range M, wt c * (F c).2 - ∑ c ∈ range M, wt c * (F c).1) := by
    intro θ
    rw [← sum_sub_distrib, mul_sum, ← sum_add_distrib]
    refine sum_congr rfl fun c _ => ?_
    ring
  rcases (h1.trans h2).eq_or_lt with h | h
  · refine ⟨fun c => (F c).1, fun c hc => ⟨le_refl _, hF c hc⟩, le_antisymm (h ▸ h2) h1⟩
  · have hd : 0 < ∑ c ∈ range M, wt c * (F c).2 - ∑ c ∈ range M, wt c * (F c).1 := sub_pos.2 h
    set d := ∑ c ∈ range M, wt c * (F c).2 - ∑ c ∈ range M, wt c * (F c).1 with hdef
    have hθ0 : 0 ≤ (f - ∑ c ∈ range M, wt c * (F c).1) / d := div_nonneg (sub_nonneg.2 h1) hd.le
    have hθ1 : (f - ∑ c ∈ range M, wt c * (F c).1) / d ≤ 1 := by
      rw [div_le_one hd]; rw [hdef]; linarith
    refine ⟨fun c => (F c).1 + (f - ∑ c ∈ range M, wt c * (F c).1) / d * ((F c).2 - (F c).1), fun c hc => ?_, ?_⟩
    · have h3 : 0 ≤ (F c).2 - (F c).1 := sub_nonneg.2 (hF c hc)
      constructor
      · have := mul_nonneg hθ0 h3; linarith
      · have := mul_le_mul_of_nonneg_right hθ1 h3; linarith
    · rw [hlin, div_mul_cancel₀ _ hd.ne']; ring

theorem enc_of {M : Nat} {wt : Nat → K} (hw : ∀ c < M, 0 ≤ wt c) {F : Nat → K × K} {P : Nat → K} (h : ∀ c < M, (F c).1 ≤ P c ∧ P c ≤ (F c).2) :
    Enc M wt F (∑ c ∈ range M, wt c * P c) :=
  ⟨sum_le_sum fun c hc => mul_le_mul_of_nonneg_left (h c (mem_range.1 hc)).1 (hw c (mem_range.1 hc)),
   sum_le_sum fun c hc => mul_le_mul_of_nonneg_left (h c (mem_range.1 hc)).2 (hw c (mem_range.1 hc))⟩

theorem extTerm_bound {w0 w1 W lo hi P : K} (h0 : w0 ≤ W) (h1 : W ≤ w1) (h2 : lo ≤ P) (h3 : P ≤ hi) :
    (extTerm w0 w1 (min lo 0) (max lo 0) (min hi 0) (max hi 0)).1 ≤ W * P ∧ W * P ≤ (extTerm w0 w1 (min lo 0) (max lo 0) (min hi 0) (max hi 0)).2 := by
  have a1 : lo = min lo 0 + max lo 0 := by rw [min_add_max]; ring
  have a2 : hi = min hi 0 + max hi 0 := by rw [min_add_max]; ring
  have b1 : min lo 0 ≤ 0 := min_le_right _ _
  have b2 : 0 ≤ max lo 0 := le_max_right _ _
  have b3 : min hi 0 ≤ 0 := min_le_right _ _
  have b4 : 0 ≤ max hi 0 := le_max_right _ _
  have b5 : min lo 0 ≤ P := (min_le_left _ _).trans h2
  have b6 : P ≤ max hi 0 := h3.trans (le_max_left _ _)
  generalize min lo 0 = l0 at *
  generalize max lo 0 = l1 at *
  generalize min hi 0 = l2 at *
  generalize max hi 0 = l3 at *
  unfold extTerm
  split_ifs with h h'
  · constructor
    · have c1 := mul_nonneg (h.trans h0) (sub_nonneg.2 h2)
      have c2 := mul_nonneg (sub_nonneg.2 h0) b2
      have c3 := mul_nonneg (sub_nonneg.2 h1) (neg_nonneg.2 b1)
      rw [a1] at c1
      nlinarith
    · have c1 := mul_nonneg (h.trans h0) (sub_nonneg.2 h3)
      have c2 := mul_nonneg (sub_nonneg.2 h1) b4
      have c3 := mul_nonneg (sub_nonneg.2 h0) (neg_nonneg.2 b3)
      rw [a2] at c1
      nlinarith
  · have hW : W ≤ 0 := h1.trans h'
    constructor
    · have c1 := mul_nonneg (neg_nonneg.2 hW) (sub_nonneg.2 h3)
      have c2 := mul_nonneg (sub_nonneg.2 h0) b4
      have c3 := mul_nonneg (sub_nonneg.2 h1) (neg_nonneg.2 b3)
      rw [a2] at c1
      nlinarith
    · have c1 := mul_nonneg (neg_nonneg.2 hW) (sub_nonneg.2 h2)
      have c2 := mul_nonneg (sub_nonneg.2 h1) b2
      have c3 := mul_nonneg (sub_nonneg.2 h0) (neg_nonneg.2 b1)
      rw [a1] at c1
      nlinarith
  · have d0 : w0 ≤ 0 := (not_le.1 h).le
    have d1 : 0 ≤ w1 := (not_le.1 h').le
    have e1 := mul_nonneg (neg_nonneg.2 d0) b4
    have e2 := mul_nonneg d1 (neg_nonneg.2 b1)
    have e3 := mul_nonneg d1 b4
    have e4 := mul_nonneg (neg_nonneg.2 d0) (neg_nonneg.2 b1)
    rcases le_total 0 W with hW | hW
    · have c1 := mul_nonneg hW (sub_nonneg.2 b5)
      have c2 := mul_nonneg hW (sub_nonneg.2 b6)
      have c3 := mul_nonneg (sub_nonneg.2 h1) (neg_nonneg.2 b1)
      have c4 := mul_nonneg (sub_nonneg.2 h1) b4
      constructor <;> nlinarith
    · have c1 := mul_nonneg (neg_nonneg.2 hW) (sub_nonneg.2 b5)
      have c2 := mul_nonneg (neg_nonneg.2 hW) (sub_nonneg.2 b6)
      have c3 := mul_nonneg (sub_nonneg.2 h0) (neg_nonneg.2 b1)
      have c4 := mul_nonneg (sub_nonneg.2 h0) b4
      constructor <;> nlinarith

theorem sum_range_mul (M m : Nat) (g : Nat → K) : ∑ p ∈ range (M * m), g p = ∑ c ∈ range M, ∑ k ∈ range m, g (c * m + k) := by
  induction M with
  | zero => simp
  | succ M ih => rw [Nat.succ_mul, sum_range_add, ih, sum_range_succ]

/-- the direction-wise data at a point: values `φ` of the basis polynomials, weights `wt` of the nodes `h` -/
structure Dir (n m : Nat) (z h : Nat → K) (lb : Nat → Nat → K × K) (φ : Nat → K) (wt : Nat → K) : Prop where
  wts : Wts m wt
  one : ∑ j ∈ range n, φ j = 1
  lin : ∑ j ∈ range n, φ j * z j = ∑ k ∈ range m, wt k * h k
  le : ∀ j < n, ∀ k < m, (lb j k).1 ≤ (lb j k).2
  enc : ∀ j < n, Enc m wt (lb j) (φ j)

section
variable {n m : Nat} {z h : Nat → K} {lb : Nat → Nat → K × K} {φ wt : Nat → K} (hd : Dir n m z h lb φ wt)
include hd

/-- the polynomial is the average over the nodes of linear part plus remainder -/
theorem Dir.expand (P : Nat → K) (a0 a1 : K) {Φ : Nat → Nat → K} (hΦ : ∀ j < n, φ j = ∑ k ∈ range m, wt k * Φ j k) :
    ∑ j ∈ range n, P j * φ j = ∑ k ∈ range m, wt k * (a0 + a1 * h k + ∑ j ∈ range n, (P j - (a0 + a1 * z j)) * Φ j k) := by
  have e1 : ∑ j ∈ range n, P j * φ j = a0 * ∑ j ∈ range n, φ j + a1 * ∑ j ∈ range n, φ j * z j + ∑ j ∈ range n, (P j - (a0 + a1 * z j)) * φ j := by
    rw [mul_sum, mul_sum, ← sum_add_distrib, ← sum_add_distrib]
    refine sum_congr rfl fun j _ => ?_
    ring
  have e2 : ∑ j ∈ range n, (P j - (a0 + a1 * z j)) * φ j = ∑ k ∈ range m, wt k * ∑ j ∈ range n, (P j - (a0 + a1 * z j)) * Φ j k := by
    have : ∀ j ∈ range n, (P j - (a0 + a1 * z j)) * φ j = ∑ k ∈ range m, wt k * ((P j - (a0 + a1 * z j)) * Φ j k) := by
      intro j hj
      rw [hΦ j (mem_range.1 hj), mul_sum]
      refine sum_congr rfl fun k _ => ?_
      ring
    rw [sum_congr rfl this, sum_comm]
    refine sum_congr rfl fun k _ => ?_
    rw [mul_sum]
  have e3 : ∑ k ∈ range m, wt k * (a0 + a1 * h k + ∑ j ∈ range n, (P j - (a0 + a1 * z j)) * Φ j k) =
      a0 * ∑ k ∈ range m, wt k + a1 * ∑ k ∈ range m, wt k * h k + ∑ k ∈ range m, wt k * ∑ j ∈ range n, (P j - (a0 + a1 * z j)) * Φ j k := by
    rw [mul_sum, mul_sum, ← sum_add_distrib, ← sum_add_distrib]
    refine sum_congr rfl fun k _ => ?_
    ring
  rw [e3, e1, e2, hd.one, hd.wts.sum, hd.lin]

theorem Dir.split : ∃ Φ : Nat → Nat → K, (∀ j < n, φ j = ∑ k ∈ range m, wt k * Φ j k) ∧ ∀ j < n, ∀ k < m, (lb j k).1 ≤ Φ j k ∧ Φ j k ≤ (lb j k).2 := by
  have : ∀ j, ∃ P : Nat → K, j < n → (∀ k < m, (lb j k).1 ≤ P k ∧ P k ≤ (lb j k).2) ∧ φ j = ∑ k ∈ range m, wt k * P k := by
    intro j
    by_cases hj : j < n
    · obtain ⟨P, h1, h2⟩ := enc_split (hd.le j hj) (hd.enc j hj)
      exact ⟨P, fun _ => ⟨h1, h2⟩⟩
    · exact ⟨fun _ => 0, fun h => absurd h hj⟩
  choose P hP using this
  exact ⟨P, fun j hj => (hP j hj).2, fun j hj => (hP j hj).1⟩

theorem Dir.fst (Q : Nat → K × K) (u : Nat → K) : Enc m wt (fstVal n z Q h lb u n) (∑ j ∈ range n, u j * φ j) := by
  obtain ⟨Φ, h1, h2⟩ := hd.split
  rw [hd.expand u (co n Q u).1 (co n Q u).2 h1]
  refine enc_of hd.wts.pos fun k hk => ?_
  unfold fstVal
  refine ⟨add_le_add_right (sum_le_sum fun j hj => ?_) _, add_le_add_right (sum_le_sum fun j hj => ?_) _⟩
  · have := h2 j (mem_range.1 hj) k hk
    dsimp only
    split_ifs with hw
    · exact mul_le_mul_of_nonneg_left this.1 hw
    · exact mul_le_mul_of_nonpos_left this.2 (not_le.1 hw).le
  · have := h2 j (mem_range.1 hj) k hk
    dsimp only
    split_ifs with hw
    · exact mul_le_mul_of_nonneg_left this.2 hw
    · exact mul_le_mul_of_nonpos_left this.1 (not_le.1 hw).le

theorem Dir.fst_le (Q : Nat → K × K) (u : Nat → K) (k : Nat) (hk : k < m) : (fstVal n z Q h lb u n k).1 ≤ (fstVal n z Q h lb u n k).2 := by
  unfold fstVal
  refine add_le_add_right (sum_le_sum fun j hj => ?_) _
  have := hd.le j (mem_range.1 hj) k hk
  split_ifs with hw
  · exact mul_le_mul_of_nonneg_left this hw
  · exact mul_le_mul_of_nonpos_left this (not_le.1 hw).le

/-- one node of the previous directions -/
theorem Dir.ext_node (Q : Nat → K × K) (M : Nat) (R : Nat → K × K) (c : Nat) (P : Nat → K)
    (hP : ∀ j < n, (R (j * M + c)).1 ≤ P j ∧ P j ≤ (R (j * M + c)).2) :
    Enc m wt (fun k => extVal n m z Q h lb M R n (c * m + k)) (∑ j ∈ range n, P j * φ j) := by
  obtain ⟨Φ, h1, h2⟩ := hd.split
  rw [hd.expand P (extA n Q M R c).1 (extA n Q M R c).2 h1]
  refine enc_of hd.wts.pos fun k hk => ?_
  rw [extVal_at hk]
  refine ⟨add_le_add_right (sum_le_sum fun j hj => ?_) _, add_le_add_right (sum_le_sum fun j hj => ?_) _⟩
  · have hj := mem_range.1 hj
    exact (extTerm_bound (sub_le_sub_right (hP j hj).1 _) (sub_le_sub_right (hP j hj).2 _) (h2 j hj k hk).1 (h2 j hj k hk).2).1
  · have hj := mem_range.1 hj
    exact (extTerm_bound (sub_le_sub_right (hP j hj).1 _) (sub_le_sub_right (hP j hj).2 _) (h2 j hj k hk).1 (h2 j hj k hk).2).2

theorem Dir.ext_le (Q : Nat → K × K) (M : Nat) (R : Nat → K × K) (hR : ∀ j < n, ∀ c < M, (R (j * M + c)).1 ≤ (R (j * M + c)).2) (c k : Nat) (hc : c < M) (hk : k < m) :
    (extVal n m z Q h lb M R n (c * m + k)).1 ≤ (extVal n m z Q h lb M R n (c * m + k)).2 := by
  rw [extVal_at hk]
  refine add_le_add_right (sum_le_sum fun j hj => ?_) _
  have hj := mem_range.1 hj
  have := extTerm_bound (w0 := (R (j * M + c)).1 - ((extA n Q M R c).1 + (extA n Q M R c).2 * z j)) (W := (R (j * M + c)).1 - ((extA n Q M R c).1 + (extA n Q M R c).2 * z j))
    (w1 := (R (j * M + c)).2 - ((extA n Q M R c).1 + (extA n Q M R c).2 * z j)) (le_refl _) (sub_le_sub_right (hR j hj c hc) _) (le_refl (lb j k).1) (hd.le j hj k hk)
  exact this.1.trans this.2

/-- one more direction: nested averages -/
theorem Dir.ext (Q : Nat → K × K) (M : Nat) (W : Nat → K) (hW : ∀ c < M, 0 ≤ W c) (R : Nat → K × K) (hR : ∀ j < n, ∀ c < M, (R (j * M + c)).1 ≤ (R (j * M + c)).2)
    (f : Nat → K) (hf : ∀ j < n, Enc M W (fun c => R (j * M + c)) (f j)) :
    Enc (M * m) (fun p => W (p / m) * wt (p % m)) (extVal n m z Q h lb M R n) (∑ j ∈ range n, f j * φ j) := by
  have : ∀ j, ∃ P : Nat → K, j < n → (∀ c < M, (R (j * M + c)).1 ≤ P c ∧ P c ≤ (R (j * M + c)).2) ∧ f j = ∑ c ∈ range M, W c * P c := by
    intro j
    by_cases hj : j < n
    · obtain ⟨P, h1, h2⟩ := enc_split (F := fun c => R (j * M + c)) (hR j hj) (hf j hj)
      exact ⟨P, fun _ => ⟨h1, h2⟩⟩
    · exact ⟨fun _ => 0, fun h => absurd h hj⟩
  choose P hP using this
  have e1 : ∑ j ∈ range n, f j * φ j = ∑ c ∈ range M, W c * ∑ j ∈ range n, P j c * φ j := by
    have : ∀ j ∈ range n, f j * φ j = ∑ c ∈ range M, W c * (P j c * φ j) := by
      intro j hj
      rw [(hP j (mem_range.1 hj)).2, sum_mul]
      exact sum_congr rfl fun c _ => mul_assoc _ _ _
    rw [sum_congr rfl this, sum_comm]
    exact sum_congr rfl fun c _ => (mul_sum _ _ _).symm
  have e2 : ∀ g : Nat → K, ∑ p ∈ range (M * m), W (p / m) * wt (p % m) * g p = ∑ c ∈ range M, W c * ∑ k ∈ range m, wt k * g (c * m + k) := by
    intro g
    rw [sum_range_mul]
    refine sum_congr rfl fun c _ => ?_
    rw [mul_sum]
    refine sum_congr rfl fun k hk => ?_
    have hk := mem_range.1 hk
    have h1 : (c * m + k) / m = c := by rw [Nat.mul_comm, Nat.mul_add_div (by omega), Nat.div_eq_of_lt hk, Nat.add_zero]
    have h2 : (c * m + k) % m = k := by rw [Nat.mul_comm, Nat.mul_add_mod, Nat.mod_eq_of_lt hk]
    rw [h1, h2, mul_assoc]
  unfold Enc
  rw [e2, e2, e1]
  exact ⟨sum_le_sum fun c hc => mul_le_mul_of_nonneg_left (hd.ext_node Q M R c (fun j => P j c) fun j hj => (hP j hj).1 c (mem_range.1 hc)).1 (hW c (mem_range.1 hc)),
    sum_le_sum fun c hc => mul_le_mul_of_nonneg_left (hd.ext_node Q M R c (fun j => P j c) fun j hj => (hP j hj).1 c (mem_range.1 hc)).2 (hW c (mem_range.1 hc))⟩

theorem Dir.wtsMul (M : Nat) (W : Nat → K) (hW : Wts M W) : Wts (M * m) (fun p => W (p / m) * wt (p % m)) where
  pos p hp := by
    rcases Nat.eq_zero_or_pos m with h0 | h0
    · subst h0; simp at hp
    · exact mul_nonneg (hW.pos _ (Nat.div_lt_of_lt_mul (by rwa [Nat.mul_comm]))) (hd.wts.pos _ (Nat.mod_lt _ h0))
  sum := by
    rw [sum_range_mul, ← hW.sum]
    refine sum_congr rfl fun c _ => ?_
    have : ∀ k ∈ range m, W ((c * m + k) / m) * wt ((c * m + k) % m) = W c * wt k := by
      intro k hk
      have hk := mem_range.1 hk
      have h1 : (c * m + k) / m = c := by rw [Nat.mul_comm, Nat.mul_add_div (by omega), Nat.div_eq_of_lt hk, Nat.add_zero]
      have h2 : (c * m + k) % m = k := by rw [Nat.mul_comm, Nat.mul_add_mod, Nat.mod_eq_of_lt hk]
      rw [h1, h2]
    rw [sum_congr rfl this, ← mul_sum, hd.wts.sum, mul_one]
end

theorem enc_minmax {M : Nat} {wt : Nat → K} (hw : Wts M wt) {F : Nat → K × K} {f : K} (he : Enc M wt F f) {r : K × K}
    (hr : ∀ k < M, r.1 ≤ (F k).1 ∧ (F k).2 ≤ r.2) : r.1 ≤ f ∧ f ≤ r.2 := by
  constructor
  · refine le_trans ?_ he.1
    calc r.1 = ∑ c ∈ range M, wt c * r.1 := by rw [← sum_mul, hw.sum, one_mul]
      _ ≤ _ := sum_le_sum fun c hc => mul_le_mul_of_nonneg_left (hr c (mem_range.1 hc)).1 (hw.pos c (mem_range.1 hc))
  · refine he.2.trans ?_
    calc _ ≤ ∑ c ∈ range M, wt c * r.2 := sum_le_sum fun c hc => mul_le_mul_of_nonneg_left (hr c (mem_range.1 hc)).2 (hw.pos c (mem_range.1 hc))
      _ = r.2 := by rw [← sum_mul, hw.sum, one_mul]

end Gslib.Lob
