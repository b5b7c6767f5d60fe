import Verif.Model.TensorFl
import Verif.Lemmas.Tensor
import Mathlib.Analysis.SpecialFunctions.Pow.Real

/-!
# Rounding errors of the tensor kernels
-/

namespace Gslib.TensorFl
open Gslib.Spec Gslib.Tensor Finset

/-- `s`, then `step` with the products `f 0`, `f 1`, ... -/
def fold (step : ℝ → ℝ → ℝ → ℝ) (f g : Nat → ℝ) (n : Nat) (s : ℝ) : ℝ := (List.range n).foldl (fun s i => step s (f i) (g i)) s

theorem fold_succ_left (step : ℝ → ℝ → ℝ → ℝ) (f g : Nat → ℝ) (n : Nat) (s : ℝ) :
    fold step f g (n + 1) s = fold step (fun i => f (i + 1)) (fun i => g (i + 1)) n (step s (f 0) (g 0)) := by
  unfold fold
  rw [List.range_succ_eq_map, List.foldl_cons, List.foldl_map]

theorem fold_succ (step : ℝ → ℝ → ℝ → ℝ) (f g : Nat → ℝ) (n : Nat) (s : ℝ) :
    fold step f g (n + 1) s = step (fold step f g n s) (f n) (g n) := by
  unfold fold
  rw [List.range_succ, List.foldl_append]; rfl

theorem fold_congr {step : ℝ → ℝ → ℝ → ℝ} {f g f' g' : Nat → ℝ} {s : ℝ} : ∀ {n : Nat}, (∀ i < n, f i = f' i) → (∀ i < n, g i = g' i) → fold step f g n s = fold step f' g' n s
  | 0, _, _ => rfl
  | n + 1, h1, h2 => by rw [fold_succ, fold_succ, fold_congr (fun i hi => h1 i (by omega)) (fun i hi => h2 i (by omega)), h1 n (by omega), h2 n (by omega)]

theorem dotLoop_eq (step : ℝ → ℝ → ℝ → ℝ) : ∀ (n : Nat) (a b : List ℝ) (s : ℝ), n ≤ a.length → n ≤ b.length →
    dotLoop step a b n s = some (fold step (ent a) (ent b) n s)
  | 0, _, _, _, _, _ => by simp [dotLoop, fold]
  | n + 1, [], _, _, h, _ => by simp at h
  | n + 1, _ :: _, [], _, _, h => by simp at h
  | n + 1, x :: a, y :: b, s, ha, hb => by
    rw [dotLoop, dotLoop_eq step n a b _ (by simpa using ha) (by simpa using hb), fold_succ_left]
    rfl

theorem addScaled_eq (step : ℝ → ℝ → ℝ → ℝ) : ∀ (n : Nat) (f : Nat → ℝ) (A : List ℝ) (b : ℝ), n ≤ A.length →
    addScaled step (tab n f) A b = some (tab n fun i => step (f i) (ent A i) b)
  | 0, _, _, _, _ => by simp [tab, addScaled]
  | n + 1, _, [], _, h => by simp at h
  | n + 1, f, a :: A, b, h => by
    rw [tab_succ, addScaled, addScaled_eq step n _ A b (by simpa using h), tab_succ]
    simp [ent]

theorem mxmCol_eq (step : ℝ → ℝ → ℝ → ℝ) (nc : Nat) : ∀ (na : Nat) (f : Nat → ℝ) (A B : List ℝ), nc * na ≤ A.length → na ≤ B.length →
    mxmCol step nc na (tab nc f) A B = some (tab nc fun i => fold step (fun k => ent A (i + nc * k)) (ent B) na (f i))
  | 0, f, _, _, _, _ => by simp [mxmCol, fold]
  | na + 1, _, _, [], _, h => by simp at h
  | na + 1, f, A, b :: B, hA, hB => by
    have e : nc * (na + 1) = nc * na + nc := by ring
    rw [mxmCol, addScaled_eq step nc f A b (by omega), Option.bind_some,
      mxmCol_eq step nc na _ (A.drop nc) B (by simp; omega) (by simpa using hB)]
    congr 1
    apply tab_congr
    intro i _
    rw [fold_succ_left]
    refine fold_congr (fun k _ => ?_) (fun k _ => rfl)
    rw [ent_drop]; congr 1; ring

theorem mxm_eq (step : ℝ → ℝ → ℝ → ℝ) (nc : Nat) (A : List ℝ) (na : Nat) (hA : nc * na ≤ A.length) : ∀ (nb : Nat) (B : List ℝ), na * nb ≤ B.length →
    mxm step 0 nc A na B nb = some (tab2 nc nb fun i j => fold step (fun k => ent A (i + nc * k)) (fun k => ent B (k + na * j)) na 0)
  | 0, B, _ => by simp [mxm, tab2, tab]
  | nb + 1, B, hB => by
    have e : na * (nb + 1) = na * nb + na := by ring
    rw [mxm, tab_zero, mxmCol_eq step nc na _ A B hA (by omega), Option.bind_some, mxm_eq step nc A na hA nb _ (by simp; omega), tab2_succ]
    simp only [Option.map_some, Nat.mul_zero, Nat.add_zero, ent_drop]
    congr 2
    unfold tab2
    apply tab_congr
    intro q _
    refine fold_congr (fun k _ => rfl) (fun k _ => ?_)
    congr 1; ring

theorem mtxv_eq (step : ℝ → ℝ → ℝ → ℝ) (mul : ℝ → ℝ → ℝ) : ∀ (ny : Nat) (A x : List ℝ) (nx : Nat), (nx + 1) * ny ≤ A.length → nx + 1 ≤ x.length →
    mtxv step mul ny A x (nx + 1) = some (tab ny fun i => fold step (fun k => ent A (k + 1 + (nx + 1) * i)) (fun k => ent x (k + 1)) nx (mul (ent A ((nx + 1) * i)) (ent x 0)))
  | 0, _, _, _, _, _ => by simp [mtxv, tab]
  | ny + 1, [], _, nx, h, _ => by
    have : (nx + 1) * (ny + 1) = (nx + 1) * ny + nx + 1 := by ring
    simp at h
  | ny + 1, _ :: _, [], nx, _, h => by simp at h
  | ny + 1, a :: A, x :: xs, nx, hA, hx => by
    have e : (nx + 1) * (ny + 1) = (nx + 1) * ny + nx + 1 := by ring
    simp only [List.length_cons] at hA hx
    rw [mtxv, dotLoop_eq step nx A xs _ (by omega) (by omega), Option.bind_some, mtxv_eq step mul ny _ (x :: xs) nx (by simp; omega) (by simpa using hx), tab_succ, Option.map_some]
    congr 2
    apply tab_congr
    intro i _
    have key : ∀ j, ent (A.drop nx) j = ent (a :: A) (j + (nx + 1)) := by
      intro j
      rw [ent_drop, show j + (nx + 1) = (nx + j) + 1 by omega]
      rfl
    have e2 : ent (A.drop nx) ((nx + 1) * i) = ent (a :: A) ((nx + 1) * (i + 1)) := by
      rw [key]; congr 1
    rw [e2]
    refine fold_congr (fun k _ => ?_) (fun k _ => rfl)
    rw [key]; congr 1; ring

/-- `x` approximates `X`, of size at most `A`, after `k` roundings -/
def Apx (u : ℝ) (k : Nat) (x X A : ℝ) : Prop := |X| ≤ A ∧ |x - X| ≤ ((1 + u) ^ k - 1) * A

theorem Apx.exact (u x : ℝ) : Apx u 0 x x |x| := ⟨le_refl _, by simp⟩

theorem Apx.mono {u : ℝ} (hu : 0 ≤ u) {k l : Nat} (h : k ≤ l) {x X A : ℝ} (hx : Apx u k x X A) : Apx u l x X A := by
  refine ⟨hx.1, hx.2.trans (mul_le_mul_of_nonneg_right ?_ ((abs_nonneg _).trans hx.1))⟩
  have := pow_le_pow_right₀ (by linarith : 1 ≤ 1 + u) h
  linarith

theorem Apx.add {u : ℝ} {k : Nat} {x X A y Y B : ℝ} (hx : Apx u k x X A) (hy : Apx u k y Y B) : Apx u k (x + y) (X + Y) (A + B) := by
  refine ⟨(abs_add_le _ _).trans (add_le_add hx.1 hy.1), ?_⟩
  rw [show x + y - (X + Y) = (x - X) + (y - Y) by ring, mul_add]
  exact (abs_add_le _ _).trans (add_le_add hx.2 hy.2)

theorem Apx.mul {u : ℝ} {k : Nat} {x X A : ℝ} (hx : Apx u k x X A) (w : ℝ) : Apx u k (x * w) (X * w) (A * |w|) := by
  refine ⟨?_, ?_⟩
  · rw [abs_mul]; exact mul_le_mul_of_nonneg_right hx.1 (abs_nonneg w)
  · rw [← sub_mul, abs_mul, ← mul_assoc]; exact mul_le_mul_of_nonneg_right hx.2 (abs_nonneg w)

theorem Apx.rnd {u : ℝ} (hu : 0 ≤ u) {k : Nat} {x X A y : ℝ} (hx : Apx u k x X A) (hy : |y - x| ≤ u * |x|) : Apx u (k + 1) y X A := by
  refine ⟨hx.1, ?_⟩
  have h1 := abs_add_le (y - x) (x - X)
  have h2 := abs_add_le (x - X) X
  rw [sub_add_sub_cancel] at h1
  rw [sub_add_cancel] at h2
  have h3 : |x| ≤ (1 + u) ^ k * A := by linarith [hx.1, hx.2]
  have h4 := mul_le_mul_of_nonneg_left h3 hu
  have e : ((1 + u) ^ (k + 1) - 1) * A = u * ((1 + u) ^ k * A) + ((1 + u) ^ k - 1) * A := by ring
  linarith [hx.2]

/-- the values of `s + x * y` and `x * y` have relative errors at most `u` per rounding -/
structure IsFma (step : ℝ → ℝ → ℝ → ℝ) (mul : ℝ → ℝ → ℝ) (u : ℝ) : Prop where
  u0 : 0 ≤ u
  step : ∀ s x y, ∃ m, |m - x * y| ≤ u * |x * y| ∧ |step s x y - (s + m)| ≤ u * |s + m|
  mul : ∀ x y, |mul x y - x * y| ≤ u * |x * y|

theorem Apx.fold {step : ℝ → ℝ → ℝ → ℝ} {mul : ℝ → ℝ → ℝ} {u : ℝ} (hf : IsFma step mul u) {f g P B : Nat → ℝ} {k : Nat} {s S A : ℝ} (hs : Apx u (k + 1) s S A) :
    ∀ {n : Nat}, (∀ i < n, Apx u k (f i * g i) (P i) (B i)) → Apx u (k + n + 1) (fold step f g n s) (S + ∑ i ∈ range n, P i) (A + ∑ i ∈ range n, B i)
  | 0, _ => by simpa [TensorFl.fold] using hs
  | n + 1, h => by
    have ih := Apx.fold hf hs (n := n) (fun i hi => h i (by omega))
    obtain ⟨m, hm, hst⟩ := hf.step (TensorFl.fold step f g n s) (f n) (g n)
    have h1 : Apx u (k + 1) m (P n) (B n) := (h n (by omega)).rnd hf.u0 hm
    have h2 := (ih.add (h1.mono hf.u0 (by omega : k + 1 ≤ k + n + 1))).rnd hf.u0 hst
    rw [fold_succ, sum_range_succ, sum_range_succ, ← add_assoc S, ← add_assoc A]
    exact h2

theorem Apx.fold0 {step : ℝ → ℝ → ℝ → ℝ} {mul : ℝ → ℝ → ℝ} {u : ℝ} (hf : IsFma step mul u) {f g P B : Nat → ℝ} {k n : Nat} (h : ∀ i < n, Apx u k (f i * g i) (P i) (B i)) :
    Apx u (k + n + 1) (TensorFl.fold step f g n 0) (∑ i ∈ range n, P i) (∑ i ∈ range n, B i) := by
  have := Apx.fold hf (k := k) (s := 0) (S := 0) (A := 0) ⟨by simp, by simp⟩ h
  simpa using this

end Gslib.TensorFl
