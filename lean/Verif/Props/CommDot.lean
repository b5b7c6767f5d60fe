import Verif.Model.CommDot
import Verif.Props.CommBits

/-!
# C68: comm_dot and comm_reduce in floating point
-/

namespace Gslib.Props
open Gslib Gslib.Spec Gslib.Mpi Gslib.Gs Gslib.Comm

variable {T : Type}

/-- first each process computes a value, then all-reduce -/
theorem local_then_allreduce (D : Dom T) (op : Op) (np : Nat) (hnp : 0 < np) (f : Nat → List T → Outcome (List T)) (x : Nat → T) :
    ∃ r, (∃ d, d ≤ Nat.clog 2 np ∧ Bracketed (D.doOp op) d ((List.range np).map x) r) ∧
      ∀ s0 : Nat → List T, (∀ p, p < np → f p (s0 p) = .ok [x p]) →
        AllSchedules ((Coll.loc f ([] : List T)).seq (commAllreduce D op 1 np)).prog np s0 fun s => ∀ p, p < np → s p = [r] := by
  refine ⟨tval (D.doOp op) x np 0 0, root_bracketed _ _ hnp, fun s0 hf => ?_⟩
  have hok1 : (Coll.loc f ([] : List T)).Ok np := Coll.loc_ok _ _ _
  have hrun1 := Coll.loc_run_ok (w := ([] : List T)) (f := f) (P := np) (s := s0) (g := fun p => [x p]) hf
  have hrun := Coll.seq_run (b := treeColl (allreduceOps D op) np) hok1 s0
  rw [hrun1, Outcome.bind, allreduce_run_any] at hrun
  refine allSchedules_of_lockRun (Coll.seq_ok hok1 (comm_tree_matching D op 1 np).1) hrun _ ?_
  intro s hs p hp
  rw [hs p hp, if_pos hp]
  exact tval_vec D op 1 np (fun q _ => x q) _ (fun q hq => by simp [hq, vec]) hnp rfl

/-- **C68**: `comm_reduce` with any operation (no associativity): under every schedule all processes return the same value, the same in every run: the bracketed combination, in rank order, of the values that each
process gets by folding its array from the identity -/
theorem comm_reduce_same_bits (D : Dom T) (op : Op) (np : Nat) (hnp : 0 < np) (inp : Nat → List T) :
    ∃ r, (∃ d, d ≤ Nat.clog 2 np ∧ Bracketed (D.doOp op) d ((List.range np).map fun p => (inp p).foldl (D.doOp op) (D.identity op)) r) ∧
      AllSchedules (commReduce D op np).prog np inp fun s => ∀ p, p < np → s p = [r] := by
  obtain ⟨r, h1, h2⟩ := local_then_allreduce D op np hnp (fun _ inp => .ok [reduceLocal D op inp]) fun p => (inp p).foldl (D.doOp op) (D.identity op)
  exact ⟨r, h1, h2 inp fun p _ => rfl⟩

theorem dotFlLoop_ok (step : T → T → T → T) : ∀ (n : Nat) (a b : List T) (s : T), n ≤ a.length → n ≤ b.length →
    dotFlLoop step a b n s = .ok (((a.zip b).take n).foldl (fun s x => step s x.1 x.2) s)
  | 0, _, _, _, _, _ => by simp [dotFlLoop]
  | n + 1, [], _, _, h, _ => by simp at h
  | n + 1, _ :: _, [], _, _, h => by simp at h
  | n + 1, x :: a, y :: b, s, h, h' => by
    rw [dotFlLoop, dotFlLoop_ok step n a b _ (by simpa using h) (by simpa using h')]; rfl

/-- **C68**: comm_dot, whatever the arithmetic: no array is read out of bounds, no schedule deadlocks, and all processes return the same value, the same in every run: the bracketed combination, in rank order, of
the local products, each accumulated from zero in index order -/
theorem comm_dot_same_bits (D : Dom T) (step : T → T → T → T) (zero : T) (np : Nat) (hnp : 0 < np) (v w : Nat → List T) (n : Nat → Nat)
    (hv : ∀ p, p < np → n p ≤ (v p).length) (hw : ∀ p, p < np → n p ≤ (w p).length) :
    ∃ r, (∃ d, d ≤ Nat.clog 2 np ∧ Bracketed (D.doOp .add) d ((List.range np).map fun p => (((v p).zip (w p)).take (n p)).foldl (fun s x => step s x.1 x.2) zero) r) ∧
      ∀ s0 : Nat → List T, AllSchedules (commDot D step zero v w n np).prog np s0 fun s => ∀ p, p < np → s p = [r] := by
  obtain ⟨r, h1, h2⟩ := local_then_allreduce D .add np hnp (fun p _ => (dotFl step zero (v p) (w p) (n p)).bind fun s => .ok [s])
    fun p => (((v p).zip (w p)).take (n p)).foldl (fun s x => step s x.1 x.2) zero
  exact ⟨r, h1, fun s0 => h2 s0 fun p hp => by rw [dotFl, dotFlLoop_ok _ _ _ _ _ (hv p hp) (hw p hp)]; rfl⟩

/-- the exact dot product of the first `n` entries -/
def exactDot {K : Type} [Semiring K] (v w : List K) (n : Nat) : K := (((v.zip w).take n).map fun x => x.1 * x.2).sum

theorem foldl_exact {K : Type} [Semiring K] (l : List (K × K)) (s : K) : l.foldl (fun s x => s + x.1 * x.2) s = s + (l.map fun x => x.1 * x.2).sum := by
  induction l generalizing s with
  | nil => simp
  | cons x l ih => rw [List.foldl_cons, ih]; simp [add_assoc]

theorem bracketed_sum {K : Type} [Semiring K] {d : Nat} {l : List K} {y : K} (h : Bracketed (· + ·) d l y) : y = l.sum := by
  induction h with
  | val x => simp
  | op _ _ i1 i2 => rw [List.sum_append, i1, i2]

/-- **C68**: with exact arithmetic comm_dot is, on all processes, the dot product of the distributed vectors -/
theorem comm_dot_exact {K : Type} [Semiring K] (D : Dom K) (hD : ∀ a b, D.doOp .add a b = a + b) (np : Nat) (hnp : 0 < np) (v w : Nat → List K) (n : Nat → Nat)
    (hv : ∀ p, p < np → n p ≤ (v p).length) (hw : ∀ p, p < np → n p ≤ (w p).length) (s0 : Nat → List K) :
    AllSchedules (commDot D (fun s x y => s + x * y) 0 v w n np).prog np s0 fun s => ∀ p, p < np → s p = [((List.range np).map fun p => exactDot (v p) (w p) (n p)).sum] := by
  obtain ⟨r, ⟨d, _, hb⟩, h2⟩ := comm_dot_same_bits D (fun s x y => s + x * y) 0 np hnp v w n hv hw
  rw [show D.doOp .add = fun a b => a + b from funext fun a => funext fun b => hD a b] at hb
  have hr := bracketed_sum hb
  have h := h2 s0
  refine ⟨h.noInfinite, h.noDeadlock, fun c hc hf => ⟨?_, (h.result c hc hf).2⟩⟩
  intro p hp
  rw [(h.result c hc hf).1 p hp, hr]
  refine congrArg (fun f => [((List.range np).map f).sum]) (funext fun q => ?_)
  rw [foldl_exact, zero_add]; rfl

/-- error of the local loop -/
theorem dot_local_error {step : ℝ → ℝ → ℝ → ℝ} {u : ℝ} (hu : 0 ≤ u) (hstep : ∀ s x y, ∃ m, |m - x * y| ≤ u * |x * y| ∧ |step s x y - (s + m)| ≤ u * |s + m|) (l : List (ℝ × ℝ)) :
    ∀ (k : Nat) (s S A : ℝ), |S| ≤ A → |s - S| ≤ ((1 + u) ^ (k + 1) - 1) * A →
      |l.foldl (fun s x => step s x.1 x.2) s - (S + (l.map fun x => x.1 * x.2).sum)| ≤ ((1 + u) ^ (k + l.length + 1) - 1) * (A + (l.map fun x => |x.1 * x.2|).sum) := by
  induction l with
  | nil => intro k s S A h1 h2; simpa using h2
  | cons x l ih =>
    intro k s S A h1 h2
    obtain ⟨m, hm, hs⟩ := hstep s x.1 x.2
    have hA : 0 ≤ A := (abs_nonneg _).trans h1
    have hz := abs_nonneg (x.1 * x.2)
    have hpow : 1 ≤ (1 + u) ^ k := one_le_pow₀ (by linarith)
    have hk2 := ih (k + 1) (step s x.1 x.2) (S + x.1 * x.2) (A + |x.1 * x.2|) ((abs_add_le _ _).trans (by linarith)) ?_
    · rw [List.foldl_cons, List.map_cons, List.map_cons, List.sum_cons, List.sum_cons, List.length_cons, ← add_assoc, ← add_assoc, ← add_assoc, show k + l.length + 1 + 1 = k + 1 + l.length + 1 by omega]
      exact hk2
    · have a1 : |s| ≤ (1 + u) ^ (k + 1) * A := by
        have := abs_add_le (s - S) S
        rw [sub_add_cancel] at this
        linarith
      have a2 : |m| ≤ (1 + u) * |x.1 * x.2| := by
        have := abs_add_le (m - x.1 * x.2) (x.1 * x.2)
        rw [sub_add_cancel] at this
        linarith
      have a3 : u * |s + m| ≤ u * ((1 + u) ^ (k + 1) * A + (1 + u) * |x.1 * x.2|) := mul_le_mul_of_nonneg_left ((abs_add_le _ _).trans (add_le_add a1 a2)) hu
      have a4 := abs_add_le (step s x.1 x.2 - (s + m)) ((s - S) + (m - x.1 * x.2))
      have a5 := abs_add_le (s - S) (m - x.1 * x.2)
      rw [show step s x.1 x.2 - (s + m) + (s - S + (m - x.1 * x.2)) = step s x.1 x.2 - (S + x.1 * x.2) by ring] at a4
      have a6 : (1 + u) * (1 + u) * |x.1 * x.2| ≤ (1 + u) ^ (k + 2) * |x.1 * x.2| := by
        refine mul_le_mul_of_nonneg_right ?_ hz
        rw [pow_add, pow_two]
        nlinarith [mul_self_nonneg (1 + u)]
      have e1 : (1 + u) ^ (k + 1 + 1) = (1 + u) ^ (k + 1) + u * (1 + u) ^ (k + 1) := by ring
      have e2 : (1 + u) ^ (k + 2) = (1 + u) ^ (k + 1 + 1) := rfl
      rw [e2] at a6
      have : ((1 + u) ^ (k + 1 + 1) - 1) * (A + |x.1 * x.2|) = (1 + u) ^ (k + 1) * A + u * ((1 + u) ^ (k + 1) * A) - A + ((1 + u) ^ (k + 1 + 1) * |x.1 * x.2| - |x.1 * x.2|) := by rw [e1]; ring
      rw [this]
      linarith

theorem dot_abs (l : List (ℝ × ℝ)) : 0 ≤ (l.map fun x => |x.1 * x.2|).sum ∧ |(l.map fun x => x.1 * x.2).sum| ≤ (l.map fun x => |x.1 * x.2|).sum := by
  induction l with
  | nil => simp
  | cons x l ih =>
    simp only [List.sum_cons, List.map_cons]
    have := abs_nonneg (x.1 * x.2)
    have := abs_add_le (x.1 * x.2) (l.map fun x => x.1 * x.2).sum
    constructor <;> linarith [ih.1, ih.2]

theorem sum_error {np : Nat} {x X A : Nat → ℝ} {c : ℝ} (hX : ∀ p, p < np → |X p| ≤ A p) (hx : ∀ p, p < np → |x p - X p| ≤ (c - 1) * A p) :
    |((List.range np).map x).sum - ((List.range np).map X).sum| ≤ (c - 1) * ((List.range np).map A).sum ∧ ((List.range np).map fun p => |x p|).sum ≤ c * ((List.range np).map A).sum := by
  induction np with
  | zero => simp
  | succ n ih =>
    obtain ⟨i1, i2⟩ := ih (fun p hp => hX p (by omega)) fun p hp => hx p (by omega)
    simp only [List.range_succ, List.map_append, List.map_cons, List.map_nil, List.sum_append, List.sum_cons, List.sum_nil, add_zero]
    have h1 := hX n (by omega)
    have h2 := hx n (by omega)
    have h3 := abs_add_le (((List.range n).map x).sum - ((List.range n).map X).sum) (x n - X n)
    have h4 := abs_add_le (x n - X n) (X n)
    rw [sub_add_cancel] at h4
    rw [show ((List.range n).map x).sum - ((List.range n).map X).sum + (x n - X n) = ((List.range n).map x).sum + x n - (((List.range n).map X).sum + X n) by ring] at h3
    constructor
    · rw [mul_add]; linarith
    · rw [mul_add]; linarith

/-- **C68**: comm_dot in floating point: if each product and each sum is rounded with relative error at most `u` (a fused multiply-add rounds once: then `m` is the exact product) and no process has more than `N` entries,
then all processes return the same value, the same in every run, which differs from the dot product of the distributed vectors by at most `(1+u)^(N + 1 + ⌈log₂ np⌉) - 1` times the sum of the absolute values of the products -/
theorem comm_dot_rounding_error (D : Dom ℝ) (rnd : ℝ → ℝ) (u : ℝ) (hu : 0 ≤ u) (hr : ∀ z, |rnd z - z| ≤ u * |z|) (hD : ∀ a b, D.doOp .add a b = rnd (a + b)) (step : ℝ → ℝ → ℝ → ℝ)
    (hstep : ∀ s x y, ∃ m, |m - x * y| ≤ u * |x * y| ∧ |step s x y - (s + m)| ≤ u * |s + m|) (np N : Nat) (hnp : 0 < np) (v w : Nat → List ℝ) (n : Nat → Nat)
    (hv : ∀ p, p < np → n p ≤ (v p).length) (hw : ∀ p, p < np → n p ≤ (w p).length) (hN : ∀ p, p < np → n p ≤ N) :
    ∃ r, |r - ((List.range np).map fun p => exactDot (v p) (w p) (n p)).sum| ≤
        ((1 + u) ^ (N + 1 + Nat.clog 2 np) - 1) * ((List.range np).map fun p => exactDot ((v p).map (|·|)) ((w p).map (|·|)) (n p)).sum ∧
      ∀ s0 : Nat → List ℝ, AllSchedules (commDot D step 0 v w n np).prog np s0 fun s => ∀ p, p < np → s p = [r] := by
  obtain ⟨r, ⟨d, hd, hb⟩, h2⟩ := comm_dot_same_bits D step 0 np hnp v w n hv hw
  refine ⟨r, ?_, h2⟩
  rw [show D.doOp .add = fun a b => rnd (a + b) from funext fun a => funext fun b => hD a b] at hb
  have he := bracketed_error hu hr hb
  have habs : ∀ p, exactDot ((v p).map (|·|)) ((w p).map (|·|)) (n p) = ((((v p).zip (w p)).take (n p)).map fun x => |x.1 * x.2|).sum := by
    intro p
    unfold exactDot
    rw [List.zip_map, ← List.map_take, List.map_map]
    congr 2
    funext x
    simp [abs_mul]
  simp only [habs]
  have h1u : (1 : ℝ) ≤ 1 + u := by linarith
  obtain ⟨b1, b2⟩ := sum_error (np := np) (c := (1 + u) ^ (N + 1))
    (x := fun p => (((v p).zip (w p)).take (n p)).foldl (fun s x => step s x.1 x.2) 0) (X := fun p => exactDot (v p) (w p) (n p))
    (A := fun p => ((((v p).zip (w p)).take (n p)).map fun x => |x.1 * x.2|).sum) (fun p _ => (dot_abs _).2) (fun p hp => by
      have := dot_local_error hu hstep (((v p).zip (w p)).take (n p)) 0 0 0 0 (by simp) (by simp)
      simp only [zero_add] at this
      refine this.trans (mul_le_mul_of_nonneg_right (sub_le_sub_right (pow_le_pow_right₀ h1u ?_) 1) (dot_abs _).1)
      have := hN p hp
      simp only [List.length_take]
      omega)
  rw [List.map_map] at he
  set A := ((List.range np).map fun p => ((((v p).zip (w p)).take (n p)).map fun x => |x.1 * x.2|).sum).sum with hA
  have hA0 : 0 ≤ A := List.sum_nonneg fun x hx => by
    obtain ⟨q, _, rfl⟩ := List.mem_map.1 hx
    exact (dot_abs _).1
  have hdc : (1 + u) ^ d ≤ (1 + u) ^ Nat.clog 2 np := pow_le_pow_right₀ h1u hd
  have hd1 : 1 ≤ (1 + u) ^ Nat.clog 2 np := one_le_pow₀ h1u
  have hx0 : 0 ≤ ((List.range np).map (abs ∘ fun p => (((v p).zip (w p)).take (n p)).foldl (fun s x => step s x.1 x.2) 0)).sum := List.sum_nonneg fun x hx => by
    obtain ⟨q, _, rfl⟩ := List.mem_map.1 hx
    exact abs_nonneg _
  have c1 := mul_le_mul_of_nonneg_right (sub_le_sub_right hdc 1) hx0
  have c2 := mul_le_mul_of_nonneg_left b2 (sub_nonneg.2 hd1)
  have c3 := abs_add_le (r - ((List.range np).map fun p => (((v p).zip (w p)).take (n p)).foldl (fun s x => step s x.1 x.2) 0).sum)
    (((List.range np).map fun p => (((v p).zip (w p)).take (n p)).foldl (fun s x => step s x.1 x.2) 0).sum - ((List.range np).map fun p => exactDot (v p) (w p) (n p)).sum)
  rw [sub_add_sub_cancel] at c3
  have e : ((1 + u) ^ (N + 1 + Nat.clog 2 np) - 1) * A = ((1 + u) ^ Nat.clog 2 np - 1) * ((1 + u) ^ (N + 1) * A) + ((1 + u) ^ (N + 1) - 1) * A := by rw [pow_add]; ring
  rw [e]
  refine c3.trans (add_le_add ((he.trans c1).trans c2) b1)

/-- three processes with 2, 0 and 3 entries -/
example : ((fun o : Outcome (Nat → List Nat) => match o with | .ok s => (List.range 3).map s == List.replicate 3 [11 + 32] | _ => false)
    ((commDot (⟨fun _ a b => a + b, fun _ => 0⟩ : Dom Nat) (fun s x y => s + x * y) 0 (fun p => [[1, 2], [9], [1, 2, 3]].getD p []) (fun p => [[3, 4], [], [4, 5, 6]].getD p [])
      (fun p => [2, 0, 3].getD p 0) 3).run 3 fun _ => [])) = true := by decide +kernel

/-- the standard model without fused multiply-add meets the hypothesis on `step` -/
example (rnd : ℝ → ℝ) (u : ℝ) (hr : ∀ z, |rnd z - z| ≤ u * |z|) : ∀ s x y, ∃ m, |m - x * y| ≤ u * |x * y| ∧ |rnd (s + rnd (x * y)) - (s + m)| ≤ u * |s + m| :=
  fun _ _ _ => ⟨_, hr _, hr _⟩

/-- so does a fused multiply-add -/
example (rnd : ℝ → ℝ) (u : ℝ) (hu : 0 ≤ u) (hr : ∀ z, |rnd z - z| ≤ u * |z|) : ∀ s x y, ∃ m, |m - x * y| ≤ u * |x * y| ∧ |rnd (s + x * y) - (s + m)| ≤ u * |s + m| :=
  fun _ x y => ⟨x * y, by rw [sub_self, abs_zero]; exact mul_nonneg hu (abs_nonneg _), hr _⟩

end Gslib.Props
