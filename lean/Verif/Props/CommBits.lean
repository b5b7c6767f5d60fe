import Verif.Lemmas.CommBits
import Verif.Props.Comm
import Mathlib.Data.Real.Basic
import Mathlib.Algebra.Order.BigOperators.Group.List
import Mathlib.Tactic.Linarith
import Mathlib.Tactic.Ring

/-!
# C66: comm_allreduce and comm_scan in floating point

No assumption about the operation. Specification: `Verif/Spec/Bracket.lean`.
-/

namespace Gslib.Props
open Gslib Gslib.Spec Gslib.Mpi Gslib.Gs Gslib.Comm

variable {T : Type}

theorem tval_vec (D : Dom T) (op : Op) (vn np : Nat) (v : Nat → Nat → T) (s0 : Nat → List T) (hs : ∀ p, p < np → s0 p = vec vn (v p)) {id k : Nat} (h : id < np) (ha : Active np id k) :
    tval (gatherArray D op) s0 np id k = vec vn fun i => tval (D.doOp op) (fun q => v q i) np id k := by
  have main : ∀ j id k, np - k = j → id < np → Active np id k → tval (gatherArray D op) s0 np id k = vec vn fun i => tval (D.doOp op) (fun q => v q i) np id k := by
    intro j
    induction j with
    | zero =>
      intro id k hj h ha
      have h1 : ¬ 1 < (nodeAt np id k).n := by have := node_le h k; omega
      rw [tval_leaf h1, hs _ h]
      exact congrArg _ (funext fun i => (tval_leaf (v := fun q => v q i) h1).symm)
    | succ j ih =>
      intro id k hj h ha
      by_cases hn : 1 < (nodeAt np id k).n
      · have hp : Part np id k := ⟨hn, active_succ h ha⟩
        obtain ⟨q1, q2, q3, q4, q5, q6, q7, q8⟩ := part_parent h hp ha
        rw [tval_big (by omega) hn, ih _ (k + 1) (by omega) h hp.2, ih _ (k + 1) (by omega) q1 q5.2, gather_vec]
        exact congrArg _ (funext fun i => (tval_big (by omega) hn).symm)
      · rw [tval_leaf hn, hs _ h]
        exact congrArg _ (funext fun i => (tval_leaf (v := fun q => v q i) hn).symm)
  exact main _ id k rfl h ha

theorem root_bracketed {M : Type} (g : M → M → M) (v : Nat → M) {np : Nat} (hnp : 0 < np) : ∃ d, d ≤ Nat.clog 2 np ∧ Bracketed g d ((List.range np).map v) (tval g v np 0 0) := by
  have := tval_bracketed (g := g) (v := v) (np - 0) 0 0 rfl hnp rfl
  rw [List.range_eq_range']
  exact this

/-- **C66**: for every operation (floating point sums, ...), number of processes and vector length, the tree all-reduce ends under every schedule with the same vector on all processes, which is the same in every
run: each entry is the bracketed combination, in rank order, of the entries of all processes, with parentheses nested at most `⌈log₂ np⌉` deep -/
theorem comm_allreduce_same_bits (D : Dom T) (op : Op) (np vn : Nat) (hnp : 0 < np) (v : Nat → Nat → T) :
    ∃ r : Nat → T, (∀ i, i < vn → ∃ d, d ≤ Nat.clog 2 np ∧ Bracketed (D.doOp op) d ((List.range np).map fun q => v q i) (r i)) ∧
      ∀ s0 : Nat → List T, (∀ p, p < np → s0 p = vec vn (v p)) → AllSchedules (commAllreduce D op vn np).prog np s0 fun s => ∀ p, p < np → s p = vec vn r := by
  refine ⟨fun i => tval (D.doOp op) (fun q => v q i) np 0 0, fun i _ => root_bracketed _ _ hnp, fun s0 hs => ?_⟩
  unfold commAllreduce
  split
  · rename_i c
    subst c
    refine allSchedules_of_lockRun (T := 0) (nil_matched np) rfl _ ?_
    intro s hs' p hp
    rw [hs' p hp, hs p hp]; rfl
  · refine allSchedules_of_lockRun (tree_matched (allreduce_good D op) np) (allreduce_run_any D op np s0) _ ?_
    intro s hs' p hp
    rw [hs' p hp, if_pos hp]
    exact tval_vec D op vn np v s0 hs hnp rfl

theorem scanB_vec (D : Dom T) (op : Op) (vn np : Nat) (v : Nat → Nat → T) (s0 : Nat → List T) (hs : ∀ p, p < np → s0 p = vec vn (v p)) : ∀ id, id < np →
    scanB (gatherArray D op) (initArray D op vn) s0 np id = vec vn fun i => scanB (D.doOp op) (D.identity op) (fun q => v q i) np id := by
  intro id
  induction id using Nat.strong_induction_on with
  | _ id ih =>
    intro h
    by_cases h0 : id = 0
    · subst h0
      rw [scanB_zero, init_vec]
      exact congrArg _ (funext fun i => scanB_zero.symm)
    · obtain ⟨hlt, k, hk, hp, hna⟩ := parent_lt h h0
      have hb : (nodeAt np id (d0 np id - 1)).base < np := by omega
      have hact : Active np (nodeAt np id (d0 np id - 1)).base (d0 np id) := by
        obtain ⟨q1, q2, q3, q4, q5, q6⟩ := part_child h hp hna
        rw [hk, Nat.add_sub_cancel]; exact q5.2
      rw [scanB_step h h0, ih _ hlt hb]
      unfold leftB
      rw [tval_vec D op vn np v s0 hs hb hact, gather_vec]
      exact congrArg _ (funext fun i => (scanB_step h h0).symm)

/-- **C66**: the same for comm_scan: all processes get the same reduction; rank `p` gets a bracketed combination, in some order, of the identity and the entries of the ranks below `p`, each once;
both are the same in every run -/
theorem comm_scan_same_bits (D : Dom T) (op : Op) (np vn : Nat) (hnp : 0 < np) (v : Nat → Nat → T) :
    ∃ (r : Nat → T) (sc : Nat → Nat → T), (∀ i, i < vn → ∃ d, d ≤ Nat.clog 2 np ∧ Bracketed (D.doOp op) d ((List.range np).map fun q => v q i) (r i)) ∧
      (∀ p, p < np → ∀ i, i < vn → ∃ d l, l.Perm (D.identity op :: (List.range p).map fun q => v q i) ∧ Bracketed (D.doOp op) d l (sc p i)) ∧
      ∀ s0 : Nat → ScanSt T, (∀ p, p < np → (s0 p).v = vec vn (v p)) → AllSchedules (commScan D op vn np).prog np s0 fun s => ∀ p, p < np →
        (s p).scan = vec vn (sc p) ∧ (s p).red = vec vn r ∧ (s p).v = vec vn (v p) := by
  refine ⟨fun i => tval (D.doOp op) (fun q => v q i) np 0 0, fun p i => scanB (D.doOp op) (D.identity op) (fun q => v q i) np p, fun i _ => root_bracketed _ _ hnp,
    fun p hp i _ => scanB_bracketed p hp, fun s0 hs => ?_⟩
  have hok1 : (Coll.loc (fun _ s => .ok (scanInit D op vn s)) (([], []) : List T × List T)).Ok np := Coll.loc_ok _ _ _
  let s1 : Nat → ScanSt T := fun p => if p < np then scanInit D op vn (s0 p) else s0 p
  have hrun1 : (Coll.loc (fun _ s => .ok (scanInit D op vn s)) (([], []) : List T × List T)).run np s0 = .ok s1 := by
    apply Coll.loc_run_ok
    intro p hp; simp
  have hred : ∀ p, p < np → (s1 p).red = vec vn (v p) := fun p hp => by simp [s1, hp, scanInit, hs p hp]
  have hrun2 := scan_tree_run_any D op (initArray D op vn) np s1 (fun p hp => by simp [s1, hp, scanInit])
  have hrun := Coll.seq_run (b := treeColl (scanOps D op) np) hok1 s0
  rw [hrun1, Outcome.bind, hrun2] at hrun
  refine allSchedules_of_lockRun (comm_tree_matching D op vn np).2 hrun _ ?_
  intro s hs' p hp
  rw [hs' p hp, if_pos hp]
  refine ⟨?_, ?_, ?_⟩
  · exact scanB_vec D op vn np v _ hred p hp
  · exact tval_vec D op vn np v _ hred hnp rfl
  · simp [s1, hp, scanInit, hs p hp]

/-- rounded sums: error of a bracketed combination -/
theorem bracketed_error {rnd : ℝ → ℝ} {u : ℝ} (hu : 0 ≤ u) (hr : ∀ z, |rnd z - z| ≤ u * |z|) {d : Nat} {l : List ℝ} {y : ℝ} (h : Bracketed (fun a b => rnd (a + b)) d l y) :
    |y - l.sum| ≤ ((1 + u) ^ d - 1) * (l.map (|·|)).sum := by
  have habs : ∀ l : List ℝ, 0 ≤ (l.map (|·|)).sum ∧ |l.sum| ≤ (l.map (|·|)).sum := by
    intro l
    induction l with
    | nil => simp
    | cons x l ih =>
      simp only [List.sum_cons, List.map_cons]
      have := abs_nonneg x
      have := abs_add_le x l.sum
      constructor <;> linarith [ih.1, ih.2]
  induction h with
  | val x => simp
  | @op d d' l l' x y hx hy ih1 ih2 =>
    have a1 := habs l
    have a2 := habs l'
    have hmono : ∀ m, m ≤ max d d' → (1 + u) ^ m ≤ (1 + u) ^ max d d' := fun m hm => pow_le_pow_right₀ (by linarith) hm
    have m1 := mul_le_mul_of_nonneg_right (hmono d (le_max_left _ _)) a1.1
    have m2 := mul_le_mul_of_nonneg_right (hmono d' (le_max_right _ _)) a2.1
    have hsum : |x + y - (l.sum + l'.sum)| ≤ ((1 + u) ^ max d d' - 1) * ((l.map (|·|)).sum + (l'.map (|·|)).sum) := by
      have := abs_add_le (x - l.sum) (y - l'.sum)
      rw [show x - l.sum + (y - l'.sum) = x + y - (l.sum + l'.sum) by ring] at this
      linarith
    have hxy : |x + y| ≤ (1 + u) ^ max d d' * ((l.map (|·|)).sum + (l'.map (|·|)).sum) := by
      have h1 := abs_add_le (x + y - (l.sum + l'.sum)) (l.sum + l'.sum)
      rw [sub_add_cancel] at h1
      have h2 := abs_add_le l.sum l'.sum
      linarith [a1.2, a2.2]
    have h3 := hr (x + y)
    have h4 := mul_le_mul_of_nonneg_left hxy hu
    have h5 := abs_add_le (rnd (x + y) - (x + y)) (x + y - (l.sum + l'.sum))
    rw [sub_add_sub_cancel] at h5
    rw [List.sum_append, List.map_append, List.sum_append, pow_succ]
    linarith

/-- **C66**: a floating point sum over the processes with the tree all-reduce: if each sum is rounded with relative error at most `u`, the error of the result is at most `(1+u)^⌈log₂ np⌉ - 1` times the
sum of the absolute values -/
theorem comm_allreduce_rounding_error (D : Dom ℝ) (rnd : ℝ → ℝ) (u : ℝ) (hu : 0 ≤ u) (hr : ∀ z, |rnd z - z| ≤ u * |z|) (hD : ∀ a b, D.doOp .add a b = rnd (a + b)) (np vn : Nat)
    (hnp : 0 < np) (v : Nat → Nat → ℝ) (s0 : Nat → List ℝ) (hs : ∀ p, p < np → s0 p = vec vn (v p)) :
    AllSchedules (commAllreduce D .add vn np).prog np s0 fun s => ∀ p, p < np → ∃ r : Nat → ℝ, s p = vec vn r ∧
      ∀ i, i < vn → |r i - ((List.range np).map fun q => v q i).sum| ≤ ((1 + u) ^ Nat.clog 2 np - 1) * ((List.range np).map fun q => |v q i|).sum := by
  obtain ⟨r, h1, h2⟩ := comm_allreduce_same_bits D .add np vn hnp v
  have h := h2 s0 hs
  refine ⟨h.noInfinite, h.noDeadlock, fun c hc hf => ⟨?_, (h.result c hc hf).2⟩⟩
  intro p hp
  refine ⟨r, (h.result c hc hf).1 p hp, fun i hi => ?_⟩
  obtain ⟨d, hd, hb⟩ := h1 i hi
  rw [show D.doOp .add = fun a b => rnd (a + b) from funext fun a => funext fun b => hD a b] at hb
  have he := bracketed_error hu hr hb
  rw [List.map_map] at he
  refine he.trans (mul_le_mul_of_nonneg_right (sub_le_sub_right (pow_le_pow_right₀ (by linarith) hd) 1) ?_)
  refine List.sum_nonneg fun x hx => ?_
  obtain ⟨q, _, rfl⟩ := List.mem_map.1 hx
  exact abs_nonneg _

/-- sums rounded down to a multiple of 4 from 8 on are not associative; all five processes still get the same value (14 in exact arithmetic) -/
example : ((fun o : Outcome (Nat → List Nat) => match o with | .ok s => (List.range 5).map s == List.replicate 5 [12] | _ => false)
    ((commAllreduce (⟨fun _ a b => if a + b < 8 then a + b else (a + b) / 4 * 4, fun _ => 0⟩ : Dom Nat) .add 1 5).run 5 fun p => [[3, 3, 3, 3, 2].getD p 0])) = true := by decide +kernel

end Gslib.Props
