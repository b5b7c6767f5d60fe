import Verif.Lemmas.CommRun
import Verif.Spec.Bracket
import Mathlib.Data.Nat.Log

/-!
# comm_allreduce and comm_scan for any operation
-/

namespace Gslib.Comm
open Gslib Gslib.Mpi Gslib.Gs Gslib.Spec

section
variable {M : Type} (g : M → M → M) (v : Nat → M) (np : Nat)

/-- value of the subtree of the node of rank `id` at depth `k` (`fuel` = np - k) -/
def treeRed : Nat → Nat → Nat → M
  | 0, id, _ => v id
  | fuel + 1, id, k => if 1 < (nodeAt np id k).n then g (treeRed fuel id (k + 1)) (treeRed fuel (id + (nodeAt np id k).n / 2) (k + 1)) else v id

/-- value of the subtree of the node of `id` at depth `k` -/
def tval (id k : Nat) : M := treeRed g v np (np - k) id k

/-- value held by `id` before label `l` of the ascending phase -/
noncomputable def ascB (l id : Nat) : M := tval g v np id (max (np - l) (d0 np id))

end

section
variable {M : Type} {g : M → M → M} {v : Nat → M} {np : Nat}

theorem tval_big {id k : Nat} (hk : k < np) (h : 1 < (nodeAt np id k).n) : tval g v np id k = g (tval g v np id (k + 1)) (tval g v np (id + (nodeAt np id k).n / 2) (k + 1)) := by
  unfold tval
  rw [show np - k = (np - (k + 1)) + 1 by omega, treeRed, if_pos h]

theorem tval_leaf {id k : Nat} (h : ¬ 1 < (nodeAt np id k).n) : tval g v np id k = v id := by
  unfold tval
  cases np - k with
  | zero => rfl
  | succ n => rw [treeRed, if_neg h]

theorem ascB_zero {id : Nat} (h : id < np) : ascB g v np 0 id = v id := by
  unfold ascB
  rw [show max (np - 0) (d0 np id) = np by have := d0_lt h; omega]
  exact tval_leaf (by have := node_le h np; omega)

theorem ascB_parent {id k : Nat} (h : id < np) (hp : Part np id k) (ha : Active np id k) :
    ascB g v np (np - 1 - k + 1) id = g (ascB g v np (np - 1 - k) id) (ascB g v np (np - 1 - k) (id + (nodeAt np id k).n / 2)) := by
  obtain ⟨q1, q2, q3, q4, q5, q6, q7, q8⟩ := part_parent h hp ha
  have hk := hp.lt h
  have a1 := (active_iff h).1 ha
  have a2 := (active_iff q1).1 q5.2
  unfold ascB
  rw [show max (np - (np - 1 - k + 1)) (d0 np id) = k by omega, show max (np - (np - 1 - k)) (d0 np id) = k + 1 by omega,
    show max (np - (np - 1 - k)) (d0 np (id + (nodeAt np id k).n / 2)) = k + 1 by omega]
  exact tval_big (by omega) hp.1

theorem ascB_child {id k : Nat} (h : id < np) (hp : Part np id k) (ha : ¬ Active np id k) : ascB g v np (np - 1 - k + 1) id = ascB g v np (np - 1 - k) id := by
  have hk := hp.lt h
  have := d0_of_part h hp ha
  unfold ascB
  rw [show max (np - (np - 1 - k + 1)) (d0 np id) = max (np - (np - 1 - k)) (d0 np id) by omega]

theorem ascB_idle {id k : Nat} (h : id < np) (hk : k < np) (hp : ¬ Part np id k) : ascB g v np (np - 1 - k + 1) id = ascB g v np (np - 1 - k) id := by
  unfold ascB
  rw [show np - (np - 1 - k + 1) = k by omega, show np - (np - 1 - k) = k + 1 by omega]
  by_cases c : d0 np id ≤ k
  · have hn : ¬ 1 < (nodeAt np id k).n := fun cn => hp ⟨cn, (active_iff h).2 (by omega)⟩
    rw [show max k (d0 np id) = k by omega, show max (k + 1) (d0 np id) = k + 1 by omega, tval_leaf hn, tval_leaf (by rw [nodeAt_succ_leaf (by omega)]; exact hn)]
  · rw [show max k (d0 np id) = max (k + 1) (d0 np id) by omega]

theorem ascB_root {id : Nat} : ascB g v np np id = tval g v np id (d0 np id) := by
  unfold ascB; simp

/-- the value of a node is a bracketing of the values of its ranks, in order -/
theorem tval_bracketed : ∀ j id k, np - k = j → id < np → Active np id k →
    ∃ d, d ≤ Nat.clog 2 (nodeAt np id k).n ∧ Bracketed g d ((List.range' id (nodeAt np id k).n).map v) (tval g v np id k) := by
  intro j
  induction j with
  | zero =>
    intro id k hj h ha
    have h1 := node_le h k
    have h2 := node_pos h k
    rw [show (nodeAt np id k).n = 1 by omega, tval_leaf (by omega)]
    exact ⟨0, Nat.zero_le _, .val _⟩
  | succ j ih =>
    intro id k hj h ha
    by_cases hn : 1 < (nodeAt np id k).n
    · have hp : Part np id k := ⟨hn, active_succ h ha⟩
      obtain ⟨q1, q2, q3, q4, q5, q6, q7, q8⟩ := part_parent h hp ha
      obtain ⟨d1, l1, i1⟩ := ih id (k + 1) (by omega) h hp.2
      obtain ⟨d2, l2, i2⟩ := ih (id + (nodeAt np id k).n / 2) (k + 1) (by omega) q1 q5.2
      rw [q7] at i1 l1
      rw [q8] at i2 l2
      rw [tval_big (by omega) hn]
      have := Bracketed.op i1 i2
      rw [← List.map_append] at this
      have e := List.range'_append_1 (s := id) (m := (nodeAt np id k).n / 2) (n := (nodeAt np id k).n - (nodeAt np id k).n / 2)
      rw [e, show (nodeAt np id k).n / 2 + ((nodeAt np id k).n - (nodeAt np id k).n / 2) = (nodeAt np id k).n by omega] at this
      refine ⟨_, ?_, this⟩
      rw [Nat.clog_of_two_le (by omega) hn]
      have m1 := Nat.clog_mono_right 2 (show (nodeAt np id k).n / 2 ≤ ((nodeAt np id k).n + 2 - 1) / 2 by omega)
      have m2 := Nat.clog_mono_right 2 (show (nodeAt np id k).n - (nodeAt np id k).n / 2 ≤ ((nodeAt np id k).n + 2 - 1) / 2 by omega)
      omega
    · have h2 := node_pos h k
      rw [show (nodeAt np id k).n = 1 by omega, tval_leaf hn]
      exact ⟨0, Nat.zero_le _, .val _⟩

end

variable {T : Type}

/-- allreduce for any operation: the value of the whole tree -/
theorem allreduce_run_any (D : Dom T) (op : Op) (np : Nat) (s0 : Nat → List T) :
    (treeColl (allreduceOps D op) np).run np s0 = .ok fun p => if p < np then tval (gatherArray D op) s0 np 0 0 else s0 p := by
  have ho := allreduce_good D op
  let g := gatherArray D op
  let Da : Nat → Nat → List T := ascB g s0 np
  let Dd : Nat → Nat → List T := fun k p => if d0 np p ≤ k then tval g s0 np 0 0 else Da np p
  rw [tree_isRun ho np Da Dd]
  · congr 1
    funext p
    by_cases c : p < np
    · have := d0_lt c
      simp only [Dd, c, if_true, if_pos (show d0 np p ≤ np by omega)]
      rfl
    · simp [c]
  · intro p hp
    simp only [Dd]
    split
    · rename_i c
      have c0 : d0 np p = 0 := by omega
      have : Active np p 0 := (active_iff hp).2 c
      have hp0 : p = 0 := by unfold Active at this; simpa [nodeAt, treeStart] using this.symm
      show ascB g s0 np np p = _
      rw [ascB_root, c0, hp0]
    · rfl
  · intro p hp k hk s
    unfold ascStep descStep
    constructor <;> split <;> rfl
  · intro p hp k hk
    by_cases c : Active np p k
    · obtain ⟨q1, q2, q3, q4, q5, q6, q7, q8⟩ := part_parent hp hk c
      refine ⟨[Da (np - 1 - k) (p + (nodeAt np p k).n / 2)], ?_, ?_⟩
      · simp only [ascStep, if_pos c, allreduceOps, gather, List.mapM_cons, List.mapM_nil, if_pos q1]
        have hkl := hk.lt hp
        have hst := stepAt_asc ho q1 (k := k) (by omega)
        rw [if_pos q5] at hst
        have hst' : stepAt (treeProg (allreduceOps D op) np (p + (nodeAt np p k).n / 2)) (np - 1 - k) = _ := hst
        simp only [allreduceOps] at hst'
        rw [hst']
        simp [ascStep, if_neg q4, q6]
      · simp only [ascStep, if_pos c, allreduceOps]
        exact congrArg _ (ascB_parent hp hk c).symm
    · refine ⟨[], ?_, ?_⟩
      · simp [ascStep, if_neg c, allreduceOps, gather]
      · simp only [ascStep, if_neg c, allreduceOps]
        exact congrArg _ (ascB_child hp hk c).symm
  · intro p hp k hk hn
    exact ascB_idle hp hk hn
  · intro p hp k hk
    by_cases c : Active np p k
    · refine ⟨[], ?_, ?_⟩
      · simp [descStep, if_pos c, allreduceOps, gather]
      · have := (active_iff hp).1 c
        simp only [descStep, if_pos c, allreduceOps, Dd, if_pos this, if_pos (show d0 np p ≤ k + 1 by omega)]
    · obtain ⟨q1, q2, q3, q4, q5, q6⟩ := part_child hp hk c
      refine ⟨[Dd k (nodeAt np p k).base], ?_, ?_⟩
      · simp only [descStep, if_neg c, allreduceOps, gather, List.mapM_cons, List.mapM_nil, if_pos q1]
        have hst := stepAt_desc ho q1 (k := k)
        rw [if_pos q5] at hst
        simp only [allreduceOps] at hst
        rw [hst]
        simp [descStep, if_pos q4, ← q6]
      · have h1 := (active_iff q1).1 q4
        have h2 := d0_of_part hp hk c
        simp only [descStep, if_neg c, allreduceOps, Dd, if_pos h1, h2, le_refl, if_true]
  · intro p hp k hk hn
    have := d0_idle hp hn
    simp only [Dd, this]
  · intro p hp
    exact (ascB_zero hp).symm

/-! ## scan -/

section
variable {M : Type} (g : M → M → M) (e : M) (v : Nat → M) (np : Nat)

/-- `scan` received by rank `id` in the ascending phase: the value of its left sibling -/
noncomputable def leftB (id : Nat) : M := tval g v np (nodeAt np id (d0 np id - 1)).base (d0 np id)

/-- `scan` of rank `id` before label `l` of the ascending phase -/
noncomputable def ascScanB (l id : Nat) : M := if l + d0 np id ≤ np then e else leftB g v np id

/-- result of the scan on rank `id` (`fuel` > id) -/
noncomputable def scanRed : Nat → Nat → M
  | 0, _ => e
  | fuel + 1, id => if id = 0 then e else g (leftB g v np id) (scanRed fuel (nodeAt np id (d0 np id - 1)).base)

end

section
variable {M : Type} {g : M → M → M} {e : M} {v : Nat → M} {np : Nat}

theorem d0_zero (np : Nat) (h : 0 < np) : d0 np 0 = 0 := by
  have : Active np 0 0 := rfl
  have := (active_iff h).1 this
  omega

/-- a rank other than 0 is the upper child of a node with a lower rank -/
theorem parent_lt {id : Nat} (h : id < np) (h0 : id ≠ 0) : (nodeAt np id (d0 np id - 1)).base < id ∧ ∃ k, d0 np id = k + 1 ∧ Part np id k ∧ ¬ Active np id k := by
  have hd : d0 np id ≠ 0 := by
    intro c
    have : Active np id 0 := (active_iff h).2 (by omega)
    unfold Active at this
    exact h0 (by simpa [nodeAt, treeStart] using this.symm)
  obtain ⟨k, hk⟩ : ∃ k, d0 np id = k + 1 := ⟨d0 np id - 1, by omega⟩
  have hna : ¬ Active np id k := fun c => by have := (active_iff h).1 c; omega
  have hn : 1 < (nodeAt np id k).n := by
    by_contra c
    exact hna (active_leaf h (by omega))
  have hp : Part np id k := ⟨hn, (active_iff h).2 (by omega)⟩
  obtain ⟨q1, q2, q3, q4, q5, q6⟩ := part_child h hp hna
  refine ⟨?_, k, hk, hp, hna⟩
  rw [hk, Nat.add_sub_cancel]
  have := node_range h k
  omega

theorem scanRed_fuel : ∀ (f f' id : Nat), id < np → id < f → id < f' → scanRed g e v np f id = scanRed g e v np f' id
  | 0, _, _, _, h, _ => by omega
  | _ + 1, 0, _, _, _, h => by omega
  | f + 1, f' + 1, id, hn, h, h' => by
    rw [scanRed, scanRed]
    by_cases c : id = 0
    · rw [if_pos c, if_pos c]
    · have := (parent_lt hn c).1
      rw [if_neg c, if_neg c, scanRed_fuel f f' _ (by omega) (by omega) (by omega)]

/-- result of the scan on rank `id` -/
noncomputable def scanB (g : M → M → M) (e : M) (v : Nat → M) (np id : Nat) : M := scanRed g e v np (id + 1) id

theorem scanB_zero : scanB g e v np 0 = e := by
  unfold scanB; rw [scanRed, if_pos rfl]

theorem scanB_step {id : Nat} (h : id < np) (h0 : id ≠ 0) : scanB g e v np id = g (leftB g v np id) (scanB g e v np (nodeAt np id (d0 np id - 1)).base) := by
  have := (parent_lt h h0).1
  unfold scanB
  rw [scanRed, if_neg h0, scanRed_fuel _ ((nodeAt np id (d0 np id - 1)).base + 1) _ (by omega) (by omega) (by omega)]

/-- the scan on rank `id` combines the identity and the values of the lower ranks, each once -/
theorem scanB_bracketed : ∀ id, id < np → ∃ (d : Nat) (l : List M), l.Perm (e :: (List.range id).map v) ∧ Bracketed g d l (scanB g e v np id) := by
  intro id
  induction id using Nat.strong_induction_on with
  | _ id ih =>
    intro h
    by_cases h0 : id = 0
    · subst h0
      exact ⟨0, [e], .refl _, by rw [scanB_zero]; exact .val _⟩
    · obtain ⟨hlt, k, hk, hp, hna⟩ := parent_lt h h0
      obtain ⟨d, l, hl, hb⟩ := ih _ hlt (by omega)
      rw [scanB_step h h0]
      rw [hk, Nat.add_sub_cancel] at hl hb hlt ⊢
      obtain ⟨q1, q2, q3, q4, q5, q6⟩ := part_child h hp hna
      obtain ⟨r1, r2, r3, r4, r5, r6, r7, r8⟩ := part_parent q1 q5 q4
      obtain ⟨d', -, ht⟩ := tval_bracketed (g := g) (v := v) (np - (k + 1)) _ (k + 1) rfl q1 q5.2
      rw [r7] at ht
      have hid : (nodeAt np (nodeAt np id k).base k).n / 2 = id - (nodeAt np id k).base := by omega
      rw [hid] at ht
      refine ⟨_, _, ?_, Bracketed.op (by unfold leftB; rw [hk, Nat.add_sub_cancel]; exact ht) hb⟩
      refine (List.Perm.append_left _ hl).trans ?_
      refine List.perm_middle.trans (List.Perm.cons _ ?_)
      refine List.perm_append_comm.trans ?_
      rw [← List.map_append, List.range_eq_range', List.range_eq_range']
      have e := List.range'_append_1 (s := 0) (m := (nodeAt np id k).base) (n := id - (nodeAt np id k).base)
      rw [Nat.zero_add, show (nodeAt np id k).base + (id - (nodeAt np id k).base) = id by omega] at e
      rw [e]

end

/-- scan for any operation -/
theorem scan_tree_run_any (D : Dom T) (op : Op) (e : List T) (np : Nat) (s0 : Nat → ScanSt T) (hs : ∀ p, p < np → (s0 p).scan = e) :
    (treeColl (scanOps D op) np).run np s0 = .ok fun p => if p < np then
      ⟨(s0 p).v, scanB (gatherArray D op) e (fun q => (s0 q).red) np p, tval (gatherArray D op) (fun q => (s0 q).red) np 0 0⟩ else s0 p := by
  have ho := scan_good D op
  let g := gatherArray D op
  let w : Nat → List T := fun q => (s0 q).red
  let Da : Nat → Nat → ScanSt T := fun l p => ⟨(s0 p).v, ascScanB g e w np l p, ascB g w np l p⟩
  let Dd : Nat → Nat → ScanSt T := fun k p => if d0 np p ≤ k then ⟨(s0 p).v, scanB g e w np p, tval g w np 0 0⟩ else Da np p
  rw [tree_isRun ho np Da Dd]
  · congr 1
    funext p
    by_cases c : p < np
    · have := d0_lt c
      simp only [Dd, c, if_true, if_pos (show d0 np p ≤ np by omega)]
      rfl
    · simp [c]
  · intro p hp
    simp only [Dd]
    split
    · rename_i c
      have c0 : d0 np p = 0 := by omega
      have : Active np p 0 := (active_iff hp).2 c
      have hp0 : p = 0 := by unfold Active at this; simpa [nodeAt, treeStart] using this.symm
      simp only [Da, ascScanB, c0, Nat.add_zero, le_refl, if_true, ScanSt.mk.injEq, true_and]
      refine ⟨by rw [hp0, scanB_zero], ?_⟩
      rw [ascB_root, c0, hp0]
    · rfl
  · intro p hp k hk s
    unfold ascStep descStep
    constructor <;> split <;> rfl
  · intro p hp k hk
    have hkl := hk.lt hp
    by_cases c : Active np p k
    · obtain ⟨q1, q2, q3, q4, q5, q6, q7, q8⟩ := part_parent hp hk c
      refine ⟨[(ascB g w np (np - 1 - k) (p + (nodeAt np p k).n / 2), [])], ?_, ?_⟩
      · simp only [ascStep, if_pos c, scanOps, gather, List.mapM_cons, List.mapM_nil, if_pos q1]
        have hst := stepAt_asc ho q1 (k := k) (by omega)
        rw [if_pos q5] at hst
        simp only [scanOps] at hst
        rw [hst]
        simp [ascStep, if_neg q4, q6, Da]
      · simp only [ascStep, if_pos c, scanOps, Da]
        have h1 := (active_iff hp).1 c
        congr 2
        · simp only [ascScanB]
          rw [if_pos (by omega), if_pos (by omega)]
        · exact (ascB_parent hp hk c).symm
    · obtain ⟨q1, q2, q3, q4, q5, q6⟩ := part_child hp hk c
      refine ⟨[(ascB g w np (np - 1 - k) (nodeAt np p k).base, [])], ?_, ?_⟩
      · simp only [ascStep, if_neg c, scanOps, gather, List.mapM_cons, List.mapM_nil, if_pos q1]
        have hst := stepAt_asc ho q1 (k := k) (by omega)
        rw [if_pos q5] at hst
        simp only [scanOps] at hst
        rw [hst]
        simp [ascStep, if_pos q4, ← q6, Da]
      · simp only [ascStep, if_neg c, scanOps, Da]
        have h1 := d0_of_part hp hk c
        congr 2
        · simp only [ascScanB]
          rw [if_neg (by omega)]
          have hb := (active_iff q1).1 q4
          unfold leftB ascB
          rw [h1, Nat.add_sub_cancel, show max (np - (np - 1 - k)) (d0 np (nodeAt np p k).base) = k + 1 by omega]
        · exact (ascB_child hp hk c).symm
  · intro p hp k hk hn
    have h1 := d0_idle hp hn
    have h2 : ascB g w np (np - 1 - k + 1) p = ascB g w np (np - 1 - k) p := ascB_idle hp hk hn
    simp only [Da, h2, ScanSt.mk.injEq, true_and, and_true, ascScanB]
    have : np - 1 - k + 1 + d0 np p ≤ np ↔ np - 1 - k + d0 np p ≤ np := by omega
    simp only [this]
  · intro p hp k hk
    by_cases c : Active np p k
    · refine ⟨[], ?_, ?_⟩
      · simp [descStep, if_pos c, scanOps, gather]
      · have := (active_iff hp).1 c
        simp only [descStep, if_pos c, scanOps, Dd, if_pos this, if_pos (show d0 np p ≤ k + 1 by omega)]
    · obtain ⟨q1, q2, q3, q4, q5, q6⟩ := part_child hp hk c
      refine ⟨[((Dd k (nodeAt np p k).base).scan, (Dd k (nodeAt np p k).base).red)], ?_, ?_⟩
      · simp only [descStep, if_neg c, scanOps, gather, List.mapM_cons, List.mapM_nil, if_pos q1]
        have hst := stepAt_desc ho q1 (k := k)
        rw [if_pos q5] at hst
        simp only [scanOps] at hst
        rw [hst]
        simp [descStep, if_pos q4, ← q6]
      · have h1 := (active_iff q1).1 q4
        have h2 := d0_of_part hp hk c
        have h0 : p ≠ 0 := by
          rintro rfl
          have := d0_zero np hp
          omega
        simp only [descStep, if_neg c, scanOps, Dd, if_pos h1, h2, le_refl, if_true, if_neg (show ¬ k + 1 ≤ k by omega)]
        congr 2
        simp only [Da, ascScanB]
        rw [if_neg (by omega), scanB_step hp h0, h2, Nat.add_sub_cancel]
  · intro p hp k hk hn
    have := d0_idle hp hn
    simp only [Dd, this]
  · intro p hp
    have h1 : ascB g w np 0 p = w p := ascB_zero hp
    have h2 := d0_lt hp
    simp only [Da, ascScanB, h1]
    rw [if_pos (by omega), ← hs p hp]

end Gslib.Comm
