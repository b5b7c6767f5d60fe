import Verif.Lemmas.CommTree

namespace Gslib.Comm
open Gslib Gslib.Mpi Gslib.Gs Gslib.Spec

/-- associative on a set of values -/
structure AssocOn {M : Type} (ok : M → Prop) (g : M → M → M) : Prop where
  closed : ∀ a b, ok a → ok b → ok (g a b)
  assoc : ∀ a b c, ok a → ok b → ok c → g (g a b) c = g a (g b c)

section
variable {M : Type} {ok : M → Prop} {g : M → M → M}

theorem foldRanks_ok (hg : AssocOn ok g) {v : Nat → M} {b n : Nat} (hv : ∀ q, b ≤ q → q ≤ b + n → ok (v q)) : ok (foldRanks g v b n) := by
  induction n with
  | zero => exact hv b (le_refl _) (by omega)
  | succ n ih => exact hg.closed _ _ (ih fun q h1 h2 => hv q h1 (by omega)) (hv _ (by omega) (by omega))

theorem foldRanks_split (hg : AssocOn ok g) {v : Nat → M} (b m : Nat) : ∀ n, (∀ q, b ≤ q → q ≤ b + (m + n + 1) → ok (v q)) →
    foldRanks g v b (m + n + 1) = g (foldRanks g v b m) (foldRanks g v (b + m + 1) n)
  | 0, hv => rfl
  | n + 1, hv => by
    have ih := foldRanks_split hg b m n (fun q h1 h2 => hv q h1 (by omega))
    show g (foldRanks g v b (m + n + 1)) (v (b + (m + n + 1) + 1)) = _
    rw [ih, hg.assoc]
    · show _ = g _ (g _ (v (b + m + 1 + n + 1)))
      congr 3
      omega
    · exact foldRanks_ok hg fun q h1 h2 => hv q h1 (by omega)
    · exact foldRanks_ok hg fun q h1 h2 => hv q (by omega) (by omega)
    · exact hv _ (by omega) (by omega)
end

/-- reduction over the ranks of a node -/
def nodeRed {M : Type} (g : M → M → M) (v : Nat → M) (s : TreeSt) : M := foldRanks g v s.base (s.n - 1)

section
variable {M : Type} {ok : M → Prop} {g : M → M → M} {np : Nat} {v : Nat → M}

theorem nodeRed_split (hg : AssocOn ok g) (hv : ∀ q, q < np → ok (v q)) {id k : Nat} (h : id < np) (hp : Part np id k) (ha : Active np id k) :
    nodeRed g v (nodeAt np id k) = g (nodeRed g v (nodeAt np id (k + 1))) (nodeRed g v (nodeAt np (id + (nodeAt np id k).n / 2) (k + 1))) := by
  obtain ⟨q1, q2, q3, q4, q5, q6, q7, q8⟩ := part_parent h hp ha
  have hr := node_range h k
  have h1 := hp.1
  have b1 : (nodeAt np id (k + 1)).base = id := hp.2
  have b2 : (nodeAt np (id + (nodeAt np id k).n / 2) (k + 1)).base = id + (nodeAt np id k).n / 2 := q5.2
  have b0 : (nodeAt np id k).base = id := ha
  unfold nodeRed
  rw [b0, b1, b2, q7, q8]
  rw [b0] at hr
  generalize (nodeAt np id k).n = n at *
  have := foldRanks_split hg id (n / 2 - 1) (n - n / 2 - 1) (v := v) (fun q h1 h2 => hv q (by omega))
  rw [show n / 2 - 1 + (n - n / 2 - 1) + 1 = n - 1 by omega, show id + (n / 2 - 1) + 1 = id + n / 2 by omega] at this
  exact this

/-- partial reduction held by `id` before label `l` of the ascending phase -/
noncomputable def ascVal (g : M → M → M) (v : Nat → M) (np l id : Nat) : M := nodeRed g v (nodeAt np id (max (np - l) (d0 np id)))

theorem ascVal_zero {id : Nat} (h : id < np) : ascVal g v np 0 id = v id := by
  unfold ascVal nodeRed
  have hm : max (np - 0) (d0 np id) = np := by have := d0_lt h; omega
  rw [hm]
  have h1 := node_le h np
  have h2 := node_range h np
  have e : (nodeAt np id np).base = id := active_mono h (active_np h) (by omega)
  rw [e, show (nodeAt np id np).n - 1 = 0 by omega]
  rfl

theorem ascVal_parent (hg : AssocOn ok g) (hv : ∀ q, q < np → ok (v q)) {id k : Nat} (h : id < np) (hp : Part np id k) (ha : Active np id k) :
    ascVal g v np (np - 1 - k + 1) id = g (ascVal g v np (np - 1 - k) id) (ascVal g v np (np - 1 - k) (id + (nodeAt np id k).n / 2)) := by
  obtain ⟨q1, q2, q3, q4, q5, q6, q7, q8⟩ := part_parent h hp ha
  have hk := hp.lt h
  have a1 := (active_iff h).1 ha
  have a2 := (active_iff q1).1 q5.2
  unfold ascVal
  rw [show max (np - (np - 1 - k + 1)) (d0 np id) = k by omega, show max (np - (np - 1 - k)) (d0 np id) = k + 1 by omega,
    show max (np - (np - 1 - k)) (d0 np (id + (nodeAt np id k).n / 2)) = k + 1 by omega]
  exact nodeRed_split hg hv h hp ha

theorem ascVal_child {id k : Nat} (h : id < np) (hp : Part np id k) (ha : ¬ Active np id k) :
    ascVal g v np (np - 1 - k + 1) id = ascVal g v np (np - 1 - k) id := by
  have hk := hp.lt h
  have := d0_of_part h hp ha
  unfold ascVal
  rw [show max (np - (np - 1 - k + 1)) (d0 np id) = max (np - (np - 1 - k)) (d0 np id) by omega]

theorem ascVal_idle {id k : Nat} (h : id < np) (hk : k < np) (hp : ¬ Part np id k) :
    ascVal g v np (np - 1 - k + 1) id = ascVal g v np (np - 1 - k) id := by
  unfold ascVal
  rw [show np - (np - 1 - k + 1) = k by omega, show np - (np - 1 - k) = k + 1 by omega]
  by_cases c : d0 np id ≤ k
  · have hn : (nodeAt np id k).n ≤ 1 := by
      by_contra cn
      exact hp ⟨by omega, (active_iff h).2 (by omega)⟩
    rw [show max k (d0 np id) = k by omega, show max (k + 1) (d0 np id) = k + 1 by omega, nodeAt_succ_leaf hn]
  · rw [show max k (d0 np id) = max (k + 1) (d0 np id) by omega]

theorem ascVal_root {id : Nat} : ascVal g v np np id = nodeRed g v (nodeAt np id (d0 np id)) := by
  unfold ascVal; simp

theorem d0_idle {id k : Nat} (h : id < np) (hp : ¬ Part np id k) : d0 np id ≤ k + 1 ↔ d0 np id ≤ k := by
  constructor
  · intro hk
    by_contra c
    have h1 : Active np id (k + 1) := (active_iff h).2 hk
    have h2 : ¬ Active np id k := fun x => c ((active_iff h).1 x)
    have h3 : (nodeAt np id k).n ≤ 1 := by
      by_contra cn; exact hp ⟨by omega, h1⟩
    exact h2 (active_leaf h h3)
  · omega

end

/-! ## allreduce -/

theorem allreduce_good {T : Type} (D : Dom T) (op : Op) : (allreduceOps D op).Good where
  label _ _ _ := ⟨rfl, rfl, rfl, rfl⟩
  nodup _ _ _ := by simp [allreduceOps]
  ascMatch l a b x h := by simp [allreduceOps] at h
  ascMatch' l a b x h := by simp [allreduceOps] at h ⊢; simp [h]
  ascMatchC l a b x h := by simp [allreduceOps] at h ⊢; simp [h]
  ascMatchC' l a b x h := by simp [allreduceOps] at h
  descMatch l a b x h := by simp [allreduceOps] at h ⊢; simp [h]
  descMatch' l a b x h := by simp [allreduceOps] at h
  descMatchC l a b x h := by simp [allreduceOps] at h
  descMatchC' l a b x h := by simp [allreduceOps] at h ⊢; simp [h]

theorem scan_good {T : Type} (D : Dom T) (op : Op) : (scanOps D op).Good where
  label _ _ _ := ⟨rfl, rfl, rfl, rfl⟩
  nodup _ _ _ := by simp [scanOps]
  ascMatch l a b x h := by simp [scanOps] at h ⊢; simp [h]
  ascMatch' l a b x h := by simp [scanOps] at h ⊢; simp [h]
  ascMatchC l a b x h := by simp [scanOps] at h ⊢; simp [h]
  ascMatchC' l a b x h := by simp [scanOps] at h ⊢; simp [h]
  descMatch l a b x h := by simp [scanOps] at h ⊢; simp [h]
  descMatch' l a b x h := by simp [scanOps] at h
  descMatchC l a b x h := by simp [scanOps] at h
  descMatchC' l a b x h := by simp [scanOps] at h ⊢; simp [h]

variable {S W : Type}

theorem label_cases (np l : Nat) (h : l < 2 * np) : (∃ k, k < np ∧ l = np - 1 - k) ∨ ∃ k, k < np ∧ l = np + k := by
  by_cases c : l < np
  · exact .inl ⟨np - 1 - l, by omega, by omega⟩
  · exact .inr ⟨l - np, by omega, by omega⟩

/-- a run of the tree program from its effect at each node -/
theorem tree_isRun {o : TreeOps S W} (ho : o.Good) (np : Nat) (Da Dd : Nat → Nat → S) (hglue : ∀ p, p < np → Da np p = Dd 0 p)
    (hpre : ∀ p, p < np → ∀ k, Part np p k → ∀ s, (ascStep o np p k).pre s = .ok s ∧ (descStep o np p k).pre s = .ok s)
    (hasc : ∀ p, p < np → ∀ k, Part np p k →
      ∃ vals, gather (treeProg o np) np (np - 1 - k) (Da (np - 1 - k)) p (ascStep o np p k).recvs = some vals ∧
        (ascStep o np p k).post (Da (np - 1 - k) p) vals = .ok (Da (np - 1 - k + 1) p))
    (hascIdle : ∀ p, p < np → ∀ k, k < np → ¬ Part np p k → Da (np - 1 - k + 1) p = Da (np - 1 - k) p)
    (hdesc : ∀ p, p < np → ∀ k, Part np p k →
      ∃ vals, gather (treeProg o np) np (np + k) (Dd k) p (descStep o np p k).recvs = some vals ∧
        (descStep o np p k).post (Dd k p) vals = .ok (Dd (k + 1) p))
    (hdescIdle : ∀ p, p < np → ∀ k, k < np → ¬ Part np p k → Dd (k + 1) p = Dd k p)
    (s0 : Nat → S) (h0 : ∀ p, p < np → s0 p = Da 0 p) :
    (treeColl o np).run np s0 = .ok fun p => if p < np then Dd np p else s0 p := by
  let D : Nat → Nat → S := fun l p => if p < np then (if l ≤ np then Da l p else Dd (l - np) p) else s0 p
  have hDa : ∀ l p, p < np → l ≤ np → D l p = Da l p := fun l p hp hl => by simp [D, hp, hl]
  have hDd : ∀ k p, p < np → D (np + k) p = Dd k p := by
    intro k p hp
    rcases k with _ | k
    · simp [D, hp, hglue p hp]
    · simp [D, hp]
  have hrun : IsRun (treeProg o np) np (2 * np) D D := by
    refine ⟨?_, ?_, ?_⟩
    · intro l hl p hp s hs
      rcases label_cases np l hl with ⟨k, hk, rfl⟩ | ⟨k, hk, rfl⟩
      · rw [stepAt_asc ho hp hk] at hs
        split at hs
        · rename_i c; cases hs; exact (hpre p hp k c _).1
        · cases hs
      · rw [stepAt_desc ho hp] at hs
        split at hs
        · rename_i c; cases hs; exact (hpre p hp k c _).2
        · cases hs
    · intro l hl p hp s hs
      rcases label_cases np l hl with ⟨k, hk, rfl⟩ | ⟨k, hk, rfl⟩
      · rw [stepAt_asc ho hp hk] at hs
        split at hs
        · rename_i c
          cases hs
          obtain ⟨vals, v1, v2⟩ := hasc p hp k c
          refine ⟨vals, ?_, ?_⟩
          · rw [← v1]; apply gather_congr
            intro q hq _ _; exact hDa _ q hq (by omega)
          · rw [hDa _ p hp (by omega), hDa _ p hp (by omega)]; exact v2
        · cases hs
      · rw [stepAt_desc ho hp] at hs
        split at hs
        · rename_i c
          cases hs
          obtain ⟨vals, v1, v2⟩ := hdesc p hp k c
          refine ⟨vals, ?_, ?_⟩
          · rw [← v1]; apply gather_congr
            intro q hq _ _; exact hDd _ q hq
          · rw [hDd k p hp, Nat.add_assoc, hDd (k + 1) p hp]; exact v2
        · cases hs
    · intro l hl p hp
      by_cases c : p < np
      · rcases hp with hp | hp
        · omega
        rcases label_cases np l hl with ⟨k, hk, rfl⟩ | ⟨k, hk, rfl⟩
        · rw [stepAt_asc ho c hk] at hp
          split at hp
          · cases hp
          · rename_i cc
            rw [hDa _ p c (by omega), hDa _ p c (by omega)]
            exact hascIdle p c k hk cc
        · rw [stepAt_desc ho c] at hp
          split at hp
          · cases hp
          · rename_i cc
            rw [hDd k p c, Nat.add_assoc, hDd (k + 1) p c]
            exact hdescIdle p c k hk cc
      · simp [D, c]
  have := lockRun_of_isRun hrun
  have e0 : D 0 = s0 := by
    funext p
    by_cases c : p < np
    · rw [hDa 0 p c (by omega), h0 p c]
    · simp [D, c]
  have eT : D (2 * np) = fun p => if p < np then Dd np p else s0 p := by
    funext p
    by_cases c : p < np
    · rw [if_pos c, Nat.two_mul, hDd np p c]
    · simp [D, c]
  rw [e0, eT] at this
  exact this

variable {T : Type}

theorem allreduce_run (D : Dom T) (op : Op) {ok : List T → Prop} (hg : AssocOn ok (gatherArray D op)) (np : Nat) (s0 : Nat → List T)
    (hv : ∀ p, p < np → ok (s0 p)) :
    (treeColl (allreduceOps D op) np).run np s0 = .ok fun p => if p < np then reduceAll (gatherArray D op) s0 np else s0 p := by
  have ho := allreduce_good D op
  let g := gatherArray D op
  let Da : Nat → Nat → List T := ascVal g s0 np
  let Dd : Nat → Nat → List T := fun k p => if d0 np p ≤ k then reduceAll g s0 np else Da np p
  rw [tree_isRun ho np Da Dd]
  · congr 1
    funext p
    by_cases c : p < np
    · have := d0_lt c
      simp only [Dd, c, if_true, if_pos (show d0 np p ≤ np by omega)]
      rfl
    · simp [c]
  · intro p hp
    simp only [Dd]
    split
    · rename_i c
      show ascVal g s0 np np p = _
      rw [ascVal_root, show d0 np p = 0 by omega]
      rfl
    · rfl
  · intro p hp k hk s
    unfold ascStep descStep
    constructor <;> split <;> rfl
  · intro p hp k hk
    by_cases c : Active np p k
    · obtain ⟨q1, q2, q3, q4, q5, q6, q7, q8⟩ := part_parent hp hk c
      refine ⟨[Da (np - 1 - k) (p + (nodeAt np p k).n / 2)], ?_, ?_⟩
      · simp only [ascStep, if_pos c, allreduceOps, gather, List.mapM_cons, List.mapM_nil, if_pos q1]
        have hkl := hk.lt hp
        have hst := stepAt_asc ho q1 (k := k) (by omega)
        rw [if_pos q5] at hst
        have hst' : stepAt (treeProg (allreduceOps D op) np (p + (nodeAt np p k).n / 2)) (np - 1 - k) = _ := hst
        simp only [allreduceOps] at hst'
        rw [hst']
        simp [ascStep, if_neg q4, q6]
      · simp only [ascStep, if_pos c, allreduceOps]
        exact congrArg _ (ascVal_parent hg hv hp hk c).symm
    · refine ⟨[], ?_, ?_⟩
      · simp [ascStep, if_neg c, allreduceOps, gather]
      · simp only [ascStep, if_neg c, allreduceOps]
        exact congrArg _ (ascVal_child hp hk c).symm
  · intro p hp k hk hn
    exact ascVal_idle hp hk hn
  · intro p hp k hk
    by_cases c : Active np p k
    · refine ⟨[], ?_, ?_⟩
      · simp [descStep, if_pos c, allreduceOps, gather]
      · have := (active_iff hp).1 c
        simp only [descStep, if_pos c, allreduceOps, Dd, if_pos this, if_pos (show d0 np p ≤ k + 1 by omega)]
    · obtain ⟨q1, q2, q3, q4, q5, q6⟩ := part_child hp hk c
      refine ⟨[Dd k (nodeAt np p k).base], ?_, ?_⟩
      · simp only [descStep, if_neg c, allreduceOps, gather, List.mapM_cons, List.mapM_nil, if_pos q1]
        have hst := stepAt_desc ho q1 (k := k)
        rw [if_pos q5] at hst
        simp only [allreduceOps] at hst
        rw [hst]
        simp [descStep, if_pos q4, ← q6]
      · have h1 := (active_iff q1).1 q4
        have h2 := d0_of_part hp hk c
        simp only [descStep, if_neg c, allreduceOps, Dd, if_pos h1, h2, le_refl, if_true]
  · intro p hp k hk hn
    have := d0_idle hp hn
    simp only [Dd, this]
  · intro p hp
    exact (ascVal_zero hp).symm

/-! ## scan -/

/-- reduction over the ranks from the lowest rank of the node where `id` is the upper child -/
noncomputable def leftVal {M : Type} (g : M → M → M) (v : Nat → M) (np id : Nat) : M :=
  foldRanks g v (nodeAt np id (d0 np id - 1)).base (id - (nodeAt np id (d0 np id - 1)).base - 1)

/-- `scan` of rank `id` before label `l` of the ascending phase -/
noncomputable def ascScan {M : Type} (g : M → M → M) (e : M) (v : Nat → M) (np l id : Nat) : M :=
  if l + d0 np id ≤ np then e else leftVal g v np id

theorem _root_.Gslib.Spec.CommMonoidOn.toAssoc {M : Type} {ok : M → Prop} {g : M → M → M} {e : M} (h : CommMonoidOn ok g e) : AssocOn ok g := ⟨h.closed, h.assoc⟩

theorem reduceBefore_ok {M : Type} {ok : M → Prop} {g : M → M → M} {e : M} (h : CommMonoidOn ok g e) {np : Nat} {v : Nat → M}
    (hv : ∀ q, q < np → ok (v q)) {b : Nat} (hb : b < np) : ok (reduceBefore g e v b) := by
  cases b with
  | zero => exact h.okId
  | succ b => exact foldRanks_ok h.toAssoc fun q _ h2 => hv q (by omega)

theorem reduceBefore_split {M : Type} {ok : M → Prop} {g : M → M → M} {e : M} (h : CommMonoidOn ok g e) {np : Nat} {v : Nat → M}
    (hv : ∀ q, q < np → ok (v q)) {b i : Nat} (hb : b < i) (hi : i < np) :
    g (foldRanks g v b (i - b - 1)) (reduceBefore g e v b) = reduceBefore g e v i := by
  have hl : ok (foldRanks g v b (i - b - 1)) := foldRanks_ok h.toAssoc fun q _ h2 => hv q (by omega)
  rw [h.comm _ _ hl (reduceBefore_ok h hv (by omega))]
  cases b with
  | zero =>
    rw [reduceBefore, h.idLeft _ hl]
    obtain ⟨j, rfl⟩ : ∃ j, i = j + 1 := ⟨i - 1, by omega⟩
    rfl
  | succ b =>
    obtain ⟨j, rfl⟩ : ∃ j, i = b + j + 1 + 1 := ⟨i - b - 2, by omega⟩
    have := foldRanks_split h.toAssoc 0 b j (v := v) (fun q _ h2 => hv q (by omega))
    rw [reduceBefore, reduceBefore, this]
    congr 2 <;> omega

theorem scan_tree_run (D : Dom T) (op : Op) {ok : List T → Prop} {e : List T} (hg : CommMonoidOn ok (gatherArray D op) e) (np : Nat)
    (s0 : Nat → ScanSt T) (hs : ∀ p, p < np → (s0 p).scan = e) (hr : ∀ p, p < np → ok (s0 p).red) :
    (treeColl (scanOps D op) np).run np s0 = .ok fun p => if p < np then
      ⟨(s0 p).v, reduceBefore (gatherArray D op) e (fun q => (s0 q).red) p, reduceAll (gatherArray D op) (fun q => (s0 q).red) np⟩ else s0 p := by
  have ho := scan_good D op
  let g := gatherArray D op
  let w : Nat → List T := fun q => (s0 q).red
  let Da : Nat → Nat → ScanSt T := fun l p => ⟨(s0 p).v, ascScan g e w np l p, ascVal g w np l p⟩
  let Dd : Nat → Nat → ScanSt T := fun k p => if d0 np p ≤ k then ⟨(s0 p).v, reduceBefore g e w p, reduceAll g w np⟩ else Da np p
  rw [tree_isRun ho np Da Dd]
  · congr 1
    funext p
    by_cases c : p < np
    · have := d0_lt c
      simp only [Dd, c, if_true, if_pos (show d0 np p ≤ np by omega)]
      rfl
    · simp [c]
  · intro p hp
    simp only [Dd]
    split
    · rename_i c
      have c0 : d0 np p = 0 := by omega
      have : Active np p 0 := (active_iff hp).2 c
      have hp0 : p = 0 := by unfold Active at this; simpa [nodeAt, treeStart] using this.symm
      simp only [Da, ascScan, c0, Nat.add_zero, le_refl, if_true, ScanSt.mk.injEq, true_and]
      refine ⟨by rw [hp0]; rfl, ?_⟩
      rw [ascVal_root, c0]
      rfl
    · rfl
  · intro p hp k hk s
    unfold ascStep descStep
    constructor <;> split <;> rfl
  · intro p hp k hk
    have hkl := hk.lt hp
    by_cases c : Active np p k
    · obtain ⟨q1, q2, q3, q4, q5, q6, q7, q8⟩ := part_parent hp hk c
      refine ⟨[(ascVal g w np (np - 1 - k) (p + (nodeAt np p k).n / 2), [])], ?_, ?_⟩
      · simp only [ascStep, if_pos c, scanOps, gather, List.mapM_cons, List.mapM_nil, if_pos q1]
        have hst := stepAt_asc ho q1 (k := k) (by omega)
        rw [if_pos q5] at hst
        simp only [scanOps] at hst
        rw [hst]
        simp [ascStep, if_neg q4, q6, Da]
      · simp only [ascStep, if_pos c, scanOps, Da]
        have h1 := (active_iff hp).1 c
        congr 2
        · simp only [ascScan]
          rw [if_pos (by omega), if_pos (by omega)]
        · exact (ascVal_parent (CommMonoidOn.toAssoc hg) hr hp hk c).symm
    · obtain ⟨q1, q2, q3, q4, q5, q6⟩ := part_child hp hk c
      refine ⟨[(ascVal g w np (np - 1 - k) (nodeAt np p k).base, [])], ?_, ?_⟩
      · simp only [ascStep, if_neg c, scanOps, gather, List.mapM_cons, List.mapM_nil, if_pos q1]
        have hst := stepAt_asc ho q1 (k := k) (by omega)
        rw [if_pos q5] at hst
        simp only [scanOps] at hst
        rw [hst]
        simp [ascStep, if_pos q4, ← q6, Da]
      · simp only [ascStep, if_neg c, scanOps, Da]
        have h1 := d0_of_part hp hk c
        obtain ⟨_, _, _, _, _, _, r7, _⟩ := part_parent q1 q5 q4
        congr 2
        · simp only [ascScan]
          rw [if_neg (by omega)]
          have hb := (active_iff q1).1 q4
          have hbb : (nodeAt np (nodeAt np p k).base (k + 1)).base = (nodeAt np p k).base := q5.2
          unfold leftVal ascVal nodeRed
          rw [h1, Nat.add_sub_cancel, show max (np - (np - 1 - k)) (d0 np (nodeAt np p k).base) = k + 1 by omega, hbb, r7]
          congr 1
          omega
        · exact (ascVal_child hp hk c).symm
  · intro p hp k hk hn
    have h1 := d0_idle hp hn
    have h2 : ascVal g w np (np - 1 - k + 1) p = ascVal g w np (np - 1 - k) p := ascVal_idle hp hk hn
    simp only [Da, h2, ScanSt.mk.injEq, true_and, and_true, ascScan]
    have : np - 1 - k + 1 + d0 np p ≤ np ↔ np - 1 - k + d0 np p ≤ np := by omega
    simp only [this]
  · intro p hp k hk
    by_cases c : Active np p k
    · refine ⟨[], ?_, ?_⟩
      · simp [descStep, if_pos c, scanOps, gather]
      · have := (active_iff hp).1 c
        simp only [descStep, if_pos c, scanOps, Dd, if_pos this, if_pos (show d0 np p ≤ k + 1 by omega)]
    · obtain ⟨q1, q2, q3, q4, q5, q6⟩ := part_child hp hk c
      refine ⟨[((Dd k (nodeAt np p k).base).scan, (Dd k (nodeAt np p k).base).red)], ?_, ?_⟩
      · simp only [descStep, if_neg c, scanOps, gather, List.mapM_cons, List.mapM_nil, if_pos q1]
        have hst := stepAt_desc ho q1 (k := k)
        rw [if_pos q5] at hst
        simp only [scanOps] at hst
        rw [hst]
        simp [descStep, if_pos q4, ← q6]
      · have h1 := (active_iff q1).1 q4
        have h2 := d0_of_part hp hk c
        have hr1 := node_range hp k
        simp only [descStep, if_neg c, scanOps, Dd, if_pos h1, h2, le_refl, if_true, if_neg (show ¬ k + 1 ≤ k by omega)]
        congr 2
        simp only [Da, ascScan]
        rw [if_neg (by omega)]
        unfold leftVal
        rw [h2, Nat.add_sub_cancel]
        exact reduceBefore_split hg hr (by omega) hp
  · intro p hp k hk hn
    have := d0_idle hp hn
    simp only [Dd, this]
  · intro p hp
    have h1 : ascVal g w np 0 p = w p := ascVal_zero hp
    have h2 := d0_lt hp
    simp only [Da, ascScan, h1]
    rw [if_pos (by omega), ← hs p hp]

/-- the vectors of length `vn` with valid entries -/
def VecOk (okT : T → Prop) (vn : Nat) (l : List T) : Prop := l.length = vn ∧ ∀ x ∈ l, okT x

theorem gatherArray_eq (D : Dom T) (op : Op) : ∀ a b : List T, a.length = b.length → gatherArray D op a b = List.zipWith (D.doOp op) a b
  | [], [], _ => rfl
  | x :: a, y :: b, h => by rw [gatherArray, List.zipWith_cons_cons, gatherArray_eq D op a b (by simpa using h)]

theorem gatherArray_assocOn (D : Dom T) (op : Op) {okT : T → Prop} (h : AssocOn okT (D.doOp op)) : ∀ vn, AssocOn (VecOk okT vn) (gatherArray D op)
  | 0 => by
    constructor
    · rintro a b ⟨ha, _⟩ ⟨hb, _⟩
      rw [List.length_eq_zero_iff] at ha hb
      subst ha hb; exact ⟨rfl, by simp [gatherArray]⟩
    · rintro a b c ⟨ha, _⟩ ⟨hb, _⟩ ⟨hc, _⟩
      rw [List.length_eq_zero_iff] at ha hb hc
      subst ha hb hc; rfl
  | vn + 1 => by
    have ih := gatherArray_assocOn D op h vn
    constructor
    · rintro (_ | ⟨x, a⟩) (_ | ⟨y, b⟩) ⟨ha, ha'⟩ ⟨hb, hb'⟩ <;> simp only [List.length_nil, List.length_cons, Nat.add_right_cancel_iff, reduceCtorEq] at ha hb
      simp only [List.mem_cons, forall_eq_or_imp] at ha' hb'
      obtain ⟨c1, c2⟩ := ih.closed a b ⟨ha, ha'.2⟩ ⟨hb, hb'.2⟩
      refine ⟨by simp [gatherArray, c1], ?_⟩
      simp only [gatherArray, List.mem_cons, forall_eq_or_imp]
      exact ⟨h.closed _ _ ha'.1 hb'.1, c2⟩
    · rintro (_ | ⟨x, a⟩) (_ | ⟨y, b⟩) (_ | ⟨z, c⟩) ⟨ha, ha'⟩ ⟨hb, hb'⟩ ⟨hc, hc'⟩ <;>
        simp only [List.length_nil, List.length_cons, Nat.add_right_cancel_iff, reduceCtorEq] at ha hb hc
      simp only [List.mem_cons, forall_eq_or_imp] at ha' hb' hc'
      simp only [gatherArray, h.assoc _ _ _ ha'.1 hb'.1 hc'.1, ih.assoc a b c ⟨ha, ha'.2⟩ ⟨hb, hb'.2⟩ ⟨hc, hc'.2⟩]

theorem gatherArray_monoid (D : Dom T) (op : Op) {okT : T → Prop} (h : CommMonoidOn okT (D.doOp op) (D.identity op)) (vn : Nat) :
    CommMonoidOn (VecOk okT vn) (gatherArray D op) (initArray D op vn) := by
  have ha := gatherArray_assocOn D op h.toAssoc vn
  have hid : VecOk okT vn (initArray D op vn) := by
    induction vn with
    | zero => exact ⟨rfl, by simp [initArray]⟩
    | succ n ih =>
      obtain ⟨h1, h2⟩ := ih (gatherArray_assocOn D op h.toAssoc n)
      refine ⟨by simp [initArray, h1], ?_⟩
      simp only [initArray, List.mem_cons, forall_eq_or_imp]
      exact ⟨h.okId, h2⟩
  have hcomm : ∀ a b, VecOk okT vn a → VecOk okT vn b → gatherArray D op a b = gatherArray D op b a := by
    clear ha hid
    induction vn with
    | zero =>
      rintro a b ⟨ha, _⟩ ⟨hb, _⟩
      rw [List.length_eq_zero_iff] at ha hb
      subst ha hb; rfl
    | succ n ih =>
      rintro (_ | ⟨x, a⟩) (_ | ⟨y, b⟩) ⟨ha, ha'⟩ ⟨hb, hb'⟩ <;> simp only [List.length_nil, List.length_cons, Nat.add_right_cancel_iff, reduceCtorEq] at ha hb
      simp only [List.mem_cons, forall_eq_or_imp] at ha' hb'
      simp only [gatherArray, h.comm _ _ ha'.1 hb'.1, ih a b ⟨ha, ha'.2⟩ ⟨hb, hb'.2⟩]
  have hidr : ∀ a, VecOk okT vn a → gatherArray D op a (initArray D op vn) = a := by
    clear ha hid hcomm
    induction vn with
    | zero =>
      rintro a ⟨ha, _⟩
      rw [List.length_eq_zero_iff] at ha
      subst ha; rfl
    | succ n ih =>
      rintro (_ | ⟨x, a⟩) ⟨ha, ha'⟩ <;> simp only [List.length_nil, List.length_cons, Nat.add_right_cancel_iff, reduceCtorEq] at ha
      simp only [List.mem_cons, forall_eq_or_imp] at ha'
      simp only [gatherArray, initArray, h.idRight _ ha'.1, ih a ⟨ha, ha'.2⟩]
  exact ⟨ha.closed, hid, ha.assoc, hcomm, fun a h' => by rw [hcomm _ _ hid h', hidr a h'], hidr⟩

end Gslib.Comm
