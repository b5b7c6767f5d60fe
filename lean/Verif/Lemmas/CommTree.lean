import Verif.Model.CommTree
import Verif.Spec.Comm
import Verif.Lemmas.Coll
import Mathlib.Data.Nat.Find
import Mathlib.Data.List.Basic

namespace Gslib.Comm
open Gslib Gslib.Mpi Gslib.Gs Gslib.Spec

theorem or_even (a b : Nat) (h : b < 2) : (a <<< 1) ||| b = 2 * a + b := by
  have := Nat.shiftLeft_add_eq_or_of_lt (i := 1) (b := b) (by simpa using h) a
  rw [← this, Nat.shiftLeft_eq]; omega

theorem down_eq (id : Nat) (s : TreeSt) : down id s =
    if id ≥ s.base + s.n / 2 then ⟨s.n / 2 + s.n % 2, 2 * s.c + 1, 2 * s.odd + s.n % 2, s.base + s.n / 2⟩
    else ⟨s.n / 2, 2 * s.c, 2 * s.odd + s.n % 2, s.base⟩ := by
  unfold down
  have h1 : s.n >>> 1 = s.n / 2 := by rw [Nat.shiftRight_eq_div_pow]
  have h2 : (s.odd <<< 1) ||| (s.n &&& 1) = 2 * s.odd + s.n % 2 := by
    rw [Nat.and_one_is_mod, or_even _ _ (by omega)]
  have h3 : (s.c <<< 1) ||| 1 = 2 * s.c + 1 := or_even _ _ (by omega)
  have h4 : s.c <<< 1 = 2 * s.c := by rw [Nat.shiftLeft_eq]; omega
  have h5 : (2 * s.odd + s.n % 2) % 2 = s.n % 2 := by omega
  simp only [h1, h2, h3]
  simp only [h4]
  simp only [Nat.and_one_is_mod, h5]

theorem up_eq (s : TreeSt) : up s =
    if s.c % 2 = 1 then ⟨2 * (s.n - s.odd % 2) + s.odd % 2, s.c / 2, s.odd / 2, s.base - (s.n - s.odd % 2)⟩
    else ⟨2 * s.n + s.odd % 2, s.c / 2, s.odd / 2, s.base⟩ := by
  unfold up
  simp only [Nat.and_one_is_mod, Nat.shiftRight_eq_div_pow, Nat.shiftLeft_eq, Nat.pow_one]
  by_cases c : s.c % 2 = 1
  · simp only [c, if_true, ne_eq, one_ne_zero, not_false_eq_true, Nat.mul_comm]
  · have : s.c % 2 = 0 := by omega
    simp [this, Nat.mul_comm]

theorem up_down (id : Nat) (s : TreeSt) : up (down id s) = s := by
  obtain ⟨n, c, odd, base⟩ := s
  rw [down_eq]
  simp only
  split
  · rw [up_eq]
    simp only
    rw [if_pos (by omega)]
    simp only [TreeSt.mk.injEq]
    omega
  · rw [up_eq]
    simp only
    rw [if_neg (by omega)]
    simp only [TreeSt.mk.injEq]
    refine ⟨?_, ?_, ?_, trivial⟩ <;> omega

/-- the tree node of depth `k` (or the leaf) containing `id` -/
def nodeAt (np id : Nat) : Nat → TreeSt
  | 0 => treeStart np
  | k + 1 => if (nodeAt np id k).n > 1 then down id (nodeAt np id k) else nodeAt np id k

theorem nodeAt_succ_big {np id k : Nat} (h : 1 < (nodeAt np id k).n) : nodeAt np id (k + 1) = down id (nodeAt np id k) := by
  rw [nodeAt, if_pos h]
theorem nodeAt_succ_leaf {np id k : Nat} (h : (nodeAt np id k).n ≤ 1) : nodeAt np id (k + 1) = nodeAt np id k := by
  rw [nodeAt, if_neg (by omega)]

theorem node_range {np id : Nat} (h : id < np) (k : Nat) : (nodeAt np id k).base ≤ id ∧ id < (nodeAt np id k).base + (nodeAt np id k).n ∧
    (nodeAt np id k).base + (nodeAt np id k).n ≤ np := by
  induction k with
  | zero => simp [nodeAt, treeStart, h]
  | succ k ih =>
    rw [nodeAt]
    split
    · rw [down_eq]
      split <;> simp only <;> omega
    · exact ih

theorem node_pos {np id : Nat} (h : id < np) (k : Nat) : 1 ≤ (nodeAt np id k).n := by
  have := node_range h k; omega

theorem node_dec {np id k : Nat} (h : 1 < (nodeAt np id k).n) : (nodeAt np id (k + 1)).n < (nodeAt np id k).n := by
  rw [nodeAt_succ_big h, down_eq]
  split <;> simp only <;> omega

theorem node_anti {np id k : Nat} : (nodeAt np id (k + 1)).n ≤ (nodeAt np id k).n := by
  by_cases h : 1 < (nodeAt np id k).n
  · exact (node_dec h).le
  · rw [nodeAt_succ_leaf (by omega)]

theorem node_le {np id : Nat} (h : id < np) (k : Nat) : (nodeAt np id k).n ≤ max 1 (np - k) := by
  induction k with
  | zero => simp [nodeAt, treeStart]
  | succ k ih =>
    by_cases c : 1 < (nodeAt np id k).n
    · have := node_dec c; omega
    · rw [nodeAt_succ_leaf (by omega)]; omega

theorem node_lt {np id : Nat} {k : Nat} (hk : 1 ≤ k) (hnp : 1 < np) : (nodeAt np id k).n < np := by
  induction k with
  | zero => omega
  | succ k ih =>
    by_cases c : 1 < (nodeAt np id k).n
    · have := node_dec c
      rcases k with _ | k
      · simpa [nodeAt, treeStart] using this
      · have := ih (by omega); omega
    · rw [nodeAt_succ_leaf (by omega)]; omega

/-- nodes containing the same rank are equal -/
theorem node_same {np id q : Nat} (k : Nat) (h1 : (nodeAt np id k).base ≤ q) (h2 : q < (nodeAt np id k).base + (nodeAt np id k).n) :
    nodeAt np q k = nodeAt np id k := by
  induction k with
  | zero => rfl
  | succ k ih =>
    by_cases c : 1 < (nodeAt np id k).n
    · rw [nodeAt_succ_big c, down_eq] at h1 h2
      have hk : nodeAt np q k = nodeAt np id k := by
        apply ih
        · split at h1 <;> simp only at h1 <;> omega
        · split at h2 <;> simp only at h2 <;> omega
      rw [nodeAt_succ_big c, nodeAt_succ_big (by rw [hk]; exact c), hk, down_eq, down_eq]
      split at h1
      · rename_i c1
        simp only at h1
        rw [if_pos h1, if_pos c1]
      · rename_i c1
        rw [if_neg c1] at h2
        simp only at h2
        rw [if_neg (by omega), if_neg c1]
    · have c' : (nodeAt np id k).n ≤ 1 := by omega
      rw [nodeAt_succ_leaf c'] at h1 h2 ⊢
      have hk := ih h1 h2
      rw [nodeAt_succ_leaf (by rw [hk]; exact c'), hk]

/-- `id` is the lowest rank of its node of depth `k` -/
def Active (np id k : Nat) : Prop := (nodeAt np id k).base = id

instance (np id k : Nat) : Decidable (Active np id k) := by unfold Active; infer_instance

theorem base_mono {np id : Nat} (k : Nat) : (nodeAt np id k).base ≤ (nodeAt np id (k + 1)).base := by
  rw [nodeAt]
  split
  · rw [down_eq]; split <;> simp only <;> omega
  · exact le_refl _

theorem active_succ {np id k : Nat} (h : id < np) (ha : Active np id k) : Active np id (k + 1) := by
  have h1 := base_mono (np := np) (id := id) k
  have h2 := node_range h (k + 1)
  unfold Active at *
  omega

theorem active_mono {np id k k' : Nat} (h : id < np) (ha : Active np id k) (hk : k ≤ k') : Active np id k' := by
  obtain ⟨j, rfl⟩ := Nat.exists_eq_add_of_le hk
  clear hk
  induction j with
  | zero => exact ha
  | succ j ih => exact active_succ h ih

theorem active_leaf {np id k : Nat} (h : id < np) (hn : (nodeAt np id k).n ≤ 1) : Active np id k := by
  have := node_range h k
  unfold Active; omega

theorem active_np {np id : Nat} (h : id < np) : Active np id (np - 1) := active_leaf h (by have := node_le h (np - 1); omega)

theorem exists_active {np id : Nat} (h : id < np) : ∃ k, Active np id k := ⟨np - 1, active_np h⟩

open Classical in
/-- first depth at which `id` is the lowest rank of its node -/
noncomputable def d0 (np id : Nat) : Nat := if h : ∃ k, Active np id k then Nat.find h else 0

theorem d0_active {np id : Nat} (h : id < np) : Active np id (d0 np id) := by
  have he := exists_active h
  unfold d0; rw [dif_pos he]; exact Nat.find_spec he

theorem active_iff {np id k : Nat} (h : id < np) : Active np id k ↔ d0 np id ≤ k := by
  have he := exists_active h
  constructor
  · intro ha
    unfold d0; rw [dif_pos he]; exact Nat.find_min' he ha
  · intro hk; exact active_mono h (d0_active h) hk

theorem d0_lt {np id : Nat} (h : id < np) : d0 np id < np := by
  have := (active_iff h).1 (active_np h); omega

/-- `id` takes part in the exchange at its node of depth `k` -/
def Part (np id k : Nat) : Prop := 1 < (nodeAt np id k).n ∧ Active np id (k + 1)

instance (np id k : Nat) : Decidable (Part np id k) := by unfold Part; infer_instance

theorem Part.lt {np id k : Nat} (h : id < np) (hp : Part np id k) : k + 1 < np := by
  have := node_le h k
  have := hp.1
  omega

/-- the partner of the lowest rank of a node -/
theorem part_parent {np id k : Nat} (h : id < np) (hp : Part np id k) (ha : Active np id k) :
    let q := id + (nodeAt np id k).n / 2
    q < np ∧ q ≠ id ∧ nodeAt np q k = nodeAt np id k ∧ ¬ Active np q k ∧ Part np q k ∧ (nodeAt np q k).base = id ∧
      (nodeAt np id (k + 1)).n = (nodeAt np id k).n / 2 ∧
      (nodeAt np q (k + 1)).n = (nodeAt np id k).n - (nodeAt np id k).n / 2 := by
  intro q
  have hr := node_range h k
  have hb : (nodeAt np id k).base = id := ha
  have h1 := hp.1
  have hq : nodeAt np q k = nodeAt np id k := node_same k (by omega) (by omega)
  have hqn : q < np := by omega
  have hdq : nodeAt np q (k + 1) = ⟨(nodeAt np id k).n / 2 + (nodeAt np id k).n % 2, 2 * (nodeAt np id k).c + 1,
      2 * (nodeAt np id k).odd + (nodeAt np id k).n % 2, (nodeAt np id k).base + (nodeAt np id k).n / 2⟩ := by
    rw [nodeAt_succ_big (by rw [hq]; exact h1), hq, down_eq, if_pos (by omega)]
  have hdi : nodeAt np id (k + 1) = ⟨(nodeAt np id k).n / 2, 2 * (nodeAt np id k).c,
      2 * (nodeAt np id k).odd + (nodeAt np id k).n % 2, (nodeAt np id k).base⟩ := by
    rw [nodeAt_succ_big h1, down_eq, if_neg (by omega)]
  refine ⟨hqn, by omega, hq, ?_, ⟨by rw [hq]; exact h1, ?_⟩, by rw [hq]; exact hb, ?_, ?_⟩
  · unfold Active; rw [hq]; omega
  · unfold Active; rw [hdq]; simp only; omega
  · rw [hdi]
  · rw [hdq]; simp only; omega

/-- the partner of a rank that leaves the ascending loop -/
theorem part_child {np id k : Nat} (h : id < np) (hp : Part np id k) (ha : ¬ Active np id k) :
    let b := (nodeAt np id k).base
    b < np ∧ b ≠ id ∧ nodeAt np b k = nodeAt np id k ∧ Active np b k ∧ Part np b k ∧ id = b + (nodeAt np b k).n / 2 := by
  intro b
  have hr := node_range h k
  have h1 := hp.1
  have hb : nodeAt np b k = nodeAt np id k := node_same k (le_refl _) (by omega)
  have hbn : b < np := by omega
  have hab : Active np b k := by unfold Active; rw [hb]
  have hid : (nodeAt np id (k + 1)).base = id := hp.2
  have hne : b ≠ id := fun e => ha e
  refine ⟨hbn, hne, hb, hab, ⟨by rw [hb]; exact h1, active_succ hbn hab⟩, ?_⟩
  rw [nodeAt_succ_big h1, down_eq] at hid
  rw [hb]
  split at hid
  · simp only at hid; omega
  · simp only at hid; exact absurd hid hne

theorem d0_of_part {np id k : Nat} (h : id < np) (hp : Part np id k) (ha : ¬ Active np id k) : d0 np id = k + 1 := by
  have h1 := (active_iff h).1 hp.2
  have h2 : ¬ d0 np id ≤ k := fun c => ha ((active_iff h).2 c)
  omega

/-- depth of the leaf -/
theorem exists_leaf {np id : Nat} (h : id < np) : ∃ L, L < np ∧ (∀ k, k < L ↔ 1 < (nodeAt np id k).n) := by
  have he : ∃ k, ¬ 1 < (nodeAt np id k).n := ⟨np - 1, by have := node_le h (np - 1); omega⟩
  refine ⟨Nat.find he, ?_, fun k => ?_⟩
  · have : Nat.find he ≤ np - 1 := Nat.find_min' he (by have := node_le h (np - 1); omega)
    omega
  · constructor
    · intro hk
      have := Nat.find_min he hk
      omega
    · intro hk
      by_contra c
      have hL := Nat.find_spec he
      have : ∀ j, (nodeAt np id (Nat.find he + j)).n ≤ 1 := by
        intro j
        induction j with
        | zero => simpa using hL
        | succ j ih => exact le_trans node_anti ih
      have := this (k - Nat.find he)
      rw [Nat.add_sub_cancel' (by omega)] at this
      omega

variable {S W : Type}

/-- the step of the ascending loop at depth `k` -/
def ascStep (o : TreeOps S W) (np id k : Nat) : Step S W :=
  if Active np id k then o.ascParent (np - 1 - k) id (id + (nodeAt np id k).n / 2)
  else o.ascChild (np - 1 - k) id (nodeAt np id k).base

/-- the step of the descending loop at depth `k` -/
def descStep (o : TreeOps S W) (np id k : Nat) : Step S W :=
  if Active np id k then o.descParent (np + k) id (id + (nodeAt np id k).n / 2)
  else o.descChild (np + k) id (nodeAt np id k).base

theorem leaf_eq {np id L : Nat} (hL : ∀ k, k < L ↔ 1 < (nodeAt np id k).n) : ∀ fuel d, d ≤ L → L - d ≤ fuel →
    leaf id fuel d (nodeAt np id d) = (L, nodeAt np id L)
  | 0, d, h1, h2 => by
    have : d = L := by omega
    subst this; rfl
  | fuel + 1, d, h1, h2 => by
    rw [leaf]
    by_cases c : d < L
    · rw [if_pos ((hL d).1 c), ← nodeAt_succ_big ((hL d).1 c)]
      exact leaf_eq hL fuel (d + 1) (by omega) (by omega)
    · have : d = L := by omega
      subst this
      rw [if_neg (fun x => c ((hL d).2 x))]

theorem descend_eq (o : TreeOps S W) {np id L : Nat} (hL : ∀ k, k < L ↔ 1 < (nodeAt np id k).n) : ∀ fuel d, d ≤ L → L - d ≤ fuel →
    descend o np id fuel d (nodeAt np id d) = (List.range' d (L - d)).map (descStep o np id)
  | 0, d, h1, h2 => by
    have : L - d = 0 := by omega
    rw [this]; rfl
  | fuel + 1, d, h1, h2 => by
    rw [descend]
    by_cases c : d < L
    · obtain ⟨j, hj⟩ : ∃ j, L - d = j + 1 := ⟨L - d - 1, by omega⟩
      rw [if_pos ((hL d).1 c), ← nodeAt_succ_big ((hL d).1 c), descend_eq o hL fuel (d + 1) (by omega) (by omega), hj, List.range'_succ,
        List.map_cons, show L - (d + 1) = j by omega]
      rfl
    · have : L - d = 0 := by omega
      rw [this, if_neg (fun x => c ((hL d).2 x))]
      rfl

/-- last depth of the ascending loop -/
noncomputable def e0 (np id : Nat) : Nat := d0 np id - 1

theorem ascend_eq (o : TreeOps S W) {np id L : Nat} (h : id < np) (hL : ∀ k, k < L ↔ 1 < (nodeAt np id k).n) : ∀ fuel d, d ≤ L →
    Active np id d → e0 np id ≤ d → d ≤ fuel →
    ascend o np id fuel d (nodeAt np id d) =
      (((List.range' (e0 np id) (d - e0 np id)).reverse).map (ascStep o np id), (e0 np id, nodeAt np id (e0 np id)))
  | 0, d, h1, ha, he, h2 => by
    have : d = 0 := by omega
    subst this
    have : e0 np id = 0 := by omega
    rw [this]; rfl
  | fuel + 1, d, h1, ha, he, h2 => by
    rw [ascend]
    rcases d with _ | d
    · have : e0 np id = 0 := by omega
      rw [this, if_neg (by simp [nodeAt, treeStart])]; rfl
    · have hbig := (hL d).1 (by omega)
      have hbig0 : 1 < np := by
        have := (hL 0).1 (by omega)
        simpa [nodeAt, treeStart] using this
      rw [if_pos (node_lt (by omega) hbig0)]
      have hup : up (nodeAt np id (d + 1)) = nodeAt np id d := by rw [nodeAt_succ_big hbig, up_down]
      have hmax : np - (d + 1) = np - 1 - d := by omega
      simp only [hup, hmax]
      by_cases c : Active np id d
      · have hd0 : d0 np id ≤ d := (active_iff h).1 c
        have he' : e0 np id ≤ d := by unfold e0; omega
        have c' : (nodeAt np id d).base = id := c
        rw [if_pos c', Nat.add_sub_cancel, ascend_eq o h hL fuel d (by omega) c he' (by omega)]
        have : List.range' (e0 np id) (d + 1 - e0 np id) = List.range' (e0 np id) (d - e0 np id) ++ [d] := by
          rw [show d + 1 - e0 np id = (d - e0 np id) + 1 by omega, List.range'_concat]
          congr 2; omega
        rw [this, List.reverse_append]
        simp only [List.reverse_cons, List.reverse_nil, List.nil_append, List.map_append, List.map_cons, List.map_nil,
          List.singleton_append, Prod.mk.injEq, List.cons.injEq, and_true, true_and]
        rw [ascStep, if_pos c]
      · have hd0 : e0 np id = d := by
          have h3 : ¬ d0 np id ≤ d := fun x => c ((active_iff h).2 x)
          have h4 := (active_iff h).1 ha
          unfold e0; omega
        have c' : ¬ (nodeAt np id d).base = id := c
        rw [if_neg c', hd0, show d + 1 - d = 1 by omega, Nat.add_sub_cancel]
        simp [List.range', ascStep, if_neg c]

theorem treeProg_eq (o : TreeOps S W) {np id : Nat} (h : id < np) : ∃ L, L < np ∧ (∀ k, k < L ↔ 1 < (nodeAt np id k).n) ∧ e0 np id ≤ L ∧
    treeProg o np id = ((List.range' (e0 np id) (L - e0 np id)).reverse).map (ascStep o np id) ++
      (List.range' (e0 np id) (L - e0 np id)).map (descStep o np id) := by
  obtain ⟨L, hLn, hL⟩ := exists_leaf h
  have hact : Active np id L := active_leaf h (by have := (hL L).not.1 (lt_irrefl L); omega)
  have he : e0 np id ≤ L := by have := (active_iff h).1 hact; unfold e0; omega
  refine ⟨L, hLn, hL, he, ?_⟩
  unfold treeProg
  have h1 : leaf id np 0 (treeStart np) = (L, nodeAt np id L) := leaf_eq hL np 0 (by omega) (by omega)
  simp only [h1]
  rw [ascend_eq o h hL np L (le_refl _) hact he (by omega)]
  simp only
  rw [descend_eq o hL np _ he (by omega)]

/-- the label argument is the label; messages at a node match -/
structure TreeOps.Good (o : TreeOps S W) : Prop where
  label : ∀ l id p, (o.ascParent l id p).label = l ∧ (o.ascChild l id p).label = l ∧ (o.descParent l id p).label = l ∧ (o.descChild l id p).label = l
  nodup : ∀ l id p, ((o.ascParent l id p).recvs.Nodup ∧ (o.ascParent l id p).sends.Nodup) ∧ ((o.ascChild l id p).recvs.Nodup ∧ (o.ascChild l id p).sends.Nodup) ∧
    ((o.descParent l id p).recvs.Nodup ∧ (o.descParent l id p).sends.Nodup) ∧ ((o.descChild l id p).recvs.Nodup ∧ (o.descChild l id p).sends.Nodup)
  ascMatch : ∀ l a b x, x ∈ (o.ascParent l a b).sends → x.1 = b ∧ (a, x.2) ∈ (o.ascChild l b a).recvs
  ascMatch' : ∀ l a b x, x ∈ (o.ascParent l a b).recvs → x.1 = b ∧ (a, x.2) ∈ (o.ascChild l b a).sends
  ascMatchC : ∀ l a b x, x ∈ (o.ascChild l b a).sends → x.1 = a ∧ (b, x.2) ∈ (o.ascParent l a b).recvs
  ascMatchC' : ∀ l a b x, x ∈ (o.ascChild l b a).recvs → x.1 = a ∧ (b, x.2) ∈ (o.ascParent l a b).sends
  descMatch : ∀ l a b x, x ∈ (o.descParent l a b).sends → x.1 = b ∧ (a, x.2) ∈ (o.descChild l b a).recvs
  descMatch' : ∀ l a b x, x ∈ (o.descParent l a b).recvs → x.1 = b ∧ (a, x.2) ∈ (o.descChild l b a).sends
  descMatchC : ∀ l a b x, x ∈ (o.descChild l b a).sends → x.1 = a ∧ (b, x.2) ∈ (o.descParent l a b).recvs
  descMatchC' : ∀ l a b x, x ∈ (o.descChild l b a).recvs → x.1 = a ∧ (b, x.2) ∈ (o.descParent l a b).sends

theorem ascStep_label {o : TreeOps S W} (ho : o.Good) (np id k : Nat) : (ascStep o np id k).label = np - 1 - k := by
  unfold ascStep; split
  · exact (ho.label _ _ _).1
  · exact (ho.label _ _ _).2.1
theorem descStep_label {o : TreeOps S W} (ho : o.Good) (np id k : Nat) : (descStep o np id k).label = np + k := by
  unfold descStep; split
  · exact (ho.label _ _ _).2.2.1
  · exact (ho.label _ _ _).2.2.2

theorem mem_treeProg (o : TreeOps S W) {np id : Nat} (h : id < np) (s : Step S W) :
    s ∈ treeProg o np id ↔ ∃ k, Part np id k ∧ (s = ascStep o np id k ∨ s = descStep o np id k) := by
  obtain ⟨L, hLn, hL, he, e⟩ := treeProg_eq o h
  have hm : ∀ k, k ∈ List.range' (e0 np id) (L - e0 np id) ↔ Part np id k := by
    intro k
    rw [List.mem_range'_1, Part, ← hL, active_iff h]
    unfold e0 at *; omega
  rw [e]
  simp only [List.mem_append, List.mem_map, List.mem_reverse, hm]
  constructor
  · rintro (⟨k, hk, rfl⟩ | ⟨k, hk, rfl⟩)
    · exact ⟨k, hk, .inl rfl⟩
    · exact ⟨k, hk, .inr rfl⟩
  · rintro ⟨k, hk, rfl | rfl⟩
    · exact .inl ⟨k, hk, rfl⟩
    · exact .inr ⟨k, hk, rfl⟩

theorem treeProg_labels {o : TreeOps S W} (ho : o.Good) {np id : Nat} (h : id < np) :
    (treeProg o np id).Pairwise (fun a b => a.label < b.label) := by
  obtain ⟨L, hLn, hL, he, e⟩ := treeProg_eq o h
  rw [e, List.pairwise_append]
  refine ⟨?_, ?_, ?_⟩
  · rw [List.pairwise_map, List.pairwise_reverse]
    apply List.Pairwise.imp_of_mem _ (List.pairwise_lt_range' (s := e0 np id) (n := L - e0 np id))
    intro a b ha hb hab
    rw [List.mem_range'_1] at ha hb
    rw [ascStep_label ho, ascStep_label ho]; omega
  · rw [List.pairwise_map]
    apply List.Pairwise.imp _ (List.pairwise_lt_range' (s := e0 np id) (n := L - e0 np id))
    intro a b hab
    rw [descStep_label ho, descStep_label ho]; omega
  · intro a ha b hb
    simp only [List.mem_map, List.mem_reverse, List.mem_range'_1] at ha hb
    obtain ⟨x, hx, rfl⟩ := ha
    obtain ⟨y, hy, rfl⟩ := hb
    rw [ascStep_label ho, descStep_label ho]; omega

theorem stepAt_asc {o : TreeOps S W} (ho : o.Good) {np id k : Nat} (h : id < np) (hk : k < np) :
    stepAt (treeProg o np id) (np - 1 - k) = if Part np id k then some (ascStep o np id k) else none := by
  split
  · rename_i c
    have := stepAt_of_mem _ (treeProg_labels ho h) (ascStep o np id k) ((mem_treeProg o h _).2 ⟨k, c, .inl rfl⟩)
    rwa [ascStep_label ho] at this
  · rename_i c
    cases e : stepAt (treeProg o np id) (np - 1 - k) with
    | none => rfl
    | some s =>
      exfalso
      obtain ⟨h1, h2⟩ := mem_of_stepAt e
      obtain ⟨j, hj, rfl | rfl⟩ := (mem_treeProg o h _).1 h1
      · rw [ascStep_label ho] at h2
        have := hj.lt h
        have : j = k := by omega
        subst this; exact c hj
      · rw [descStep_label ho] at h2
        omega

theorem stepAt_desc {o : TreeOps S W} (ho : o.Good) {np id k : Nat} (h : id < np) :
    stepAt (treeProg o np id) (np + k) = if Part np id k then some (descStep o np id k) else none := by
  split
  · rename_i c
    have := stepAt_of_mem _ (treeProg_labels ho h) (descStep o np id k) ((mem_treeProg o h _).2 ⟨k, c, .inr rfl⟩)
    rwa [descStep_label ho] at this
  · rename_i c
    cases e : stepAt (treeProg o np id) (np + k) with
    | none => rfl
    | some s =>
      exfalso
      obtain ⟨h1, h2⟩ := mem_of_stepAt e
      obtain ⟨j, hj, rfl | rfl⟩ := (mem_treeProg o h _).1 h1
      · rw [ascStep_label ho] at h2
        omega
      · rw [descStep_label ho] at h2
        have : j = k := by omega
        subst this; exact c hj

theorem tree_matched {o : TreeOps S W} (ho : o.Good) (np : Nat) : (treeColl o np).Ok np where
  labels p hp := treeProg_labels ho hp
  bound p hp s hs := by
    obtain ⟨k, hk, rfl | rfl⟩ := (mem_treeProg o hp _).1 hs
    · rw [ascStep_label ho]; show _ < 2 * np; omega
    · rw [descStep_label ho]; have := hk.lt hp; show _ < 2 * np; omega
  recvNodup p hp s hs := by
    obtain ⟨k, hk, rfl | rfl⟩ := (mem_treeProg o hp _).1 hs
    · unfold ascStep; split
      · exact (ho.nodup _ _ _).1.1
      · exact (ho.nodup _ _ _).2.1.1
    · unfold descStep; split
      · exact (ho.nodup _ _ _).2.2.1.1
      · exact (ho.nodup _ _ _).2.2.2.1
  sendNodup p hp s hs := by
    obtain ⟨k, hk, rfl | rfl⟩ := (mem_treeProg o hp _).1 hs
    · unfold ascStep; split
      · exact (ho.nodup _ _ _).1.2
      · exact (ho.nodup _ _ _).2.1.2
    · unfold descStep; split
      · exact (ho.nodup _ _ _).2.2.1.2
      · exact (ho.nodup _ _ _).2.2.2.2
  send p hp s hs x hx := by
    obtain ⟨k, hk, rfl | rfl⟩ := (mem_treeProg o hp _).1 hs
    · by_cases c : Active np p k
      · obtain ⟨q1, q2, q3, q4, q5, q6, _⟩ := part_parent hp hk c
        have hx' := hx
        rw [ascStep, if_pos c] at hx'
        obtain ⟨a1, a2⟩ := ho.ascMatch _ _ _ _ hx'
        refine ⟨by rw [a1]; exact q1, ascStep o np x.1 k, ?_, by rw [ascStep_label ho, ascStep_label ho], ?_⟩
        · rw [a1]; exact (mem_treeProg o q1 _).2 ⟨k, q5, .inl rfl⟩
        · rw [a1, ascStep, if_neg q4, q6]; exact a2
      · obtain ⟨q1, q2, q3, q4, q5, q6⟩ := part_child hp hk c
        have hx' := hx
        rw [ascStep, if_neg c] at hx'
        obtain ⟨a1, a2⟩ := ho.ascMatchC _ _ _ _ hx'
        refine ⟨by rw [a1]; exact q1, ascStep o np x.1 k, ?_, by rw [ascStep_label ho, ascStep_label ho], ?_⟩
        · rw [a1]; exact (mem_treeProg o q1 _).2 ⟨k, q5, .inl rfl⟩
        · rw [a1, ascStep, if_pos q4, ← q6]; exact a2
    · by_cases c : Active np p k
      · obtain ⟨q1, q2, q3, q4, q5, q6, _⟩ := part_parent hp hk c
        have hx' := hx
        rw [descStep, if_pos c] at hx'
        obtain ⟨a1, a2⟩ := ho.descMatch _ _ _ _ hx'
        refine ⟨by rw [a1]; exact q1, descStep o np x.1 k, ?_, by rw [descStep_label ho, descStep_label ho], ?_⟩
        · rw [a1]; exact (mem_treeProg o q1 _).2 ⟨k, q5, .inr rfl⟩
        · rw [a1, descStep, if_neg q4, q6]; exact a2
      · obtain ⟨q1, q2, q3, q4, q5, q6⟩ := part_child hp hk c
        have hx' := hx
        rw [descStep, if_neg c] at hx'
        obtain ⟨a1, a2⟩ := ho.descMatchC _ _ _ _ hx'
        refine ⟨by rw [a1]; exact q1, descStep o np x.1 k, ?_, by rw [descStep_label ho, descStep_label ho], ?_⟩
        · rw [a1]; exact (mem_treeProg o q1 _).2 ⟨k, q5, .inr rfl⟩
        · rw [a1, descStep, if_pos q4, ← q6]; exact a2
  recv p hp s hs x hx := by
    obtain ⟨k, hk, rfl | rfl⟩ := (mem_treeProg o hp _).1 hs
    · by_cases c : Active np p k
      · obtain ⟨q1, q2, q3, q4, q5, q6, _⟩ := part_parent hp hk c
        have hx' := hx
        rw [ascStep, if_pos c] at hx'
        obtain ⟨a1, a2⟩ := ho.ascMatch' _ _ _ _ hx'
        refine ⟨by rw [a1]; exact q1, ascStep o np x.1 k, ?_, by rw [ascStep_label ho, ascStep_label ho], ?_⟩
        · rw [a1]; exact (mem_treeProg o q1 _).2 ⟨k, q5, .inl rfl⟩
        · rw [a1, ascStep, if_neg q4, q6]; exact a2
      · obtain ⟨q1, q2, q3, q4, q5, q6⟩ := part_child hp hk c
        have hx' := hx
        rw [ascStep, if_neg c] at hx'
        obtain ⟨a1, a2⟩ := ho.ascMatchC' _ _ _ _ hx'
        refine ⟨by rw [a1]; exact q1, ascStep o np x.1 k, ?_, by rw [ascStep_label ho, ascStep_label ho], ?_⟩
        · rw [a1]; exact (mem_treeProg o q1 _).2 ⟨k, q5, .inl rfl⟩
        · rw [a1, ascStep, if_pos q4, ← q6]; exact a2
    · by_cases c : Active np p k
      · obtain ⟨q1, q2, q3, q4, q5, q6, _⟩ := part_parent hp hk c
        have hx' := hx
        rw [descStep, if_pos c] at hx'
        obtain ⟨a1, a2⟩ := ho.descMatch' _ _ _ _ hx'
        refine ⟨by rw [a1]; exact q1, descStep o np x.1 k, ?_, by rw [descStep_label ho, descStep_label ho], ?_⟩
        · rw [a1]; exact (mem_treeProg o q1 _).2 ⟨k, q5, .inr rfl⟩
        · rw [a1, descStep, if_neg q4, q6]; exact a2
      · obtain ⟨q1, q2, q3, q4, q5, q6⟩ := part_child hp hk c
        have hx' := hx
        rw [descStep, if_neg c] at hx'
        obtain ⟨a1, a2⟩ := ho.descMatchC' _ _ _ _ hx'
        refine ⟨by rw [a1]; exact q1, descStep o np x.1 k, ?_, by rw [descStep_label ho, descStep_label ho], ?_⟩
        · rw [a1]; exact (mem_treeProg o q1 _).2 ⟨k, q5, .inr rfl⟩
        · rw [a1, descStep, if_pos q4, ← q6]; exact a2

end Gslib.Comm
