import Verif.Lemmas.GsWork
import Verif.Lemmas.TypedTransfer
import Mathlib.Algebra.BigOperators.Group.Finset.Sigma
import Mathlib.Data.Finset.Card

/-! # The work arrays of shared_ids for given ids -/

namespace Gslib.Gs
open Gslib Gslib.Spec

/-- `q` and `p` exchange values for `a` -/
def Shared2 (ids : Nat → List Int) (q p a : Nat) : Prop :=
  p ≠ q ∧ has (ids q) a ∧ has (ids p) a ∧ (hasU (ids q) a ∨ hasU (ids p) a)

instance (ids : Nat → List Int) (q p a : Nat) : Decidable (Shared2 ids q p a) := by unfold Shared2; infer_instance

/-- `a` is exchanged between two processes -/
def IsShared (np : Nat) (ids : Nat → List Int) (a : Nat) : Prop := ∃ q p, q < np ∧ p < np ∧ Shared2 ids q p a

/-- number of triples (process, process, id both have) -/
def sharedPairs (np : Nat) (ids : Nat → List Int) : Nat :=
  ∑ q ∈ Finset.range np, ∑ p ∈ Finset.range np, ((uids (ids q)).filter fun a => has (ids p) a).length

/-- the rows of unique_ids -/
def uRows (np : Nat) (ids : Nat → List Int) (q : Nat) : List UniqueId := (uids (ids q)).map fun a => ⟨a, a % np, srcIf (ids q) a⟩

/-- the rows received by the work process `w` -/
def aRows (np : Nat) (ids : Nat → List Int) (w : Nat) : List UniqueId :=
  arrived np UniqueId.workProc (fun w r => { r with workProc := w }) true (uRows np ids) w

variable {np : Nat} {ids : Nat → List Int}

theorem mem_aRows {w : Nat} {r : UniqueId} :
    r ∈ aRows np ids w ↔ ∃ q a, q < np ∧ has (ids q) a ∧ a % np = w ∧ r = ⟨a, q, srcIf (ids q) a⟩ := by
  unfold aRows arrived uRows
  simp only [List.mem_flatMap, List.mem_map, List.mem_filter, List.mem_range, if_true, decide_eq_true_eq]
  constructor
  · rintro ⟨q, hq, x, ⟨⟨a, ha, rfl⟩, hw⟩, rfl⟩
    exact ⟨q, a, hq, mem_uids.1 ha, hw, rfl⟩
  · rintro ⟨q, a, hq, ha, hw, rfl⟩
    exact ⟨q, hq, _, ⟨⟨a, mem_uids.2 ha, rfl⟩, hw⟩, rfl⟩

theorem aRows_distinct (w : Nat) : WDistinct (aRows np ids w) := by
  unfold aRows arrived WDistinct
  rw [List.pairwise_flatMap]
  constructor
  · intro q _
    rw [List.pairwise_map]
    apply List.Pairwise.filter
    unfold uRows
    rw [List.pairwise_map]
    refine (uids_nodup (ids q)).imp ?_
    intro a b hab h
    exact absurd h hab
  · refine (List.nodup_range (n := np)).imp ?_
    intro q p hqp x hx y hy _
    obtain ⟨x', _, rfl⟩ := List.mem_map.1 hx
    obtain ⟨y', _, rfl⟩ := List.mem_map.1 hy
    simpa using hqp

theorem WDistinct.perm {l l' : List UniqueId} (h : WDistinct l) (hp : l'.Perm l) : WDistinct l' := by
  refine (List.Perm.pairwise_iff ?_ hp).2 h
  intro x y hxy e
  exact (hxy e.symm).symm

/-- what is known of the sorted rows of the work process -/
structure UnOk (np : Nat) (ids : Nat → List Int) (w : Nat) (l : List UniqueId) : Prop where
  perm : l.Perm (aRows np ids w)
  sorted : WSorted l

theorem UnOk.distinct {w : Nat} {l : List UniqueId} (h : UnOk np ids w l) : WDistinct l := (aRows_distinct w).perm h.perm

theorem UnOk.mem {w : Nat} {l : List UniqueId} (h : UnOk np ids w l) {r : UniqueId} :
    r ∈ l ↔ ∃ q a, q < np ∧ has (ids q) a ∧ a % np = w ∧ r = ⟨a, q, srcIf (ids q) a⟩ := by rw [h.perm.mem_iff, mem_aRows]

theorem UnOk.last {w : Nat} {l : List UniqueId} (h : UnOk np ids w l) (hi : ∀ q, q < np → IdsOk (ids q)) : LastOk ulongMax l := by
  right
  intro x hx
  obtain ⟨q, a, hq, ha, _, rfl⟩ := h.mem.1 hx
  have := has_lt (hi q hq) ha
  simp only [ulongMax]; omega

theorem UnOk.pair {w : Nat} {l : List UniqueId} (h : UnOk np ids w l) (hi : ∀ q, q < np → IdsOk (ids q)) {x y : UniqueId} (hp : Pair l x y) :
    ∃ a q p, q < np ∧ p < np ∧ p ≠ q ∧ a % np = w ∧ hasU (ids q) a ∧ has (ids p) a ∧ x = ⟨a, q, srcIf (ids q) a⟩ ∧ y = ⟨a, p, srcIf (ids p) a⟩ := by
  obtain ⟨hx, hy⟩ := hp.mem
  obtain ⟨q, a, hq, ha, hw, rfl⟩ := h.mem.1 hx
  obtain ⟨p, b, hp', hb, _, rfl⟩ := h.mem.1 hy
  have hab : a = b := hp.2.1
  subst hab
  have hne := hp.ne h.distinct
  have hu := hp.2.2
  refine ⟨a, q, p, hq, hp', fun e => hne e.symm, hw, ?_, hb, rfl, rfl⟩
  by_contra hn
  rw [(isNot_srcIf (hi q hq) ha).2 hn] at hu
  exact absurd hu (by decide)

theorem UnOk.pair_mk {w : Nat} {l : List UniqueId} (h : UnOk np ids w l) (hi : ∀ q, q < np → IdsOk (ids q)) {a q p : Nat} (hq : q < np) (hp : p < np)
    (hs : Shared2 ids q p a) (hw : a % np = w) :
    Pair l ⟨a, q, srcIf (ids q) a⟩ ⟨a, p, srcIf (ids p) a⟩ ∨ Pair l ⟨a, p, srcIf (ids p) a⟩ ⟨a, q, srcIf (ids q) a⟩ := by
  obtain ⟨hne, h1, h2, h3⟩ := hs
  refine pair_of_ne h.sorted ?_ (h.mem.2 ⟨q, a, hq, h1, hw, rfl⟩) (h.mem.2 ⟨p, a, hp, h2, hw, rfl⟩) ?_ rfl ?_
  · intro x hx
    obtain ⟨q, a, hq, ha, _, rfl⟩ := h.mem.1 hx
    exact srcIf_lt (hi q hq) ha
  · intro e
    exact hne (congrArg UniqueId.workProc e).symm
  · have key : ∀ q, q < np → has (ids q) a → hasU (ids q) a → isNot (srcIf (ids q) a) = false := by
      intro q hq ha hu
      by_contra hn
      exact (isNot_srcIf (hi q hq) ha).1 (by simpa using hn) hu
    rcases h3 with h3 | h3
    · exact Or.inl (key q hq h1 h3)
    · exact Or.inr (key p hp h2 h3)

theorem UnOk.mem_shIds {w : Nat} {l : List UniqueId} (h : UnOk np ids w l) (hi : ∀ q, q < np → IdsOk (ids q)) {a : Nat} :
    a ∈ shIds ulongMax l ↔ a % np = w ∧ IsShared np ids a := by
  rw [Gs.mem_shIds l ulongMax h.sorted (h.last hi)]
  constructor
  · rintro ⟨_, x, y, hp, rfl⟩
    obtain ⟨a, q, p, hq, hp', hne, hw, hu, hh, rfl, rfl⟩ := h.pair hi hp
    exact ⟨hw, q, p, hq, hp', hne, hu.has, hh, Or.inl hu⟩
  · rintro ⟨hw, q, p, hq, hp, hs⟩
    have hlt := has_lt (hi q hq) hs.2.1
    refine ⟨by simp only [ulongMax]; omega, ?_⟩
    rcases h.pair_mk hi hq hp hs hw with h | h
    · exact ⟨_, _, h, rfl⟩
    · exact ⟨_, _, h, rfl⟩

theorem UnOk.mem_work {w : Nat} {l : List UniqueId} (h : UnOk np ids w l) (hi : ∀ q, q < np → IdsOk (ids q)) {base : Nat} {x : SharedWork} :
    x ∈ buildWork ulongMax base l ↔ ∃ a q p, q < np ∧ p < np ∧ a % np = w ∧ Shared2 ids q p a ∧
      x = ⟨a, base + (shIds ulongMax l).idxOf a, q, p, srcIf (ids q) a, srcIf (ids p) a⟩ := by
  rw [mem_buildWork l ulongMax base h.sorted (h.last hi)]
  have ho : ∀ q a, q < np → has (ids q) a → ordOf ulongMax base l a = base + (shIds ulongMax l).idxOf a := by
    intro q a hq ha
    have := has_lt (hi q hq) ha
    unfold ordOf
    rw [if_neg (by simp only [ulongMax]; omega)]
  constructor
  · rintro ⟨x1, y1, hp, hx⟩
    obtain ⟨a, q, p, hq, hp', hne, hw, hu, hh, rfl, rfl⟩ := h.pair hi hp
    simp only [mkWork] at hx
    rw [ho q a hq hu.has] at hx
    rcases hx with rfl | rfl
    · exact ⟨a, q, p, hq, hp', hw, ⟨hne, hu.has, hh, Or.inl hu⟩, rfl⟩
    · exact ⟨a, p, q, hp', hq, hw, ⟨hne.symm, hh, hu.has, Or.inr hu⟩, rfl⟩
  · rintro ⟨a, q, p, hq, hp, hw, hs, rfl⟩
    rcases h.pair_mk hi hq hp hs hw with h | h
    · exact ⟨_, _, h, Or.inl (by simp only [mkWork]; rw [ho q a hq hs.2.1])⟩
    · exact ⟨_, _, h, Or.inr (by simp only [mkWork]; rw [ho q a hq hs.2.1])⟩

/-! ### all work processes -/

variable {un : Nat → List UniqueId}

/-- the number of shared ids on lower work processes -/
def ordBase (un : Nat → List UniqueId) (w : Nat) : Nat := ∑ v ∈ Finset.range w, (shIds ulongMax (un v)).length

/-- the rank of a shared id -/
def ordNo (np : Nat) (un : Nat → List UniqueId) (a : Nat) : Nat := ordBase un (a % np) + (shIds ulongMax (un (a % np))).idxOf a

/-- the work rows of process `w` -/
def wRows (un : Nat → List UniqueId) (w : Nat) : List SharedWork := buildWork ulongMax (ordBase un w) (un w)

theorem ordBase_mono {v w : Nat} (h : v ≤ w) : ordBase un v ≤ ordBase un w :=
  Finset.sum_le_sum_of_subset (Finset.range_mono h)

theorem mem_wRows (hi : ∀ q, q < np → IdsOk (ids q)) (hu : ∀ w, w < np → UnOk np ids w (un w)) {w : Nat} (hw : w < np) {x : SharedWork} :
    x ∈ wRows un w ↔ ∃ a q p, q < np ∧ p < np ∧ a % np = w ∧ Shared2 ids q p a ∧ x = ⟨a, ordNo np un a, q, p, srcIf (ids q) a, srcIf (ids p) a⟩ := by
  unfold wRows
  rw [(hu w hw).mem_work hi]
  constructor
  · rintro ⟨a, q, p, hq, hp, rfl, hs, rfl⟩
    exact ⟨a, q, p, hq, hp, rfl, hs, rfl⟩
  · rintro ⟨a, q, p, hq, hp, rfl, hs, rfl⟩
    exact ⟨a, q, p, hq, hp, rfl, hs, rfl⟩

theorem wRows_nodup (hu : ∀ w, w < np → UnOk np ids w (un w)) {w : Nat} (hw : w < np) : (wRows un w).Nodup :=
  buildWork_nodup _ _ _ (hu w hw).sorted (hu w hw).distinct

/-- ranks are distinct and below the total -/
structure OrdOk (np : Nat) (ids : Nat → List Int) (ord : Nat → Nat) (total : Nat) : Prop where
  lt : ∀ a, IsShared np ids a → ord a < total
  inj : ∀ a b, IsShared np ids a → IsShared np ids b → ord a = ord b → a = b

theorem ordNo_ok (hi : ∀ q, q < np → IdsOk (ids q)) (hu : ∀ w, w < np → UnOk np ids w (un w)) : OrdOk np ids (ordNo np un) (ordBase un np) := by
  have hnp : ∀ a, IsShared np ids a → a % np < np := by
    rintro a ⟨q, p, hq, _⟩
    exact Nat.mod_lt _ (by omega)
  have hb : ∀ a, IsShared np ids a → (shIds ulongMax (un (a % np))).idxOf a < (shIds ulongMax (un (a % np))).length := by
    intro a ha
    exact List.idxOf_lt_length_iff.2 (((hu _ (hnp a ha)).mem_shIds hi).2 ⟨rfl, ha⟩)
  have hlt : ∀ a, IsShared np ids a → ∀ w, a % np < w → ordNo np un a < ordBase un w := by
    intro a ha w hw
    have h1 : ordBase un (a % np + 1) ≤ ordBase un w := ordBase_mono hw
    have h2 : ordBase un (a % np + 1) = ordBase un (a % np) + (shIds ulongMax (un (a % np))).length := Finset.sum_range_succ _ _
    have h3 := hb a ha
    unfold ordNo
    omega
  refine ⟨fun a ha => hlt a ha np (hnp a ha), ?_⟩
  intro a b ha hb' e
  rcases Nat.lt_trichotomy (a % np) (b % np) with h | h | h
  · have := hlt a ha _ h
    have : ordBase un (b % np) ≤ ordNo np un b := by unfold ordNo; omega
    omega
  · unfold ordNo at e
    rw [h] at e
    have hma : a ∈ shIds ulongMax (un (b % np)) := ((hu _ (hnp b hb')).mem_shIds hi).2 ⟨h, ha⟩
    have hidx : (shIds ulongMax (un (b % np))).idxOf a = (shIds ulongMax (un (b % np))).idxOf b := by omega
    exact (List.idxOf_inj hma).1 hidx
  · have := hlt b hb' _ h
    have : ordBase un (a % np) ≤ ordNo np un a := by unfold ordNo; omega
    omega

theorem uRows_sum_le : ∑ q ∈ Finset.range np, (uRows np ids q).length ≤ sharedPairs np ids := by
  unfold sharedPairs
  apply Finset.sum_le_sum
  intro q hq
  have h1 : (uRows np ids q).length = ((uids (ids q)).filter fun a => has (ids q) a).length := by
    unfold uRows
    rw [List.length_map, List.filter_eq_self.2]
    intro a ha
    simpa using mem_uids.1 ha
  rw [h1]
  exact Finset.single_le_sum (f := fun p => ((uids (ids q)).filter fun a => has (ids p) a).length) (fun _ _ => Nat.zero_le _) hq

theorem wRows_sum_le (hi : ∀ q, q < np → IdsOk (ids q)) (hu : ∀ w, w < np → UnOk np ids w (un w)) :
    ∑ w ∈ Finset.range np, (wRows un w).length ≤ sharedPairs np ids := by
  have h1 : ∀ w ∈ Finset.range np, (wRows un w).length = (wRows un w).toFinset.card := fun w hw =>
    (List.toFinset_card_of_nodup (wRows_nodup hu (Finset.mem_range.1 hw))).symm
  have h2 : ∀ q p, ((uids (ids q)).filter fun a => has (ids p) a).length = ((uids (ids q)).filter fun a => has (ids p) a).toFinset.card := fun q p =>
    (List.toFinset_card_of_nodup ((uids_nodup (ids q)).filter _)).symm
  unfold sharedPairs
  rw [Finset.sum_congr rfl h1]
  simp only [h2]
  rw [← Finset.card_sigma]
  have h3 : ∀ q ∈ Finset.range np, (∑ p ∈ Finset.range np, ((uids (ids q)).filter fun a => has (ids p) a).toFinset.card) =
      ((Finset.range np).sigma fun p => ((uids (ids q)).filter fun a => has (ids p) a).toFinset).card := fun q _ => (Finset.card_sigma _ _).symm
  rw [Finset.sum_congr rfl h3, ← Finset.card_sigma]
  refine Finset.card_le_card_of_injOn (fun x => ⟨x.2.p1, x.2.p2, x.2.id⟩) ?_ ?_
  · rintro ⟨w, x⟩ hx
    simp only [Finset.coe_sigma, Set.mem_sigma_iff, Finset.mem_coe, Finset.mem_range, List.mem_toFinset] at hx
    obtain ⟨a, q, p, hq, hp, hw, hs, rfl⟩ := (mem_wRows hi hu hx.1).1 hx.2
    simp only [Finset.coe_sigma, Set.mem_sigma_iff, Finset.mem_coe, Finset.mem_range, List.mem_toFinset, List.mem_filter, mem_uids, decide_eq_true_eq]
    exact ⟨hq, hp, hs.2.1, hs.2.2.1⟩
  · rintro ⟨w, x⟩ hx ⟨v, y⟩ hy e
    simp only [Finset.coe_sigma, Set.mem_sigma_iff, Finset.mem_coe, Finset.mem_range, List.mem_toFinset] at hx hy
    obtain ⟨a, q, p, hq, hp, rfl, hs, rfl⟩ := (mem_wRows hi hu hx.1).1 hx.2
    obtain ⟨a', q', p', hq', hp', rfl, hs', rfl⟩ := (mem_wRows hi hu hy.1).1 hy.2
    simp only [Sigma.mk.injEq, heq_eq_eq] at e
    obtain ⟨rfl, rfl, rfl⟩ := e
    rfl

/-- the rows received by `q` -/
def rRows (np : Nat) (un : Nat → List UniqueId) (q : Nat) : List SharedWork :=
  arrived np SharedWork.p1 (fun w r => { r with p1 := w }) false (wRows un) q

theorem mem_rRows (hi : ∀ q, q < np → IdsOk (ids q)) (hu : ∀ w, w < np → UnOk np ids w (un w)) {q : Nat} (hq : q < np) {x : SharedWork} :
    x ∈ rRows np un q ↔ ∃ a p, p < np ∧ Shared2 ids q p a ∧ x = ⟨a, ordNo np un a, q, p, srcIf (ids q) a, srcIf (ids p) a⟩ := by
  unfold rRows arrived
  simp only [List.mem_flatMap, List.mem_map, List.mem_filter, List.mem_range, decide_eq_true_eq, Bool.false_eq_true, if_false]
  constructor
  · rintro ⟨w, hw, y, ⟨hy, hp1⟩, rfl⟩
    obtain ⟨a, q', p, hq', hp, rfl, hs, rfl⟩ := (mem_wRows hi hu hw).1 hy
    simp only at hp1
    subst hp1
    exact ⟨a, p, hp, hs, rfl⟩
  · rintro ⟨a, p, hp, hs, rfl⟩
    have hw : a % np < np := Nat.mod_lt _ (by omega)
    exact ⟨a % np, hw, _, ⟨(mem_wRows hi hu hw).2 ⟨a, q, p, hq, hp, rfl, hs, rfl⟩, rfl⟩, rfl⟩

theorem rRows_nodup (hi : ∀ q, q < np → IdsOk (ids q)) (hu : ∀ w, w < np → UnOk np ids w (un w)) {q : Nat} : (rRows np un q).Nodup := by
  unfold rRows arrived
  have hid : ∀ w, ((wRows un w).filter fun r => decide (r.p1 = q)).map (fun r => { r with p1 := if false = true then w else q }) =
      (wRows un w).filter fun r => decide (r.p1 = q) := by
    intro w
    conv => rhs; rw [← List.map_id ((wRows un w).filter fun r => decide (r.p1 = q))]
    apply List.map_congr_left
    intro r hr
    have := (List.mem_filter.1 hr).2
    simp only [decide_eq_true_eq] at this
    simp [← this]
  simp only [hid]
  rw [List.nodup_flatMap]
  constructor
  · intro w hw
    exact (wRows_nodup hu (List.mem_range.1 hw)).filter _
  · refine List.Pairwise.imp_of_mem ?_ (List.nodup_range (n := np))
    intro v w hv hw hvw x hx1 hx2
    obtain ⟨a, _, _, _, _, rfl, _, rfl⟩ := (mem_wRows hi hu (List.mem_range.1 hv)).1 (List.mem_filter.1 hx1).1
    obtain ⟨a', _, _, _, _, rfl, _, e⟩ := (mem_wRows hi hu (List.mem_range.1 hw)).1 (List.mem_filter.1 hx2).1
    have := congrArg SharedWork.id e
    simp only at this
    exact hvw (by rw [this])

end Gslib.Gs
