import Verif.Lemmas.GsTopoWork
import Verif.Props.Comm
import Mathlib.Algebra.BigOperators.Fin

/-! # get_topology in closed form -/

namespace Gslib.Mpi
open Gslib

theorem Coll.seq_run_ok {S W : Type} {a b : Coll S W} {P : Nat} {s0 s1 s2 : Nat → S} (ha : a.Ok P) (h1 : a.run P s0 = .ok s1)
    (h2 : b.run P s1 = .ok s2) : (a.seq b).run P s0 = .ok s2 := by
  rw [Coll.seq_run ha, h1]; exact h2

end Gslib.Mpi

namespace Gslib.Gs
open Gslib Gslib.Mpi Gslib.Sarray Gslib.Comm Gslib.Spec Gslib.Props

/-- the row of `sh` on `q` for id `a` and process `p` (before `bi` is set) -/
def shRow (ids : Nat → List Int) (q p a : Nat) : SharedId :=
  ⟨a, prim (ids q) a, p, prim (ids p) a, 0, (if hasU (ids p) a then 0 else 2) ||| (if hasU (ids q) a then 0 else 1)⟩

/-- the row of `wa` on `q` for id `a` and process `p` -/
def waRow (ids : Nat → List Int) (ord : Nat → Nat) (q p a : Nat) : SharedWork := ⟨a, ord a, q, p, srcIf (ids q) a, srcIf (ids p) a⟩

/-- the part of the topology that the set-up of the handle uses -/
structure TopoCore (np : Nat) (ids : Nat → List Int) (ord : Nat → Nat) (total : Nat) (q : Nat) (s : TopoSt) : Prop where
  nz_eq : s.nz = nzSpec (ids q)
  total_eq : s.total = total
  sh_nodup : s.sh.Nodup
  mem_sh : ∀ x, x ∈ s.sh ↔ ∃ a p, p < np ∧ Shared2 ids q p a ∧ x = shRow ids q p a
  pr_ne : s.pr.Pairwise fun x y => x.i ≠ y.i
  mem_pr : ∀ x, x ∈ s.pr ↔ ∃ a, (∃ p, p < np ∧ Shared2 ids q p a) ∧ x = ⟨a, ord a, prim (ids q) a, pflag (ids q) a⟩

/-- the topology -/
structure TopoOk (np : Nat) (ids : Nat → List Int) (ord : Nat → Nat) (total : Nat) (q : Nat) (s : TopoSt) : Prop extends TopoCore np ids ord total q s where
  ids_eq : s.ids = ids q

theorem toShared_row {np : Nat} {ids : Nat → List Int} (hi : ∀ q, q < np → IdsOk (ids q)) (ord : Nat → Nat) {q p a : Nat} (hq : q < np) (hp : p < np)
    (hs : Shared2 ids q p a) : toShared (waRow ids ord q p a) = shRow ids q p a := by
  unfold toShared waRow shRow
  simp only
  rw [indexOf_srcIf (hi q hq) hs.2.1, indexOf_srcIf (hi p hp) hs.2.2.1]
  have h1 := xor_srcIf (hi q hq) hs.2.1
  have h2 := xor_srcIf (hi p hp) hs.2.2.1
  rw [indexOf_srcIf (hi q hq) hs.2.1] at h1
  rw [indexOf_srcIf (hi p hp) hs.2.2.1] at h2
  rw [h1, h2]
  by_cases ha : hasU (ids q) a <;> by_cases hb : hasU (ids p) a <;> simp [ha, hb, uintMax]

/-- rows sorted by id -/
def IdSorted (l : List SharedWork) : Prop := l.Pairwise fun x y => x.id ≤ y.id

theorem toPrimary_sorted : ∀ (l : List SharedWork) (last : Nat), IdSorted l → ((∀ x ∈ l, last ≤ x.id) ∨ (∀ x ∈ l, x.id < last)) →
    (toPrimary last l).Pairwise (fun x y => x.id < y.id) ∧ (∀ r ∈ toPrimary last l, r.id ≠ last ∧ ∃ x ∈ l,
      r = ⟨x.id, x.ord, indexOf x.i1f, (x.i1f ^^^ indexOf x.i1f) &&& 1⟩) ∧ (∀ x ∈ l, x.id ≠ last → ∃ r ∈ toPrimary last l, r.id = x.id)
  | [], last, _, _ => by simp [toPrimary]
  | w :: ws, last, hs, hl => by
    have hs' := List.pairwise_cons.1 hs
    rw [toPrimary]
    by_cases h : w.id = last
    · rw [if_neg (by simpa using h)]
      obtain ⟨h1, h2, h3⟩ := toPrimary_sorted ws last hs'.2 (by
        rcases hl with hl | hl
        · exact Or.inl fun x hx => hl x (List.mem_cons_of_mem _ hx)
        · exact Or.inr fun x hx => hl x (List.mem_cons_of_mem _ hx))
      refine ⟨h1, ?_, ?_⟩
      · intro r hr
        obtain ⟨h4, x, hx, e⟩ := h2 r hr
        exact ⟨h4, x, List.mem_cons_of_mem _ hx, e⟩
      · intro x hx hne
        rcases List.mem_cons.1 hx with rfl | hx
        · exact absurd h hne
        · exact h3 x hx hne
    · rw [if_pos (by simpa using h)]
      obtain ⟨h1, h2, h3⟩ := toPrimary_sorted ws w.id hs'.2 (Or.inl fun x hx => hs'.1 x hx)
      refine ⟨List.pairwise_cons.2 ⟨?_, h1⟩, ?_, ?_⟩
      · intro r hr
        obtain ⟨h4, x, hx, rfl⟩ := h2 r hr
        have := hs'.1 x hx
        simp only at h4 ⊢
        omega
      · intro r hr
        rcases List.mem_cons.1 hr with rfl | hr
        · exact ⟨h, w, List.mem_cons_self, rfl⟩
        · obtain ⟨h4, x, hx, rfl⟩ := h2 r hr
          refine ⟨?_, x, List.mem_cons_of_mem _ hx, rfl⟩
          have h5 := hs'.1 x hx
          simp only at h4 ⊢
          rcases hl with hl | hl
          · have := hl w List.mem_cons_self; omega
          · have := hl x (List.mem_cons_of_mem _ hx); omega
      · intro x hx hne
        rcases List.mem_cons.1 hx with rfl | hx
        · exact ⟨_, List.mem_cons_self, rfl⟩
        · by_cases hx2 : x.id = w.id
          · exact ⟨_, List.mem_cons_self, hx2.symm⟩
          · obtain ⟨r, hr, e⟩ := h3 x hx hx2
            exact ⟨r, List.mem_cons_of_mem _ hr, e⟩

/-- shared_ids_aux on the rows received -/
theorem sharedIdsAux_run {np : Nat} {ids : Nat → List Int} (hi : ∀ q, q < np → IdsOk (ids q)) {ord : Nat → Nat} {q : Nat} (hq : q < np)
    {wa : List SharedWork} (hnd : wa.Nodup) (hm : ∀ x, x ∈ wa ↔ ∃ a p, p < np ∧ Shared2 ids q p a ∧ x = waRow ids ord q p a)
    (s : ScratchF Nat) :
    ∃ sh pr, sharedIdsAux (uids (ids q)).length wa s = .ok (sh, pr) ∧ sh.Nodup ∧
      (∀ x, x ∈ sh ↔ ∃ a p, p < np ∧ Shared2 ids q p a ∧ x = shRow ids q p a) ∧
      pr.Pairwise (fun x y => x.i < y.i) ∧
      (∀ x, x ∈ pr ↔ ∃ a, (∃ p, p < np ∧ Shared2 ids q p a) ∧ x = ⟨a, ord a, prim (ids q) a, pflag (ids q) a⟩) := by
  have hidlt : ∀ x ∈ wa, x.id < 9223372036854775808 := by
    intro x hx
    obtain ⟨a, p, hp, hs, rfl⟩ := (hm x).1 hx
    exact has_lt (hi q hq) hs.2.1
  obtain ⟨out, e, hout⟩ := sarray_sort_lexicographic [.int 8 SharedWork.id] wa s (by
    intro f hf
    rw [List.mem_singleton] at hf
    subst hf
    intro r hr
    have := hidlt r hr
    norm_num; omega)
  have hso : IdSorted out := by
    refine hout.sorted.imp ?_
    intro a b h
    rcases h with h | h
    · exact Nat.le_of_lt h
    · exact Nat.le_of_eq h.1
  have hmo : ∀ x, x ∈ out ↔ ∃ a p, p < np ∧ Shared2 ids q p a ∧ x = waRow ids ord q p a := fun x => by
    rw [hout.perm.mem_iff]; exact hm x
  obtain ⟨h1, h2, h3⟩ := toPrimary_sorted out ulongMax hso (Or.inr fun x hx => by
    have := hidlt x (hout.perm.mem_iff.1 hx); simp only [ulongMax]; omega)
  have hmp : ∀ x, x ∈ toPrimary ulongMax out ↔ ∃ a, (∃ p, p < np ∧ Shared2 ids q p a) ∧ x = ⟨a, ord a, prim (ids q) a, pflag (ids q) a⟩ := by
    have hrow : ∀ a p, Shared2 ids q p a → (⟨(waRow ids ord q p a).id, (waRow ids ord q p a).ord, indexOf (waRow ids ord q p a).i1f,
        ((waRow ids ord q p a).i1f ^^^ indexOf (waRow ids ord q p a).i1f) &&& 1⟩ : PrimaryShared) = ⟨a, ord a, prim (ids q) a, pflag (ids q) a⟩ := by
      intro a p hs
      simp only [waRow]
      have hx := xor_srcIf (hi q hq) hs.2.1
      rw [indexOf_srcIf (hi q hq) hs.2.1] at hx ⊢
      rw [hx]
      unfold pflag
      split <;> simp [uintMax]
    intro x
    constructor
    · intro hx
      obtain ⟨_, w, hw, rfl⟩ := h2 x hx
      obtain ⟨a, p, hp, hs, rfl⟩ := (hmo w).1 hw
      exact ⟨a, ⟨p, hp, hs⟩, hrow a p hs⟩
    · rintro ⟨a, ⟨p, hp, hs⟩, rfl⟩
      have hw : waRow ids ord q p a ∈ out := (hmo _).2 ⟨a, p, hp, hs, rfl⟩
      obtain ⟨r, hr, hid⟩ := h3 _ hw (by
        have := has_lt (hi q hq) hs.2.1
        show a ≠ ulongMax
        simp only [ulongMax]; omega)
      obtain ⟨_, w, hw', rfl⟩ := h2 r hr
      obtain ⟨a', p', hp', hs', rfl⟩ := (hmo w).1 hw'
      simp only [waRow] at hid
      subst hid
      rw [hrow a' p' hs'] at hr
      exact hr
  have hndp : (toPrimary ulongMax out).Nodup := h1.imp fun h e => by rw [e] at h; omega
  have hlen : (toPrimary ulongMax out).length ≤ (uids (ids q)).length := by
    have h4 : ((toPrimary ulongMax out).map PrimaryShared.id).Nodup := by
      unfold List.Nodup
      rw [List.pairwise_map]
      exact h1.imp fun h => Nat.ne_of_lt h
    have h5 : (toPrimary ulongMax out).map PrimaryShared.id ⊆ uids (ids q) := by
      intro a ha
      obtain ⟨x, hx, rfl⟩ := List.mem_map.1 ha
      obtain ⟨a, ⟨p, hp, hs⟩, rfl⟩ := (hmp x).1 hx
      exact mem_uids.2 hs.2.1
    have := (List.subperm_of_subset h4 h5).length_le
    rwa [List.length_map] at this
  obtain ⟨pr, e2, hpr⟩ := sarray_sort_lexicographic [.int 4 PrimaryShared.i] (toPrimary ulongMax out) s (by
    intro f hf
    rw [List.mem_singleton] at hf
    subst hf
    intro r hr
    obtain ⟨a, ⟨p, hp, hs⟩, rfl⟩ := (hmp r).1 hr
    have h4 := prim_lt_length hs.2.1
    have h5 := (hi q hq).len
    simp only
    norm_num; omega)
  refine ⟨out.map toShared, pr, ?_, ?_, ?_, ?_, ?_⟩
  · unfold sharedIdsAux
    rw [e]
    simp only [Outcome.bind]
    rw [if_neg (by omega), e2]
  · refine List.Nodup.map_on ?_ (hout.perm.nodup_iff.2 hnd)
    intro x hx y hy hxy
    obtain ⟨a, p, hp, hs, rfl⟩ := (hmo x).1 hx
    obtain ⟨a', p', hp', hs', rfl⟩ := (hmo y).1 hy
    rw [toShared_row hi ord hq hp hs, toShared_row hi ord hq hp' hs'] at hxy
    have e1 := congrArg SharedId.id hxy
    have e2 := congrArg SharedId.p hxy
    simp only [shRow] at e1 e2
    rw [e1, e2]
  · intro x
    rw [List.mem_map]
    constructor
    · rintro ⟨w, hw, rfl⟩
      obtain ⟨a, p, hp, hs, rfl⟩ := (hmo w).1 hw
      exact ⟨a, p, hp, hs, toShared_row hi ord hq hp hs⟩
    · rintro ⟨a, p, hp, hs, rfl⟩
      exact ⟨_, (hmo _).2 ⟨a, p, hp, hs, rfl⟩, toShared_row hi ord hq hp hs⟩
  · have hnd' : pr.Nodup := hpr.perm.nodup_iff.2 hndp
    have h4 : pr.Pairwise fun x y => x.i ≤ y.i := hpr.sorted.imp (by
      intro a b h
      rcases h with h | h
      · exact Nat.le_of_lt h
      · exact Nat.le_of_eq h.1)
    refine List.Pairwise.imp_of_mem ?_ (List.pairwise_and_iff.2 ⟨h4, hnd'⟩)
    intro x y hx hy h
    obtain ⟨a, ⟨p, hp, hs⟩, rfl⟩ := (hmp x).1 (hpr.perm.mem_iff.1 hx)
    obtain ⟨a', ⟨p', hp', hs'⟩, rfl⟩ := (hmp y).1 (hpr.perm.mem_iff.1 hy)
    rcases Nat.lt_or_eq_of_le h.1 with h5 | h5
    · exact h5
    · have := prim_inj hs.2.1 hs'.2.1 h5
      subst this
      exact absurd rfl h.2
  · intro x
    rw [hpr.perm.mem_iff]; exact hmp x

theorem sum_ofNat (n : Nat → Nat) (p : Nat) : ((List.range p).map fun q => BitVec.ofNat 64 (n q)).sum = BitVec.ofNat 64 (∑ q ∈ Finset.range p, n q) := by
  induction p with
  | zero => rfl
  | succ p ih => rw [List.range_succ, List.map_append, List.sum_append, ih, Finset.sum_range_succ, BitVec.ofNat_add]; simp

theorem ok_getTopology (np : Nat) : (getTopology np).Ok np := by
  have hsc : (topoScan np).Ok np := Coll.lift_ok _ _ (Coll.mapW_ok _ _ (comm_tree_matching _ _ _ _).2)
  unfold getTopology topoLoc
  exact Coll.seq_ok (Coll.seq_ok (Coll.seq_ok (Coll.seq_ok (Coll.seq_ok (Coll.seq_ok (Coll.loc_ok _ _ _) (topoTransfer_ok _ _ _))
    (Coll.loc_ok _ _ _)) hsc) (Coll.loc_ok _ _ _)) (topoTransfer_ok _ _ _)) (Coll.loc_ok _ _ _)

/-- get_topology -/
theorem getTopology_run {np : Nat} {ids : Nat → List Int} (hnp : np ≤ 4294967295) (hi : ∀ q, q < np → IdsOk (ids q))
    (hsmall : sharedPairs np ids * 40 < Crystal.intMax) (s0 : Nat → TopoSt) (h0 : ∀ q, q < np → (s0 q).ids = ids q) :
    ∃ ord total sf, (getTopology np).run np s0 = .ok sf ∧ OrdOk np ids ord total ∧ total ≤ sharedPairs np ids ∧ ∀ q, q < np → TopoOk np ids ord total q (sf q) := by
  have hintMax : Crystal.intMax = 2147483647 := rfl
  -- topo1
  let s1 : Nat → TopoSt := fun q => if q < np then { s0 q with nz := nzSpec (ids q), nUnique := (uids (ids q)).length, tr := putRows uniqueLayout (s0 q).tr (uRows np ids q) } else s0 q
  have r1 : (topoLoc (topo1 np)).run np s0 = .ok s1 := by
    apply Coll.loc_run_ok
    intro q hq
    unfold topo1
    rw [h0 q hq, nonzeroIds_spec (hi q hq)]
    simp only [Outcome.bind]
    rw [uniqueIds_spec, List.length_map]
    simp only [h0 q hq]
    rfl
  -- first transfer
  obtain ⟨t1, r2, ht1⟩ := topoTransfer_run uniqueLayout_ok (np := np) (setSrc := true) (uRows np ids) s1 hnp (by
      intro q hq r hr
      unfold uRows at hr
      obtain ⟨a, ha, rfl⟩ := List.mem_map.1 hr
      have ha' := mem_uids.1 ha
      have h1 := has_lt (hi q hq) ha'
      have h2 := srcIf_lt (hi q hq) ha'
      have h3 : a % np < np := Nat.mod_lt _ (by omega)
      exact ⟨⟨by simp only; omega, by simp only; omega, h2⟩, h3⟩)
    (by intro q hq; simp only [s1, if_pos hq]; rfl)
    (by
      have := uRows_sum_le (np := np) (ids := ids)
      show _ * 6 * 4 < _
      omega)
  -- the sort
  have hsort : ∀ w, w < np → ∃ un, sarraySort [.int 8 UniqueId.id, .int 4 UniqueId.srcIf] (getRows uniqueLayout (t1 w)) (s1 w).scratch = .ok un ∧ UnOk np ids w un := by
    intro w hw
    have hperm : (getRows uniqueLayout (t1 w)).Perm (aRows np ids w) := ht1 w hw
    obtain ⟨out, e, h⟩ := sarray_sort_lexicographic [.int 8 UniqueId.id, .int 4 UniqueId.srcIf] (getRows uniqueLayout (t1 w)) (s1 w).scratch (by
      have hb : ∀ r ∈ getRows uniqueLayout (t1 w), r.id < 9223372036854775808 ∧ r.srcIf < 4294967296 := by
        intro r hr
        obtain ⟨q, a, hq, ha, _, rfl⟩ := mem_aRows.1 (hperm.mem_iff.1 hr)
        exact ⟨has_lt (hi q hq) ha, srcIf_lt (hi q hq) ha⟩
      intro f hf
      simp only [List.mem_cons, List.not_mem_nil, or_false] at hf
      rcases hf with rfl | rfl
      · intro r hr; have := (hb r hr).1; norm_num; omega
      · intro r hr; have := (hb r hr).2; norm_num; omega)
    refine ⟨out, e, h.perm.trans hperm, ?_⟩
    refine h.sorted.imp ?_
    rintro a b (h | ⟨h1, h | ⟨h2, _⟩⟩)
    · exact Or.inl h
    · exact Or.inr ⟨h1, Nat.le_of_lt h⟩
    · exact Or.inr ⟨h1, Nat.le_of_eq h2⟩
  have hsort' : ∃ un : Nat → List UniqueId, ∀ w, w < np → sarraySort [.int 8 UniqueId.id, .int 4 UniqueId.srcIf] (getRows uniqueLayout (t1 w)) (s1 w).scratch = .ok (un w) ∧ UnOk np ids w (un w) := by
    classical
    refine ⟨fun w => if h : w < np then (hsort w h).choose else [], fun w hw => ?_⟩
    simp only [dif_pos hw]
    exact (hsort w hw).choose_spec
  obtain ⟨un, hun⟩ := hsort'
  have hu : ∀ w, w < np → UnOk np ids w (un w) := fun w hw => (hun w hw).2
  let n : Nat → Nat := fun w => (shIds ulongMax (un w)).length
  -- topo2
  let s2 : Nat → TopoSt := fun p => if p < np then (s1 p).setTr (t1 p) else s1 p
  let s3 : Nat → TopoSt := fun p => if p < np then { s2 p with un := un p, scan := { (s2 p).scan with v := [BitVec.ofNat 64 (n p)] } } else s2 p
  have r3 : (topoLoc topo2).run np s2 = .ok s3 := by
    apply Coll.loc_run_ok
    intro q hq
    have e1 : getRows uniqueLayout (s2 q).tr = getRows uniqueLayout (t1 q) := by simp only [s2, if_pos hq]; rfl
    have e2 : (s2 q).scratch = (s1 q).scratch := by simp only [s2, if_pos hq]; rfl
    unfold topo2
    rw [e1, e2, (hun q hq).1]
    simp only [Outcome.bind]
    rw [countShared_eq, Nat.zero_add]
    simp only [e2]
    rfl
  -- comm_scan
  obtain ⟨sc, esc, hsc⟩ := comm_scan_run (intDom 32 64) .add (fun _ => True) (gs_op_commutative_monoid_any_uint 32 64 .add (by decide)) np 1
    (fun q _ => BitVec.ofNat 64 (n q)) (fun _ _ _ _ => trivial) (fun p => (s3 p).scan) (by
      intro p hp
      simp only [s3, if_pos hp]
      rfl)
  let s4 : Nat → TopoSt := fun p => if p < np then (s3 p).setScan (sc p) else s3 p
  have r4 : (topoScan np).run np s3 = .ok s4 := by
    unfold topoScan
    rw [Coll.lift_run lens_scan _ np s3 (fun p => (s3 p).scan) (fun _ _ => rfl), Coll.mapW_run _ _ (fun _ => rfl), esc]
    rfl
  -- values of the scan
  have hnsum : ordBase un np ≤ sharedPairs np ids := by
    refine le_trans ?_ (wRows_sum_le hi hu)
    apply Finset.sum_le_sum
    intro w hw
    have hw' := Finset.mem_range.1 hw
    have h1 : (shIds ulongMax (un w)).Nodup := (shIds_sorted (un w) ulongMax (hu w hw').sorted ((hu w hw').last hi)).imp fun h => Nat.ne_of_lt h
    have h2 : shIds ulongMax (un w) ⊆ (wRows un w).map SharedWork.id := by
      intro a ha
      obtain ⟨h3, q, p, hq, hp, hs⟩ := ((hu w hw').mem_shIds hi).1 ha
      exact List.mem_map.2 ⟨_, (mem_wRows hi hu hw').2 ⟨a, q, p, hq, hp, h3, hs, rfl⟩, rfl⟩
    have := (List.subperm_of_subset h1 h2).length_le
    rwa [List.length_map] at this
  have hbase : ∀ p, p ≤ np → ordBase un p < 2 ^ 64 := by
    intro p hp
    have := ordBase_mono (un := un) hp
    have : ordBase un p < 2147483647 := by omega
    exact lt_trans this (by norm_num)
  have hadd : ∀ p, reduceBefore ((intDom 32 64).doOp .add) ((intDom 32 64).identity .add) (fun q => BitVec.ofNat 64 (n q)) p = BitVec.ofNat 64 (ordBase un p) := by
    intro p
    have := comm_scan_add 64 np (fun q => BitVec.ofNat 64 (n q)) p
    rw [sum_ofNat] at this
    exact this
  have hscan : ∀ p, p < np → (sc p).scan = [BitVec.ofNat 64 (ordBase un p)] ∧ (sc p).red = [BitVec.ofNat 64 (ordBase un np)] := by
    intro p hp
    obtain ⟨h1, h2, _⟩ := hsc p hp
    constructor
    · rw [h1]; exact congrArg (fun x => [x]) (hadd p)
    · rw [h2]
      have : reduceAll ((intDom 32 64).doOp .add) (fun q => BitVec.ofNat 64 (n q)) np = BitVec.ofNat 64 (ordBase un np) := by
        rw [← hadd np]
        cases np with
        | zero => omega
        | succ k => rfl
      exact congrArg (fun x => [x]) this
  -- topo3
  let s5 : Nat → TopoSt := fun p => if p < np then { s4 p with total := ordBase un np, tr := putRows workLayout (s4 p).tr (wRows un p) } else s4 p
  have r5 : (topoLoc topo3).run np s4 = .ok s5 := by
    apply Coll.loc_run_ok
    intro q hq
    have e1 : (s4 q).scan = sc q := by simp only [s4, if_pos hq]; rfl
    have e2 : (s4 q).un = un q := by simp only [s4, s3, if_pos hq]; rfl
    unfold topo3
    rw [e1, (hscan q hq).1, (hscan q hq).2]
    simp only [BitVec.toNat_ofNat, e2]
    rw [Nat.mod_eq_of_lt (hbase np (Nat.le_refl _)), Nat.mod_eq_of_lt (hbase q (by omega)), e1]
    rfl
  -- second transfer
  obtain ⟨t2, r6, ht2⟩ := topoTransfer_run workLayout_ok (np := np) (setSrc := false) (wRows un) s5 hnp (by
      intro w hw r hr
      obtain ⟨a, q, p, hq, hp, _, hs, rfl⟩ := (mem_wRows hi hu hw).1 hr
      have h1 := has_lt (hi q hq) hs.2.1
      have h2 := srcIf_lt (hi q hq) hs.2.1
      have h3 := srcIf_lt (hi p hp) hs.2.2.1
      have h4 := (ordNo_ok hi hu).lt a ⟨q, p, hq, hp, hs⟩
      refine ⟨⟨by simp only; omega, by simp only; omega, by simp only; omega, by simp only; omega, h2, h3⟩, hq⟩)
    (by intro q hq; simp only [s5, if_pos hq]; rfl)
    (by
      have := wRows_sum_le hi hu
      show _ * 10 * 4 < _
      omega)
  let s6 : Nat → TopoSt := fun p => if p < np then (s5 p).setTr (t2 p) else s5 p
  -- topo4
  have hlast : ∀ q, q < np → ∃ sh pr, sharedIdsAux (uids (ids q)).length (getRows workLayout (t2 q)) (s6 q).scratch = .ok (sh, pr) ∧ sh.Nodup ∧
      (∀ x, x ∈ sh ↔ ∃ a p, p < np ∧ Shared2 ids q p a ∧ x = shRow ids q p a) ∧
      pr.Pairwise (fun x y => x.i < y.i) ∧
      (∀ x, x ∈ pr ↔ ∃ a, (∃ p, p < np ∧ Shared2 ids q p a) ∧ x = ⟨a, ordNo np un a, prim (ids q) a, pflag (ids q) a⟩) := by
    intro q hq
    have hperm : (getRows workLayout (t2 q)).Perm (rRows np un q) := ht2 q hq
    exact sharedIdsAux_run hi hq (hperm.nodup_iff.2 (rRows_nodup hi hu)) (fun x => by rw [hperm.mem_iff, mem_rRows hi hu hq]; rfl) _
  have hlast' : ∃ (sh : Nat → List SharedId) (pr : Nat → List PrimaryShared), ∀ q, q < np →
      sharedIdsAux (uids (ids q)).length (getRows workLayout (t2 q)) (s6 q).scratch = .ok (sh q, pr q) ∧ (sh q).Nodup ∧
      (∀ x, x ∈ sh q ↔ ∃ a p, p < np ∧ Shared2 ids q p a ∧ x = shRow ids q p a) ∧
      (pr q).Pairwise (fun x y => x.i < y.i) ∧
      (∀ x, x ∈ pr q ↔ ∃ a, (∃ p, p < np ∧ Shared2 ids q p a) ∧ x = ⟨a, ordNo np un a, prim (ids q) a, pflag (ids q) a⟩) := by
    classical
    refine ⟨fun q => if h : q < np then (hlast q h).choose else [], fun q => if h : q < np then (hlast q h).choose_spec.choose else [], fun q hq => ?_⟩
    simp only [dif_pos hq]
    exact (hlast q hq).choose_spec.choose_spec
  obtain ⟨sh, pr, hsp⟩ := hlast'
  let s7 : Nat → TopoSt := fun p => if p < np then { s6 p with wa := getRows workLayout (t2 p), sh := sh p, pr := pr p } else s6 p
  have r7 : (topoLoc topo4).run np s6 = .ok s7 := by
    apply Coll.loc_run_ok
    intro q hq
    have e1 : (s6 q).nUnique = (uids (ids q)).length := by simp only [s6, s5, s4, s3, s2, s1, if_pos hq]; rfl
    have e2 : getRows workLayout (s6 q).tr = getRows workLayout (t2 q) := by simp only [s6, if_pos hq]; rfl
    unfold topo4
    rw [e1, e2, (hsp q hq).1]
    simp only [Outcome.bind, e1]
  refine ⟨ordNo np un, ordBase un np, s7, ?_, ordNo_ok hi hu, hnsum, ?_⟩
  · have hsc' : (topoScan np).Ok np := Coll.lift_ok _ _ (Coll.mapW_ok _ _ (comm_tree_matching _ _ _ _).2)
    have o1 : (topoLoc (topo1 np)).Ok np := Coll.loc_ok _ _ _
    have o2 := Coll.seq_ok o1 (topoTransfer_ok np uniqueLayout true)
    have o3 := Coll.seq_ok o2 (Coll.loc_ok (fun _ => topo2) (.inl [] : TopoMsg) np)
    have o4 := Coll.seq_ok o3 hsc'
    have o5 := Coll.seq_ok o4 (Coll.loc_ok (fun _ => topo3) (.inl [] : TopoMsg) np)
    have o6 := Coll.seq_ok o5 (topoTransfer_ok np workLayout false)
    unfold getTopology
    exact Coll.seq_run_ok o6 (Coll.seq_run_ok o5 (Coll.seq_run_ok o4 (Coll.seq_run_ok o3 (Coll.seq_run_ok o2 (Coll.seq_run_ok o1 r1 r2) r3) r4) r5) r6) r7
  · intro q hq
    obtain ⟨_, h1, h2, h3, h4⟩ := hsp q hq
    have hperm : (getRows workLayout (t2 q)).Perm (rRows np un q) := ht2 q hq
    refine ⟨⟨?_, ?_, ?_, ?_, ?_, ?_⟩, ?_⟩
    · simp only [s7, s6, s5, s4, s3, s2, s1, if_pos hq]; rfl
    · simp only [s7, s6, s5, if_pos hq]; rfl
    · simp only [s7, if_pos hq]; exact h1
    · simp only [s7, if_pos hq]; exact h2
    · simp only [s7, if_pos hq]; exact h3.imp fun h => Nat.ne_of_lt h
    · simp only [s7, if_pos hq]; exact h4
    · simp only [s7, s6, s5, s4, s3, s2, s1, if_pos hq]; exact h0 q hq

end Gslib.Gs
