import Verif.Lemmas.GsUniqLoop

/-! # make_topology_unique in closed form -/

namespace Gslib.Gs
open Gslib Gslib.Mpi Gslib.Sarray Gslib.Spec

variable {np : Nat} {ids : Nat → List Int} {q : Nat}

/-- the ids of process `q` after gs_unique: of the entries `a`, only the first one on the owner stays unflagged -/
def uniqIds (np : Nat) (ids : Nat → List Int) (q : Nat) : List Int :=
  (List.range (ids q).length).map fun j =>
    if 0 < idAt (ids q) j ∧ ¬ (j = prim (ids q) (absAt (ids q) j) ∧ own np ids (absAt (ids q) j) = q) then -(absAt (ids q) j : Int) else idAt (ids q) j

theorem uniqIds_length : (uniqIds np ids q).length = (ids q).length := by simp [uniqIds]

theorem idAt_uniqIds (j : Nat) : idAt (uniqIds np ids q) j =
    if 0 < idAt (ids q) j ∧ ¬ (j = prim (ids q) (absAt (ids q) j) ∧ own np ids (absAt (ids q) j) = q) then -(absAt (ids q) j : Int) else idAt (ids q) j := by
  by_cases h : j < (ids q).length
  · conv => lhs; unfold idAt uniqIds
    rw [List.getD_eq_getElem?_getD, List.getElem?_map, List.getElem?_range h]; rfl
  · rw [idAt_ge _ (by rw [uniqIds_length]; omega), idAt_ge (ids q) (by omega)]
    simp

/-- an unflagged id that is not shared is owned by its process -/
theorem own_of_not_shared (hq : q < np) {a : Nat} (hU : hasU (ids q) a) (hg : gRows np ids q a = []) : own np ids a = q := by
  have hn : unflProcs np ids a ≠ [] := List.ne_nil_of_mem (mem_unflProcs.2 ⟨hq, hU⟩)
  have := mem_unflProcs.1 (own_mem hn)
  by_contra hc
  have : shRow ids q (own np ids a) a ∈ gRows np ids q a := by
    refine List.mem_map.2 ⟨own np ids a, ?_, rfl⟩
    rw [List.mem_filter, List.mem_range, decide_eq_true_eq]
    exact ⟨this.1, hc, hU.has, this.2.has, Or.inl hU⟩
  rw [hg] at this
  simp at this

theorem lose_iff (hq : q < np) {a : Nat} (hU : hasU (ids q) a) : lose np ids q a ↔ own np ids a ≠ q := by
  constructor
  · exact fun h => h.2
  · intro h
    exact ⟨fun hg => h (own_of_not_shared hq hU hg), h⟩

theorem hasU_absAt {l : List Int} {j : Nat} (h : 0 < idAt l j) : hasU l (absAt l j) := by
  have hj : j < l.length := by
    by_contra hc
    rw [idAt_ge l (by omega)] at h
    omega
  have e : ((absAt l j : Nat) : Int) = idAt l j := by unfold absAt; omega
  exact ⟨by unfold absAt; omega, by rw [e]; exact idAt_mem hj⟩

/-- the two updates of the ids -/
theorem uniqIds_eq (hq : q < np) {w : List Int} (hw : w.length = (ids q).length)
    (h : ∀ j, w.getD j 0 = if j ∈ nzIdx (ids q) ∧ j ≠ prim (ids q) (absAt (ids q) j) then -(absAt (ids q) j : Int) else (ids q).getD j 0) :
    negLost np ids q w (uids (ids q)) = uniqIds np ids q := by
  apply List.ext_getElem
  · rw [negLost_length, hw, uniqIds_length]
  · intro j h1 h2
    have e : ∀ (l : List Int) (hj : j < l.length), l[j] = l.getD j 0 := fun l hj => by rw [List.getD_eq_getElem?_getD, List.getElem?_eq_getElem hj]; rfl
    rw [e _ h1, e _ h2]
    show _ = idAt (uniqIds np ids q) j
    rw [idAt_uniqIds, negLost_getD _ _ hw (fun a ha => mem_uids.1 ha) (uids_nodup _), h]
    show (if _ then _ else if _ then _ else idAt (ids q) j) = _
    by_cases h0 : absAt (ids q) j = 0
    · have hz : idAt (ids q) j = 0 := by unfold absAt at h0; omega
      rw [if_neg (fun hc => (mem_uids.1 hc.1).1 h0), if_neg (fun hc => (mem_nzIdx.1 hc.1) h0), if_neg (by rw [hz]; omega)]
    · have hm := mem_uids.2 (has_absAt h0)
      have hm' := mem_nzIdx.2 h0
      by_cases hp : j = prim (ids q) (absAt (ids q) j)
      · rw [if_neg (show ¬ (j ∈ nzIdx (ids q) ∧ j ≠ prim (ids q) (absAt (ids q) j)) from fun hc => hc.2 hp)]
        by_cases hpos : 0 < idAt (ids q) j
        · have := lose_iff hq (hasU_absAt hpos)
          by_cases ho : own np ids (absAt (ids q) j) = q
          · rw [if_neg (fun hc => hc.2.2.2 ho), if_neg (fun hc => hc.2 ⟨hp, ho⟩)]
          · rw [if_pos ⟨hm, hp, this.2 ho⟩, if_pos ⟨hpos, fun hc => ho hc.2⟩]
        · rw [if_neg (c := 0 < _ ∧ _) (fun hc => hpos hc.1)]
          split
          · show -((idAt (ids q) j).natAbs : Int) = _
            omega
          · rfl
      · rw [if_neg (fun hc => hp hc.2.1), if_pos ⟨hm', hp⟩]
        by_cases hpos : 0 < idAt (ids q) j
        · rw [if_pos ⟨hpos, fun hc => hp hc.1⟩]
        · rw [if_neg (fun hc => hpos hc.1)]
          unfold absAt; omega

/-- the ids of this process in increasing order -/
def sortedIds (ids : List Int) : List Nat := (uids ids).mergeSort (fun a b => decide (a ≤ b))

theorem sortedIds_perm (l : List Int) : (sortedIds l).Perm (uids l) := List.mergeSort_perm _ _

theorem sortedIds_lt (l : List Int) : (sortedIds l).Pairwise (· < ·) := by
  have h1 : (sortedIds l).Pairwise (fun a b => a ≤ b) := by
    have := List.pairwise_mergeSort (le := fun a b : Nat => decide (a ≤ b)) (by intro a b c; simp; omega) (by intro a b; simp; omega) (uids l)
    exact this.imp fun h => by simpa using h
  have h2 : (sortedIds l).Nodup := (sortedIds_perm l).nodup_iff.2 (uids_nodup l)
  exact (h1.and h2).imp fun h => lt_of_le_of_ne h.1 h.2

theorem mem_sortedIds {l : List Int} {a : Nat} : a ∈ sortedIds l ↔ has l a := by rw [(sortedIds_perm l).mem_iff, mem_uids]

theorem kept_mem (hq : q < np) {a : Nat} {x : SharedId} (hx : x ∈ kept np ids q a) : ∃ p, p < np ∧ Shared2 ids q p a ∧
    ((own np ids a = q ∧ x = { shRow ids q p a with flags := 2 }) ∨ (own np ids a ≠ q ∧ p = own np ids a ∧ x = { shRow ids q p a with flags := 1 })) := by
  unfold kept at hx
  by_cases h : gRows np ids q a = []
  · simp [h] at hx
  · rw [if_neg h] at hx
    by_cases ho : own np ids a = q
    · rw [if_pos ho] at hx
      obtain ⟨y, hy, rfl⟩ := List.mem_map.1 hx
      obtain ⟨p, hp, rfl⟩ := List.mem_map.1 hy
      rw [List.mem_filter, List.mem_range, decide_eq_true_eq] at hp
      exact ⟨p, hp.1, hp.2, Or.inl ⟨ho, rfl⟩⟩
    · rw [if_neg ho, List.mem_singleton] at hx
      subst hx
      obtain ⟨y, hy⟩ := List.exists_mem_of_ne_nil _ h
      obtain ⟨p, hp, rfl⟩ := List.mem_map.1 hy
      rw [List.mem_filter, List.mem_range, decide_eq_true_eq] at hp
      have := own_of_shared hq hp.1 hp.2
      exact ⟨own np ids a, this.1, ⟨ho, hp.2.2.1, this.2.has, Or.inr this.2⟩, Or.inr ⟨ho, rfl, rfl⟩⟩

theorem kept_order (a : Nat) : (kept np ids q a).Pairwise ILt := by
  unfold kept
  split
  · exact List.Pairwise.nil
  · split
    · unfold gRows
      rw [List.map_map, List.pairwise_map]
      exact ((List.pairwise_lt_range (n := np)).filter _).imp fun h => Or.inr ⟨rfl, h⟩
    · exact List.pairwise_singleton _ _

/-- gs.c:321 -/
theorem sort_kept (hi : IdsOk (ids q)) (s : ScratchF Nat) :
    sarraySort [.int 8 SharedId.id] ((uids (ids q)).flatMap (kept np ids q)) s = .ok ((sortedIds (ids q)).flatMap (kept np ids q)) := by
  refine sarraySort_eq (R := ILt) ?_ ?_ ?_ ?_ ?_
  · intro f hf
    rw [List.mem_singleton] at hf
    subst hf
    intro r hr
    obtain ⟨a, ha, hx⟩ := List.mem_flatMap.1 hr
    have := has_lt hi (mem_uids.1 ha)
    show r.id < 256 ^ 8
    rw [(kept_row hx).1]
    norm_num
    omega
  · intro x y h h'
    unfold ILt at *
    omega
  · rw [List.pairwise_flatMap]
    refine ⟨fun a _ => kept_order a, (uids_prim_sorted (ids q)).imp ?_⟩
    intro a c hac x hx y hy
    left
    rw [(kept_row hx).2.1, (kept_row hy).2.1]
    exact hac
  · exact List.Perm.flatMap_right _ (sortedIds_perm _)
  · rw [List.pairwise_flatMap]
    constructor
    · intro a _
      refine List.Pairwise.imp_of_mem ?_ (kept_order a)
      intro x y hx hy h
      exact ⟨Or.inr ⟨(kept_row hx).1.trans (kept_row hy).1.symm, trivial⟩, fun _ => h⟩
    · refine (sortedIds_lt (ids q)).imp ?_
      intro a c hac x hx y hy
      have h : x.id < y.id := by rw [(kept_row hx).1, (kept_row hy).1]; exact hac
      refine ⟨Or.inl h, ?_⟩
      intro hs
      have h1 : x.id = y.id := hs (.nat SharedId.id) (by simp [Field.key])
      omega

/-- the shared ids in increasing order -/
def sharedIds (np : Nat) (ids : Nat → List Int) (q : Nat) : List Nat := (sortedIds (ids q)).filter fun a => gRows np ids q a ≠ []

theorem gRows_ne {a : Nat} : gRows np ids q a ≠ [] ↔ ∃ p, p < np ∧ Shared2 ids q p a := by
  unfold gRows
  rw [Ne, List.map_eq_nil_iff, List.filter_eq_nil_iff]
  simp only [List.mem_range, decide_eq_true_eq, not_forall, not_not]
  constructor
  · rintro ⟨p, hp, h⟩; exact ⟨p, hp, h⟩
  · rintro ⟨p, hp, h⟩; exact ⟨p, hp, h⟩

theorem mem_sharedIds {a : Nat} : a ∈ sharedIds np ids q ↔ ∃ p, p < np ∧ Shared2 ids q p a := by
  unfold sharedIds
  rw [List.mem_filter, decide_eq_true_eq, gRows_ne, mem_sortedIds]
  constructor
  · exact fun h => h.2
  · rintro ⟨p, hp, h⟩; exact ⟨h.2.1, p, hp, h⟩

/-- gs.c:322 -/
theorem sort_pr (hi : IdsOk (ids q)) {ord : Nat → Nat} {total : Nat} {st : TopoSt} (h : TopoCore np ids ord total q st) (s : ScratchF Nat) :
    sarraySort [.int 8 PrimaryShared.id] st.pr s = .ok ((sharedIds np ids q).map (prRow ids ord (pflag (ids q)) q)) := by
  have hm : ∀ x, x ∈ st.pr ↔ ∃ a, a ∈ sharedIds np ids q ∧ x = prRow ids ord (pflag (ids q)) q a := by
    intro x
    rw [h.mem_pr]
    simp only [mem_sharedIds]
    rfl
  have hlt : (sharedIds np ids q).Pairwise (· < ·) := (sortedIds_lt _).filter _
  refine sarraySort_eq_of_inj ?_ ?_ ?_ ?_
  · intro f hf
    rw [List.mem_singleton] at hf
    subst hf
    intro r hr
    obtain ⟨a, ha, rfl⟩ := (hm r).1 hr
    obtain ⟨p, _, hs⟩ := mem_sharedIds.1 ha
    have := has_lt hi hs.2.1
    show a < 256 ^ 8
    norm_num
    omega
  · intro x hx y hy hs
    obtain ⟨a, ha, rfl⟩ := (hm x).1 hx
    obtain ⟨c, hc, rfl⟩ := (hm y).1 hy
    have h1 : a = c := hs (.nat PrimaryShared.id) (by simp [Field.key])
    rw [h1]
  · rw [List.perm_ext_iff_of_nodup]
    · intro x
      rw [hm, List.mem_map]
      constructor
      · rintro ⟨a, h1, rfl⟩; exact ⟨a, h1, rfl⟩
      · rintro ⟨a, h1, rfl⟩; exact ⟨a, h1, rfl⟩
    · unfold List.Nodup
      rw [List.pairwise_map]
      refine hlt.imp ?_
      intro a c hac e
      have : a = c := congrArg PrimaryShared.id e
      omega
    · exact h.pr_ne.imp fun h e => h (congrArg PrimaryShared.i e)
  · rw [List.pairwise_map]
    exact hlt.imp fun h => Or.inl h

/-- gs.c:289 -/
theorem sort_sh (hnp : np ≤ 4294967295) (hi : ∀ q, q < np → IdsOk (ids q)) (hq : q < np) {ord : Nat → Nat} {total : Nat} {st : TopoSt} (h : TopoCore np ids ord total q st) (s : ScratchF Nat) :
    sarraySort [.int 4 SharedId.i, .int 4 SharedId.p] st.sh s = .ok ((uids (ids q)).flatMap (gRows np ids q)) := by
  rw [← mqRows_zero]
  have hp : st.sh.Perm (mqRows np ids (fun _ _ => 0) q) := by
    rw [List.perm_ext_iff_of_nodup h.sh_nodup mqRows_nodup]
    intro x
    rw [h.mem_sh, mem_mqRows]
    rfl
  have hb : ∀ x ∈ st.sh, x ∈ sqRows np ids (fun _ _ => 0) q := fun x hx => mq_perm_sq.mem_iff.1 (hp.mem_iff.1 hx)
  refine sarraySort_eq_of_inj ?_ ?_ hp.symm ?_
  · intro f hf
    simp only [List.mem_cons, List.not_mem_nil, or_false] at hf
    rcases hf with rfl | rfl
    · intro r hr; exact (row_bounds hnp hi hq (hb r hr)).2.2
    · intro r hr; exact (row_bounds hnp hi hq (hb r hr)).1
  · intro x hx y hy hs
    obtain ⟨a, p, hp, h1, rfl⟩ := mem_sqRows.1 (hb x hx)
    obtain ⟨a', p', hp', h2, rfl⟩ := mem_sqRows.1 (hb y hy)
    have e1 : p = p' := hs (.nat SharedId.p) (by simp [Field.key])
    have e2 : prim (ids q) a = prim (ids q) a' := hs (.nat SharedId.i) (by simp [Field.key])
    rw [e1, prim_inj h1.2.1 h2.2.1 e2]
  · refine mqRows_sorted.imp ?_
    rintro x y (h | ⟨h1, h2⟩)
    · exact Or.inl h
    · exact Or.inr ⟨h1, Or.inl h2⟩

/-- make_topology_unique -/
theorem makeUnique_run (hnp : np ≤ 4294967295) (hi : ∀ q, q < np → IdsOk (ids q)) (hq : q < np) {ord : Nat → Nat} {total : Nat} {st : TopoSt} (h : TopoOk np ids ord total q st) (upd : Bool) :
    makeUnique upd q st = .ok { st with
      ids := if upd then uniqIds np ids q else ids q
      nz := uqRows (ids q) (fl2 np ids q)
      sh := (sortedIds (ids q)).flatMap (kept np ids q)
      pr := (sharedIds np ids q).map (prRow ids ord (fun a => if own np ids a = q then 0 else 1) q) } := by
  have hc := h.toTopoCore
  obtain ⟨w, e1, hw, hg⟩ := negNonPrimary_run (ids q) (fl0 (ids q)) (nzIdx (ids q)) (ids q) rfl (fun j hj => mem_nzIdx.1 hj) ((nzIdx_sorted _).imp fun h => by omega)
  unfold makeUnique
  rw [hc.nz_eq, sort_nz_i (hi q hq)]
  simp only [Outcome.bind]
  rw [flagNonPrimary_rows, sort_nz_primary (hi q hq), sort_sh hnp hi hq hc, h.ids_eq]
  have hloop : ∀ w' : List Int, w'.length = (ids q).length → uniqLoop upd q ((uids (ids q)).flatMap (gRows np ids q)) [] (uqRows (ids q) (fl1 (ids q))) w' [] =
      .ok ⟨if upd then negLost np ids q w' (uids (ids q)) else w', uqRows (ids q) (fl2 np ids q), (uids (ids q)).flatMap (kept np ids q)⟩ := by
    intro w' hw'
    exact uniqLoop_run hq upd (uids (ids q)) [] [] w' [] hw' (fun a ha => mem_uids.1 ha) (uids_nodup _) (by simp)
  have hfl : uniqFlags ((sortedIds (ids q)).flatMap (kept np ids q)) ((sharedIds np ids q).map (prRow ids ord (pflag (ids q)) q)) =
      .ok ((sharedIds np ids q).map (prRow ids ord (fun a => if own np ids a = q then 0 else 1) q)) :=
    uniqFlags_run ord _ _ (fun a ha => mem_sortedIds.1 ha) ((sortedIds_lt _).imp fun h => by omega)
  cases upd with
  | true =>
    simp only [if_true, e1]
    rw [hloop w hw]
    simp only [if_true]
    rw [sort_kept (hi q hq), sort_pr (hi q hq) hc, uniqIds_eq hq hw hg]
    simp only [hfl]
  | false =>
    simp only [Bool.false_eq_true, if_false]
    rw [hloop _ rfl]
    simp only [Bool.false_eq_true, if_false]
    rw [sort_kept (hi q hq), sort_pr (hi q hq) hc]
    simp only [hfl]

end Gslib.Gs
