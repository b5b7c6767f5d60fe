import Verif.Lemmas.GsUniqRun
import Verif.Lemmas.GsFinal
import Verif.Spec.GsUnique

/-! # The topology after make_topology_unique -/

namespace Gslib.Gs
open Gslib Gslib.Mpi Gslib.Sarray Gslib.Spec Gslib.Props

variable {np : Nat} {ids : Nat → List Int} {q : Nat}

theorem absAt_uniq (j : Nat) : absAt (uniqIds np ids q) j = absAt (ids q) j := by
  unfold absAt
  rw [idAt_uniqIds]
  split
  · unfold absAt; omega
  · rfl

theorem has_uniq {a : Nat} : has (uniqIds np ids q) a ↔ has (ids q) a := by
  rw [has_iff_grp, has_iff_grp]
  have : ∀ j, j ∈ grp (uniqIds np ids q) a ↔ j ∈ grp (ids q) a := by
    intro j
    rw [mem_grp', mem_grp', absAt_uniq]
  rw [Ne, Ne, List.eq_nil_iff_forall_not_mem, List.eq_nil_iff_forall_not_mem]
  simp only [this]

theorem idAt_uniq_pos {j : Nat} : 0 < idAt (uniqIds np ids q) j ↔ 0 < idAt (ids q) j ∧ j = prim (ids q) (absAt (ids q) j) ∧ own np ids (absAt (ids q) j) = q := by
  rw [idAt_uniqIds]
  split
  · rename_i h
    constructor
    · intro h'
      have h' : 0 < -((idAt (ids q) j).natAbs : Int) := h'
      omega
    · rintro ⟨_, h1, h2⟩
      exact absurd ⟨h1, h2⟩ h.2
  · rename_i h
    constructor
    · intro h1
      refine ⟨h1, ?_⟩
      by_contra hc
      exact h ⟨h1, hc⟩
    · exact fun h => h.1

theorem hasU_iff {l : List Int} {a : Nat} : hasU l a ↔ a ≠ 0 ∧ ∃ j, idAt l j = a := by
  unfold hasU
  constructor
  · rintro ⟨h1, h2⟩
    obtain ⟨j, _, h⟩ := exists_idAt h2
    exact ⟨h1, j, h⟩
  · rintro ⟨h1, j, hj⟩
    refine ⟨h1, ?_⟩
    rw [← hj]
    apply idAt_mem
    by_contra hc
    rw [idAt_ge l (by omega)] at hj
    omega

theorem hasU_uniq (hq : q < np) {a : Nat} : hasU (uniqIds np ids q) a ↔ own np ids a = q ∧ a ≠ 0 := by
  rw [hasU_iff]
  constructor
  · rintro ⟨h0, j, hj⟩
    have hp : 0 < idAt (uniqIds np ids q) j := by omega
    have ha : absAt (ids q) j = a := by
      rw [← absAt_uniq (np := np)]
      unfold absAt; omega
    have := idAt_uniq_pos.1 hp
    rw [ha] at this
    exact ⟨this.2.2, h0⟩
  · rintro ⟨ho, h0⟩
    have hU := own_hasU ho hq
    refine ⟨h0, prim (ids q) a, ?_⟩
    have hp := absAt_prim hU.has
    rcases idAt_prim hU.has with h | h
    · rw [idAt_uniqIds, hp, if_neg (fun hc => hc.2 ⟨rfl, ho⟩)]
      exact h.2
    · exact absurd hU h.1

theorem idAt_eq {l : List Int} {i : Nat} {x : Int} (h : l[i]? = some x) : idAt l i = x := by
  unfold idAt
  rw [List.getD_eq_getElem?_getD, h]; rfl

theorem getElem?_idAt {l : List Int} {i : Nat} (h : i < l.length) : l[i]? = some (idAt l i) := by
  unfold idAt
  rw [List.getD_eq_getElem?_getD, List.getElem?_eq_getElem h]; rfl

theorem lt_of_idAt {l : List Int} {i : Nat} (h : idAt l i ≠ 0) : i < l.length := by
  by_contra hc
  exact h (idAt_ge l (by omega))

/-- the ids after gs_unique -/
theorem uniqueOf_uniqIds (np : Nat) (ids : Nat → List Int) : UniqueOf np ids (uniqIds np ids) where
  length q _ := uniqIds_length
  abs q _ i := by
    by_cases h : i < (ids q).length
    · rw [getElem?_idAt h, getElem?_idAt (by rw [uniqIds_length]; exact h)]
      exact congrArg some (absAt_uniq i)
    · rw [List.getElem?_eq_none (by rw [uniqIds_length]; omega), List.getElem?_eq_none (by omega)]
  flagged q _ i x hx h0 := by
    have h : i < (ids q).length := (List.getElem?_eq_some_iff.1 hx).1
    rw [getElem?_idAt (by rw [uniqIds_length]; exact h), idAt_uniqIds, idAt_eq hx, if_neg (by omega)]
  one a ha hex := by
    obtain ⟨p, hp, hpa⟩ := hex
    obtain ⟨b, rfl⟩ := Int.eq_ofNat_of_zero_le (le_of_lt ha)
    have hb0 : b ≠ 0 := by omega
    have hn : unflProcs np ids b ≠ [] := List.ne_nil_of_mem (mem_unflProcs.2 ⟨hp, hb0, hpa⟩)
    have ho := mem_unflProcs.1 (own_mem hn)
    have key : ∀ x : Nat × Nat, x.1 < np → ((uniqIds np ids x.1)[x.2]? = some (b : Int) ↔ x.1 = own np ids b ∧ x.2 = prim (ids (own np ids b)) b) := by
      rintro ⟨q, i⟩ hq
      simp only
      constructor
      · intro hx
        have hi := idAt_eq hx
        have h1 := idAt_uniq_pos.1 (by rw [hi]; exact ha : 0 < idAt (uniqIds np ids q) i)
        have hab : absAt (ids q) i = b := by
          rw [← absAt_uniq (np := np)]
          unfold absAt; omega
        rw [hab] at h1
        have hq' : q = own np ids b := h1.2.2.symm
        subst hq'
        exact ⟨rfl, h1.2.1⟩
      · rintro ⟨rfl, rfl⟩
        have hh := ho.2.has
        rw [getElem?_idAt (by rw [uniqIds_length]; exact prim_lt_length hh), idAt_uniqIds, absAt_prim hh, if_neg (fun hc => hc.2 ⟨rfl, rfl⟩)]
        rcases idAt_prim hh with h | h
        · rw [h.2]
        · exact absurd ho.2 h.1
    refine ⟨(own np ids b, prim (ids (own np ids b)) b), ⟨ho.1, (key _ ho.1).2 ⟨rfl, rfl⟩⟩, ?_⟩
    rintro x ⟨h1, h2⟩
    have := (key x h1).1 h2
    exact Prod.ext this.1 this.2

/-! ### the topology, if flagged entries are not first -/

variable (hf : FlaggedLater (ids q))
include hf

theorem prim_min {a j : Nat} (h : has (ids q) a) (hj : absAt (ids q) j = a) : prim (ids q) a ≤ j := by
  have hg : grp (ids q) a = prim (ids q) a :: (grp (ids q) a).tail := grp_eq_cons (prim_of_has h)
  have hlt : ∀ k, absAt (ids q) k = a → k ≠ prim (ids q) a → FlagLt (ids q) (prim (ids q) a) k := by
    intro k hk hne
    have hp := grp_pairwise (ids q) a
    rw [hg, List.pairwise_cons] at hp
    apply hp.1
    have : k ∈ grp (ids q) a := mem_grp'.2 ⟨h.1, hk⟩
    rw [hg] at this
    rcases List.mem_cons.1 this with h | h
    · exact absurd h hne
    · exact h
  by_cases hjp : j = prim (ids q) a
  · omega
  rcases hlt j hj hjp with h1 | h1
  · by_contra hc
    have hpa := absAt_prim h
    have e1 : idAt (ids q) (prim (ids q) a) = a := by unfold absAt at hpa; omega
    have e2 : idAt (ids q) j = -(a : Int) := by unfold absAt at hj; omega
    have h0 := h.1
    have hja : j < (ids q).length := lt_of_idAt (by omega)
    have hpl := prim_lt_length h
    obtain ⟨k, hk, hka⟩ := hf j a (by omega) (by rw [getElem?_idAt hja, e2]) (by rw [← e1]; exact idAt_mem hpl)
    have hka' := idAt_eq hka
    have : FlagLt (ids q) (prim (ids q) a) k := hlt k (by unfold absAt; omega) (by omega)
    rcases this with h2 | h2 <;> omega
  · omega

theorem grp_uniq {a : Nat} (h : has (ids q) a) : grp (uniqIds np ids q) a = sgrp (ids q) a := by
  refine List.Perm.eq_of_pairwise (le := FlagLt (uniqIds np ids q)) ?_ (grp_pairwise _ a) ?_ ?_
  · intro x y _ _ h1 h2
    unfold FlagLt at *
    omega
  · refine List.Pairwise.imp_of_mem ?_ (sgrp_sorted (ids q) a)
    intro x y hx hy hxy
    rw [mem_sgrp h.1] at hx hy
    have hpx := prim_min hf h hx
    have hy' : ¬ 0 < idAt (uniqIds np ids q) y := by
      intro hc
      have := (idAt_uniq_pos.1 hc).2.1
      rw [hy] at this
      omega
    have ax : absAt (uniqIds np ids q) x = a := by rw [absAt_uniq, hx]
    have ay : absAt (uniqIds np ids q) y = a := by rw [absAt_uniq, hy]
    have h0 := h.1
    unfold absAt at ax ay
    unfold FlagLt
    omega
  · rw [List.perm_ext_iff_of_nodup (grp_nodup _ _) ((sgrp_sorted _ _).imp fun h => by omega)]
    intro j
    rw [mem_grp', mem_sgrp h.1, absAt_uniq]
    exact ⟨fun h => h.2, fun h' => ⟨h.1, h'⟩⟩

theorem prim_uniq {a : Nat} (h : has (ids q) a) : prim (uniqIds np ids q) a = prim (ids q) a := by
  unfold prim
  rw [grp_uniq hf h]
  have hm : prim (ids q) a ∈ sgrp (ids q) a := (mem_sgrp h.1).2 (absAt_prim h)
  show _ = prim (ids q) a
  cases hs : sgrp (ids q) a with
  | nil => rw [hs] at hm; simp at hm
  | cons x l =>
    have hx : absAt (ids q) x = a := (mem_sgrp h.1).1 (by rw [hs]; simp)
    have h1 := prim_min hf h hx
    rw [hs] at hm
    have hsort := sgrp_sorted (ids q) a
    rw [hs, List.pairwise_cons] at hsort
    rcases List.mem_cons.1 hm with h2 | h2
    · exact h2.symm
    · have := hsort.1 _ h2
      omega

theorem prims_uniq : prims (uniqIds np ids q) = prims (ids q) := by
  unfold prims
  rw [uniqIds_length]
  apply List.filter_congr
  intro j _
  rw [decide_eq_decide, absAt_uniq]
  have h1 : idAt (uniqIds np ids q) j ≠ 0 ↔ idAt (ids q) j ≠ 0 := by
    have := absAt_uniq (np := np) (ids := ids) (q := q) j
    unfold absAt at this
    omega
  rw [h1]
  constructor
  · rintro ⟨h2, h3⟩
    exact ⟨h2, by rw [← prim_uniq hf (has_absAt (by unfold absAt; omega)) (np := np)]; exact h3⟩
  · rintro ⟨h2, h3⟩
    exact ⟨h2, by rw [prim_uniq hf (has_absAt (by unfold absAt; omega))]; exact h3⟩

theorem uids_uniq : uids (uniqIds np ids q) = uids (ids q) := by
  unfold uids
  rw [prims_uniq hf]
  apply List.map_congr_left
  intro j _
  exact absAt_uniq j

theorem nzSpec_uniq (hq : q < np) : nzSpec (uniqIds np ids q) = uqRows (ids q) (fl2 np ids q) := by
  unfold nzSpec uqRows uids
  rw [prims_uniq hf, List.flatMap_map]
  apply List.flatMap_congr
  intro p hp
  rw [mem_prims] at hp
  have hh := has_absAt hp.1
  rw [absAt_uniq, grp_uniq hf hh]
  apply List.map_congr_left
  intro j hj
  rw [mem_sgrp hp.1] at hj
  unfold nzRow uRow
  rw [absAt_uniq, hj, hp.2]
  congr 1
  unfold fl2 fl1 fl0
  rw [hj, hp.2]
  have hj0 : absAt (ids q) j ≠ 0 := by rw [hj]; exact hp.1
  have hpos := idAt_uniq_pos (np := np) (ids := ids) (q := q) (j := j)
  rw [hj, hp.2] at hpos
  have hne : idAt (uniqIds np ids q) j ≠ 0 := by
    have := absAt_uniq (np := np) (ids := ids) (q := q) j
    unfold absAt at this hj0
    omega
  have hne' : idAt (ids q) j ≠ 0 := by unfold absAt at hj0; omega
  by_cases hl : lose np ids q (absAt (ids q) p)
  · rw [if_pos hl, if_pos]
    have : ¬ 0 < idAt (uniqIds np ids q) j := fun hc => hl.2 (hpos.1 hc).2.2
    omega
  · rw [if_neg hl]
    by_cases hjp : j ≠ p
    · rw [if_pos hjp, if_pos]
      have : ¬ 0 < idAt (uniqIds np ids q) j := fun hc => hjp (hpos.1 hc).2.1
      omega
    · rw [if_neg hjp]
      have hjp' : j = p := by omega
      by_cases hneg : idAt (ids q) j < 0
      · rw [if_pos hneg, if_pos]
        have : ¬ 0 < idAt (uniqIds np ids q) j := fun hc => by
          have := (hpos.1 hc).1
          omega
        omega
      · rw [if_neg hneg, if_neg]
        have h1 : 0 < idAt (ids q) j := by omega
        have hU := hasU_absAt h1
        rw [hj] at hU
        have ho : own np ids (absAt (ids q) p) = q := by
          by_contra hc
          exact hl ((lose_iff hq hU).2 hc)
        have : 0 < idAt (uniqIds np ids q) j := hpos.2 ⟨h1, hjp', ho⟩
        omega

omit hf

theorem shared_uniq (hq : q < np) {p a : Nat} (hp : p < np) : Shared2 (uniqIds np ids) q p a ↔ Shared2 ids q p a ∧ (own np ids a = q ∨ own np ids a = p) := by
  unfold Shared2
  rw [has_uniq, has_uniq, hasU_uniq hq, hasU_uniq hp]
  constructor
  · rintro ⟨h1, h2, h3, h4 | h4⟩
    · exact ⟨⟨h1, h2, h3, Or.inl (own_hasU h4.1 hq)⟩, Or.inl h4.1⟩
    · exact ⟨⟨h1, h2, h3, Or.inr (own_hasU h4.1 hp)⟩, Or.inr h4.1⟩
  · rintro ⟨⟨h1, h2, h3, _⟩, h4 | h4⟩
    · exact ⟨h1, h2, h3, Or.inl ⟨h4, h2.1⟩⟩
    · exact ⟨h1, h2, h3, Or.inr ⟨h4, h2.1⟩⟩

theorem shRow_uniq (hf : ∀ q, q < np → FlaggedLater (ids q)) (hq : q < np) {p a : Nat} (hp : p < np) (h : Shared2 ids q p a) : shRow (uniqIds np ids) q p a =
    { shRow ids q p a with flags := (if own np ids a = p then 0 else 2) ||| (if own np ids a = q then 0 else 1) } := by
  unfold shRow
  rw [prim_uniq (hf q hq) h.2.1, prim_uniq (hf p hp) h.2.2.1]
  have h1 := hasU_uniq (ids := ids) hq (a := a)
  have h2 := hasU_uniq (ids := ids) hp (a := a)
  have h0 := h.2.1.1
  simp only [h1, h2, h0, ne_eq, not_false_eq_true, and_true]

theorem topo_uniq (hf : ∀ q, q < np → FlaggedLater (ids q)) (hq : q < np) {ord : Nat → Nat} {total : Nat} {st : TopoSt} (h : TopoCore np ids ord total q st) (l : List Int) :
    TopoCore np (uniqIds np ids) ord total q { st with
      ids := l
      nz := uqRows (ids q) (fl2 np ids q)
      sh := (sortedIds (ids q)).flatMap (kept np ids q)
      pr := (sharedIds np ids q).map (prRow ids ord (fun a => if own np ids a = q then 0 else 1) q) } where
  nz_eq := (nzSpec_uniq (hf q hq) hq).symm
  total_eq := h.total_eq
  sh_nodup := by
    unfold List.Nodup
    simp only
    rw [List.pairwise_flatMap]
    constructor
    · intro a _
      refine (kept_order a).imp ?_
      rintro x y h rfl
      unfold ILt at h
      omega
    · refine (sortedIds_lt (ids q)).imp ?_
      rintro a c hac x hx y hy rfl
      have h1 := (kept_row hx).1
      have h2 := (kept_row hy).1
      omega
  mem_sh x := by
    simp only
    rw [List.mem_flatMap]
    constructor
    · rintro ⟨a, ha, hx⟩
      obtain ⟨p, hp, hs, h1⟩ := kept_mem hq hx
      refine ⟨a, p, hp, ?_, ?_⟩
      · rw [shared_uniq hq hp]
        refine ⟨hs, ?_⟩
        rcases h1 with h1 | h1
        · exact Or.inl h1.1
        · exact Or.inr h1.2.1.symm
      · rw [shRow_uniq hf hq hp hs]
        rcases h1 with ⟨ho, rfl⟩ | ⟨ho, hpo, rfl⟩
        · rw [if_pos ho, if_neg (fun hc => hs.1 (hc.symm.trans ho))]; rfl
        · rw [if_neg ho, if_pos hpo.symm]; rfl
    · rintro ⟨a, p, hp, hs, rfl⟩
      rw [shared_uniq hq hp] at hs
      refine ⟨a, mem_sortedIds.2 hs.1.2.1, ?_⟩
      have hm : shRow ids q p a ∈ gRows np ids q a := List.mem_map.2 ⟨p, by rw [List.mem_filter, List.mem_range, decide_eq_true_eq]; exact ⟨hp, hs.1⟩, rfl⟩
      rw [shRow_uniq hf hq hp hs.1]
      unfold kept
      rw [if_neg (List.ne_nil_of_mem hm)]
      by_cases ho : own np ids a = q
      · rw [if_pos ho, if_pos ho, if_neg (fun hc => hs.1.1 (hc.symm.trans ho))]
        exact List.mem_map.2 ⟨_, hm, rfl⟩
      · have hop : own np ids a = p := by
          rcases hs.2 with h | h
          · exact absurd h ho
          · exact h
        rw [if_neg ho, if_neg ho, if_pos hop, List.mem_singleton, hop]; rfl
  pr_ne := by
    simp only
    rw [List.pairwise_map]
    refine List.Pairwise.imp_of_mem ?_ ((sortedIds_lt (ids q)).filter _ : (sharedIds np ids q).Pairwise (· < ·))
    intro a c ha hc hac e
    obtain ⟨_, _, h1⟩ := mem_sharedIds.1 ha
    obtain ⟨_, _, h2⟩ := mem_sharedIds.1 hc
    have := prim_inj h1.2.1 h2.2.1 e
    omega
  mem_pr x := by
    simp only
    rw [List.mem_map]
    have hsh : ∀ a, a ∈ sharedIds np ids q ↔ ∃ p, p < np ∧ Shared2 (uniqIds np ids) q p a := by
      intro a
      rw [mem_sharedIds]
      constructor
      · rintro ⟨p, hp, hs⟩
        by_cases ho : own np ids a = q
        · exact ⟨p, hp, (shared_uniq hq hp).2 ⟨hs, Or.inl ho⟩⟩
        · have := own_of_shared hq hp hs
          exact ⟨own np ids a, this.1, (shared_uniq hq this.1).2 ⟨⟨ho, hs.2.1, this.2.has, Or.inr this.2⟩, Or.inr rfl⟩⟩
      · rintro ⟨p, hp, hs⟩
        exact ⟨p, hp, ((shared_uniq hq hp).1 hs).1⟩
    have hrow : ∀ a, a ∈ sharedIds np ids q → prRow ids ord (fun a => if own np ids a = q then 0 else 1) q a = ⟨a, ord a, prim (uniqIds np ids q) a, pflag (uniqIds np ids q) a⟩ := by
      intro a ha
      obtain ⟨p, _, hs⟩ := mem_sharedIds.1 ha
      unfold prRow pflag
      rw [prim_uniq (hf q hq) hs.2.1]
      have h1 := hasU_uniq (ids := ids) hq (a := a)
      simp only [h1, hs.2.1.1, ne_eq, not_false_eq_true, and_true]
    constructor
    · rintro ⟨a, ha, rfl⟩
      exact ⟨a, (hsh a).1 ha, hrow a ha⟩
    · rintro ⟨a, ha, rfl⟩
      exact ⟨a, (hsh a).2 ha, hrow a ((hsh a).2 ha)⟩

theorem idsOk_uniq (h : IdsOk (ids q)) : IdsOk (uniqIds np ids q) where
  len := by rw [uniqIds_length]; exact h.len
  abs x hx := by
    obtain ⟨j, hj, rfl⟩ := exists_idAt hx
    show absAt _ _ < _
    rw [absAt_uniq]
    exact h.abs _ (idAt_mem (by rw [uniqIds_length] at hj; exact hj))

theorem ordOk_uniq {ord : Nat → Nat} {total : Nat} (h : OrdOk np ids ord total) : OrdOk np (uniqIds np ids) ord total := by
  have hs : ∀ a, IsShared np (uniqIds np ids) a → IsShared np ids a := by
    rintro a ⟨q, p, hq, hp, hs⟩
    exact ⟨q, p, hq, hp, ((shared_uniq hq hp).1 hs).1⟩
  exact ⟨fun a ha => h.lt a (hs a ha), fun a b ha hb => h.inj a b (hs a ha) (hs b hb)⟩

theorem sharedPairs_uniq : sharedPairs np (uniqIds np ids) = sharedPairs np ids := by
  unfold sharedPairs
  apply Finset.sum_congr rfl
  intro q _
  apply Finset.sum_congr rfl
  intro p _
  apply List.Perm.length_eq
  rw [List.perm_ext_iff_of_nodup ((uids_nodup _).filter _) ((uids_nodup _).filter _)]
  intro a
  rw [List.mem_filter, List.mem_filter, mem_uids, mem_uids, decide_eq_true_eq, decide_eq_true_eq, has_uniq, has_uniq]

theorem Handles.congr {h h' : Nat → GsData} (hh : Handles np ids h) (he : ∀ q, q < np → h' q = h q) : Handles np ids h' := by
  refine ⟨hh.ids_ok, hh.bound, hh.small, ?_, ?_⟩
  · intro q hq
    rw [he q hq]; exact hh.ok.loc q hq
  · have heq : ∀ q, q < np → (h' q).r = (h q).r := fun q hq => by rw [he q hq]
    cases hh.ok.remote with
    | pairwise h => exact .pairwise fun q hq => (heq q hq).trans (h q hq)
    | crystal d hd h => exact .crystal d hd fun q hq => (heq q hq).trans (h q hq)
    | allreduce st ord total ho htot hst h => exact .allreduce st ord total ho htot hst fun q hq => (heq q hq).trans (h q hq)

/-- gs_unique -/
theorem gsUnique_run (hin : GsInput np ids) (s0 : Nat → TopoSt) (h0 : ∀ q, q < np → (s0 q).ids = ids q) :
    ∃ s' : Nat → TopoSt, (gsUnique np).run np s0 = .ok s' ∧ ∀ q, q < np → (s' q).ids = uniqIds np ids q := by
  have hsm : sharedPairs np ids * 40 < Crystal.intMax := by
    rw [sharedPairs_eq]
    have := hin.small
    have h2 : Crystal.intMax = 2147483647 := rfl
    omega
  obtain ⟨ord, total, sf, e1, ho, hto, h1⟩ := getTopology_run hin.np_le hin.ids_ok hsm s0 h0
  refine ⟨_, Coll.seq_run_ok (ok_getTopology np) e1 (Coll.loc_run_ok fun q hq => makeUnique_run hin.np_le hin.ids_ok hq (h1 q hq) true), ?_⟩
  intro q hq
  beta_reduce
  rw [if_pos hq]; rfl

theorem gsUnique_ok (np : Nat) : (gsUnique np).Ok np := Coll.seq_ok (ok_getTopology np) (Coll.loc_ok _ _ _)

/-- gs_setup with `unique = 1` -/
theorem gsSetup_unique_run (hin : GsInput np ids) (hf : ∀ q, q < np → FlaggedLater (ids q)) (m : Method) (s0 : Nat → SetupSt) (h0 : ∀ q, q < np → (s0 q).topo.ids = ids q) :
    ∃ s' : Nat → SetupSt, (gsSetup true m np).run np s0 = .ok s' ∧ Handles np (uniqIds np ids) fun q => (s' q).h := by
  have hsm : sharedPairs np ids * 40 < Crystal.intMax := by
    rw [sharedPairs_eq]
    have := hin.small
    have h2 : Crystal.intMax = 2147483647 := rfl
    omega
  have hsm' : sharedPairs np (uniqIds np ids) < 4294967295 := by
    rw [sharedPairs_uniq]
    have h2 : Crystal.intMax = 2147483647 := rfl
    omega
  obtain ⟨ord, total, sf, e1, ho, hto, h1⟩ := getTopology_run hin.np_le hin.ids_ok hsm (fun q => (s0 q).topo) h0
  have r1 : (setupTopo np).run np s0 = .ok (putAll SetupSt.setTopo np s0 sf) := by
    unfold setupTopo
    rw [Coll.lift_run lens_topo _ np s0 (fun q => (s0 q).topo) (fun _ _ => rfl), Coll.mapW_run Sum.inl SetupMsg.topo (fun _ => rfl), e1]; rfl
  let s1 := putAll SetupSt.setTopo np s0 sf
  have hs1 : ∀ q, q < np → s1 q = (s0 q).setTopo (sf q) := by
    intro q hq
    show putAll _ _ _ _ q = _
    unfold putAll
    rw [if_pos hq]
  let tp : Nat → TopoSt := fun q => { sf q with
      ids := if false then uniqIds np ids q else ids q
      nz := uqRows (ids q) (fl2 np ids q)
      sh := (sortedIds (ids q)).flatMap (kept np ids q)
      pr := (sharedIds np ids q).map (prRow ids ord (fun a => if own np ids a = q then 0 else 1) q) }
  have htp : ∀ q, q < np → TopoCore np (uniqIds np ids) ord total q (tp q) := fun q hq => topo_uniq hf hq (h1 q hq).toTopoCore _
  let s2 : Nat → SetupSt := fun q => if q < np then { s1 q with topo := tp q, h := localSetup (tp q).nz (s1 q).h.r } else s1 q
  have hs2 : ∀ q, q < np → s2 q = { s1 q with topo := tp q, h := localSetup (tp q).nz (s1 q).h.r } := fun q hq => if_pos hq
  have r2 : (setupLoc (setupLocal true)).run np s1 = .ok s2 := Coll.loc_run_ok fun q hq => by
    unfold setupLocal
    rw [if_pos rfl, hs1 q hq]
    show (makeUnique false q (sf q)).bind _ = _
    rw [makeUnique_run hin.np_le hin.ids_ok hq (h1 q hq) false]; rfl
  have htot : 3 * total < 4294967295 := by
    have h2 : Crystal.intMax = 2147483647 := rfl
    omega
  obtain ⟨s3, r3, h3⟩ := remoteSetup_run hin.np_le (fun q hq => idsOk_uniq (hin.ids_ok q hq)) hsm' (ordOk_uniq ho) htot m s2 (by
      intro q hq
      rw [hs2 q hq]
      exact htp q hq) (by
      intro q hq
      rw [hs2 q hq]
      show localSetup (tp q).nz _ = localSetup _ (localSetup _ _).r
      rw [(htp q hq).nz_eq]; rfl)
  refine ⟨s3, ?_, fun q hq => idsOk_uniq (hin.ids_ok q hq), ⟨total, (ordOk_uniq ho).idBound, htot⟩, hsm', h3⟩
  have k1 := setupTopo_ok np
  have k2 : (setupLoc (setupLocal true)).Ok np := Coll.loc_ok _ _ _
  exact Coll.seq_run_ok (Coll.seq_ok k1 k2) (Coll.seq_run_ok k1 r1 r2) r3

end Gslib.Gs
