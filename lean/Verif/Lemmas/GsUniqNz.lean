import Verif.Lemmas.GsPw
import Verif.Model.GsUnique

/-! # make_topology_unique: the rows of `nz` -/

namespace Gslib.Gs
open Gslib Gslib.Sarray Gslib.Spec

/-- the indices with id `a` or `-a`, in order -/
def sgrp (ids : List Int) (a : Nat) : List Nat := (List.range ids.length).filter fun j => absAt ids j = a

theorem mem_sgrp {ids : List Int} {a j : Nat} (ha : a ≠ 0) : j ∈ sgrp ids a ↔ absAt ids j = a := by
  unfold sgrp
  simp only [List.mem_filter, List.mem_range, decide_eq_true_eq]
  constructor
  · exact fun h => h.2
  · intro h
    refine ⟨?_, h⟩
    by_contra hc
    rw [absAt_ge ids (by omega)] at h
    exact ha h.symm

/-- a row of `nz` with the flag `fl` -/
def uRow (ids : List Int) (fl : Nat → Nat) (j : Nat) : NonzeroId := ⟨absAt ids j, j, fl j, prim ids (absAt ids j)⟩

/-- the indices of the rows of `nz` -/
def nzIdx (ids : List Int) : List Nat := (List.range ids.length).filter fun j => absAt ids j ≠ 0

theorem mem_nzIdx {ids : List Int} {j : Nat} : j ∈ nzIdx ids ↔ absAt ids j ≠ 0 := by
  unfold nzIdx
  simp only [List.mem_filter, List.mem_range, decide_eq_true_eq]
  constructor
  · exact fun h => h.2
  · intro h
    refine ⟨?_, h⟩
    by_contra hc
    exact h (absAt_ge ids (by omega))

theorem nzIdx_sorted (ids : List Int) : (nzIdx ids).Pairwise (· < ·) := List.pairwise_lt_range.filter _

/-- the flags of get_topology -/
def fl0 (ids : List Int) (j : Nat) : Nat := if idAt ids j < 0 then 1 else 0

/-- the flags after gs.c:266-277 -/
def fl1 (ids : List Int) (j : Nat) : Nat := if j ≠ prim ids (absAt ids j) then 1 else fl0 ids j

theorem uRow_inj {ids : List Int} {fl : Nat → Nat} {j k : Nat} (h : uRow ids fl j = uRow ids fl k) : j = k := congrArg NonzeroId.i h

theorem nzSpec_nodup (ids : List Int) : (nzSpec ids).Nodup := by
  unfold nzSpec
  unfold List.Nodup
  rw [List.pairwise_flatMap]
  constructor
  · intro p _
    rw [List.pairwise_map]
    refine (grp_nodup ids _).imp ?_
    intro x y hxy e
    exact hxy (congrArg NonzeroId.i e)
  · refine List.Pairwise.imp_of_mem ?_ ((List.pairwise_lt_range (n := ids.length)).filter _ : (prims ids).Pairwise (· < ·))
    intro p p' _ _ hpp x hx y hy e
    obtain ⟨k, _, rfl⟩ := List.mem_map.1 hx
    obtain ⟨k', _, rfl⟩ := List.mem_map.1 hy
    have := congrArg NonzeroId.primary e
    simp only [nzRow] at this
    omega

theorem mem_nzSpec {ids : List Int} {x : NonzeroId} : x ∈ nzSpec ids ↔ ∃ j, absAt ids j ≠ 0 ∧ x = uRow ids (fl0 ids) j := by
  unfold nzSpec
  simp only [List.mem_flatMap, List.mem_map]
  constructor
  · rintro ⟨p, hp, j, hj, rfl⟩
    rw [mem_prims] at hp
    have h2 := mem_grp'.1 hj
    refine ⟨j, h2.2 ▸ hp.1, ?_⟩
    unfold nzRow uRow fl0
    rw [h2.2, hp.2]
  · rintro ⟨j, hj, rfl⟩
    have hg : j ∈ grp ids (absAt ids j) := mem_grp'.2 ⟨hj, rfl⟩
    obtain ⟨h1, h2⟩ := prim_mem_prims hg
    refine ⟨prim ids (absAt ids j), h1, j, ?_, ?_⟩
    · rw [h2]; exact hg
    · rfl

theorem uRow_bounds {ids : List Int} (hi : IdsOk ids) {fl : Nat → Nat} {j : Nat} (hj : absAt ids j ≠ 0) : (uRow ids fl j).i < 256 ^ 4 ∧ (uRow ids fl j).primary < 256 ^ 4 := by
  have hh := has_absAt hj
  have h1 := prim_lt_length hh
  have h2 := (mem_grp.1 (mem_grp'.2 ⟨hj, rfl⟩ : j ∈ grp ids (absAt ids j))).2.1
  have h3 := hi.len
  simp only [uRow]
  norm_num
  omega

/-- gs.c:266 -/
theorem sort_nz_i {ids : List Int} (hi : IdsOk ids) (s : ScratchF Nat) :
    sarraySort [.int 4 NonzeroId.i] (nzSpec ids) s = .ok ((nzIdx ids).map (uRow ids (fl0 ids))) := by
  refine sarraySort_eq_of_inj ?_ ?_ ?_ ?_
  · intro f hf
    rw [List.mem_singleton] at hf
    subst hf
    intro r hr
    obtain ⟨j, hj, rfl⟩ := mem_nzSpec.1 hr
    exact (uRow_bounds hi hj).1
  · intro x hx y hy hs
    obtain ⟨j, hj, rfl⟩ := mem_nzSpec.1 hx
    obtain ⟨k, hk, rfl⟩ := mem_nzSpec.1 hy
    have h1 : j = k := hs (.nat NonzeroId.i) (by simp [Field.key])
    rw [h1]
  · rw [List.perm_ext_iff_of_nodup _ (nzSpec_nodup ids)]
    · intro x
      rw [mem_nzSpec, List.mem_map]
      constructor
      · rintro ⟨j, hj, rfl⟩; exact ⟨j, mem_nzIdx.1 hj, rfl⟩
      · rintro ⟨j, hj, rfl⟩; exact ⟨j, mem_nzIdx.2 hj, rfl⟩
    · unfold List.Nodup
      rw [List.pairwise_map]
      refine (nzIdx_sorted ids).imp ?_
      intro x y hxy e
      have := uRow_inj e
      omega
  · rw [List.pairwise_map]
    exact (nzIdx_sorted ids).imp fun h => Or.inl h

theorem flagNonPrimary_rows (ids : List Int) : flagNonPrimary ((nzIdx ids).map (uRow ids (fl0 ids))) = (nzIdx ids).map (uRow ids (fl1 ids)) := by
  unfold flagNonPrimary
  rw [List.map_map]
  apply List.map_congr_left
  intro j _
  by_cases h : j ≠ prim ids (absAt ids j)
  · refine (if_pos (show (uRow ids (fl0 ids) j).i ≠ (uRow ids (fl0 ids) j).primary from h)).trans ?_
    simp only [uRow, fl1]
    rw [if_pos h]
  · refine (if_neg (show ¬ (uRow ids (fl0 ids) j).i ≠ (uRow ids (fl0 ids) j).primary from h)).trans ?_
    simp only [uRow, fl1]
    rw [if_neg h]

/-- the rows after gs.c:278: groups in the order of their primaries -/
def uqRows (ids : List Int) (fl : Nat → Nat) : List NonzeroId := (uids ids).flatMap fun a => (sgrp ids a).map (uRow ids fl)

theorem sgrp_sorted (ids : List Int) (a : Nat) : (sgrp ids a).Pairwise (· < ·) := List.pairwise_lt_range.filter _

theorem uqRows_order (ids : List Int) (fl : Nat → Nat) : (uqRows ids fl).Pairwise fun x y => x.primary < y.primary ∨ (x.primary = y.primary ∧ x.i < y.i) := by
  unfold uqRows
  rw [List.pairwise_flatMap]
  constructor
  · intro a ha
    have ha0 := (mem_uids.1 ha).1
    rw [List.pairwise_map]
    refine List.Pairwise.imp_of_mem ?_ (sgrp_sorted ids a)
    intro x y hx hy h
    rw [mem_sgrp ha0] at hx hy
    refine Or.inr ⟨?_, h⟩
    simp only [uRow]; rw [hx, hy]
  · refine List.Pairwise.imp_of_mem ?_ (uids_prim_sorted ids)
    intro a c ha hc hac x hx y hy
    obtain ⟨j, hj, rfl⟩ := List.mem_map.1 hx
    obtain ⟨k, hk, rfl⟩ := List.mem_map.1 hy
    rw [mem_sgrp (mem_uids.1 ha).1] at hj
    rw [mem_sgrp (mem_uids.1 hc).1] at hk
    left
    simp only [uRow]; rw [hj, hk]; exact hac

theorem mem_uqRows {ids : List Int} {fl : Nat → Nat} {x : NonzeroId} : x ∈ uqRows ids fl ↔ ∃ j, absAt ids j ≠ 0 ∧ x = uRow ids fl j := by
  unfold uqRows
  simp only [List.mem_flatMap, List.mem_map]
  constructor
  · rintro ⟨a, ha, j, hj, rfl⟩
    have ha0 := (mem_uids.1 ha).1
    rw [mem_sgrp ha0] at hj
    exact ⟨j, hj ▸ ha0, rfl⟩
  · rintro ⟨j, hj, rfl⟩
    exact ⟨absAt ids j, mem_uids.2 (has_absAt hj), j, (mem_sgrp hj).2 rfl, rfl⟩

/-- gs.c:278 -/
theorem sort_nz_primary {ids : List Int} (hi : IdsOk ids) (fl : Nat → Nat) (s : ScratchF Nat) :
    sarraySort [.int 4 NonzeroId.primary] ((nzIdx ids).map (uRow ids fl)) s = .ok (uqRows ids fl) := by
  refine sarraySort_eq (R := fun x y => x.i < y.i) ?_ ?_ ?_ ?_ ?_
  · intro f hf
    rw [List.mem_singleton] at hf
    subst hf
    intro r hr
    obtain ⟨j, hj, rfl⟩ := List.mem_map.1 hr
    exact (uRow_bounds hi (mem_nzIdx.1 hj)).2
  · intro x y h h'
    omega
  · rw [List.pairwise_map]
    exact nzIdx_sorted ids
  · rw [List.perm_ext_iff_of_nodup]
    · intro x
      rw [mem_uqRows, List.mem_map]
      constructor
      · rintro ⟨j, hj, rfl⟩; exact ⟨j, mem_nzIdx.2 hj, rfl⟩
      · rintro ⟨j, hj, rfl⟩; exact ⟨j, mem_nzIdx.1 hj, rfl⟩
    · refine (uqRows_order ids fl).imp ?_
      rintro x y h rfl
      omega
    · unfold List.Nodup
      rw [List.pairwise_map]
      refine (nzIdx_sorted ids).imp ?_
      intro x y hxy e
      have := uRow_inj e
      omega
  · refine (uqRows_order ids fl).imp ?_
    intro x y h
    refine ⟨?_, ?_⟩
    · rcases h with h | h
      · exact Or.inl h
      · exact Or.inr ⟨h.1, trivial⟩
    · intro hs
      have h1 : x.primary = y.primary := hs (.nat NonzeroId.primary) (by simp [Field.key])
      omega

/-- the ids after gs.c:267-272 -/
theorem negNonPrimary_run (ids : List Int) (fl : Nat → Nat) : ∀ (l : List Nat) (w : List Int), w.length = ids.length → (∀ j ∈ l, absAt ids j ≠ 0) → l.Nodup →
    ∃ w', negNonPrimary (l.map (uRow ids fl)) w = .ok w' ∧ w'.length = ids.length ∧
      ∀ j, w'.getD j 0 = if j ∈ l ∧ j ≠ prim ids (absAt ids j) then -(absAt ids j : Int) else w.getD j 0
  | [], w, hw, _, _ => ⟨w, rfl, hw, by simp⟩
  | j :: l, w, hw, h, hn => by
    have hj : j < w.length := by
      rw [hw]
      have := h j (by simp)
      by_contra hc
      exact this (absAt_ge ids (by omega))
    have hn' := List.nodup_cons.1 hn
    rw [List.map_cons, negNonPrimary]
    by_cases hp : j ≠ prim ids (absAt ids j)
    · rw [if_pos (show (uRow ids fl j).i ≠ (uRow ids fl j).primary from hp), if_pos (show (uRow ids fl j).i < w.length from hj)]
      obtain ⟨w', e, h1, h2⟩ := negNonPrimary_run ids fl l (w.set (uRow ids fl j).i (-((uRow ids fl j).id : Int))) (by simp [hw]) (fun k hk => h k (by simp [hk])) hn'.2
      refine ⟨w', e, h1, ?_⟩
      intro k
      rw [h2]
      by_cases hk : k ∈ l
      · have hkj : k ≠ j := fun e => hn'.1 (e ▸ hk)
        by_cases hkp : k ≠ prim ids (absAt ids k)
        · rw [if_pos ⟨hk, hkp⟩, if_pos ⟨by simp [hk], hkp⟩]
        · rw [if_neg (fun hc => hkp hc.2), if_neg (fun hc => hkp hc.2)]
          simp only [uRow, List.getD_eq_getElem?_getD]
          rw [List.getElem?_set_ne (Ne.symm hkj)]
      · rw [if_neg (fun hc => hk hc.1)]
        by_cases hkj : k = j
        · subst hkj
          rw [if_pos ⟨by simp, hp⟩]
          simp only [uRow, List.getD_eq_getElem?_getD]
          rw [List.getElem?_set_self hj]; rfl
        · rw [if_neg (fun hc => by rcases List.mem_cons.1 hc.1 with h | h; exacts [hkj h, hk h])]
          simp only [uRow, List.getD_eq_getElem?_getD]
          rw [List.getElem?_set_ne (Ne.symm hkj)]
    · rw [if_neg (show ¬ (uRow ids fl j).i ≠ (uRow ids fl j).primary from hp)]
      obtain ⟨w', e, h1, h2⟩ := negNonPrimary_run ids fl l w hw (fun k hk => h k (by simp [hk])) hn'.2
      refine ⟨w', e, h1, ?_⟩
      intro k
      rw [h2]
      by_cases hkj : k = j
      · subst hkj
        rw [if_neg (fun hc => hp hc.2), if_neg (fun hc => hp hc.2)]
      · have : (k ∈ j :: l) ↔ k ∈ l := by simp [hkj]
        simp only [this]

end Gslib.Gs
