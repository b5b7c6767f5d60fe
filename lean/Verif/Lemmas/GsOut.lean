import Verif.Lemmas.GsAux

/-! # `gsVal` is the specification -/

namespace Gslib.Gs
open Gslib Gslib.Mpi Gslib.Spec Gslib.Props

variable {V : Type} {ok : V → Prop} {f : V → V → V} {e : V} {np : Nat} {ids : Nat → List Int}

theorem zip_tab (ids : List Int) (w : Nat → V) : ids.zip (tab ids.length w) = (List.range ids.length).map fun k => (idAt ids k, w k) := by
  apply List.ext_getElem
  · simp [tab_length]
  · intro k h1 h2
    have hk : k < ids.length := by simpa using h2
    simp [tab, idAt, List.getD_eq_getElem?_getD, hk]

theorem pick_tab (c : Int → Bool) (ids : List Int) (w : Nat → V) : pick c ids (tab ids.length w) = ((List.range ids.length).filter fun j => c (idAt ids j)).map w := by
  unfold pick
  rw [zip_tab, List.filter_map, List.map_map]
  rfl

theorem unflagged_tab (w : Nat → Nat → V) (a : Nat) : unflagged np ids (fun q => tab (ids q).length (w q)) a = (List.range np).flatMap fun q => (unflIdx (ids q) a).map (w q) := by
  unfold unflagged
  apply List.flatMap_congr
  intro q _
  rw [pick_tab]
  rfl

theorem members_tab (w : Nat → Nat → V) (a : Nat) : members np ids (fun q => tab (ids q).length (w q)) a =
    (List.range np).flatMap fun q => ((List.range (ids q).length).filter fun j => absAt (ids q) j = a).map (w q) := by
  unfold members
  apply List.flatMap_congr
  intro q _
  rw [pick_tab]
  rfl

theorem grp_perm (ids : List Int) {a : Nat} (h0 : a ≠ 0) : (grp ids a).Perm ((List.range ids.length).filter fun j => absAt ids j = a) := by
  rw [List.perm_ext_iff_of_nodup (grp_nodup ids a) (List.nodup_range.filter _)]
  intro j
  rw [mem_grp, List.mem_filter, List.mem_range, decide_eq_true_eq]
  exact ⟨fun h => h.2, fun h => ⟨h0, h⟩⟩

theorem contrib_flatMap (t : Bool) {a : Nat} (h0 : a ≠ 0) (g : Nat → Nat → V) :
    (contrib t np ids a).flatMap (fun p => (mem' (!t) (ids p) a).map (g p)) = (List.range np).flatMap fun p => (mem' (!t) (ids p) a).map (g p) := by
  unfold contrib
  apply flatMap_filter_ne (fun p => Contrib t (ids p) a)
  intro p hp
  have : mem' (!t) (ids p) a = [] := by
    by_contra hne
    apply hp
    cases t
    · exact (hasU_iff_unfl h0).2 hne
    · exact has_iff_grp.2 hne
  rw [this]; rfl

theorem lone_iff {ids : List Int} {k : Nat} (hk : k < ids.length) (hneg : idAt ids k < 0) : k = prim ids (absAt ids k) ↔ loneFlagged ids k (absAt ids k) := by
  have ha0 : absAt ids k ≠ 0 := by unfold absAt; omega
  have ha := has_absAt ha0
  have hkg : k ∈ grp ids (absAt ids k) := mem_grp'.2 ⟨ha0, rfl⟩
  have hpg := prim_of_has ha
  have hcons := grp_eq_cons hkg
  have hpw := grp_pairwise ids (absAt ids k)
  rw [hcons, List.pairwise_cons] at hpw
  unfold loneFlagged
  constructor
  · intro hkp
    rcases idAt_prim ha with h5 | h5
    · rw [← hkp] at h5
      omega
    · constructor
      · intro hm
        exact h5.1 ⟨ha0, hm⟩
      · intro j hj hja
        have hjg : j ∈ grp ids (absAt ids k) := mem_grp'.2 ⟨ha0, hja⟩
        rw [hcons] at hjg
        rcases List.mem_cons.1 hjg with h | h
        · omega
        · rcases hpw.1 j h with h6 | h6
          · rw [← hkp] at h6; omega
          · omega
  · rintro ⟨h1, h2⟩
    by_contra hne
    have hkt := hkg
    rw [hcons] at hkt
    rcases List.mem_cons.1 hkt with h | h
    · exact hne h
    · rcases hpw.1 k h with h6 | h6
      · have h7 := (mem_grp.1 hpg)
        apply h1
        have : idAt ids (prim ids (absAt ids k)) = (absAt ids k : Int) := by
          have h8 := h7.2.2
          generalize prim ids (absAt ids k) = x at *
          unfold absAt at *
          omega
        rw [← this]
        exact idAt_mem h7.2.1
      · exact h2 _ h6.2 (mem_grp.1 hpg).2.2

theorem tab_gsOut (M : CommMonoidOn ok f e) (w : Nat → Nat → V) (hw : ∀ q, q < np → ∀ k, absAt (ids q) k ≠ 0 → ok (w q k)) (q : Nat) :
    tab (ids q).length (gsVal f e false np ids w q) = gsOut f e np ids (fun q => tab (ids q).length (w q)) q := by
  unfold gsOut
  rw [zip_tab, List.map_map]
  unfold tab
  apply List.map_congr_left
  intro k _
  unfold gsVal
  show _ = if idAt (ids q) k = 0 then w q k else reduce f e (unflagged np ids (fun q => tab (ids q).length (w q)) (absAt (ids q) k))
  split
  · rfl
  · rename_i h0
    rw [if_neg (by simp), unflagged_tab]
    have h1 : absAt (ids q) k ≠ 0 := by unfold absAt; omega
    have h2 := contrib_flatMap (np := np) (ids := ids) false h1 w
    show _ = reduce f e ((List.range np).flatMap fun p => (mem' (!false) (ids p) (absAt (ids q) k)).map (w p))
    rw [← h2, M.reduce_flatMap]
    · rfl
    · intro p hp v hv
      obtain ⟨j, hj, rfl⟩ := List.mem_map.1 hv
      have hj := mem_grp'.1 (mem'_sub h1 hj)
      exact hw p (mem_contrib.1 hp).1 j (by rw [hj.2]; exact h1)

theorem zipIdx_map_range {A : Type} (n : Nat) (g : Nat → A) : ((List.range n).map g).zipIdx = (List.range n).map fun k => (g k, k) := by
  apply List.ext_getElem?
  intro k
  simp only [List.getElem?_zipIdx, List.getElem?_map, List.getElem?_range]
  by_cases hk : k < n
  · simp [hk, List.getElem?_range]
  · rw [List.getElem?_eq_none (by simp; omega)]; rfl

theorem tab_gsOutT (M : CommMonoidOn ok f e) (w : Nat → Nat → V) (hw : ∀ q, q < np → ∀ k, absAt (ids q) k ≠ 0 → ok (w q k)) {q : Nat} (hq : q < np) :
    tab (ids q).length (gsVal f e true np ids w q) = gsOutT f e np ids (fun q => tab (ids q).length (w q)) q := by
  unfold gsOutT
  rw [zip_tab, zipIdx_map_range, List.map_map]
  unfold tab
  apply List.map_congr_left
  intro k hk
  have hk := List.mem_range.1 hk
  unfold gsVal
  show _ = if 0 < idAt (ids q) k then reduce f e (members np ids (fun q => tab (ids q).length (w q)) (absAt (ids q) k))
    else if idAt (ids q) k < 0 ∧ loneFlagged (ids q) k (absAt (ids q) k) then reduce f e (pick (fun y => y.natAbs = absAt (ids q) k) (ids q) (tab (ids q).length (w q)))
    else w q k
  split
  · rename_i h0
    rw [if_neg (by omega), if_neg (by omega)]
  · rename_i h0
    have h1 : absAt (ids q) k ≠ 0 := by unfold absAt; omega
    rw [if_pos rfl]
    have hokp : ∀ p, p < np → ∀ ig, ∀ v ∈ (mem' ig (ids p) (absAt (ids q) k)).map (w p), ok v := by
      intro p hp ig v hv
      obtain ⟨j, hj, rfl⟩ := List.mem_map.1 hv
      have hj := mem_grp'.1 (mem'_sub h1 hj)
      exact hw p hp j (by rw [hj.2]; exact h1)
    split
    · rename_i hpos
      rw [members_tab]
      have h2 := contrib_flatMap (np := np) (ids := ids) true h1 w
      have h3 : reduce f e ((contrib true np ids (absAt (ids q) k)).map fun p => reduce f e ((grp (ids p) (absAt (ids q) k)).map (w p))) =
          reduce f e ((List.range np).flatMap fun p => (mem' (!true) (ids p) (absAt (ids q) k)).map (w p)) := by
        rw [← h2, M.reduce_flatMap]
        · rfl
        · intro p hp
          exact hokp p (mem_contrib.1 hp).1 _
      rw [h3]
      refine M.reduce_perm ?_ ?_
      · apply List.Perm.flatMap_left
        intro p _
        exact (grp_perm (ids p) h1).map _
      · intro v hv
        obtain ⟨p, hp, hv⟩ := List.mem_flatMap.1 hv
        exact hokp p (List.mem_range.1 hp) _ v hv
    · rename_i hpos
      have hneg : idAt (ids q) k < 0 := by omega
      have hl := lone_iff hk hneg
      by_cases hkp : k = prim (ids q) (absAt (ids q) k)
      · rw [if_pos hkp, if_pos ⟨hneg, hl.1 hkp⟩, pick_tab]
        exact M.reduce_perm ((grp_perm (ids q) h1).map _) (hokp q hq false)
      · rw [if_neg hkp, if_neg (fun h => hkp (hl.2 h.2))]

end Gslib.Gs
