import Verif.Lemmas.GsUnique
import Verif.Lemmas.GsMaps

/-! # The local maps in closed form -/

namespace Gslib.Gs
open Gslib Gslib.Spec

/-- the entries of a group taken into account -/
def mem' (ign : Bool) (ids : List Int) (a : Nat) : List Nat := if ign then unflIdx ids a else grp ids a

/-- the groups of local_map -/
def localGroups (ign : Bool) (ids : List Int) : List (Nat × List Nat) :=
  ((uids ids).map fun a => (prim ids a, (mem' ign ids a).tail)).filter fun g => g.2 ≠ []

theorem nzSpec_uids (ids : List Int) : nzSpec ids = (uids ids).flatMap fun a => (grp ids a).map (nzRow ids (prim ids a)) := by
  unfold nzSpec uids
  rw [List.flatMap_map]
  apply List.flatMap_congr
  intro p hp
  rw [(mem_prims.1 hp).2]

theorem takeWhile_stop {A : Type} {p : A → Bool} : ∀ {l r : List A}, (∀ x ∈ l, p x = true) → (∀ x ∈ r.head?, p x = false) →
    (l ++ r).takeWhile p = l ∧ (l ++ r).dropWhile p = r
  | [], [], _, _ => by simp
  | [], x :: r, _, h => by have := h x (by simp); simp [this]
  | x :: l, r, h1, h2 => by
    have := h1 x (by simp)
    obtain ⟨h3, h4⟩ := takeWhile_stop (l := l) (r := r) (fun y hy => h1 y (by simp [hy])) h2
    simp [this, h3, h4]

/-- encoding with the groups in front -/
theorem encGroups_cons (g : Nat × List Nat) (gs : List (Nat × List Nat)) : encGroups (g :: gs) = g.1 :: g.2 ++ uintMax :: encGroups gs := by
  simp [encGroups]

theorem localMap_flagged (ids : List Int) (p a : Nat) (rest : List NonzeroId) (hr : ∀ x ∈ rest.head?, x.id ≠ a) : ∀ (js : List Nat),
    (∀ j ∈ js, absAt ids j = a ∧ idAt ids j < 0) → localMap true (js.map (nzRow ids p) ++ rest) = localMap true rest
  | [], _ => rfl
  | j :: js, h => by
    have ih := localMap_flagged ids p a rest hr js (fun j hj => h j (by simp [hj]))
    rw [List.map_cons, List.cons_append, localMap]
    have hst : (∀ x ∈ (js.map (nzRow ids p) ++ rest).head?, sel true (nzRow ids p j).id x = false) := by
      intro x hx
      cases js with
      | nil =>
        simp only [List.map_nil, List.nil_append] at hx
        have := hr x hx
        unfold sel nzRow
        rw [(h j (by simp)).1]
        simp [this]
      | cons k js =>
        simp only [List.map_cons, List.cons_append, List.head?_cons, Option.mem_def, Option.some.injEq] at hx
        subst hx
        have := (h k (by simp)).2
        unfold sel nzRow
        simp [this]
    obtain ⟨h1, h2⟩ := takeWhile_stop (l := []) (by simp) hst
    simp only [List.nil_append] at h1 h2
    rw [h1, h2]
    simpa using ih

theorem localMap_block (ign : Bool) (ids : List Int) (a : Nat) (h : has ids a) (rest : List NonzeroId) (hr : ∀ x ∈ rest.head?, x.id ≠ a) :
    localMap ign ((grp ids a).map (nzRow ids (prim ids a)) ++ rest) =
      (if (mem' ign ids a).tail ≠ [] then prim ids a :: (mem' ign ids a).tail ++ [uintMax] else []) ++ localMap ign rest := by
  have hne := has_iff_grp.1 h
  have h0 := h.1
  cases ign with
  | false =>
    have hc := grp_eq_cons (prim_of_has h)
    have hm : mem' false ids a = grp ids a := rfl
    rw [hm]
    have hall : ∀ j ∈ grp ids a, absAt ids j = a := fun j hj => (mem_grp'.1 hj).2
    rw [hc] at hall
    conv => lhs; rw [hc]
    rw [List.map_cons, List.cons_append, localMap]
    obtain ⟨h1, h2⟩ := takeWhile_stop (p := sel false (nzRow ids (prim ids a) (prim ids a)).id) (l := (grp ids a).tail.map (nzRow ids (prim ids a))) (r := rest) (by
      intro x hx
      obtain ⟨j, hj, rfl⟩ := List.mem_map.1 hx
      unfold sel nzRow
      rw [hall j (by simp [hj]), hall _ (by simp)]
      simp) (by
      intro x hx
      have := hr x hx
      unfold sel nzRow
      rw [hall _ (by simp)]
      simp [this])
    rw [h1, h2]
    by_cases ht : (grp ids a).tail = []
    · simp [ht]
    · rw [if_pos (by rw [ne_eq, List.map_eq_nil_iff]; exact ht), if_pos ht]
      simp [nzRow, Function.comp_def]
  | true =>
    have hm : mem' true ids a = unflIdx ids a := rfl
    have hg : grp ids a = unflIdx ids a ++ flagIdx ids a := by unfold grp; rw [if_neg h0]
    have hfl : ∀ j ∈ flagIdx ids a, absAt ids j = a ∧ idAt ids j < 0 := by
      intro j hj
      have := mem_flagIdx.1 hj
      unfold absAt
      omega
    rw [hm, hg, List.map_append, List.append_assoc]
    have hun : ∀ j ∈ unflIdx ids a, absAt ids j = a ∧ ¬ idAt ids j < 0 := by
      intro j hj
      have := mem_unflIdx.1 hj
      unfold absAt
      omega
    have hfm := localMap_flagged ids (prim ids a) a rest hr (flagIdx ids a) hfl
    have hp : (unflIdx ids a) = [] ∨ ∃ us, unflIdx ids a = prim ids a :: us := by
      cases e : unflIdx ids a with
      | nil => exact Or.inl rfl
      | cons u us => right; refine ⟨us, ?_⟩; unfold prim; rw [hg, e]; rfl
    rcases hp with hp | ⟨us, hp⟩
    · rw [hp]
      simp only [List.map_nil, List.nil_append, List.tail_nil, ne_eq, not_true_eq_false, if_false]
      exact hfm
    · have hun' := hun
      rw [hp] at hun'
      rw [hp, List.map_cons, List.cons_append, localMap, List.tail_cons]
      obtain ⟨h1, h2⟩ := takeWhile_stop (p := sel true (nzRow ids (prim ids a) (prim ids a)).id) (l := us.map (nzRow ids (prim ids a))) (r := (flagIdx ids a).map (nzRow ids (prim ids a)) ++ rest) (by
        intro x hx
        obtain ⟨j, hj, rfl⟩ := List.mem_map.1 hx
        unfold sel nzRow
        rw [(hun' j (by simp [hj])).1, (hun' _ (List.mem_cons_self)).1]
        simpa using (hun' j (by simp [hj])).2) (by
        intro x hx
        have hid : (nzRow ids (prim ids a) (prim ids a)).id = a := (hun' _ (List.mem_cons_self)).1
        rw [hid]
        cases e : flagIdx ids a with
        | nil =>
          rw [e] at hx
          simp only [List.map_nil, List.nil_append] at hx
          simp [sel, hr x hx]
        | cons k ks =>
          rw [e] at hx
          simp only [List.map_cons, List.cons_append, List.head?_cons, Option.mem_def, Option.some.injEq] at hx
          subst hx
          have := (hfl k (by rw [e]; simp)).2
          unfold sel nzRow
          simp [this])
      rw [h1, h2, hfm]
      by_cases ht : us = []
      · simp [ht]
      · rw [if_pos (by simpa using ht), if_pos ht]
        simp [nzRow, Function.comp_def]

theorem localMap_spec (ign : Bool) (ids : List Int) : localMap ign (nzSpec ids) = encGroups (localGroups ign ids) := by
  rw [nzSpec_uids]
  unfold localGroups
  have key : ∀ (l : List Nat), l.Nodup → (∀ a ∈ l, has ids a) →
      localMap ign (l.flatMap fun a => (grp ids a).map (nzRow ids (prim ids a))) =
        encGroups ((l.map fun a => (prim ids a, (mem' ign ids a).tail)).filter fun g => g.2 ≠ []) := by
    intro l
    induction l with
    | nil => intro _ _; rw [List.flatMap_nil, localMap]; rfl
    | cons a l ih =>
      intro hnd hh
      rw [List.nodup_cons] at hnd
      rw [List.flatMap_cons, localMap_block ign ids a (hh a (by simp)), ih hnd.2 (fun b hb => hh b (by simp [hb])), List.map_cons, List.filter_cons]
      · by_cases ht : (mem' ign ids a).tail = []
        · simp [ht]
        · rw [if_pos ht, if_pos (by simpa using ht), encGroups_cons]
          simp
      · intro x hx
        have hx' := List.mem_of_mem_head? hx
        obtain ⟨b, hb, hx2⟩ := List.mem_flatMap.1 hx'
        obtain ⟨j, hj, rfl⟩ := List.mem_map.1 hx2
        show absAt ids j ≠ a
        rw [(mem_grp'.1 hj).2]
        rintro rfl
        exact hnd.1 hb
  exact key _ (uids_nodup ids) (fun a ha => mem_uids.1 ha)

theorem flaggedPrimaries_spec (ids : List Int) :
    flaggedPrimariesMap (nzSpec ids) = ((uids ids).filter fun a => ¬ hasU ids a).map (prim ids) ++ [uintMax] := by
  unfold flaggedPrimariesMap
  congr 1
  rw [nzSpec_uids, List.filter_flatMap, List.map_flatMap]
  have key : ∀ (l : List Nat), (∀ a ∈ l, has ids a) →
      (l.flatMap fun a => (((grp ids a).map (nzRow ids (prim ids a))).filter fun r => decide (r.i = r.primary) && decide (r.flag = 1)).map NonzeroId.i) =
        (l.filter fun a => ¬ hasU ids a).map (prim ids) := by
    intro l
    induction l with
    | nil => intro _; rfl
    | cons a l ih =>
      intro hh
      have ha := hh a (by simp)
      rw [List.flatMap_cons, ih (fun b hb => hh b (by simp [hb])), List.filter_cons]
      have hnd := grp_nodup ids a
      rw [grp_eq_cons (prim_of_has ha)] at hnd
      rw [List.nodup_cons] at hnd
      have htail : (((grp ids a).tail.map (nzRow ids (prim ids a))).filter fun r => decide (r.i = r.primary) && decide (r.flag = 1)) = [] := by
        rw [List.filter_eq_nil_iff]
        intro r hr
        obtain ⟨j, hj, rfl⟩ := List.mem_map.1 hr
        simp only [nzRow, Bool.and_eq_true, decide_eq_true_eq, not_and]
        intro hjp
        have hjp' : j = prim ids a := of_decide_eq_true hjp
        exact absurd (hjp' ▸ hj) hnd.1
      rw [grp_eq_cons (prim_of_has ha), List.map_cons, List.filter_cons, htail]
      have hflag : (nzRow ids (prim ids a) (prim ids a)).flag = if hasU ids a then 0 else 1 := by
        unfold nzRow
        rcases idAt_prim ha with ⟨h1, h2⟩ | ⟨h1, h2⟩
        · simp only [h1, if_true]; rw [if_neg (by omega)]
        · have := ha.1
          simp only [h1, if_false]; rw [if_pos (by omega)]
      by_cases hu : hasU ids a
      · simp [hflag, hu]
      · have hi : (nzRow ids (prim ids a) (prim ids a)).i = prim ids a := rfl
        have hpr : (nzRow ids (prim ids a) (prim ids a)).primary = prim ids a := rfl
        simp [hflag, hu, hi, hpr]
  exact key _ (fun a ha => mem_uids.1 ha)

/-! ### facts about the groups -/

theorem mem'_sub {ign : Bool} {ids : List Int} {a j : Nat} (h0 : a ≠ 0) (hj : j ∈ mem' ign ids a) : j ∈ grp ids a := by
  cases ign with
  | false => exact hj
  | true =>
    have : j ∈ unflIdx ids a := hj
    unfold grp; rw [if_neg h0]; exact List.mem_append_left _ this

theorem mem'_cons (ign : Bool) {ids : List Int} {a : Nat} (h : has ids a) : mem' ign ids a = [] ∨ mem' ign ids a = prim ids a :: (mem' ign ids a).tail := by
  cases ign with
  | false => exact Or.inr (grp_eq_cons (prim_of_has h))
  | true =>
    show unflIdx ids a = [] ∨ unflIdx ids a = prim ids a :: (unflIdx ids a).tail
    have hg : grp ids a = unflIdx ids a ++ flagIdx ids a := by unfold grp; rw [if_neg h.1]
    cases e : unflIdx ids a with
    | nil => exact Or.inl rfl
    | cons u us => right; unfold prim; rw [hg, e]; rfl

theorem mem'_nodup (ign : Bool) {ids : List Int} {a : Nat} : (mem' ign ids a).Nodup := by
  cases ign with
  | false => exact grp_nodup ids a
  | true => exact List.nodup_range.filter _

theorem mem'_tail {ign : Bool} {ids : List Int} {a j : Nat} (h : has ids a) (hj : j ∈ (mem' ign ids a).tail) :
    j < ids.length ∧ absAt ids j = a ∧ j ≠ prim ids a := by
  have hm := List.mem_of_mem_tail hj
  have hg := mem_grp.1 (mem'_sub h.1 hm)
  refine ⟨hg.2.1, hg.2.2, ?_⟩
  rintro rfl
  rcases mem'_cons ign h with e | e
  · rw [e] at hm; simp at hm
  · have := mem'_nodup ign (ids := ids) (a := a)
    rw [e, List.nodup_cons] at this
    exact this.1 hj

theorem mem_localGroups {ign : Bool} {ids : List Int} {g : Nat × List Nat} :
    g ∈ localGroups ign ids ↔ ∃ a, has ids a ∧ (mem' ign ids a).tail ≠ [] ∧ g = (prim ids a, (mem' ign ids a).tail) := by
  unfold localGroups
  rw [List.mem_filter, List.mem_map]
  constructor
  · rintro ⟨⟨a, ha, rfl⟩, h⟩
    exact ⟨a, mem_uids.1 ha, by simpa using h, rfl⟩
  · rintro ⟨a, ha, h, rfl⟩
    exact ⟨⟨a, mem_uids.2 ha, rfl⟩, by simpa using h⟩

theorem localGroups_ok (ign : Bool) {ids : List Int} (hi : IdsOk ids) : ∀ g ∈ localGroups ign ids, GroupOk g ∧ g.1 ∉ g.2 := by
  intro g hg
  obtain ⟨a, ha, h, rfl⟩ := mem_localGroups.1 hg
  have hl := hi.len
  refine ⟨⟨h, ?_, ?_⟩, fun h' => (mem'_tail ha h').2.2 rfl⟩
  · have := prim_lt_length ha; simp only [uintMax]; omega
  · intro j hj
    have := (mem'_tail ha hj).1; simp only [uintMax]; omega

theorem localGroups_fst_nodup (ign : Bool) (ids : List Int) : ((localGroups ign ids).map (·.1)).Nodup := by
  unfold localGroups
  refine List.Nodup.map_on ?_ (List.Nodup.filter _ ?_)
  · intro x hx y hy e
    obtain ⟨a, ha, rfl⟩ := List.mem_map.1 (List.mem_filter.1 hx).1
    obtain ⟨b, hb, rfl⟩ := List.mem_map.1 (List.mem_filter.1 hy).1
    have := prim_inj (mem_uids.1 ha) (mem_uids.1 hb) e
    rw [this]
  · refine List.Nodup.map_on ?_ (uids_nodup ids)
    intro a ha b hb e
    exact prim_inj (mem_uids.1 ha) (mem_uids.1 hb) (congrArg Prod.fst e)

theorem localGroups_disjoint (ign : Bool) (ids : List Int) : (localGroups ign ids).Pairwise fun g g' => ∀ j ∈ g.2, j ∉ g'.2 := by
  unfold localGroups
  apply List.Pairwise.filter
  rw [List.pairwise_map]
  refine List.Pairwise.imp_of_mem ?_ (uids_nodup ids)
  intro a b ha hb hab j hj hj'
  exact hab ((mem'_tail (mem_uids.1 ha) hj).2.1 ▸ (mem'_tail (mem_uids.1 hb) hj').2.1)

/-- entry `k` is a primary index -/
def IsPrim (ids : List Int) (k : Nat) : Prop := ∃ a, has ids a ∧ k = prim ids a

variable {V : Type}

/-- local gather -/
theorem local_gather_run (ign : Bool) (ids : List Int) (f : V → V → V) (w : Nat → V) :
    ∃ w' : Nat → V, (localGroups ign ids).foldlM (gstep f ldAt stAt ldAt) (tab ids.length w) = some (tab ids.length w') ∧
      (∀ a, has ids a → w' (prim ids a) = ((mem' ign ids a).tail.map w).foldl f (w (prim ids a))) ∧ ∀ k, ¬ IsPrim ids k → w' k = w k := by
  have hnp : ∀ a j, has ids a → j ∈ (mem' ign ids a).tail → ¬ IsPrim ids j := by
    rintro a j ha hj ⟨b, hb, rfl⟩
    have h1 := mem'_tail ha hj
    rw [absAt_prim hb] at h1
    exact h1.2.2 (by rw [h1.2.1])
  obtain ⟨w', e, h1, h2⟩ := gather_run f ids.length ldAt w (IsPrim ids) (localGroups ign ids) w (localGroups_fst_nodup ign ids) (by
      intro g hg
      obtain ⟨a, ha, _, rfl⟩ := mem_localGroups.1 hg
      exact ⟨prim_lt_length ha, a, ha, rfl⟩) (by
      intro w' hw' g hg j hj
      obtain ⟨a, ha, _, rfl⟩ := mem_localGroups.1 hg
      rw [ld_tab (mem'_tail ha hj).1, hw' j (hnp a j ha hj)])
  refine ⟨w', e, ?_, ?_⟩
  · intro a ha
    by_cases ht : (mem' ign ids a).tail = []
    · rw [ht, h2]
      · rfl
      · intro hm
        obtain ⟨g, hg, hp⟩ := List.mem_map.1 hm
        obtain ⟨b, hb, hne, rfl⟩ := mem_localGroups.1 hg
        have := prim_inj hb ha hp
        subst this
        exact hne ht
    · exact h1 (prim ids a, (mem' ign ids a).tail) (mem_localGroups.2 ⟨a, ha, ht, rfl⟩)
  · intro k hk
    apply h2
    intro hm
    obtain ⟨g, hg, hp⟩ := List.mem_map.1 hm
    obtain ⟨b, hb, hne, rfl⟩ := mem_localGroups.1 hg
    exact hk ⟨b, hb, hp.symm⟩

/-- local scatter -/
theorem local_scatter_run (ign : Bool) (ids : List Int) (w : Nat → V) :
    ∃ w' : Nat → V, (localGroups ign ids).foldlM (sstep ldAt stAt) (tab ids.length w) = some (tab ids.length w') ∧
      (∀ a, has ids a → ∀ j ∈ mem' ign ids a, w' j = w (prim ids a)) ∧
      ∀ k, (∀ a, has ids a → k ∉ (mem' ign ids a).tail) → w' k = w k := by
  have hnp : ∀ a, has ids a → ∀ b, has ids b → prim ids a ∉ (mem' ign ids b).tail := by
    intro a ha b hb hj
    have h1 := mem'_tail hb hj
    rw [absAt_prim ha] at h1
    exact h1.2.2 (by rw [h1.2.1])
  obtain ⟨w', e, h1, h2⟩ := scatter_run ids.length ldAt w (fun k => ∃ a, has ids a ∧ k ∈ (mem' ign ids a).tail) (localGroups ign ids) w (localGroups_disjoint ign ids) (by
      intro g hg j hj
      obtain ⟨a, ha, _, rfl⟩ := mem_localGroups.1 hg
      exact ⟨(mem'_tail ha hj).1, a, ha, hj⟩) (by
      intro w' hw' g hg
      obtain ⟨a, ha, _, rfl⟩ := mem_localGroups.1 hg
      rw [ld_tab (prim_lt_length ha), hw' (prim ids a)]
      rintro ⟨b, hb, hm⟩
      exact hnp a ha b hb hm)
  have h3 : ∀ k, (∀ a, has ids a → k ∉ (mem' ign ids a).tail) → w' k = w k := by
    intro k hk
    apply h2
    intro g hg
    obtain ⟨a, ha, _, rfl⟩ := mem_localGroups.1 hg
    exact hk a ha
  refine ⟨w', e, ?_, h3⟩
  intro a ha j hj
  rcases mem'_cons ign ha with e1 | e1
  · rw [e1] at hj; simp at hj
  · rw [e1] at hj
    rcases List.mem_cons.1 hj with rfl | hj
    · exact h3 _ (fun b hb => hnp a ha b hb)
    · exact h1 (prim ids a, (mem' ign ids a).tail) (mem_localGroups.2 ⟨a, ha, List.ne_nil_of_mem hj, rfl⟩) j hj

/-- initialization of flagged primaries -/
theorem flagged_init_run {ids : List Int} (hi : IdsOk ids) (e : V) (w : Nat → V) :
    ∃ w' : Nat → V, initLoop e stAt (((uids ids).filter fun a => ¬ hasU ids a).map (prim ids) ++ [uintMax]) (tab ids.length w) = some (tab ids.length w') ∧
      (∀ a, has ids a → w' (prim ids a) = if hasU ids a then w (prim ids a) else e) ∧ ∀ k, ¬ IsPrim ids k → w' k = w k := by
  have hm : ∀ k, k ∈ ((uids ids).filter fun a => ¬ hasU ids a).map (prim ids) ↔ ∃ a, has ids a ∧ ¬ hasU ids a ∧ k = prim ids a := by
    intro k
    simp only [List.mem_map, List.mem_filter, mem_uids, decide_eq_true_eq]
    constructor
    · rintro ⟨a, ⟨h1, h2⟩, rfl⟩; exact ⟨a, h1, h2, rfl⟩
    · rintro ⟨a, h1, h2, rfl⟩; exact ⟨a, ⟨h1, h2⟩, rfl⟩
  obtain ⟨w', e1, h1, h2⟩ := init_run ids.length e (((uids ids).filter fun a => ¬ hasU ids a).map (prim ids)) w (by
    intro k hk
    obtain ⟨a, ha, _, rfl⟩ := (hm k).1 hk
    have := prim_lt_length ha
    have := hi.len
    exact ⟨prim_lt_length ha, by simp only [uintMax]; omega⟩)
  refine ⟨w', e1, ?_, ?_⟩
  · intro a ha
    split
    · rename_i hu
      apply h2
      rw [hm]
      rintro ⟨b, hb, hnu, e⟩
      have := prim_inj ha hb e
      subst this
      exact hnu hu
    · rename_i hu
      exact h1 _ ((hm _).2 ⟨a, ha, hu, rfl⟩)
  · intro k hk
    apply h2
    rw [hm]
    rintro ⟨b, hb, _, rfl⟩
    exact hk ⟨b, hb, rfl⟩

end Gslib.Gs
