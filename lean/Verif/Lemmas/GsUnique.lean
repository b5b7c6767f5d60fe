import Verif.Lemmas.GsNz

/-! # unique_ids in closed form -/

namespace Gslib.Gs
open Gslib Gslib.Spec

/-- the process has an entry with id `a` or `-a` -/
def has (ids : List Int) (a : Nat) : Prop := a ≠ 0 ∧ a ∈ ids.map Int.natAbs

/-- the process has an unflagged entry with id `a` -/
def hasU (ids : List Int) (a : Nat) : Prop := a ≠ 0 ∧ (a : Int) ∈ ids

instance (ids : List Int) (a : Nat) : Decidable (has ids a) := by unfold has; infer_instance
instance (ids : List Int) (a : Nat) : Decidable (hasU ids a) := by unfold hasU; infer_instance

theorem hasU.has {ids : List Int} {a : Nat} (h : hasU ids a) : has ids a := ⟨h.1, List.mem_map.2 ⟨a, h.2, by simp⟩⟩

theorem idAt_mem {ids : List Int} {j : Nat} (h : j < ids.length) : idAt ids j ∈ ids := by
  unfold idAt; rw [List.getD_eq_getElem _ _ h]; exact List.getElem_mem h

theorem exists_idAt {ids : List Int} {x : Int} (h : x ∈ ids) : ∃ j, j < ids.length ∧ idAt ids j = x := by
  obtain ⟨j, hj, e⟩ := List.mem_iff_getElem.1 h
  exact ⟨j, hj, by unfold idAt; rw [List.getD_eq_getElem _ _ hj, e]⟩

theorem has_iff_grp {ids : List Int} {a : Nat} : has ids a ↔ grp ids a ≠ [] := by
  constructor
  · rintro ⟨h0, h⟩
    obtain ⟨x, hx, e⟩ := List.mem_map.1 h
    obtain ⟨j, hj, e'⟩ := exists_idAt hx
    have : j ∈ grp ids a := mem_grp'.2 ⟨h0, by unfold absAt; rw [e', e]⟩
    exact List.ne_nil_of_mem this
  · intro h
    obtain ⟨j, hj⟩ := List.exists_mem_of_ne_nil _ h
    have := mem_grp.1 hj
    exact ⟨this.1, List.mem_map.2 ⟨_, idAt_mem this.2.1, this.2.2⟩⟩

theorem has_absAt {ids : List Int} {j : Nat} (h : absAt ids j ≠ 0) : has ids (absAt ids j) :=
  has_iff_grp.2 (List.ne_nil_of_mem (mem_grp'.2 ⟨h, rfl⟩))

theorem prim_of_has {ids : List Int} {a : Nat} (h : has ids a) : prim ids a ∈ grp ids a := by
  obtain ⟨j, hj⟩ := List.exists_mem_of_ne_nil _ (has_iff_grp.1 h)
  exact prim_mem hj

theorem absAt_prim {ids : List Int} {a : Nat} (h : has ids a) : absAt ids (prim ids a) = a := (mem_grp'.1 (prim_of_has h)).2

theorem prim_lt_length {ids : List Int} {a : Nat} (h : has ids a) : prim ids a < ids.length := (mem_grp.1 (prim_of_has h)).2.1

theorem prim_inj {ids : List Int} {a b : Nat} (ha : has ids a) (hb : has ids b) (h : prim ids a = prim ids b) : a = b := by
  rw [← absAt_prim ha, ← absAt_prim hb, h]

theorem hasU_iff_unfl {ids : List Int} {a : Nat} (h0 : a ≠ 0) : hasU ids a ↔ unflIdx ids a ≠ [] := by
  constructor
  · rintro ⟨_, h⟩
    obtain ⟨j, hj, e⟩ := exists_idAt h
    exact List.ne_nil_of_mem (mem_unflIdx.2 ⟨hj, e⟩)
  · intro h
    obtain ⟨j, hj⟩ := List.exists_mem_of_ne_nil _ h
    have := mem_unflIdx.1 hj
    exact ⟨h0, this.2 ▸ idAt_mem this.1⟩

theorem idAt_prim {ids : List Int} {a : Nat} (h : has ids a) : (hasU ids a ∧ idAt ids (prim ids a) = a) ∨ (¬ hasU ids a ∧ idAt ids (prim ids a) = -a) := by
  have h0 := h.1
  have hg : grp ids a = unflIdx ids a ++ flagIdx ids a := by unfold grp; rw [if_neg h0]
  by_cases hu : hasU ids a
  · left
    refine ⟨hu, ?_⟩
    have := (hasU_iff_unfl h0).1 hu
    unfold prim
    rw [hg]
    cases e : unflIdx ids a with
    | nil => exact absurd e this
    | cons x l =>
      simp only [List.cons_append, List.headD_cons]
      exact (mem_unflIdx.1 (e ▸ List.mem_cons_self)).2
  · right
    refine ⟨hu, ?_⟩
    have : unflIdx ids a = [] := by
      by_contra h'
      exact hu ((hasU_iff_unfl h0).2 h')
    have hne := has_iff_grp.1 h
    unfold prim
    rw [hg, this] at hne ⊢
    cases e : flagIdx ids a with
    | nil => rw [e] at hne; exact absurd rfl hne
    | cons x l =>
      simp only [List.nil_append, List.headD_cons]
      exact (mem_flagIdx.1 (e ▸ List.mem_cons_self)).2

/-- the distinct absolute values of the ids, in the order of their primary indices -/
def uids (ids : List Int) : List Nat := (prims ids).map (absAt ids)

theorem mem_uids {ids : List Int} {a : Nat} : a ∈ uids ids ↔ has ids a := by
  unfold uids
  rw [List.mem_map]
  constructor
  · rintro ⟨p, hp, rfl⟩
    exact has_absAt (mem_prims.1 hp).1
  · intro h
    exact ⟨prim ids a, (prim_mem_prims (prim_of_has h)).1, absAt_prim h⟩

theorem uids_nodup (ids : List Int) : (uids ids).Nodup := by
  have h : (prims ids).Nodup := List.Nodup.filter _ List.nodup_range
  refine List.Nodup.map_on ?_ h
  intro p hp q hq e
  rw [← (mem_prims.1 hp).2, ← (mem_prims.1 hq).2, e]

theorem uids_prim (ids : List Int) : (uids ids).map (prim ids) = prims ids := by
  unfold uids
  rw [List.map_map]
  conv => rhs; rw [← List.map_id (prims ids)]
  apply List.map_congr_left
  intro p hp
  exact (mem_prims.1 hp).2

theorem uids_length_le (ids : List Int) : (uids ids).length ≤ ids.length := by
  unfold uids prims
  rw [List.length_map]
  exact (List.length_filter_le _ _).trans (by simp)

/-- `src_if` for id `a`: the primary index, or its complement if it is flagged -/
def srcIf (ids : List Int) (a : Nat) : Nat := if hasU ids a then prim ids a else notU (prim ids a)

/-- the flag of the primary entry of `a` -/
def pflag (ids : List Int) (a : Nat) : Nat := if hasU ids a then 0 else 1

theorem uniqueIds_spec (np : Nat) (ids : List Int) :
    uniqueIds np (nzSpec ids) = (uids ids).map fun a => ⟨a, a % np, srcIf ids a⟩ := by
  unfold uniqueIds nzSpec uids
  rw [List.filter_flatMap, List.map_flatMap, List.map_map]
  have : ∀ p ∈ prims ids, (((grp ids (absAt ids p)).map (nzRow ids p)).filter fun r => r.i = r.primary) = [nzRow ids p p] := by
    intro p hp
    have h1 := mem_prims.1 hp
    have hm : p ∈ grp ids (absAt ids p) := mem_grp'.2 ⟨h1.1, rfl⟩
    have hnd := grp_nodup ids (absAt ids p)
    have hc := grp_eq_cons hm
    rw [h1.2] at hc
    rw [hc] at hnd ⊢
    rw [List.nodup_cons] at hnd
    rw [List.map_cons, List.filter_cons]
    have e1 : (nzRow ids p p).i = (nzRow ids p p).primary := rfl
    rw [if_pos (by simpa using e1)]
    congr 1
    rw [List.filter_eq_nil_iff]
    intro r hr
    obtain ⟨j, hj, rfl⟩ := List.mem_map.1 hr
    simp only [nzRow, decide_eq_true_eq]
    intro hjp
    have hjp' : j = p := of_decide_eq_true hjp
    exact hnd.1 (hjp' ▸ hj)
  have h2 : ((prims ids).flatMap fun p => (((grp ids (absAt ids p)).map (nzRow ids p)).filter fun r => r.i = r.primary).map
      fun r => (⟨r.id, r.id % np, if r.flag ≠ 0 then notU r.i else r.i⟩ : UniqueId)) =
      (prims ids).flatMap fun p => [⟨absAt ids p, absAt ids p % np, srcIf ids (absAt ids p)⟩] := by
    apply List.flatMap_congr
    intro p hp
    rw [this p hp]
    simp only [List.map_cons, List.map_nil, nzRow]
    have h1 := mem_prims.1 hp
    have hh := has_absAt h1.1
    congr 2
    unfold srcIf
    rcases idAt_prim hh with ⟨hu, e⟩ | ⟨hu, e⟩
    · rw [h1.2] at e
      rw [if_pos hu, h1.2, if_neg]
      rw [if_neg (by omega)]; simp
    · rw [h1.2] at e
      have := hh.1
      rw [if_neg hu, h1.2, if_pos]
      rw [if_pos (by omega)]; simp
  rw [h2]
  induction prims ids with
  | nil => rfl
  | cons a l ih => simp [List.flatMap_cons, ih]

theorem isNot_srcIf {ids : List Int} (hi : IdsOk ids) {a : Nat} (h : has ids a) : isNot (srcIf ids a) = true ↔ ¬ hasU ids a := by
  have h1 := prim_lt_length h
  have h2 := hi.len
  unfold isNot srcIf notU uintMax
  by_cases hu : hasU ids a
  · simp only [hu, if_true, not_true_eq_false, iff_false, decide_eq_true_eq]; omega
  · simp only [hu, if_false, not_false_eq_true, iff_true, decide_eq_true_eq]; omega

theorem srcIf_lt {ids : List Int} (hi : IdsOk ids) {a : Nat} (h : has ids a) : srcIf ids a < 4294967296 := by
  have h1 := prim_lt_length h
  have h2 := hi.len
  unfold srcIf notU uintMax
  split <;> omega

theorem indexOf_srcIf {ids : List Int} (hi : IdsOk ids) {a : Nat} (h : has ids a) : indexOf (srcIf ids a) = prim ids a := by
  have h1 := prim_lt_length h
  have h2 := hi.len
  unfold indexOf srcIf notU uintMax
  by_cases hu : hasU ids a
  · simp only [hu, if_true]; rw [if_neg (by omega)]
  · simp only [hu, if_false]; rw [if_pos (by omega)]; omega

theorem xor_notU {i : Nat} (h : i < 4294967296) : (notU i) ^^^ i = uintMax := by
  apply Nat.eq_of_testBit_eq
  intro k
  have e : notU i = 2 ^ 32 - (i + 1) := by unfold notU uintMax; omega
  have e2 : uintMax = 2 ^ 32 - 1 := by unfold uintMax; norm_num
  rw [Nat.testBit_xor, e, e2, Nat.testBit_two_pow_sub_succ (by omega), Nat.testBit_two_pow_sub_one]
  by_cases hk : k < 32
  · simp [hk]
  · have : i.testBit k = false := Nat.testBit_lt_two_pow (lt_of_lt_of_le h (by
      calc 4294967296 = 2 ^ 32 := by norm_num
        _ ≤ 2 ^ k := Nat.pow_le_pow_right (by omega) (by omega)))
    simp [hk, this]

theorem xor_srcIf {ids : List Int} (hi : IdsOk ids) {a : Nat} (h : has ids a) :
    srcIf ids a ^^^ indexOf (srcIf ids a) = if hasU ids a then 0 else uintMax := by
  have h1 := prim_lt_length h
  have h2 := hi.len
  rw [indexOf_srcIf hi h]
  unfold srcIf
  split
  · exact Nat.xor_self _
  · exact xor_notU (by omega)

theorem has_lt {ids : List Int} (hi : IdsOk ids) {a : Nat} (h : has ids a) : a < 9223372036854775808 := by
  obtain ⟨x, hx, rfl⟩ := List.mem_map.1 h.2
  exact hi.abs x hx

end Gslib.Gs
