import Verif.Lemmas.GsTopo
import Verif.Lemmas.GsLocal

/-! # The pairwise set-up in closed form -/

namespace Gslib.Gs
open Gslib Gslib.Sarray Gslib.Spec Gslib.Props

/-- `q` receives a value for `a` from `p` when the exchange runs with `transpose = t` -/
def RecvG (t : Bool) (ids : Nat → List Int) (q p a : Nat) : Prop := Shared2 ids q p a ∧ (if t then hasU (ids q) a else hasU (ids p) a)

instance (t : Bool) (ids : Nat → List Int) (q p a : Nat) : Decidable (RecvG t ids q p a) := by unfold RecvG; infer_instance

theorem Shared2.symm {ids : Nat → List Int} {q p a : Nat} (h : Shared2 ids q p a) : Shared2 ids p q a :=
  ⟨h.1.symm, h.2.2.1, h.2.1, h.2.2.2.symm⟩

theorem rec_not {t : Bool} {ids : Nat → List Int} {q p a : Nat} : RecvG (!t) ids q p a ↔ RecvG t ids p q a := by
  unfold RecvG
  cases t <;> simp <;> exact fun _ => ⟨Shared2.symm, Shared2.symm⟩

/-- the ids `q` exchanges with `p`, in increasing order -/
def sids (ids : Nat → List Int) (q p : Nat) : List Nat := ((uids (ids q)).filter fun a => Shared2 ids q p a).mergeSort (fun a b => decide (a ≤ b))

theorem mem_sids {ids : Nat → List Int} {q p a : Nat} : a ∈ sids ids q p ↔ Shared2 ids q p a := by
  unfold sids
  rw [List.mem_mergeSort, List.mem_filter, mem_uids]
  constructor
  · rintro ⟨_, h⟩; simpa using h
  · intro h; exact ⟨h.2.1, by simpa using h⟩

theorem sids_nodup (ids : Nat → List Int) (q p : Nat) : (sids ids q p).Nodup :=
  (List.mergeSort_perm _ _).nodup_iff.2 ((uids_nodup _).filter _)

theorem sids_sorted (ids : Nat → List Int) (q p : Nat) : (sids ids q p).Pairwise (· < ·) := by
  have h1 : (sids ids q p).Pairwise (fun a b => decide (a ≤ b) = true) := List.pairwise_mergeSort (fun a b c h1 h2 => by
    simp only [decide_eq_true_eq] at *; omega) (fun a b => by simp only [Bool.or_eq_true, decide_eq_true_eq]; omega) _
  refine List.Pairwise.imp ?_ (List.pairwise_and_iff.2 ⟨h1, sids_nodup ids q p⟩)
  intro a b h
  have := h.1
  simp only [decide_eq_true_eq] at this
  have := h.2
  omega

/-- the ids for which `q` receives from `p` -/
def rids (t : Bool) (ids : Nat → List Int) (q p : Nat) : List Nat := (sids ids q p).filter fun a => RecvG t ids q p a

theorem mem_rids {t : Bool} {ids : Nat → List Int} {q p a : Nat} : a ∈ rids t ids q p ↔ RecvG t ids q p a := by
  unfold rids
  rw [List.mem_filter, mem_sids, decide_eq_true_eq]
  exact ⟨fun h => h.2, fun h => ⟨h.1, h⟩⟩

theorem rids_sorted (t : Bool) (ids : Nat → List Int) (q p : Nat) : (rids t ids q p).Pairwise (· < ·) := (sids_sorted ids q p).filter _

theorem rids_nodup (t : Bool) (ids : Nat → List Int) (q p : Nat) : (rids t ids q p).Nodup := (sids_nodup ids q p).filter _

theorem sorted_ext {l l' : List Nat} (h : l.Pairwise (· < ·)) (h' : l'.Pairwise (· < ·)) (hm : ∀ a, a ∈ l ↔ a ∈ l') : l = l' := by
  refine List.Perm.eq_of_pairwise ?_ h h' ((List.perm_ext_iff_of_nodup (h.imp Nat.ne_of_lt) (h'.imp Nat.ne_of_lt)).2 hm)
  intro a b _ _ h1 h2
  omega

theorem rids_not (t : Bool) (ids : Nat → List Int) (q p : Nat) : rids (!t) ids q p = rids t ids p q :=
  sorted_ext (rids_sorted _ _ _ _) (rids_sorted _ _ _ _) fun a => by rw [mem_rids, mem_rids, rec_not]

/-- the pairs (process, id) received by `q`, in buffer order -/
def rpairs (t : Bool) (np : Nat) (ids : Nat → List Int) (q : Nat) : List (Nat × Nat) := (List.range np).flatMap fun p => (rids t ids q p).map fun a => (p, a)

theorem mem_rpairs {t : Bool} {np : Nat} {ids : Nat → List Int} {q p a : Nat} : (p, a) ∈ rpairs t np ids q ↔ p < np ∧ RecvG t ids q p a := by
  unfold rpairs
  simp only [List.mem_flatMap, List.mem_map, List.mem_range, mem_rids, Prod.mk.injEq]
  constructor
  · rintro ⟨p', hp, a', h, rfl, rfl⟩; exact ⟨hp, h⟩
  · rintro ⟨hp, h⟩; exact ⟨p, hp, a, h, rfl, rfl⟩

theorem rpairs_nodup (t : Bool) (np : Nat) (ids : Nat → List Int) (q : Nat) : (rpairs t np ids q).Nodup := by
  unfold rpairs
  rw [List.nodup_flatMap]
  constructor
  · intro p _
    exact (rids_nodup t ids q p).map fun a b h => (Prod.mk.inj h).2
  · refine (List.nodup_range (n := np)).imp ?_
    intro p p' hpp x hx hx'
    obtain ⟨a, _, rfl⟩ := List.mem_map.1 hx
    obtain ⟨b, _, e⟩ := List.mem_map.1 hx'
    exact hpp (congrArg Prod.fst e).symm

theorem rpairs_length_le (t : Bool) {np : Nat} {ids : Nat → List Int} {q : Nat} (hq : q < np) : (rpairs t np ids q).length ≤ sharedPairs np ids := by
  have h1 : (rpairs t np ids q).length = ∑ p ∈ Finset.range np, (rids t ids q p).length := by
    unfold rpairs
    rw [List.length_flatMap]
    simp only [List.length_map]
    rw [← List.sum_toFinset _ List.nodup_range, List.toFinset_range]
  rw [h1]
  refine le_trans ?_ (Finset.single_le_sum (f := fun q => ∑ p ∈ Finset.range np, ((uids (ids q)).filter fun a => has (ids p) a).length) (fun _ _ => Nat.zero_le _) (Finset.mem_range.2 hq))
  apply Finset.sum_le_sum
  intro p _
  have hs : rids t ids q p ⊆ (uids (ids q)).filter fun a => has (ids p) a := by
    intro a ha
    have := (mem_rids.1 ha).1
    exact List.mem_filter.2 ⟨mem_uids.2 this.2.1, by simpa using this.2.2.1⟩
  exact (List.subperm_of_subset (rids_nodup _ _ _ _) hs).length_le

/-- a row of `sh` with the buffer index given by `b` -/
def rowB (ids : Nat → List Int) (b : Nat → Nat → Nat) (q p a : Nat) : SharedId := { shRow ids q p a with bi := b p a }

/-- `sh` sorted by process and id -/
def sqRows (np : Nat) (ids : Nat → List Int) (b : Nat → Nat → Nat) (q : Nat) : List SharedId :=
  (List.range np).flatMap fun p => (sids ids q p).map (rowB ids b q p)

/-- `sh` sorted by index, then by process -/
def mqRows (np : Nat) (ids : Nat → List Int) (b : Nat → Nat → Nat) (q : Nat) : List SharedId :=
  (uids (ids q)).flatMap fun a => ((List.range np).filter fun p => Shared2 ids q p a).map fun p => rowB ids b q p a

variable {np : Nat} {ids : Nat → List Int} {b : Nat → Nat → Nat} {q : Nat}

theorem mem_sqRows {x : SharedId} : x ∈ sqRows np ids b q ↔ ∃ a p, p < np ∧ Shared2 ids q p a ∧ x = rowB ids b q p a := by
  unfold sqRows
  simp only [List.mem_flatMap, List.mem_map, List.mem_range, mem_sids]
  constructor
  · rintro ⟨p, hp, a, h, rfl⟩; exact ⟨a, p, hp, h, rfl⟩
  · rintro ⟨a, p, hp, h, rfl⟩; exact ⟨p, hp, a, h, rfl⟩

theorem mem_mqRows {x : SharedId} : x ∈ mqRows np ids b q ↔ ∃ a p, p < np ∧ Shared2 ids q p a ∧ x = rowB ids b q p a := by
  unfold mqRows
  simp only [List.mem_flatMap, List.mem_map, List.mem_filter, List.mem_range, mem_uids, decide_eq_true_eq]
  constructor
  · rintro ⟨a, _, p, ⟨hp, h⟩, rfl⟩; exact ⟨a, p, hp, h, rfl⟩
  · rintro ⟨a, p, hp, h, rfl⟩; exact ⟨a, h.2.1, p, ⟨hp, h⟩, rfl⟩

/-- order by process, then id -/
def PLt (x y : SharedId) : Prop := x.p < y.p ∨ (x.p = y.p ∧ x.id < y.id)

theorem sqRows_sorted : (sqRows np ids b q).Pairwise PLt := by
  unfold sqRows
  rw [List.pairwise_flatMap]
  constructor
  · intro p _
    rw [List.pairwise_map]
    exact (sids_sorted ids q p).imp fun h => Or.inr ⟨rfl, h⟩
  · refine (List.pairwise_lt_range (n := np)).imp ?_
    intro p p' hpp x hx y hy
    obtain ⟨a, _, rfl⟩ := List.mem_map.1 hx
    obtain ⟨a', _, rfl⟩ := List.mem_map.1 hy
    exact Or.inl hpp

theorem sqRows_nodup : (sqRows np ids b q).Nodup := sqRows_sorted.imp fun h e => by
  subst e; rcases h with h | h <;> omega

theorem uids_prim_sorted (ids : List Int) : (uids ids).Pairwise fun a c => prim ids a < prim ids c := by
  have h : ((uids ids).map (prim ids)).Pairwise (· < ·) := by
    rw [uids_prim]; exact List.pairwise_lt_range.filter _
  exact List.pairwise_map.1 h

/-- order by index, then process -/
def ILt (x y : SharedId) : Prop := x.i < y.i ∨ (x.i = y.i ∧ x.p < y.p)

theorem mqRows_sorted : (mqRows np ids b q).Pairwise ILt := by
  unfold mqRows
  rw [List.pairwise_flatMap]
  constructor
  · intro a _
    rw [List.pairwise_map]
    exact ((List.pairwise_lt_range (n := np)).filter _).imp fun h => Or.inr ⟨rfl, h⟩
  · refine (uids_prim_sorted (ids q)).imp ?_
    intro a a' haa x hx y hy
    obtain ⟨p, _, rfl⟩ := List.mem_map.1 hx
    obtain ⟨p', _, rfl⟩ := List.mem_map.1 hy
    exact Or.inl haa

theorem mqRows_nodup : (mqRows np ids b q).Nodup := mqRows_sorted.imp fun h e => by
  subst e; rcases h with h | h <;> omega

theorem mq_perm_sq : (mqRows np ids b q).Perm (sqRows np ids b q) :=
  (List.perm_ext_iff_of_nodup mqRows_nodup sqRows_nodup).2 fun x => by rw [mem_mqRows, mem_sqRows]

theorem row_bounds (hnp : np ≤ 4294967295) (hi : ∀ q, q < np → IdsOk (ids q)) (hq : q < np) {x : SharedId} (hx : x ∈ sqRows np ids b q) :
    x.p < 256 ^ 4 ∧ x.id < 256 ^ 8 ∧ x.i < 256 ^ 4 := by
  obtain ⟨a, p, hp, hs, rfl⟩ := mem_sqRows.1 hx
  have h1 := has_lt (hi q hq) hs.2.1
  have h2 := prim_lt_length hs.2.1
  have h3 := (hi q hq).len
  simp only [rowB, shRow]
  norm_num
  omega

/-- the first sort -/
theorem sort_by_p (hnp : np ≤ 4294967295) (hi : ∀ q, q < np → IdsOk (ids q)) (hq : q < np) {rows : List SharedId} (h : rows.Perm (sqRows np ids b q)) (s : ScratchF Nat) :
    sarraySort [.int 4 SharedId.p, .int 8 SharedId.id] rows s = .ok (sqRows np ids b q) := by
  refine sarraySort_eq_of_inj ?_ ?_ h.symm ?_
  · intro f hf
    simp only [List.mem_cons, List.not_mem_nil, or_false] at hf
    rcases hf with rfl | rfl
    · intro r hr; exact (row_bounds hnp hi hq (h.mem_iff.1 hr)).1
    · intro r hr; exact (row_bounds hnp hi hq (h.mem_iff.1 hr)).2.1
  · intro x hx y hy hs
    obtain ⟨a, p, hp, _, rfl⟩ := mem_sqRows.1 (h.mem_iff.1 hx)
    obtain ⟨a', p', hp', _, rfl⟩ := mem_sqRows.1 (h.mem_iff.1 hy)
    have h1 : p = p' := hs (.nat SharedId.p) (by simp [Field.key])
    have h2 : a = a' := hs (.nat SharedId.id) (by simp [Field.key])
    rw [h1, h2]
  · refine sqRows_sorted.imp ?_
    rintro x y (h | ⟨h1, h2⟩)
    · exact Or.inl h
    · exact Or.inr ⟨h1, Or.inl h2⟩

/-- the second sort -/
theorem sort_by_i (hnp : np ≤ 4294967295) (hi : ∀ q, q < np → IdsOk (ids q)) (hq : q < np) (s : ScratchF Nat) :
    sarraySort [.int 4 SharedId.i] (sqRows np ids b q) s = .ok (mqRows np ids b q) := by
  refine sarraySort_eq (R := PLt) ?_ ?_ sqRows_sorted mq_perm_sq ?_
  · intro f hf
    rw [List.mem_singleton] at hf
    subst hf
    intro r hr; exact (row_bounds hnp hi hq hr).2.2
  · intro x y h h'
    unfold PLt at *
    omega
  · refine List.Pairwise.imp_of_mem ?_ mqRows_sorted
    intro x y hx hy h
    obtain ⟨a, p, hp, hs, rfl⟩ := mem_mqRows.1 hx
    obtain ⟨a', p', hp', hs', rfl⟩ := mem_mqRows.1 hy
    refine ⟨?_, ?_⟩
    · rcases h with h | h
      · exact Or.inl h
      · exact Or.inr ⟨h.1, trivial⟩
    · intro hsame
      have h1 : prim (ids q) a = prim (ids q) a' := hsame (.nat SharedId.i) (by simp [Field.key])
      rcases h with h | h
      · have h' : prim (ids q) a < prim (ids q) a' := h
        omega
      · exact Or.inl h.2

/-- the mask of the flags for `transpose = t` -/
def maskOf (t : Bool) : Nat := if t then 1 else 2

theorem masked_iff {t : Bool} {p a : Nat} (h : Shared2 ids q p a) : (rowB ids b q p a).flags &&& maskOf t = 0 ↔ RecvG t ids q p a := by
  unfold RecvG rowB shRow maskOf
  simp only
  cases t <;> by_cases h1 : hasU (ids q) a <;> by_cases h2 : hasU (ids p) a <;> simp [h1, h2, h]

/-- the buffer indices -/
def biOf (t : Bool) (np : Nat) (ids : Nat → List Int) (q : Nat) (p a : Nat) : Nat :=
  if RecvG t ids q p a then (rpairs t np ids q).idxOf (p, a) else uintMax

theorem assignBi_eq (mask : Nat) : ∀ (l : List SharedId) (c : Nat), l.Nodup →
    assignBi mask c l = l.map fun x => { x with bi := if x.flags &&& mask = 0 then c + (l.filter fun x => x.flags &&& mask = 0).idxOf x else uintMax }
  | [], c, _ => rfl
  | x :: l, c, hnd => by
    rw [List.nodup_cons] at hnd
    rw [assignBi]
    by_cases h : x.flags &&& mask = 0
    · rw [if_neg (by simpa using h), assignBi_eq mask l (c + 1) hnd.2, List.map_cons, List.filter_cons]
      simp only [h, decide_true, if_true, List.idxOf_cons_self, Nat.add_zero]
      congr 1
      apply List.map_congr_left
      intro y hy
      have hne : x ≠ y := fun e => hnd.1 (e ▸ hy)
      rw [List.idxOf_cons_ne _ hne]
      congr 1
      split
      · omega
      · rfl
    · rw [if_pos (by simpa using h), assignBi_eq mask l c hnd.2, List.map_cons, List.filter_cons]
      simp [h]

theorem sq_filter (t : Bool) : ((sqRows np ids b q).filter fun x => x.flags &&& maskOf t = 0) =
    (rpairs t np ids q).map fun x => rowB ids b q x.1 x.2 := by
  unfold sqRows rpairs
  rw [List.filter_flatMap, List.map_flatMap]
  apply List.flatMap_congr
  intro p _
  rw [List.filter_map, List.map_map]
  have : (sids ids q p).filter ((fun x : SharedId => decide (x.flags &&& maskOf t = 0)) ∘ rowB ids b q p) = rids t ids q p := by
    unfold rids
    apply List.filter_congr
    intro a ha
    rw [Function.comp_apply]
    exact decide_eq_decide.2 (masked_iff (mem_sids.1 ha))
  rw [this]
  rfl

theorem idxOf_map_inj {A B : Type} [DecidableEq A] [DecidableEq B] (f : A → B) : ∀ (l : List A) (a : A), (∀ x ∈ l, f x = f a → x = a) → (l.map f).idxOf (f a) = l.idxOf a
  | [], _, _ => rfl
  | x :: l, a, h => by
    rw [List.map_cons]
    by_cases e : x = a
    · subst e; rw [List.idxOf_cons_self, List.idxOf_cons_self]
    · rw [List.idxOf_cons_ne _ e, List.idxOf_cons_ne _ (fun h' => e (h x (by simp) h')), idxOf_map_inj f l a (fun x hx => h x (by simp [hx]))]

theorem assign_sq (t : Bool) : assignBi (maskOf t) 0 (sqRows np ids b q) = sqRows np ids (biOf t np ids q) q := by
  rw [assignBi_eq _ _ _ sqRows_nodup, sq_filter]
  have h : ∀ p a, Shared2 ids q p a → ({ rowB ids b q p a with bi := if (rowB ids b q p a).flags &&& maskOf t = 0 then
      0 + ((rpairs t np ids q).map fun x => rowB ids b q x.1 x.2).idxOf (rowB ids b q p a) else uintMax } : SharedId) = rowB ids (biOf t np ids q) q p a := by
    intro p a hs
    have hidx := idxOf_map_inj (fun x : Nat × Nat => rowB ids b q x.1 x.2) (rpairs t np ids q) (p, a) (by
      rintro ⟨p', a'⟩ _ e
      have e1 := congrArg SharedId.p e
      have e2 := congrArg SharedId.id e
      simp only [rowB, shRow] at e1 e2
      rw [e1, e2])
    simp only at hidx
    unfold biOf
    by_cases hr : RecvG t ids q p a
    · rw [if_pos ((masked_iff hs).2 hr), hidx]
      simp [rowB, hr]
      congr!
    · rw [if_neg (fun h => hr ((masked_iff hs).1 h))]
      simp [rowB, hr]
  unfold sqRows
  rw [List.map_flatMap]
  apply List.flatMap_congr
  intro p _
  rw [List.map_map]
  apply List.map_congr_left
  intro a ha
  exact h p a (mem_sids.1 ha)

/-! ### messages -/

/-- the messages received by `q` -/
def rmsgs (t : Bool) (np : Nat) (ids : Nat → List Int) (q : Nat) : List (Nat × Nat) :=
  ((List.range np).filter fun p => rids t ids q p ≠ []).map fun p => (p, (rids t ids q p).length)

theorem bumpLast_append (l : List (Nat × Nat)) (p n : Nat) : bumpLast (l ++ [(p, n)]) = l ++ [(p, n + 1)] := by
  induction l with
  | nil => rfl
  | cons x l ih =>
    cases l with
    | nil => rfl
    | cons y l => rw [List.cons_append, List.cons_append, bumpLast]; rw [← List.cons_append, ih]; rfl; simp

theorem pwMsgs_same (mask : Nat) (p : Nat) (acc : List (Nat × Nat)) (rest : List SharedId) : ∀ (l : List SharedId) (n : Nat), (∀ x ∈ l, x.p = p) →
    pwMsgs mask p (acc ++ [(p, n)]) (l ++ rest) = pwMsgs mask p (acc ++ [(p, n + (l.filter fun x => x.flags &&& mask = 0).length)]) rest
  | [], n, _ => by simp
  | x :: l, n, h => by
    have hx := h x (by simp)
    rw [List.cons_append, pwMsgs, List.filter_cons]
    by_cases hm : x.flags &&& mask = 0
    · rw [if_neg (by simpa using hm), if_neg (by simpa using hx), bumpLast_append, pwMsgs_same mask p acc rest l _ (fun y hy => h y (by simp [hy]))]
      simp only [hm, decide_true, if_true, List.length_cons]
      congr 4; omega
    · rw [if_pos (by simpa using hm), pwMsgs_same mask p acc rest l _ (fun y hy => h y (by simp [hy]))]
      simp [hm]

theorem pwMsgs_block (mask : Nat) (p lp : Nat) (hlp : lp ≠ p) (acc : List (Nat × Nat)) (rest : List SharedId) : ∀ (l : List SharedId), (∀ x ∈ l, x.p = p) →
    pwMsgs mask lp acc (l ++ rest) = if (l.filter fun x => x.flags &&& mask = 0) = [] then pwMsgs mask lp acc rest
      else pwMsgs mask p (acc ++ [(p, (l.filter fun x => x.flags &&& mask = 0).length)]) rest
  | [], _ => by simp
  | x :: l, h => by
    have hx := h x (by simp)
    rw [List.cons_append, pwMsgs, List.filter_cons]
    by_cases hm : x.flags &&& mask = 0
    · rw [if_neg (by simpa using hm), if_pos (by rw [hx]; exact Ne.symm hlp)]
      simp only [hm, decide_true, if_true, List.length_cons, reduceCtorEq, if_false]
      rw [hx, pwMsgs_same mask p acc rest l 1 (fun y hy => h y (by simp [hy]))]
      congr 4; omega
    · rw [if_pos (by simpa using hm), pwMsgs_block mask p lp hlp acc rest l (fun y hy => h y (by simp [hy]))]
      simp [hm]

theorem pwMsgs_sq (t : Bool) (hnp : np ≤ 4294967295) : pwMsgs (maskOf t) uintMax [] (sqRows np ids b q) = rmsgs t np ids q := by
  have hblk : ∀ p, (((sids ids q p).map (rowB ids b q p)).filter fun x => x.flags &&& maskOf t = 0) = (rids t ids q p).map (rowB ids b q p) := by
    intro p
    rw [List.filter_map]
    congr 1
    unfold rids
    apply List.filter_congr
    intro a ha
    rw [Function.comp_apply]
    exact decide_eq_decide.2 (masked_iff (mem_sids.1 ha))
  have key : ∀ (l : List Nat) (lp : Nat) (acc : List (Nat × Nat)), l.Nodup → lp ∉ l →
      pwMsgs (maskOf t) lp acc (l.flatMap fun p => (sids ids q p).map (rowB ids b q p)) =
        acc ++ (l.filter fun p => rids t ids q p ≠ []).map fun p => (p, (rids t ids q p).length) := by
    intro l
    induction l with
    | nil => intro lp acc _ _; simp [pwMsgs]
    | cons p l ih =>
      intro lp acc hnd hlp
      rw [List.nodup_cons] at hnd
      rw [List.flatMap_cons, pwMsgs_block (maskOf t) p lp (fun e => hlp (by simp [e])) acc _ _ (by
        intro x hx
        obtain ⟨a, _, rfl⟩ := List.mem_map.1 hx
        rfl), hblk, List.filter_cons]
      by_cases hr : rids t ids q p = []
      · rw [hr, List.map_nil, if_pos rfl, ih lp acc hnd.2 (fun h => hlp (by simp [h]))]
        simp
      · rw [if_neg (by simpa using hr), ih p _ hnd.2 hnd.1, List.length_map]
        simp [hr]
  have := key (List.range np) uintMax [] List.nodup_range (by simp only [List.mem_range, uintMax]; omega)
  rw [List.nil_append] at this
  exact this

/-- pw_comm_setup -/
theorem pwCommSetup_run (t : Bool) (hnp : np ≤ 4294967295) (hi : ∀ q, q < np → IdsOk (ids q)) (hq : q < np) {rows : List SharedId} (h : rows.Perm (sqRows np ids b q)) (s : ScratchF Nat) :
    pwCommSetup (maskOf t) rows s = .ok (⟨rmsgs t np ids q, (rpairs t np ids q).length⟩, sqRows np ids (biOf t np ids q) q) := by
  unfold pwCommSetup
  rw [sort_by_p hnp hi hq h]
  simp only [Outcome.bind]
  rw [pwMsgs_sq t hnp, sq_filter, List.length_map, assign_sq]

/-! ### the map -/

/-- the groups of the map: for each id received, the index and the positions in the buffer -/
def pwGroups (t : Bool) (np : Nat) (ids : Nat → List Int) (q : Nat) : List (Nat × List Nat) :=
  ((uids (ids q)).map fun a => (prim (ids q) a, ((List.range np).filter fun p => RecvG t ids q p a).map fun p => (rpairs t np ids q).idxOf (p, a))).filter fun g => g.2 ≠ []

theorem pwMap_block (i : Nat) (rest : List SharedId) (hr : ∀ x ∈ rest.head?, x.i ≠ i) : ∀ (l : List SharedId), (∀ x ∈ l, x.i = i) →
    pwMap (l ++ rest) = (if (l.filter fun x => x.bi ≠ uintMax) ≠ [] then i :: (l.filter fun x => x.bi ≠ uintMax).map SharedId.bi ++ [uintMax] else []) ++ pwMap rest
  | [], _ => by simp
  | x :: l, h => by
    have hx := h x (by simp)
    rw [List.cons_append, pwMap]
    by_cases hb : x.bi = uintMax
    · rw [if_pos hb, pwMap_block i rest hr l (fun y hy => h y (by simp [hy]))]
      simp [hb]
    · rw [if_neg hb, List.filter_cons]
      obtain ⟨h1, h2⟩ := takeWhile_stop (p := fun y : SharedId => decide (y.i = x.i)) (l := l) (r := rest) (by
        intro y hy; rw [hx]; simpa using h y (by simp [hy])) (by
        intro y hy; rw [hx]; simpa using hr y hy)
      rw [h1, h2]
      simp [hb, hx]

theorem biOf_ne {t : Bool} (hq : q < np) (hsmall : sharedPairs np ids < 4294967295) {p a : Nat} (hp : p < np) : biOf t np ids q p a ≠ uintMax ↔ RecvG t ids q p a := by
  unfold biOf
  constructor
  · intro h; by_contra h'; rw [if_neg h'] at h; exact h rfl
  · intro h
    rw [if_pos h]
    have h1 := List.idxOf_lt_length_iff.2 (mem_rpairs.2 ⟨hp, h⟩ : (p, a) ∈ rpairs t np ids q)
    have h2 := rpairs_length_le t hq (ids := ids)
    simp only [uintMax]; omega

theorem pwMap_mq (t : Bool) (hq : q < np) (hsmall : sharedPairs np ids < 4294967295) : pwMap (mqRows np ids (biOf t np ids q) q) = encGroups (pwGroups t np ids q) := by
  unfold mqRows pwGroups
  have hblk : ∀ a, ((((List.range np).filter fun p => Shared2 ids q p a).map fun p => rowB ids (biOf t np ids q) q p a).filter fun x => x.bi ≠ uintMax).map SharedId.bi =
      ((List.range np).filter fun p => RecvG t ids q p a).map fun p => (rpairs t np ids q).idxOf (p, a) := by
    intro a
    rw [List.filter_map, List.map_map, List.filter_filter]
    have e : ((List.range np).filter fun p => ((fun x : SharedId => decide (x.bi ≠ uintMax)) ∘ fun p => rowB ids (biOf t np ids q) q p a) p && decide (Shared2 ids q p a)) =
        (List.range np).filter fun p => RecvG t ids q p a := by
      apply List.filter_congr
      intro p hp
      have := biOf_ne (t := t) hq hsmall (List.mem_range.1 hp) (a := a)
      rw [Function.comp_apply, Bool.eq_iff_iff, Bool.and_eq_true, decide_eq_true_eq, decide_eq_true_eq, decide_eq_true_eq]
      show biOf t np ids q p a ≠ uintMax ∧ _ ↔ _
      rw [this]
      exact ⟨fun h => h.1, fun h => ⟨h, h.1⟩⟩
    rw [e]
    apply List.map_congr_left
    intro p hp
    have := (List.mem_filter.1 hp).2
    simp only [decide_eq_true_eq] at this
    show biOf t np ids q p a = _
    unfold biOf
    rw [if_pos this]
  have key : ∀ (l : List Nat), l.Nodup → (∀ a ∈ l, has (ids q) a) →
      pwMap (l.flatMap fun a => ((List.range np).filter fun p => Shared2 ids q p a).map fun p => rowB ids (biOf t np ids q) q p a) =
      encGroups ((l.map fun a => (prim (ids q) a, ((List.range np).filter fun p => RecvG t ids q p a).map fun p => (rpairs t np ids q).idxOf (p, a))).filter fun g => g.2 ≠ []) := by
    intro l
    induction l with
    | nil => intro _ _; rw [List.flatMap_nil, pwMap]; rfl
    | cons a l ih =>
      intro hnd hh
      rw [List.nodup_cons] at hnd
      rw [List.flatMap_cons, pwMap_block (prim (ids q) a), ih hnd.2 (fun c hc => hh c (by simp [hc])), List.map_cons, List.filter_cons]
      · have hb := hblk a
        by_cases hne : ((((List.range np).filter fun p => Shared2 ids q p a).map fun p => rowB ids (biOf t np ids q) q p a).filter fun x => x.bi ≠ uintMax) = []
        · rw [hne] at hb
          rw [if_neg (not_not.2 hne), ← hb]
          simp
        · rw [if_pos hne, hb]
          have hne2 : (((List.range np).filter fun p => RecvG t ids q p a).map fun p => (rpairs t np ids q).idxOf (p, a)) ≠ [] := by
            intro h0
            rw [← hb] at h0
            exact hne (List.map_eq_nil_iff.1 h0)
          rw [if_pos (by simpa using hne2), encGroups_cons]
          simp
      · intro x hx
        obtain ⟨c, hc, hx2⟩ := List.mem_flatMap.1 (List.mem_of_mem_head? hx)
        obtain ⟨p, _, rfl⟩ := List.mem_map.1 hx2
        show prim (ids q) c ≠ prim (ids q) a
        intro e
        have := prim_inj (hh c (by simp [hc])) (hh a (by simp)) e
        subst this
        exact hnd.1 hc
      · intro x hx
        obtain ⟨p, _, rfl⟩ := List.mem_map.1 hx
        rfl
  exact key _ (uids_nodup _) (fun a ha => mem_uids.1 ha)

/-- the set-up for the pairwise exchange -/
def pwSpec (np : Nat) (ids : Nat → List Int) (q : Nat) : PwData :=
  ⟨fun t => ⟨rmsgs t np ids q, (rpairs t np ids q).length⟩, fun t => encGroups (pwGroups t np ids q)⟩

theorem pwSetup_run {ord : Nat → Nat} {total : Nat} {st : TopoSt} (hnp : np ≤ 4294967295) (hi : ∀ q, q < np → IdsOk (ids q)) (hq : q < np)
    (hsmall : sharedPairs np ids < 4294967295) (h : TopoCore np ids ord total q st) (s : ScratchF Nat) :
    pwSetup st.sh s = .ok (pwSpec np ids q, mqRows np ids (biOf true np ids q) q) := by
  have hp : st.sh.Perm (sqRows np ids (fun _ _ => 0) q) := (List.perm_ext_iff_of_nodup h.sh_nodup sqRows_nodup).2 fun x => by
    rw [h.mem_sh, mem_sqRows]; rfl
  have e1 : pwCommSetup 2 st.sh s = _ := pwCommSetup_run false hnp hi hq hp s
  have e2 : ∀ b, pwMapSetup (sqRows np ids b q) s = .ok (pwMap (mqRows np ids b q), mqRows np ids b q) := by
    intro b
    unfold pwMapSetup
    rw [sort_by_i hnp hi hq]; rfl
  have e3 : pwCommSetup 1 (mqRows np ids (biOf false np ids q) q) s = _ := pwCommSetup_run true hnp hi hq mq_perm_sq s
  unfold pwSetup
  rw [e1]
  simp only [Outcome.bind]
  rw [e2]
  simp only
  rw [e3]
  simp only
  rw [e2]
  simp only
  rw [pwMap_mq false hq hsmall, pwMap_mq true hq hsmall]
  unfold pwSpec
  congr 3
  · funext t; cases t <;> rfl
  · funext t; cases t <;> rfl

end Gslib.Gs
