import Verif.Lemmas.GsUniqNz

/-! # make_topology_unique: the owner of an id -/

namespace Gslib.Gs
open Gslib Gslib.Sarray Gslib.Spec

variable {np : Nat} {ids : Nat → List Int} {q : Nat}

/-- the processes with an unflagged entry `a` -/
def unflProcs (np : Nat) (ids : Nat → List Int) (a : Nat) : List Nat := (List.range np).filter fun p => hasU (ids p) a

/-- the owner of id `a` (`np` if there is none) -/
def own (np : Nat) (ids : Nat → List Int) (a : Nat) : Nat := (unflProcs np ids a).getD (a % (unflProcs np ids a).length) np

theorem mem_unflProcs {a p : Nat} : p ∈ unflProcs np ids a ↔ p < np ∧ hasU (ids p) a := by simp [unflProcs]

theorem own_mem {a : Nat} (h : unflProcs np ids a ≠ []) : own np ids a ∈ unflProcs np ids a := by
  unfold own
  have hl : 0 < (unflProcs np ids a).length := List.length_pos_iff.2 h
  rw [List.getD_eq_getElem?_getD, List.getElem?_eq_getElem (Nat.mod_lt _ hl)]
  exact List.getElem_mem _

theorem own_hasU {a : Nat} (h : own np ids a = q) (hq : q < np) : hasU (ids q) a := by
  by_cases hn : unflProcs np ids a = []
  · unfold own at h
    rw [hn] at h
    simp at h
    omega
  · have := own_mem hn
    rw [h] at this
    exact (mem_unflProcs.1 this).2

theorem own_of_shared {a p : Nat} (hq : q < np) (hp : p < np) (h : Shared2 ids q p a) : own np ids a < np ∧ hasU (ids (own np ids a)) a := by
  have hn : unflProcs np ids a ≠ [] := by
    rcases h.2.2.2 with h | h
    · exact List.ne_nil_of_mem (mem_unflProcs.2 ⟨hq, h⟩)
    · exact List.ne_nil_of_mem (mem_unflProcs.2 ⟨hp, h⟩)
  exact mem_unflProcs.1 (own_mem hn)

theorem takeWhile_lt_sorted (q : Nat) : ∀ (l : List Nat), l.Pairwise (· < ·) → l.takeWhile (fun p => decide (p < q)) = l.filter fun p => decide (p < q)
  | [], _ => rfl
  | x :: l, h => by
    have h' := List.pairwise_cons.1 h
    by_cases hx : x < q
    · rw [List.takeWhile_cons_of_pos (by simpa using hx), List.filter_cons_of_pos (by simpa using hx), takeWhile_lt_sorted q l h'.2]
    · rw [List.takeWhile_cons_of_neg (by simpa using hx), List.filter_cons_of_neg (by simpa using hx)]
      symm
      rw [List.filter_eq_nil_iff]
      intro y hy
      have := h'.1 y hy
      simp; omega

theorem dropWhile_lt_sorted (q : Nat) : ∀ (l : List Nat), l.Pairwise (· < ·) → l.dropWhile (fun p => decide (p < q)) = l.filter fun p => decide (q ≤ p)
  | [], _ => rfl
  | x :: l, h => by
    have h' := List.pairwise_cons.1 h
    by_cases hx : x < q
    · rw [List.dropWhile_cons_of_pos (by simpa using hx), List.filter_cons_of_neg (by simpa using hx), dropWhile_lt_sorted q l h'.2]
    · rw [List.dropWhile_cons_of_neg (by simpa using hx), List.filter_cons_of_pos (by simp; omega)]
      congr 1
      symm
      rw [List.filter_eq_self]
      intro y hy
      have := h'.1 y hy
      simp; omega

/-- a sorted list split at `q` -/
theorem sorted_split (q : Nat) : ∀ (l : List Nat), l.Pairwise (· < ·) → l = (l.filter fun p => decide (p < q)) ++ l.filter fun p => decide (q ≤ p) := by
  intro l h
  rw [← takeWhile_lt_sorted q l h, ← dropWhile_lt_sorted q l h, List.takeWhile_append_dropWhile]

theorem sorted_split_mem (q : Nat) (l : List Nat) (h : l.Pairwise (· < ·)) (hq : q ∈ l) :
    l = (l.filter fun p => decide (p < q)) ++ q :: l.filter fun p => decide (q < p) := by
  conv => lhs; rw [sorted_split q l h]
  congr 1
  refine List.Perm.eq_of_pairwise (le := (· < ·)) ?_ (h.filter _) ?_ ?_
  · intro x y _ _ h1 h2
    omega
  · rw [List.pairwise_cons]
    exact ⟨by intro y hy; simpa using (List.mem_filter.1 hy).2, h.filter _⟩
  · rw [List.perm_ext_iff_of_nodup ((h.imp fun h => by omega).filter _)]
    · intro x
      rw [List.mem_filter, List.mem_cons, List.mem_filter, decide_eq_true_eq, decide_eq_true_eq]
      constructor
      · rintro ⟨h1, h2⟩
        by_cases hx : x = q
        · exact Or.inl hx
        · exact Or.inr ⟨h1, by omega⟩
      · rintro (rfl | ⟨h1, h2⟩)
        · exact ⟨hq, by omega⟩
        · exact ⟨h1, by omega⟩
    · rw [List.nodup_cons]
      refine ⟨?_, ((h.imp fun h => by omega).filter _)⟩
      simp

/-- the rows of the group of `a` -/
def gRows (np : Nat) (ids : Nat → List Int) (q a : Nat) : List SharedId := ((List.range np).filter fun p => Shared2 ids q p a).map fun p => shRow ids q p a

theorem mqRows_zero (np : Nat) (ids : Nat → List Int) (q : Nat) : mqRows np ids (fun _ _ => 0) q = (uids (ids q)).flatMap (gRows np ids q) := rfl

theorem shRow_flags_local {q p a : Nat} : (shRow ids q p a).flags &&& 1 = if hasU (ids q) a then 0 else 1 := by
  unfold shRow
  by_cases h1 : hasU (ids q) a <;> by_cases h2 : hasU (ids p) a <;> simp [h1, h2]

theorem shRow_remoteUnflagged {q p a : Nat} : remoteUnflagged (shRow ids q p a) = decide (hasU (ids p) a) := by
  unfold shRow remoteUnflagged
  by_cases h1 : hasU (ids q) a <;> by_cases h2 : hasU (ids p) a <;> simp [h1, h2]

/-- the rows kept by the loop -/
def kept (np : Nat) (ids : Nat → List Int) (q a : Nat) : List SharedId :=
  if gRows np ids q a = [] then [] else
    if own np ids a = q then (gRows np ids q a).map fun p => { p with flags := 2 } else [{ shRow ids q (own np ids a) a with flags := 1 }]

theorem gRows_unflagged {a : Nat} (c : Nat → Prop) [DecidablePred c] (hh : has (ids q) a) :
    ((((List.range np).filter fun p => Shared2 ids q p a).filter fun p => c p).map fun p => shRow ids q p a).filter remoteUnflagged =
      (((unflProcs np ids a).filter fun p => decide (p ≠ q)).filter fun p => c p).map fun p => shRow ids q p a := by
  rw [List.filter_map]
  congr 1
  unfold unflProcs
  rw [List.filter_filter, List.filter_filter, List.filter_filter, List.filter_filter]
  apply List.filter_congr
  intro p _
  simp only [Function.comp, shRow_remoteUnflagged]
  rw [Bool.eq_iff_iff]
  simp only [Bool.and_eq_true, decide_eq_true_eq]
  unfold Shared2
  constructor
  · rintro ⟨⟨h1, h2⟩, h3, _⟩; exact ⟨⟨h2, h3⟩, h1⟩
  · rintro ⟨⟨h2, h3⟩, h1⟩; exact ⟨⟨h1, h2⟩, h3, hh, h1.has, Or.inr h1⟩

theorem uniqGroup_run (hq : q < np) {a : Nat} (hh : has (ids q) a) {pb : SharedId} (hpb : pb ∈ gRows np ids q a) :
    uniqGroup q pb (gRows np ids q a) = .ok (kept np ids q a, decide (own np ids a = q)) := by
  have hne : gRows np ids q a ≠ [] := List.ne_nil_of_mem hpb
  have hs : (unflProcs np ids a).Pairwise (· < ·) := List.pairwise_lt_range.filter _
  have hsh : ((List.range np).filter fun p => decide (Shared2 ids q p a)).Pairwise (· < ·) := List.pairwise_lt_range.filter _
  have hlt : (((gRows np ids q a).takeWhile fun p => p.p < q).filter remoteUnflagged) = ((unflProcs np ids a).filter fun p => decide (p < q)).map fun p => shRow ids q p a := by
    unfold gRows
    rw [List.takeWhile_map]
    have e1 : List.takeWhile ((fun p : SharedId => decide (p.p < q)) ∘ fun p => shRow ids q p a) ((List.range np).filter fun p => decide (Shared2 ids q p a)) =
        ((List.range np).filter fun p => decide (Shared2 ids q p a)).filter fun p => decide (p < q) := takeWhile_lt_sorted q _ hsh
    rw [e1, gRows_unflagged (fun p => p < q) hh, List.filter_filter]
    congr 1
    apply List.filter_congr
    intro p _
    rw [Bool.eq_iff_iff]
    simp only [Bool.and_eq_true, decide_eq_true_eq]
    omega
  have hgt : (((gRows np ids q a).dropWhile fun p => p.p < q).filter remoteUnflagged) = ((unflProcs np ids a).filter fun p => decide (q < p)).map fun p => shRow ids q p a := by
    unfold gRows
    rw [List.dropWhile_map]
    have e1 : List.dropWhile ((fun p : SharedId => decide (p.p < q)) ∘ fun p => shRow ids q p a) ((List.range np).filter fun p => decide (Shared2 ids q p a)) =
        ((List.range np).filter fun p => decide (Shared2 ids q p a)).filter fun p => decide (q ≤ p) := dropWhile_lt_sorted q _ hsh
    rw [e1, gRows_unflagged (fun p => q ≤ p) hh, List.filter_filter]
    congr 1
    apply List.filter_congr
    intro p _
    rw [Bool.eq_iff_iff]
    simp only [Bool.and_eq_true, decide_eq_true_eq]
    omega
  have hall : (gRows np ids q a).filter remoteUnflagged = ((unflProcs np ids a).filter fun p => decide (p ≠ q)).map fun p => shRow ids q p a := by
    have := gRows_unflagged (np := np) (ids := ids) (q := q) (a := a) (fun _ => True) hh
    simpa [gRows] using this
  obtain ⟨p0, hp0, rfl⟩ := List.mem_map.1 hpb
  rw [List.mem_filter, List.mem_range, decide_eq_true_eq] at hp0
  have hUne : unflProcs np ids a ≠ [] := by
    rcases hp0.2.2.2.2 with h | h
    · exact List.ne_nil_of_mem (mem_unflProcs.2 ⟨hq, h⟩)
    · exact List.ne_nil_of_mem (mem_unflProcs.2 ⟨hp0.1, h⟩)
  have hL : 0 < (unflProcs np ids a).length := List.length_pos_iff.2 hUne
  -- the position `k` among the others is the owner
  have fin : ∀ k : Nat, ((unflProcs np ids a).filter fun p => decide (p ≠ q))[k]? = some (own np ids a) →
      ownerOf (shRow ids q p0 a) ((unflProcs np ids a).filter fun p => decide (p < q)).length ((unflProcs np ids a).filter fun p => decide (q < p)).length = .ok (some k) →
      uniqGroup q (shRow ids q p0 a) (gRows np ids q a) = .ok (kept np ids q a, decide (own np ids a = q)) := by
    intro k hk ho
    have hoq : own np ids a ≠ q := by
      have := (List.mem_filter.1 (List.mem_of_getElem? hk)).2
      simpa using this
    unfold uniqGroup
    simp only [hlt, hgt, hall, List.length_map]
    rw [ho]
    simp only [Outcome.bind, List.getElem?_map, hk, Option.map_some, kept, if_neg hne, hoq, if_false, decide_false]
  have hid : (shRow ids q p0 a).id = a := rfl
  by_cases hU : hasU (ids q) a
  · have hsp := sorted_split_mem q _ hs (mem_unflProcs.2 ⟨hq, hU⟩)
    have hlen : (unflProcs np ids a).length = ((unflProcs np ids a).filter fun p => decide (p < q)).length + ((unflProcs np ids a).filter fun p => decide (q < p)).length + 1 := by
      conv => lhs; rw [hsp]
      simp; omega
    have hne' : (unflProcs np ids a).filter (fun p => decide (p ≠ q)) = ((unflProcs np ids a).filter fun p => decide (p < q)) ++ (unflProcs np ids a).filter fun p => decide (q < p) := by
      conv => lhs; rw [hsp]
      rw [List.filter_append, List.filter_cons_of_neg (by simp)]
      congr 1
      · rw [List.filter_eq_self]
        intro x hx
        have := (List.mem_filter.1 hx).2
        simp at this ⊢; omega
      · rw [List.filter_eq_self]
        intro x hx
        have := (List.mem_filter.1 hx).2
        simp at this ⊢; omega
    have hm : a % (unflProcs np ids a).length < (unflProcs np ids a).length := Nat.mod_lt _ hL
    have hown : (unflProcs np ids a)[a % (unflProcs np ids a).length]? = some (own np ids a) := by
      unfold own
      rw [List.getD_eq_getElem?_getD, List.getElem?_eq_getElem hm]; rfl
    have hfl : (shRow ids q p0 a).flags &&& 1 = 0 := by rw [shRow_flags_local, if_pos hU]
    generalize hA : (unflProcs np ids a).filter (fun p => decide (p < q)) = A at *
    generalize hB : (unflProcs np ids a).filter (fun p => decide (q < p)) = B at *
    rcases Nat.lt_trichotomy (a % (unflProcs np ids a).length) A.length with h | h | h
    · refine fin (a % (unflProcs np ids a).length) ?_ ?_
      · rw [hne', List.getElem?_append_left h]
        rw [hsp, List.getElem?_append_left (by rw [← hsp]; exact h), ← hsp] at hown
        exact hown
      · unfold ownerOf
        rw [if_pos hfl]
        simp only [hid, ← hlen]
        rw [if_neg (by omega), if_neg (by omega)]
    · have ho : own np ids a = q := by
        rw [h, hsp, List.getElem?_append_right (le_refl _)] at hown
        simpa using hown.symm
      unfold uniqGroup
      simp only [hlt, hgt, List.length_map]
      unfold ownerOf
      rw [if_pos hfl]
      simp only [hid, ← hlen]
      rw [if_pos h]
      simp only [Outcome.bind, kept, if_neg hne, ho, if_true, decide_true]
    · refine fin (a % (unflProcs np ids a).length - 1) ?_ ?_
      · rw [hne', List.getElem?_append_right (by omega)]
        rw [hsp, List.getElem?_append_right (by rw [← hsp]; omega), ← hsp] at hown
        have e : a % (unflProcs np ids a).length - A.length = (a % (unflProcs np ids a).length - 1 - A.length) + 1 := by omega
        rw [e, List.getElem?_cons_succ] at hown
        exact hown
      · unfold ownerOf
        rw [if_pos hfl]
        simp only [hid, ← hlen]
        rw [if_neg (by omega), if_pos (by omega)]
  · have hnq : ∀ x ∈ unflProcs np ids a, x ≠ q := by
      rintro x hx rfl
      exact hU (mem_unflProcs.1 hx).2
    have hsp := sorted_split q _ hs
    have hge : (unflProcs np ids a).filter (fun p => decide (q ≤ p)) = (unflProcs np ids a).filter fun p => decide (q < p) := by
      apply List.filter_congr
      intro x hx
      have := hnq x hx
      rw [Bool.eq_iff_iff]; simp; omega
    have hlen : (unflProcs np ids a).length = ((unflProcs np ids a).filter fun p => decide (p < q)).length + ((unflProcs np ids a).filter fun p => decide (q < p)).length := by
      conv => lhs; rw [hsp]
      rw [List.length_append, hge]
    have hfl : ¬ (shRow ids q p0 a).flags &&& 1 = 0 := by rw [shRow_flags_local, if_neg hU]; omega
    refine fin (a % (unflProcs np ids a).length) ?_ ?_
    · rw [List.filter_eq_self.2 (fun x hx => by simpa using hnq x hx)]
      unfold own
      rw [List.getD_eq_getElem?_getD, List.getElem?_eq_getElem (Nat.mod_lt _ hL)]; rfl
    · unfold ownerOf
      rw [if_neg hfl, if_neg (by omega), ← hlen, hid]

end Gslib.Gs
