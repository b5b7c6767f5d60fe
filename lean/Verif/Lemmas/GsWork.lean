import Verif.Lemmas.GsUnique
import Mathlib.Data.List.Pairwise
import Mathlib.Data.List.Nodup

/-! # The list of shared ids built on the work processes -/

namespace Gslib.Gs
open Gslib Gslib.Spec

/-- ids nondecreasing, unflagged entries first -/
def WSorted (l : List UniqueId) : Prop := l.Pairwise fun x y => x.id < y.id ∨ (x.id = y.id ∧ x.srcIf ≤ y.srcIf)

/-- at most one row for an id and a process -/
def WDistinct (l : List UniqueId) : Prop := l.Pairwise fun x y => x.id = y.id → x.workProc ≠ y.workProc

/-- the distinct shared ids, in order -/
def shIds : Nat → List UniqueId → List Nat
  | _, [] => []
  | last, row :: rest =>
    if isNot row.srcIf then shIds last rest
    else if (rest.takeWhile fun o => o.id = row.id) ≠ [] ∧ row.id ≠ last then row.id :: shIds row.id rest
    else shIds last rest

theorem countShared_eq : ∀ (l : List UniqueId) (last n : Nat), countShared last n l = n + (shIds last l).length
  | [], last, n => rfl
  | row :: rest, last, n => by
    rw [countShared.eq_def, shIds]
    simp only
    split
    · exact countShared_eq rest last n
    · by_cases h : row.id = last
      · rw [if_pos h, if_neg (fun h' => h'.2 h)]
        exact countShared_eq rest last n
      · rw [if_neg h]
        cases rest with
        | nil => simp [shIds]
        | cons other rest =>
          simp only
          by_cases h2 : other.id = row.id
          · rw [if_pos h2, if_pos ⟨by simp [h2], h⟩, countShared_eq (other :: rest), List.length_cons]; omega
          · rw [if_neg h2, if_neg (fun h' => h'.1 (by simp [h2])), countShared_eq (other :: rest)]

/-- where `last_id` can be -/
def LastOk (last : Nat) (l : List UniqueId) : Prop := (∀ x ∈ l, last ≤ x.id) ∨ (∀ x ∈ l, x.id < last)

theorem WSorted.tail {x : UniqueId} {l : List UniqueId} (h : WSorted (x :: l)) : WSorted l := (List.pairwise_cons.1 h).2

theorem WSorted.head_le {x : UniqueId} {l : List UniqueId} (h : WSorted (x :: l)) : ∀ y ∈ l, x.id ≤ y.id := by
  intro y hy
  rcases (List.pairwise_cons.1 h).1 y hy with h | h <;> omega

theorem LastOk.tail {last : Nat} {x : UniqueId} {l : List UniqueId} (h : LastOk last (x :: l)) : LastOk last l := by
  rcases h with h | h
  · exact Or.inl fun y hy => h y (by simp [hy])
  · exact Or.inr fun y hy => h y (by simp [hy])

theorem LastOk.of_head {x : UniqueId} {l : List UniqueId} (h : WSorted (x :: l)) : LastOk x.id l := Or.inl h.head_le

theorem LastOk.not_later {last : Nat} {x : UniqueId} {l : List UniqueId} (h : LastOk last (x :: l)) (hs : WSorted (x :: l)) (hne : x.id ≠ last) :
    ∀ y ∈ l, y.id ≠ last := by
  intro y hy
  have h1 := hs.head_le y hy
  rcases h with h | h
  · have := h x (by simp); omega
  · have := h y (by simp [hy]); omega

theorem mem_others {row : UniqueId} {rest : List UniqueId} (h : WSorted (row :: rest)) {y : UniqueId} :
    y ∈ rest.takeWhile (fun o => decide (o.id = row.id)) ↔ y ∈ rest ∧ y.id = row.id := by
  have hle := h.head_le
  have ht := h.tail
  clear h
  induction rest with
  | nil => simp
  | cons z rest ih =>
    have ih' : y ∈ rest.takeWhile (fun o => decide (o.id = row.id)) ↔ y ∈ rest ∧ y.id = row.id := ih (fun y hy => hle y (List.mem_cons_of_mem _ hy)) ht.tail
    by_cases hz : z.id = row.id
    · rw [List.takeWhile_cons, if_pos (by simpa using hz), List.mem_cons, ih', List.mem_cons]
      constructor
      · rintro (rfl | h)
        · exact ⟨Or.inl rfl, hz⟩
        · exact ⟨Or.inr h.1, h.2⟩
      · rintro ⟨rfl | h, h2⟩
        · exact Or.inl rfl
        · exact Or.inr ⟨h, h2⟩
    · rw [List.takeWhile_cons, if_neg (by simpa using hz)]
      simp only [List.not_mem_nil, false_iff, not_and, List.mem_cons]
      rintro (rfl | hy)
      · exact hz
      · have := ht.head_le y hy
        have := hle z (by simp)
        omega

theorem pair_sublist_cons {x y row : UniqueId} {rest : List UniqueId} :
    [x, y].Sublist (row :: rest) ↔ [x, y].Sublist rest ∨ (x = row ∧ y ∈ rest) := by
  constructor
  · intro h
    cases h with
    | cons _ h => exact Or.inl h
    | cons_cons _ h => exact Or.inr ⟨rfl, List.singleton_sublist.1 h⟩
  · rintro (h | ⟨rfl, h⟩)
    · exact h.cons _
    · exact List.Sublist.cons_cons _ (List.singleton_sublist.2 h)

/-- `x` unflagged comes before `y` with the same id -/
def Pair (l : List UniqueId) (x y : UniqueId) : Prop := [x, y].Sublist l ∧ x.id = y.id ∧ isNot x.srcIf = false

theorem pair_cons {x y row : UniqueId} {rest : List UniqueId} (h : WSorted (row :: rest)) :
    Pair (row :: rest) x y ↔ Pair rest x y ∨ (x = row ∧ isNot row.srcIf = false ∧ y ∈ rest.takeWhile (fun o => decide (o.id = row.id))) := by
  unfold Pair
  rw [pair_sublist_cons, mem_others h]
  constructor
  · rintro ⟨h1 | ⟨rfl, h1⟩, h2, h3⟩
    · exact Or.inl ⟨h1, h2, h3⟩
    · exact Or.inr ⟨rfl, h3, h1, h2.symm⟩
  · rintro (⟨h1, h2, h3⟩ | ⟨rfl, h1, h2, h3⟩)
    · exact ⟨Or.inl h1, h2, h3⟩
    · exact ⟨Or.inr ⟨rfl, h2⟩, h3.symm, h1⟩

theorem Pair.mem {l : List UniqueId} {x y : UniqueId} (h : Pair l x y) : x ∈ l ∧ y ∈ l :=
  ⟨h.1.subset (by simp), h.1.subset (by simp)⟩

theorem mem_shIds : ∀ (l : List UniqueId) (last : Nat), WSorted l → LastOk last l → ∀ a,
    a ∈ shIds last l ↔ a ≠ last ∧ ∃ x y, Pair l x y ∧ x.id = a
  | [], last, _, _, a => by simp [shIds, Pair]
  | row :: rest, last, hs, hl, a => by
    rw [shIds]
    have hp : ∀ x y, Pair (row :: rest) x y ↔ _ := fun x y => pair_cons hs
    simp only [hp]
    by_cases hn : isNot row.srcIf = true
    · rw [if_pos hn, mem_shIds rest last hs.tail hl.tail]
      simp [hn]
    · rw [if_neg hn]
      have hn' : isNot row.srcIf = false := by simpa using hn
      by_cases hc : (rest.takeWhile fun o => decide (o.id = row.id)) ≠ [] ∧ row.id ≠ last
      · rw [if_pos hc, List.mem_cons, mem_shIds rest row.id hs.tail (LastOk.of_head hs)]
        obtain ⟨z, hz⟩ := List.exists_mem_of_ne_nil _ hc.1
        constructor
        · rintro (rfl | ⟨h1, x, y, h2, rfl⟩)
          · exact ⟨hc.2, row, z, Or.inr ⟨rfl, hn', hz⟩, rfl⟩
          · exact ⟨hl.not_later hs hc.2 x h2.mem.1, x, y, Or.inl h2, rfl⟩
        · rintro ⟨h1, x, y, h2 | ⟨rfl, _⟩, rfl⟩
          · by_cases h : x.id = row.id
            · exact Or.inl h
            · exact Or.inr ⟨h, x, y, h2, rfl⟩
          · exact Or.inl rfl
      · rw [if_neg hc, mem_shIds rest last hs.tail hl.tail]
        constructor
        · rintro ⟨h1, x, y, h2, rfl⟩
          exact ⟨h1, x, y, Or.inl h2, rfl⟩
        · rintro ⟨h1, x, y, h2 | ⟨rfl, _, h3⟩, rfl⟩
          · exact ⟨h1, x, y, h2, rfl⟩
          · exact absurd ⟨List.ne_nil_of_mem h3, h1⟩ hc

theorem shIds_sorted : ∀ (l : List UniqueId) (last : Nat), WSorted l → LastOk last l → (shIds last l).Pairwise (· < ·)
  | [], last, _, _ => List.Pairwise.nil
  | row :: rest, last, hs, hl => by
    rw [shIds]
    split
    · exact shIds_sorted rest last hs.tail hl.tail
    · split
      · rw [List.pairwise_cons]
        refine ⟨?_, shIds_sorted rest _ hs.tail (LastOk.of_head hs)⟩
        intro a ha
        obtain ⟨h1, x, y, h2, rfl⟩ := (mem_shIds rest _ hs.tail (LastOk.of_head hs) a).1 ha
        have := hs.head_le x h2.mem.1
        omega
      · exact shIds_sorted rest last hs.tail hl.tail

/-- the row of the work array for `x` -/
def mkWork (x y : UniqueId) (o : Nat) : SharedWork := ⟨x.id, o, x.workProc, y.workProc, x.srcIf, y.srcIf⟩

/-- the rank given to id `a` -/
def ordOf (last ord : Nat) (l : List UniqueId) (a : Nat) : Nat := if a = last then ord - 1 else ord + (shIds last l).idxOf a

theorem mem_buildWork : ∀ (l : List UniqueId) (last ord : Nat), WSorted l → LastOk last l → ∀ w,
    w ∈ buildWork last ord l ↔ ∃ x y, Pair l x y ∧ (w = mkWork x y (ordOf last ord l x.id) ∨ w = mkWork y x (ordOf last ord l x.id))
  | [], last, ord, _, _, w => by simp [buildWork, Pair]
  | row :: rest, last, ord, hs, hl, w => by
    rw [buildWork]
    have hp : ∀ x y, Pair (row :: rest) x y ↔ _ := fun x y => pair_cons hs
    simp only [hp]
    by_cases hn : isNot row.srcIf = true
    · rw [if_pos hn, mem_buildWork rest last ord hs.tail hl.tail]
      have e : ∀ a, ordOf last ord (row :: rest) a = ordOf last ord rest a := by
        intro a; unfold ordOf; rw [shIds, if_pos hn]
      simp [hn, e]
    · rw [if_neg hn]
      have hn' : isNot row.srcIf = false := by simpa using hn
      simp only [List.mem_append, List.mem_flatMap]
      by_cases hc : (rest.takeWhile fun o => decide (o.id = row.id)) ≠ [] ∧ row.id ≠ last
      · have hd : decide ((rest.takeWhile fun o => decide (o.id = row.id)) ≠ [] ∧ row.id ≠ last) = true := decide_eq_true hc
        simp only [hd, if_true]
        rw [mem_buildWork rest row.id (ord + 1) hs.tail (LastOk.of_head hs)]
        have e0 : ordOf last ord (row :: rest) row.id = ord + 1 - 1 := by
          unfold ordOf
          rw [if_neg hc.2, shIds, if_neg hn, if_pos hc]; simp
        have e1 : ∀ x ∈ rest, ordOf last ord (row :: rest) x.id = ordOf row.id (ord + 1) rest x.id := by
          intro x hx
          have := hl.not_later hs hc.2 x hx
          by_cases h : x.id = row.id
          · rw [h, e0]; unfold ordOf; rw [if_pos rfl]
          · unfold ordOf
            rw [if_neg this, if_neg h, shIds, if_neg hn, if_pos hc, List.idxOf_cons_ne _ (Ne.symm h)]
            omega
        constructor
        · rintro (⟨o, ho, hw⟩ | ⟨x, y, h2, hw⟩)
          · have hid : o.id = row.id := ((mem_others hs).1 ho).2
            refine ⟨row, o, Or.inr ⟨rfl, hn', ho⟩, ?_⟩
            rw [e0]
            simp only [List.mem_cons, List.not_mem_nil, or_false] at hw
            rcases hw with rfl | rfl
            · exact Or.inl rfl
            · right; unfold mkWork; rw [hid]
          · exact ⟨x, y, Or.inl h2, by rw [e1 x h2.mem.1]; exact hw⟩
        · rintro ⟨x, y, h2 | ⟨rfl, _, h3⟩, hw⟩
          · exact Or.inr ⟨x, y, h2, by rw [← e1 x h2.mem.1]; exact hw⟩
          · have hid : y.id = x.id := ((mem_others hs).1 h3).2
            refine Or.inl ⟨y, h3, ?_⟩
            rw [e0] at hw
            simp only [List.mem_cons, List.not_mem_nil, or_false]
            rcases hw with rfl | rfl
            · exact Or.inl rfl
            · right; unfold mkWork; rw [hid]
      · have hd : decide ((rest.takeWhile fun o => decide (o.id = row.id)) ≠ [] ∧ row.id ≠ last) = false := decide_eq_false hc
        simp only [hd, Bool.false_eq_true, if_false]
        rw [mem_buildWork rest last ord hs.tail hl.tail]
        have e1 : ∀ a, ordOf last ord (row :: rest) a = ordOf last ord rest a := by
          intro a; unfold ordOf; rw [shIds, if_neg hn, if_neg hc]
        have e0 : (rest.takeWhile fun o => decide (o.id = row.id)) ≠ [] → ordOf last ord (row :: rest) row.id = ord - 1 := by
          intro h
          have : row.id = last := by by_contra h'; exact hc ⟨h, h'⟩
          unfold ordOf; rw [if_pos this]
        constructor
        · rintro (⟨o, ho, hw⟩ | ⟨x, y, h2, hw⟩)
          · have hid : o.id = row.id := ((mem_others hs).1 ho).2
            refine ⟨row, o, Or.inr ⟨rfl, hn', ho⟩, ?_⟩
            rw [e0 (List.ne_nil_of_mem ho)]
            simp only [List.mem_cons, List.not_mem_nil, or_false] at hw
            rcases hw with rfl | rfl
            · exact Or.inl rfl
            · right; unfold mkWork; rw [hid]
          · exact ⟨x, y, Or.inl h2, by rw [e1]; exact hw⟩
        · rintro ⟨x, y, h2 | ⟨rfl, _, h3⟩, hw⟩
          · exact Or.inr ⟨x, y, h2, by rw [← e1]; exact hw⟩
          · have hid : y.id = x.id := ((mem_others hs).1 h3).2
            refine Or.inl ⟨y, h3, ?_⟩
            rw [e0 (List.ne_nil_of_mem h3)] at hw
            simp only [List.mem_cons, List.not_mem_nil, or_false]
            rcases hw with rfl | rfl
            · exact Or.inl rfl
            · right; unfold mkWork; rw [hid]

/-- all entries come from rows of the list -/
theorem buildWork_keys : ∀ (l : List UniqueId) (last ord : Nat), WSorted l → ∀ w ∈ buildWork last ord l,
    (∃ x ∈ l, x.id = w.id ∧ x.workProc = w.p1) ∧ (∃ y ∈ l, y.id = w.id ∧ y.workProc = w.p2)
  | [], last, ord, _, w, hw => by simp [buildWork] at hw
  | row :: rest, last, ord, hs, w, hw => by
    rw [buildWork] at hw
    split at hw
    · obtain ⟨⟨x, hx, h1⟩, ⟨y, hy, h2⟩⟩ := buildWork_keys rest last ord hs.tail w hw
      exact ⟨⟨x, by simp [hx], h1⟩, ⟨y, by simp [hy], h2⟩⟩
    · rw [List.mem_append] at hw
      rcases hw with hw | hw
      · obtain ⟨o, ho, hw⟩ := List.mem_flatMap.1 hw
        obtain ⟨ho1, ho2⟩ := (mem_others hs).1 ho
        simp only [List.mem_cons, List.not_mem_nil, or_false] at hw
        rcases hw with rfl | rfl
        · exact ⟨⟨row, by simp, rfl, rfl⟩, ⟨o, by simp [ho1], ho2, rfl⟩⟩
        · exact ⟨⟨o, by simp [ho1], ho2, rfl⟩, ⟨row, by simp, rfl, rfl⟩⟩
      · obtain ⟨⟨x, hx, h1⟩, ⟨y, hy, h2⟩⟩ := buildWork_keys rest _ _ hs.tail w hw
        exact ⟨⟨x, by simp [hx], h1⟩, ⟨y, by simp [hy], h2⟩⟩

theorem buildWork_nodup : ∀ (l : List UniqueId) (last ord : Nat), WSorted l → WDistinct l → (buildWork last ord l).Nodup
  | [], last, ord, _, _ => List.Pairwise.nil
  | row :: rest, last, ord, hs, hd => by
    have hd' := List.pairwise_cons.1 hd
    rw [buildWork]
    split
    · exact buildWork_nodup rest last ord hs.tail hd'.2
    · simp only
      rw [List.nodup_append]
      refine ⟨?_, buildWork_nodup rest _ _ hs.tail hd'.2, ?_⟩
      · have hsub : (rest.takeWhile fun o => decide (o.id = row.id)).Sublist rest := List.takeWhile_sublist _
        have hpw := hd'.2.sublist hsub
        rw [List.nodup_flatMap]
        constructor
        · intro o ho
          obtain ⟨h1, h2⟩ := (mem_others hs).1 ho
          have := hd'.1 o h1 h2.symm
          simp [this]
        · refine List.Pairwise.imp_of_mem ?_ hpw
          intro x y hx hy hxy
          have hx' := (mem_others hs).1 hx
          have hy' := (mem_others hs).1 hy
          have hne := hxy (by rw [hx'.2, hy'.2])
          have h1 := hd'.1 x hx'.1 hx'.2.symm
          have h2 := hd'.1 y hy'.1 hy'.2.symm
          intro w hw1 hw2
          simp only [List.mem_cons, List.not_mem_nil, or_false] at hw1 hw2
          rcases hw1 with rfl | rfl <;> rcases hw2 with h | h
          · exact hne (congrArg SharedWork.p2 h)
          · exact h1 (congrArg SharedWork.p2 h).symm
          · exact h2 (congrArg SharedWork.p2 h)
          · exact hne (congrArg SharedWork.p1 h)
      · intro a ha b hb hab
        subst hab
        obtain ⟨⟨x, hx, hx1, hx2⟩, ⟨y, hy, hy1, hy2⟩⟩ := buildWork_keys rest _ _ hs.tail a hb
        obtain ⟨o, ho, hw⟩ := List.mem_flatMap.1 ha
        simp only [List.mem_cons, List.not_mem_nil, or_false] at hw
        rcases hw with rfl | rfl
        · exact hd'.1 x hx hx1.symm hx2.symm
        · exact hd'.1 y hy hy1.symm hy2.symm

/-- symmetric characterisation: `x ≠ y`, same id, at least one unflagged -/
theorem pair_of_ne {l : List UniqueId} (hs : WSorted l) (hlt : ∀ x ∈ l, x.srcIf < 4294967296) {x y : UniqueId} (hx : x ∈ l) (hy : y ∈ l) (hne : x ≠ y) (hid : x.id = y.id)
    (hu : isNot x.srcIf = false ∨ isNot y.srcIf = false) : Pair l x y ∨ Pair l y x := by
  induction l with
  | nil => simp at hx
  | cons z l ih =>
    have hlt' : ∀ x ∈ l, x.srcIf < 4294967296 := fun x hx => hlt x (by simp [hx])
    have mono : ∀ a b : UniqueId, a.srcIf < 4294967296 → b.srcIf < 4294967296 → a.srcIf ≤ b.srcIf → isNot b.srcIf = false → isNot a.srcIf = false := by
      intro a b ha hb hab h
      unfold isNot notU uintMax at *
      simp only [decide_eq_false_iff_not] at *
      omega
    rcases List.mem_cons.1 hx with rfl | hx' <;> rcases List.mem_cons.1 hy with hy' | hy'
    · exact absurd hy'.symm hne
    · left
      refine ⟨pair_sublist_cons.2 (Or.inr ⟨rfl, hy'⟩), hid, ?_⟩
      rcases hu with h | h
      · exact h
      · rcases (List.pairwise_cons.1 hs).1 y hy' with h1 | h1
        · omega
        · exact mono x y (hlt x (by simp)) (hlt' y hy') h1.2 h
    · subst hy'
      right
      refine ⟨pair_sublist_cons.2 (Or.inr ⟨rfl, hx'⟩), hid.symm, ?_⟩
      rcases hu with h | h
      · rcases (List.pairwise_cons.1 hs).1 x hx' with h1 | h1
        · omega
        · exact mono y x (hlt y (by simp)) (hlt' x hx') h1.2 h
      · exact h
    · rcases ih hs.tail hlt' hx' hy' with h | h
      · exact Or.inl ((pair_cons hs).2 (Or.inl h))
      · exact Or.inr ((pair_cons hs).2 (Or.inl h))

theorem Pair.ne {l : List UniqueId} (hd : WDistinct l) {x y : UniqueId} (h : Pair l x y) : x.workProc ≠ y.workProc := by
  have := hd.sublist h.1
  rw [List.pairwise_pair] at this
  exact this h.2.1

end Gslib.Gs
