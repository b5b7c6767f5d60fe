import Verif.Spec.Sort
import Mathlib.Tactic.Common
import Mathlib.Data.List.Sort

/-! Facts about `IsStableSort`: uniqueness, merging, composition (least-significant-first). -/

namespace Gslib.Spec

variable {α κ κ' : Type*} [LinearOrder κ] [LinearOrder κ']

theorem perm_of_filter_eq [DecidableEq α] (key : α → κ) (l out : List α)
    (h : ∀ k : κ, out.filter (fun a => decide (key a = k)) = l.filter (fun a => decide (key a = k))) :
    out.Perm l := by
  rw [List.perm_iff_count]
  intro a
  have := congrArg (List.count a) (h (key a))
  simpa [List.count_filter] using this

theorem IsStableSort.nil (key : α → κ) : IsStableSort key [] [] :=
  ⟨List.Perm.refl _, List.Pairwise.nil, fun _ => rfl⟩

/-- two sorted lists with the same sub-list for every key value are equal -/
theorem eq_of_sorted_of_filter (key : α → κ) : ∀ (l₁ l₂ : List α),
    l₁.Pairwise (fun a b => key a ≤ key b) → l₂.Pairwise (fun a b => key a ≤ key b) →
    (∀ k : κ, l₁.filter (fun a => decide (key a = k)) = l₂.filter (fun a => decide (key a = k))) →
    l₁ = l₂
  | [], [], _, _, _ => rfl
  | [], b :: l₂, _, _, h => by have := h (key b); simp at this
  | a :: l₁, [], _, _, h => by have := h (key a); simp at this
  | a :: l₁, b :: l₂, h₁, h₂, h => by
    have hab : key a = key b := by
      apply le_antisymm
      · have := h (key b)
        have hb : b ∈ (a :: l₁).filter (fun x => decide (key x = key b)) := by rw [this]; simp
        have hb' := (List.mem_filter.1 hb).1
        rcases List.mem_cons.1 hb' with rfl | hb'
        · exact le_refl _
        · exact (List.pairwise_cons.1 h₁).1 _ hb'
      · have := h (key a)
        have hb : a ∈ (b :: l₂).filter (fun x => decide (key x = key a)) := by rw [← this]; simp
        have hb' := (List.mem_filter.1 hb).1
        rcases List.mem_cons.1 hb' with rfl | hb'
        · exact le_refl _
        · exact (List.pairwise_cons.1 h₂).1 _ hb'
    have h0 := h (key a)
    simp [hab] at h0
    have : a = b := h0.1
    subst this
    congr 1
    refine eq_of_sorted_of_filter key l₁ l₂ (List.pairwise_cons.1 h₁).2 (List.pairwise_cons.1 h₂).2 ?_
    intro k
    have hk := h k
    simp only [List.filter_cons] at hk
    split at hk
    · exact (List.cons.inj hk).2
    · exact hk

/-- the stable sort is unique -/
theorem IsStableSort.unique {key : α → κ} {l o₁ o₂ : List α}
    (h₁ : IsStableSort key l o₁) (h₂ : IsStableSort key l o₂) : o₁ = o₂ :=
  eq_of_sorted_of_filter key _ _ h₁.sorted h₂.sorted fun k => (h₁.stable k).trans (h₂.stable k).symm

/-- the abstract merge: take from the second list only if strictly smaller -/
def mergeL (key : α → κ) : List α → List α → List α
  | [], lb => lb
  | la, [] => la
  | a :: la, b :: lb =>
    if key b < key a then b :: mergeL key (a :: la) lb else a :: mergeL key la (b :: lb)
termination_by la lb => la.length + lb.length

theorem mergeL_perm (key : α → κ) (la lb : List α) : (mergeL key la lb).Perm (la ++ lb) := by
  fun_induction mergeL key la lb with
  | case1 lb => simp
  | case2 la h => simp
  | case3 a la b lb hlt ih =>
    refine (List.Perm.cons b ih).trans ?_
    exact (List.perm_middle (l₁ := a :: la) (l₂ := lb) (a := b)).symm
  | case4 a la b lb hlt ih => exact List.Perm.cons a ih

theorem mergeL_sorted (key : α → κ) (la lb : List α)
    (ha : la.Pairwise (fun a b => key a ≤ key b)) (hb : lb.Pairwise (fun a b => key a ≤ key b)) :
    (mergeL key la lb).Pairwise (fun a b => key a ≤ key b) := by
  fun_induction mergeL key la lb with
  | case1 lb => exact hb
  | case2 la h => exact ha
  | case3 a la b lb hlt ih =>
    refine List.pairwise_cons.2 ⟨?_, ih ha (List.pairwise_cons.1 hb).2⟩
    intro x hx
    rcases List.mem_append.1 ((mergeL_perm key (a :: la) lb).mem_iff.1 hx) with h | h
    · rcases List.mem_cons.1 h with rfl | h
      · exact le_of_lt hlt
      · exact le_trans (le_of_lt hlt) ((List.pairwise_cons.1 ha).1 _ h)
    · exact (List.pairwise_cons.1 hb).1 _ h
  | case4 a la b lb hlt ih =>
    refine List.pairwise_cons.2 ⟨?_, ih (List.pairwise_cons.1 ha).2 hb⟩
    intro x hx
    rcases List.mem_append.1 ((mergeL_perm key la (b :: lb)).mem_iff.1 hx) with h | h
    · exact (List.pairwise_cons.1 ha).1 _ h
    · rcases List.mem_cons.1 h with rfl | h
      · exact not_lt.1 hlt
      · exact le_trans (not_lt.1 hlt) ((List.pairwise_cons.1 hb).1 _ h)

theorem mergeL_filter (key : α → κ) (k : κ) (la lb : List α)
    (ha : la.Pairwise (fun a b => key a ≤ key b)) (hb : lb.Pairwise (fun a b => key a ≤ key b)) :
    (mergeL key la lb).filter (fun a => decide (key a = k)) =
      la.filter (fun a => decide (key a = k)) ++ lb.filter (fun a => decide (key a = k)) := by
  fun_induction mergeL key la lb with
  | case1 lb => simp
  | case2 la h => simp
  | case3 a la b lb hlt ih =>
    rw [List.filter_cons, ih ha (List.pairwise_cons.1 hb).2]
    by_cases hk : key b = k
    · have : (a :: la).filter (fun a => decide (key a = k)) = [] := by
        apply List.filter_eq_nil_iff.2
        intro x hx
        have : key a ≤ key x := by
          rcases List.mem_cons.1 hx with rfl | hx
          · exact le_refl _
          · exact (List.pairwise_cons.1 ha).1 _ hx
        have h2 : k < key x := hk ▸ lt_of_lt_of_le hlt this
        simp [h2.ne']
      rw [this]; simp [hk]
    · simp [hk]
  | case4 a la b lb hlt ih =>
    rw [List.filter_cons, ih (List.pairwise_cons.1 ha).2 hb]
    by_cases hk : key a = k <;> simp [hk]

theorem IsStableSort.merge {key : α → κ} {la lb oa ob : List α}
    (ha : IsStableSort key la oa) (hb : IsStableSort key lb ob) :
    IsStableSort key (la ++ lb) (mergeL key oa ob) :=
  ⟨(mergeL_perm key oa ob).trans (ha.perm.append hb.perm),
   mergeL_sorted key _ _ ha.sorted hb.sorted,
   fun k => by rw [mergeL_filter key k _ _ ha.sorted hb.sorted, ha.stable, hb.stable, List.filter_append]⟩

/-- least-significant-first composition: sorting stably by `f` and then stably by `g` sorts
lexicographically by `(g, f)`; stated for any combined key `h` whose order and equality are
lexicographic in `(g,f)`. -/
theorem IsStableSort.lex {κ'' : Type*} [LinearOrder κ''] {f : α → κ} {g : α → κ'} {h : α → κ''}
    (hle : ∀ a b, (g a < g b ∨ (g a = g b ∧ f a ≤ f b)) → h a ≤ h b)
    (heq : ∀ a b, h a = h b → g a = g b ∧ f a = f b)
    {l m o : List α} (h₁ : IsStableSort f l m) (h₂ : IsStableSort g m o) : IsStableSort h l o := by
  have hfil : ∀ k : κ', o.filter (fun a => decide (g a = k)) = m.filter (fun a => decide (g a = k)) := h₂.stable
  refine ⟨h₂.perm.trans h₁.perm, ?_, ?_⟩
  · -- sorted
    rw [List.pairwise_iff_forall_sublist]
    intro a b hab
    have hg : g a ≤ g b := (List.pairwise_iff_forall_sublist.1 h₂.sorted) hab
    rcases lt_or_eq_of_le hg with hlt | heqg
    · exact hle _ _ (Or.inl hlt)
    · have hsub : [a, b].Sublist (m.filter (fun x => decide (g x = g a))) := by
        rw [← hfil]
        have := hab.filter (fun x => decide (g x = g a))
        simpa [heqg] using this
      have hsub' : [a, b].Sublist m := hsub.trans List.filter_sublist
      exact hle _ _ (Or.inr ⟨heqg, (List.pairwise_iff_forall_sublist.1 h₁.sorted) hsub'⟩)
  · intro k
    -- filter by h = filter by g then f at any representative
    by_cases hex : ∃ a ∈ l, h a = k
    · obtain ⟨a, hal, hak⟩ := hex
      have key : ∀ xs : List α, xs.filter (fun x => decide (h x = k)) =
          ((xs.filter (fun x => decide (g x = g a))).filter (fun x => decide (f x = f a))).filter
            (fun x => decide (h x = k)) := by
        intro xs
        rw [List.filter_filter, List.filter_filter]
        apply List.filter_congr
        intro x _
        by_cases hx : h x = k
        · have := heq x a (hx.trans hak.symm)
          simp [hx, this.1, this.2]
        · simp [hx]
      rw [key o, key l, hfil]
      congr 1
      rw [List.filter_comm, h₁.stable, List.filter_comm]
    · have e : ∀ xs : List α, xs.Perm l → xs.filter (fun x => decide (h x = k)) = [] := by
        intro xs hx
        apply List.filter_eq_nil_iff.2
        intro x hxm
        have : ¬ h x = k := fun e => hex ⟨x, hx.mem_iff.1 hxm, e⟩
        simp [this]
      rw [e o (h₂.perm.trans h₁.perm), e l (List.Perm.refl _)]

/-- sorting by a constant key is the identity -/
theorem IsStableSort.const {key : α → κ} {l : List α} (c : κ) (h : ∀ a ∈ l, key a = c) :
    IsStableSort key l l :=
  ⟨List.Perm.refl _, by
    rw [List.pairwise_iff_forall_sublist]
    intro a b hab
    rw [h a (hab.subset (by simp)), h b (hab.subset (by simp))], fun _ => rfl⟩

end Gslib.Spec
