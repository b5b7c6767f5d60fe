import Verif.Lemmas.Sort

/-!
# Properties C01-C05: `sortv`, `sortp`

Specification: `Verif/Spec/Sort.lean`. Model: `Verif/Model/{MergeSort,Radix,HeapSort,Sort}.lean`.
-/

namespace Gslib.Props
open Gslib Gslib.Spec Gslib.Sorting

variable {α κ : Type} [LinearOrder κ]

/-- initial contents used in the examples: everything uninitialised -/
def noScratch {α : Type} : Scratch α := ⟨fun _ => none, fun _ => none⟩
/-- initial contents used in the examples: everything uninitialised -/
def noScratchP {κ : Type} : ScratchP κ := ⟨fun _ => none, fun _ _ => none⟩

/-! ## C01 -/

/-- **C01** (integer keys): for every array of keys that fit in `D` bytes, whatever the scratch contents,
`sortv` out of place has no undefined behaviour, does not abort and yields the sorted rearrangement. -/
theorem sortv_sorts (D : Nat) (unitStride : Bool) (A : List Nat) (s : Scratch Nat)
    (hA : ∀ x ∈ A, x < 256 ^ D) :
    ∃ out, sortvInt D false unitStride A s = .ok out ∧ out.Perm A ∧ out.Pairwise (· ≤ ·) := by
  by_cases h256 : A.length < 256
  · by_cases h2 : A.length < 2
    · refine ⟨A, ?_, List.Perm.refl _, ?_⟩
      · match A, h2 with
        | [], _ => rfl
        | [a], _ => rfl
      · match A, h2 with
        | [], _ => simp
        | [a], _ => simp
    · obtain ⟨out, e, hst⟩ := MergeSort.mergeSortv_spec id A s.bufs (by omega)
      refine ⟨out, ?_, hst.perm, hst.sorted⟩
      simp [sortvInt, h256, h2, e, Outcome.ofOption]
  · obtain ⟨out, e, hst⟩ := sortvInt_radix D false A s hA
    refine ⟨out, ?_, hst.perm, hst.sorted⟩
    simp only [sortvInt, if_neg h256, e, Outcome.ofOption]

example : ∀ x ∈ [7, 3, 3, 4294967295, 0], x < 256 ^ 4 := by decide

/-- **C01** (real keys): the same for `double`/`float`, for any data with a key in a linear order. -/
theorem sortv_real_sorts (key : α → κ) (unitStride : Bool) (A : List α) (s : Scratch α) :
    ∃ out, sortvReal key false unitStride A s = .ok out ∧ out.Perm A ∧
      out.Pairwise (fun a b => key a ≤ key b) := by
  by_cases h2 : A.length < 2
  · refine ⟨A, ?_, List.Perm.refl _, ?_⟩
    · match A, h2 with
      | [], _ => rfl
      | [a], _ => rfl
    · match A, h2 with
      | [], _ => simp
      | [a], _ => simp
  · obtain ⟨out, e, hst⟩ := MergeSort.mergeSortv_spec key A s.bufs (by omega)
    refine ⟨out, ?_, hst.perm, hst.sorted⟩
    simp [sortvReal, h2, e, Outcome.ofOption]

/-! ## C02, C03 -/

theorem range_stable_small (A : List κ) (q : List Nat) (h : A.length < 2) (hq : IsPermTable A.length q) :
    IsStableSortPerm A q (List.range A.length) := by
  have hr : q = List.range A.length := by
    have : A.length = 0 ∨ A.length = 1 := by omega
    rcases this with h0 | h0 <;> rw [h0] at hq ⊢ <;> simp [IsPermTable] at hq ⊢ <;> exact hq
  subst hr
  refine ⟨List.Perm.refl _, ?_, fun i j x _ _ => Iff.rfl⟩
  have : A.length = 0 ∨ A.length = 1 := by omega
  rcases this with h0 | h0 <;> rw [h0] <;> simp [List.range_succ]

/-- **C02** (integer keys) -/
theorem sortp_stable (D : Nat) (A : List Nat) (s : ScratchP Nat) (hA : ∀ x ∈ A, x < 256 ^ D) :
    ∃ p, sortpInt D none A s = .ok p ∧ IsStableSortPerm A (List.range A.length) p := by
  by_cases h256 : A.length < 256
  · by_cases h2 : A.length < 2
    · refine ⟨List.range A.length, ?_, range_stable_small A _ h2 (List.Perm.refl _)⟩
      match A, h2 with
      | [], _ => rfl
      | [a], _ => rfl
    · obtain ⟨o, e, hst⟩ := MergeSort.mergeSortp0_spec A s.work (by omega)
      refine ⟨_, ?_, stablePerm_of_stable (pairs_zipIdx A) (List.Perm.refl _) hst⟩
      simp [sortpInt, h256, h2, e, Outcome.ofOption]
  · obtain ⟨o, e, hst⟩ := Radix.radixSortp_spec D none A s.work (fun _ => s.idx) A.zipIdx rfl
      (pairs_keys_perm (pairs_zipIdx A) (List.Perm.refl _)) hA
    refine ⟨_, ?_, stablePerm_of_stable (pairs_zipIdx A) (List.Perm.refl _) hst⟩
    simp only [sortpInt, if_neg h256, e, Outcome.ofOption]

/-- **C02** (real keys) -/
theorem sortp_real_stable (A : List κ) (s : ScratchP κ) :
    ∃ p, sortpReal none A s = .ok p ∧ IsStableSortPerm A (List.range A.length) p := by
  by_cases h2 : A.length < 2
  · refine ⟨List.range A.length, ?_, range_stable_small A _ h2 (List.Perm.refl _)⟩
    match A, h2 with
    | [], _ => rfl
    | [a], _ => rfl
  · obtain ⟨o, e, hst⟩ := MergeSort.mergeSortp0_spec A s.work (by omega)
    refine ⟨_, ?_, stablePerm_of_stable (pairs_zipIdx A) (List.Perm.refl _) hst⟩
    simp [sortpReal, h2, e, Outcome.ofOption]

/-- **C03** (integer keys): with a starting permutation `q` -/
theorem sortp_start_perm_stable (D : Nat) (A : List Nat) (q : List Nat) (s : ScratchP Nat)
    (hA : ∀ x ∈ A, x < 256 ^ D) (hq : IsPermTable A.length q) :
    ∃ p, sortpInt D (some q) A s = .ok p ∧ IsStableSortPerm A q p := by
  obtain ⟨l, el, hl⟩ := pairs_mapM A q (fun j hj => by simpa using hq.mem_iff.1 hj)
  by_cases h256 : A.length < 256
  · by_cases h2 : A.length < 2
    · refine ⟨List.range A.length, ?_, range_stable_small A _ h2 hq⟩
      match A, h2 with
      | [], _ => rfl
      | [a], _ => rfl
    · obtain ⟨o, e, hst⟩ := MergeSort.mergeSortp_spec q A s.work (by omega) l el
        (by simpa using (pairs_keys_perm hl hq).length_eq)
      refine ⟨_, ?_, stablePerm_of_stable hl hq hst⟩
      simp [sortpInt, h256, h2, e, Outcome.ofOption]
  · obtain ⟨o, e, hst⟩ := Radix.radixSortp_spec D (some q) A s.work (fun _ => s.idx) l el
      (pairs_keys_perm hl hq) hA
    refine ⟨_, ?_, stablePerm_of_stable hl hq hst⟩
    simp only [sortpInt, if_neg h256, e, Outcome.ofOption]

/-- **C03** (real keys) -/
theorem sortp_real_start_perm_stable (A : List κ) (q : List Nat) (s : ScratchP κ)
    (hq : IsPermTable A.length q) :
    ∃ p, sortpReal (some q) A s = .ok p ∧ IsStableSortPerm A q p := by
  obtain ⟨l, el, hl⟩ := pairs_mapM A q (fun j hj => by simpa using hq.mem_iff.1 hj)
  by_cases h2 : A.length < 2
  · refine ⟨List.range A.length, ?_, range_stable_small A _ h2 hq⟩
    match A, h2 with
    | [], _ => rfl
    | [a], _ => rfl
  · obtain ⟨o, e, hst⟩ := MergeSort.mergeSortp_spec q A s.work (by omega) l el
      (by simpa using (pairs_keys_perm hl hq).length_eq)
    refine ⟨_, ?_, stablePerm_of_stable hl hq hst⟩
    simp [sortpReal, h2, e, Outcome.ofOption]

example : IsPermTable [5, 5, 2].length [2, 0, 1] ∧ ∀ x ∈ [5, 5, 2], x < 256 ^ 4 := by
  refine ⟨?_, by decide⟩
  unfold IsPermTable; decide

/-! ## C04 -/

/-- **C04**: on any input of at least two keys, in either mode, radix and merge branch of
`sortp` give the same permutation, and neither has undefined behaviour. -/
theorem sortp_radix_eq_merge (D : Nat) (A : List Nat) (s : ScratchP Nat) (hA : ∀ x ∈ A, x < 256 ^ D)
    (h2 : 2 ≤ A.length) :
    (∃ p, Radix.radixSortp D none A s.work (fun _ => s.idx) = some p ∧
      MergeSort.mergeSortp0 A s.work = some p) ∧
    ∀ q, IsPermTable A.length q → ∃ p, Radix.radixSortp D (some q) A s.work (fun _ => s.idx) = some p ∧
      MergeSort.mergeSortp q A s.work = some p := by
  constructor
  · obtain ⟨o, e, hst⟩ := Radix.radixSortp_spec D none A s.work (fun _ => s.idx) A.zipIdx rfl
      (pairs_keys_perm (pairs_zipIdx A) (List.Perm.refl _)) hA
    obtain ⟨o', e', hst'⟩ := MergeSort.mergeSortp0_spec A s.work h2
    exact ⟨_, e, by rw [e', hst.unique hst']⟩
  · intro q hq
    obtain ⟨l, el, hl⟩ := pairs_mapM A q (fun j hj => by simpa using hq.mem_iff.1 hj)
    obtain ⟨o, e, hst⟩ := Radix.radixSortp_spec D (some q) A s.work (fun _ => s.idx) l el
      (pairs_keys_perm hl hq) hA
    obtain ⟨o', e', hst'⟩ := MergeSort.mergeSortp_spec q A s.work h2 l el
        (by simpa using (pairs_keys_perm hl hq).length_eq)
    exact ⟨_, e, by rw [e', hst.unique hst']⟩

/-- **C04** for the value sort: all three algorithms (radix out of place or in place, merge, heap in
place) give the same array. -/
theorem sortv_all_equal (D : Nat) (A : List Nat) (s : Scratch Nat) (hA : ∀ x ∈ A, x < 256 ^ D)
    (h2 : 2 ≤ A.length) (inPlace : Bool) :
    ∃ out, MergeSort.mergeSortv id A s.bufs = some out ∧ heapList id A = some out ∧
      (do let m ← Radix.radixSortv D A.length inPlace (s.rbufs A)
          readList (m (if inPlace then .A else .out)) A.length) = some out := by
  obtain ⟨o1, e1, h1⟩ := MergeSort.mergeSortv_spec id A s.bufs h2
  obtain ⟨o2, e2, p2, s2⟩ := heapList_spec id A (by intro h; simp [h] at h2)
  obtain ⟨o3, e3, h3⟩ := sortvInt_radix D inPlace A s hA
  refine ⟨o1, e1, ?_, ?_⟩
  · rw [e2]; congr 1
    exact List.Perm.eq_of_pairwise (fun a b _ _ h h' => le_antisymm h h') s2 h1.sorted (p2.trans h1.perm.symm)
  · rw [e3, h3.unique h1]

example : (∀ x ∈ [9, 1, 5, 1], x < 256 ^ 4) ∧ 2 ≤ [9, 1, 5, 1].length := by decide

/-! ## C05 -/

/-- **C05**: in-place sorting with unit stride yields the sorted rearrangement, no undefined
behaviour (in particular no access outside the array), no abort. -/
theorem sortv_in_place_sorts (D : Nat) (A : List Nat) (s : Scratch Nat) (hA : ∀ x ∈ A, x < 256 ^ D) :
    ∃ out, sortvInt D true true A s = .ok out ∧ out.Perm A ∧ out.Pairwise (· ≤ ·) := by
  by_cases h256 : A.length < 256
  · by_cases h2 : A.length < 2
    · refine ⟨A, ?_, List.Perm.refl _, ?_⟩
      · match A, h2 with
        | [], _ => rfl
        | [a], _ => rfl
      · match A, h2 with
        | [], _ => simp
        | [a], _ => simp
    · obtain ⟨out, e, hp, hs⟩ := heapList_spec id A (by intro h; simp [h] at h2)
      refine ⟨out, ?_, hp, hs⟩
      simp [sortvInt, h256, h2, e, Outcome.ofOption]
  · obtain ⟨out, e, hst⟩ := sortvInt_radix D true A s hA
    refine ⟨out, ?_, hst.perm, hst.sorted⟩
    have : sortvInt D true true A s = Outcome.ofOption _ := if_neg h256
    rw [this]; exact congrArg Outcome.ofOption e

/-- **C05** (real keys) -/
theorem sortv_real_in_place_sorts (key : α → κ) (A : List α) (s : Scratch α) :
    ∃ out, sortvReal key true true A s = .ok out ∧ out.Perm A ∧
      out.Pairwise (fun a b => key a ≤ key b) := by
  by_cases h2 : A.length < 2
  · refine ⟨A, ?_, List.Perm.refl _, ?_⟩
    · match A, h2 with
      | [], _ => rfl
      | [a], _ => rfl
    · match A, h2 with
      | [], _ => simp
      | [a], _ => simp
  · obtain ⟨out, e, hp, hs⟩ := heapList_spec key A (by intro h; simp [h] at h2)
    refine ⟨out, ?_, hp, hs⟩
    simp [sortvReal, h2, e, Outcome.ofOption]

/-- the documented restriction: small in-place sorts with non-unit stride abort (rather than corrupt) -/
theorem sortv_in_place_stride_abort (D : Nat) (A : List Nat) (s : Scratch Nat) (h : 2 ≤ A.length)
    (h' : A.length < 256) : sortvInt D true false A s = .abort := by
  simp [sortvInt, h', show ¬ A.length < 2 by omega]

example : 2 ≤ [3, 1].length ∧ [3, 1].length < 256 := by decide

end Gslib.Props
