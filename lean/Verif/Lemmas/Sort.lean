import Verif.Model.Sort
import Verif.Lemmas.MergeSort
import Verif.Lemmas.Radix
import Verif.Lemmas.HeapSort

namespace Gslib.Sorting
open Gslib Gslib.Spec

variable {α κ : Type} [LinearOrder κ]

/-- pairs (key, index) in the order of `q` -/
def Pairs (A : List κ) (q : List Nat) (l : List (κ × Nat)) : Prop :=
  l.map (·.2) = q ∧ ∀ x ∈ l, A[x.2]? = some x.1

theorem pairs_zipIdx (A : List κ) : Pairs A (List.range A.length) A.zipIdx := by
  refine ⟨by simp [List.range_eq_range'], ?_⟩
  intro x hx
  have := List.mem_zipIdx_iff_getElem?.1 hx
  exact this

theorem pairs_mapM (A : List κ) : ∀ (q : List Nat), (∀ j ∈ q, j < A.length) →
    ∃ l, (q.mapM fun j => A[j]?.map fun v => (v, j)) = some l ∧ Pairs A q l
  | [], _ => ⟨[], rfl, rfl, by simp⟩
  | j :: q, h => by
    obtain ⟨l, e, h1, h2⟩ := pairs_mapM A q (fun j' hj' => h j' (by simp [hj']))
    have hlt : j < A.length := h j (by simp)
    have hj : A[j]? = some A[j] := List.getElem?_eq_getElem hlt
    refine ⟨(A[j], j) :: l, ?_, ?_, ?_⟩
    · rw [List.mapM_cons, hj, e]; rfl
    · simp [h1]
    · intro x hx
      rcases List.mem_cons.1 hx with rfl | hx
      · exact hj
      · exact h2 x hx

theorem pairs_keys_perm {A : List κ} {q : List Nat} {l : List (κ × Nat)} (h : Pairs A q l)
    (hq : q.Perm (List.range A.length)) : (l.map (·.1)).Perm A := by
  have e1 : ((l.map (·.1)).map some) = q.map fun j => A[j]? := by
    rw [← h.1, List.map_map, List.map_map]
    apply List.map_congr_left
    intro x hx; simp [h.2 x hx]
  have e2 : (List.range A.length).map (fun j => A[j]?) = A.map some := by
    apply List.ext_getElem?
    intro i
    by_cases hi : i < A.length
    · simp [hi]
    · simp [hi]
  have : ((l.map (·.1)).map some).Perm (A.map some) := by
    rw [e1, ← e2]; exact hq.map _
  exact (List.map_perm_map_iff (Option.some_injective κ)).1 this

theorem stablePerm_of_stable {A : List κ} {q : List Nat} {l o : List (κ × Nat)} (h : Pairs A q l)
    (hq : q.Perm (List.range A.length)) (ho : IsStableSort (fun x : κ × Nat => x.1) l o) :
    IsStableSortPerm A q (o.map (·.2)) := by
  have hval : ∀ x ∈ o, A[x.2]? = some x.1 := fun x hx => h.2 x (ho.perm.mem_iff.1 hx)
  refine ⟨?_, ?_, ?_⟩
  · exact (ho.perm.map _).trans (h.1 ▸ hq)
  · rw [List.pairwise_map]
    refine ho.sorted.imp_of_mem ?_
    intro a b ha hb hle x y hx hy
    rw [hval a ha] at hx; rw [hval b hb] at hy
    cases hx; cases hy; exact hle
  · intro i j x hi hj
    have key : ∀ l' : List (κ × Nat), (∀ y ∈ l', A[y.2]? = some y.1) →
        (l'.map (·.2)).filter (fun i => decide (A[i]? = some x)) =
          (l'.filter (fun y => decide (y.1 = x))).map (·.2) := by
      intro l' hl'
      rw [List.filter_map]
      congr 1
      apply List.filter_congr
      intro y hy
      simp [hl' y hy]
    have red : ∀ p : List Nat, Before p i j ↔ Before (p.filter (fun i => decide (A[i]? = some x))) i j := by
      intro p
      constructor
      · intro hb
        have := List.Sublist.filter (fun i => decide (A[i]? = some x)) hb
        simpa [Before, hi, hj] using this
      · intro hb
        exact List.Sublist.trans hb List.filter_sublist
    rw [red, red q, ← h.1, key o hval, key l h.2, ho.stable]

theorem sorted_lt_two {A : List κ} {key : κ → Nat} (h : A.length < 2) : A.Pairwise (fun a b => key a ≤ key b) := by
  match A, h with
  | [], _ => simp
  | [a], _ => simp

theorem heapList_spec (key : α → κ) (A : List α) (h : A ≠ []) :
    ∃ out, heapList key A = some out ∧ out.Perm A ∧ out.Pairwise (fun a b => key a ≤ key b) := by
  match A, h with
  | x :: xs, _ =>
    obtain ⟨a', e, hp, hs⟩ := HeapSort.heapSortv_spec key (x :: xs).length (fun k => (x :: xs).getD k x) (by simp)
    refine ⟨_, by rw [heapList, e]; rfl, ?_, hs⟩
    refine List.Perm.trans hp ?_
    have : HeapSort.toL (x :: xs).length (fun k => (x :: xs).getD k x) = x :: xs := by
      unfold HeapSort.toL
      apply List.ext_getElem?
      intro i
      by_cases hi : i < (x :: xs).length
      · simp only [List.getElem?_map, List.getElem?_range hi, Option.map_some, List.getD_eq_getElem?_getD]
        rw [List.getElem?_eq_getElem hi]; simp
      · simp only [List.getElem?_map]
        rw [List.getElem?_eq_none (by simpa using hi), List.getElem?_eq_none (by simpa using hi)]
        rfl
    rw [this]

theorem sortvInt_radix (D : Nat) (inPlace : Bool) (A : List Nat) (s : Scratch Nat)
    (hD : ∀ x ∈ A, x < 256 ^ D) :
    ∃ out, (do let m ← Radix.radixSortv D A.length inPlace (s.rbufs A)
               readList (m (if inPlace then .A else .out)) A.length) = some out ∧ IsStableSort id A out := by
  obtain ⟨m', o, e, hst, hval, _, _⟩ := Radix.radixSortv_spec D A.length inPlace (s.rbufs A) A rfl
    (by intro k _; rfl) hD
  refine ⟨o, ?_, hst⟩
  simp only [e, Option.bind_eq_bind, Option.bind_some]
  unfold readList
  rw [← hst.perm.length_eq]
  exact MergeSort.mapM_range_eq _ _ (by intro k hk; exact hval k (by rw [← hst.perm.length_eq]; exact hk))

end Gslib.Sorting
