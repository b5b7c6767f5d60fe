import Mathlib.Data.List.GetD
import Mathlib.Data.List.Nodup
import Mathlib.Logic.Function.Basic
import Verif.Model.GsKernel

/-! # The kernels on maps given as groups -/

namespace Gslib.Gs

/-- the map for a list of groups -/
def encGroups (gs : List (Nat × List Nat)) : List Nat := gs.flatMap (fun g => g.1 :: g.2 ++ [uintMax]) ++ [uintMax]

/-- a group that can be encoded -/
structure GroupOk (g : Nat × List Nat) : Prop where
  ne : g.2 ≠ []
  fst : g.1 ≠ uintMax
  snd : ∀ j ∈ g.2, j ≠ uintMax

/-- an array with `n` entries -/
def tab {V : Type} (n : Nat) (w : Nat → V) : List V := (List.range n).map w

variable {V U : Type}

theorem tab_length (n : Nat) (w : Nat → V) : (tab n w).length = n := by simp [tab]

theorem tab_get (n : Nat) (w : Nat → V) (k : Nat) : (tab n w)[k]? = if k < n then some (w k) else none := by
  unfold tab
  rw [List.getElem?_map]
  split
  · rw [List.getElem?_range (by omega)]; rfl
  · rw [List.getElem?_eq_none (by simpa using by omega)]; rfl

theorem tab_congr {n : Nat} {w w' : Nat → V} (h : ∀ k, k < n → w k = w' k) : tab n w = tab n w' :=
  List.map_congr_left fun k hk => h k (List.mem_range.1 hk)

theorem eq_tab (l : List V) (d : V) : l = tab l.length (fun k => l.getD k d) := by
  apply List.ext_getElem?
  intro k
  rw [tab_get]
  split
  · rename_i h; rw [List.getElem?_eq_getElem h, List.getD_eq_getElem _ _ h]
  · rename_i h; exact List.getElem?_eq_none (by omega)

theorem ld_tab {n : Nat} {w : Nat → V} {k : Nat} (h : k < n) : ldAt (tab n w) k = some (w k) := by
  unfold ldAt; rw [tab_get, if_pos h]

theorem st_tab {n : Nat} {w : Nat → V} {k : Nat} (h : k < n) (t : V) : stAt (tab n w) k t = some (tab n (Function.update w k t)) := by
  unfold stAt
  rw [tab_length, if_pos h]
  congr 1
  apply List.ext_getElem?
  intro j
  rw [List.getElem?_set, tab_get, tab_get, tab_length]
  by_cases hj : k = j
  · subst hj; simp [h]
  · rw [if_neg hj]
    simp [Function.update_apply, Ne.symm hj]

/-- one group of a gather -/
def gstep (f : V → V → V) (ld : U → Nat → Option V) (st : U → Nat → V → Option U) (rd : U → Nat → Option V) (x : U) (g : Nat × List Nat) : Option U :=
  (ld x g.1).bind fun t => (g.2.foldlM (fun t j => (rd x j).map (f t)) t).bind fun t => st x g.1 t

theorem gatherLoop_more (f : V → V → V) (ld : U → Nat → Option V) (st : U → Nat → V → Option U) (rd : U → Nat → Option V) (rest : List Nat) (x : U) (i : Nat) :
    ∀ (js : List Nat) (t : V), (∀ j ∈ js, j ≠ uintMax) → gatherLoop f ld st rd (js ++ uintMax :: rest) (.more (i, t)) x =
      (js.foldlM (fun t j => (rd x j).map (f t)) t).bind fun t => (st x i t).bind fun x => gatherLoop f ld st rd rest .outer x
  | [], t, _ => by simp [gatherLoop]
  | j :: js, t, h => by
    rw [List.cons_append, gatherLoop, if_neg (h j (by simp)), List.foldlM_cons]
    cases rd x j with
    | none => rfl
    | some y => exact gatherLoop_more f ld st rd rest x i js _ (fun j hj => h j (by simp [hj]))

theorem gatherLoop_groups (f : V → V → V) (ld : U → Nat → Option V) (st : U → Nat → V → Option U) (rd : U → Nat → Option V) :
    ∀ (gs : List (Nat × List Nat)) (x : U), (∀ g ∈ gs, GroupOk g) →
      gatherLoop f ld st rd (encGroups gs) .outer x = gs.foldlM (gstep f ld st rd) x
  | [], x, _ => by simp [encGroups, gatherLoop]
  | g :: gs, x, h => by
    obtain ⟨h1, h2, h3⟩ := h g (by simp)
    have ih := fun x => gatherLoop_groups f ld st rd gs x (fun g hg => h g (by simp [hg]))
    obtain ⟨i, js⟩ := g
    cases js with
    | nil => exact absurd rfl h1
    | cons j js =>
      have e : encGroups ((i, j :: js) :: gs) = i :: j :: (js ++ uintMax :: encGroups gs) := by simp [encGroups]
      rw [e, gatherLoop, if_neg h2, List.foldlM_cons]
      unfold gstep
      cases ld x i with
      | none => rfl
      | some t =>
        simp only [Option.bind_some]
        rw [gatherLoop, List.foldlM_cons]
        cases rd x j with
        | none => rfl
        | some y =>
          simp only [Option.bind_some, Option.map_some, Option.bind_eq_bind]
          rw [gatherLoop_more f ld st rd _ x i js _ (fun j hj => h3 j (by simp [hj]))]
          cases (List.foldlM (fun t j => (rd x j).map (f t)) (f t y) js) with
          | none => rfl
          | some t' =>
            simp only [Option.bind_some]
            cases st x i t' with
            | none => rfl
            | some x' => simp only [Option.bind_some]; exact ih x'

theorem foldlM_some {f : V → V → V} {rd : Nat → Option V} {y : Nat → V} : ∀ (js : List Nat) (t : V), (∀ j ∈ js, rd j = some (y j)) →
    js.foldlM (fun t j => (rd j).map (f t)) t = some ((js.map y).foldl f t)
  | [], t, _ => rfl
  | j :: js, t, h => by
    rw [List.foldlM_cons, h j (by simp)]
    exact foldlM_some js _ (fun j hj => h j (by simp [hj]))

/-- a gather: the destinations of the groups are distinct, what is read does not depend on them -/
theorem gather_run (f : V → V → V) (n : Nat) (rd : List V → Nat → Option V) (y : Nat → V) (P : Nat → Prop) :
    ∀ (gs : List (Nat × List Nat)) (w : Nat → V), (gs.map (·.1)).Nodup → (∀ g ∈ gs, g.1 < n ∧ P g.1) →
      (∀ w' : Nat → V, (∀ k, ¬ P k → w' k = w k) → ∀ g ∈ gs, ∀ j ∈ g.2, rd (tab n w') j = some (y j)) →
      ∃ w' : Nat → V, gs.foldlM (gstep f ldAt stAt rd) (tab n w) = some (tab n w') ∧
        (∀ g ∈ gs, w' g.1 = (g.2.map y).foldl f (w g.1)) ∧ ∀ k, k ∉ gs.map (·.1) → w' k = w k
  | [], w, _, _, _ => ⟨w, rfl, by simp, by simp⟩
  | g :: gs, w, hnd, hlt, hrd => by
    rw [List.map_cons, List.nodup_cons] at hnd
    have hg := hlt g (by simp)
    have hstep : gstep f ldAt stAt rd (tab n w) g = some (tab n (Function.update w g.1 ((g.2.map y).foldl f (w g.1)))) := by
      unfold gstep
      rw [ld_tab hg.1, Option.bind_some, foldlM_some g.2 _ (fun j hj => hrd w (fun _ _ => rfl) g (by simp) j hj), Option.bind_some, st_tab hg.1]
    obtain ⟨w', e, h1, h2⟩ := gather_run f n rd y P gs (Function.update w g.1 ((g.2.map y).foldl f (w g.1))) hnd.2 (fun g' hg' => hlt g' (by simp [hg'])) (by
      intro w' hw' g' hg' j hj
      refine hrd w' ?_ g' (by simp [hg']) j hj
      intro k hk
      rw [hw' k hk, Function.update_of_ne]
      rintro rfl
      exact hk hg.2)
    refine ⟨w', ?_, ?_, ?_⟩
    · rw [List.foldlM_cons, hstep]; exact e
    · intro g' hg'
      rcases List.mem_cons.1 hg' with rfl | hg'
      · rw [h2 _ hnd.1, Function.update_self]
      · rw [h1 g' hg', Function.update_of_ne]
        intro e
        exact hnd.1 (e ▸ List.mem_map_of_mem hg')
    · intro k hk
      rw [List.map_cons, List.mem_cons, not_or] at hk
      rw [h2 k hk.2, Function.update_of_ne hk.1]

/-! ### scatter -/

/-- one group of a scatter -/
def sstep (rd : U → Nat → Option V) (st : U → Nat → V → Option U) (x : U) (g : Nat × List Nat) : Option U :=
  (rd x g.1).bind fun t => g.2.foldlM (fun x j => st x j t) x

theorem scatterLoop_more (rd : U → Nat → Option V) (st : U → Nat → V → Option U) (rest : List Nat) (t : V) :
    ∀ (js : List Nat) (x : U), (∀ j ∈ js, j ≠ uintMax) → scatterLoop rd st (js ++ uintMax :: rest) (.more t) x =
      (js.foldlM (fun x j => st x j t) x).bind fun x => scatterLoop rd st rest .outer x
  | [], x, _ => by simp [scatterLoop]
  | j :: js, x, h => by
    rw [List.cons_append, scatterLoop, if_neg (h j (by simp)), List.foldlM_cons]
    cases st x j t with
    | none => rfl
    | some x' => exact scatterLoop_more rd st rest t js x' (fun j hj => h j (by simp [hj]))

theorem scatterLoop_groups (rd : U → Nat → Option V) (st : U → Nat → V → Option U) :
    ∀ (gs : List (Nat × List Nat)) (x : U), (∀ g ∈ gs, GroupOk g) → scatterLoop rd st (encGroups gs) .outer x = gs.foldlM (sstep rd st) x
  | [], x, _ => by simp [encGroups, scatterLoop]
  | g :: gs, x, h => by
    obtain ⟨h1, h2, h3⟩ := h g (by simp)
    have ih := fun x => scatterLoop_groups rd st gs x (fun g hg => h g (by simp [hg]))
    obtain ⟨i, js⟩ := g
    cases js with
    | nil => exact absurd rfl h1
    | cons j js =>
      have e : encGroups ((i, j :: js) :: gs) = i :: j :: (js ++ uintMax :: encGroups gs) := by simp [encGroups]
      rw [e, scatterLoop, if_neg h2, List.foldlM_cons]
      unfold sstep
      cases rd x i with
      | none => rfl
      | some t =>
        simp only [Option.bind_some]
        rw [scatterLoop, List.foldlM_cons]
        cases st x j t with
        | none => rfl
        | some x' =>
          simp only [Option.bind_some, Option.bind_eq_bind]
          rw [scatterLoop_more rd st _ t js _ (fun j hj => h3 j (by simp [hj]))]
          cases (List.foldlM (fun x j => st x j t) x' js) with
          | none => rfl
          | some x'' => simp only [Option.bind_some]; exact ih x''

theorem scatter_group {n : Nat} (t : V) : ∀ (js : List Nat) (w : Nat → V), (∀ j ∈ js, j < n) →
    ∃ w' : Nat → V, js.foldlM (fun x j => stAt x j t) (tab n w) = some (tab n w') ∧ (∀ j ∈ js, w' j = t) ∧ ∀ k, k ∉ js → w' k = w k
  | [], w, _ => ⟨w, rfl, by simp, by simp⟩
  | j :: js, w, h => by
    obtain ⟨w', e, h1, h2⟩ := scatter_group t js (Function.update w j t) (fun j hj => h j (by simp [hj]))
    refine ⟨w', ?_, ?_, ?_⟩
    · rw [List.foldlM_cons, st_tab (h j (by simp))]; exact e
    · intro k hk
      by_cases hk' : k ∈ js
      · exact h1 k hk'
      · rcases List.mem_cons.1 hk with rfl | hk
        · rw [h2 _ hk', Function.update_self]
        · exact absurd hk hk'
    · intro k hk
      rw [List.mem_cons, not_or] at hk
      rw [h2 k hk.2, Function.update_of_ne hk.1]

/-- a scatter: the groups are disjoint, what is read does not depend on the destinations -/
theorem scatter_run (n : Nat) (rd : List V → Nat → Option V) (y : Nat → V) (P : Nat → Prop) :
    ∀ (gs : List (Nat × List Nat)) (w : Nat → V), (gs.Pairwise fun g g' => ∀ j ∈ g.2, j ∉ g'.2) → (∀ g ∈ gs, ∀ j ∈ g.2, j < n ∧ P j) →
      (∀ w' : Nat → V, (∀ k, ¬ P k → w' k = w k) → ∀ g ∈ gs, rd (tab n w') g.1 = some (y g.1)) →
      ∃ w' : Nat → V, gs.foldlM (sstep rd stAt) (tab n w) = some (tab n w') ∧
        (∀ g ∈ gs, ∀ j ∈ g.2, w' j = y g.1) ∧ ∀ k, (∀ g ∈ gs, k ∉ g.2) → w' k = w k
  | [], w, _, _, _ => ⟨w, rfl, by simp, by simp⟩
  | g :: gs, w, hnd, hlt, hrd => by
    rw [List.pairwise_cons] at hnd
    obtain ⟨w1, e1, h1, h2⟩ := scatter_group (n := n) (y g.1) g.2 w (fun j hj => (hlt g (by simp) j hj).1)
    have hstep : sstep rd stAt (tab n w) g = some (tab n w1) := by
      unfold sstep
      rw [hrd w (fun _ _ => rfl) g (by simp), Option.bind_some, e1]
    obtain ⟨w', e, h3, h4⟩ := scatter_run n rd y P gs w1 hnd.2 (fun g' hg' => hlt g' (by simp [hg'])) (by
      intro w' hw' g' hg'
      refine hrd w' ?_ g' (by simp [hg'])
      intro k hk
      rw [hw' k hk, h2]
      intro hk'
      exact hk (hlt g (by simp) k hk').2)
    refine ⟨w', ?_, ?_, ?_⟩
    · rw [List.foldlM_cons, hstep]; exact e
    · intro g' hg' j hj
      rcases List.mem_cons.1 hg' with rfl | hg'
      · rw [h4 j (fun g'' hg'' => hnd.1 g'' hg'' j hj), h1 j hj]
      · exact h3 g' hg' j hj
    · intro k hk
      rw [h4 k (fun g' hg' => hk g' (by simp [hg'])), h2 k (hk g (by simp))]

/-! ### init -/

theorem init_run (n : Nat) (e : V) : ∀ (l : List Nat) (w : Nat → V), (∀ k ∈ l, k < n ∧ k ≠ uintMax) →
    ∃ w' : Nat → V, initLoop e stAt (l ++ [uintMax]) (tab n w) = some (tab n w') ∧ (∀ k ∈ l, w' k = e) ∧ ∀ k, k ∉ l → w' k = w k
  | [], w, _ => ⟨w, by simp [initLoop], by simp, by simp⟩
  | j :: js, w, h => by
    obtain ⟨w', e1, h1, h2⟩ := init_run n e js (Function.update w j e) (fun j hj => h j (by simp [hj]))
    have hj := h j (by simp)
    refine ⟨w', ?_, ?_, ?_⟩
    · rw [List.cons_append, initLoop, if_neg hj.2, st_tab hj.1]; exact e1
    · intro k hk
      by_cases hk' : k ∈ js
      · exact h1 k hk'
      · rcases List.mem_cons.1 hk with rfl | hk
        · rw [h2 _ hk', Function.update_self]
        · exact absurd hk hk'
    · intro k hk
      rw [List.mem_cons, not_or] at hk
      rw [h2 k hk.2, Function.update_of_ne hk.1]

end Gslib.Gs
