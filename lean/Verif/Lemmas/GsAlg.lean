import Verif.Spec.GsAlg
import Mathlib.Algebra.BigOperators.Ring.Finset
import Mathlib.Algebra.BigOperators.Field
import Mathlib.Algebra.CharZero.Defs
import Mathlib.Tactic.Ring
import Mathlib.Tactic.FieldSimp

/-!
# Algebra of gather-scatter
-/

namespace Gslib.Spec
open Finset

variable {K : Type}

section sums
variable [CommSemiring K]

theorem reduce_sum (l : List K) : reduce (· + ·) 0 l = l.sum := by
  unfold reduce
  have : ∀ (l : List K) (x : K), l.foldl (· + ·) x = x + l.sum := by
    intro l
    induction l with
    | nil => intro x; simp
    | cons y l ih => intro x; rw [List.foldl_cons, ih, List.sum_cons]; ring
  rw [this, zero_add]

theorem pick_sum (c : Int → Bool) : ∀ (ids : List Int) (v : List K), v.length = ids.length →
    (pick c ids v).sum = ∑ j ∈ range ids.length, if c (ids.getD j 0) then v.getD j 0 else 0
  | [], v, _ => by simp [pick]
  | x :: ids, [], h => by simp at h
  | x :: ids, y :: v, h => by
    have ih := pick_sum c ids v (by simpa using h)
    rw [List.length_cons, Finset.sum_range_succ', add_comm]
    simp only [List.getD_cons_zero, List.getD_cons_succ]
    rw [← ih]
    unfold pick
    rw [List.zip_cons_cons, List.filter_cons]
    by_cases hc : c x
    · simp [hc]
    · simp [hc]

theorem flat_sum (g : Nat → List K) (np : Nat) : ((List.range np).flatMap g).sum = ∑ q ∈ range np, (g q).sum := by
  induction np with
  | zero => simp
  | succ n ih => rw [List.range_succ, List.flatMap_append, List.sum_append, ih, Finset.sum_range_succ]; simp

variable {np : Nat} {ids : Nat → List Int}

theorem unflagged_sum {v : Nat → List K} (hl : ∀ q, q < np → (v q).length = (ids q).length) (a : Nat) :
    reduce (· + ·) 0 (unflagged np ids v a) = total np ids fun q j => if (ids q).getD j 0 = a then (v q).getD j 0 else 0 := by
  rw [reduce_sum, unflagged, flat_sum]
  refine Finset.sum_congr rfl fun q hq => ?_
  rw [pick_sum _ _ _ (hl q (Finset.mem_range.1 hq))]
  simp

theorem members_sum {v : Nat → List K} (hl : ∀ q, q < np → (v q).length = (ids q).length) (a : Nat) :
    reduce (· + ·) 0 (members np ids v a) = total np ids fun q j => if ((ids q).getD j 0).natAbs = a then (v q).getD j 0 else 0 := by
  rw [reduce_sum, members, flat_sum]
  refine Finset.sum_congr rfl fun q hq => ?_
  rw [pick_sum _ _ _ (hl q (Finset.mem_range.1 hq))]
  simp

end sums

theorem gsOut_getD {T : Type} (z : T) (f : T → T → T) (e : T) {np : Nat} {ids : Nat → List Int} {v : Nat → List T} {q i : Nat} (hl : (v q).length = (ids q).length) (hi : i < (ids q).length) :
    (gsOut f e np ids v q).getD i z = if (ids q).getD i 0 = 0 then (v q).getD i z else reduce f e (unflagged np ids v ((ids q).getD i 0).natAbs) := by
  have hi' : i < (v q).length := by omega
  unfold gsOut
  simp [List.getD_eq_getElem?_getD, List.getElem?_map, List.getElem?_zip_eq_some, hi, hi', List.zip, List.getElem?_zipWith]

theorem gsOutT_getD {T : Type} (z : T) (f : T → T → T) (e : T) {np : Nat} {ids : Nat → List Int} {v : Nat → List T} {q i : Nat} (hl : (v q).length = (ids q).length) (hi : i < (ids q).length)
    (h0 : 0 ≤ (ids q).getD i 0) :
    (gsOutT f e np ids v q).getD i z = if (ids q).getD i 0 = 0 then (v q).getD i z else reduce f e (members np ids v ((ids q).getD i 0).natAbs) := by
  have hi' : i < (v q).length := by omega
  have e0 : (ids q).getD i 0 = (ids q)[i] := by simp [List.getD_eq_getElem?_getD, hi]
  rw [e0] at h0 ⊢
  unfold gsOutT
  simp only [List.getD_eq_getElem?_getD, List.getElem?_map, List.getElem?_zipIdx, List.zip, List.getElem?_zipWith, List.getElem?_eq_getElem hi, List.getElem?_eq_getElem hi', Option.map_some, Option.getD_some]
  by_cases h : (ids q)[i] = 0
  · simp [h]
  · have : 0 < (ids q)[i] := by omega
    simp [h, this]

theorem gsOut_length {T : Type} (f : T → T → T) (e : T) (np : Nat) (ids : Nat → List Int) (v : Nat → List T) (q : Nat) (hl : (v q).length = (ids q).length) :
    (gsOut f e np ids v q).length = (ids q).length := by
  simp [gsOut, hl]

/-- all entries -/
def entries (np : Nat) (ids : Nat → List Int) : Finset (Σ _ : Nat, Nat) := (range np).sigma fun q => range (ids q).length

theorem total_eq [AddCommMonoid K] (np : Nat) (ids : Nat → List Int) (f : Nat → Nat → K) : total np ids f = ∑ x ∈ entries np ids, f x.1 x.2 := by
  unfold total entries
  rw [Finset.sum_sigma]

theorem mem_entries {np : Nat} {ids : Nat → List Int} {x : Σ _ : Nat, Nat} : x ∈ entries np ids ↔ x.1 < np ∧ x.2 < (ids x.1).length := by
  unfold entries
  simp

/-- transpose -/
theorem gsOut_adjoint [CommSemiring K] {np : Nat} {ids : Nat → List Int} {u w : Nat → List K} (hu : ∀ q, q < np → (u q).length = (ids q).length)
    (hw : ∀ q, q < np → (w q).length = (ids q).length) :
    total np ids (fun q i => (w q).getD i 0 * (gsOut (· + ·) 0 np ids u q).getD i 0) =
      total np ids fun q i => if 0 ≤ (ids q).getD i 0 then (gsOutT (· + ·) 0 np ids w q).getD i 0 * (u q).getD i 0 else 0 := by
  rw [total_eq, total_eq]
  have hL : ∀ x ∈ entries np ids, (w x.1).getD x.2 0 * (gsOut (· + ·) 0 np ids u x.1).getD x.2 0 =
      (if (ids x.1).getD x.2 0 = 0 then (w x.1).getD x.2 0 * (u x.1).getD x.2 0 else 0) +
        ∑ y ∈ entries np ids, if (ids x.1).getD x.2 0 ≠ 0 ∧ (ids y.1).getD y.2 0 = ((ids x.1).getD x.2 0).natAbs then (w x.1).getD x.2 0 * (u y.1).getD y.2 0 else 0 := by
    intro x hx
    obtain ⟨h1, h2⟩ := mem_entries.1 hx
    rw [gsOut_getD 0 _ _ (hu _ h1) h2]
    by_cases h : (ids x.1).getD x.2 0 = 0
    · rw [if_pos h, if_pos h, Finset.sum_eq_zero, add_zero]
      intro y _
      rw [if_neg fun c => c.1 h]
    · rw [if_neg h, if_neg h, zero_add, unflagged_sum hu, total_eq, Finset.mul_sum]
      refine Finset.sum_congr rfl fun y _ => ?_
      by_cases hc : (ids y.1).getD y.2 0 = ((ids x.1).getD x.2 0).natAbs
      · rw [if_pos hc, if_pos ⟨h, hc⟩]
      · rw [if_neg hc, if_neg fun c => hc c.2, mul_zero]
  have hR : ∀ y ∈ entries np ids, (if 0 ≤ (ids y.1).getD y.2 0 then (gsOutT (· + ·) 0 np ids w y.1).getD y.2 0 * (u y.1).getD y.2 0 else 0) =
      (if (ids y.1).getD y.2 0 = 0 then (w y.1).getD y.2 0 * (u y.1).getD y.2 0 else 0) +
        ∑ x ∈ entries np ids, if (ids x.1).getD x.2 0 ≠ 0 ∧ (ids y.1).getD y.2 0 = ((ids x.1).getD x.2 0).natAbs then (w x.1).getD x.2 0 * (u y.1).getD y.2 0 else 0 := by
    intro y hy
    obtain ⟨h1, h2⟩ := mem_entries.1 hy
    by_cases h0 : 0 ≤ (ids y.1).getD y.2 0
    · rw [if_pos h0, gsOutT_getD 0 _ _ (hw _ h1) h2 h0]
      by_cases h : (ids y.1).getD y.2 0 = 0
      · rw [if_pos h, if_pos h, Finset.sum_eq_zero, add_zero]
        intro x _
        rw [if_neg]
        intro c
        have := c.1; have := c.2; omega
      · rw [if_neg h, if_neg h, zero_add, members_sum hw, total_eq, Finset.sum_mul]
        refine Finset.sum_congr rfl fun x _ => ?_
        by_cases hc : ((ids x.1).getD x.2 0).natAbs = ((ids y.1).getD y.2 0).natAbs
        · rw [if_pos hc, if_pos]
          exact ⟨by omega, by omega⟩
        · rw [if_neg hc, if_neg, zero_mul]
          intro c
          have := c.2; omega
    · rw [if_neg h0, if_neg (by omega), zero_add, Finset.sum_eq_zero]
      intro x _
      rw [if_neg]
      intro c
      have := c.2; omega
  rw [Finset.sum_congr rfl hL, Finset.sum_congr rfl hR, Finset.sum_add_distrib, Finset.sum_add_distrib, Finset.sum_comm (s := entries np ids) (t := entries np ids)]

theorem pick_same {T : Type} (c : Int → Bool) (r : T) : ∀ (ids : List Int) (v w : List T), v.length = ids.length → w.length = ids.length → (∀ i, i < ids.length → c (ids.getD i 0) → w.getD i r = r) →
    pick c ids w = List.replicate (pick c ids v).length r
  | [], v, w, _, _, _ => by simp [pick]
  | x :: ids, [], w, h, _, _ => by simp at h
  | x :: ids, y :: v, [], _, h, _ => by simp at h
  | x :: ids, y :: v, z :: w, h1, h2, h => by
    have ih := pick_same c r ids v w (by simpa using h1) (by simpa using h2) (fun i hi hc => by
      have := h (i + 1) (by simpa using hi) (by simpa using hc)
      simpa using this)
    unfold pick at ih ⊢
    rw [List.zip_cons_cons, List.filter_cons, List.zip_cons_cons, List.filter_cons]
    by_cases hc : c x
    · have h0 := h 0 (by simp) (by simpa using hc)
      simp only [List.getD_cons_zero] at h0
      simp only [hc, if_true, List.map_cons, List.length_cons, List.replicate_succ, ih, h0]
    · simp only [hc]
      simpa using ih

theorem flat_same {T : Type} {r : T} {g g' : Nat → List T} : ∀ np, (∀ q, q < np → g' q = List.replicate (g q).length r) → (List.range np).flatMap g' = List.replicate ((List.range np).flatMap g).length r
  | 0, _ => rfl
  | n + 1, h => by
    rw [List.range_succ, List.flatMap_append, List.flatMap_append, flat_same n (fun q hq => h q (by omega))]
    simp only [List.flatMap_cons, List.flatMap_nil, List.append_nil, List.length_append]
    rw [h n (by omega), List.replicate_add]

/-- after gs, all entries with the same id are equal; a second gs with an operation with `f x x = x` changes nothing -/
theorem gsOut_idem {T : Type} {f : T → T → T} {e : T} {np : Nat} {ids : Nat → List Int} {v : Nat → List T} (hl : ∀ q, q < np → (v q).length = (ids q).length)
    (he : ∀ a, f e (reduce f e (unflagged np ids v a)) = reduce f e (unflagged np ids v a))
    (hf : ∀ a, f (reduce f e (unflagged np ids v a)) (reduce f e (unflagged np ids v a)) = reduce f e (unflagged np ids v a)) {q : Nat} (hq : q < np) :
    gsOut f e np ids (gsOut f e np ids v) q = gsOut f e np ids v q := by
  have key : ∀ a : Nat, a ≠ 0 → reduce f e (unflagged np ids (gsOut f e np ids v) a) = reduce f e (unflagged np ids v a) := by
    intro a ha
    have : unflagged np ids (gsOut f e np ids v) a = List.replicate (unflagged np ids v a).length (reduce f e (unflagged np ids v a)) := by
      refine flat_same np fun p hp => pick_same _ _ (ids p) (v p) _ (hl p hp) (gsOut_length f e np ids v p (hl p hp)) ?_
      intro i hi hc
      have hc : (ids p).getD i 0 = (a : Int) := by simpa using hc
      rw [gsOut_getD _ f e (hl p hp) hi, if_neg (by omega), hc, Int.natAbs_natCast]
    rw [this]
    rcases hn : (unflagged np ids v a).length with _ | n
    · have : unflagged np ids v a = [] := List.length_eq_zero_iff.1 hn
      simp [this]
    · have h1 : ∀ m, (List.replicate m (reduce f e (unflagged np ids v a))).foldl f (reduce f e (unflagged np ids v a)) = reduce f e (unflagged np ids v a) := by
        intro m
        induction m with
        | zero => rfl
        | succ m ih => rw [List.replicate_succ, List.foldl_cons, hf, ih]
      change (List.replicate (n + 1) (reduce f e (unflagged np ids v a))).foldl f e = _
      rw [List.replicate_succ, List.foldl_cons, he, h1]
  have hl2 := gsOut_length f e np ids v q (hl q hq)
  refine List.ext_getElem? fun i => ?_
  by_cases hi : i < (ids q).length
  · have hi' : i < (v q).length := by rw [hl q hq]; exact hi
    obtain ⟨z⟩ : Nonempty T := ⟨e⟩
    have l2 := gsOut_length f e np ids (gsOut f e np ids v) q hl2
    rw [List.getElem?_eq_getElem (by omega), List.getElem?_eq_getElem (by omega)]
    have a1 := gsOut_getD (np := np) e f e hl2 hi
    have a2 := gsOut_getD (np := np) e f e (hl q hq) hi
    rw [List.getD_eq_getElem?_getD, List.getElem?_eq_getElem (by omega), Option.getD_some] at a1
    rw [List.getD_eq_getElem?_getD, List.getElem?_eq_getElem (by omega), Option.getD_some] at a2
    rw [a1, a2, gsOut_getD e f e (hl q hq) hi]
    by_cases h : (ids q).getD i 0 = 0
    · rw [if_pos h, if_pos h]
    · rw [if_neg h, if_neg h, key _ (by omega)]
  · rw [List.getElem?_eq_none (by rw [gsOut_length _ _ _ _ _ _ hl2]; omega), List.getElem?_eq_none (by omega)]

/-- number of unflagged entries with id `a` -/
theorem ones_count [CommSemiring K] {np : Nat} {ids : Nat → List Int} {v : Nat → List K} (hl : ∀ q, q < np → (v q).length = (ids q).length)
    (h1 : ∀ q, q < np → ∀ i, i < (ids q).length → (v q).getD i 0 = 1) (a : Nat) :
    reduce (· + ·) 0 (unflagged np ids v a) = (((entries np ids).filter fun x => (ids x.1).getD x.2 0 = a).card : K) := by
  rw [unflagged_sum hl, total_eq, Finset.card_filter, Nat.cast_sum]
  refine Finset.sum_congr rfl fun x hx => ?_
  obtain ⟨hx1, hx2⟩ := mem_entries.1 hx
  rw [h1 _ hx1 _ hx2]
  split_ifs <;> simp

/-- division by the multiplicity counts every id once -/
theorem count_once [Field K] [CharZero K] {np : Nat} {ids : Nat → List Int} {v : Nat → List K} (hl : ∀ q, q < np → (v q).length = (ids q).length)
    (h1 : ∀ q, q < np → ∀ i, i < (ids q).length → (v q).getD i 0 = 1) (hpos : ∀ q, q < np → ∀ x ∈ ids q, 0 ≤ x) (g : Nat → K) :
    total np ids (fun q i => if (ids q).getD i 0 = 0 then 0 else g ((ids q).getD i 0).natAbs / (gsOut (· + ·) 0 np ids v q).getD i 0) = ∑ a ∈ allIds np ids, g a := by
  have hid : ∀ x ∈ entries np ids, (ids x.1).getD x.2 0 ∈ ids x.1 := by
    intro x hx
    obtain ⟨hx1, hx2⟩ := mem_entries.1 hx
    rw [List.getD_eq_getElem?_getD, List.getElem?_eq_getElem hx2]
    exact List.getElem_mem hx2
  rw [total_eq]
  have e1 : ∀ x ∈ entries np ids, (if (ids x.1).getD x.2 0 = 0 then 0 else g ((ids x.1).getD x.2 0).natAbs / (gsOut (· + ·) 0 np ids v x.1).getD x.2 0) =
      ∑ a ∈ allIds np ids, if (ids x.1).getD x.2 0 = (a : Int) then g a / (((entries np ids).filter fun x => (ids x.1).getD x.2 0 = (a : Int)).card : K) else 0 := by
    intro x hx
    obtain ⟨hx1, hx2⟩ := mem_entries.1 hx
    by_cases h : (ids x.1).getD x.2 0 = 0
    · rw [if_pos h, Finset.sum_eq_zero]
      intro a ha
      have : a ≠ 0 := Finset.ne_of_mem_erase ha
      rw [if_neg (by omega)]
    · have h0 := hpos _ hx1 _ (hid x hx)
      have hm : ((ids x.1).getD x.2 0).natAbs ∈ allIds np ids := by
        unfold allIds
        rw [Finset.mem_erase, Finset.mem_biUnion]
        exact ⟨by omega, x.1, Finset.mem_range.2 hx1, by simpa using ⟨_, hid x hx, rfl⟩⟩
      rw [if_neg h, Finset.sum_eq_single ((ids x.1).getD x.2 0).natAbs, if_pos (by omega), gsOut_getD 0 _ _ (hl _ hx1) hx2, if_neg h, ones_count hl h1]
      · intro b _ hb
        rw [if_neg (by omega)]
      · intro hn; exact absurd hm hn
  rw [Finset.sum_congr rfl e1, Finset.sum_comm]
  refine Finset.sum_congr rfl fun a ha => ?_
  rw [← Finset.sum_filter, Finset.sum_const, nsmul_eq_mul]
  have hne : (((entries np ids).filter fun x => (ids x.1).getD x.2 0 = (a : Int)).card : K) ≠ 0 := by
    rw [Nat.cast_ne_zero, Finset.card_ne_zero]
    unfold allIds at ha
    rw [Finset.mem_erase, Finset.mem_biUnion] at ha
    obtain ⟨h0, q, hq, hm⟩ := ha
    have hm : ∃ z ∈ ids q, z.natAbs = a := by simpa using hm
    obtain ⟨z, hz, hza⟩ := hm
    have := hpos q (Finset.mem_range.1 hq) z hz
    obtain ⟨i, hi, e⟩ := List.mem_iff_getElem.1 hz
    refine ⟨⟨q, i⟩, Finset.mem_filter.2 ⟨mem_entries.2 ⟨Finset.mem_range.1 hq, hi⟩, ?_⟩⟩
    show (ids q).getD i 0 = (a : Int)
    rw [List.getD_eq_getElem?_getD, List.getElem?_eq_getElem hi, Option.getD_some, e]
    omega
  field_simp

end Gslib.Spec
