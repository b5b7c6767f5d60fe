import Verif.Lemmas.Bucket
import Mathlib.Data.List.Forall2
import Mathlib.Algebra.Order.Floor.Ring
import Mathlib.Algebra.Order.Field.Basic
import Mathlib.Tactic.Linarith
import Mathlib.Tactic.Ring
import Mathlib.Tactic.FieldSimp

/-!
# The cells of a box and the cell of a point
-/

namespace Gslib.Hash
open Gslib.Num
variable {K : Type} [Field K] [LinearOrder K] [IsStrictOrderedRing K] [FloorRing K]

/-- a non-empty index range below `n` -/
def IRange.Ok (n : Nat) (r : IRange) : Prop := r.min < r.max ∧ r.max ≤ n

/-- box range `r` inside bound `b`, and not degenerate at its upper end -/
def Fit (b r : Range K) : Prop := b.min ≤ r.min ∧ r.min ≤ r.max ∧ r.max ≤ b.max ∧ r.min < b.max

theorem Fit.pos {b r : Range K} (h : Fit b r) : 0 < b.max - b.min := by
  obtain ⟨h1, _, _, h4⟩ := h; linarith

theorem facOf_pos {n : Nat} {b r : Range K} (hn : 0 < n) (h : Fit b r) : 0 < facOf n b :=
  div_pos (by exact_mod_cast hn) h.pos

theorem facOf_top {n : Nat} {b r : Range K} (h : Fit b r) : (b.max - b.min) * facOf n b = n := by
  have := h.pos
  unfold facOf
  rw [mul_div_assoc', mul_comm, mul_div_assoc, div_self this.ne', mul_one]

theorem hashRange_ok {n : Nat} {b r : Range K} (hn : 0 < n) (h : Fit b r) : (hashRange n b r).Ok n := by
  have hf := facOf_pos hn h
  have ht := facOf_top (n := n) h
  obtain ⟨h1, h2, h3, h4⟩ := h
  have a0 : (0 : K) ≤ (r.min - b.min) * facOf n b := mul_nonneg (by linarith) hf.le
  have a1 : (r.min - b.min) * facOf n b < n := by rw [← ht]; exact mul_lt_mul_of_pos_right (by linarith) hf
  have a2 : (r.min - b.min) * facOf n b ≤ (r.max - b.min) * facOf n b := mul_le_mul_of_nonneg_right (by linarith) hf.le
  have f0 : 0 ≤ ⌊(r.min - b.min) * facOf n b⌋ := Int.floor_nonneg.2 a0
  have f1 : ⌊(r.min - b.min) * facOf n b⌋ < n := Int.floor_lt.2 (by exact_mod_cast a1)
  have f2 : ⌊(r.min - b.min) * facOf n b⌋ ≤ ⌈(r.max - b.min) * facOf n b⌉ := by
    have := Int.floor_le ((r.min - b.min) * facOf n b)
    have := Int.le_ceil ((r.max - b.min) * facOf n b)
    exact_mod_cast (by linarith : (⌊(r.min - b.min) * facOf n b⌋ : K) ≤ ⌈(r.max - b.min) * facOf n b⌉)
  unfold hashRange IRange.Ok
  dsimp only
  generalize ⌊(r.min - b.min) * facOf n b⌋ = i0 at *
  generalize ⌈(r.max - b.min) * facOf n b⌉ = i1 at *
  rw [if_neg (by omega)]
  split <;> split <;> constructor <;> (try omega)

/-- the cell coordinate of a point is covered by the range of the box -/
theorem hashIndexAux_mem {n : Nat} {b r : Range K} (hn : 0 < n) (h : Fit b r) {x : K} (hx1 : r.min ≤ x) (hx2 : x ≤ r.max)
    (hx3 : x < r.max ∨ x = b.max ∨ ∀ i : ℤ, (x - b.min) * facOf n b ≠ i) :
    (hashRange n b r).min ≤ hashIndexAux b.min (facOf n b) n x ∧ hashIndexAux b.min (facOf n b) n x < (hashRange n b r).max := by
  have hf := facOf_pos hn h
  have ht := facOf_top (n := n) h
  obtain ⟨h1, h2, h3, h4⟩ := h
  have a0 : (0 : K) ≤ (r.min - b.min) * facOf n b := mul_nonneg (by linarith) hf.le
  have a1 : (r.min - b.min) * facOf n b < n := by rw [← ht]; exact mul_lt_mul_of_pos_right (by linarith) hf
  have a2 : (r.min - b.min) * facOf n b ≤ (x - b.min) * facOf n b := mul_le_mul_of_nonneg_right (by linarith) hf.le
  have a3 : (x - b.min) * facOf n b ≤ (r.max - b.min) * facOf n b := mul_le_mul_of_nonneg_right (by linarith) hf.le
  have f0 : 0 ≤ ⌊(r.min - b.min) * facOf n b⌋ := Int.floor_nonneg.2 a0
  have f1 : ⌊(r.min - b.min) * facOf n b⌋ < n := Int.floor_lt.2 (by exact_mod_cast a1)
  have f2 : ⌊(r.min - b.min) * facOf n b⌋ ≤ ⌊(x - b.min) * facOf n b⌋ := Int.floor_le_floor a2
  have f3 : ⌊(x - b.min) * facOf n b⌋ < ⌈(r.max - b.min) * facOf n b⌉ ∨ (n : ℤ) ≤ ⌈(r.max - b.min) * facOf n b⌉ := by
    rcases hx3 with hx | hx | hx
    · left
      have b1 := mul_lt_mul_of_pos_right (by linarith : x - b.min < r.max - b.min) hf
      have := Int.floor_le ((x - b.min) * facOf n b)
      have := Int.le_ceil ((r.max - b.min) * facOf n b)
      exact_mod_cast (by linarith : (⌊(x - b.min) * facOf n b⌋ : K) < ⌈(r.max - b.min) * facOf n b⌉)
    · right
      have : r.max = b.max := le_antisymm h3 (hx ▸ hx2)
      rw [this, ht]; simp
    · left
      have b1 : ((⌊(x - b.min) * facOf n b⌋ : ℤ) : K) < (x - b.min) * facOf n b :=
        lt_of_le_of_ne (Int.floor_le _) (fun e => hx _ e.symm)
      have := Int.le_ceil ((r.max - b.min) * facOf n b)
      exact_mod_cast (by linarith : (⌊(x - b.min) * facOf n b⌋ : K) < ⌈(r.max - b.min) * facOf n b⌉)
  unfold hashRange hashIndexAux
  dsimp only
  generalize ⌊(r.min - b.min) * facOf n b⌋ = i0 at *
  generalize ⌈(r.max - b.min) * facOf n b⌉ = i1 at *
  generalize ⌊(x - b.min) * facOf n b⌋ = i at *
  rw [if_neg (by omega), if_neg (by omega)]
  constructor
  · split <;> omega
  · split <;> split <;> (try split) <;> omega

omit [IsStrictOrderedRing K] in
theorem hashIndexAux_lt {n : Nat} (hn : 0 < n) (low fac x : K) : hashIndexAux low fac n x < n := by
  unfold hashIndexAux
  dsimp only
  split
  · exact hn
  · split <;> omega

omit [IsStrictOrderedRing K] in
theorem hashIndex_lt {n : Nat} (hn : 0 < n) : ∀ (bnd : List (Range K)) (x : List K), hashIndex n bnd x < n ^ bnd.length
  | [], _ => by simp [hashIndex]
  | b :: bs, [] => by simp only [hashIndex]; exact Nat.pow_pos hn
  | b :: bs, x :: xs => by
      have h1 := hashIndex_lt hn bs xs
      have h2 := hashIndexAux_lt hn b.min (facOf n b) x
      rw [hashIndex, List.length_cons, pow_succ]
      calc hashIndex n bs xs * n + hashIndexAux b.min (facOf n b) n x < hashIndex n bs xs * n + n := by omega
        _ = (hashIndex n bs xs + 1) * n := by ring
        _ ≤ n ^ bs.length * n := Nat.mul_le_mul_right _ h1

theorem mem_cells_cons {n : Nat} {r : IRange} {rs : List IRange} {c : Nat} :
    c ∈ cells n (r :: rs) ↔ ∃ hi ∈ cells n rs, ∃ j, r.min ≤ j ∧ j < r.max ∧ c = hi * n + j := by
  rw [cells]
  simp only [List.mem_flatMap, List.mem_map, List.mem_range]
  constructor
  · rintro ⟨hi, h1, i, h2, rfl⟩
    exact ⟨hi, h1, r.min + i, by omega, by omega, rfl⟩
  · rintro ⟨hi, h1, j, h2, h3, rfl⟩
    exact ⟨hi, h1, j - r.min, by omega, by rw [Nat.add_sub_cancel' h2]⟩

theorem cells_lt {n : Nat} : ∀ (rs : List IRange), (∀ r ∈ rs, r.Ok n) → ∀ c ∈ cells n rs, c < n ^ rs.length
  | [], _, c, hc => by simp [cells] at hc; simp [hc]
  | r :: rs, h, c, hc => by
      obtain ⟨hi, h1, j, h2, h3, rfl⟩ := mem_cells_cons.1 hc
      have := cells_lt rs (fun r hr => h r (by simp [hr])) hi h1
      have h4 := (h r (by simp)).2
      rw [List.length_cons, pow_succ]
      calc hi * n + j < hi * n + n := by omega
        _ = (hi + 1) * n := by ring
        _ ≤ n ^ rs.length * n := Nat.mul_le_mul_right _ this

theorem cells_nodup {n : Nat} : ∀ (rs : List IRange), (∀ r ∈ rs, r.Ok n) → (cells n rs).Nodup
  | [], _ => by simp [cells]
  | r :: rs, h => by
      have ih := cells_nodup rs (fun r hr => h r (by simp [hr]))
      have h4 := (h r (by simp)).2
      rw [cells, List.nodup_flatMap]
      refine ⟨fun hi _ => (List.nodup_range).map (fun a b hab => by simpa using hab), ih.imp ?_⟩
      intro a b hab c hc1 hc2
      simp only [List.mem_map, List.mem_range] at hc1 hc2
      obtain ⟨i, hi, rfl⟩ := hc1
      obtain ⟨j, hj, e⟩ := hc2
      apply hab
      have e1 : (b * n + (r.min + j)) / n = b := by
        rw [Nat.add_comm, Nat.add_mul_div_right _ _ (by omega), Nat.div_eq_of_lt (by omega), Nat.zero_add]
      have e2 : (a * n + (r.min + i)) / n = a := by
        rw [Nat.add_comm, Nat.add_mul_div_right _ _ (by omega), Nat.div_eq_of_lt (by omega), Nat.zero_add]
      rw [← e2, ← e1, e]

theorem cells_length (n : Nat) : ∀ (rs : List IRange), (cells n rs).length = (rs.map fun r => r.max - r.min).prod
  | [] => rfl
  | r :: rs => by
      rw [cells, List.length_flatMap]
      simp only [List.length_map, List.length_range, List.map_const', List.sum_replicate, List.map_cons, List.prod_cons]
      rw [cells_length n rs, Nat.mul_comm]; rfl

/-- a box that fits the bound in all coordinates -/
def FitBox (bnd box : List (Range K)) : Prop := List.Forall₂ Fit bnd box

omit [IsStrictOrderedRing K] [FloorRing K] in
theorem FitBox.length {bnd box : List (Range K)} (h : FitBox bnd box) : bnd.length = box.length := List.Forall₂.length_eq h

theorem hashRanges_ok {n : Nat} (hn : 0 < n) : ∀ {bnd box : List (Range K)}, FitBox bnd box → ∀ r ∈ hashRanges n bnd box, r.Ok n
  | [], [], _, r, hr => by simp [hashRanges] at hr
  | b :: bs, x :: xs, h, r, hr => by
      obtain ⟨h1, h2⟩ := List.forall₂_cons.1 h
      rw [hashRanges, List.zipWith_cons_cons] at hr
      rcases List.mem_cons.1 hr with rfl | hr
      · exact hashRange_ok hn h1
      · exact hashRanges_ok hn h2 r hr

omit [IsStrictOrderedRing K] in
theorem hashRanges_length {n : Nat} {bnd box : List (Range K)} (h : FitBox bnd box) : (hashRanges n bnd box).length = bnd.length := by
  rw [hashRanges, List.length_zipWith, ← h.length, Nat.min_self]

/-- `x` is covered by box `r` in a coordinate with bound `b` and `n` cells: in the closed interval, and if it is the upper end, then this is not
on a cell boundary, except for the upper end of the bound -/
def Covers (n : Nat) (b r : Range K) (x : K) : Prop :=
  r.min ≤ x ∧ x ≤ r.max ∧ (x < r.max ∨ x = b.max ∨ ∀ i : ℤ, (x - b.min) * facOf n b ≠ i)

theorem hashIndex_mem {n : Nat} (hn : 0 < n) : ∀ {bnd box : List (Range K)} {x : List K}, FitBox bnd box → x.length = box.length →
    (∀ (d : Nat) b r y, bnd[d]? = some b → box[d]? = some r → x[d]? = some y → Covers n b r y) →
    hashIndex n bnd x ∈ cells n (hashRanges n bnd box)
  | [], [], [], _, _, _ => by simp [hashIndex, hashRanges, cells]
  | b :: bs, r :: rs, y :: ys, h, hl, hc => by
      obtain ⟨h1, h2⟩ := List.forall₂_cons.1 h
      rw [hashRanges, List.zipWith_cons_cons, mem_cells_cons, hashIndex]
      have ih := hashIndex_mem hn (x := ys) h2 (by simpa using hl) (fun d b r y hb hr hy => hc (d + 1) b r y (by simpa) (by simpa) (by simpa))
      obtain ⟨c1, c2, c3⟩ := hc 0 b r y rfl rfl rfl
      have := hashIndexAux_mem hn h1 c1 c2 c3
      exact ⟨_, ih, _, this.1, this.2, rfl⟩

/-! ### bounding box -/

omit [IsStrictOrderedRing K] [FloorRing K] in
theorem rangeMerge_fit_left {a b r : Range K} (h : Fit a r) : Fit (rangeMerge a b) r := by
  obtain ⟨h1, h2, h3, h4⟩ := h
  unfold rangeMerge Fit
  dsimp only
  refine ⟨?_, h2, ?_, ?_⟩
  · split
    · rename_i h; exact h.le.trans h1
    · exact h1
  · split
    · exact h3
    · rename_i h; exact h3.trans (not_lt.1 h)
  · split
    · exact h4
    · rename_i h; exact lt_of_lt_of_le h4 (not_lt.1 h)

omit [IsStrictOrderedRing K] [FloorRing K] in
theorem rangeMerge_fit_right {a b : Range K} (h : b.min < b.max) : Fit (rangeMerge a b) b := by
  unfold rangeMerge Fit
  dsimp only
  refine ⟨?_, h.le, ?_, ?_⟩
  · split
    · exact le_refl _
    · rename_i h; exact not_lt.1 h
  · split
    · rename_i h; exact h.le
    · exact le_refl _
  · split
    · rename_i h'; exact h.trans h'
    · exact h

omit [IsStrictOrderedRing K] [FloorRing K] in
theorem merge_fit_left : ∀ {acc x box : List (Range K)}, acc.length = x.length → FitBox acc box → FitBox (List.zipWith rangeMerge acc x) box
  | [], [], [], _, _ => List.Forall₂.nil
  | a :: as, x :: xs, r :: rs, hl, h => by
      obtain ⟨h1, h2⟩ := List.forall₂_cons.1 h
      exact List.forall₂_cons.2 ⟨rangeMerge_fit_left h1, merge_fit_left (by simpa using hl) h2⟩

omit [IsStrictOrderedRing K] [FloorRing K] in
theorem merge_fit_right : ∀ {acc x : List (Range K)}, acc.length = x.length → (∀ r ∈ x, r.min < r.max) → FitBox (List.zipWith rangeMerge acc x) x
  | [], [], _, _ => List.Forall₂.nil
  | a :: as, x :: xs, hl, h =>
      List.forall₂_cons.2 ⟨rangeMerge_fit_right (h x (by simp)), merge_fit_right (by simpa using hl) (fun r hr => h r (by simp [hr]))⟩

omit [IsStrictOrderedRing K] [FloorRing K] in
theorem fit_self : ∀ {x : List (Range K)}, (∀ r ∈ x, r.min < r.max) → FitBox x x
  | [], _ => List.Forall₂.nil
  | r :: rs, h => List.forall₂_cons.2 ⟨⟨le_refl _, (h r (by simp)).le, le_refl _, h r (by simp)⟩, fit_self (fun r hr => h r (by simp [hr]))⟩

omit [IsStrictOrderedRing K] [FloorRing K] in
theorem foldl_fit (D : Nat) : ∀ (bs : List (List (Range K))) (acc : List (Range K)), acc.length = D → (∀ b ∈ bs, b.length = D ∧ ∀ r ∈ b, r.min < r.max) →
    let res := bs.foldl (fun acc x => List.zipWith rangeMerge acc x) acc
    res.length = D ∧ (∀ b ∈ bs, FitBox res b) ∧ (∀ box, FitBox acc box → FitBox res box)
  | [], acc, ha, _ => ⟨ha, by simp, fun _ h => h⟩
  | b :: bs, acc, ha, h => by
      have hb := h b (by simp)
      obtain ⟨r1, r2, r3⟩ := foldl_fit D bs (List.zipWith rangeMerge acc b) (by rw [List.length_zipWith, ha, hb.1, Nat.min_self])
        (fun b' hb' => h b' (by simp [hb']))
      refine ⟨r1, ?_, fun box hbox => r3 box (merge_fit_left (by rw [ha, hb.1]) hbox)⟩
      intro b' hb'
      rcases List.mem_cons.1 hb' with rfl | hb'
      · exact r3 _ (merge_fit_right (by rw [ha, hb.1]) hb.2)
      · exact r2 _ hb'

omit [IsStrictOrderedRing K] [FloorRing K] in
theorem hashBb_fit {D : Nat} {obb : List (List (Range K))} (hne : obb ≠ []) (h : ∀ b ∈ obb, b.length = D ∧ ∀ r ∈ b, r.min < r.max) :
    ∃ bnd, hashBb obb = some bnd ∧ bnd.length = D ∧ ∀ b ∈ obb, FitBox bnd b := by
  cases obb with
  | nil => exact absurd rfl hne
  | cons b bs =>
    have hb := h b (by simp)
    obtain ⟨r1, r2, r3⟩ := foldl_fit D bs b hb.1 (fun b' hb' => h b' (by simp [hb']))
    refine ⟨_, rfl, r1, ?_⟩
    intro b' hb'
    rcases List.mem_cons.1 hb' with rfl | hb'
    · exact r3 _ (fit_self hb.2)
    · exact r2 _ hb'

end Gslib.Hash
