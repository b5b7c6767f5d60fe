import Verif.Lemmas.GlobalHash
import Mathlib.Data.Rat.Floor
import Mathlib.Algebra.Order.Ring.Rat

/-!
# C41: the distributed hash table
-/

namespace Gslib.Props
open Gslib Gslib.Mpi Gslib.Transfer Gslib.Gs Gslib.Hash Gslib.Num Gslib.Spec Gslib.GHash

variable {K : Type} [Field K] [LinearOrder K] [IsStrictOrderedRing K] [FloorRing K]

theorem mem_range_iff {n : Nat} {b r : Range K} (hn : 0 < n) (h : Fit b r) (hr : r.min < r.max) (i : Nat) :
    (hashRange n b r).min ≤ i ∧ i < (hashRange n b r).max ↔ i < n ∧ MeetsCell n b r i := by
  have hf := facOf_pos hn h
  have ht := facOf_top (n := n) h
  have hp := h.pos
  obtain ⟨h1, h2, h3, h4⟩ := h
  have m2 : (r.min - b.min) * facOf n b < (r.max - b.min) * facOf n b := mul_lt_mul_of_pos_right (by linarith) hf
  have z : (0 : K) ≤ (r.min - b.min) * facOf n b := mul_nonneg (by linarith) hf.le
  have t : (r.max - b.min) * facOf n b ≤ n := by rw [← ht]; exact mul_le_mul_of_nonneg_right (by linarith) hf.le
  have f2 : ⌊(r.min - b.min) * facOf n b⌋ < ⌈(r.max - b.min) * facOf n b⌉ := by
    rw [Int.floor_lt]
    exact m2.trans_le (Int.le_ceil _)
  have f3 : 0 ≤ ⌊(r.min - b.min) * facOf n b⌋ := Int.floor_nonneg.2 z
  have f4 : ⌈(r.max - b.min) * facOf n b⌉ ≤ (n : ℤ) := Int.ceil_le.2 (by exact_mod_cast t)
  have e1 : MeetsCell n b r i ↔ ⌊(r.min - b.min) * facOf n b⌋ < (i : ℤ) + 1 ∧ (i : ℤ) < ⌈(r.max - b.min) * facOf n b⌉ := by
    unfold MeetsCell
    rw [Int.floor_lt, Int.lt_ceil]
    unfold facOf
    rw [mul_div_assoc', mul_div_assoc', div_lt_iff₀ hp, lt_div_iff₀ hp]
    push_cast
    rfl
  rw [e1]
  unfold hashRange
  dsimp only
  generalize ⌊(r.min - b.min) * facOf n b⌋ = c at *
  generalize ⌈(r.max - b.min) * facOf n b⌉ = d at *
  repeat' split
  all_goals omega

theorem mem_cells_iff {n : Nat} (hn : 0 < n) : ∀ {bnd box : List (Range K)}, FitBox bnd box → (∀ r ∈ box, r.min < r.max) → ∀ c, c ∈ cells n (hashRanges n bnd box) ↔ BoxMeetsCell n bnd box c
  | [], [], _, _, c => by simp [hashRanges, cells, BoxMeetsCell]
  | b :: bs, r :: rs, h, hr, c => by
    obtain ⟨h1, h2⟩ := List.forall₂_cons.1 h
    have ih := mem_cells_iff hn h2 (fun r hr' => hr r (by simp [hr']))
    have hm := mem_range_iff hn h1 (hr r (by simp))
    rw [hashRanges, List.zipWith_cons_cons, mem_cells_cons]
    rw [hashRanges] at ih
    unfold BoxMeetsCell at ih ⊢
    constructor
    · rintro ⟨hi, c1, j, j1, j2, rfl⟩
      obtain ⟨i1, i2⟩ := (ih hi).1 c1
      obtain ⟨k1, k2⟩ := (hm j).1 ⟨j1, j2⟩
      have q1 : (hi * n + j) % n = j := by rw [Nat.mul_add_mod_of_lt k1]
      have q2 : (hi * n + j) / n = hi := by rw [Nat.add_comm, Nat.add_mul_div_right _ _ hn, Nat.div_eq_of_lt k1, Nat.zero_add]
      refine ⟨?_, ?_⟩
      · rw [List.length_cons, pow_succ]
        have := Nat.mul_le_mul_right n (show hi + 1 ≤ n ^ bs.length from i1)
        rw [Nat.add_mul] at this; omega
      · intro d b' r' hb hr'
        cases d with
        | zero =>
          simp only [List.getElem?_cons_zero, Option.some.injEq] at hb hr'
          rw [← hb, ← hr', pow_zero, Nat.div_one, q1]; exact k2
        | succ d =>
          simp only [List.getElem?_cons_succ] at hb hr'
          rw [pow_succ', ← Nat.div_div_eq_div_mul, q2]
          exact i2 d b' r' hb hr'
    · rintro ⟨c1, c2⟩
      rw [List.length_cons, pow_succ] at c1
      refine ⟨c / n, (ih _).2 ⟨Nat.div_lt_of_lt_mul (by rw [Nat.mul_comm]; exact c1), ?_⟩, c % n, ?_⟩
      · intro d b' r' hb hr'
        have := c2 (d + 1) b' r' (by simpa using hb) (by simpa using hr')
        rwa [pow_succ', ← Nat.div_div_eq_div_mul] at this
      · have := (hm (c % n)).2 ⟨Nat.mod_lt _ hn, by have := c2 0 b r rfl rfl; rwa [pow_zero, Nat.div_one] at this⟩
        exact ⟨this.1, this.2, by rw [Nat.mul_comm]; exact (Nat.div_add_mod c n).symm⟩

/-- **C41 (distributed hash table)**. `np` processes with any numbers of proper boxes (some may have none), `hn` cells per coordinate of the common bound, cell `h` kept by process `h % np` as its cell `h / np`. On every
schedule the collective construction ends without abort or undefined behaviour (in particular no bit of the mask and no entry of the table is accessed out of bounds), and then

* every cell of every process can be read, and lists, each once, exactly the processes that have a box meeting the cell;
* for every point at all, the process and the cell the search computes for it exist;
* every process that has a box containing the point (upper faces excluded) is listed there.

The hypotheses bound the number of cells by `2^32` per process (`index` is a 32 bit field) and the size of the messages by `INT_MAX`. -/
theorem global_hash_table {D np hn : Nat} (hhn : 0 < hn) (hnp : 0 < np) (hnp' : np ≤ 4294967295) {obb : Nat → List (List (Range K))} (h : ∀ q, q < np → ProperBoxes D (obb q))
    (hcell : hn ^ D ≤ 4294967296 * np) (hsmall : (∑ q ∈ Finset.range np, hashCount hn (globalBnd D np obb) (obb q)) * 16 < Crystal.intMax)
    (s0 : Nat → HbSt K) (h0 : ∀ q, q < np → (s0 q).obb = obb q) :
    AllSchedules (hashBuild D hn np (globalBnd D np obb)).prog np s0 fun sf =>
      (∀ p, p < np → ∀ c, c < (hn ^ D - 1) / np + 1 → ∃ l, readBucket (sf p).size (sf p).off c = some l ∧ l.Nodup ∧
        ∀ q, q ∈ l ↔ q < np ∧ ∃ box ∈ obb q, BoxMeetsCell hn (globalBnd D np obb) box (c * np + p)) ∧
      ∀ x : List K, hashIndex hn (globalBnd D np obb) x % np < np ∧ hashIndex hn (globalBnd D np obb) x / np < (hn ^ D - 1) / np + 1 ∧
        ∀ q, q < np → (∃ box ∈ obb q, InHalfOpenBox box x) →
          ∃ l, readBucket (sf (hashIndex hn (globalBnd D np obb) x % np)).size (sf (hashIndex hn (globalBnd D np obb) x % np)).off (hashIndex hn (globalBnd D np obb) x / np) = some l ∧ q ∈ l := by
  obtain ⟨sf, e, hb⟩ := hashBuild_run hhn hnp hnp' h hcell hsmall s0 h0
  obtain ⟨w1, w2⟩ := globalBnd_within h hnp
  have hfit : ∀ q, q < np → ∀ b ∈ obb q, FitBox (globalBnd D np obb) b := fun q hq b hb => fitBox_of_within (w2 q hq) (localBnd_fit (h q hq) b hb)
  refine allSchedules_of_lockRun (hashBuild_ok D hn np (globalBnd D np obb)) e _ ?_
  intro s hs
  refine ⟨?_, ?_⟩
  · intro p hp c hc
    rw [hs p hp]
    obtain ⟨l, l1, l2, l3⟩ := hb p hp c hc
    refine ⟨l, l1, l2, fun q => (l3 q).trans (and_congr_right fun hq => ?_)⟩
    unfold Touched
    exact exists_congr fun box => and_congr_right fun hbx => mem_cells_iff hhn (hfit q hq box hbx) (h q hq box hbx).2 _
  · intro x
    have hlt := hashIndex_lt hhn (globalBnd D np obb) x
    rw [w1] at hlt
    have hm : hashIndex hn (globalBnd D np obb) x % np < np := Nat.mod_lt _ hnp
    have hd : hashIndex hn (globalBnd D np obb) x / np < (hn ^ D - 1) / np + 1 := by
      have := Nat.div_le_div_right (c := np) (show hashIndex hn (globalBnd D np obb) x ≤ hn ^ D - 1 by omega)
      omega
    refine ⟨hm, hd, ?_⟩
    rintro q hq ⟨box, hbx, hx1, hx2⟩
    rw [hs _ hm]
    obtain ⟨l, l1, _, l3⟩ := hb _ hm _ hd
    refine ⟨l, l1, (l3 q).2 ⟨hq, box, hbx, ?_⟩⟩
    rw [Nat.mul_comm, Nat.div_add_mod]
    refine hashIndex_mem hhn (hfit q hq box hbx) hx1 ?_
    intro d b r y hb' hr hy
    obtain ⟨y1, y2⟩ := hx2 d r y hr hy
    exact ⟨y1, y2.le, Or.inl y2⟩

/-- different cells are kept at different places: process `h % np`, position `h / np` determine `h` -/
theorem global_cell_injective {np h h' : Nat} (h1 : h % np = h' % np) (h2 : h / np = h' / np) : h = h' := by
  rw [← Nat.div_add_mod h np, ← Nat.div_add_mod h' np, h1, h2]

/-! ### example: 3 processes, elements in the plane; the third process has none -/

/-- process 0: `[0,1]×[0,1]` and `[1,2]×[0,1]`; process 1: `[0,2]×[1,2]`; process 2: nothing -/
def exGObb (q : Nat) : List (List (Range Rat)) :=
  if q = 0 then [[⟨0, 1⟩, ⟨0, 1⟩], [⟨1, 2⟩, ⟨0, 1⟩]] else if q = 1 then [[⟨0, 2⟩, ⟨1, 2⟩]] else []

theorem exGObb_proper : ∀ q, q < 3 → ProperBoxes 2 (exGObb q) := by
  intro q hq
  match q, hq with
  | 0, _ => intro b hb; simp only [exGObb, if_true, List.mem_cons, List.not_mem_nil, or_false] at hb; rcases hb with rfl | rfl <;> simp
  | 1, _ => intro b hb; simp [exGObb] at hb; rcases hb with rfl; simp
  | 2, _ => intro b hb; simp [exGObb] at hb

example (s0 : Nat → HbSt Rat) (h0 : ∀ q, q < 3 → (s0 q).obb = exGObb q) :=
  global_hash_table (D := 2) (np := 3) (hn := 2) (by decide) (by decide) (by decide) exGObb_proper (by decide) (by decide +kernel) s0 h0

end Gslib.Props
