import Verif.Spec.DynArray
import Mathlib.Tactic.Ring
import Mathlib.Tactic.Linarith

/-! # C30, C31: growing arrays and alignment -/

namespace Gslib.Props
open Gslib Gslib.DynArray Gslib.Spec

theorem wrap_lt {n : Nat} (h : n < sizeMod) : wrap n = n := Nat.mod_eq_of_lt h

theorem growTo_bounds {max min : Nat} (h : max < min) (hb : 3 * min < 2 * sizeMod) :
    min ≤ growTo max min ∧ 3 * max + 1 ≤ 2 * growTo max min ∧ 2 * growTo max min ≤ 3 * min := by
  unfold growTo sizeMod at *
  rw [wrap_lt (by unfold sizeMod; omega)]
  simp only
  split <;> omega

/-- what one successful call of `array_reserve` guarantees -/
structure Reserved (a a' : Arr) (min size : Nat) : Prop where
  enough : min ≤ a'.max
  grows : a.max ≤ a'.max
  same : a'.n = a.n
  block : a'.block.length = a'.max * size
  prefix_ : a'.block.take (a.max * size) = a.block
  small : 2 * a'.max ≤ max (2 * a.max) (3 * min)
  moved : a'.max ≠ a.max → 3 * (a.max + 1) ≤ 2 * (a'.max + 1)

theorem reserve_aux (avail : Nat → Bool) (a : Arr) (min size : Nat) (hs : 0 < size) (hb : a.block.length = a.max * size)
    (hov : 3 * (min * size) < 2 * sizeMod) :
    (∃ a', arrayReserve avail a min size = .ok a' ∧ Reserved a a' min size) ∨
      (arrayReserve avail a min size = .abort ∧ ∃ k, avail k = false) := by
  unfold arrayReserve
  have hmm : min ≤ min * size := Nat.le_mul_of_pos_right _ hs
  by_cases h : a.max < min
  · rw [if_pos h]
    obtain ⟨h1, h2, h3⟩ := growTo_bounds h (by omega)
    generalize growTo a.max min = g at *
    have hg : g * size < sizeMod := by nlinarith
    unfold arrayResize
    rw [wrap_lt hg]
    by_cases hav : avail (g * size) = true
    · rw [if_pos (Or.inl hav)]
      left
      refine ⟨_, rfl, ⟨h1, by simp only; omega, rfl, ?_, ?_, ?_, ?_⟩⟩
      · have hle : a.max * size ≤ g * size := Nat.mul_le_mul_right _ (by omega)
        simp only [reallocBlock, List.length_append, List.length_take, List.length_replicate, hb]
        omega
      · have hle : a.max * size ≤ g * size := Nat.mul_le_mul_right _ (by omega)
        simp only [reallocBlock]
        rw [List.take_of_length_le (l := a.block) (by omega), List.take_append_of_le_length (by omega), List.take_of_length_le (by omega)]
      · exact le_trans h3 (Nat.le_max_right _ _)
      · intro _; simp only; omega
    · right
      have hpos : g * size ≠ 0 := Nat.mul_ne_zero (by omega) (by omega)
      rw [if_neg (by simp [hav, hpos])]
      exact ⟨rfl, _, by simpa using hav⟩
  · rw [if_neg h]
    left
    exact ⟨a, rfl, ⟨by omega, le_refl _, rfl, hb, by rw [List.take_of_length_le (by omega)], Nat.le_max_left _ _, fun h => absurd rfl h⟩⟩

/-- **C30 (one call)** `array_reserve(T,a,min)`: unless memory runs out, afterwards `max ≥ min`, the capacity has not shrunk, the
row count is unchanged, the block really has `max*size` bytes and starts with the old contents. Requires `1.5*min*size` to
fit in `size_t`. -/
theorem array_reserve_sufficient (avail : Nat → Bool) (a : Arr) (min size : Nat) (hs : 0 < size)
    (hb : a.block.length = a.max * size) (hov : 3 * (min * size) < 2 * sizeMod) :
    (∃ a', arrayReserve avail a min size = .ok a' ∧ min ≤ a'.max ∧ a.max ≤ a'.max ∧ a'.n = a.n ∧
      a'.block.length = a'.max * size ∧ a'.block.take (a.max * size) = a.block) ∨
    (arrayReserve avail a min size = .abort ∧ ∃ k, avail k = false) := by
  rcases reserve_aux avail a min size hs hb hov with ⟨a', h, r⟩ | h
  · exact Or.inl ⟨a', h, r.enough, r.grows, r.same, r.block, r.prefix_⟩
  · exact Or.inr h

example : arrayReserve (fun _ => true) ⟨[some 1, some 2], 1, 1⟩ 2 2 = .ok ⟨[some 1, some 2, none, none], 1, 2⟩ := by decide

theorem holds_of_reserved {size : Nat} {a a' : Arr} {min : Nat} {bytes : List UInt8} (h : Holds size a bytes)
    (r : Reserved a a' min size) : Holds size a' bytes := by
  have hle : a.n * size ≤ a.max * size := Nat.mul_le_mul_right _ h.fits
  refine ⟨r.block, by rw [r.same]; exact le_trans h.fits r.grows, by rw [r.same]; exact h.rows, ?_⟩
  rw [r.same, ← h.contents, ← r.prefix_, List.take_take, Nat.min_eq_left hle]

theorem cat_aux (avail : Nat → Bool) (size : Nat) (a : Arr) (bytes s : List UInt8) (n : Nat) (hs : 0 < size)
    (h : Holds size a bytes) (hn : s.length = n * size) (hov : 3 * ((a.n + n) * size) < 2 * sizeMod) :
    (∃ a', arrayCat avail size a s n = .ok a' ∧ Holds size a' (bytes ++ s) ∧ a'.n = a.n + n ∧
      ∃ r, Reserved a r (a.n + n) size ∧ a'.max = r.max) ∨
    (arrayCat avail size a s n = .abort ∧ ∃ k, avail k = false) := by
  have hmm : a.n + n ≤ (a.n + n) * size := Nat.le_mul_of_pos_right _ hs
  have hsp : (a.n + n) * size = a.n * size + n * size := Nat.add_mul _ _ _
  unfold arrayCat
  rw [wrap_lt (by unfold sizeMod at *; omega)]
  rcases reserve_aux avail a (a.n + n) size hs h.block hov with ⟨a', e, r⟩ | ⟨e, k⟩
  · left
    rw [e]
    have h' := holds_of_reserved h r
    have hle : (a.n + n) * size ≤ a'.max * size := Nat.mul_le_mul_right _ r.enough
    have hlen := r.block
    simp only [Outcome.bind, r.same]
    rw [wrap_lt (show n * size < sizeMod by unfold sizeMod at *; omega),
      wrap_lt (show a.n * size < sizeMod by unfold sizeMod at *; omega),
      wrap_lt (show a.n + n < sizeMod by unfold sizeMod at *; omega), if_neg (by omega), List.take_of_length_le (by omega)]
    unfold memcpyAt
    rw [if_pos (by omega)]
    refine ⟨_, rfl, ⟨?_, ?_, ?_, ?_⟩, rfl, a', r, rfl⟩
    · simp only [List.length_append, List.length_take, List.length_map, List.length_drop]
      omega
    · exact r.enough
    · simp only [List.length_append, h.rows, hn, hsp]
    · have hc := h'.contents
      rw [r.same] at hc
      simp only [hsp]
      rw [hc, List.take_append_of_le_length (by simp [h.rows, hn]), List.take_of_length_le (by simp [h.rows, hn]), List.map_append]
  · right
    rw [e]
    exact ⟨rfl, k⟩

theorem demand_ge (os : List Op) : ∀ n, n ≤ demand n os := by
  induction os with
  | nil => intro n; exact le_refl _
  | cons o os ih =>
    intro n
    cases o with
    | reserve m => exact le_trans (ih n) (Nat.le_max_right _ _)
    | cat s k => exact le_trans (Nat.le_add_right _ _) (Nat.le_max_left _ _)

theorem history_aux (avail : Nat → Bool) (size : Nat) (hs : 0 < size) : ∀ (os : List Op) (a : Arr) (bytes : List UInt8),
    WellSized size os → Holds size a bytes → 3 * (demand a.n os * size) < 2 * sizeMod →
    (∃ a', runOps avail size os a = .ok a' ∧ Holds size a' (bytes ++ appended os) ∧ a.max ≤ a'.max ∧
      2 * a'.max ≤ max (2 * a.max) (3 * demand a.n os) ∧
      (moves avail size os a).2 + 2 * a.max ≤ 2 * a'.max ∧
      3 ^ (moves avail size os a).1 * (a.max + 1) ≤ 2 ^ (moves avail size os a).1 * (a'.max + 1)) ∨
    (runOps avail size os a = .abort ∧ ∃ k, avail k = false)
  | [], a, bytes, _, h, _ => by
    left
    exact ⟨a, rfl, by simpa [appended] using h, le_refl _, Nat.le_max_left _ _, by simp [moves], by simp [moves]⟩
  | o :: os, a, bytes, hw, h, hov => by
    have hw' : WellSized size os := fun s n hm => hw s n (List.mem_cons_of_mem _ hm)
    -- one call, uniformly
    have step : ∀ (n' : Nat) (new : List UInt8) (lim : Nat), (∀ r, Op.run avail size a o = r → (∃ a', r = .ok a' ∧ Holds size a' (bytes ++ new) ∧
        a'.n = n' ∧ ∃ r, Reserved a r lim size ∧ a'.max = r.max) ∨ (r = .abort ∧ ∃ k, avail k = false)) →
        appended (o :: os) = new ++ appended os → demand a.n (o :: os) = max lim (demand n' os) →
        (∃ a', runOps avail size (o :: os) a = .ok a' ∧ Holds size a' (bytes ++ appended (o :: os)) ∧ a.max ≤ a'.max ∧
          2 * a'.max ≤ max (2 * a.max) (3 * demand a.n (o :: os)) ∧
          (moves avail size (o :: os) a).2 + 2 * a.max ≤ 2 * a'.max ∧
          3 ^ (moves avail size (o :: os) a).1 * (a.max + 1) ≤ 2 ^ (moves avail size (o :: os) a).1 * (a'.max + 1)) ∨
        (runOps avail size (o :: os) a = .abort ∧ ∃ k, avail k = false) := by
      intro n' new lim hrun happ hdem
      rcases hrun _ rfl with ⟨a1, e1, h1, hn1, r, hr, hmax⟩ | ⟨e1, k⟩
      · have hov' : 3 * (demand a1.n os * size) < 2 * sizeMod := by
          have : demand a1.n os ≤ demand a.n (o :: os) := by rw [hdem, hn1]; exact Nat.le_max_right _ _
          have := Nat.mul_le_mul_right size this
          omega
        rcases history_aux avail size hs os a1 _ hw' h1 hov' with ⟨a2, e2, h2, hg, hsm, hmv, hpow⟩ | ⟨e2, k⟩
        · left
          refine ⟨a2, ?_, ?_, ?_, ?_, ?_, ?_⟩
          · simp only [runOps, e1, Outcome.bind, e2]
          · rw [happ, ← List.append_assoc]; exact h2
          · exact le_trans (by rw [hmax]; exact hr.grows) hg
          · have := hr.small
            rw [hmax] at hsm
            rw [hdem]
            rw [hn1] at hsm
            omega
          · simp only [moves, e1]
            by_cases c : a1.max = a.max
            · rw [if_pos c, ← c]; exact hmv
            · rw [if_neg c]
              have := hr.moved (by rw [← hmax]; exact c)
              rw [← hmax] at this
              simp only
              omega
          · simp only [moves, e1]
            by_cases c : a1.max = a.max
            · rw [if_pos c, ← c]; exact hpow
            · rw [if_neg c]
              have := hr.moved (by rw [← hmax]; exact c)
              rw [← hmax] at this
              simp only [pow_succ]
              generalize 3 ^ (moves avail size os a1).1 = x at *
              generalize 2 ^ (moves avail size os a1).1 = y at *
              calc x * 3 * (a.max + 1) = x * (3 * (a.max + 1)) := by ring
                _ ≤ x * (2 * (a1.max + 1)) := Nat.mul_le_mul_left _ this
                _ = 2 * (x * (a1.max + 1)) := by ring
                _ ≤ 2 * (y * (a2.max + 1)) := Nat.mul_le_mul_left _ hpow
                _ = y * 2 * (a2.max + 1) := by ring
        · right
          exact ⟨by simp only [runOps, e1, Outcome.bind, e2], k⟩
      · right
        exact ⟨by simp only [runOps, e1, Outcome.bind], k⟩
    cases o with
    | reserve m =>
      refine step a.n [] m ?_ rfl rfl
      intro r hr
      have hm : 3 * (m * size) < 2 * sizeMod := by
        have : m ≤ demand a.n (.reserve m :: os) := Nat.le_max_left _ _
        have := Nat.mul_le_mul_right size this
        omega
      rcases reserve_aux avail a m size hs h.block hm with ⟨a', e, rr⟩ | h'
      · left
        exact ⟨a', by rw [← hr]; exact e, by rw [List.append_nil]; exact holds_of_reserved h rr, rr.same, a', rr, rfl⟩
      · right; rw [← hr]; exact h'
    | cat s k =>
      refine step (a.n + k) s (a.n + k) ?_ rfl rfl
      intro r hr
      have hm : 3 * ((a.n + k) * size) < 2 * sizeMod := by
        have : a.n + k ≤ demand a.n (.cat s k :: os) := Nat.le_max_left _ _
        have := Nat.mul_le_mul_right size this
        omega
      rcases cat_aux avail size a bytes s k hs h (hw s k (by simp)) hm with h' | h'
      · left; rw [← hr]; exact h'
      · right; rw [← hr]; exact h'

/-- **C30 (any history)** Any sequence of `array_reserve`/`array_cat` calls on an array holding `bytes` behaves as list append:
it never has undefined behaviour, and unless an allocation fails the array then holds `bytes` followed by all appended rows. The
capacity is at most 1.5 times the largest demand (or the initial one); all reallocations together moved at most twice
the final capacity, and their number is logarithmic in it. -/
theorem array_history (avail : Nat → Bool) (size : Nat) (hs : 0 < size) (os : List Op) (a : Arr) (bytes : List UInt8)
    (hw : WellSized size os) (h : Holds size a bytes) (hov : 3 * (demand a.n os * size) < 2 * sizeMod) :
    (∃ a', runOps avail size os a = .ok a' ∧ Holds size a' (bytes ++ appended os) ∧
      2 * a'.max ≤ max (2 * a.max) (3 * demand a.n os) ∧
      (moves avail size os a).2 ≤ 2 * a'.max ∧
      3 ^ (moves avail size os a).1 ≤ 2 ^ (moves avail size os a).1 * (a'.max + 1)) ∨
    (runOps avail size os a = .abort ∧ ∃ k, avail k = false) := by
  rcases history_aux avail size hs os a bytes hw h hov with ⟨a', e, h1, _, h2, h3, h4⟩ | h'
  · exact Or.inl ⟨a', e, h1, h2, by omega, le_trans (Nat.le_mul_of_pos_right _ (by omega)) h4⟩
  · exact Or.inr h'

/-- the initial states of histories: `null_array` and `array_init` -/
theorem array_initial (avail : Nat → Bool) (max size : Nat) (hov : max * size < sizeMod) :
    Holds size nullArray [] ∧ ∀ a, arrayInit avail max size = .ok a → Holds size a [] := by
  refine ⟨⟨by simp [nullArray], le_refl _, by simp [nullArray], by simp [nullArray]⟩, ?_⟩
  intro a ha
  unfold arrayInit at ha
  rw [wrap_lt hov] at ha
  split at ha
  · cases ha
    exact ⟨by simp, by simp, by simp, by simp⟩
  · cases ha

example : runOps (fun _ => true) 2 [.cat [1, 2] 1, .reserve 1, .cat [3, 4, 5, 6] 2] nullArray =
    .ok ⟨[some 1, some 2, some 3, some 4, some 5, some 6], 3, 3⟩ := by decide

example : WellSized 2 [.cat [1, 2] 1, .reserve 1, .cat [3, 4, 5, 6] 2] ∧ 3 * (demand 0 [.cat [1, 2] 1, .reserve 1, .cat [3, 4, 5, 6] 2] * 2) < 2 * sizeMod := by
  refine ⟨?_, by decide⟩
  intro s n h
  simp at h
  rcases h with ⟨rfl, rfl⟩ | ⟨rfl, rfl⟩ <;> rfl

/-- The bound on the demand is needed: when `max*size` passes `2^64` the product wraps silently, so that the capacity recorded
in the array is larger than the block. Here `array_reserve` for `2^60` rows of 16 bytes gives an empty block, and the
following write of one row is out of bounds. -/
theorem array_reserve_wraps_silently :
    arrayReserve (fun _ => true) nullArray 1152921504606846976 16 = .ok ⟨[], 0, 1152921504606846976⟩ ∧
    runOps (fun _ => true) 16 [.reserve 1152921504606846976, .cat (List.replicate 16 0) 1] nullArray = .ub := by
  decide

/-- **C31** `align_as(T,n)` is the least multiple of the alignment that is at least `n`. -/
theorem align_as_least (a n : Nat) (ha : 0 < a) (h : n + a < sizeMod) :
    a ∣ alignAs a n ∧ n ≤ alignAs a n ∧ ∀ m, a ∣ m → n ≤ m → alignAs a n ≤ m := by
  have e : alignAs a n = (n + a - 1) / a * a := by
    unfold alignAs
    rw [wrap_lt h]
    have h1 : wrap (n + a + (sizeMod - 1)) = n + a - 1 := by
      unfold wrap
      rw [show n + a + (sizeMod - 1) = (n + a - 1) + sizeMod by unfold sizeMod; omega, Nat.add_mod_right]
      exact Nat.mod_eq_of_lt (by omega)
    rw [h1]
    exact wrap_lt (lt_of_le_of_lt (Nat.div_mul_le_self _ _) (by omega))
  rw [e]
  have hd := Nat.div_add_mod (n + a - 1) a
  have hm := Nat.mod_lt (n + a - 1) ha
  rw [Nat.mul_comm] at hd
  refine ⟨Nat.dvd_mul_left _ _, by omega, ?_⟩
  rintro m ⟨k, rfl⟩ hk
  rw [Nat.mul_comm a k]
  refine Nat.mul_le_mul_right _ ?_
  refine Nat.lt_succ_iff.1 ?_
  rw [Nat.div_lt_iff_lt_mul ha]
  have : (k + 1) * a = a * k + a := by ring
  simp only [Nat.succ_eq_add_one]
  omega

/-- **C31 (layout)** Two objects placed one after the other with `align_ptr` are aligned (relative to the base) and disjoint. -/
theorem align_layout_disjoint (a1 a2 off len1 : Nat) (h1 : 0 < a1) (h2 : 0 < a2)
    (hs1 : off + a1 < sizeMod) (hs2 : alignAs a1 off + len1 + a2 < sizeMod) :
    a1 ∣ alignAs a1 off ∧ a2 ∣ alignAs a2 (alignAs a1 off + len1) ∧ off ≤ alignAs a1 off ∧
      alignAs a1 off + len1 ≤ alignAs a2 (alignAs a1 off + len1) ∧ alignAs a2 (alignAs a1 off + len1) < alignAs a1 off + len1 + a2 := by
  obtain ⟨d1, g1, _⟩ := align_as_least a1 off h1 hs1
  obtain ⟨d2, g2, l2⟩ := align_as_least a2 _ h2 hs2
  refine ⟨d1, d2, g1, g2, ?_⟩
  generalize alignAs a1 off + len1 = n at *
  have hd := Nat.div_add_mod (n + a2 - 1) a2
  have hm := Nat.mod_lt (n + a2 - 1) h2
  have := l2 (a2 * ((n + a2 - 1) / a2)) (Nat.dvd_mul_right _ _) (by omega)
  omega

example : alignAs 8 13 = 16 ∧ alignAs 8 16 = 16 ∧ alignAs 1 7 = 7 := by decide

end Gslib.Props
