import Verif.Spec.ElFlags
import Mathlib.Tactic.IntervalCases

/-! # C47, C51 (bit masks): constraint flags and process masks -/

namespace Gslib.Props
open Gslib.El Gslib.Spec

/-- a property of the three states of a coordinate -/
theorem con_forall {p : Con → Prop} : (∀ c ∈ Con.all, p c) → ∀ c, p c := by
  intro h c; cases c <;> exact h _ (by decide)

/-- **C47 (2d)** For each of the 9 configurations: the number of constrained coordinates, the bin in `[0,8]` (bin 9 iff the
converged bit is set), for one constrained coordinate the edge number `2*dim+side` and the other dimension,
and for two the corner number `side r + 2*side s`. -/
theorem el2_flags (r s : Con) :
    (numConstrained2 (flags2 r s)).toNat = r.held + s.held ∧
    (binNoC2 (flags2 r s)).toNat = r.code + 3 * s.code ∧
    (bin2 (flags2 r s)).toNat = r.code + 3 * s.code ∧
    (bin2 (flags2 r s ||| 16)).toNat = 9 ∧
    (numConstrained2 (flags2 r s ||| 16)).toNat = r.held + s.held ∧
    (r ≠ .free → s = .free → (edgeIndex2 (flags2 r s)).toNat = 0 + r.side) ∧
    (r = .free → s ≠ .free → (edgeIndex2 (flags2 r s)).toNat = 2 + s.side) ∧
    (r ≠ .free → s ≠ .free → (pointIndex2 (flags2 r s)).toNat = r.side + 2 * s.side) := by
  cases r <;> cases s <;> decide

/-- **C47 (2d)** bins separate configurations -/
theorem el2_bin_injective (r s r' s' : Con) (h : bin2 (flags2 r s) = bin2 (flags2 r' s')) : r = r' ∧ s = s' := by
  revert h; cases r <;> cases s <;> cases r' <;> cases s' <;> decide

/-- **C47 (2d)** every edge, every corner and every bin is the image of exactly one configuration -/
theorem el2_index_surjective :
    (∀ e : Fin 4, ∃ r s, r.held + s.held = 1 ∧ (edgeIndex2 (flags2 r s)).toNat = e.val) ∧
    (∀ c : Fin 4, ∃ r s, r.held + s.held = 2 ∧ (pointIndex2 (flags2 r s)).toNat = c.val) ∧
    (∀ b : Fin 9, ∃ r s, (bin2 (flags2 r s)).toNat = b.val) ∧
    plus1mod2 0 = 1 ∧ plus1mod2 1 = 0 := by
  refine ⟨fun e => ?_, fun c => ?_, fun b => ?_, by decide, by decide⟩
  · match e with
    | 0 => exact ⟨.lo, .free, by decide⟩
    | 1 => exact ⟨.hi, .free, by decide⟩
    | 2 => exact ⟨.free, .lo, by decide⟩
    | 3 => exact ⟨.free, .hi, by decide⟩
  · match c with
    | 0 => exact ⟨.lo, .lo, by decide⟩
    | 1 => exact ⟨.hi, .lo, by decide⟩
    | 2 => exact ⟨.lo, .hi, by decide⟩
    | 3 => exact ⟨.hi, .hi, by decide⟩
  · match b with
    | 0 => exact ⟨.free, .free, by decide⟩
    | 1 => exact ⟨.lo, .free, by decide⟩
    | 2 => exact ⟨.hi, .free, by decide⟩
    | 3 => exact ⟨.free, .lo, by decide⟩
    | 4 => exact ⟨.lo, .lo, by decide⟩
    | 5 => exact ⟨.hi, .lo, by decide⟩
    | 6 => exact ⟨.free, .hi, by decide⟩
    | 7 => exact ⟨.lo, .hi, by decide⟩
    | 8 => exact ⟨.hi, .hi, by decide⟩

/-- **C47 (3d)** For each of the 27 configurations: number of constrained coordinates, bin in `[0,26]` (27 iff converged), face
number `2*dim+side`, edge number `4*free dim + side of next dim + 2*side of the one after` (cyclically), corner number. -/
theorem el3_flags (r s t : Con) :
    (numConstrained3 (flags3 r s t)).toNat = r.held + s.held + t.held ∧
    (binNoC3 (flags3 r s t)).toNat = r.code + 3 * s.code + 9 * t.code ∧
    (bin3 (flags3 r s t)).toNat = r.code + 3 * s.code + 9 * t.code ∧
    (bin3 (flags3 r s t ||| 64)).toNat = 27 ∧
    (numConstrained3 (flags3 r s t ||| 64)).toNat = r.held + s.held + t.held ∧
    (r ≠ .free → s = .free → t = .free → (faceIndex3 (flags3 r s t)).toNat = 0 + r.side) ∧
    (r = .free → s ≠ .free → t = .free → (faceIndex3 (flags3 r s t)).toNat = 2 + s.side) ∧
    (r = .free → s = .free → t ≠ .free → (faceIndex3 (flags3 r s t)).toNat = 4 + t.side) ∧
    (r = .free → s ≠ .free → t ≠ .free → (edgeIndex3 (flags3 r s t)).toNat = 0 + s.side + 2 * t.side) ∧
    (r ≠ .free → s = .free → t ≠ .free → (edgeIndex3 (flags3 r s t)).toNat = 4 + t.side + 2 * r.side) ∧
    (r ≠ .free → s ≠ .free → t = .free → (edgeIndex3 (flags3 r s t)).toNat = 8 + r.side + 2 * s.side) ∧
    (r ≠ .free → s ≠ .free → t ≠ .free → (pointIndex3 (flags3 r s t)).toNat = r.side + 2 * s.side + 4 * t.side) := by
  cases r <;> cases s <;> cases t <;> (refine ⟨?_, ?_, ?_, ?_, ?_, ?_, ?_, ?_, ?_, ?_, ?_, ?_⟩ <;> decide)

/-- **C47 (3d)** bins separate configurations -/
theorem el3_bin_injective (r s t r' s' t' : Con) (h : bin3 (flags3 r s t) = bin3 (flags3 r' s' t')) : r = r' ∧ s = s' ∧ t = t' := by
  have h1 := (el3_flags r s t).2.2.1
  have h2 := (el3_flags r' s' t').2.2.1
  rw [h, h2] at h1
  have hc : ∀ a b : Con, a.code = b.code → a = b := by intro a b; cases a <;> cases b <;> decide
  have hl : ∀ a : Con, a.code < 3 := by intro a; cases a <;> decide
  have := hl r; have := hl s; have := hl t; have := hl r'; have := hl s'; have := hl t'
  exact ⟨hc _ _ (by omega), hc _ _ (by omega), hc _ _ (by omega)⟩

/-- **C47 (3d)** every face, edge and corner is reached, and `plus_k_mod_3` adds modulo 3 -/
theorem el3_index_surjective :
    (∀ e : Fin 6, ∃ r s t, r.held + s.held + t.held = 1 ∧ (faceIndex3 (flags3 r s t)).toNat = e.val) ∧
    (∀ e : Fin 12, ∃ r s t, r.held + s.held + t.held = 2 ∧ (edgeIndex3 (flags3 r s t)).toNat = e.val) ∧
    (∀ e : Fin 8, ∃ r s t, r.held + s.held + t.held = 3 ∧ (pointIndex3 (flags3 r s t)).toNat = e.val) ∧
    (∀ d : Fin 3, (plus1mod3 (BitVec.ofNat 32 d.val)).toNat = (d.val + 1) % 3 ∧ (plus2mod3 (BitVec.ofNat 32 d.val)).toNat = (d.val + 2) % 3) := by
  refine ⟨fun e => ?_, fun e => ?_, fun e => ?_, by decide⟩
  · match e with
    | 0 => exact ⟨.lo, .free, .free, by decide⟩
    | 1 => exact ⟨.hi, .free, .free, by decide⟩
    | 2 => exact ⟨.free, .lo, .free, by decide⟩
    | 3 => exact ⟨.free, .hi, .free, by decide⟩
    | 4 => exact ⟨.free, .free, .lo, by decide⟩
    | 5 => exact ⟨.free, .free, .hi, by decide⟩
  · match e with
    | 0 => exact ⟨.free, .lo, .lo, by decide⟩
    | 1 => exact ⟨.free, .hi, .lo, by decide⟩
    | 2 => exact ⟨.free, .lo, .hi, by decide⟩
    | 3 => exact ⟨.free, .hi, .hi, by decide⟩
    | 4 => exact ⟨.lo, .free, .lo, by decide⟩
    | 5 => exact ⟨.lo, .free, .hi, by decide⟩
    | 6 => exact ⟨.hi, .free, .lo, by decide⟩
    | 7 => exact ⟨.hi, .free, .hi, by decide⟩
    | 8 => exact ⟨.lo, .lo, .free, by decide⟩
    | 9 => exact ⟨.hi, .lo, .free, by decide⟩
    | 10 => exact ⟨.lo, .hi, .free, by decide⟩
    | 11 => exact ⟨.hi, .hi, .free, by decide⟩
  · match e with
    | 0 => exact ⟨.lo, .lo, .lo, by decide⟩
    | 1 => exact ⟨.hi, .lo, .lo, by decide⟩
    | 2 => exact ⟨.lo, .hi, .lo, by decide⟩
    | 3 => exact ⟨.hi, .hi, .lo, by decide⟩
    | 4 => exact ⟨.lo, .lo, .hi, by decide⟩
    | 5 => exact ⟨.hi, .lo, .hi, by decide⟩
    | 6 => exact ⟨.lo, .hi, .hi, by decide⟩
    | 7 => exact ⟨.hi, .hi, .hi, by decide⟩


theorem byte_set_bit (b : Byte) (k j : Nat) (hk : k < 8) :
    ((b.setWidth 32 ||| (1 : U32) <<< k).setWidth 8).getLsbD j = (b.getLsbD j || (decide (j = k))) := by
  rw [BitVec.getLsbD_setWidth, BitVec.getLsbD_or, BitVec.getLsbD_setWidth, BitVec.getLsbD_shiftLeft]
  by_cases h : j < 8
  · interval_cases j <;> interval_cases k <;> simp
  · have hb : b.getLsbD j = false := BitVec.getLsbD_of_ge b j (by omega)
    have : j ≠ k := by omega
    simp [h, hb, this]

theorem byte_get_bit (b : Byte) (k : Nat) (hk : k < 8) : (((b.setWidth 32 : U32) >>> k) &&& 1) = BitVec.ofNat 32 (b.getLsbD k).toNat := by
  apply BitVec.eq_of_getLsbD_eq
  intro i hi
  rw [BitVec.getLsbD_and, BitVec.getLsbD_ushiftRight, BitVec.getLsbD_setWidth]
  cases i with
  | zero =>
    have : (k : Nat) < 32 := by omega
    cases h : b.getLsbD k <;> simp [h, this]
  | succ i =>
    cases h : b.getLsbD k <;> simp [BitVec.getLsbD_one]

/-- `get_bit` reads the bit -/
theorem get_bit_eq (p : List Byte) (i : Nat) : getBit p i = p[i / 8]?.map fun b => BitVec.ofNat 32 (b.getLsbD (i % 8)).toNat := by
  unfold getBit
  congr 1
  funext b
  exact byte_get_bit b (i % 8) (Nat.mod_lt _ (by omega))

/-- **C51 (set_bit/get_bit)** `set_bit(p,i)` inside the mask sets bit `i` and leaves every other bit, and the length, alone; outside
the mask it is out of bounds. -/
theorem set_bit_get_bit (p : List Byte) (i : Nat) :
    (i / 8 < p.length → ∃ p', setBit p i = some p' ∧ p'.length = p.length ∧ getBit p' i = some 1 ∧ ∀ j, j ≠ i → getBit p' j = getBit p j) ∧
    (p.length ≤ i / 8 → setBit p i = none) := by
  constructor
  · intro h
    unfold setBit
    rw [List.getElem?_eq_getElem h]
    refine ⟨_, rfl, by simp, ?_, ?_⟩
    · rw [get_bit_eq, List.getElem?_set_self h]
      simp only [Option.map_some, byte_set_bit _ _ _ (Nat.mod_lt i (show 0 < 8 by omega))]
      simp
    · intro j hj
      rw [get_bit_eq, get_bit_eq]
      by_cases hb : i / 8 = j / 8
      · rw [← hb, List.getElem?_set_self h, List.getElem?_eq_getElem h]
        simp only [Option.map_some, byte_set_bit _ _ _ (Nat.mod_lt i (show 0 < 8 by omega))]
        have : j % 8 ≠ i % 8 := by omega
        simp [this]
      · rw [List.getElem?_set_ne hb]
  · intro h
    unfold setBit
    rw [List.getElem?_eq_none h]

example : setBit [0, 0] 9 = some [0, 2] ∧ getBit [0, 2] 9 = some 1 ∧ getBit [0, 2] 8 = some 0 := by decide

theorem foldl_bits (b : Byte) : ∀ (l : List Nat) (s : U32), (∀ k ∈ l, k < 8) →
    l.foldl (fun sum bit => sum + (((b.setWidth 32 : U32) >>> bit) &&& 1)) s = s + BitVec.ofNat 32 (l.filter fun i => b.getLsbD i).length
  | [], s, _ => by simp
  | k :: l, s, h => by
    rw [List.foldl_cons, foldl_bits b l _ fun k hk => h k (by simp [hk]), byte_get_bit b k (h k (by simp)), List.filter_cons]
    cases b.getLsbD k
    · simp
    · simp only [Bool.toNat_true, if_true, List.length_cons]
      rw [BitVec.add_assoc, ← BitVec.ofNat_add, Nat.add_comm 1]

theorem byteBits_eq (b : Byte) : byteBits b = BitVec.ofNat 32 ((List.range 8).filter fun i => b.getLsbD i).length := by
  unfold byteBits
  rw [foldl_bits b _ _ fun k hk => List.mem_range.1 hk]
  simp

theorem bitCount_cons (b : Byte) (p : List Byte) (n : Nat) :
    bitCount (b :: p) (8 * (n + 1)) = ((List.range 8).filter fun i => b.getLsbD i).length + bitCount p (8 * n) := by
  unfold bitCount
  rw [show 8 * (n + 1) = 8 + 8 * n by omega, List.range_add, List.filter_append, List.length_append, List.filter_map, List.length_map]
  congr 1
  · congr 1
    apply List.filter_congr
    intro i hi
    have : i < 8 := List.mem_range.1 hi
    simp [Nat.div_eq_of_lt this, Nat.mod_eq_of_lt this]
  · congr 1
    apply List.filter_congr
    intro i _
    simp only [Function.comp_apply, show (8 + i) / 8 = i / 8 + 1 by omega, show (8 + i) % 8 = i % 8 by omega, List.getElem?_cons_succ]

theorem countBits_aux : ∀ (n : Nat) (p : List Byte) (sum : U32), n ≤ p.length →
    countBits p n sum = some (sum + BitVec.ofNat 32 (bitCount p (8 * n)))
  | 0, p, sum, _ => by simp [countBits, bitCount]
  | n + 1, [], _, h => by simp at h
  | n + 1, b :: p, sum, h => by
    rw [countBits, countBits_aux n p _ (by simpa using h), bitCount_cons, byteBits_eq, BitVec.ofNat_add, BitVec.add_assoc]

/-- **C51 (count_bits)** `count_bits(p,n)` is the number of set bits among the first `n` bytes (as long as it fits in `uint`). -/
theorem count_bits_eq (p : List Byte) (n : Nat) (h : n ≤ p.length) (hn : 8 * n < 2 ^ 32) :
    ∃ c, countBits p n 0 = some c ∧ c.toNat = bitCount p (8 * n) := by
  refine ⟨_, countBits_aux n p 0 h, ?_⟩
  change (0#32 + BitVec.ofNat 32 (bitCount p (8 * n))).toNat = _
  rw [BitVec.zero_add, BitVec.toNat_ofNat]
  refine Nat.mod_eq_of_lt (Nat.lt_of_le_of_lt ?_ hn)
  unfold bitCount
  exact Nat.le_trans (List.length_filter_le _ _) (by simp)

example : countBits [5, 255, 0] 3 0 = some 10 := by decide

end Gslib.Props
