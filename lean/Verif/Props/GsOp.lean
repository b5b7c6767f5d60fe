import Verif.Lemmas.GsOp
import Mathlib.Algebra.Order.Ring.Rat

/-!
# Property C19: the reduction operations

Specification: `Verif/Spec/GsOp.lean`. Model: `Verif/Model/GsOp.lean` (gs_defs.h).
-/

namespace Gslib.Props
open Gslib Gslib.Spec Gslib.Gs

/-- **C19**: on the integer domain of every width `w`, each operation (`bpr` when the domain is as wide as
`uint`) is an associative and commutative operation on all values, and `gs_identity` is its identity -/
theorem gs_op_commutative_monoid (w : Nat) (op : Op) :
    CommMonoidOn (fun _ => True) ((intDom w w).doOp op) ((intDom w w).identity op) := by
  cases op with
  | add => exact ⟨fun _ _ _ _ => trivial, trivial, fun a b c _ _ _ => BitVec.add_assoc a b c, fun a b _ _ => BitVec.add_comm a b,
      fun a _ => BitVec.zero_add a, fun a _ => BitVec.add_zero a⟩
  | mul => exact ⟨fun _ _ _ _ => trivial, trivial, fun a b c _ _ _ => BitVec.mul_assoc a b c, fun a b _ _ => BitVec.mul_comm a b,
      fun a _ => BitVec.one_mul a, fun a _ => BitVec.mul_one a⟩
  | min => exact intMin_monoid w w
  | max => exact intMax_monoid w w
  | bpr => exact bpr_monoid w

/-- the operations other than `bpr` do not depend on the width of `uint` -/
theorem gs_op_commutative_monoid_any_uint (u w : Nat) (op : Op) (h : op ≠ .bpr) :
    CommMonoidOn (fun _ => True) ((intDom u w).doOp op) ((intDom u w).identity op) := by
  have e1 : (intDom u w).doOp op = (intDom w w).doOp op := by cases op <;> first | rfl | exact absurd rfl h
  have e2 : (intDom u w).identity op = (intDom w w).identity op := by cases op <;> rfl
  rw [e1, e2]
  exact gs_op_commutative_monoid w op

/-- what `bpr` computes: the longest common binary prefix (of nonzero values) -/
theorem gs_bpr_is_common_prefix (w : Nat) (a b : BitVec w) (ha : a ≠ 0) (hb : b ≠ 0) :
    let r := ((intDom w w).doOp .bpr a b).toNat
    BinPrefix r a.toNat ∧ BinPrefix r b.toNat ∧ r ≠ 0 ∧ ∀ n, BinPrefix n a.toNat → BinPrefix n b.toNat → BinPrefix n r ∧ n ≤ r := by
  have h0 : ∀ x : BitVec w, x ≠ 0 → x.toNat ≠ 0 := fun x h c => h (BitVec.eq_of_toNat_eq (by simpa using c))
  have e : ((intDom w w).doOp .bpr a b).toNat = bprLoop a.toNat b.toNat := by
    show (doBpr w a b).toNat = _
    rw [bpr_toNat, bprNat, if_pos (h0 b hb), if_neg (h0 a ha)]
  simp only [e]
  obtain ⟨h1, h2⟩ := (bprLoop_prefix a.toNat b.toNat _).1 (binPrefix_refl _)
  refine ⟨h1, h2, bprLoop_pos (h0 a ha) (h0 b hb), fun n hna hnb => ?_⟩
  have := (bprLoop_prefix a.toNat b.toNat n).2 ⟨hna, hnb⟩
  exact ⟨this, binPrefix_le this⟩

example : (intDom 32 32).doOp .bpr 0b10110#32 0b101#32 = 0b101#32 := by decide +kernel

/-- **finding**: on a domain wider than `uint` (`long` with the default 32-bit `uint`), `bpr` drops the high bits: `0` is
not an identity, the operation is not associative, and a value combined with itself changes -/
theorem gs_bpr_truncates_wide_domains :
    (intDom 32 64).doOp .bpr 0 0x100000000#64 = 0 ∧ (intDom 32 64).identity .bpr = 0 ∧
    ((intDom 32 64).doOp .bpr ((intDom 32 64).doOp .bpr 0x100000001#64 0x100000001#64) 3 ≠
      (intDom 32 64).doOp .bpr 0x100000001#64 3 ∨
     (intDom 32 64).doOp .bpr 0x100000001#64 0x100000001#64 ≠ 0x100000001#64) ∧
    ¬ CommMonoidOn (fun _ => True) ((intDom 32 64).doOp .bpr) ((intDom 32 64).identity .bpr) := by
  refine ⟨by decide +kernel, rfl, by decide +kernel, fun h => ?_⟩
  exact absurd (h.idLeft 0x100000000#64 trivial) (by decide +kernel)

/-- on a wider domain the operation is still a commutative monoid on the values that fit `uint` -/
theorem gs_bpr_wide_domain (u w : Nat) (h : u < w) :
    CommMonoidOn (fun x : BitVec w => x.toNat < 2 ^ u) ((intDom u w).doOp .bpr) ((intDom u w).identity .bpr) := by
  have key : ∀ a b : BitVec w, a.toNat < 2 ^ u → b.toNat < 2 ^ u → (doBpr u a b).toNat = bprNat a.toNat b.toNat := by
    intro a b ha hb
    have hu : ∀ x : BitVec w, x.toNat < 2 ^ u → (x.signExtend u).toNat = x.toNat := by
      intro x hx
      rw [BitVec.signExtend_eq_setWidth_of_le _ (by omega), BitVec.toNat_setWidth, Nat.mod_eq_of_lt hx]
    have h0 : ∀ (m : Nat) (x : BitVec m), x = 0 ↔ x.toNat = 0 := fun m x => by rw [BitVec.toNat_eq]; simp
    have hle : (2 : Nat) ^ u ≤ 2 ^ w := Nat.pow_le_pow_right (by omega) (by omega)
    unfold doBpr bprNat
    simp only [h0, ne_eq, hu a ha, hu b hb]
    have := bprLoop_le_left a.toNat b.toNat
    split
    · split
      · rw [BitVec.toNat_setWidth, hu b hb, Nat.mod_eq_of_lt (by omega)]
      · rw [BitVec.toNat_setWidth, BitVec.toNat_ofNat, Nat.mod_eq_of_lt (a := bprLoop _ _) (by omega), Nat.mod_eq_of_lt (by omega)]
    · rfl
  have hc : ∀ a b : BitVec w, a.toNat < 2 ^ u → b.toNat < 2 ^ u → (doBpr u a b).toNat < 2 ^ u := fun a b ha hb => by
    rw [key a b ha hb]; exact bprNat_lt ha hb
  have hz : (0 : BitVec w).toNat < 2 ^ u := by simpa using Nat.two_pow_pos u
  refine ⟨hc, hz, ?_, ?_, ?_, ?_⟩
  · intro a b c ha hb hcc
    apply BitVec.eq_of_toNat_eq
    show (doBpr u (doBpr u a b) c).toNat = (doBpr u a (doBpr u b c)).toNat
    rw [key _ _ (hc a b ha hb) hcc, key _ _ ha (hc b c hb hcc), key _ _ ha hb, key _ _ hb hcc, bprNat_assoc]
  · intro a b ha hb
    apply BitVec.eq_of_toNat_eq
    show (doBpr u a b).toNat = (doBpr u b a).toNat
    rw [key _ _ ha hb, key _ _ hb ha, bprNat_comm]
  · intro a ha
    apply BitVec.eq_of_toNat_eq
    show (doBpr u 0 a).toNat = _
    rw [key _ _ hz ha, bprNat]
    by_cases c : a.toNat = 0 <;> simp [c]
  · intro a ha
    apply BitVec.eq_of_toNat_eq
    show (doBpr u a 0).toNat = _
    rw [key _ _ ha hz, bprNat]
    simp

example : (0x80000000#64).toNat < 2 ^ 32 := by decide

/-- the floating point domains in exact arithmetic: `add` and `mul` on all values, `min` and `max` on the values
between `-DBL_MAX` and `DBL_MAX` (infinities are not covered by the identities `±DBL_MAX`) -/
theorem gs_op_real (K : Type) [CommRing K] [LinearOrder K] [IsStrictOrderedRing K] (big : K) (toU : K → Nat) (ofU : Nat → K) :
    CommMonoidOn (fun _ => True) ((realDom big toU ofU).doOp .add) ((realDom big toU ofU).identity .add) ∧
    CommMonoidOn (fun _ => True) ((realDom big toU ofU).doOp .mul) ((realDom big toU ofU).identity .mul) ∧
    CommMonoidOn (fun x => x ≤ big) ((realDom big toU ofU).doOp .min) ((realDom big toU ofU).identity .min) ∧
    CommMonoidOn (fun x => -big ≤ x) ((realDom big toU ofU).doOp .max) ((realDom big toU ofU).identity .max) := by
  refine ⟨⟨fun _ _ _ _ => trivial, trivial, fun a b c _ _ _ => add_assoc a b c, fun a b _ _ => add_comm a b,
      fun a _ => zero_add a, fun a _ => add_zero a⟩, ⟨fun _ _ _ _ => trivial, trivial, fun a b c _ _ _ => mul_assoc a b c, fun a b _ _ => mul_comm a b,
      fun a _ => one_mul a, fun a _ => mul_one a⟩, min_monoid big, max_monoid (-big)⟩

/-- **finding**: a value above `DBL_MAX` (an infinity) combined with the identity of `min` is not returned -/
theorem gs_min_identity_needs_bound (K : Type) [CommRing K] [LinearOrder K] (big x : K) (toU : K → Nat) (ofU : Nat → K) (h : big < x) :
    (realDom big toU ofU).doOp .min ((realDom big toU ofU).identity .min) x ≠ x := by
  show (if x < big then x else big) ≠ x
  rw [if_neg (not_lt.2 h.le)]
  exact h.ne

example : (realDom (10 : ℚ) (fun _ => 0) (fun _ => 0)).doOp .min 3 2 = 2 := by decide +kernel

/-- the array kernels apply the operation entry by entry -/
theorem gs_gather_array_pointwise {T : Type} (D : Dom T) (op : Op) : ∀ (a b : List T), a.length = b.length →
    (gatherArray D op a b).length = a.length ∧ ∀ i (h : i < a.length) (h' : i < b.length) (h'' : i < (gatherArray D op a b).length),
      (gatherArray D op a b)[i] = D.doOp op a[i] b[i]
  | [], [], _ => ⟨rfl, fun i h => absurd h (by simp)⟩
  | x :: a, y :: b, h => by
    obtain ⟨h1, h2⟩ := gs_gather_array_pointwise D op a b (by simpa using h)
    refine ⟨by simp [gatherArray, h1], fun i hi hi' hi'' => ?_⟩
    cases i with
    | zero => rfl
    | succ i => simpa [gatherArray] using h2 i (by simpa using hi) (by simpa using hi') (by simpa [gatherArray] using hi'')

end Gslib.Props
