import Verif.Model.GsOp
import Verif.Spec.GsOp
import Mathlib.Order.Lattice
import Mathlib.Order.Basic
import Mathlib.Algebra.Ring.Basic
import Mathlib.Algebra.Order.Ring.Int
import Mathlib.Tactic.Ring

namespace Gslib.Gs
open Gslib.Spec

theorem binPrefix_refl (a : Nat) : BinPrefix a a := ⟨0, rfl⟩
theorem binPrefix_le {n a : Nat} (h : BinPrefix n a) : n ≤ a := by
  obtain ⟨i, rfl⟩ := h
  rw [Nat.shiftRight_eq_div_pow]; exact Nat.div_le_self _ _
theorem binPrefix_half {n a : Nat} (h : BinPrefix n (a >>> 1)) : BinPrefix n a := by
  obtain ⟨i, rfl⟩ := h
  exact ⟨1 + i, by rw [Nat.shiftRight_add]⟩
theorem binPrefix_half_of_ne {n a : Nat} (h : BinPrefix n a) (hn : n ≠ a) : BinPrefix n (a >>> 1) := by
  obtain ⟨i, rfl⟩ := h
  cases i with
  | zero => exact absurd rfl hn
  | succ i => exact ⟨i, by rw [Nat.add_comm, Nat.shiftRight_add]⟩
theorem binPrefix_trans {a b c : Nat} (h : BinPrefix a b) (h' : BinPrefix b c) : BinPrefix a c := by
  obtain ⟨i, rfl⟩ := h
  obtain ⟨j, rfl⟩ := h'
  exact ⟨j + i, by rw [Nat.shiftRight_add]⟩

theorem bprLoop_prefix (a b n : Nat) : BinPrefix n (bprLoop a b) ↔ BinPrefix n a ∧ BinPrefix n b := by
  fun_induction bprLoop a b with
  | case1 a b h ih =>
    rw [ih]
    constructor
    · rintro ⟨h1, h2⟩; exact ⟨h1, binPrefix_half h2⟩
    · rintro ⟨h1, h2⟩
      refine ⟨h1, binPrefix_half_of_ne h2 ?_⟩
      have := binPrefix_le h1; omega
  | case2 a b h h' ih =>
    rw [ih]
    constructor
    · rintro ⟨h1, h2⟩; exact ⟨binPrefix_half h1, h2⟩
    · rintro ⟨h1, h2⟩
      refine ⟨binPrefix_half_of_ne h1 ?_, h2⟩
      have := binPrefix_le h2; omega
  | case3 a b h h' =>
    have : a = b := by omega
    subst this; simp

theorem eq_of_prefix {a b : Nat} (h : ∀ n, BinPrefix n a ↔ BinPrefix n b) : a = b :=
  Nat.le_antisymm (binPrefix_le ((h a).1 (binPrefix_refl a))) (binPrefix_le ((h b).2 (binPrefix_refl b)))

theorem bprLoop_comm (a b : Nat) : bprLoop a b = bprLoop b a :=
  eq_of_prefix fun n => by rw [bprLoop_prefix, bprLoop_prefix, and_comm]
theorem bprLoop_assoc (a b c : Nat) : bprLoop (bprLoop a b) c = bprLoop a (bprLoop b c) :=
  eq_of_prefix fun n => by simp only [bprLoop_prefix, and_assoc]
theorem bprLoop_le_left (a b : Nat) : bprLoop a b ≤ a :=
  binPrefix_le ((bprLoop_prefix a b _).1 (binPrefix_refl _)).1
theorem bprLoop_pos {a b : Nat} (ha : a ≠ 0) (hb : b ≠ 0) : bprLoop a b ≠ 0 := by
  have one : ∀ a, a ≠ 0 → BinPrefix 1 a := by
    intro a ha
    refine ⟨Nat.log2 a, ?_⟩
    rw [Nat.shiftRight_eq_div_pow]
    symm
    rw [Nat.div_eq_iff (Nat.two_pow_pos _)]
    have := Nat.lt_log2_self (n := a)
    have := Nat.log2_self_le ha
    rw [Nat.pow_succ] at *
    omega
  have := binPrefix_le ((bprLoop_prefix a b 1).2 ⟨one a ha, one b hb⟩)
  omega

/-- the operation on natural numbers -/
def bprNat (a b : Nat) : Nat := if b ≠ 0 then (if a = 0 then b else bprLoop a b) else a

theorem bprNat_comm (a b : Nat) : bprNat a b = bprNat b a := by
  unfold bprNat
  by_cases ha : a = 0 <;> by_cases hb : b = 0 <;> simp [ha, hb, bprLoop_comm a b]

theorem bprNat_assoc (a b c : Nat) : bprNat (bprNat a b) c = bprNat a (bprNat b c) := by
  unfold bprNat
  by_cases ha : a = 0 <;> by_cases hb : b = 0 <;> by_cases hc : c = 0 <;>
    simp [ha, hb, hc, bprLoop_assoc, bprLoop_pos]

theorem bprNat_lt {a b m : Nat} (ha : a < m) (hb : b < m) : bprNat a b < m := by
  unfold bprNat
  have := bprLoop_le_left a b
  split
  · split <;> omega
  · exact ha

theorem doBpr_same {w : Nat} (a b : BitVec w) : doBpr w a b = BitVec.ofNat w (bprNat a.toNat b.toNat) := by
  unfold doBpr bprNat
  have h0 : ∀ x : BitVec w, x = 0 ↔ x.toNat = 0 := fun x => by rw [BitVec.toNat_eq]; simp
  simp only [BitVec.signExtend_eq, BitVec.setWidth_eq, h0, ne_eq]
  split
  · split
    · simp
    · rfl
  · simp

theorem bpr_toNat {w : Nat} (a b : BitVec w) : (doBpr w a b).toNat = bprNat a.toNat b.toNat := by
  rw [doBpr_same, BitVec.toNat_ofNat, Nat.mod_eq_of_lt (bprNat_lt a.isLt b.isLt)]

theorem bpr_monoid (w : Nat) : CommMonoidOn (fun _ => True) (doBpr w (w := w)) 0 where
  closed _ _ _ _ := trivial
  okId := trivial
  assoc a b c _ _ _ := by apply BitVec.eq_of_toNat_eq; simp only [bpr_toNat, bprNat_assoc]
  comm a b _ _ := by apply BitVec.eq_of_toNat_eq; rw [bpr_toNat, bpr_toNat, bprNat_comm]
  idLeft a _ := by
    apply BitVec.eq_of_toNat_eq; rw [bpr_toNat]; unfold bprNat
    by_cases h : a.toNat = 0 <;> simp [h]
  idRight a _ := by
    apply BitVec.eq_of_toNat_eq; rw [bpr_toNat]; unfold bprNat
    simp

theorem min_monoid {L : Type} [LinearOrder L] (top : L) : CommMonoidOn (fun x => x ≤ top) (fun a b => if b < a then b else a) top := by
  have e : (fun a b : L => if b < a then b else a) = min := by
    funext a b
    by_cases h : b < a
    · simp [h, min_eq_right h.le]
    · simp [h, min_eq_left (not_lt.1 h)]
  rw [e]
  exact ⟨fun a b ha _ => le_trans (min_le_left a b) ha, le_refl _, fun a b c _ _ _ => min_assoc a b c, fun a b _ _ => min_comm a b, fun a h => min_eq_right h, fun a h => min_eq_left h⟩

theorem max_monoid {L : Type} [LinearOrder L] (bot : L) : CommMonoidOn (fun x => bot ≤ x) (fun a b => if b > a then b else a) bot := by
  have := min_monoid (L := Lᵒᵈ) (OrderDual.toDual bot)
  exact ⟨this.closed, this.okId, this.assoc, this.comm, this.idLeft, this.idRight⟩

theorem toInt_le_intMax {w : Nat} (a : BitVec w) : a.toInt ≤ (BitVec.intMax w).toInt := by
  rcases w with _ | w
  · rw [BitVec.eq_nil a, BitVec.eq_nil (BitVec.intMax 0)]
  · have h := BitVec.toInt_le (x := a)
    have : (BitVec.intMax (w + 1)).toInt = 2 ^ w - 1 := by
      rw [BitVec.toInt_eq_toNat_cond, BitVec.toNat_intMax]
      have := Nat.two_pow_pos w
      rw [if_pos (by simp [Nat.pow_succ]; omega)]
      rw [Nat.add_sub_cancel, Nat.cast_sub (by omega)]
      simp
    rw [this]
    simpa using h

theorem intMin_le_toInt {w : Nat} (a : BitVec w) : (BitVec.intMin w).toInt ≤ a.toInt := by
  rcases w with _ | w
  · rw [BitVec.eq_nil a, BitVec.eq_nil (BitVec.intMin 0)]
  · have h := BitVec.le_toInt a
    rw [BitVec.toInt_intMin_of_pos (by omega)]
    exact h

theorem min_monoid_key {T L : Type} [LinearOrder L] (k : T → L) (hk : Function.Injective k) (top : T) :
    CommMonoidOn (fun x => k x ≤ k top) (fun a b => if k b < k a then b else a) top := by
  have h := min_monoid (k top)
  have e : ∀ a b, k (if k b < k a then b else a) = if k b < k a then k b else k a := fun a b => by split <;> rfl
  refine ⟨fun a b ha hb => ?_, le_refl _, fun a b c ha hb hc => hk ?_, fun a b ha hb => hk ?_, fun a ha => hk ?_, fun a ha => hk ?_⟩
  · simp only [e]; exact h.closed _ _ ha hb
  · have := h.assoc _ _ _ ha hb hc
    simp only [← e] at this
    exact this
  · simp only [e]; exact h.comm _ _ ha hb
  · simp only [e]; exact h.idLeft _ ha
  · simp only [e]; exact h.idRight _ ha

theorem CommMonoidOn.weaken {T : Type} {ok : T → Prop} {f : T → T → T} {e : T} (h : CommMonoidOn ok f e) (ha : ∀ x, ok x) :
    CommMonoidOn (fun _ => True) f e :=
  ⟨fun _ _ _ _ => trivial, trivial, fun a b c _ _ _ => h.assoc a b c (ha _) (ha _) (ha _), fun a b _ _ => h.comm a b (ha _) (ha _),
    fun a _ => h.idLeft a (ha _), fun a _ => h.idRight a (ha _)⟩

theorem intMin_monoid (u w : Nat) : CommMonoidOn (fun _ => True) ((intDom u w).doOp .min) ((intDom u w).identity .min) := by
  have h := min_monoid_key (BitVec.toInt (n := w)) (fun _ _ h => BitVec.eq_of_toInt_eq h) (BitVec.intMax w)
  have e : ((intDom u w).doOp .min) = (fun a b : BitVec w => if b.toInt < a.toInt then b else a) := by
    funext a b
    show (if b.slt a then b else a) = _
    simp only [BitVec.slt_iff_toInt_lt]
  rw [e]
  exact CommMonoidOn.weaken h toInt_le_intMax

theorem intMax_monoid (u w : Nat) : CommMonoidOn (fun _ => True) ((intDom u w).doOp .max) ((intDom u w).identity .max) := by
  have h := min_monoid_key (L := Intᵒᵈ) (fun a : BitVec w => OrderDual.toDual a.toInt) (fun _ _ h => BitVec.eq_of_toInt_eq h) (BitVec.intMin w)
  have e : ((intDom u w).doOp .max) = (fun a b : BitVec w => if OrderDual.toDual b.toInt < OrderDual.toDual a.toInt then b else a) := by
    funext a b
    show (if a.slt b then b else a) = _
    simp only [BitVec.slt_iff_toInt_lt]
    rfl
  rw [e]
  exact CommMonoidOn.weaken h intMin_le_toInt

end Gslib.Gs
