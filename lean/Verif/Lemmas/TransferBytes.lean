import Verif.Spec.TransferInput
import Verif.Model.Transfer
import Verif.Lemmas.Crystal

/-!
# Bytes and words
-/

namespace Gslib.Transfer
open Gslib Gslib.Crystal

/-- all entries are 32 bit words -/
def W32 (ws : List Nat) : Prop := ∀ w ∈ ws, w < uintRange

theorem le4_length (w : Nat) : (le4 w).length = 4 := rfl

theorem le4_bytes (w : Nat) : Bytes (le4 w) := by
  intro b hb
  simp only [le4, List.mem_cons, List.not_mem_nil, or_false] at hb
  omega

theorem unle_le4 (w : Nat) (h : w < uintRange) : unle (le4 w) = w := by
  simp only [le4, unle, uintRange] at *; omega

theorem le4_unle (a b c d : Nat) (ha : a < 256) (hb : b < 256) (hc : c < 256) (hd : d < 256) :
    le4 (unle [a, b, c, d]) = [a, b, c, d] := by
  simp only [le4, unle, List.cons.injEq, and_true]
  refine ⟨?_, ?_, ?_, ?_⟩ <;> omega

theorem unle_lt {bs : List Nat} (h : Bytes bs) : unle bs < 256 ^ bs.length := by
  induction bs with
  | nil => simp [unle]
  | cons b bs ih =>
    have := ih (fun x hx => h x (by simp [hx]))
    have hb := h b (by simp)
    simp only [unle, List.length_cons, Nat.pow_succ]
    omega

theorem bytesOf_length (ws : List Nat) : (bytesOf ws).length = 4 * ws.length := by
  induction ws with
  | nil => rfl
  | cons w ws ih => simp only [bytesOf, List.flatMap_cons, List.length_append, le4_length, List.length_cons] at *; omega

theorem bytesOf_append (a b : List Nat) : bytesOf (a ++ b) = bytesOf a ++ bytesOf b := by simp [bytesOf]

theorem bytesOf_bytes (ws : List Nat) : Bytes (bytesOf ws) := by
  intro b hb
  obtain ⟨w, _, h⟩ := List.mem_flatMap.1 hb
  exact le4_bytes w b h

theorem wordsOf_bytesOf {ws : List Nat} (h : W32 ws) : wordsOf (bytesOf ws) = ws := by
  induction ws with
  | nil => rfl
  | cons w ws ih =>
    have e : bytesOf (w :: ws) = le4 w ++ bytesOf ws := by simp [bytesOf]
    rw [e]
    have : le4 w ++ bytesOf ws = (w % 256) :: (w / 256 % 256) :: (w / 65536 % 256) :: (w / 16777216 % 256) :: bytesOf ws := rfl
    rw [this, wordsOf, ih (fun x hx => h x (by simp [hx]))]
    have := unle_le4 w (h w (by simp))
    unfold le4 at this
    rw [this]

theorem wordsOf_append : ∀ (n : Nat) (x y : List Nat), x.length = 4 * n → wordsOf (x ++ y) = wordsOf x ++ wordsOf y
  | 0, x, y, h => by
    have : x = [] := List.length_eq_zero_iff.1 (by omega)
    subst this; rfl
  | n + 1, x, y, h => by
    match x, h with
    | a :: b :: c :: d :: r, h =>
      simp only [List.length_cons] at h
      simp only [List.cons_append, wordsOf]
      rw [wordsOf_append n r y (by omega)]

theorem wordsOf_length : ∀ (n : Nat) (x : List Nat), x.length = 4 * n → (wordsOf x).length = n
  | 0, x, h => by
    have : x = [] := List.length_eq_zero_iff.1 (by omega)
    subst this; rfl
  | n + 1, x, h => by
    match x, h with
    | a :: b :: c :: d :: r, h =>
      simp only [List.length_cons] at h
      simp only [wordsOf, List.length_cons]
      rw [wordsOf_length n r (by omega)]

theorem bytesOf_wordsOf : ∀ (n : Nat) (x : List Nat), x.length = 4 * n → Bytes x → bytesOf (wordsOf x) = x
  | 0, x, h, _ => by
    have : x = [] := List.length_eq_zero_iff.1 (by omega)
    subst this; rfl
  | n + 1, x, h, hb => by
    match x, h, hb with
    | a :: b :: c :: d :: r, h, hb =>
      simp only [List.length_cons] at h
      have ih := bytesOf_wordsOf n r (by omega) (fun y hy => hb y (by simp [hy]))
      have e : bytesOf (wordsOf (a :: b :: c :: d :: r)) = le4 (unle [a, b, c, d]) ++ bytesOf (wordsOf r) := by
        simp [wordsOf, bytesOf]
      rw [e, ih, le4_unle a b c d (hb _ (by simp)) (hb _ (by simp)) (hb _ (by simp)) (hb _ (by simp))]
      rfl

theorem wordsOf_w32 : ∀ (n : Nat) (x : List Nat), x.length = 4 * n → Bytes x → W32 (wordsOf x)
  | 0, x, h, _ => by
    have : x = [] := List.length_eq_zero_iff.1 (by omega)
    subst this; intro w hw; simp [wordsOf] at hw
  | n + 1, x, h, hb => by
    match x, h, hb with
    | a :: b :: c :: d :: r, h, hb =>
      simp only [List.length_cons] at h
      have ih := wordsOf_w32 n r (by omega) (fun y hy => hb y (by simp [hy]))
      intro w hw
      simp only [wordsOf, List.mem_cons] at hw
      rcases hw with rfl | hw
      · have ha := hb a (by simp); have hb' := hb b (by simp); have hc := hb c (by simp); have hd := hb d (by simp)
        simp only [unle, uintRange]; omega
      · exact ih w hw

/-- overwrite bytes of a slot -/
def slotPoke (slot : List Nat) (off : Nat) (bs : List Nat) : List Nat := wordsOf (blit (bytesOf slot) off bs)

theorem blit_length (b : List Nat) (off : Nat) (x : List Nat) (h : off + x.length ≤ b.length) : (blit b off x).length = b.length := by
  simp only [blit, List.length_append, List.length_take, List.length_drop]; omega

theorem blit_bytes {b : List Nat} {off : Nat} {x : List Nat} (hb : Bytes b) (hx : Bytes x) : Bytes (blit b off x) := by
  intro y hy
  simp only [blit, List.mem_append] at hy
  rcases hy with (h | h) | h
  · exact hb y (List.mem_of_mem_take h)
  · exact hx y h
  · exact hb y (List.mem_of_mem_drop h)

theorem slotPoke_length (slot : List Nat) (off : Nat) (bs : List Nat) (h : off + bs.length ≤ 4 * slot.length) :
    (slotPoke slot off bs).length = slot.length := by
  apply wordsOf_length
  rw [blit_length _ _ _ (by rw [bytesOf_length]; exact h), bytesOf_length]

theorem slotPoke_bytes (slot : List Nat) (off : Nat) (bs : List Nat) (h : off + bs.length ≤ 4 * slot.length) (hb : Bytes bs) :
    bytesOf (slotPoke slot off bs) = blit (bytesOf slot) off bs := by
  apply bytesOf_wordsOf slot.length
  · rw [blit_length _ _ _ (by rw [bytesOf_length]; exact h), bytesOf_length]
  · exact blit_bytes (bytesOf_bytes _) hb

theorem slotPoke_w32 (slot : List Nat) (off : Nat) (bs : List Nat) (h : off + bs.length ≤ 4 * slot.length) (hb : Bytes bs) :
    W32 (slotPoke slot off bs) := by
  apply wordsOf_w32 slot.length
  · rw [blit_length _ _ _ (by rw [bytesOf_length]; exact h), bytesOf_length]
  · exact blit_bytes (bytesOf_bytes _) hb

theorem blit_take (b : List Nat) (off : Nat) (x : List Nat) (h : off ≤ b.length) :
    (blit b off x).take (off + x.length) = b.take off ++ x := by
  unfold blit
  rw [List.take_append_of_le_length (by simp; omega), List.take_of_length_le (by simp)]

theorem blit_mid (A S B : List Nat) (off : Nat) (x : List Nat) (h : off + x.length ≤ S.length) :
    blit (A ++ S ++ B) (A.length + off) x = A ++ blit S off x ++ B := by
  unfold blit
  have h1 : (A ++ S ++ B).take (A.length + off) = A ++ S.take off := by
    rw [List.append_assoc, List.take_length_add_append, List.take_append_of_le_length (by omega)]
  have h2 : (A ++ S ++ B).drop (A.length + off + x.length) = S.drop (off + x.length) ++ B := by
    rw [List.append_assoc, Nat.add_assoc, List.drop_length_add_append, List.drop_append_of_le_length h]
  rw [h1, h2]; simp [List.append_assoc]

theorem poke_mid (A S B : List Nat) (off : Nat) (x : List Nat) (h : off + x.length ≤ 4 * S.length) (hA : W32 A) (hB : W32 B) :
    poke (A ++ S ++ B) (4 * A.length + off) x = some (A ++ slotPoke S off x ++ B) := by
  unfold poke
  rw [if_pos (by simp only [List.length_append]; omega)]
  congr 1
  rw [bytesOf_append, bytesOf_append, ← bytesOf_length A, blit_mid _ _ _ _ _ (by rw [bytesOf_length]; exact h)]
  have hl := blit_length (bytesOf S) off x (by rw [bytesOf_length]; exact h)
  rw [bytesOf_length] at hl
  rw [wordsOf_append (A.length + S.length) _ _ (by rw [List.length_append, hl, bytesOf_length]; omega), wordsOf_append A.length _ _ (bytesOf_length A), wordsOf_bytesOf hA, wordsOf_bytesOf hB]
  rfl

theorem peek_mid (A S B : List Nat) (off n : Nat) (h : off + n ≤ 4 * S.length) :
    peek (A ++ S ++ B) (4 * A.length + off) n = some (((bytesOf S).drop off).take n) := by
  unfold peek
  rw [if_pos (by simp only [List.length_append]; omega)]
  congr 1
  rw [bytesOf_append, bytesOf_append, ← bytesOf_length A, List.append_assoc, List.drop_length_add_append,
    List.drop_append_of_le_length (by rw [bytesOf_length]; omega),
    List.take_append_of_le_length (by rw [List.length_drop, bytesOf_length]; omega)]

theorem pokeW_mid (A B : List Nat) (x w : Nat) (i : Nat) (hi : i = A.length) : pokeW (A ++ x :: B) i w = some (A ++ w :: B) := by
  subst hi
  unfold pokeW
  rw [if_pos (by simp)]
  simp

theorem W32.append {a b : List Nat} (ha : W32 a) (hb : W32 b) : W32 (a ++ b) := by
  intro w hw
  rcases List.mem_append.1 hw with h | h
  · exact ha w h
  · exact hb w h

theorem W32.left {a b : List Nat} (h : W32 (a ++ b)) : W32 a := fun w hw => h w (List.mem_append_left _ hw)
theorem W32.right {a b : List Nat} (h : W32 (a ++ b)) : W32 b := fun w hw => h w (List.mem_append_right _ hw)

end Gslib.Transfer
