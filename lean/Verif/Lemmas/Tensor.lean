import Verif.Model.Tensor
import Verif.Spec.Tensor
import Mathlib.Tactic.Ring
import Mathlib.Data.List.GetD
import Mathlib.Algebra.BigOperators.Intervals

/-! # Helper lemmas for the tensor kernels -/

namespace Gslib.Tensor
open Gslib.Spec Finset
set_option linter.unusedSectionVars false
variable {K : Type} [CommSemiring K]

/-- the list of `f 0 .. f (n-1)` -/
def tab (n : Nat) (f : Nat → K) : List K := (List.range n).map f

@[simp] theorem tab_length (n : Nat) (f : Nat → K) : (tab n f).length = n := by simp [tab]

theorem ent_tab {n : Nat} {f : Nat → K} {i : Nat} (h : i < n) : ent (tab n f) i = f i := by
  unfold ent tab
  rw [List.getD_eq_getElem _ _ (by simpa using h)]
  simp

theorem ent_drop (l : List K) (k i : Nat) : ent (l.drop k) i = ent l (k + i) := by
  simp [ent, List.getD_eq_getElem?_getD, List.getElem?_drop]

theorem tab_congr {n : Nat} {f g : Nat → K} (h : ∀ i < n, f i = g i) : tab n f = tab n g := by
  unfold tab
  exact List.map_congr_left fun i hi => h i (List.mem_range.1 hi)

theorem tab_succ (n : Nat) (f : Nat → K) : tab (n + 1) f = f 0 :: tab n fun i => f (i + 1) := by
  unfold tab
  rw [List.range_succ_eq_map, List.map_cons, List.map_map]
  rfl

theorem tab_append (m n : Nat) (f : Nat → K) : tab m f ++ (tab n fun i => f (m + i)) = tab (m + n) f := by
  unfold tab
  rw [List.range_add, List.map_append, List.map_map]
  rfl

theorem dotLoop_eq : ∀ (n : Nat) (a b : List K) (s : K), n ≤ a.length → n ≤ b.length →
    dotLoop a b n s = some (s + ∑ i ∈ range n, ent a i * ent b i)
  | 0, _, _, _, _, _ => by simp [dotLoop]
  | n + 1, [], _, _, h, _ => by simp at h
  | n + 1, _ :: _, [], _, _, h => by simp at h
  | n + 1, x :: a, y :: b, s, ha, hb => by
    rw [dotLoop, dotLoop_eq n a b _ (by simpa using ha) (by simpa using hb), sum_range_succ']
    simp [ent]
    ring

theorem dot_eq (a b : List K) (n : Nat) (ha : n ≤ a.length) (hb : n ≤ b.length) :
    dot a b n = some (∑ i ∈ range n, ent a i * ent b i) := by
  rw [dot, dotLoop_eq n a b 0 ha hb, zero_add]

theorem addScaled_eq : ∀ (n : Nat) (f : Nat → K) (A : List K) (b : K), n ≤ A.length →
    addScaled (tab n f) A b = some (tab n fun i => f i + ent A i * b)
  | 0, _, _, _, _ => by simp [tab, addScaled]
  | n + 1, _, [], _, h => by simp at h
  | n + 1, f, a :: A, b, h => by
    rw [tab_succ, addScaled, addScaled_eq n _ A b (by simpa using h), tab_succ]
    simp [ent]

theorem mxmCol_eq (nc : Nat) : ∀ (na : Nat) (f : Nat → K) (A B : List K), nc * na ≤ A.length → na ≤ B.length →
    mxmCol nc na (tab nc f) A B = some (tab nc fun i => f i + ∑ k ∈ range na, ent A (i + nc * k) * ent B k)
  | 0, f, _, _, _, _ => by simp [mxmCol]
  | na + 1, _, _, [], _, h => by simp at h
  | na + 1, f, A, b :: B, hA, hB => by
    have e : nc * (na + 1) = nc * na + nc := by ring
    rw [mxmCol, addScaled_eq nc f A b (by omega), Option.bind_some,
      mxmCol_eq nc na _ (A.drop nc) B (by simp; omega) (by simpa using hB)]
    congr 1
    apply tab_congr
    intro i _
    rw [sum_range_succ']
    simp only [ent_drop, Nat.mul_zero, Nat.add_zero]
    have : ∀ k, ent A (nc + (i + nc * k)) * ent B k = ent A (i + nc * (k + 1)) * ent (b :: B) (k + 1) := by
      intro k
      congr 1
      congr 1
      ring
    simp only [this]
    have hb : ent (b :: B) 0 = b := rfl
    rw [hb]
    ring

theorem tab_zero (n : Nat) : List.replicate n (0 : K) = tab n fun _ => 0 := by
  unfold tab
  rw [List.map_const', List.length_range]

theorem mxv_eq (ny : Nat) (A x : List K) (nx : Nat) (hA : ny * nx ≤ A.length) (hx : nx ≤ x.length) :
    mxv ny A x nx = some (tab ny fun i => ∑ k ∈ range nx, ent A (i + ny * k) * ent x k) := by
  unfold mxv
  rw [tab_zero, mxmCol_eq ny nx _ A x hA hx]
  simp only [zero_add]

/-- column-major table of an `nc` by `nb` matrix -/
def tab2 (nc nb : Nat) (g : Nat → Nat → K) : List K := tab (nc * nb) fun q => g (q % nc) (q / nc)

@[simp] theorem tab2_length (nc nb : Nat) (g : Nat → Nat → K) : (tab2 nc nb g).length = nc * nb := by simp [tab2]

theorem ent_tab2 {nc nb : Nat} {g : Nat → Nat → K} {i j : Nat} (hi : i < nc) (hj : j < nb) : ent (tab2 nc nb g) (i + nc * j) = g i j := by
  unfold tab2
  have : i + nc * j < nc * nb := by
    calc i + nc * j < nc + nc * j := by omega
      _ = nc * (j + 1) := by ring
      _ ≤ nc * nb := Nat.mul_le_mul_left _ hj
  rw [ent_tab this, Nat.add_mul_mod_self_left, Nat.mod_eq_of_lt hi, Nat.add_mul_div_left _ _ (by omega), Nat.div_eq_of_lt hi, Nat.zero_add]

theorem tab2_succ (nc nb : Nat) (g : Nat → Nat → K) : tab2 nc (nb + 1) g = (tab nc fun i => g i 0) ++ tab2 nc nb fun i j => g i (j + 1) := by
  unfold tab2
  rw [show nc * (nb + 1) = nc + nc * nb by ring, ← tab_append]
  congr 1
  · exact tab_congr fun i hi => by rw [Nat.mod_eq_of_lt hi, Nat.div_eq_of_lt hi]
  · refine tab_congr fun i hi => ?_
    have : 0 < nc := by
      rcases Nat.eq_zero_or_pos nc with h | h
      · subst h; simp at hi
      · exact h
    rw [Nat.add_mod_left, Nat.add_div_left _ this]

theorem mxm_eq (nc : Nat) (A : List K) (na : Nat) (hA : nc * na ≤ A.length) : ∀ (nb : Nat) (B : List K), na * nb ≤ B.length →
    mxm nc A na B nb = some (tab2 nc nb fun i j => mulEnt nc na A B i j)
  | 0, B, _ => by simp [mxm, tab2, tab]
  | nb + 1, B, hB => by
    have e : na * (nb + 1) = na * nb + na := by ring
    rw [mxm, tab_zero, mxmCol_eq nc na _ A B hA (by omega), Option.bind_some, mxm_eq nc A na hA nb _ (by simp; omega), tab2_succ]
    simp only [Option.map_some, zero_add, mulEnt, Nat.mul_zero, Nat.add_zero, ent_drop]
    congr 2
    unfold tab2
    apply tab_congr
    intro q _
    apply sum_congr rfl
    intro k _
    congr 2
    ring

theorem mtxv_eq : ∀ (ny : Nat) (A x : List K) (nx : Nat), 0 < nx → nx * ny ≤ A.length → nx ≤ x.length →
    mtxv ny A x nx = some (tab ny fun i => ∑ k ∈ range nx, ent A (k + nx * i) * ent x k)
  | 0, _, _, _, _, _, _ => by simp [mtxv, tab]
  | ny + 1, [], _, nx + 1, _, h, _ => by
    rw [Nat.mul_succ] at h
    simp at h
  | ny + 1, _ :: _, [], nx + 1, _, _, h => by simp at h
  | ny + 1, _, _, 0, h, _, _ => by omega
  | ny + 1, a :: A, x :: xs, nx + 1, _, hA, hx => by
    have e : (nx + 1) * (ny + 1) = (nx + 1) * ny + nx + 1 := by ring
    have hA' : (nx + 1) * ny + nx ≤ A.length := by rw [e] at hA; simpa using hA
    rw [mtxv, dotLoop_eq nx A xs _ (by omega) (by simpa using hx), Option.bind_some,
      mtxv_eq ny (A.drop nx) (x :: xs) (nx + 1) (by omega) (by simp; omega) hx, tab_succ]
    simp only [Option.map_some]
    congr 2
    · rw [sum_range_succ']
      simp only [Nat.mul_zero, Nat.add_zero]
      have h1 : ∀ k, ent (a :: A) (k + 1) = ent A k := fun _ => rfl
      have h2 : ∀ k, ent (x :: xs) (k + 1) = ent xs k := fun _ => rfl
      simp only [h1, h2]
      rw [add_comm]
      rfl
    · apply tab_congr
      intro i _
      apply sum_congr rfl
      intro k _
      rw [ent_drop]
      congr 1
      have : k + (nx + 1) * (i + 1) = (nx + (k + (nx + 1) * i)) + 1 := by ring
      rw [this]
      rfl

theorem mtxmCol_eq (na : Nat) (B : List K) (hB : na ≤ B.length) : ∀ (nc : Nat) (A : List K), na * nc ≤ A.length →
    mtxmCol na B nc A = some (tab nc fun i => ∑ k ∈ range na, ent A (k + na * i) * ent B k)
  | 0, _, _ => by simp [mtxmCol, tab]
  | nc + 1, A, hA => by
    have e : na * (nc + 1) = na * nc + na := by ring
    rw [mtxmCol, dot_eq A B na (by omega) hB, Option.bind_some, mtxmCol_eq na B hB nc _ (by simp; omega), tab_succ]
    simp only [Option.map_some, Nat.mul_zero, Nat.add_zero, ent_drop]
    congr 2
    apply tab_congr
    intro i _
    apply sum_congr rfl
    intro k _
    congr 2
    ring

theorem mtxm_eq (nc : Nat) (A : List K) (na : Nat) (hA : na * nc ≤ A.length) : ∀ (nb : Nat) (B : List K), na * nb ≤ B.length →
    mtxm nc A na B nb = some (tab2 nc nb fun i j => tmulEnt na A B i j)
  | 0, B, _ => by simp [mtxm, tab2, tab]
  | nb + 1, B, hB => by
    have e : na * (nb + 1) = na * nb + na := by ring
    rw [mtxm, mtxmCol_eq na B (by omega) nc A hA, Option.bind_some, mtxm_eq nc A na hA nb _ (by simp; omega), tab2_succ]
    simp only [Option.map_some, tmulEnt, Nat.mul_zero, Nat.add_zero, ent_drop]
    congr 2
    unfold tab2
    apply tab_congr
    intro q _
    apply sum_congr rfl
    intro k _
    congr 2
    ring

theorem store_eq {p : List K} {off : Nat} {v : List K} (h : off + v.length ≤ p.length) :
    ∃ p', store p off v = some p' ∧ p'.length = p.length ∧ (∀ i, i < v.length → ent p' (off + i) = ent v i) ∧
      ∀ i, (i < off ∨ off + v.length ≤ i) → ent p' i = ent p i := by
  refine ⟨_, by unfold store; rw [if_pos h], by simp; omega, ?_, ?_⟩
  · intro i hi
    unfold ent
    rw [List.append_assoc, List.getD_append_right _ _ _ _ (by simp)]
    have : off + i - (List.take off p).length = i := by simp; omega
    rw [this, List.getD_append _ _ _ _ hi]
  · intro i hi
    unfold ent
    rcases hi with hi | hi
    · rw [List.append_assoc, List.getD_append _ _ _ _ (by simp; omega), List.getD_eq_getElem?_getD, List.getElem?_take,
        if_pos hi, List.getD_eq_getElem?_getD]
    · rw [List.getD_append_right _ _ _ _ (by simp; omega), List.getD_eq_getElem?_getD, List.getElem?_drop, List.getD_eq_getElem?_getD]
      congr 2
      simp
      omega

end Gslib.Tensor
