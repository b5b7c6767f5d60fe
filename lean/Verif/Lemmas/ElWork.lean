import Verif.Model.ElWork
import Verif.Lemmas.Tensor
import Verif.Lemmas.NumMem

/-!
# Helper lemmas: work arrays of the element kernels
-/

namespace Gslib.El
open Gslib.Tensor Gslib.Num Gslib.Spec

theorem mapM_some {A B : Type} {f : A → Option B} {g : A → B} : ∀ (l : List A), (∀ x ∈ l, f x = some (g x)) → l.mapM f = some (l.map g)
  | [], _ => rfl
  | a :: l, h => by
    rw [List.mapM_cons, h a (by simp), mapM_some l fun x hx => h x (by simp [hx])]
    rfl

theorem mapM_zipIdx {A B : Type} {f : A × Nat → Option B} {g : A → B} (l : List A) (h : ∀ (i : Nat) a, l[i]? = some a → f (a, i) = some (g a)) : l.zipIdx.mapM f = some (l.map g) := by
  rw [mapM_some (g := fun x => g x.1) l.zipIdx fun x hx => h x.2 x.1 (List.mem_zipIdx_iff_getElem?.1 hx), show (fun x : A × Nat => g x.1) = g ∘ Prod.fst from rfl, ← List.map_map, List.zipIdx_map_fst]

section
variable {K : Type} [CommSemiring K]

theorem getElem?_ent {w : List K} {i : Nat} (h : i < w.length) : w[i]? = some (ent w i) := by
  unfold ent
  rw [List.getElem?_eq_getElem h, List.getD_eq_getElem _ _ h]

theorem ent_nil_of_le {w : List K} {i : Nat} (h : w.length ≤ i) : ent w i = 0 := by
  unfold ent
  rw [List.getD_eq_default _ _ h]

theorem ent_take {l : List K} {k i : Nat} (h : i < k) : ent (l.take k) i = ent l i := by
  simp [ent, List.getD_eq_getElem?_getD, List.getElem?_take, h]

/-- a loop whose round `i` writes the addresses `A i` -/
theorem scatter {n : Nat} {body : Nat → List K → Option (List K)} (A : Nat → Nat → Prop) (V : Nat → Nat → K) (w0 : List K)
    (step : ∀ i, i < n → ∀ w, w.length = w0.length → (∀ a, (∀ i', i' < i → ¬A i' a) → ent w a = ent w0 a) →
      ∃ w', body i w = some w' ∧ w'.length = w.length ∧ (∀ a, A i a → ent w' a = V i a) ∧ ∀ a, ¬A i a → ent w' a = ent w a)
    (hd : ∀ i i' a, i < i' → i' < n → A i a → ¬A i' a) :
    ∃ w', forUp 0 n body w0 = some w' ∧ w'.length = w0.length ∧ (∀ i, i < n → ∀ a, A i a → ent w' a = V i a) ∧ ∀ a, (∀ i, i < n → ¬A i a) → ent w' a = ent w0 a := by
  obtain ⟨w', e, h1, h2, h3⟩ := forUp_inv (fun k (w : List K) => w.length = w0.length ∧ (∀ i, i < k → ∀ a, A i a → ent w a = V i a) ∧ ∀ a, (∀ i, i < k → ¬A i a) → ent w a = ent w0 a) body n 0 w0
    ⟨rfl, fun i hi => by omega, fun _ _ => rfl⟩ (by
      intro k _ hk w ⟨h1, h2, h3⟩
      obtain ⟨w', e, g1, g2, g3⟩ := step k (by omega) w h1 h3
      refine ⟨w', e, g1.trans h1, ?_, ?_⟩
      · intro i hi a ha
        rcases Nat.lt_succ_iff_lt_or_eq.1 hi with h | rfl
        · rw [g3 a (hd i k a h (by omega) ha), h2 i h a ha]
        · exact g2 a ha
      · intro a ha
        rw [g3 a (ha k (by omega)), h3 a fun i hi => ha i (by omega)])
  exact ⟨w', e, h1, fun i hi => h2 i (by omega), fun a ha => h3 a fun i hi => ha i (by omega)⟩

/-- a loop that stores consecutive rows -/
theorem rows_run {n : Nat} {body : Nat → List K → Option (List K)} (off len : Nat) (v : Nat → List K) (hv : ∀ i, i < n → (v i).length = len) (w0 : List K)
    (hbody : ∀ i, i < n → ∀ w, w.length = w0.length → body i w = store w (off + len * i) (v i)) (hroom : off + len * n ≤ w0.length) :
    ∃ w', forUp 0 n body w0 = some w' ∧ w'.length = w0.length ∧ (∀ i, i < n → ∀ j, j < len → ent w' (off + (len * i + j)) = ent (v i) j) ∧
      ∀ a, (a < off ∨ off + len * n ≤ a) → ent w' a = ent w0 a := by
  have hr : ∀ i, i < n → len * i + len ≤ len * n := fun i hi => by rw [← Nat.mul_succ]; exact Nat.mul_le_mul_left _ hi
  obtain ⟨w', e, h1, h2, h3⟩ := scatter (body := body) (n := n) (fun i a => off + len * i ≤ a ∧ a < off + len * i + len) (fun i a => ent (v i) (a - (off + len * i))) w0 (by
      intro i hi w hw _
      obtain ⟨w', e, g1, g2, g3⟩ := store_eq (p := w) (off := off + len * i) (v := v i) (by rw [hv i hi, hw]; have := hr i hi; omega)
      refine ⟨w', by rw [hbody i hi w hw, e], g1, ?_, ?_⟩
      · intro a ha
        rw [← g2 (a - (off + len * i)) (by rw [hv i hi]; omega)]
        congr 1; omega
      · intro a ha
        rw [hv i hi] at g3
        exact g3 a (by omega))
    (by
      intro i i' a hi _ ha ha'
      have : len * i + len ≤ len * i' := by rw [← Nat.mul_succ]; exact Nat.mul_le_mul_left _ hi
      omega)
  refine ⟨w', e, h1, ?_, ?_⟩
  · intro i hi j hj
    rw [h2 i hi _ ⟨by omega, by omega⟩]
    congr 1; omega
  · intro a ha
    refine h3 a fun i hi => ?_
    have := hr i hi
    omega

theorem cpy_eq {dst : List K} {o : Nat} {src : List K} {s len : Nat} (h1 : s + len ≤ src.length) (h2 : o + len ≤ dst.length) :
    ∃ w, cpy dst o src s len = some w ∧ w.length = dst.length ∧ (∀ i, i < len → ent w (o + i) = ent src (s + i)) ∧ ∀ a, (a < o ∨ o + len ≤ a) → ent w a = ent dst a := by
  have hl : ((src.drop s).take len).length = len := by simp; omega
  obtain ⟨w, e, g1, g2, g3⟩ := store_eq (p := dst) (off := o) (v := (src.drop s).take len) (by rw [hl]; exact h2)
  rw [hl] at g2 g3
  refine ⟨w, by rw [cpy, if_pos h1, e], g1, fun i hi => ?_, g3⟩
  rw [g2 i hi, ent_take hi, ent_drop]

theorem mxmIn_eq {w : List K} {c nc : Nat} {A : List K} {na b nb : Nat} (hd : c + nc * nb ≤ b ∨ b + na * nb ≤ c) (hA : nc * na ≤ A.length) (hB : b + na * nb ≤ w.length) (hC : c + nc * nb ≤ w.length) :
    ∃ w', mxmIn w c nc A na b nb = some w' ∧ w'.length = w.length ∧ (∀ i, i < nc → ∀ j, j < nb → ent w' (c + (i + nc * j)) = ∑ k ∈ Finset.range na, ent A (i + nc * k) * ent w (b + (k + na * j))) ∧
      ∀ a, (a < c ∨ c + nc * nb ≤ a) → ent w' a = ent w a := by
  obtain ⟨w', e, g1, g2, g3⟩ := store_eq (p := w) (off := c) (v := tab2 nc nb fun i j => mulEnt nc na A (w.drop b) i j) (by simpa using hC)
  rw [tab2_length] at g2 g3
  refine ⟨w', ?_, g1, fun i hi j hj => ?_, g3⟩
  · unfold mxmIn
    rw [if_pos (by simp [disj, hd]), mxm_eq nc A na hA nb _ (by simp; omega), Option.bind_some, e]
  · rw [g2 _ (by
      calc i + nc * j < nc + nc * j := by omega
        _ = nc * (j + 1) := by ring
        _ ≤ nc * nb := Nat.mul_le_mul_left _ hj), ent_tab2 hi hj, mulEnt]
    simp only [ent_drop]

theorem mtxmIn_eq {w : List K} {c nc : Nat} {A : List K} {na b nb : Nat} (hd : c + nc * nb ≤ b ∨ b + na * nb ≤ c) (hA : na * nc ≤ A.length) (hB : b + na * nb ≤ w.length) (hC : c + nc * nb ≤ w.length) :
    ∃ w', mtxmIn w c nc A na b nb = some w' ∧ w'.length = w.length ∧ (∀ i, i < nc → ∀ j, j < nb → ent w' (c + (i + nc * j)) = ∑ k ∈ Finset.range na, ent A (k + na * i) * ent w (b + (k + na * j))) ∧
      ∀ a, (a < c ∨ c + nc * nb ≤ a) → ent w' a = ent w a := by
  obtain ⟨w', e, g1, g2, g3⟩ := store_eq (p := w) (off := c) (v := tab2 nc nb fun i j => tmulEnt na A (w.drop b) i j) (by simpa using hC)
  rw [tab2_length] at g2 g3
  refine ⟨w', ?_, g1, fun i hi j hj => ?_, g3⟩
  · unfold mtxmIn
    rw [if_pos (by simp [disj, hd]), mtxm_eq nc A na hA nb _ (by simp; omega), Option.bind_some, e]
  · rw [g2 _ (by
      calc i + nc * j < nc + nc * j := by omega
        _ = nc * (j + 1) := by ring
        _ ≤ nc * nb := Nat.mul_le_mul_left _ hj), ent_tab2 hi hj, tmulEnt]
    simp only [ent_drop]

theorem mtxvIn_eq {w : List K} {y ny a : Nat} {x : List K} {nx : Nat} (h0 : 0 < nx) (hd : y + ny ≤ a ∨ a + nx * ny ≤ y) (hx : nx ≤ x.length) (hA : a + nx * ny ≤ w.length) (hy : y + ny ≤ w.length) :
    ∃ w', mtxvIn w y ny a x nx = some w' ∧ w'.length = w.length ∧ (∀ i, i < ny → ent w' (y + i) = ∑ k ∈ Finset.range nx, ent w (a + (k + nx * i)) * ent x k) ∧
      ∀ b, (b < y ∨ y + ny ≤ b) → ent w' b = ent w b := by
  obtain ⟨w', e, g1, g2, g3⟩ := store_eq (p := w) (off := y) (v := tab ny fun i => ∑ k ∈ Finset.range nx, ent (w.drop a) (k + nx * i) * ent x k) (by simpa using hy)
  rw [tab_length] at g2 g3
  refine ⟨w', ?_, g1, fun i hi => ?_, g3⟩
  · unfold mtxvIn
    rw [if_pos (by simp [disj, hd]), mtxv_eq ny _ x nx h0 (by simp; omega) hx, Option.bind_some, e]
  · rw [g2 i hi, ent_tab hi]
    simp only [ent_drop]

/-- storing one value -/
theorem store1 {w : List K} {a : Nat} (v : K) (h : a < w.length) :
    ∃ w', store w a [v] = some w' ∧ w'.length = w.length ∧ ent w' a = v ∧ ∀ b, b ≠ a → ent w' b = ent w b := by
  obtain ⟨w', e, g1, g2, g3⟩ := store_eq (p := w) (off := a) (v := [v]) (by simpa using h)
  exact ⟨w', e, g1, by simpa [ent] using g2 0 (by simp), fun b hb => g3 b (by simp; omega)⟩

end
end Gslib.El
