import Verif.Spec.ElGroup2
import Verif.Lemmas.ElWork
import Verif.Props.Tensor
import Mathlib.Tactic.Ring
import Mathlib.Tactic.FinCases

/-!
# Helper lemmas: the 2D element kernels compute the interpolant
-/

namespace Gslib.El
open Gslib.Tensor Gslib.Num Gslib.Spec Gslib.Props Polynomial Finset

variable {K : Type} [Field K] [LinearOrder K]

theorem lagD_node {n : Nat} {z : Nat → K} (hz : ∀ i, i < n → ∀ j, j < n → z i = z j → i = j) {i j : Nat} (hi : i < n) (hj : j < n) : lagD n z 0 i (z j) = if i = j then 1 else 0 := by
  have hinj : Set.InjOn z (Finset.range n : Set Nat) := fun a ha b hb hab => hz a (by simpa using ha) b (by simpa using hb) hab
  unfold lagD
  simp only [Function.iterate_zero, id]
  split_ifs with h
  · rw [h]; exact Lagrange.eval_basis_self hinj (by simpa using hj)
  · exact Lagrange.eval_basis_of_ne h (by simpa using hj)

/-- the end of side `s` of a direction -/
def sideEnd (K : Type) [Field K] (s : Nat) : K := if s = 0 then -1 else 1

/-- the weights at the ends of a direction -/
theorem wtend_ent {n : Nat} {z : List K} {lag : Nat → K → List K} {wt : List K} (h : DirOk n z lag wt) :
    wt.length = 6 * n ∧ ∀ s, s < 2 → ∀ k, k < 3 → ∀ i, i < n → ent wt (3 * n * s + (k * n + i)) = lagD n (ent z) k i (sideEnd K s) := by
  obtain ⟨w, hw, e⟩ := h.wtend
  have h2 := h.two
  unfold wtendSetup at e
  have hl1 : (lag 2 (-1)).length = 3 * n := h.lagLen 2 _ (le_refl _)
  have hl2 : (lag 2 1).length = 3 * n := h.lagLen 2 _ (le_refl _)
  obtain ⟨w1, e1, a1, b1, c1⟩ := store_eq (p := w) (off := 0) (v := lag 2 (-1)) (by omega)
  obtain ⟨w2, e2, a2, b2, c2⟩ := store_eq (p := w1) (off := 3 * n) (v := lag 2 1) (by omega)
  rw [hl1] at b1 c1
  rw [hl2] at b2 c2
  obtain ⟨w3, e3, a3, b3, c3⟩ := store1 (w := w2) (a := 0) 1 (by omega)
  rw [e1, Option.bind_some, e2, Option.bind_some, e3, Option.bind_some] at e
  obtain ⟨w4, e4, a4, b4, c4⟩ : ∃ w4, forUp 1 (n - 1) (fun i w => store w i [0]) w3 = some w4 ∧ w4.length = 6 * n ∧ (∀ i, 1 ≤ i → i < n → ent w4 i = 0) ∧ ∀ a, (a < 1 ∨ n ≤ a) → ent w4 a = ent w3 a := by
    obtain ⟨w4, e4, h4⟩ := forUp_inv (fun k (w : List K) => w.length = 6 * n ∧ (∀ i, 1 ≤ i → i < k → ent w i = 0) ∧ ∀ a, (a < 1 ∨ k ≤ a) → ent w a = ent w3 a) (fun i w => store w i [0]) (n - 1) 1 w3
      ⟨by omega, fun i _ _ => by omega, fun _ _ => rfl⟩ (by
        intro k hk1 hk w ⟨h1, h2, h3⟩
        obtain ⟨w', e, g1, g2, g3⟩ := store1 (w := w) (a := k) 0 (by omega)
        refine ⟨w', e, by omega, ?_, ?_⟩
        · intro i hi hi'
          by_cases hik : i = k
          · rw [hik, g2]
          · rw [g3 i hik, h2 i hi (by omega)]
        · intro a ha
          rw [g3 a (by omega), h3 a (by omega)])
    rw [show 1 + (n - 1) = n by omega] at h4
    exact ⟨w4, e4, h4⟩
  obtain ⟨w5, e5, a5, b5, c5⟩ := rows_run (n := n - 1) (body := fun i w => store w (3 * n + i) [(0 : K)]) (3 * n) 1 (fun _ => [0]) (fun _ _ => rfl) w4 (fun i _ w _ => by rw [one_mul]) (by omega)
  obtain ⟨w6, e6, a6, b6, c6⟩ := store1 (w := w5) (a := 3 * n + (n - 1)) 1 (by omega)
  rw [e4, Option.bind_some, e5, Option.bind_some, e6, Option.some.injEq] at e
  subst e
  refine ⟨by omega, ?_⟩
  have hv : ∀ (m : Nat) x, m ≤ 2 → ∀ k, k ≤ m → ∀ i, i < n → ent (lag m x) (k * n + i) = lagD n (ent z) k i x := h.lagVal
  intro s hs k hk i hi
  have hkn : k * n ≤ 2 * n := Nat.mul_le_mul_right _ (by omega)
  have hs1 : 3 * n * s ≤ 3 * n := by rcases (by omega : s = 0 ∨ s = 1) with rfl | rfl <;> simp
  rcases Nat.eq_zero_or_pos k with rfl | hkp
  · rcases (by omega : s = 0 ∨ s = 1) with rfl | rfl
    · rw [show 3 * n * 0 + (0 * n + i) = i by ring, show sideEnd K 0 = ent z 0 from h.first.symm, lagD_node h.inj hi (by omega), c6 i (by omega), c5 i (by omega)]
      split_ifs with h0
      · rw [h0, c4 0 (by omega), b3]
      · exact b4 i (by omega) hi
    · rw [show 3 * n * 1 + (0 * n + i) = 3 * n + i by ring, show sideEnd K 1 = ent z (n - 1) from h.last.symm, lagD_node h.inj hi (by omega)]
      split_ifs with h0
      · rw [h0, b6]
      · rw [c6 _ (by omega), show 3 * n + i = 3 * n + (1 * i + 0) by ring, b5 i (by omega) 0 (by omega)]
        rfl
  · have hge : n ≤ k * n + i := by
      calc n = 1 * n := by ring
        _ ≤ k * n := Nat.mul_le_mul_right _ hkp
        _ ≤ _ := by omega
    rcases (by omega : s = 0 ∨ s = 1) with rfl | rfl
    · rw [show 3 * n * 0 + (k * n + i) = k * n + i by ring, c6 _ (by omega), c5 _ (by omega), c4 _ (by omega), c3 _ (by omega), c2 _ (by omega)]
      have := b1 (k * n + i) (by omega)
      rw [zero_add] at this
      rw [this, hv 2 _ (le_refl _) k (by omega) i hi]
      rfl
    · rw [show 3 * n * 1 + (k * n + i) = 3 * n + (k * n + i) by ring, c6 _ (by omega), c5 _ (by omega), c4 _ (by omega), c3 _ (by omega), b2 _ (by omega), hv 2 _ (le_refl _) k (by omega) i hi]
      rfl

theorem workSize2_area {nr ns nptMax pn : Nat} (h : pn ≤ nptMax) : 6 * pn + 4 * (nr * pn) + 2 * (ns * pn) ≤ workSize2 nr ns nptMax := by
  have : (6 + 2 * (2 * nr + ns)) * pn ≤ (6 + 2 * (2 * nr + ns)) * nptMax := Nat.mul_le_mul_left _ h
  have e : (6 + 2 * (2 * nr + ns)) * pn = 6 * pn + 4 * (nr * pn) + 2 * (ns * pn) := by ring
  unfold workSize2
  omega

theorem row_lt {n len i : Nat} (hi : i < n) : len * i + len ≤ len * n := by rw [← Nat.mul_succ]; exact Nat.mul_le_mul_left _ hi

/-- the loop over the points, with two rows for each point -/
theorem rows2_run {n : Nat} {body : Nat → List K → Option (List K)} (o1 l1 o2 l2 : Nat) (v1 v2 : Nat → List K) (hv1 : ∀ i, i < n → (v1 i).length = l1) (hv2 : ∀ i, i < n → (v2 i).length = l2) (w0 : List K)
    (hbody : ∀ i, i < n → ∀ w, w.length = w0.length → body i w = (store w (o1 + l1 * i) (v1 i)).bind fun w => store w (o2 + l2 * i) (v2 i)) (h1 : o1 + l1 * n ≤ o2) (h2 : o2 + l2 * n ≤ w0.length) :
    ∃ w', forUp 0 n body w0 = some w' ∧ w'.length = w0.length ∧ (∀ i, i < n → ∀ j, j < l1 → ent w' (o1 + (l1 * i + j)) = ent (v1 i) j) ∧ (∀ i, i < n → ∀ j, j < l2 → ent w' (o2 + (l2 * i + j)) = ent (v2 i) j) ∧
      ∀ a, (a < o1 ∨ o2 + l2 * n ≤ a) → ent w' a = ent w0 a := by
  obtain ⟨w', e, g1, g2, g3⟩ := scatter (body := body) (n := n) (fun i a => (o1 + l1 * i ≤ a ∧ a < o1 + l1 * i + l1 ∧ a < o2) ∨ (o2 + l2 * i ≤ a ∧ a < o2 + l2 * i + l2))
    (fun i a => if a < o2 then ent (v1 i) (a - (o1 + l1 * i)) else ent (v2 i) (a - (o2 + l2 * i))) w0 (by
      intro i hi w hw _
      have r1 := row_lt (len := l1) hi
      have r2 := row_lt (len := l2) hi
      obtain ⟨w1, e1, a1, b1, c1⟩ := store_eq (p := w) (off := o1 + l1 * i) (v := v1 i) (by rw [hv1 i hi]; omega)
      obtain ⟨w2, e2, a2, b2, c2⟩ := store_eq (p := w1) (off := o2 + l2 * i) (v := v2 i) (by rw [hv2 i hi]; omega)
      rw [hv1 i hi] at b1 c1
      rw [hv2 i hi] at b2 c2
      refine ⟨w2, by rw [hbody i hi w hw, e1, Option.bind_some, e2], by omega, ?_, ?_⟩
      · intro a ha
        rcases ha with ha | ha
        · rw [if_pos ha.2.2, c2 a (by omega), ← b1 _ (by omega)]
          congr 1; omega
        · rw [if_neg (by omega), ← b2 _ (by omega)]
          congr 1; omega
      · intro a ha
        rw [c2 a (by omega), c1 a (by omega)])
    (by
      intro i i' a hi _ ha ha'
      have r1 := row_lt (len := l1) hi
      have r2 := row_lt (len := l2) hi
      omega)
  refine ⟨w', e, g1, ?_, ?_, ?_⟩
  · intro i hi j hj
    have r1 := row_lt (len := l1) hi
    rw [g2 i hi _ (Or.inl (by omega)), if_pos (by omega)]
    congr 1; omega
  · intro i hi j hj
    rw [g2 i hi _ (Or.inr (by omega)), if_neg (by omega)]
    congr 1; omega
  · intro a ha
    refine g3 a fun i hi => ?_
    have r1 := row_lt (len := l1) hi
    have r2 := row_lt (len := l2) hi
    omega

/-- the interpolant as two nested sums, the inner one along the second direction -/
theorem tensor2_alt (e : El2 K) (k0 k1 : Nat) (u : List K) (r : Fin 2 → K) : tensor2 e k0 k1 u r =
    ∑ i ∈ range (e.n 0), lagD (e.n 0) (ent (e.z 0)) k0 i (r 0) * ∑ j ∈ range (e.n 1), ent u (i + e.n 0 * j) * lagD (e.n 1) (ent (e.z 1)) k1 j (r 1) := interp2_alt' _ _ _ _ _

/-- `findpts_el_eval_2` -/
theorem eval2_run {e : El2 K} (he : El2Ok e) {nptMax : Nat} {w : List K} (hw : w.length = workSize2 (e.n 0) (e.n 1) nptMax) (inp : List K) (hin : e.n 0 * e.n 1 ≤ inp.length) (rs : List (Fin 2 → K)) (hn : rs.length ≤ nptMax) :
    ∃ w', findptsElEval2 e inp rs w = some (w', rs.map (tensor2 e 0 0 inp)) ∧ w'.length = w.length := by
  have hsz := workSize2_area (nr := e.n 0) (ns := e.n 1) hn
  have l0 : ∀ x, (e.lag 0 0 x).length = e.n 0 := fun x => by have := (he.dir 0).lagLen 0 x (by omega); omega
  have l1 : ∀ x, (e.lag 1 0 x).length = e.n 1 := fun x => by have := (he.dir 1).lagLen 0 x (by omega); omega
  have v0 : ∀ x i, i < e.n 0 → ent (e.lag 0 0 x) i = lagD (e.n 0) (ent (e.z 0)) 0 i x := fun x i hi => by
    have := (he.dir 0).lagVal 0 x (by omega) 0 (by omega) i hi; rwa [zero_mul, zero_add] at this
  have v1 : ∀ x i, i < e.n 1 → ent (e.lag 1 0 x) i = lagD (e.n 1) (ent (e.z 1)) 0 i x := fun x i hi => by
    have := (he.dir 1).lagVal 0 x (by omega) 0 (by omega) i hi; rwa [zero_mul, zero_add] at this
  unfold findptsElEval2
  dsimp only
  generalize hpn : rs.length = pn at *
  generalize hnr : e.n 0 = nr at *
  generalize hns : e.n 1 = ns at *
  have hget : ∀ i, i < pn → rs[i]? = some (rs.getD i 0) := fun i hi => by
    rw [List.getElem?_eq_getElem (by omega), List.getD_eq_getElem _ _ (by omega)]
  obtain ⟨wa, ea, a1, a2, a3, a4⟩ := rows2_run (n := pn) (body := fun i w => (rs[i]?).bind fun r => (store w (i * nr) (e.lag 0 0 (r 0))).bind fun w => store w (nr * pn + i * ns) (e.lag 1 0 (r 1)))
    0 nr (nr * pn) ns (fun i => e.lag 0 0 (rs.getD i 0 0)) (fun i => e.lag 1 0 (rs.getD i 0 1)) (fun i _ => l0 _) (fun i _ => l1 _) w (by
      intro i hi w _
      beta_reduce
      rw [hget i hi, Option.bind_some, zero_add, Nat.mul_comm i nr, Nat.mul_comm i ns]) (by omega) (by omega)
  obtain ⟨wb, eb, b1, b2, b3⟩ := mxmIn_eq (w := wa) (c := nr * pn + ns * pn) (nc := nr) (A := inp) (na := ns) (b := nr * pn) (nb := pn) (Or.inr (le_refl _)) hin (by omega) (by omega)
  refine ⟨wb, ?_, by omega⟩
  rw [ea, Option.bind_some, eb, Option.bind_some]
  have : (List.range pn).mapM (fun i => i1 (wb.drop (i * nr)) nr (wb.drop (nr * pn + ns * pn + i * nr))) = some ((List.range pn).map fun i => tensor2 e 0 0 inp (rs.getD i 0)) := by
    refine mapM_some _ fun i hi => ?_
    have hi := List.mem_range.1 hi
    have r1 := row_lt (len := nr) hi
    rw [Nat.mul_comm i nr, tensor_i1_eq _ _ _ (by simp; omega) (by simp; omega), tensor2_alt, hnr, hns]
    congr 1
    refine sum_congr rfl fun k hk => ?_
    have hk := mem_range.1 hk
    rw [ent_drop, ent_drop, b3 _ (by omega)]
    have h1 := a2 i hi k hk
    rw [zero_add] at h1
    rw [h1, v0 _ _ hk]
    congr 1
    rw [show nr * pn + ns * pn + nr * i + k = nr * pn + ns * pn + (k + nr * i) by ring, b2 k hk i hi]
    refine sum_congr rfl fun j hj => ?_
    have hj := mem_range.1 hj
    rw [Nat.add_comm j (ns * i), a3 i hi j hj, v1 _ _ hj]
  rw [this, Option.map_some]
  congr 2
  refine List.ext_getElem? fun i => ?_
  rw [List.getElem?_map, List.getElem?_map]
  rcases Nat.lt_or_ge i pn with hi | hi
  · rw [List.getElem?_range hi, hget i hi]; rfl
  · rw [List.getElem?_eq_none (by simpa using hi), List.getElem?_eq_none (by omega)]; rfl

end Gslib.El
