import Verif.Spec.ElGroup2
import Verif.Lemmas.ElGroup2
import Verif.Props.GllLag

/-!
# The directions of an element as set up by `findpts_el_setup_2` and `findpts_el_setup_3`

`lobatto_nodes`, `gll_lag_setup` and the weights at the ends (findpts_el_2.c:170-179, findpts_el_3.c:235-244) make a direction `DirOk`.
-/

namespace Gslib.Props
open Gslib.El Gslib.Spec Gslib.Tensor Gslib.Num Gslib.Poly Polynomial

variable {K : Type} [Field K] [LinearOrder K] [IsStrictOrderedRing K]

/-- the nodes that `lobatto_nodes` stores -/
def lobZ (fuel : Nat) (eps : K) (guess : Nat → K) (n : Nat) : List K :=
  match lobattoNodes n fuel eps guess n (fun _ => none) with
  | some z => (List.range n).map (val z)
  | none => []

/-- what the function returned by `gll_lag_setup` stores for `m` derivatives at `x` -/
def gllOf (fuel : Nat) (eps : K) (guess : Nat → K) (n m : Nat) (x : K) : List K :=
  match gllResult fuel eps guess n [] ⟨(m + 1) * n, fun _ => none, m, x⟩ with
  | some p => (List.range ((m + 1) * n)).map (val p)
  | none => []

omit [LinearOrder K] [IsStrictOrderedRing K] in
theorem lagCall_ok {n m pcap : Nat} (hm : m ≤ 2) (hp : (m + 1) * n ≤ pcap) (p : Mem K) (x : K) : (⟨pcap, p, m, x⟩ : LagCall K).Ok n := by
  rcases (by omega : m = 0 ∨ m = 1 ∨ m = 2) with rfl | rfl | rfl <;> simp [LagCall.Ok] <;> omega

omit [LinearOrder K] [IsStrictOrderedRing K] in
theorem ent_range {n : Nat} (f : Nat → K) {i : Nat} (h : i < n) : ent ((List.range n).map f) i = f i := by
  unfold ent
  rw [List.getD_eq_getElem _ _ (by simpa using h), List.getElem_map, List.getElem_range]

theorem lag_rows {fuel n : Nat} {eps : K} {guess : Nat → K} (hn : 2 ≤ n) {z : Mem K} {v : Nat → K} (hl : lobattoNodes n fuel eps guess n (fun _ => none) = some z) (hv : ∀ i < n, z i = some (v i))
    (hd : ∀ i < n, ∀ j < n, v i = v j → i = j) {hist : List (LagCall K)} (hh : ∀ c ∈ hist, c.Ok n) {m pcap : Nat} (hm : m ≤ 2) (hp : (m + 1) * n ≤ pcap) (q : Mem K) (x : K) :
    ∃ p, gllResult fuel eps guess n hist ⟨pcap, q, m, x⟩ = some p ∧ ∀ k, k ≤ m → ∀ i, i < n → p (k * n + i) = some (lagD n v k i x) := by
  obtain ⟨p, e, h0, h1, h2, -⟩ := gll_lag_correct hn hl hv hd hh (lagCall_ok (n := n) hm hp q x)
  refine ⟨p, e, fun k hk i hi => ?_⟩
  rcases (by omega : k = 0 ∨ k = 1 ∨ k = 2) with rfl | rfl | rfl
  · rw [show 0 * n + i = i by ring]; exact h0 i hi
  · rw [one_mul]; exact h1 (by show (1 : Int) ≤ (m : Int); omega) i hi
  · exact h2 (by show (2 : Int) ≤ (m : Int); omega) i hi

omit [LinearOrder K] [IsStrictOrderedRing K] in
theorem lagD_congr {n : Nat} {v v' : Nat → K} (h : ∀ i < n, v i = v' i) (k i : Nat) (hi : i < n) (x : K) : lagD n v k i x = lagD n v' k i x := by
  have : Lagrange.basis (Finset.range n) v i = Lagrange.basis (Finset.range n) v' i := by
    unfold Lagrange.basis
    refine Finset.prod_congr rfl fun j hj => ?_
    rw [h i hi, h j (by simpa using (Finset.mem_erase.mp hj).2)]
  unfold lagD; rw [this]

/-- **C38, C49** Whenever `lobatto_nodes` returns distinct nodes from -1 to 1, the set-up of a direction succeeds and makes a direction as the theorems on elements require; and whatever calls were made before on the same
`lag_data` (of `gll_lag_size(n)` doubles), a call stores the derivatives of the Lagrange polynomials -/
theorem gll_dir_of_nodes {fuel n : Nat} {eps : K} {guess : Nat → K} (h2 : 2 ≤ n) {z : Mem K} {v : Nat → K} (hl : lobattoNodes n fuel eps guess n (fun _ => none) = some z) (hv : ∀ i < n, z i = some (v i))
    (hd : ∀ i < n, ∀ j < n, v i = v j → i = j) (hf : v 0 = -1) (hla : v (n - 1) = 1) (hr : ∀ i < n, -1 ≤ v i ∧ v i ≤ 1) :
    (∃ wt, DirOk n (lobZ fuel eps guess n) (gllOf fuel eps guess n) wt) ∧ ∀ hist : List (LagCall K), (∀ c ∈ hist, c.Ok n) → ∀ m pcap q x, m ≤ 2 → (m + 1) * n ≤ pcap →
      ∃ p, gllResult fuel eps guess n hist ⟨pcap, q, m, x⟩ = some p ∧ ∀ i, i < (m + 1) * n → p i = some (ent (gllOf fuel eps guess n m x) i) := by
  have hzl : (lobZ fuel eps guess n).length = n := by unfold lobZ; rw [hl]; simp
  have hze : ∀ i, i < n → ent (lobZ fuel eps guess n) i = v i := by
    intro i hi
    unfold lobZ; rw [hl]
    show ent ((List.range n).map (val z)) i = _
    rw [ent_range _ hi, val, hv i hi]; rfl
  have hlen : ∀ m x, m ≤ 2 → (gllOf fuel eps guess n m x).length = (m + 1) * n := by
    intro m x hm
    obtain ⟨p, e, -⟩ := lag_rows h2 hl hv hd (hist := []) (by simp) hm (le_refl _) (fun _ => none) x
    unfold gllOf; rw [e]; simp
  have hval : ∀ m x, m ≤ 2 → ∀ k, k ≤ m → ∀ i, i < n → ent (gllOf fuel eps guess n m x) (k * n + i) = lagD n v k i x := by
    intro m x hm k hk i hi
    obtain ⟨p, e, h⟩ := lag_rows h2 hl hv hd (hist := []) (by simp) hm (le_refl _) (fun _ => none) x
    have hlt : k * n + i < (m + 1) * n := by
      have := row_lt (len := n) (show k < m + 1 by omega)
      rw [Nat.mul_comm k, Nat.mul_comm (m + 1)]; omega
    unfold gllOf
    rw [e]
    show ent ((List.range ((m + 1) * n)).map (val p)) (k * n + i) = _
    rw [ent_range _ hlt, val, h k hk i hi]; rfl
  refine ⟨?_, ?_⟩
  · obtain ⟨wt, hwt⟩ : ∃ wt, wtendSetup n (gllOf fuel eps guess n) (List.replicate (6 * n) 0) = some wt := by
      have a1 := hlen 2 (-1) (le_refl _)
      have a2 := hlen 2 1 (le_refl _)
      unfold wtendSetup
      obtain ⟨w1, e1, l1, -⟩ := store_eq (p := List.replicate (6 * n) (0 : K)) (off := 0) (v := gllOf fuel eps guess n 2 (-1)) (by rw [List.length_replicate, a1]; omega)
      rw [List.length_replicate] at l1
      obtain ⟨w2, e2, l2, -⟩ := store_eq (p := w1) (off := 3 * n) (v := gllOf fuel eps guess n 2 1) (by rw [a2, l1]; omega)
      obtain ⟨w3, e3, l3, -⟩ := store1 (w := w2) (a := 0) 1 (by omega)
      obtain ⟨w4, e4, l4⟩ := forUp_inv (fun _ (w : List K) => w.length = 6 * n) (fun i w => store w i [0]) (n - 1) 1 w3 (by omega) (by
        intro k _ hk w hw
        obtain ⟨w', e', g, -⟩ := store1 (w := w) (a := k) 0 (by omega)
        exact ⟨w', e', by omega⟩)
      obtain ⟨w5, e5, l5⟩ := forUp_inv (fun _ (w : List K) => w.length = 6 * n) (fun i w => store w (3 * n + i) [0]) (n - 1) 0 w4 l4 (by
        intro k _ hk w hw
        obtain ⟨w', e', g, -⟩ := store1 (w := w) (a := 3 * n + k) 0 (by omega)
        exact ⟨w', e', by omega⟩)
      obtain ⟨w6, e6, -⟩ := store1 (w := w5) (a := 3 * n + (n - 1)) 1 (by omega)
      exact ⟨w6, by rw [e1, Option.bind_some, e2, Option.bind_some, e3, Option.bind_some, e4, Option.bind_some, e5, Option.bind_some, e6]⟩
    refine ⟨wt, h2, hzl, fun i hi j hj h => hd i hi j hj (by rwa [hze i hi, hze j hj] at h), by rw [hze 0 (by omega), hf], by rw [hze _ (by omega), hla], fun i hi => by rw [hze i hi]; exact hr i hi, hlen,
      fun m x hm k hk i hi => ?_, _, List.length_replicate, hwt⟩
    rw [hval m x hm k hk i hi]
    exact (lagD_congr hze k i hi x).symm
  · intro hist hh m pcap q x hm hp
    obtain ⟨p, e, h⟩ := lag_rows h2 hl hv hd hh hm hp q x
    refine ⟨p, e, fun i hi => ?_⟩
    have hk : i / n ≤ m := by have := Nat.div_lt_of_lt_mul (show i < n * (m + 1) by rw [Nat.mul_comm]; exact hi); omega
    have hi2 : i / n * n + i % n = i := by rw [Nat.mul_comm]; exact Nat.div_add_mod i n
    have := h (i / n) hk (i % n) (Nat.mod_lt _ (by omega))
    rw [← hval m x hm (i / n) hk (i % n) (Nat.mod_lt _ (by omega)), hi2] at this
    exact this

/-- **C38, C49** for `2 <= n <= 24`, unconditionally -/
theorem gll_dir (fuel : Nat) (eps : K) (guess : Nat → K) {n : Nat} (h2 : 2 ≤ n) (hn : n ≤ 24) :
    (∃ wt, DirOk n (lobZ fuel eps guess n) (gllOf fuel eps guess n) wt) ∧ ∀ hist : List (LagCall K), (∀ c ∈ hist, c.Ok n) → ∀ m pcap q x, m ≤ 2 → (m + 1) * n ≤ pcap →
      ∃ p, gllResult fuel eps guess n hist ⟨pcap, q, m, x⟩ = some p ∧ ∀ i, i < (m + 1) * n → p i = some (ent (gllOf fuel eps guess n m x) i) := by
  obtain ⟨z, v, e, hv, hm, h0, h1⟩ := lobatto_nodes_increasing n fuel n eps guess (fun _ => none) (le_refl _) h2 hn
  have hmono : ∀ i j, i ≤ j → j < n → v i ≤ v j := fun i j hij hj => by
    rcases Nat.lt_or_ge i j with h | h
    · exact (hm i j h hj).le
    · obtain rfl : i = j := by omega
      exact le_refl _
  refine gll_dir_of_nodes h2 e hv ?_ h0 h1 fun i hi => ⟨by rw [← h0]; exact hmono 0 i (by omega) hi, by rw [← h1]; exact hmono i (n - 1) (by omega) (by omega)⟩
  intro i hi j hj h
  rcases Nat.lt_trichotomy i j with g | g | g
  · exact absurd h (hm i j g hj).ne
  · exact g
  · exact absurd h (hm j i g hi).ne'

end Gslib.Props
