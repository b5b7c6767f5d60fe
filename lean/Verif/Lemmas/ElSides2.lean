import Verif.Lemmas.ElArea2
import Mathlib.Tactic.IntervalCases

/-!
# Helper lemmas: data of the edges and corners of a 2D element
-/

namespace Gslib.El
open Gslib.Tensor Gslib.Num Gslib.Spec Gslib.Props Polynomial Finset

variable {K : Type} [Field K] [LinearOrder K]

/-- entry `j` of row `q` of the edges at `r = -1` (`q=0`: position, `q=1`: normal derivative) and `r = 1` (`q=2,3`) for coordinate `c` -/
noncomputable def rowS (e : El2 K) (q : Nat) (c : Fin 2) (j : Nat) : K := ∑ i ∈ range (e.n 0), ent (e.x c) (i + e.n 0 * j) * lagD (e.n 0) (ent (e.z 0)) (q % 2) i (sideEnd K (q / 2))

/-- the normal derivative along the edges `s = -1` (`q=0`) and `s = 1` -/
noncomputable def rowR (e : El2 K) (q : Nat) (c : Fin 2) (i : Nat) : K := ∑ j ∈ range (e.n 1), ent (e.x c) (i + e.n 0 * j) * lagD (e.n 1) (ent (e.z 1)) 1 j (sideEnd K q)

/-- `sides` holds the data of the first two edges for coordinate `c` -/
def HasS (e : El2 K) (sd : List K) (c : Fin 2) : Prop := ∀ q, q < 4 → ∀ j, j < e.n 1 → ent sd ((2 * q + c.val) * e.n 1 + j) = rowS e q c j

/-- `sides` holds the normal derivatives of the other two edges for coordinate `c` -/
def HasR (e : El2 K) (sd : List K) (c : Fin 2) : Prop := ∀ q, q < 2 → ∀ i, i < e.n 0 → ent sd (8 * e.n 1 + (2 * q + c.val) * e.n 0 + i) = rowR e q c i

theorem edgeSd_run {e : El2 K} (he : El2Ok e) (d : Fin 2) (w sd : List K) (hw : 4 * e.n 0 + 4 * e.n 1 ≤ w.length) (hsd : sd.length = 8 * e.n 1 + 4 * e.n 0)
    (hwt : ∀ q, q < 4 → ∀ i, i < e.n 0 → ent w (i + e.n 0 * q) = lagD (e.n 0) (ent (e.z 0)) (q % 2) i (sideEnd K (q / 2))) :
    ∃ w' sd', edgeSd e d (w, sd) = some (w', sd') ∧ w'.length = w.length ∧ (∀ q, q < 4 → ∀ i, i < e.n 0 → ent w' (i + e.n 0 * q) = ent w (i + e.n 0 * q)) ∧ sd'.length = sd.length ∧ HasS e sd' d ∧
      ∀ a, (∀ q, q < 4 → ∀ j, j < e.n 1 → a ≠ (2 * q + d.val) * e.n 1 + j) → ent sd' a = ent sd a := by
  have hd := d.isLt
  have hx := he.x d
  unfold edgeSd HasS
  dsimp only
  have hS : ∀ q j, rowS e q d j = ∑ i ∈ range (e.n 0), ent (e.x d) (i + e.n 0 * j) * lagD (e.n 0) (ent (e.z 0)) (q % 2) i (sideEnd K (q / 2)) := fun _ _ => rfl
  generalize rowS e = S at *
  generalize e.n 0 = nr at *
  generalize e.n 1 = ns at *
  obtain ⟨w', ew, b1, b2, b3⟩ := mtxmIn_eq (w := w) (c := 4 * nr) (nc := ns) (A := e.x d) (na := nr) (b := 0) (nb := 4) (Or.inr (by omega)) (by omega) (by omega) (by omega)
  have hrow : ∀ q, q < 4 → ∀ j, j < ns → ent w' (4 * nr + (j + ns * q)) = S q d j := by
    intro q hq j hj
    rw [b2 j hj q hq, hS]
    refine sum_congr rfl fun i hi => ?_
    rw [zero_add, hwt q hq i (mem_range.1 hi)]
  have hkeep : ∀ q, q < 4 → ∀ i, i < nr → ent w' (i + nr * q) = ent w (i + nr * q) := by
    intro q hq i hi
    have r := row_lt (len := nr) hq
    exact b3 _ (by omega)
  obtain ⟨s1, e1, a1, a2, a3⟩ := cpy_eq (dst := sd) (o := d.val * ns) (src := w') (s := 4 * nr) (len := ns) (by omega) (by
    rcases (by omega : d.val = 0 ∨ d.val = 1) with h | h <;> rw [h] <;> omega)
  obtain ⟨s2, e2, c1, c2, c3⟩ := cpy_eq (dst := s1) (o := (2 + d.val) * ns) (src := w') (s := 4 * nr + ns) (len := ns) (by omega) (by
    rcases (by omega : d.val = 0 ∨ d.val = 1) with h | h <;> rw [h] <;> omega)
  obtain ⟨s3, e3, d1, d2, d3⟩ := cpy_eq (dst := s2) (o := (4 + d.val) * ns) (src := w') (s := 4 * nr + 2 * ns) (len := ns) (by omega) (by
    rcases (by omega : d.val = 0 ∨ d.val = 1) with h | h <;> rw [h] <;> omega)
  obtain ⟨s4, e4, f1, f2, f3⟩ := cpy_eq (dst := s3) (o := (6 + d.val) * ns) (src := w') (s := 4 * nr + 3 * ns) (len := ns) (by omega) (by
    rcases (by omega : d.val = 0 ∨ d.val = 1) with h | h <;> rw [h] <;> omega)
  refine ⟨w', s4, by rw [ew, Option.bind_some, e1, Option.bind_some, e2, Option.bind_some, e3, Option.bind_some, e4]; rfl, b1, hkeep, by omega, ?_, ?_⟩
  · intro q hq j hj
    rw [← hrow q hq j hj]
    generalize d.val = t at *
    rcases (by omega : t = 0 ∨ t = 1) with rfl | rfl
    · interval_cases q
      · rw [f3 _ (by omega), d3 _ (by omega), c3 _ (by omega), show (2 * 0 + 0) * ns + j = 0 * ns + j by ring, a2 j hj]; congr 1
      · rw [f3 _ (by omega), d3 _ (by omega), show (2 * 1 + 0) * ns + j = (2 + 0) * ns + j by ring, c2 j hj]; congr 1; omega
      · rw [f3 _ (by omega), show (2 * 2 + 0) * ns + j = (4 + 0) * ns + j by ring, d2 j hj]; congr 1; omega
      · rw [show (2 * 3 + 0) * ns + j = (6 + 0) * ns + j by ring, f2 j hj]; congr 1; omega
    · interval_cases q
      · rw [f3 _ (by omega), d3 _ (by omega), c3 _ (by omega), show (2 * 0 + 1) * ns + j = 1 * ns + j by ring, a2 j hj]; congr 1
      · rw [f3 _ (by omega), d3 _ (by omega), show (2 * 1 + 1) * ns + j = (2 + 1) * ns + j by ring, c2 j hj]; congr 1; omega
      · rw [f3 _ (by omega), show (2 * 2 + 1) * ns + j = (4 + 1) * ns + j by ring, d2 j hj]; congr 1; omega
      · rw [show (2 * 3 + 1) * ns + j = (6 + 1) * ns + j by ring, f2 j hj]; congr 1; omega
  · intro a ha
    have h0 := fun j => ha 0 (by omega) j
    have h1 := fun j => ha 1 (by omega) j
    have h2 := fun j => ha 2 (by omega) j
    have h3 := fun j => ha 3 (by omega) j
    have out : ∀ o, (∀ j, j < ns → a ≠ o + j) → a < o ∨ o + ns ≤ a := by
      intro o h
      by_contra hc
      exact h (a - o) (by omega) (by omega)
    rw [f3 a (out _ h3), d3 a (out _ h2), c3 a (out _ h1), a3 a (out _ fun j hj => by have := h0 j hj; rwa [Nat.mul_zero, Nat.zero_add] at this)]

theorem edgeRd_run {e : El2 K} (he : El2Ok e) (d : Fin 2) (w sd : List K) (hw : 2 * e.n 1 + 2 * e.n 0 ≤ w.length) (hsd : sd.length = 8 * e.n 1 + 4 * e.n 0)
    (hwt : ∀ q, q < 2 → ∀ j, j < e.n 1 → ent w (j + e.n 1 * q) = lagD (e.n 1) (ent (e.z 1)) 1 j (sideEnd K q)) :
    ∃ w' sd', edgeRd e d (w, sd) = some (w', sd') ∧ w'.length = w.length ∧ (∀ q, q < 2 → ∀ j, j < e.n 1 → ent w' (j + e.n 1 * q) = ent w (j + e.n 1 * q)) ∧ sd'.length = sd.length ∧ HasR e sd' d ∧
      ∀ a, (∀ q, q < 2 → ∀ i, i < e.n 0 → a ≠ 8 * e.n 1 + (2 * q + d.val) * e.n 0 + i) → ent sd' a = ent sd a := by
  have hd := d.isLt
  have hx := he.x d
  unfold edgeRd HasR
  dsimp only
  have hS : ∀ q i, rowR e q d i = ∑ j ∈ range (e.n 1), ent (e.x d) (i + e.n 0 * j) * lagD (e.n 1) (ent (e.z 1)) 1 j (sideEnd K q) := fun _ _ => rfl
  generalize rowR e = S at *
  generalize e.n 0 = nr at *
  generalize e.n 1 = ns at *
  obtain ⟨w', ew, b1, b2, b3⟩ := mxmIn_eq (w := w) (c := 2 * ns) (nc := nr) (A := e.x d) (na := ns) (b := 0) (nb := 2) (Or.inr (by omega)) (by omega) (by omega) (by omega)
  have hrow : ∀ q, q < 2 → ∀ i, i < nr → ent w' (2 * ns + (i + nr * q)) = S q d i := by
    intro q hq i hi
    rw [b2 i hi q hq, hS]
    refine sum_congr rfl fun j hj => ?_
    rw [zero_add, hwt q hq j (mem_range.1 hj)]
  have hkeep : ∀ q, q < 2 → ∀ j, j < ns → ent w' (j + ns * q) = ent w (j + ns * q) := by
    intro q hq j hj
    have r := row_lt (len := ns) hq
    exact b3 _ (by omega)
  obtain ⟨s1, e1, a1, a2, a3⟩ := cpy_eq (dst := sd) (o := 8 * ns + d.val * nr) (src := w') (s := 2 * ns) (len := nr) (by omega) (by
    rcases (by omega : d.val = 0 ∨ d.val = 1) with h | h <;> rw [h] <;> omega)
  obtain ⟨s2, e2, c1, c2, c3⟩ := cpy_eq (dst := s1) (o := 8 * ns + (2 + d.val) * nr) (src := w') (s := 2 * ns + nr) (len := nr) (by omega) (by
    rcases (by omega : d.val = 0 ∨ d.val = 1) with h | h <;> rw [h] <;> omega)
  refine ⟨w', s2, by rw [ew, Option.bind_some, e1, Option.bind_some, e2]; rfl, b1, hkeep, by omega, ?_, ?_⟩
  · intro q hq i hi
    rw [← hrow q hq i hi]
    generalize d.val = t at *
    rcases (by omega : t = 0 ∨ t = 1) with rfl | rfl
    · interval_cases q
      · rw [c3 _ (by omega), show 8 * ns + (2 * 0 + 0) * nr + i = 8 * ns + 0 * nr + i by ring, a2 i hi]; congr 1
      · rw [show 8 * ns + (2 * 1 + 0) * nr + i = 8 * ns + (2 + 0) * nr + i by ring, c2 i hi]; congr 1; omega
    · interval_cases q
      · rw [c3 _ (by omega), show 8 * ns + (2 * 0 + 1) * nr + i = 8 * ns + 1 * nr + i by ring, a2 i hi]; congr 1
      · rw [show 8 * ns + (2 * 1 + 1) * nr + i = 8 * ns + (2 + 1) * nr + i by ring, c2 i hi]; congr 1; omega
  · intro a ha
    have h0 := fun j => ha 0 (by omega) j
    have h1 := fun j => ha 1 (by omega) j
    have out : ∀ o, (∀ j, j < nr → a ≠ o + j) → a < o ∨ o + nr ≤ a := by
      intro o h
      by_contra hc
      exact h (a - o) (by omega) (by omega)
    rw [c3 a (out _ h1), a3 a (out _ fun j hj => by have := h0 j hj; rwa [Nat.mul_zero, Nat.zero_add] at this)]

theorem workSize2_sides (nr ns nptMax : Nat) : 4 * (nr + ns) ≤ workSize2 nr ns nptMax ∧ 6 * (nr + 6) ≤ workSize2 nr ns nptMax := by
  unfold workSize2; omega

/-- addresses of the data of the two kinds of edges -/
theorem sides_disj {nr ns q q' c i j : Nat} (hq : q < 4) (hc : c < 2) (hj : j < ns) : (2 * q + c) * ns + j ≠ 8 * ns + q' * nr + i := by
  have : (2 * q + c) * ns + ns ≤ 8 * ns := by
    calc (2 * q + c) * ns + ns = (2 * q + c + 1) * ns := by ring
      _ ≤ 8 * ns := Nat.mul_le_mul_right _ (by omega)
  omega

theorem rows_ne {n a b i j : Nat} (hab : a ≠ b) (hi : i < n) (hj : j < n) : a * n + i ≠ b * n + j := by
  rcases Nat.lt_or_gt_of_ne hab with h | h
  · have := row_lt (len := n) h
    rw [Nat.mul_comm a, Nat.mul_comm b]; omega
  · have := row_lt (len := n) h
    rw [Nat.mul_comm a, Nat.mul_comm b]; omega

/-- `compute_edge_data_s` -/
theorem edgeDataS_run {e : El2 K} (he : El2Ok e) {nptMax : Nat} {st : ElSt2 K} (hm : El2Mem e nptMax st) :
    ∃ w sd, edgeDataS e st = some { st with work := w, sides := sd } ∧ w.length = st.work.length ∧ sd.length = st.sides.length ∧ (∀ c, HasS e sd c) ∧ ∀ c, HasR e st.sides c → HasR e sd c := by
  obtain ⟨z1, -⟩ := workSize2_sides (e.n 0) (e.n 1) nptMax
  have hw := hm.work
  have hsd := hm.sides
  obtain ⟨hl, hv⟩ := wtend_ent (he.dir 0)
  unfold edgeDataS
  obtain ⟨w1, e1, a1, a2, a3⟩ := cpy_eq (dst := st.work) (o := 0) (src := e.wtend 0) (s := 0) (len := 2 * e.n 0) (by omega) (by omega)
  obtain ⟨w2, e2, b1, b2, b3⟩ := cpy_eq (dst := w1) (o := 2 * e.n 0) (src := e.wtend 0) (s := 3 * e.n 0) (len := 2 * e.n 0) (by omega) (by omega)
  rw [e1, Option.bind_some, e2, Option.bind_some]
  have hwt : ∀ q, q < 4 → ∀ i, i < e.n 0 → ent w2 (i + e.n 0 * q) = lagD (e.n 0) (ent (e.z 0)) (q % 2) i (sideEnd K (q / 2)) := by
    intro q hq i hi
    have r := row_lt (len := e.n 0) hq
    rw [← hv (q / 2) (by omega) (q % 2) (by omega) i hi]
    interval_cases q
    · rw [b3 _ (by omega)]
      have := a2 i (by omega)
      rw [zero_add] at this
      rw [Nat.mul_zero, Nat.add_zero, this]; congr 1; simp
    · rw [b3 _ (by omega)]
      have := a2 (i + e.n 0) (by omega)
      rw [zero_add] at this
      rw [Nat.mul_one, this]; congr 1; simp; omega
    · rw [show i + e.n 0 * 2 = 2 * e.n 0 + i by ring, b2 i (by omega)]; congr 1; simp
    · rw [show i + e.n 0 * 3 = 2 * e.n 0 + (e.n 0 + i) by ring, b2 _ (by omega)]; congr 1; simp
  obtain ⟨w3, s3, e3, c1, c2, c3, c4, c5⟩ := edgeSd_run he 0 w2 st.sides (by omega) hsd hwt
  obtain ⟨w4, s4, e4, d1, d2, d3, d4, d5⟩ := edgeSd_run he 1 w3 s3 (by omega) (by omega) fun q hq i hi => (c2 q hq i hi).trans (hwt q hq i hi)
  rw [e3, Option.bind_some, e4]
  refine ⟨w4, s4, rfl, by omega, by omega, ?_, ?_⟩
  · intro c
    rcases (by omega : c.val = 0 ∨ c.val = 1) with h | h
    · obtain rfl : c = 0 := Fin.ext h
      intro q hq j hj
      rw [d5 _ fun q' hq' j' hj' => rows_ne (by simp; omega) hj hj', c4 q hq j hj]
    · obtain rfl : c = 1 := Fin.ext h
      exact d4
  · intro c hc q hq i hi
    rw [d5 _ fun q' hq' j' hj' => (sides_disj hq' (by simp) hj').symm, c5 _ fun q' hq' j' hj' => (sides_disj hq' (by simp) hj').symm, hc q hq i hi]

/-- `compute_edge_data_r` -/
theorem edgeDataR_run {e : El2 K} (he : El2Ok e) {nptMax : Nat} {st : ElSt2 K} (hm : El2Mem e nptMax st) :
    ∃ w sd, edgeDataR e st = some { st with work := w, sides := sd, edgeX := some e.x } ∧ w.length = st.work.length ∧ sd.length = st.sides.length ∧ (∀ c, HasR e sd c) ∧ ∀ c, HasS e st.sides c → HasS e sd c := by
  obtain ⟨z1, -⟩ := workSize2_sides (e.n 0) (e.n 1) nptMax
  have hw := hm.work
  have hsd := hm.sides
  obtain ⟨hl, hv⟩ := wtend_ent (he.dir 1)
  unfold edgeDataR
  obtain ⟨w1, e1, a1, a2, a3⟩ := cpy_eq (dst := st.work) (o := 0) (src := e.wtend 1) (s := e.n 1) (len := e.n 1) (by omega) (by omega)
  obtain ⟨w2, e2, b1, b2, b3⟩ := cpy_eq (dst := w1) (o := e.n 1) (src := e.wtend 1) (s := 4 * e.n 1) (len := e.n 1) (by omega) (by omega)
  rw [e1, Option.bind_some, e2, Option.bind_some]
  have hwt : ∀ q, q < 2 → ∀ j, j < e.n 1 → ent w2 (j + e.n 1 * q) = lagD (e.n 1) (ent (e.z 1)) 1 j (sideEnd K q) := by
    intro q hq i hi
    rw [← hv q (by omega) 1 (by omega) i hi]
    interval_cases q
    · rw [b3 _ (by omega)]
      have := a2 i (by omega)
      rw [zero_add] at this
      rw [Nat.mul_zero, Nat.add_zero, this]; congr 1; omega
    · rw [Nat.mul_one, Nat.add_comm i, b2 i hi]; congr 1; omega
  obtain ⟨w3, s3, e3, c1, c2, c3, c4, c5⟩ := edgeRd_run he 0 w2 st.sides (by omega) hsd hwt
  obtain ⟨w4, s4, e4, d1, d2, d3, d4, d5⟩ := edgeRd_run he 1 w3 s3 (by omega) (by omega) fun q hq i hi => (c2 q hq i hi).trans (hwt q hq i hi)
  rw [e3, Option.bind_some, e4]
  refine ⟨w4, s4, rfl, by omega, by omega, ?_, ?_⟩
  · intro c
    rcases (by omega : c.val = 0 ∨ c.val = 1) with h | h
    · obtain rfl : c = 0 := Fin.ext h
      intro q hq j hj
      rw [d5 _ fun q' hq' j' hj' => by
        have := rows_ne (n := e.n 0) (a := 2 * q + (0 : Fin 2).val) (b := 2 * q' + (1 : Fin 2).val) (by simp; omega) hj hj'
        omega, c4 q hq j hj]
    · obtain rfl : c = 1 := Fin.ext h
      exact d4
  · intro c hc q hq j hj
    rw [d5 _ fun q' hq' i' hi' => sides_disj hq c.isLt hj, c5 _ fun q' hq' i' hi' => sides_disj hq c.isLt hj, hc q hq j hj]

/-- reference coordinates of corner `q` -/
def cornerR (K : Type) [Field K] (q : Fin 4) : Fin 2 → K := ![sideEnd K (q.val % 2), sideEnd K (q.val / 2)]

theorem ptWork_run {e : El2 K} (he : El2Ok e) (d : Fin 2) (w : List K) (hw : 6 * (e.n 0 + 6) ≤ w.length) :
    ∃ w', ptWork e d w = some w' ∧ w'.length = w.length ∧ ∀ q : Fin 4, ptVals w' (6 * e.n 0) q = some ![tensor2 e 0 0 (e.x d) (cornerR K q), tensor2 e 1 0 (e.x d) (cornerR K q), tensor2 e 0 1 (e.x d) (cornerR K q),
      tensor2 e 2 0 (e.x d) (cornerR K q), tensor2 e 0 2 (e.x d) (cornerR K q)] := by
  obtain ⟨hl0, hv0⟩ := wtend_ent (he.dir 0)
  obtain ⟨hl1, hv1⟩ := wtend_ent (he.dir 1)
  have hx := he.x d
  unfold ptWork
  rw [mxm_eq (e.n 0) (e.x d) (e.n 1) (by omega) 6 (e.wtend 1) (by omega), Option.bind_some]
  obtain ⟨w1, e1, a1, a2, a3⟩ := store_eq (p := w) (off := 0) (v := tab2 (e.n 0) 6 fun i j => mulEnt (e.n 0) (e.n 1) (e.x d) (e.wtend 1) i j) (by simp; omega)
  rw [e1, Option.bind_some]
  obtain ⟨w2, e2, b1, b2, b3⟩ := mtxmIn_eq (w := w1) (c := 6 * e.n 0) (nc := 6) (A := e.wtend 0) (na := e.n 0) (b := 0) (nb := 6) (Or.inr (by omega)) (by omega) (by omega) (by omega)
  rw [e2]
  refine ⟨w2, rfl, by omega, ?_⟩
  have key : ∀ s0, s0 < 2 → ∀ k0, k0 < 3 → ∀ s1, s1 < 2 → ∀ k1, k1 < 3 → ∀ r : Fin 2 → K, r 0 = sideEnd K s0 → r 1 = sideEnd K s1 →
      w2[6 * e.n 0 + (6 * (3 * s1 + k1) + (3 * s0 + k0))]? = some (tensor2 e k0 k1 (e.x d) r) := by
    intro s0 hs0 k0 hk0 s1 hs1 k1 hk1 r hr0 hr1
    rw [getElem?_ent (by omega), show 6 * e.n 0 + (6 * (3 * s1 + k1) + (3 * s0 + k0)) = 6 * e.n 0 + ((3 * s0 + k0) + 6 * (3 * s1 + k1)) by ring, b2 _ (by omega) _ (by omega), tensor2_alt]
    congr 1
    refine sum_congr rfl fun i hi => ?_
    have hi := mem_range.1 hi
    rw [hr0, hr1, ← hv0 s0 hs0 k0 hk0 i hi, show i + e.n 0 * (3 * s0 + k0) = 3 * e.n 0 * s0 + (k0 * e.n 0 + i) by ring]
    congr 1
    have hlt : i + e.n 0 * (3 * s1 + k1) < e.n 0 * 6 := idx_lt hi (by omega)
    have := a2 (i + e.n 0 * (3 * s1 + k1)) (by simpa using hlt)
    rw [this, ent_tab2 hi (by omega), mulEnt]
    refine sum_congr rfl fun j hj => ?_
    have hj := mem_range.1 hj
    rw [← hv1 s1 hs1 k1 hk1 j hj, show j + e.n 1 * (3 * s1 + k1) = 3 * e.n 1 * s1 + (k1 * e.n 1 + j) by ring]
  intro q
  have h1 : q.val % 2 < 2 := Nat.mod_lt _ (by omega)
  have h2 : q.val / 2 < 2 := by omega
  unfold ptVals
  dsimp only
  rw [key _ h1 0 (by omega) _ h2 0 (by omega) (cornerR K q) rfl rfl, key _ h1 1 (by omega) _ h2 0 (by omega) (cornerR K q) rfl rfl, key _ h1 0 (by omega) _ h2 1 (by omega) (cornerR K q) rfl rfl,
    key _ h1 2 (by omega) _ h2 0 (by omega) (cornerR K q) rfl rfl, key _ h1 0 (by omega) _ h2 2 (by omega) (cornerR K q) rfl rfl]
  rfl

theorem all4_some {A : Type} {f : Fin 4 → Option A} {g : Fin 4 → A} (h : ∀ q, f q = some (g q)) : all4 f = some g := by
  unfold all4
  rw [h 0, h 1, h 2, h 3]
  show some _ = some _
  congr 1
  funext q
  fin_cases q <;> rfl

/-- the data of the corners -/
noncomputable def corner2 (e : El2 K) (q : Fin 4) : GPt2 K := ⟨(elMap2 e).X (cornerR K q), (elMap2 e).J (cornerR K q), (elMap2 e).H (cornerR K q)⟩

/-- `compute_pt_data` -/
theorem ptData_run {e : El2 K} (he : El2Ok e) {nptMax : Nat} {st : ElSt2 K} (hm : El2Mem e nptMax st) :
    ∃ w, ptData e st = some { st with work := w, pt := some (corner2 e) } ∧ w.length = st.work.length := by
  obtain ⟨-, z1⟩ := workSize2_sides (e.n 0) (e.n 1) nptMax
  have hw := hm.work
  obtain ⟨w1, e1, a1, a2⟩ := ptWork_run he 0 st.work (by omega)
  obtain ⟨w2, e2, b1, b2⟩ := ptWork_run he 1 w1 (by omega)
  refine ⟨w2, ?_, by omega⟩
  unfold ptData
  rw [e1, Option.bind_some, all4_some a2, Option.bind_some, e2, Option.bind_some, all4_some b2]
  rfl

/-- what is known of the data of edges and corners -/
structure Sides2 (e : El2 K) (nptMax : Nat) (st : ElSt2 K) : Prop where
  mem : El2Mem e nptMax st
  s : st.sideInit &&& 1 ≠ 0 → ∀ c, HasS e st.sides c
  r : st.sideInit &&& 2 ≠ 0 → st.edgeX = some e.x ∧ ∀ c, HasR e st.sides c
  p : st.sideInit &&& 4 ≠ 0 → st.pt = some (corner2 e)

theorem bit_or (f : U32) (a b : U32) (hab : a &&& b = 0) : (f ||| a) &&& b = f &&& b := by
  rw [BitVec.and_comm, BitVec.and_or_distrib_left, BitVec.and_comm b a, hab]
  simp [BitVec.and_comm]

/-- `get_edge` -/
theorem getEdge_run {e : El2 K} (he : El2Ok e) {nptMax : Nat} {st : ElSt2 K} (hm : Sides2 e nptMax st) {k : Nat} (hk : k < 2) :
    ∃ st', getEdge e k st = some st' ∧ Sides2 e nptMax st' ∧ (k = 0 → ∀ c, HasS e st'.sides c) ∧ (k = 1 → st'.edgeX = some e.x ∧ ∀ c, HasR e st'.sides c) := by
  unfold getEdge
  rcases (by omega : k = 0 ∨ k = 1) with rfl | rfl
  · by_cases h0 : st.sideInit &&& ((1 : U32) <<< 0) = 0
    · rw [if_pos h0, if_pos rfl]
      obtain ⟨w, sd, ew, h1, h2, h3, h4⟩ := edgeDataS_run he hm.mem
      rw [ew]
      refine ⟨_, rfl, ⟨⟨h2.trans hm.mem.sides, h1.trans hm.mem.work⟩, fun _ => h3, fun h => ?_, fun h => ?_⟩, fun _ => h3, fun h => by omega⟩
      · have := hm.r (by rw [← bit_or st.sideInit ((1 : U32) <<< 0) 2 (by decide)]; exact h)
        exact ⟨this.1, fun c => h4 c (this.2 c)⟩
      · exact hm.p (by rw [← bit_or st.sideInit ((1 : U32) <<< 0) 4 (by decide)]; exact h)
    · rw [if_neg h0]
      exact ⟨st, rfl, hm, fun _ => hm.s h0, fun h => by omega⟩
  · by_cases h0 : st.sideInit &&& ((1 : U32) <<< 1) = 0
    · rw [if_pos h0, if_neg (by omega), if_pos rfl]
      obtain ⟨w, sd, ew, h1, h2, h3, h4⟩ := edgeDataR_run he hm.mem
      rw [ew]
      refine ⟨_, rfl, ⟨⟨h2.trans hm.mem.sides, h1.trans hm.mem.work⟩, fun h => ?_, fun h => ⟨rfl, h3⟩, fun h => ?_⟩, fun h => by omega, fun _ => ⟨rfl, h3⟩⟩
      · have := hm.s (by rw [← bit_or st.sideInit ((1 : U32) <<< 1) 1 (by decide)]; exact h)
        exact fun c => h4 c (this c)
      · exact hm.p (by rw [← bit_or st.sideInit ((1 : U32) <<< 1) 4 (by decide)]; exact h)
    · rw [if_neg h0]
      exact ⟨st, rfl, hm, fun h => by omega, fun _ => hm.r h0⟩

/-- `get_pt` -/
theorem getPt_run {e : El2 K} (he : El2Ok e) {nptMax : Nat} {st : ElSt2 K} (hm : Sides2 e nptMax st) :
    ∃ st', getPt e st = some st' ∧ Sides2 e nptMax st' ∧ st'.pt = some (corner2 e) := by
  unfold getPt
  by_cases h0 : st.sideInit &&& 4 = 0
  · rw [if_pos h0]
    obtain ⟨w, ew, h1⟩ := ptData_run he hm.mem
    rw [ew]
    refine ⟨_, rfl, ⟨⟨hm.mem.sides, h1.trans hm.mem.work⟩, fun h => ?_, fun h => ?_, fun _ => rfl⟩, rfl⟩
    · exact hm.s (by rw [← bit_or st.sideInit 4 1 (by decide)]; exact h)
    · exact hm.r (by rw [← bit_or st.sideInit 4 2 (by decide)]; exact h)
  · rw [if_neg h0]
    exact ⟨st, rfl, hm, hm.p h0⟩

end Gslib.El
