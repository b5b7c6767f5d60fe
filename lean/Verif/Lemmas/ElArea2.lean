import Verif.Lemmas.ElGroup2

/-!
# Helper lemmas: `findpt_area`
-/

namespace Gslib.El
open Gslib.Tensor Gslib.Num Gslib.Spec Gslib.Props Polynomial Finset

variable {K : Type} [Field K] [LinearOrder K]

/-- the Lagrange weights of a direction -/
theorem lag_ent {n : Nat} {z : List K} {lag : Nat → K → List K} {wt : List K} (h : DirOk n z lag wt) {m : Nat} (hm : m ≤ 2) (x : K) {k i : Nat} (hk : k ≤ m) (hi : i < n) :
    ent (lag m x) (n * k + i) = lagD n (ent z) k i x := by
  rw [Nat.mul_comm]; exact h.lagVal m x hm k hk i hi

section
variable {e : El2 K} {pn nr ns : Nat} (hnr : e.n 0 = nr) (hns : e.n 1 = ns) (ps : List (Pt K 2)) (hps : ps.length = pn)

/-- entry `(k,i)` of the weights of point `i'` -/
def WtsAt (w : List K) (o n pn m : Nat) (f : Nat → Nat → Nat → K) : Prop := ∀ i, i < pn → ∀ k, k < m → ∀ j, j < n → ent w (o + (m * n * i + (n * k + j))) = f i k j

include hnr hns hps in
/-- one round of the loop over `d` in `findpt_area` -/
theorem areaDim_run (hx : ∀ c, (e.x c).length = nr * ns) (w : List K) (hroom : 6 * pn + 4 * (nr * pn) + 2 * (ns * pn) ≤ w.length)
    (h0 : WtsAt w (6 * pn) nr pn 2 fun i k j => lagD (e.n 0) (ent (e.z 0)) k j ((ps.getD i ⟨0, 0, none, 0, 0, 0, 0, 0⟩).r 0))
    (h1 : WtsAt w (6 * pn + 2 * (nr * pn)) ns pn 2 fun i k j => lagD (e.n 1) (ent (e.z 1)) k j ((ps.getD i ⟨0, 0, none, 0, 0, 0, 0, 0⟩).r 1)) (d : Fin 2) :
    ∃ w', areaDim e pn ps d w = some w' ∧ w'.length = w.length ∧
      (∀ (i : Nat) p, ps[i]? = some p → ent w' (2 * i + d.val) = p.x d - tensor2 e 0 0 (e.x d) p.r ∧ ent w' (2 * pn + (4 * i + 2 * d.val)) = tensor2 e 1 0 (e.x d) p.r ∧
        ent w' (2 * pn + (4 * i + 2 * d.val + 1)) = tensor2 e 0 1 (e.x d) p.r) ∧
      ∀ a, a < 6 * pn + 2 * (nr * pn) + 2 * (ns * pn) → (∀ i, i < pn → a ≠ 2 * i + d.val ∧ a ≠ 2 * pn + (4 * i + 2 * d.val) ∧ a ≠ 2 * pn + (4 * i + 2 * d.val + 1)) → ent w' a = ent w a := by
  have hget : ∀ i, i < pn → ps[i]? = some (ps.getD i ⟨0, 0, none, 0, 0, 0, 0, 0⟩) := fun i hi => by
    rw [List.getElem?_eq_getElem (by omega), List.getD_eq_getElem _ _ (by omega)]
  generalize (⟨0, 0, none, 0, 0, 0, 0, 0⟩ : Pt K 2) = dflt at *
  have hd := d.isLt
  have m1 : 2 * nr * pn = 2 * (nr * pn) := by ring
  have m2 : 2 * ns * pn = 2 * (ns * pn) := by ring
  have m3 : nr * (2 * pn) = 2 * (nr * pn) := by ring
  have m4 : ns * (2 * pn) = 2 * (ns * pn) := by ring
  unfold areaDim
  rw [hnr, hns, m1, m2]
  generalize hA : nr * pn = A at *
  generalize hB : ns * pn = B at *
  obtain ⟨wb, eb, b1, b2, b3⟩ := mxmIn_eq (w := w) (c := 6 * pn + 2 * A + 2 * B) (nc := nr) (A := e.x d) (na := ns) (b := 6 * pn + 2 * A) (nb := 2 * pn) (Or.inr (by omega)) (by rw [hx]) (by omega) (by omega)
  rw [m3] at b3
  rw [eb, Option.bind_some]
  -- the rows of `slice`
  have hsl : ∀ i, i < pn → ∀ k, k < 2 → ∀ j, j < nr → ent wb (6 * pn + 2 * A + 2 * B + (2 * nr * i + (nr * k + j))) = ∑ l ∈ range ns, ent (e.x d) (j + nr * l) * lagD (e.n 1) (ent (e.z 1)) k l ((ps.getD i dflt).r 1) := by
    intro i hi k hk j hj
    rw [show 2 * nr * i + (nr * k + j) = j + nr * (2 * i + k) by ring, b2 j hj _ (by omega)]
    refine sum_congr rfl fun l hl => ?_
    have hl := mem_range.1 hl
    rw [show l + ns * (2 * i + k) = 2 * ns * i + (ns * k + l) by ring]
    exact congrArg _ (h1 i hi k hk l hl)
  have hwt : ∀ i, i < pn → ∀ k, k < 2 → ∀ j, j < nr → ent wb (6 * pn + (2 * nr * i + (nr * k + j))) = lagD (e.n 0) (ent (e.z 0)) k j ((ps.getD i dflt).r 0) := by
    intro i hi k hk j hj
    have r1 := row_lt (len := 2 * nr) hi
    have r2 := row_lt (len := nr) hk
    have e2 : 2 * nr * pn = 2 * A := m1
    rw [b3 _ (by omega), h0 i hi k hk j hj]
  obtain ⟨w', e', g1, g2, g3⟩ := scatter (body := areaRow e pn ps d) (n := pn) (fun i a => a = 2 * i + d.val ∨ a = 2 * pn + (4 * i + 2 * d.val) ∨ a = 2 * pn + (4 * i + 2 * d.val + 1))
    (fun i a => if a = 2 * i + d.val then (ps.getD i dflt).x d - tensor2 e 0 0 (e.x d) (ps.getD i dflt).r else if a = 2 * pn + (4 * i + 2 * d.val) then tensor2 e 1 0 (e.x d) (ps.getD i dflt).r else tensor2 e 0 1 (e.x d) (ps.getD i dflt).r) wb (by
      intro i hi w hw hsame
      have hbig : ∀ a, 6 * pn ≤ a → ent w a = ent wb a := fun a ha => hsame a fun i' hi' => by omega
      have r1 := row_lt (len := 2 * nr) hi
      have e2 : 2 * nr * pn = 2 * A := m1
      have e3 : 2 * i * nr = 2 * nr * i := by ring
      have hsum : ∀ (w : List K), (∀ a, 6 * pn ≤ a → ent w a = ent wb a) → ∀ k, k < 2 → ∀ k', k' < 2 → ∑ j ∈ range nr, ent w (6 * pn + (2 * nr * i + (nr * k + j))) * ent w (6 * pn + 2 * A + 2 * B + (2 * nr * i + (nr * k' + j))) =
          tensor2 e k k' (e.x d) (ps.getD i dflt).r := by
        intro w hbig k hk k' hk'
        rw [tensor2_alt]
        rw [hnr, hns]
        refine sum_congr rfl fun j hj => ?_
        have hj := mem_range.1 hj
        rw [hbig _ (by omega), hbig _ (by omega), hwt i hi k hk j hj, hsl i hi k' hk' j hj, hnr, hns]
      unfold areaRow
      dsimp only
      rw [hget i hi, Option.bind_some, hnr, hns, m1, m2, e3, tensor_ig1_eq _ nr _ (by simp; omega) (by simp; omega), Option.bind_some]
      dsimp only
      simp only [ent_drop]
      have q1 := hsum w hbig 0 (by omega) 0 (by omega)
      have q2 := hsum w hbig 1 (by omega) 0 (by omega)
      simp only [Nat.mul_zero, Nat.zero_add, Nat.mul_one] at q1 q2
      have t1 : ∑ k ∈ range nr, ent w (6 * pn + 2 * nr * i + k) * ent w (6 * pn + 2 * A + 2 * B + 2 * nr * i + k) = tensor2 e 0 0 (e.x d) (ps.getD i dflt).r := by
        rw [← q1]; exact sum_congr rfl fun j _ => by rw [Nat.add_assoc, Nat.add_assoc (6 * pn + 2 * A + 2 * B)]
      have t2 : ∑ k ∈ range nr, ent w (6 * pn + 2 * nr * i + (nr + k)) * ent w (6 * pn + 2 * A + 2 * B + 2 * nr * i + k) = tensor2 e 1 0 (e.x d) (ps.getD i dflt).r := by
        rw [← q2]; exact sum_congr rfl fun j _ => by rw [Nat.add_assoc, Nat.add_assoc (6 * pn + 2 * A + 2 * B)]
      rw [t1, t2]
      obtain ⟨w1, s1, a1, a2, a3⟩ := store1 (w := w) (a := 2 * pn + (4 * i + 2 * d.val)) (tensor2 e 1 0 (e.x d) (ps.getD i dflt).r) (by omega)
      obtain ⟨w2, s2, c1, c2, c3⟩ := store1 (w := w1) (a := 2 * i + d.val) ((ps.getD i dflt).x d - tensor2 e 0 0 (e.x d) (ps.getD i dflt).r) (by omega)
      rw [s1, Option.bind_some, s2, Option.bind_some, tensor_i1_eq _ nr _ (by simp; omega) (by simp; omega), Option.bind_some]
      have q3 := hsum w2 (fun a ha => by rw [c3 a (by omega), a3 a (by omega), hbig a ha]) 0 (by omega) 1 (by omega)
      simp only [Nat.mul_zero, Nat.zero_add, Nat.mul_one] at q3
      have t3 : ∑ k ∈ range nr, ent (w2.drop (6 * pn + 2 * nr * i)) k * ent (w2.drop (6 * pn + 2 * A + 2 * B + 2 * nr * i + nr)) k = tensor2 e 0 1 (e.x d) (ps.getD i dflt).r := by
        rw [← q3]
        exact sum_congr rfl fun j _ => by rw [ent_drop, ent_drop, Nat.add_assoc (6 * pn), Nat.add_assoc _ nr, Nat.add_assoc (6 * pn + 2 * A + 2 * B)]
      rw [t3]
      obtain ⟨w3, s3, f1, f2, f3⟩ := store1 (w := w2) (a := 2 * pn + (4 * i + 2 * d.val) + 1) (tensor2 e 0 1 (e.x d) (ps.getD i dflt).r) (by omega)
      refine ⟨w3, s3, by omega, ?_, ?_⟩
      · intro a ha
        rcases ha with rfl | rfl | rfl
        · rw [if_pos rfl, f3 _ (by omega), c2]
        · rw [if_neg (by omega), if_pos rfl, f3 _ (by omega), c3 _ (by omega), a2]
        · rw [if_neg (by omega), if_neg (by omega), show 2 * pn + (4 * i + 2 * d.val + 1) = 2 * pn + (4 * i + 2 * d.val) + 1 by ring, f2]
      · intro a ha
        rw [f3 a (by omega), c3 a (by omega), a3 a (by omega)])
    (by intro i i' a hi hi' ha ha'; omega)
  have hg : ∀ (i : Nat) p, ps[i]? = some p → i < pn ∧ ps.getD i dflt = p := by
    intro i p hp
    have hi : i < pn := by rw [← hps]; exact (List.getElem?_eq_some_iff.1 hp).1
    exact ⟨hi, Option.some.inj ((hget i hi).symm.trans hp)⟩
  refine ⟨w', e', by omega, ?_, ?_⟩
  · intro i p hp
    obtain ⟨hi, hpe⟩ := hg i p hp
    rw [g2 i hi _ (Or.inl rfl), g2 i hi _ (Or.inr (Or.inl rfl)), g2 i hi _ (Or.inr (Or.inr rfl)), hpe]
    refine ⟨by rw [if_pos rfl], by rw [if_neg (by omega), if_pos rfl], by rw [if_neg (by omega), if_neg (by omega)]⟩
  · intro a ha hne
    rw [g3 a fun i hi => by have := hne i hi; omega, b3 a (by omega)]

end

/-- the contents of `work` before the Newton steps of `findpt_area` -/
theorem areaWork_run {e : El2 K} (he : El2Ok e) {nptMax : Nat} {w : List K} (hw : w.length = workSize2 (e.n 0) (e.n 1) nptMax) (ps : List (Pt K 2)) (hn : ps.length ≤ nptMax) :
    ∃ w', areaWork e ps w = some w' ∧ w'.length = w.length ∧
      ∀ (i : Nat) p, ps[i]? = some p → vec2 w' (2 * i) = some ((elMap2 e).resid p.x p.r) ∧ vec4 w' (2 * ps.length + 4 * i) = some ((elMap2 e).J p.r) := by
  have hsz := workSize2_area (nr := e.n 0) (ns := e.n 1) hn
  unfold areaWork
  dsimp only
  generalize hpn : ps.length = pn at *
  have hget : ∀ i, i < pn → ps[i]? = some (ps.getD i ⟨0, 0, none, 0, 0, 0, 0, 0⟩) := fun i hi => by
    rw [List.getElem?_eq_getElem (by omega), List.getD_eq_getElem _ _ (by omega)]
  have m1 : 2 * e.n 0 * pn = 2 * (e.n 0 * pn) := by ring
  have m2 : 2 * e.n 1 * pn = 2 * (e.n 1 * pn) := by ring
  rw [m1]
  obtain ⟨w1, e1, a1, a2, a3⟩ := rows_run (n := pn) (body := fun i w => (ps[i]?).bind fun p => store w (6 * pn + 2 * i * e.n 0) (e.lag 0 1 (p.r 0))) (6 * pn) (2 * e.n 0)
    (fun i => e.lag 0 1 ((ps.getD i ⟨0, 0, none, 0, 0, 0, 0, 0⟩).r 0)) (fun i _ => by rw [(he.dir 0).lagLen 1 _ (by omega)]) w (by
      intro i hi w _
      beta_reduce
      rw [hget i hi, Option.bind_some, show 2 * i * e.n 0 = 2 * e.n 0 * i by ring]) (by omega)
  obtain ⟨w2, e2, b1, b2, b3⟩ := rows_run (n := pn) (body := fun i w => (ps[i]?).bind fun p => store w (6 * pn + 2 * (e.n 0 * pn) + 2 * i * e.n 1) (e.lag 1 1 (p.r 1))) (6 * pn + 2 * (e.n 0 * pn)) (2 * e.n 1)
    (fun i => e.lag 1 1 ((ps.getD i ⟨0, 0, none, 0, 0, 0, 0, 0⟩).r 1)) (fun i _ => by rw [(he.dir 1).lagLen 1 _ (by omega)]) w1 (by
      intro i hi w _
      beta_reduce
      rw [hget i hi, Option.bind_some, show 2 * i * e.n 1 = 2 * e.n 1 * i by ring]) (by omega)
  rw [m1] at a3
  rw [m2] at b3
  rw [e1, Option.bind_some, e2, Option.bind_some]
  have hw0 : WtsAt w2 (6 * pn) (e.n 0) pn 2 fun i k j => lagD (e.n 0) (ent (e.z 0)) k j ((ps.getD i ⟨0, 0, none, 0, 0, 0, 0, 0⟩).r 0) := by
    intro i hi k hk j hj
    have r1 := row_lt (len := 2 * e.n 0) hi
    have r2 := row_lt (len := e.n 0) hk
    rw [b3 _ (by omega), a2 i hi _ (by omega)]
    exact lag_ent (he.dir 0) (by omega) _ (by omega) hj
  have hw1 : WtsAt w2 (6 * pn + 2 * (e.n 0 * pn)) (e.n 1) pn 2 fun i k j => lagD (e.n 1) (ent (e.z 1)) k j ((ps.getD i ⟨0, 0, none, 0, 0, 0, 0, 0⟩).r 1) := by
    intro i hi k hk j hj
    have r2 := row_lt (len := e.n 1) hk
    rw [b2 i hi _ (by omega)]
    exact lag_ent (he.dir 1) (by omega) _ (by omega) hj
  obtain ⟨w3, e3, c1, c2, c3⟩ := areaDim_run rfl rfl ps hpn he.x w2 (by omega) hw0 hw1 0
  have keep : ∀ o n' pn' f, 6 * pn ≤ o → o + 2 * n' * pn' ≤ 6 * pn + 2 * (e.n 0 * pn) + 2 * (e.n 1 * pn) → WtsAt w2 o n' pn' 2 f → WtsAt w3 o n' pn' 2 f := by
    intro o n' pn' f h1 h2 h i hi k hk j hj
    have r1 := row_lt (len := 2 * n') hi
    have r2 := row_lt (len := n') hk
    rw [c3 _ (by omega) fun i' hi' => by simp only [Fin.val_zero]; omega, h i hi k hk j hj]
  obtain ⟨w4, e4, d1, d2, d3⟩ := areaDim_run rfl rfl ps hpn he.x w3 (by omega) (keep _ _ _ _ (by omega) (by omega) hw0) (keep _ _ _ _ (by omega) (by omega) hw1) 1
  refine ⟨w4, by rw [e3, Option.bind_some, e4], by omega, ?_⟩
  intro i p hp
  have hi : i < pn := by rw [← hpn]; exact (List.getElem?_eq_some_iff.1 hp).1
  obtain ⟨x1, x2, x3⟩ := c2 i p hp
  obtain ⟨y1, y2, y3⟩ := d2 i p hp
  simp only [Fin.val_zero, Fin.val_one, Nat.mul_zero, Nat.add_zero, Nat.mul_one] at x1 x2 x3 y1 y2 y3 d3
  rw [← d3 _ (by omega) fun i' hi' => by omega] at x1 x2 x3
  constructor
  · unfold vec2
    rw [getElem?_ent (by omega), getElem?_ent (by omega), x1, y1]
    rfl
  · unfold vec4
    rw [getElem?_ent (by omega), getElem?_ent (by omega), getElem?_ent (by omega), getElem?_ent (by omega), Nat.add_assoc, Nat.add_assoc, Nat.add_assoc, x2, x3, y2, show 4 * i + 3 = 4 * i + 2 + 1 from rfl, y3]
    rfl

/-- `findpt_area` acts point by point -/
theorem findptArea_run {e : El2 K} (he : El2Ok e) {nptMax : Nat} (fuel : Nat) (big tol : K) {st : ElSt2 K} (hm : El2Mem e nptMax st) (ps : List (Pt K 2)) (hn : ps.length ≤ nptMax) (g : Pt K 2 → Pt K 2)
    (hg : ∀ p ∈ ps, areaPoint fuel big tol ((elMap2 e).resid p.x p.r) ((elMap2 e).J p.r) p = some (g p)) :
    ∃ w, findptArea fuel big tol e st ps = some ({ st with work := w }, ps.map g) ∧ w.length = st.work.length := by
  obtain ⟨w, ew, h1, h2⟩ := areaWork_run he hm.work ps hn
  refine ⟨w, ?_, h1⟩
  unfold findptArea
  rw [ew, Option.bind_some, mapM_zipIdx (g := g) ps (by
    intro i p hp
    obtain ⟨q1, q2⟩ := h2 i p hp
    dsimp only
    rw [q1, Option.bind_some, q2, Option.bind_some]
    exact hg p (List.mem_of_getElem? hp))]
  rfl

end Gslib.El
