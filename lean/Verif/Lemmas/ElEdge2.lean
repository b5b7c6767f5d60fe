import Verif.Lemmas.ElSides2
import Verif.Lemmas.Newton2Step

/-!
# Helper lemmas: `findpt_edge` and `findpt_pt` in 2D
-/

namespace Gslib.El
open Gslib.Tensor Gslib.Num Gslib.Spec Gslib.Props Polynomial Finset

variable {K : Type} [Field K] [LinearOrder K]

theorem workSize2_edge {nr ns nptMax pn n : Nat} (h : pn ≤ nptMax) (hn : n = nr ∨ n = ns) : 10 * pn + 3 * (n * pn) ≤ workSize2 nr ns nptMax := by
  have h1 : pn * (10 + 3 * n) ≤ nptMax * (10 + 3 * max ns nr) := Nat.mul_le_mul h (by rcases hn with rfl | rfl <;> omega)
  have e : pn * (10 + 3 * n) = 10 * pn + 3 * (n * pn) := by ring
  unfold workSize2
  omega

/-- a point that is not there -/
def noPt : Pt K 2 := ⟨0, 0, none, 0, 0, 0, 0, 0⟩

section
variable {e : El2 K} {pn n : Nat} (ps : List (Pt K 2)) (hps : ps.length = pn) (de dn : Fin 2) (z : Nat → K) (ei : Nat) (st : ElSt2 K)

/-- derivative `k` along the edge, for the values `x` on it -/
noncomputable def along (n : Nat) (z : Nat → K) (k : Nat) (x : List K) (t : K) : K := ∑ l ∈ range n, lagD n z k l t * ent x l

include hps in
/-- one round of the first loop over `d` in `findpt_edge` -/
theorem edgeDim1_run (hn0 : 0 < n) (d : Fin 2) (x : List K) (hx : edgeXs e st ei d = some x) (hxl : n ≤ x.length) (w : List K) (hroom : 10 * pn + 3 * (n * pn) ≤ w.length)
    (h0 : WtsAt w (7 * pn) n pn 3 fun i k j => lagD n z k j ((ps.getD i noPt).r de)) :
    ∃ w', edgeDim1 e pn n ps ei st de d w = some w' ∧ w'.length = w.length ∧
      (∀ (i : Nat) p, ps[i]? = some p → ent w' (2 * i + d.val) = p.x d - along n z 0 x (p.r de) ∧ ent w' (2 * pn + (4 * i + 2 * d.val + de.val)) = along n z 1 x (p.r de) ∧
        ent w' (6 * pn + i) = ent w (6 * pn + i) + (p.x d - along n z 0 x (p.r de)) * along n z 2 x (p.r de)) ∧
      ∀ a, a < 7 * pn + 3 * (n * pn) → (∀ i, i < pn → a ≠ 2 * i + d.val ∧ a ≠ 2 * pn + (4 * i + 2 * d.val + de.val) ∧ a ≠ 6 * pn + i) → ent w' a = ent w a := by
  have hget : ∀ i, i < pn → ps[i]? = some (ps.getD i noPt) := fun i hi => by
    rw [List.getElem?_eq_getElem (by omega), List.getD_eq_getElem _ _ (by omega)]
  generalize (noPt : Pt K 2) = dflt at *
  have hd := d.isLt
  have hde := de.isLt
  have m1 : 3 * n * pn = 3 * (n * pn) := by ring
  have m2 : n * (3 * pn) = 3 * (n * pn) := by ring
  unfold edgeDim1
  rw [hx, Option.bind_some, m1]
  generalize hA : n * pn = A at *
  obtain ⟨wb, eb, b1, b2, b3⟩ := mtxvIn_eq (w := w) (y := 7 * pn + 3 * A) (ny := 3 * pn) (a := 7 * pn) (x := x) (nx := n) hn0 (Or.inr (by omega)) hxl (by omega) (by omega)
  rw [eb, Option.bind_some]
  have hsl : ∀ i, i < pn → ∀ k, k < 3 → ent wb (7 * pn + 3 * A + (3 * i + k)) = along n z k x ((ps.getD i dflt).r de) := by
    intro i hi k hk
    rw [b2 _ (by omega)]
    refine sum_congr rfl fun l hl => ?_
    rw [show l + n * (3 * i + k) = 3 * n * i + (n * k + l) by ring]
    exact congrArg (· * _) (h0 i hi k hk l (mem_range.1 hl))
  obtain ⟨w', e', g1, g2, g3⟩ := scatter (body := edgeRow1 pn (7 * pn + 3 * A) ps de d) (n := pn) (fun i a => a = 2 * i + d.val ∨ a = 2 * pn + (4 * i + 2 * d.val + de.val) ∨ a = 6 * pn + i)
    (fun i a => if a = 2 * i + d.val then (ps.getD i dflt).x d - along n z 0 x ((ps.getD i dflt).r de) else if a = 2 * pn + (4 * i + 2 * d.val + de.val) then along n z 1 x ((ps.getD i dflt).r de)
      else ent w (6 * pn + i) + ((ps.getD i dflt).x d - along n z 0 x ((ps.getD i dflt).r de)) * along n z 2 x ((ps.getD i dflt).r de)) wb (by
      intro i hi w' hw' hsame
      have hbig : ∀ a, 7 * pn ≤ a → ent w' a = ent wb a := fun a ha => hsame a fun i' hi' => by omega
      unfold edgeRow1
      have q0 := hsl i hi 0 (by omega)
      rw [Nat.add_zero] at q0
      rw [hget i hi, Option.bind_some, getElem?_ent (by omega), Option.bind_some, hbig _ (by omega), q0]
      obtain ⟨w1, s1, a1, a2, a3⟩ := store1 (w := w') (a := 2 * i + d.val) ((ps.getD i dflt).x d - along n z 0 x ((ps.getD i dflt).r de)) (by omega)
      rw [s1, Option.bind_some, getElem?_ent (by omega), Option.bind_some, a3 _ (by omega), hbig _ (by omega), Nat.add_assoc (7 * pn + 3 * A), hsl i hi 1 (by omega)]
      obtain ⟨w2, s2, c1, c2, c3⟩ := store1 (w := w1) (a := 2 * pn + (4 * i + 2 * d.val + de.val)) (along n z 1 x ((ps.getD i dflt).r de)) (by omega)
      rw [s2, Option.bind_some, getElem?_ent (by omega), Option.bind_some, c3 _ (by omega), a3 _ (by omega), hbig _ (by omega), Nat.add_assoc (7 * pn + 3 * A), hsl i hi 2 (by omega), getElem?_ent (by omega),
        Option.bind_some, c3 _ (by omega), a3 _ (by omega), hsame _ (fun i' hi' => by omega), b3 _ (by omega)]
      obtain ⟨w3, s3, f1, f2, f3⟩ := store1 (w := w2) (a := 6 * pn + i) (ent w (6 * pn + i) + ((ps.getD i dflt).x d - along n z 0 x ((ps.getD i dflt).r de)) * along n z 2 x ((ps.getD i dflt).r de)) (by omega)
      refine ⟨w3, s3, by omega, ?_, ?_⟩
      · intro a ha
        rcases ha with rfl | rfl | rfl
        · rw [if_pos rfl, f3 _ (by omega), c3 _ (by omega), a2]
        · rw [if_neg (by omega), if_pos rfl, f3 _ (by omega), c2]
        · rw [if_neg (by omega), if_neg (by omega), f2]
      · intro a ha
        rw [f3 a (by omega), c3 a (by omega), a3 a (by omega)])
    (by intro i i' a hi hi' ha ha'; omega)
  refine ⟨w', e', by omega, ?_, ?_⟩
  · intro i p hp
    have hi : i < pn := by rw [← hps]; exact (List.getElem?_eq_some_iff.1 hp).1
    have hpe : ps.getD i dflt = p := Option.some.inj ((hget i hi).symm.trans hp)
    rw [g2 i hi _ (Or.inl rfl), g2 i hi _ (Or.inr (Or.inl rfl)), g2 i hi _ (Or.inr (Or.inr rfl)), hpe]
    refine ⟨by rw [if_pos rfl], by rw [if_neg (by omega), if_pos rfl], by rw [if_neg (by omega), if_neg (by omega)]⟩
  · intro a ha hne
    rw [g3 a fun i hi => by have := hne i hi; omega, b3 a (by omega)]

include hps in
/-- one round of the second loop over `d` in `findpt_edge` -/
theorem edgeDim2_run (hn0 : 0 < n) (d : Fin 2) (x : List K) (hx : edgeNs e st ei d = some x) (hxl : n ≤ x.length) (w : List K) (hroom : 10 * pn + 3 * (n * pn) ≤ w.length)
    (h0 : ∀ i, i < pn → ∀ j, j < n → ent w (7 * pn + (n * i + j)) = lagD n z 0 j ((ps.getD i noPt).r de)) :
    ∃ w', edgeDim2 e pn n ei st dn d w = some w' ∧ w'.length = w.length ∧
      (∀ (i : Nat) p, ps[i]? = some p → ent w' (2 * pn + (4 * i + 2 * d.val + dn.val)) = along n z 0 x (p.r de)) ∧
      ∀ a, a < 7 * pn + 3 * (n * pn) → (∀ i, i < pn → a ≠ 2 * pn + (4 * i + 2 * d.val + dn.val)) → ent w' a = ent w a := by
  have hget : ∀ i, i < pn → ps[i]? = some (ps.getD i noPt) := fun i hi => by
    rw [List.getElem?_eq_getElem (by omega), List.getD_eq_getElem _ _ (by omega)]
  generalize (noPt : Pt K 2) = dflt at *
  have hd := d.isLt
  have hdn := dn.isLt
  have m1 : 3 * n * pn = 3 * (n * pn) := by ring
  unfold edgeDim2
  rw [hx, Option.bind_some, m1]
  generalize hA : n * pn = A at *
  obtain ⟨wb, eb, b1, b2, b3⟩ := mtxvIn_eq (w := w) (y := 7 * pn + 3 * A) (ny := pn) (a := 7 * pn) (x := x) (nx := n) hn0 (Or.inr (by omega)) hxl (by omega) (by omega)
  rw [eb, Option.bind_some]
  have hsl : ∀ i, i < pn → ent wb (7 * pn + 3 * A + i) = along n z 0 x ((ps.getD i dflt).r de) := by
    intro i hi
    rw [b2 _ hi]
    refine sum_congr rfl fun l hl => ?_
    rw [Nat.add_comm l]
    exact congrArg (· * _) (h0 i hi l (mem_range.1 hl))
  obtain ⟨w', e', g1, g2, g3⟩ := scatter (body := fun i w => (w[7 * pn + 3 * A + i]?).bind fun v => store w (2 * pn + (4 * i + 2 * d.val + dn.val)) [v]) (n := pn) (fun i a => a = 2 * pn + (4 * i + 2 * d.val + dn.val))
    (fun i a => along n z 0 x ((ps.getD i dflt).r de)) wb (by
      intro i hi w' hw' hsame
      beta_reduce
      rw [getElem?_ent (by omega), Option.bind_some, hsame _ (fun i' hi' => by omega), hsl i hi]
      obtain ⟨w1, s1, a1, a2, a3⟩ := store1 (w := w') (a := 2 * pn + (4 * i + 2 * d.val + dn.val)) (along n z 0 x ((ps.getD i dflt).r de)) (by omega)
      exact ⟨w1, s1, a1, fun a ha => by rw [ha, a2], fun a ha => a3 a ha⟩)
    (by intro i i' a hi hi' ha ha'; omega)
  refine ⟨w', e', by omega, ?_, ?_⟩
  · intro i p hp
    have hi : i < pn := by rw [← hps]; exact (List.getElem?_eq_some_iff.1 hp).1
    have hpe : ps.getD i dflt = p := Option.some.inj ((hget i hi).symm.trans hp)
    rw [g2 i hi _ rfl, hpe]
  · intro a ha hne
    rw [g3 a fun i hi => hne i hi, b3 a (by omega)]

end

/-- the contents of `work` before the Newton steps of `findpt_edge`, in terms of the values `xl` and the normal derivatives `nl` along the edge -/
theorem edgeWork_run {e : El2 K} (he : El2Ok e) {nptMax : Nat} {st : ElSt2 K} {w : List K} (hw : w.length = workSize2 (e.n 0) (e.n 1) nptMax) (ps : List (Pt K 2)) (hn : ps.length ≤ nptMax) (de dn : Fin 2) (hdd : dn.val = 1 - de.val) (ei : Nat)
    (xl nl : Fin 2 → List K) (hx : ∀ d, edgeXs e st ei d = some (xl d)) (hxl : ∀ d, e.n de ≤ (xl d).length) (hN : ∀ d, edgeNs e st ei d = some (nl d)) (hNl : ∀ d, e.n de ≤ (nl d).length) :
    ∃ w', edgeWork e ps ei st de dn w = some w' ∧ w'.length = w.length ∧ ∀ (i : Nat) p, ps[i]? = some p →
      (∀ d : Fin 2, ent w' (2 * i + d.val) = p.x d - along (e.n de) (ent (e.z de)) 0 (xl d) (p.r de)) ∧
      (∀ d : Fin 2, ent w' (2 * ps.length + (4 * i + 2 * d.val + de.val)) = along (e.n de) (ent (e.z de)) 1 (xl d) (p.r de)) ∧
      (∀ d : Fin 2, ent w' (2 * ps.length + (4 * i + 2 * d.val + dn.val)) = along (e.n de) (ent (e.z de)) 0 (nl d) (p.r de)) ∧
      ent w' (6 * ps.length + i) = (p.x 0 - along (e.n de) (ent (e.z de)) 0 (xl 0) (p.r de)) * along (e.n de) (ent (e.z de)) 2 (xl 0) (p.r de) +
        (p.x 1 - along (e.n de) (ent (e.z de)) 0 (xl 1) (p.r de)) * along (e.n de) (ent (e.z de)) 2 (xl 1) (p.r de) := by
  have hde := de.isLt
  have hsz := workSize2_edge (nr := e.n 0) (ns := e.n 1) (n := e.n de) hn (by
    rcases (by omega : de.val = 0 ∨ de.val = 1) with h | h
    · rw [show de = 0 from Fin.ext h]; exact Or.inl rfl
    · rw [show de = 1 from Fin.ext h]; exact Or.inr rfl)
  have hdir := he.dir de
  have hn0 : 0 < e.n de := by have := hdir.two; omega
  unfold edgeWork
  dsimp only
  generalize hpn : ps.length = pn at *
  generalize hnd : e.n de = n at *
  have hget : ∀ i, i < pn → ps[i]? = some (ps.getD i noPt) := fun i hi => by
    rw [List.getElem?_eq_getElem (by omega), List.getD_eq_getElem _ _ (by omega)]
  have m1 : 3 * n * pn = 3 * (n * pn) := by ring
  obtain ⟨w1, e1, a1, a2, a3⟩ := rows_run (n := pn) (body := fun i w => (ps[i]?).bind fun p => store w (7 * pn + 3 * i * n) (e.lag de 2 (p.r de))) (7 * pn) (3 * n)
    (fun i => e.lag de 2 ((ps.getD i noPt).r de)) (fun i _ => by rw [hdir.lagLen 2 _ (by omega)]) w (by
      intro i hi w _
      beta_reduce
      rw [hget i hi, Option.bind_some, show 3 * i * n = 3 * n * i by ring]) (by omega)
  obtain ⟨w2, e2, b1, b2, b3⟩ := rows_run (n := pn) (body := fun i w => store w (6 * pn + i) [(0 : K)]) (6 * pn) 1 (fun _ => [0]) (fun _ _ => rfl) w1 (fun i _ w _ => by rw [one_mul]) (by omega)
  rw [e1, Option.bind_some, e2, Option.bind_some]
  have hz : ∀ i, i < pn → ent w2 (6 * pn + i) = 0 := by
    intro i hi
    have := b2 i hi 0 (by omega)
    rw [one_mul, Nat.add_zero] at this
    rw [this]; rfl
  have hwt : WtsAt w2 (7 * pn) n pn 3 fun i k j => lagD n (ent (e.z de)) k j ((ps.getD i noPt).r de) := by
    intro i hi k hk j hj
    have r2 := row_lt (len := n) hk
    rw [b3 _ (by omega), a2 i hi _ (by omega)]
    exact lag_ent hdir (by omega) _ (by omega) hj
  have keep : ∀ w2 w3 : List K, (∀ a, 7 * pn ≤ a → a < 7 * pn + 3 * (n * pn) → ent w3 a = ent w2 a) → ∀ f, WtsAt w2 (7 * pn) n pn 3 f → WtsAt w3 (7 * pn) n pn 3 f := by
    intro w2 w3 h f hf i hi k hk j hj
    have r1 := row_lt (len := 3 * n) hi
    have r2 := row_lt (len := n) hk
    rw [h _ (by omega) (by omega), hf i hi k hk j hj]
  obtain ⟨w3, e3, c1, c2, c3⟩ := edgeDim1_run ps hpn de (ent (e.z de)) ei st hn0 0 (xl 0) (hx 0) (hxl 0) w2 (by omega) hwt
  obtain ⟨w4, e4, d1, d2, d3⟩ := edgeDim1_run ps hpn de (ent (e.z de)) ei st hn0 1 (xl 1) (hx 1) (hxl 1) w3 (by omega) (keep w2 w3 (fun a h1 h2 => c3 a h2 fun i hi => by simp only [Fin.val_zero]; omega) _ hwt)
  rw [e3, Option.bind_some, e4, Option.bind_some]
  have hwt4 := keep w3 w4 (fun a h1 h2 => d3 a h2 fun i hi => by simp only [Fin.val_one]; omega) _ (keep w2 w3 (fun a h1 h2 => c3 a h2 fun i hi => by simp only [Fin.val_zero]; omega) _ hwt)
  -- compaction of the weights
  obtain ⟨w5, e5, f1, f2, f3⟩ : ∃ w5, forUp 1 (pn - 1) (fun i w => cpyIn w (7 * pn + i * n) (7 * pn + 3 * i * n) n) w4 = some w5 ∧ w5.length = w.length ∧
      (∀ i, i < pn → ∀ j, j < n → ent w5 (7 * pn + (n * i + j)) = lagD n (ent (e.z de)) 0 j ((ps.getD i noPt).r de)) ∧ ∀ a, a < 7 * pn → ent w5 a = ent w4 a := by
    have hA : ∀ i, i < 1 → i < pn → ∀ j, j < n → ent w4 (7 * pn + (n * i + j)) = lagD n (ent (e.z de)) 0 j ((ps.getD i noPt).r de) := by
      intro i hi hip j hj
      obtain rfl : i = 0 := by omega
      have := hwt4 0 hip 0 (by omega) j hj
      simp only [Nat.mul_zero, Nat.zero_add] at this ⊢
      exact this
    have hB : ∀ i, 1 ≤ i → i < pn → ∀ j, j < n → ent w4 (7 * pn + (3 * n * i + j)) = lagD n (ent (e.z de)) 0 j ((ps.getD i noPt).r de) := by
      intro i _ hip j hj
      have := hwt4 i hip 0 (by omega) j hj
      simp only [Nat.mul_zero, Nat.zero_add] at this ⊢
      exact this
    obtain ⟨w5, e5, h5⟩ := forUp_inv (fun k (v : List K) => v.length = w.length ∧ (∀ i, i < k → i < pn → ∀ j, j < n → ent v (7 * pn + (n * i + j)) = lagD n (ent (e.z de)) 0 j ((ps.getD i noPt).r de)) ∧
        (∀ i, k ≤ i → i < pn → ∀ j, j < n → ent v (7 * pn + (3 * n * i + j)) = lagD n (ent (e.z de)) 0 j ((ps.getD i noPt).r de)) ∧ ∀ a, a < 7 * pn → ent v a = ent w4 a)
      (fun i w => cpyIn w (7 * pn + i * n) (7 * pn + 3 * i * n) n) (pn - 1) 1 w4 ⟨by omega, hA, hB, fun _ _ => rfl⟩ (by
        intro k hk1 hk v ⟨h1, h2, h3, h4⟩
        have hkp : k < pn := by omega
        have r1 := row_lt (len := 3 * n) hkp
        have q1 : 3 * k * n = 3 * (k * n) := by ring
        have q2 : 3 * n * k = 3 * (k * n) := by ring
        have q3 : n ≤ k * n := Nat.le_mul_of_pos_left _ (by omega)
        obtain ⟨v', ev, g1, g2, g3⟩ := cpy_eq (dst := v) (o := 7 * pn + k * n) (src := v) (s := 7 * pn + 3 * k * n) (len := n) (by omega) (by omega)
        refine ⟨v', ?_, by omega, ?_, ?_, ?_⟩
        · unfold cpyIn
          rw [if_pos (by simp only [disj, Bool.or_eq_true, decide_eq_true_eq]; omega), ev]
        · intro i hi hip j hj
          rcases Nat.lt_succ_iff_lt_or_eq.1 hi with hlt | rfl
          · have r := row_lt (len := n) hlt
            have : n * k = k * n := by ring
            rw [g3 _ (by omega), h2 i hlt hip j hj]
          · rw [Nat.mul_comm n, ← Nat.add_assoc, g2 j hj, Nat.add_assoc, show 3 * i * n = 3 * n * i by ring]
            exact h3 i (le_refl _) hip j hj
        · intro i hi hip j hj
          have q4 : (k + 1) * n ≤ i * n := Nat.mul_le_mul_right _ hi
          have q5 : (k + 1) * n = k * n + n := by ring
          have q6 : 3 * n * i = 3 * (i * n) := by ring
          rw [g3 _ (by omega), h3 i (by omega) hip j hj]
        · intro a ha
          rw [g3 a (by omega), h4 a ha])
    exact ⟨w5, e5, h5.1, fun i hi => h5.2.1 i (by omega) hi, h5.2.2.2⟩
  rw [e5, Option.bind_some]
  obtain ⟨w6, e6, g1, g2, g3⟩ := edgeDim2_run ps hpn de dn (ent (e.z de)) ei st hn0 0 (nl 0) (hN 0) (hNl 0) w5 (by omega) f2
  obtain ⟨w7, e7, k1, k2, k3⟩ := edgeDim2_run ps hpn de dn (ent (e.z de)) ei st hn0 1 (nl 1) (hN 1) (hNl 1) w6 (by omega) (fun i hi j hj => by
    have r := row_lt (len := n) hi
    rw [g3 _ (by omega) fun i' hi' => by simp only [Fin.val_zero]; omega, f2 i hi j hj])
  refine ⟨w7, by rw [e6, Option.bind_some, e7], by omega, ?_⟩
  intro i p hp
  have hi : i < pn := by rw [← hpn]; exact (List.getElem?_eq_some_iff.1 hp).1
  obtain ⟨x1, x2, x3⟩ := c2 i p hp
  obtain ⟨y1, y2, y3⟩ := d2 i p hp
  have u1 := g2 i p hp
  have u2 := k2 i p hp
  simp only [Fin.val_zero, Fin.val_one, Nat.mul_zero, Nat.add_zero, Nat.mul_one] at x1 x2 x3 y1 y2 y3 u1 u2 d3 g3 k3 c3
  have lift : ∀ a, a < 7 * pn → (∀ i', i' < pn → a ≠ 2 * pn + (4 * i' + dn.val) ∧ a ≠ 2 * pn + (4 * i' + 2 + dn.val)) → ent w7 a = ent w4 a := by
    intro a ha h
    rw [k3 a (by omega) fun i' hi' => (h i' hi').2, g3 a (by omega) fun i' hi' => (h i' hi').1, f3 a ha]
  have split : ∀ d : Fin 2, d = 0 ∨ d = 1 := by decide
  refine ⟨fun d => ?_, fun d => ?_, fun d => ?_, ?_⟩
  · rcases split d with rfl | rfl
    · simp only [Fin.val_zero, Nat.add_zero]
      rw [lift _ (by omega) fun i' hi' => by omega, d3 _ (by omega) fun i' hi' => by omega, x1]
    · simp only [Fin.val_one]
      rw [lift _ (by omega) fun i' hi' => by omega, y1]
  · rcases split d with rfl | rfl
    · simp only [Fin.val_zero, Nat.mul_zero, Nat.add_zero]
      rw [lift _ (by omega) fun i' hi' => by omega, d3 _ (by omega) fun i' hi' => by omega, x2]
    · simp only [Fin.val_one, Nat.mul_one]
      rw [lift _ (by omega) fun i' hi' => by omega, y2]
  · rcases split d with rfl | rfl
    · simp only [Fin.val_zero, Nat.mul_zero, Nat.add_zero]
      rw [k3 _ (by omega) fun i' hi' => by omega, u1]
    · simp only [Fin.val_one, Nat.mul_one]
      rw [u2]
  · rw [lift _ (by omega) fun i' hi' => by omega, y3, x3, hz i hi, zero_add]

end Gslib.El
