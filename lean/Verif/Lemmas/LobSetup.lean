import Verif.Lemmas.LobLin
import Verif.Props.GllLag

/-!
# `lob_bnd_setup` fills its table
-/

namespace Gslib.Lob
open Gslib.Num Gslib.Poly Gslib.Spec Gslib.Props Finset Polynomial
variable {K : Type} [Field K] [LinearOrder K] [IsStrictOrderedRing K]

theorem idx_inj {m i j i' j' : Nat} (hj : j < m) (hj' : j' < m) (h : i * m + j = i' * m + j') : i = i' ∧ j = j' := by
  have h1 := (div_mod_at (c := i) hj).1
  have h2 := (div_mod_at (c := i) hj).2
  rw [h, (div_mod_at hj').1] at h1
  rw [h, (div_mod_at hj').2] at h2
  exact ⟨h1.symm, h2.symm⟩

/-- one call of the basis evaluation -/
theorem gll_step {n : Nat} (hn : 2 ≤ n) {v : Nat → K} (hv : n ≤ 24 → v = fixVal n) (hd : ∀ i < n, ∀ j < n, v i = v j → i = j) {g : Mem K}
    (hg : GData n v (scale n v) g) (der : Int) (pcap : Nat) (hp : rows der * n ≤ pcap) (x : K) (p : Mem K) :
    ∃ p' g', gllEval n pcap der x (p, g) = some (p', g') ∧ GData n v (scale n v) g' ∧ (∀ i < n, rd pcap p' i = some (basisAt n v i x)) ∧
      (0 < der → ∀ i < n, rd pcap p' (n + i) = some ((derivative (Lagrange.basis (range n) v i)).eval x)) := by
  obtain ⟨p', m', e, h0, r0, r1, -, -⟩ := gllEval_run hn der hp x hv (p := p) hg
  have hr : n ≤ rows der * n := Nat.le_mul_of_pos_left _ (by unfold rows; split_ifs <;> omega)
  refine ⟨p', m', e, h0, fun i hi => ?_, fun hder i hi => ?_⟩
  · have := r0.rd (cap := pcap) i hi (by omega)
    rw [Nat.zero_add] at this
    rw [this, (rows_basis n v two_ne_zero hd x i hi).1]; rfl
  · have h2 : 2 * n ≤ rows der * n := Nat.mul_le_mul_right _ (by unfold rows; split_ifs <;> omega)
    have := (r1 hder).rd (cap := pcap) i hi (by omega)
    rw [this, (rows_basis n v two_ne_zero hd x i hi).2.1]

theorem setQ_run {n m : Nat} {D : Mem K} {z w : Nat → K} (hz : Has D 0 n z) (hw : Has D n n w) :
    ∃ D', setQ n m D = some D' ∧ Pairs D' n n (fun i => (w i / 2, 3 * (w i / 2) * z i)) ∧ Outside n (2 * n) D D' := by
  have hs : 3 * n ≤ size n m := by rw [size_eq]; unfold lbnpOff lbOff hOff; omega
  obtain ⟨D', e, h1, h2, h3⟩ := forDown_inv (fun i D' => (∀ k, i ≤ k → k < n → D' (n + 2 * k) = some (w k / 2) ∧ D' (n + (2 * k + 1)) = some (3 * (w k / 2) * z k)) ∧
      (∀ k < i, D' (n + k) = some (w k)) ∧ Outside n (2 * n) D D')
    (fun i1 D =>
    let i := i1 - 1
    (rdD n m D (n + i)).bind fun q => (wr (size n m) D (n + 2 * i) (q / 2)).bind fun D =>
    (rdD n m D (n + 2 * i)).bind fun q2 => (rdD n m D i).bind fun zi => wr (size n m) D (n + (2 * i + 1)) (3 * q2 * zi)) n D
    ⟨fun k h1 h2 => by omega, fun k hk => hw k hk, Outside.refl _ _ _⟩ (by
      intro i hi D' ⟨h1, h2, h3⟩
      have hzi : D' i = some (z i) := by
        rw [h3 i (by omega)]; have := hz i hi; rwa [Nat.zero_add] at this
      refine ⟨fun k => if k = n + (2 * i + 1) then some (3 * (w i / 2) * z i) else if k = n + 2 * i then some (w i / 2) else D' k, ?_, ?_, ?_, ?_⟩
      · simp only [Nat.add_sub_cancel]
        rw [rdD, rd, if_pos (by omega), h2 i (by omega), Option.bind_some, wr_some (by omega), Option.bind_some]
        rw [rdD, rd, if_pos (by omega), if_pos rfl, Option.bind_some, rdD, rd, if_pos (by omega), if_neg (by omega), hzi, Option.bind_some, wr_some (by omega)]
      · intro k hk hk'
        by_cases hki : k = i
        · subst hki
          constructor
          · show (if n + 2 * k = n + (2 * k + 1) then _ else if n + 2 * k = n + 2 * k then _ else _) = _
            rw [if_neg (by omega), if_pos rfl]
          · show (if n + (2 * k + 1) = n + (2 * k + 1) then _ else _) = _
            rw [if_pos rfl]
        · have := h1 k (by omega) hk'
          constructor
          · show (if n + 2 * k = n + (2 * i + 1) then _ else if n + 2 * k = n + 2 * i then _ else _) = _
            rw [if_neg (by omega), if_neg (by omega), this.1]
          · show (if n + (2 * k + 1) = n + (2 * i + 1) then _ else if n + (2 * k + 1) = n + 2 * i then _ else _) = _
            rw [if_neg (by omega), if_neg (by omega), this.2]
      · intro k hk
        show (if n + k = n + (2 * i + 1) then _ else if n + k = n + 2 * i then _ else _) = _
        rw [if_neg (by omega), if_neg (by omega), h2 k (by omega)]
      · intro k hk
        show (if k = n + (2 * i + 1) then _ else if k = n + 2 * i then _ else _) = _
        rw [if_neg (by omega), if_neg (by omega), h3 k hk])
  exact ⟨D', e, fun k hk => h1 k (by omega) hk, h3⟩

/-- the nodes `h` -/
def hVal (m : Nat) (ch : Nat → K) (j : Nat) : K := if j = 0 then -1 else if j = m - 1 then 1 else ch j

theorem setH_run {n m : Nat} (hm : 2 ≤ m) (ch : Nat → K) (D : Mem K) :
    ∃ D', setH n m ch D = some D' ∧ Has D' (hOff n) m (hVal m ch) ∧ Outside (hOff n) m D D' := by
  have hs : hOff n + m ≤ size n m := by rw [size_eq]; unfold lbnpOff lbOff; omega
  unfold setH
  rw [wr_some (by omega), Option.bind_some, wr_some (by omega), Option.bind_some]
  obtain ⟨D', e, h1, h2⟩ := forUp_inv (fun i D' => (∀ j < m, (j < i ∨ j = m - 1) → D' (hOff n + j) = some (hVal m ch j)) ∧ Outside (hOff n) m D D')
    (fun j D => wr (size n m) D (hOff n + j) (ch j)) (m - 2) 1
    (fun k => if k = hOff n + (m - 1) then some (1 : K) else if k = hOff n then some (-1) else D k)
    ⟨fun j hj h => by
      dsimp only
      by_cases h0 : j = 0
      · subst h0; rw [if_neg (by omega), if_pos (by omega)]; rfl
      · rw [if_pos (by omega), hVal, if_neg h0, if_pos (by omega)], fun k hk => by
      beta_reduce
      rw [if_neg (by omega), if_neg (by omega)]⟩ (by
      intro i hi1 hi D' ⟨h1, h2⟩
      refine ⟨_, by rw [wr_some (by omega)], ?_, ?_⟩
      · intro j hj h
        by_cases hji : j = i
        · subst hji; rw [if_pos rfl, hVal, if_neg (by omega), if_neg (by omega)]
        · rw [if_neg (by omega), h1 j hj (by omega)]
      · intro k hk
        beta_reduce
        rw [if_neg (by omega), h2 k hk])
  exact ⟨D', e, fun j hj => h1 j hj (by omega), h2⟩

/-- entry `(i,j)` of the table `lb` -/
def LbAt (n m : Nat) (D : Mem K) (i j : Nat) (v : K × K) : Prop := D (lbOff n m + 2 * (i * m + j)) = some v.1 ∧ D (lbOff n m + (2 * (i * m + j) + 1)) = some v.2

theorem LbAt.keep {n m : Nat} {D D' : Mem K} {i j i' j' : Nat} {v : K × K} (h : LbAt n m D i j v) (o : Outside (lbOff n m + 2 * (i' * m + j')) 2 D D') (hj : j < m) (hj' : j' < m)
    (hne : ¬ (i = i' ∧ j = j')) : LbAt n m D' i j v := by
  have : i * m + j ≠ i' * m + j' := fun e => hne (idx_inj hj hj' e)
  unfold LbAt at *
  rw [o _ (by omega), o _ (by omega)]
  exact h

/-- the values at the end points -/
def endVal (n m i j : Nat) : K × K := if j = 0 then (if i = 0 then 1 else 0, if i = 0 then 1 else 0) else (if i = n - 1 then 1 else 0, if i = n - 1 then 1 else 0)

theorem setEnds_run {n m : Nat} (hm : 2 ≤ m) (D : Mem K) :
    ∃ D', setEnds n m D = some D' ∧ (∀ i < n, ∀ j < m, (j = 0 ∨ j = m - 1) → LbAt n m D' i j (endVal n m i j)) ∧ Outside (lbOff n m) (2 * (n * m)) D D' := by
  obtain ⟨D', e, h1, h2⟩ := forUp_inv (fun i' D' => (∀ i < i', ∀ j < m, (j = 0 ∨ j = m - 1) → LbAt n m D' i j (endVal n m i j)) ∧ Outside (lbOff n m) (2 * (n * m)) D D')
    (fun i D =>
    (wr2 (size n m) (lbOff n m + 2 * (i * m)) (if i = 0 then 1 else 0) D).bind fun D =>
    wr2 (size n m) (lbOff n m + 2 * (i * m + (m - 1))) (if i = n - 1 then 1 else 0) D) n 0 D ⟨fun i hi => by omega, Outside.refl _ _ _⟩ (by
      intro i _ hi D' ⟨h1, h2⟩
      have hi : i < n := by omega
      have a0 := idx_lt (m := m) hi (show 0 < m by omega)
      have a1 := idx_lt (m := m) hi (show m - 1 < m by omega)
      obtain ⟨D1, e1, p1, p2, o1⟩ := wr2_run (cap := size n m) (i := lbOff n m + 2 * (i * m)) (v := if i = 0 then (1 : K) else 0) (w := D') (by rw [size_eq]; unfold lbnpOff; omega)
      obtain ⟨D2, e2, p3, p4, o2⟩ := wr2_run (cap := size n m) (i := lbOff n m + 2 * (i * m + (m - 1))) (v := if i = n - 1 then (1 : K) else 0) (w := D1) (by rw [size_eq]; unfold lbnpOff; omega)
      refine ⟨D2, by rw [e1, Option.bind_some, e2], ?_, ?_⟩
      · intro i' hi' j hj hje
        by_cases hii : i' = i
        · subst hii
          rcases hje with rfl | rfl
          · have h : LbAt n m D1 i' 0 (endVal n m i' 0) := ⟨p1, p2⟩
            exact h.keep o2 (by omega) (by omega) (by omega)
          · have : endVal (K := K) n m i' (m - 1) = (if i' = n - 1 then 1 else 0, if i' = n - 1 then 1 else 0) := by
              unfold endVal; rw [if_neg (by omega)]
            rw [this]
            exact ⟨p3, p4⟩
        · exact ((h1 i' (by omega) j hj hje).keep (j' := 0) o1 hj (by omega) (by omega)).keep o2 hj (by omega) (by omega)
      · intro k hk
        rw [o2 k (by omega), o1 k (by omega), h2 k hk])
  rw [Nat.zero_add] at h1
  exact ⟨D', e, h1, h2⟩

/-- the bounds stored for basis function `i` at interior node `j` -/
noncomputable def innerVal (n m : Nat) (v h : Nat → K) (i j : Nat) : K × K :=
  let x := h j
  let xl := (x + h (j - 1)) / 2
  let xr := (x + h (j + 1)) / 2
  nodeBounds x xl xr (basisAt n v i xl) ((derivative (Lagrange.basis (range n) v i)).eval xl) (basisAt n v i xr) ((derivative (Lagrange.basis (range n) v i)).eval xr) (basisAt n v i x)

theorem colLoop (n m j : Nat) (hj : j < m) (V : Nat → K × K) (f : Nat → Mem K → Option (Mem K)) (D : Mem K)
    (hf : ∀ i < n, ∀ D, f i D = (wr (size n m) D (lbOff n m + 2 * (i * m + j)) (V i).1).bind fun D => wr (size n m) D (lbOff n m + (2 * (i * m + j) + 1)) (V i).2) :
    ∃ D', forUp 0 n f D = some D' ∧ (∀ i < n, LbAt n m D' i j (V i)) ∧ (∀ i < n, ∀ j' < m, j' ≠ j → ∀ w, LbAt n m D i j' w → LbAt n m D' i j' w) ∧
      Outside (lbOff n m) (2 * (n * m)) D D' := by
  obtain ⟨D', e, h1, h2, h3⟩ := forUp_inv (fun i' D' => (∀ i < i', LbAt n m D' i j (V i)) ∧ (∀ i < n, ∀ j' < m, j' ≠ j → ∀ w, LbAt n m D i j' w → LbAt n m D' i j' w) ∧
      Outside (lbOff n m) (2 * (n * m)) D D') f n 0 D ⟨fun i hi => by omega, fun _ _ _ _ _ _ h => h, Outside.refl _ _ _⟩ (by
      intro i _ hi D' ⟨h1, h2, h3⟩
      have hi : i < n := by omega
      have ha := idx_lt hi hj
      have hs : lbOff n m + 2 * (n * m) ≤ size n m := by rw [size_eq]; unfold lbnpOff; omega
      have ho : Outside (lbOff n m + 2 * (i * m + j)) 2 D' (fun k => if k = lbOff n m + (2 * (i * m + j) + 1) then some (V i).2 else if k = lbOff n m + 2 * (i * m + j) then some (V i).1 else D' k) := by
        intro k hk
        dsimp only
        rw [if_neg (by omega), if_neg (by omega)]
      refine ⟨_, by rw [hf i hi, wr_some (by omega), Option.bind_some, wr_some (by omega)], ?_, ?_, ?_⟩
      · intro i' hi'
        by_cases hii : i' = i
        · subst hii
          constructor
          · show (if lbOff n m + 2 * (i' * m + j) = lbOff n m + (2 * (i' * m + j) + 1) then _ else if _ then _ else _) = _
            rw [if_neg (by omega), if_pos rfl]
          · show (if lbOff n m + (2 * (i' * m + j) + 1) = lbOff n m + (2 * (i' * m + j) + 1) then _ else _) = _
            rw [if_pos rfl]
        · exact (h1 i' (by omega)).keep ho hj hj (by omega)
      · intro i' hi' j' hj' hjj w hw
        exact (h2 i' hi' j' hj' hjj w hw).keep ho hj' hj (by omega)
      · intro k hk
        rw [ho k (by omega), h3 k hk])
  rw [Nat.zero_add] at h1
  exact ⟨D', e, h1, h2, h3⟩

theorem setLb_run {n m : Nat} (hn : 2 ≤ n) (hm : 2 ≤ m) {v : Nat → K} (hv : n ≤ 24 → v = fixVal n) (hd : ∀ i < n, ∀ j < n, v i = v j → i = j) {g D : Mem K}
    (hg : GData n v (scale n v) g) {h : Nat → K} (hh : Has D (hOff n) m h) (he : ∀ i < n, ∀ j < m, (j = 0 ∨ j = m - 1) → LbAt n m D i j (endVal n m i j)) :
    ∃ D', setLb n m g D = some D' ∧ (∀ i < n, ∀ j < m, LbAt n m D' i j (if j = 0 ∨ j = m - 1 then endVal n m i j else innerVal n m v h i j)) ∧ Outside (lbOff n m) (2 * (n * m)) D D' := by
  have hs : hOff n + m ≤ size n m := by rw [size_eq]; unfold lbnpOff lbOff; omega
  have rh : ∀ {D' : Mem K}, Outside (lbOff n m) (2 * (n * m)) D D' → ∀ j < m, rdD n m D' (hOff n + j) = some (h j) := by
    intro D' o j hj
    rw [rdD, rd, if_pos (by omega), o _ (Or.inl (by unfold lbOff; omega)), hh j hj]
  have h0 := rh (Outside.refl _ _ _) 0 (by omega)
  rw [Nat.add_zero] at h0
  obtain ⟨p0, g0, eg, hg0, r0, r1⟩ := gll_step hn hv hd hg 1 (2 * n) (by simp [rows]) ((h 0 + h 1) / 2) (fun _ => none)
  obtain ⟨s, e, hs1, hs2, hs3, hs4⟩ := forUp_inv (fun j (s : Mem K × Mem K × Mem K) =>
      GData n v (scale n v) s.2.1 ∧ (∀ i < n, rd (2 * n) s.1 i = some (basisAt n v i ((h j + h (j - 1)) / 2)) ∧ rd (2 * n) s.1 (n + i) = some ((derivative (Lagrange.basis (range n) v i)).eval ((h j + h (j - 1)) / 2))) ∧
      (∀ i < n, ∀ j' < m, (j' < j ∨ j' = m - 1) → LbAt n m s.2.2 i j' (if j' = 0 ∨ j' = m - 1 then endVal n m i j' else innerVal n m v h i j')) ∧ Outside (lbOff n m) (2 * (n * m)) D s.2.2)
    (fun j (s : Mem K × Mem K × Mem K) =>
    (rdD n m s.2.2 (hOff n + j)).bind fun x => (rdD n m s.2.2 (hOff n + (j - 1))).bind fun hl => (rdD n m s.2.2 (hOff n + (j + 1))).bind fun hr =>
    let xl := (x + hl) / 2
    let xr := (x + hr) / 2
    (gllEval n (2 * n) 1 xr ((fun _ => none : Mem K), s.2.1)).bind fun r =>
    (gllEval n n 0 x ((fun _ => none : Mem K), r.2)).bind fun q =>
    (forUp 0 n (fun i D =>
      (rd (2 * n) s.1 i).bind fun pl => (rd (2 * n) s.1 (n + i)).bind fun dl => (rd (2 * n) r.1 i).bind fun pr => (rd (2 * n) r.1 (n + i)).bind fun dr =>
      (rd n q.1 i).bind fun p =>
      (wr (size n m) D (lbOff n m + 2 * (i * m + j)) (nodeBounds x xl xr pl dl pr dr p).1).bind fun D =>
      wr (size n m) D (lbOff n m + (2 * (i * m + j) + 1)) (nodeBounds x xl xr pl dl pr dr p).2) s.2.2).map fun D => (r.1, q.2, D)) (m - 2) 1 (p0, g0, D)
    ⟨hg0, fun i hi => by
      rw [show (h 1 + h (1 - 1)) / 2 = (h 0 + h 1) / 2 by rw [add_comm]]
      exact ⟨r0 i hi, r1 (by omega) i hi⟩, fun i hi j hj hj' => by
      rw [if_pos (by omega)]; exact he i hi j hj (by omega), Outside.refl _ _ _⟩ (by
      intro j hj1 hj2 s ⟨i1, i2, i3, i4⟩
      dsimp only
      obtain ⟨pr, gr, er, hgr, q0, q1⟩ := gll_step hn hv hd i1 1 (2 * n) (by simp [rows]) ((h j + h (j + 1)) / 2) (fun _ => none)
      obtain ⟨pp, gp, ep, hgp, t0, -⟩ := gll_step hn hv hd hgr 0 n (by simp [rows]) (h j) (fun _ => none)
      rw [rh i4 j (by omega), Option.bind_some, rh i4 (j - 1) (by omega), Option.bind_some, rh i4 (j + 1) (by omega), Option.bind_some, er, Option.bind_some, ep, Option.bind_some]
      obtain ⟨D', eD, k1, k2, k3⟩ := colLoop n m j (by omega) (fun i => innerVal n m v h i j) (fun i D =>
        (rd (2 * n) s.1 i).bind fun pl => (rd (2 * n) s.1 (n + i)).bind fun dl => (rd (2 * n) pr i).bind fun pr' => (rd (2 * n) pr (n + i)).bind fun dr =>
        (rd n pp i).bind fun p =>
        (wr (size n m) D (lbOff n m + 2 * (i * m + j)) (nodeBounds (h j) ((h j + h (j - 1)) / 2) ((h j + h (j + 1)) / 2) pl dl pr' dr p).1).bind fun D =>
        wr (size n m) D (lbOff n m + (2 * (i * m + j) + 1)) (nodeBounds (h j) ((h j + h (j - 1)) / 2) ((h j + h (j + 1)) / 2) pl dl pr' dr p).2) s.2.2 (fun i hi D => by
        have a := i2 i hi
        beta_reduce
        rw [a.1, Option.bind_some, a.2, Option.bind_some, q0 i hi, Option.bind_some, q1 (by omega) i hi, Option.bind_some, t0 i hi, Option.bind_some]
        rfl)
      refine ⟨(pr, gp, D'), by rw [eD]; rfl, hgp, fun i hi => ?_, fun i hi j' hj' hjj => ?_, i4.trans k3⟩
      · rw [show (h (j + 1) + h (j + 1 - 1)) / 2 = (h j + h (j + 1)) / 2 by rw [add_comm]; rfl]
        exact ⟨q0 i hi, q1 (by omega) i hi⟩
      · by_cases hj3 : j' = j
        · subst hj3
          rw [if_neg (by omega)]
          exact k1 i hi
        · exact k2 i hi j' hj' hj3 _ (i3 i hi j' hj' (by omega)))
  refine ⟨s.2.2, ?_, fun i hi j hj => hs3 i hi j hj (by omega), hs4⟩
  rw [setLb, h0, Option.bind_some, rh (Outside.refl _ _ _) 1 (by omega), Option.bind_some, eg, Option.bind_some]
  exact (congrArg _ e).trans rfl

/-- one entry of the split table -/
def part (f : K × K) (c : Nat) : K := if c = 0 then min f.1 0 else if c = 1 then max f.1 0 else if c = 2 then min f.2 0 else max f.2 0

theorem part0 (f : K × K) : part f 0 = min f.1 0 := rfl
theorem part1 (f : K × K) : part f 1 = max f.1 0 := rfl
theorem part2 (f : K × K) : part f 2 = min f.2 0 := rfl
theorem part3 (f : K × K) : part f 3 = max f.2 0 := rfl

theorem setLbnp_run {n m : Nat} {D : Mem K} {L : Nat → K × K} (hL : Pairs D (lbOff n m) (n * m) L) :
    ∃ D', setLbnp n m D = some D' ∧ (∀ i < n * m, ∀ c < 4, D' (lbnpOff n m + 4 * i + c) = some (part (L i) c)) ∧ Outside (lbnpOff n m) (4 * (n * m)) D D' := by
  obtain ⟨D', e, h1, h2⟩ := blocks (lbnpOff n m) 4 (n * m) (fun q => part (L (q / 4)) (q % 4))
    (fun i D =>
    let p := lbnpOff n m + 4 * i
    (wr (size n m) D (p + 3) 0).bind fun D => (wr (size n m) D (p + 2) 0).bind fun D => (wr (size n m) D (p + 1) 0).bind fun D => (wr (size n m) D p 0).bind fun D =>
    (rdD n m D (lbOff n m + 2 * i)).bind fun f => (if f < 0 then wr (size n m) D p f else wr (size n m) D (p + 1) f).bind fun D =>
    (rdD n m D (lbOff n m + (2 * i + 1))).bind fun f => if f < 0 then wr (size n m) D (p + 2) f else wr (size n m) D (p + 3) f) D (by
      intro i hi D' ho _
      have hs := size_eq n m
      have hlb : lbnpOff n m = lbOff n m + 2 * (n * m) := rfl
      have r0 : D' (lbOff n m + 2 * i) = some (L i).1 := by rw [ho _ (by omega)]; exact (hL i hi).1
      have r1 : D' (lbOff n m + (2 * i + 1)) = some (L i).2 := by rw [ho _ (by omega)]; exact (hL i hi).2
      refine ⟨fun k => if k = lbnpOff n m + 4 * i then some (part (L i) 0) else if k = lbnpOff n m + 4 * i + 1 then some (part (L i) 1)
        else if k = lbnpOff n m + 4 * i + 2 then some (part (L i) 2) else if k = lbnpOff n m + 4 * i + 3 then some (part (L i) 3) else D' k, ?_, ?_, ?_⟩
      · dsimp only
        rw [wr_some (by omega), Option.bind_some, wr_some (by omega), Option.bind_some, wr_some (by omega), Option.bind_some, wr_some (by omega), Option.bind_some]
        rw [rdD, rd, if_pos (by omega), if_neg (by omega), if_neg (by omega), if_neg (by omega), if_neg (by omega), r0, Option.bind_some]
        by_cases c0 : (L i).1 < 0
        · rw [if_pos c0, wr_some (by omega), Option.bind_some]
          rw [rdD, rd, if_pos (by omega), if_neg (by omega), if_neg (by omega), if_neg (by omega), if_neg (by omega), if_neg (by omega), r1, Option.bind_some]
          by_cases c1 : (L i).2 < 0
          · rw [if_pos c1, wr_some (by omega)]
            refine congrArg some (funext fun k => ?_)
            simp only [part0, part1, part2, part3, min_eq_left c0.le, min_eq_left c1.le, max_eq_right c0.le, max_eq_right c1.le]
            split_ifs <;> first | rfl | omega
          · rw [if_neg c1, wr_some (by omega)]
            refine congrArg some (funext fun k => ?_)
            simp only [part0, part1, part2, part3, min_eq_left c0.le, min_eq_right (not_lt.1 c1), max_eq_right c0.le, max_eq_left (not_lt.1 c1)]
            split_ifs <;> first | rfl | omega
        · rw [if_neg c0, wr_some (by omega), Option.bind_some]
          rw [rdD, rd, if_pos (by omega), if_neg (by omega), if_neg (by omega), if_neg (by omega), if_neg (by omega), if_neg (by omega), r1, Option.bind_some]
          by_cases c1 : (L i).2 < 0
          · rw [if_pos c1, wr_some (by omega)]
            refine congrArg some (funext fun k => ?_)
            simp only [part0, part1, part2, part3, min_eq_right (not_lt.1 c0), min_eq_left c1.le, max_eq_left (not_lt.1 c0), max_eq_right c1.le]
            split_ifs <;> first | rfl | omega
          · rw [if_neg c1, wr_some (by omega)]
            refine congrArg some (funext fun k => ?_)
            simp only [part0, part1, part2, part3, min_eq_right (not_lt.1 c0), min_eq_right (not_lt.1 c1), max_eq_left (not_lt.1 c0), max_eq_left (not_lt.1 c1)]
            split_ifs <;> first | rfl | omega
      · intro c hc
        have e1 : (4 * i + c) / 4 = i := by omega
        have e2 : (4 * i + c) % 4 = c := by omega
        beta_reduce
        rw [e1, e2]
        have : c = 0 ∨ c = 1 ∨ c = 2 ∨ c = 3 := by omega
        rcases this with rfl | rfl | rfl | rfl
        · rw [if_pos (by omega)]
        · rw [if_neg (by omega), if_pos rfl]
        · rw [if_neg (by omega), if_neg (by omega), if_pos rfl]
        · rw [if_neg (by omega), if_neg (by omega), if_neg (by omega), if_pos rfl]
      · intro k hk
        beta_reduce
        rw [if_neg (by omega), if_neg (by omega), if_neg (by omega), if_neg (by omega)])
  refine ⟨D', e, fun i hi c hc => ?_, h2⟩
  have := h1 (4 * i + c) (by omega)
  beta_reduce at this
  rw [← Nat.add_assoc, show (4 * i + c) / 4 = i by omega, show (4 * i + c) % 4 = c by omega] at this
  exact this

/-- the table stored by `lob_bnd_setup` -/
noncomputable def tableVal (n m : Nat) (v h : Nat → K) (i j : Nat) : K × K := if j = 0 ∨ j = m - 1 then endVal n m i j else innerVal n m v h i j

theorem setup_run {fuel n m : Nat} {eps : K} {guess ch : Nat → K} (hn : 2 ≤ n) (hm : 2 ≤ m) {zm : Mem K} {v : Nat → K}
    (hl : lobattoNodes n fuel eps guess n (fun _ => none) = some zm) (hv : ∀ i < n, zm i = some (v i)) (hv' : n ≤ 24 → v = fixVal n)
    (hd : ∀ i < n, ∀ j < n, v i = v j → i = j) :
    ∃ (D : Mem K) (w : Nat → K), setup fuel eps guess ch n m = some D ∧
      Data n m D v (fun i => (w i / 2, 3 * (w i / 2) * v i)) (hVal m ch) (tableVal n m v (hVal m ch)) ∧ ∀ i < n, w i = 2 / (((n : K) - 1) * n * (legendreP K (n - 1)).eval (v i) ^ 2) := by
  obtain ⟨g, eg, hg⟩ := gllSetup_run fuel eps guess n hn zm v hv' (fun i hi => by rw [Nat.zero_add, hv i hi]) hl
  obtain ⟨zw, ezw⟩ : ∃ zw, lobattoQuad n fuel eps guess n (fun _ => none) (fun _ => none) = some zw := by
    obtain ⟨v1, hv1, -, -, -⟩ := (lobatto_nodes_symmetric n fuel n eps guess (fun _ => none) (Nat.le_refl _) hn).2 zm hl
    have hg : ∀ x : K, (fun x => 2 / (((n : K) - 1) * n * legendre (n - 1) x * legendre (n - 1) x)) (-x) =
        (fun x => 2 / (((n : K) - 1) * n * legendre (n - 1) x * legendre (n - 1) x)) x := by
      intro x
      dsimp only
      have := legendre_sq_even (n - 1) x
      congr 1
      linear_combination ((n : K) - 1) * n * this
    obtain ⟨w2, e, h1, h2⟩ := weights_run n n (by omega) (Nat.le_refl _) zm (fun _ => none) v1 hv1
      (fun x => 2 / (((n : K) - 1) * n * legendre (n - 1) x * legendre (n - 1) x)) hg _ (fun i hi w => rfl)
    exact ⟨_, by rw [lobattoQuad, hl, Option.bind_some]; exact e⟩
  obtain ⟨v2, w, hs, -, -, hw, -, hwv, -⟩ := lobatto_quad_symmetric n fuel n eps guess _ _ zw.1 zw.2 (Nat.le_refl _) hn ezw
  have hz1 : zw.1 = zm := by
    rw [lobattoQuad, hl, Option.bind_some] at ezw
    obtain ⟨a, -, h2⟩ := Option.bind_eq_some_iff.1 ezw
    obtain ⟨b, -, h3⟩ := Option.map_eq_some_iff.1 h2
    rw [← h3]
  have hvv : ∀ i < n, v2 i = v i := fun i hi => by
    have := hs.filled i hi
    rw [hz1, hv i hi] at this
    exact (Option.some.inj this).symm
  set D0 : Mem K := fun k => if k < n then zw.1 k else if k < 2 * n then zw.2 (k - n) else none with hD0
  have z0 : Has D0 0 n v := fun i hi => by
    rw [hD0]; dsimp only; rw [if_pos (by omega), Nat.zero_add, hz1, hv i hi]
  have w0 : Has D0 n n w := fun i hi => by
    rw [hD0]; dsimp only; rw [if_neg (by omega), if_pos (by omega), show n + i - n = i by omega, hw i hi]
  have hho : hOff n = 3 * n := by unfold hOff; omega
  have hlo : lbOff n m = 3 * n + m := by unfold lbOff; omega
  have hno : lbnpOff n m = 3 * n + m + 2 * (n * m) := by unfold lbnpOff; omega
  obtain ⟨D1, e1, q1, o1⟩ := setQ_run (m := m) z0 w0
  obtain ⟨D2, e2, h2, o2⟩ := setH_run (n := n) hm ch D1
  obtain ⟨D3, e3, h3, o3⟩ := setEnds_run (n := n) hm D2
  have hh3 := h2.keep o3 (by omega)
  obtain ⟨D4, e4, h4, o4⟩ := setLb_run hn hm hv' hd hg hh3 h3
  have hp : Pairs D4 (lbOff n m) (n * m) (fun p => tableVal n m v (hVal m ch) (p / m) (p % m)) := by
    intro p hp
    have hpm : p % m < m := Nat.mod_lt _ (by omega)
    have hpd : p / m < n := Nat.div_lt_of_lt_mul (by rwa [Nat.mul_comm])
    have hpp : p / m * m + p % m = p := by rw [Nat.mul_comm]; exact Nat.div_add_mod p m
    have := h4 (p / m) hpd (p % m) hpm
    rw [LbAt, hpp] at this
    exact this
  obtain ⟨D5, e5, h5, o5⟩ := setLbnp_run hp
  have part_at : ∀ i < n, ∀ j < m, ∀ c < 4, D5 (lbnpOff n m + 4 * (i * m + j) + c) = some (part (tableVal n m v (hVal m ch) i j) c) := by
    intro i hi j hj c hc
    have := h5 _ (idx_lt hi hj) c hc
    rw [(div_mod_at hj).1, (div_mod_at hj).2] at this
    exact this
  refine ⟨D5, w, ?_, ?_, fun i hi => by rw [hwv i hi, hvv i hi]⟩
  · rw [setup, if_neg (by omega), eg, Option.bind_some, ezw, Option.bind_some]
    dsimp only
    rw [← hD0, e1, Option.bind_some, e2, Option.bind_some, e3, Option.bind_some, e4, Option.bind_some, e5]
  · refine ⟨((((z0.keep o1 (by omega)).keep o2 (by omega)).keep o3 (by omega)).keep o4 (by omega)).keep o5 (by omega),
      (((q1.keep o2 (by omega)).keep o3 (by omega)).keep o4 (by omega)).keep o5 (by omega), (hh3.keep o4 (by omega)).keep o5 (by omega), ?_, ?_, ?_, ?_, ?_⟩
    · intro i hi j hj
      have := idx_lt hi hj
      rw [o5 _ (by omega), o5 _ (by omega)]
      exact h4 i hi j hj
    · exact fun i hi j hj => part_at i hi j hj 0 (by omega)
    · exact fun i hi j hj => part_at i hi j hj 1 (by omega)
    · exact fun i hi j hj => part_at i hi j hj 2 (by omega)
    · exact fun i hi j hj => part_at i hi j hj 3 (by omega)

end Gslib.Lob
