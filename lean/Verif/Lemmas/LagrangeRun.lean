import Verif.Lemmas.Lagrange

/-!
# Running `lagrange_eval` and `lagrange_setup`
-/

namespace Gslib.Poly
open Gslib.Num
variable {K : Type} [Field K]

/-- the three rows in closed form -/
def row0 (n : Nat) (w d : Nat → K) (i : Nat) : K := w i * U0 d i * U0 (rev n d) (n - 1 - i)

/-- first derivative row -/
def row1 (n : Nat) (w d : Nat → K) (i : Nat) : K :=
  2 * w i * (U1 d i * U0 (rev n d) (n - 1 - i) + U0 d i * U1 (rev n d) (n - 1 - i))

/-- second derivative row -/
def row2 (n : Nat) (w d : Nat → K) (i : Nat) : K :=
  4 * w i * (U2 d i * U0 (rev n d) (n - 1 - i) + 2 * U1 d i * U1 (rev n d) (n - 1 - i) + U0 d i * U2 (rev n d) (n - 1 - i))

/-- rows requested by `der` -/
def rows (der : Int) : Nat := if der > 1 then 3 else if der > 0 then 2 else 1

/-- the nodes and scale factors are in place -/
def Data (n : Nat) (z w : Nat → K) (m : Mem K) : Prop := Has m 0 n z ∧ Has m n n w

theorem setD_run {cap n : Nat} (hc : 9 * n ≤ cap) (x : K) {z w : Nat → K} {m : Mem K} (h : Data n z w m) :
    ∃ m', setD cap n x m = some m' ∧ Data n z w m' ∧ Has m' (2 * n) n (dx z x) := by
  obtain ⟨m', e, h1, h2⟩ := fillUp cap (2 * n) n (dx z x) (fun i m => (rd cap m i).bind fun zi => wr cap m (2 * n + i) (2 * (x - zi)))
    m (by omega) (by
      intro i hi m' ho _
      have := (h.1.keep ho (by omega)).rd (cap := cap) i hi (by omega)
      rw [Nat.zero_add] at this
      simp only [this, Option.bind_some]; rfl)
  exact ⟨m', e, ⟨h.1.keep h2 (by omega), h.2.keep h2 (by omega)⟩, h1⟩

theorem setU_gen {cap n off : Nat} (hc : 9 * n ≤ cap) (h0 : off + n ≤ cap) (hn : 0 < n) (F : Nat → K)
    (f : Nat → Mem K → Option (Mem K)) (m : Mem K) (v : K) (hv : v = F 0)
    (hf : ∀ i, i + 1 < n → ∀ m', Outside off n m m' → Has m' off (i + 1) F → f i m' = wr cap m' (off + (i + 1)) (F (i + 1))) :
    ∃ m', ((wr cap m off v).bind fun m => forUp 0 (n - 1) f m) = some m' ∧ Has m' off n F ∧ Outside off n m m' := by
  subst hv; exact fillUp1 cap off n hn F f m h0 hf

theorem setU0_run {cap n : Nat} (hc : 9 * n ≤ cap) (hn : 0 < n) {d : Nat → K} {m : Mem K} (h : Has m (2 * n) n d) :
    ∃ m', setU0 cap n m = some m' ∧ Has m' (3 * n) n (U0 d) ∧ Outside (3 * n) n m m' :=
  setU_gen hc (by omega) hn (U0 d) _ m 1 rfl (by
    intro i hi m' ho hh
    have e1 := hh.rd (cap := cap) i (by omega) (by omega)
    have e2 := (h.keep ho (by omega)).rd (cap := cap) i (by omega) (by omega)
    simp only [e1, e2, Option.bind_some]; rfl)

theorem setU1_run {cap n : Nat} (hc : 9 * n ≤ cap) (hn : 0 < n) {d : Nat → K} {m : Mem K} (h : Has m (2 * n) n d)
    (h0 : Has m (3 * n) n (U0 d)) :
    ∃ m', setU1 cap n m = some m' ∧ Has m' (5 * n) n (U1 d) ∧ Outside (5 * n) n m m' :=
  setU_gen hc (by omega) hn (U1 d) _ m 0 rfl (by
    intro i hi m' ho hh
    have e1 := hh.rd (cap := cap) i (by omega) (by omega)
    have e2 := (h.keep ho (by omega)).rd (cap := cap) i (by omega) (by omega)
    have e3 := (h0.keep ho (by omega)).rd (cap := cap) i (by omega) (by omega)
    simp only [e1, e2, e3, Option.bind_some]; rfl)

theorem setU2_run {cap n : Nat} (hc : 9 * n ≤ cap) (hn : 0 < n) {d : Nat → K} {m : Mem K} (h : Has m (2 * n) n d)
    (h0 : Has m (5 * n) n (U1 d)) :
    ∃ m', setU2 cap n m = some m' ∧ Has m' (7 * n) n (U2 d) ∧ Outside (7 * n) n m m' :=
  setU_gen hc (by omega) hn (U2 d) _ m 0 rfl (by
    intro i hi m' ho hh
    have e1 := hh.rd (cap := cap) i (by omega) (by omega)
    have e2 := (h.keep ho (by omega)).rd (cap := cap) i (by omega) (by omega)
    have e3 := (h0.keep ho (by omega)).rd (cap := cap) i (by omega) (by omega)
    simp only [e1, e2, e3, Option.bind_some]; rfl)

theorem setV_gen {cap n off : Nat} (h0 : off + n ≤ cap) (hn : 0 < n) (F : Nat → K)
    (f : Nat → Mem K → Option (Mem K)) (m : Mem K) (v : K) (hv : v = F (n - 1))
    (hf : ∀ i, i + 1 < n → ∀ m', Outside off n m m' → (∀ j, i + 1 ≤ j → j < n → m' (off + j) = some (F j)) →
      f (i + 1) m' = wr cap m' (off + i) (F i)) :
    ∃ m', ((wr cap m (off + (n - 1)) v).bind fun m => forDown (n - 1) f m) = some m' ∧ Has m' off n F ∧ Outside off n m m' := by
  subst hv; exact fillDown1 cap off n hn F f m h0 hf

theorem rd_of {cap i : Nat} {m : Mem K} {v : K} (h : m i = some v) (hi : i < cap) : rd cap m i = some v := by rw [rd, if_pos hi, h]

theorem vstep {n i : Nat} (hi : i + 1 < n) : n - 1 - i = (n - 1 - (i + 1)) + 1 := by omega

theorem rev_at {n i : Nat} (hi : i + 1 < n) (d : Nat → K) : rev n d (n - 1 - (i + 1)) = d (i + 1) := by
  rw [rev]; congr 1; omega

theorem setV0_run {cap n : Nat} (hc : 9 * n ≤ cap) (hn : 0 < n) {d : Nat → K} {m : Mem K} (h : Has m (2 * n) n d) :
    ∃ m', setV0 cap n m = some m' ∧ Has m' (4 * n) n (fun i => U0 (rev n d) (n - 1 - i)) ∧ Outside (4 * n) n m m' :=
  setV_gen (by omega) hn (fun i => U0 (rev n d) (n - 1 - i)) _ m 1 (by simp [U0]) (by
    intro i hi m' ho hh
    have e1 := rd_of (cap := cap) (hh (i + 1) (by omega) hi) (by omega)
    have e2 := (h.keep ho (by omega)).rd (cap := cap) (i + 1) (by omega) (by omega)
    simp only [e1, e2, Option.bind_some]
    rw [vstep hi, U0, rev_at hi, mul_comm (_ : K) (d (i + 1))]; rfl)

theorem setV1_run {cap n : Nat} (hc : 9 * n ≤ cap) (hn : 0 < n) {d : Nat → K} {m : Mem K} (h : Has m (2 * n) n d)
    (h0 : Has m (4 * n) n (fun i => U0 (rev n d) (n - 1 - i))) :
    ∃ m', setV1 cap n m = some m' ∧ Has m' (6 * n) n (fun i => U1 (rev n d) (n - 1 - i)) ∧ Outside (6 * n) n m m' :=
  setV_gen (by omega) hn (fun i => U1 (rev n d) (n - 1 - i)) _ m 0 (by simp [U1]) (by
    intro i hi m' ho hh
    have e1 := rd_of (cap := cap) (hh (i + 1) (by omega) hi) (by omega)
    have e2 := (h.keep ho (by omega)).rd (cap := cap) (i + 1) (by omega) (by omega)
    have e3 := (h0.keep ho (by omega)).rd (cap := cap) (i + 1) (by omega) (by omega)
    simp only [e1, e2, e3, Option.bind_some]
    rw [vstep hi, U1, rev_at hi, mul_comm (_ : K) (d (i + 1))]; rfl)

theorem setV2_run {cap n : Nat} (hc : 9 * n ≤ cap) (hn : 0 < n) {d : Nat → K} {m : Mem K} (h : Has m (2 * n) n d)
    (h0 : Has m (6 * n) n (fun i => U1 (rev n d) (n - 1 - i))) :
    ∃ m', setV2 cap n m = some m' ∧ Has m' (8 * n) n (fun i => U2 (rev n d) (n - 1 - i)) ∧ Outside (8 * n) n m m' :=
  setV_gen (by omega) hn (fun i => U2 (rev n d) (n - 1 - i)) _ m 0 (by simp [U2]) (by
    intro i hi m' ho hh
    have e1 := rd_of (cap := cap) (hh (i + 1) (by omega) hi) (by omega)
    have e2 := (h.keep ho (by omega)).rd (cap := cap) (i + 1) (by omega) (by omega)
    have e3 := (h0.keep ho (by omega)).rd (cap := cap) (i + 1) (by omega) (by omega)
    simp only [e1, e2, e3, Option.bind_some]
    rw [vstep hi, U2, rev_at hi, mul_comm (_ : K) (d (i + 1))]; rfl)

/-- `lagrange_eval` computes the three rows, keeps nodes and scale factors, and writes nothing else to `p` -/
theorem eval_run {cap pcap n : Nat} (hc : 9 * n ≤ cap) (hn : 0 < n) (der : Int) (hp : rows der * n ≤ pcap) (x : K) {z w : Nat → K}
    {p m : Mem K} (h : Data n z w m) :
    ∃ p' m', lagrangeEval cap pcap n der x (p, m) = some (p', m') ∧ Data n z w m' ∧
      Has p' 0 n (row0 n w (dx z x)) ∧ (0 < der → Has p' n n (row1 n w (dx z x))) ∧ (1 < der → Has p' (2 * n) n (row2 n w (dx z x))) ∧
      Outside 0 (rows der * n) p p' := by
  have hr : n ≤ rows der * n := Nat.le_mul_of_pos_left _ (by unfold rows; split_ifs <;> omega)
  obtain ⟨m1, e1, h1, d1⟩ := setD_run hc x h
  obtain ⟨m2, e2, u2, o2⟩ := setU0_run hc hn d1
  have d2 := d1.keep o2 (by omega)
  obtain ⟨m3, e3, v3, o3⟩ := setV0_run hc hn d2
  have d3 := d2.keep o3 (by omega)
  have u3 := u2.keep o3 (by omega)
  have h3 : Data n z w m3 := ⟨(h1.1.keep o2 (by omega)).keep o3 (by omega), (h1.2.keep o2 (by omega)).keep o3 (by omega)⟩
  obtain ⟨p1, ep1, hp1, op1⟩ := fillUp pcap 0 n (row0 n w (dx z x)) (fun i p => (rd cap m3 (n + i)).bind fun w =>
    (rd cap m3 (3 * n + i)).bind fun u0 => (rd cap m3 (4 * n + i)).bind fun v0 => wr pcap p i (w * u0 * v0)) p (by omega) (by
      intro i hi p' _ _
      simp only [h3.2.rd (cap := cap) i hi (by omega), u3.rd (cap := cap) i hi (by omega), v3.rd (cap := cap) i hi (by omega),
        Option.bind_some, Nat.zero_add]; rfl)
  have ep1 : setP0 cap n pcap m3 p = some p1 := ep1
  unfold lagrangeEval
  rw [if_neg (by omega)]
  simp only [e1, e2, e3, ep1, Option.bind_some]
  by_cases hd : 0 < der
  swap
  · rw [if_neg (by omega)]
    exact ⟨p1, m3, rfl, h3, hp1, fun h => absurd h hd, fun h => absurd h (by omega), fun k hk => op1 k (by omega)⟩
  rw [if_pos hd]
  have hr2 : 2 * n ≤ rows der * n := Nat.mul_le_mul_right _ (by unfold rows; split_ifs <;> omega)
  obtain ⟨m4, e4, u4, o4⟩ := setU1_run hc hn d3 u3
  have d4 := d3.keep o4 (by omega)
  have v4 := v3.keep o4 (by omega)
  obtain ⟨m5, e5, v5, o5⟩ := setV1_run hc hn d4 v4
  have d5 := d4.keep o5 (by omega)
  have uu5 := u4.keep o5 (by omega)
  have vv5 := v4.keep o5 (by omega)
  have u5 := (u3.keep o4 (by omega)).keep o5 (by omega)
  have h5 : Data n z w m5 := ⟨(h3.1.keep o4 (by omega)).keep o5 (by omega), (h3.2.keep o4 (by omega)).keep o5 (by omega)⟩
  obtain ⟨p2, ep2, hp2, op2⟩ := fillUp pcap n n (row1 n w (dx z x)) (fun i p => (rd cap m5 (n + i)).bind fun w =>
    (rd cap m5 (5 * n + i)).bind fun u1 => (rd cap m5 (4 * n + i)).bind fun v0 =>
    (rd cap m5 (3 * n + i)).bind fun u0 => (rd cap m5 (6 * n + i)).bind fun v1 =>
    wr pcap p (n + i) (2 * w * (u1 * v0 + u0 * v1))) p1 (by omega) (by
      intro i hi p' _ _
      simp only [h5.2.rd (cap := cap) i hi (by omega), uu5.rd (cap := cap) i hi (by omega), vv5.rd (cap := cap) i hi (by omega),
        u5.rd (cap := cap) i hi (by omega), v5.rd (cap := cap) i hi (by omega), Option.bind_some]; rfl)
  have ep2 : setP1 cap n pcap m5 p1 = some p2 := ep2
  have hp12 := hp1.keep op2 (by omega)
  simp only [e4, e5, ep2, Option.bind_some]
  by_cases hd' : 1 < der
  swap
  · rw [if_neg (by omega)]
    exact ⟨p2, m5, rfl, h5, hp12, fun _ => hp2, fun h => absurd h hd', fun k hk => by
      rw [op2 k (by omega), op1 k (by omega)]⟩
  rw [if_pos hd']
  have hr3 : 3 * n ≤ rows der * n := Nat.mul_le_mul_right _ (by unfold rows; split_ifs <;> omega)
  obtain ⟨m6, e6, u6, o6⟩ := setU2_run hc hn d5 uu5
  have d6 := d5.keep o6 (by omega)
  have v6 := v5.keep o6 (by omega)
  obtain ⟨m7, e7, v7, o7⟩ := setV2_run hc hn d6 v6
  have uuu7 := u6.keep o7 (by omega)
  have uu7 := (uu5.keep o6 (by omega)).keep o7 (by omega)
  have vv7 := v6.keep o7 (by omega)
  have u7 := (u5.keep o6 (by omega)).keep o7 (by omega)
  have vvv7 := (vv5.keep o6 (by omega)).keep o7 (by omega)
  have h7 : Data n z w m7 := ⟨(h5.1.keep o6 (by omega)).keep o7 (by omega), (h5.2.keep o6 (by omega)).keep o7 (by omega)⟩
  obtain ⟨p3, ep3, hp3, op3⟩ := fillUp pcap (2 * n) n (row2 n w (dx z x)) (fun i p => (rd cap m7 (n + i)).bind fun w =>
    (rd cap m7 (7 * n + i)).bind fun u2 => (rd cap m7 (4 * n + i)).bind fun v0 =>
    (rd cap m7 (5 * n + i)).bind fun u1 => (rd cap m7 (6 * n + i)).bind fun v1 => (rd cap m7 (3 * n + i)).bind fun u0 =>
    (rd cap m7 (8 * n + i)).bind fun v2 =>
    wr pcap p (2 * n + i) (4 * w * (u2 * v0 + 2 * u1 * v1 + u0 * v2))) p2 (by omega) (by
      intro i hi p' _ _
      simp only [h7.2.rd (cap := cap) i hi (by omega), uuu7.rd (cap := cap) i hi (by omega), vvv7.rd (cap := cap) i hi (by omega),
        uu7.rd (cap := cap) i hi (by omega), vv7.rd (cap := cap) i hi (by omega),
        u7.rd (cap := cap) i hi (by omega), v7.rd (cap := cap) i hi (by omega), Option.bind_some]; rfl)
  have ep3 : setP2 cap n pcap m7 p2 = some p3 := ep3
  simp only [e6, e7, ep3, Option.bind_some]
  exact ⟨p3, m7, rfl, h7, hp12.keep op3 (by omega), fun _ => hp2.keep op3 (by omega), fun _ => hp3, fun k hk => by
      rw [op3 k (by omega), op2 k (by omega), op1 k (by omega)]⟩

/-- the scale factors `lagrange_coef` computes -/
def scale (n : Nat) (z : Nat → K) (i : Nat) : K := 1 / row0 n (fun _ => 1) (dx z (z i)) i

theorem setup_run (n : Nat) (hn : 0 < n) (z : Nat → K) : ∃ m, lagrangeSetup n z = some m ∧ Data n z (scale n z) m := by
  obtain ⟨m1, e1, h1, o1⟩ := fillUp (lagrangeSize n) n n (fun _ => (1 : K)) (fun i m => wr (lagrangeSize n) m (n + i) 1)
    (fun i => if i < n then some (z i) else none) (by unfold lagrangeSize; omega) (fun i _ m' _ _ => rfl)
  have hz1 : Has m1 0 n z := (show Has (fun i => if i < n then some (z i) else none) 0 n z from
    fun i hi => by simp [hi]).keep o1 (by omega)
  obtain ⟨s2, e2, h2⟩ := forUp_inv (fun i (s : Mem K × Mem K) => Data n z (fun j => if j < i then scale n z j else 1) s.2)
    (fun i s => (lagrangeEval (lagrangeSize n) n n 0 (z i) s).bind fun s => (rd n s.1 i).bind fun pi =>
    (wr (lagrangeSize n) s.2 (n + i) (1 / pi)).bind fun m => some (s.1, m)) n 0 (fun _ => none, m1)
    ⟨hz1, by simpa using h1⟩ (by
      intro i _ hi ⟨p, m⟩ h
      obtain ⟨p', m', e, hd, hp, -, -, -⟩ := eval_run (cap := lagrangeSize n) (pcap := n) (Nat.le_refl _) hn 0
        (by simp [rows]) (z i) (p := p) h
      have hpi := hp.rd (cap := n) i (by omega) (by omega)
      rw [Nat.zero_add] at hpi
      rw [e]
      simp only [Option.bind_some, hpi]
      rw [wr_some (by unfold lagrangeSize; omega)]
      refine ⟨_, rfl, ?_, ?_⟩
      · intro k hk
        show (if 0 + k = n + i then _ else _) = _
        rw [if_neg (by omega), hd.1 k hk]
      · intro k hk
        show (if n + k = n + i then _ else _) = _
        by_cases hki : k = i
        · subst hki
          rw [if_pos rfl]
          simp [row0, scale]
        · rw [if_neg (by omega), hd.2 k hk]
          have : (k < i) = (k < i + 1) := by rw [eq_iff_iff]; omega
          simp only [this])
  refine ⟨s2.2, ?_, h2.1, h2.2.congr fun i hi => by simp [hi]⟩
  unfold lagrangeSetup lagrangeCoef
  rw [e1]
  simp only [Option.bind_some]
  rw [e2]; rfl

open Polynomial in
theorem rows_basis (n : Nat) (z : Nat → K) (h2 : (2 : K) ≠ 0) (hz : ∀ i < n, ∀ j < n, z i = z j → i = j) (x : K) (i : Nat) (hi : i < n) :
    row0 n (scale n z) (dx z x) i = (Lagrange.basis (Finset.range n) z i).eval x ∧
    row1 n (scale n z) (dx z x) i = (derivative (Lagrange.basis (Finset.range n) z i)).eval x ∧
    row2 n (scale n z) (dx z x) i = (derivative (derivative (Lagrange.basis (Finset.range n) z i))).eval x := by
  have hs : scale n z i = 1 / eval (z i) (cardP n z i) := by
    rw [scale, row0, cardP, eval_mul, (eval_U z (z i) i).1, (eval_V n z (z i) _).1, one_mul]
  rw [← cardP_basis n z h2 hz i hi, ← hs]
  refine ⟨?_, ?_, ?_⟩
  · rw [row0, eval_mul, eval_C, cardP, eval_mul, (eval_U z x i).1, (eval_V n z x _).1, mul_assoc]
  · rw [row1, derivative_C_mul, eval_mul, eval_C, derivative_cardP]
    simp only [eval_mul, eval_C, eval_add, (eval_U z x i).1, (eval_V n z x _).1, (eval_U z x i).2.1, (eval_V n z x _).2.1]
    ring
  · rw [row2, derivative_C_mul, derivative_C_mul, eval_mul, eval_C, derivative2_cardP]
    simp only [eval_mul, eval_C, eval_add, (eval_U z x i).1, (eval_V n z x _).1, (eval_U z x i).2.1, (eval_V n z x _).2.1,
      (eval_U z x i).2.2, (eval_V n z x _).2.2, eval_ofNat]
    ring
end Gslib.Poly
