import Verif.Model.LobBnd
import Verif.Lemmas.NumMem
import Mathlib.Algebra.BigOperators.Group.Finset.Basic
import Mathlib.Algebra.BigOperators.Ring.Finset
import Mathlib.Tactic.Ring

/-!
# The kernels of lob_bnd.c in closed form
-/

namespace Gslib.Num
variable {K S : Type}

theorem Has.sub {m : Mem K} {off n : Nat} {F : Nat → K} (h : Has m off n F) (a c : Nat) (hac : a + c ≤ n) : Has m (off + a) c (fun k => F (a + k)) :=
  fun i hi => by rw [Nat.add_assoc]; exact h (a + i) (by omega)

theorem Outside.mono {a n b k : Nat} {m m' : Mem K} (h : Outside a n m m') (h1 : b ≤ a) (h2 : a + n ≤ b + k) : Outside b k m m' :=
  fun x hx => h x (by omega)

theorem Outside.trans {a n : Nat} {m m' m'' : Mem K} (h : Outside a n m m') (h' : Outside a n m' m'') : Outside a n m m'' :=
  fun x hx => by rw [h' x hx, h x hx]

/-- a loop whose iteration `i` fills `[off+c*i,off+c*(i+1))` -/
theorem blocks (off c n : Nat) (G : Nat → K) (f : Nat → Mem K → Option (Mem K)) (m : Mem K)
    (hf : ∀ i < n, ∀ m', Outside off (c * i) m m' → Has m' off (c * i) G →
      ∃ m'', f i m' = some m'' ∧ Has m'' (off + c * i) c (fun k => G (c * i + k)) ∧ Outside (off + c * i) c m' m'') :
    ∃ m', forUp 0 n f m = some m' ∧ Has m' off (c * n) G ∧ Outside off (c * n) m m' := by
  obtain ⟨m', e, h⟩ := forUp_inv (fun i m' => Has m' off (c * i) G ∧ Outside off (c * i) m m') f n 0 m
    ⟨fun i hi => by simp at hi, Outside.refl _ _ _⟩ (by
      intro i _ hi m' ⟨h1, h2⟩
      obtain ⟨m'', e, h3, h4⟩ := hf i (by omega) m' h2 h1
      refine ⟨m'', e, ?_, ?_⟩
      · intro k hk
        by_cases hki : k < c * i
        · rw [h4 _ (by omega), h1 k hki]
        · obtain ⟨l, rfl⟩ : ∃ l, k = c * i + l := ⟨k - c * i, by omega⟩
          rw [← Nat.add_assoc]
          exact h3 l (by rw [Nat.mul_succ] at hk; omega)
      · intro k hk
        rw [Nat.mul_succ] at hk
        rw [h4 k (by omega), h2 k (by omega)])
  exact ⟨m', e, by simpa using h⟩

end Gslib.Num

namespace Gslib.Lob
open Gslib.Num Gslib.Poly Finset
variable {K : Type} [Field K] [LinearOrder K]

theorem wr2_run {cap i : Nat} {v : K} {w : Mem K} (h : i + 1 < cap) :
    ∃ w', wr2 cap i v w = some w' ∧ w' i = some v ∧ w' (i + 1) = some v ∧ Outside i 2 w w' := by
  refine ⟨_, by rw [wr2, wr_some (by omega), Option.bind_some, wr_some h], ?_, ?_, ?_⟩
  · show (if i = i + 1 then _ else if i = i then _ else _) = _
    rw [if_neg (by omega), if_pos rfl]
  · show (if i + 1 = i + 1 then _ else _) = _
    rw [if_pos rfl]
  · intro k hk
    show (if k = i + 1 then _ else if k = i then _ else _) = _
    rw [if_neg (by omega), if_neg (by omega)]

theorem acc2_run {cap i : Nat} {v0 v1 x0 x1 : K} {w : Mem K} (h : i + 1 < cap) (h0 : w i = some x0) (h1 : w (i + 1) = some x1) :
    ∃ w', acc2 cap i v0 v1 w = some w' ∧ w' i = some (x0 + v0) ∧ w' (i + 1) = some (x1 + v1) ∧ Outside i 2 w w' := by
  refine ⟨fun k => if k = i + 1 then some (x1 + v1) else if k = i then some (x0 + v0) else w k, ?_, ?_, ?_, ?_⟩
  · rw [acc2, acc, rd, if_pos (by omega), h0, Option.bind_some, wr_some (by omega), Option.bind_some, acc, rd, if_pos h]
    show (if i + 1 = i then _ else w (i + 1)).bind _ = _
    rw [if_neg (by omega), h1, Option.bind_some, wr_some h]
  · show (if i = i + 1 then _ else if i = i then _ else _) = _
    rw [if_neg (by omega), if_pos rfl]
  · show (if i + 1 = i + 1 then _ else _) = _
    rw [if_pos rfl]
  · intro k hk
    show (if k = i + 1 then _ else if k = i then _ else _) = _
    rw [if_neg (by omega), if_neg (by omega)]

/-- entries `off+2k`, `off+2k+1` hold the pairs `F k` for `k<n` -/
def Pairs (w : Mem K) (off n : Nat) (F : Nat → K × K) : Prop := ∀ k < n, w (off + 2 * k) = some (F k).1 ∧ w (off + (2 * k + 1)) = some (F k).2

theorem Pairs.congr {w : Mem K} {off n : Nat} {F G : Nat → K × K} (h : Pairs w off n F) (e : ∀ k < n, F k = G k) : Pairs w off n G :=
  fun k hk => by rw [← e k hk]; exact h k hk

theorem Pairs.keep {w w' : Mem K} {off n off' n' : Nat} {F : Nat → K × K} (h : Pairs w off n F) (o : Outside off' n' w w')
    (hd : off + 2 * n ≤ off' ∨ off' + n' ≤ off) : Pairs w' off n F :=
  fun k hk => by rw [o _ (by omega), o _ (by omega)]; exact h k hk

theorem Pairs.mono {w : Mem K} {off n n' : Nat} {F : Nat → K × K} (h : Pairs w off n F) (hn : n' ≤ n) : Pairs w off n' F := fun k hk => h k (by omega)

theorem Pairs.rd0 {w : Mem K} {off n cap : Nat} {F : Nat → K × K} (h : Pairs w off n F) (k : Nat) (hk : k < n) (hc : off + 2 * n ≤ cap) :
    rd cap w (off + 2 * k) = some (F k).1 := by rw [rd, if_pos (by omega), (h k hk).1]

theorem Pairs.rd1 {w : Mem K} {off n cap : Nat} {F : Nat → K × K} (h : Pairs w off n F) (k : Nat) (hk : k < n) (hc : off + 2 * n ≤ cap) :
    rd cap w (off + (2 * k + 1)) = some (F k).2 := by rw [rd, if_pos (by omega), (h k hk).2]

/-- a loop whose iteration `i` fills pair `i` -/
theorem pairLoop (off n : Nat) (G : Nat → K × K) (f : Nat → Mem K → Option (Mem K)) (m : Mem K)
    (hf : ∀ i < n, ∀ m', Outside off (2 * i) m m' → ∃ m'', f i m' = some m'' ∧ m'' (off + 2 * i) = some (G i).1 ∧ m'' (off + (2 * i + 1)) = some (G i).2 ∧
      Outside (off + 2 * i) 2 m' m'') :
    ∃ m', forUp 0 n f m = some m' ∧ Pairs m' off n G ∧ Outside off (2 * n) m m' := by
  obtain ⟨m', e, h⟩ := forUp_inv (fun i m' => Pairs m' off i G ∧ Outside off (2 * i) m m') f n 0 m
    ⟨fun i hi => by omega, Outside.refl _ _ _⟩ (by
      intro i _ hi m' ⟨h1, h2⟩
      obtain ⟨m'', e, h3, h4, h5⟩ := hf i (by omega) m' h2
      refine ⟨m'', e, ?_, ?_⟩
      · intro k hk
        by_cases hki : k = i
        · subst hki; exact ⟨h3, h4⟩
        · rw [h5 _ (by omega), h5 _ (by omega)]; exact h1 k (by omega)
      · intro k hk
        rw [h5 k (by omega), h2 k (by omega)])
  rw [Nat.zero_add] at h
  exact ⟨m', e, h⟩

/-- a loop whose iteration `i` fills a block of `c` pairs -/
theorem pairBlocks (off c n : Nat) (G : Nat → K × K) (f : Nat → Mem K → Option (Mem K)) (m : Mem K)
    (hf : ∀ i < n, ∀ m', Outside off (2 * (i * c)) m m' →
      ∃ m'', f i m' = some m'' ∧ Pairs m'' (off + 2 * (i * c)) c (fun k => G (i * c + k)) ∧ Outside (off + 2 * (i * c)) (2 * c) m' m'') :
    ∃ m', forUp 0 n f m = some m' ∧ Pairs m' off (n * c) G ∧ Outside off (2 * (n * c)) m m' := by
  obtain ⟨m', e, h⟩ := forUp_inv (fun i m' => Pairs m' off (i * c) G ∧ Outside off (2 * (i * c)) m m') f n 0 m
    ⟨fun i hi => by simp at hi, Outside.refl _ _ _⟩ (by
      intro i _ hi m' ⟨h1, h2⟩
      obtain ⟨m'', e, h3, h5⟩ := hf i (by omega) m' h2
      refine ⟨m'', e, ?_, ?_⟩
      · intro k hk
        by_cases hki : k < i * c
        · rw [h5 _ (by omega), h5 _ (by omega)]; exact h1 k hki
        · obtain ⟨l, rfl⟩ : ∃ l, k = i * c + l := ⟨k - i * c, by omega⟩
          have hs : (i + 1) * c = i * c + c := Nat.succ_mul i c
          have := h3 l (by omega)
          rw [show off + 2 * (i * c + l) = off + 2 * (i * c) + 2 * l by ring, show off + (2 * (i * c + l) + 1) = off + 2 * (i * c) + (2 * l + 1) by ring]
          exact this
      · intro k hk
        have hs : (i + 1) * c = i * c + c := Nat.succ_mul i c
        rw [h5 k (by omega), h2 k (by omega)])
  rw [Nat.zero_add] at h
  exact ⟨m', e, h⟩

/-- a loop that changes all pairs in every iteration -/
theorem pairRounds (off M n : Nat) (B : Nat → Nat → K × K) (f : Nat → Mem K → Option (Mem K)) (m : Mem K) (h0 : Pairs m off M (B 0))
    (hf : ∀ i < n, ∀ m', Outside off (2 * M) m m' → Pairs m' off M (B i) → ∃ m'', f i m' = some m'' ∧ Pairs m'' off M (B (i + 1)) ∧ Outside off (2 * M) m' m'') :
    ∃ m', forUp 0 n f m = some m' ∧ Pairs m' off M (B n) ∧ Outside off (2 * M) m m' := by
  obtain ⟨m', e, h⟩ := forUp_inv (fun i m' => Pairs m' off M (B i) ∧ Outside off (2 * M) m m') f n 0 m ⟨h0, Outside.refl _ _ _⟩ (by
      intro i _ hi m' ⟨h1, h2⟩
      obtain ⟨m'', e, h3, h4⟩ := hf i (by omega) m' h2 h1
      exact ⟨m'', e, h3, h2.trans h4⟩)
  rw [Nat.zero_add] at h
  exact ⟨m', e, h⟩

/-- contents of `lob_bnd_data` -/
structure Data (n m : Nat) (D : Mem K) (z : Nat → K) (Q : Nat → K × K) (h : Nat → K) (lb : Nat → Nat → K × K) : Prop where
  hz : Has D 0 n z
  hQ : Pairs D n n Q
  hh : Has D (hOff n) m h
  hlb : ∀ i < n, ∀ j < m, D (lbOff n m + 2 * (i * m + j)) = some (lb i j).1 ∧ D (lbOff n m + (2 * (i * m + j) + 1)) = some (lb i j).2
  neg0 : ∀ i < n, ∀ j < m, D (lbnpOff n m + 4 * (i * m + j)) = some (min (lb i j).1 0)
  pos0 : ∀ i < n, ∀ j < m, D (lbnpOff n m + 4 * (i * m + j) + 1) = some (max (lb i j).1 0)
  neg1 : ∀ i < n, ∀ j < m, D (lbnpOff n m + 4 * (i * m + j) + 2) = some (min (lb i j).2 0)
  pos1 : ∀ i < n, ∀ j < m, D (lbnpOff n m + 4 * (i * m + j) + 3) = some (max (lb i j).2 0)

theorem size_eq (n m : Nat) : size n m = lbnpOff n m + 4 * (n * m) := by
  unfold size lbnpOff lbOff hOff; ring

theorem idx_lt {n m i j : Nat} (hi : i < n) (hj : j < m) : i * m + j < n * m := by
  calc i * m + j < i * m + m := by omega
    _ = (i + 1) * m := by ring
    _ ≤ n * m := Nat.mul_le_mul_right _ hi

section
variable {n m : Nat} {D : Mem K} {z h : Nat → K} {Q : Nat → K × K} {lb : Nat → Nat → K × K} (hD : Data n m D z Q h lb)
include hD

theorem Data.rdz (i : Nat) (hi : i < n) : rdD n m D i = some (z i) := by
  have := hD.hz i hi
  rw [Nat.zero_add] at this
  rw [rdD, rd, if_pos (by rw [size_eq]; unfold lbnpOff lbOff hOff; omega), this]

theorem Data.rdQ0 (i : Nat) (hi : i < n) : rdD n m D (n + 2 * i) = some (Q i).1 := by
  rw [rdD, rd, if_pos (by rw [size_eq]; unfold lbnpOff lbOff hOff; omega), (hD.hQ i hi).1]

theorem Data.rdQ1 (i : Nat) (hi : i < n) : rdD n m D (n + (2 * i + 1)) = some (Q i).2 := by
  rw [rdD, rd, if_pos (by rw [size_eq]; unfold lbnpOff lbOff hOff; omega), (hD.hQ i hi).2]

theorem Data.rdh (i : Nat) (hi : i < m) : rdD n m D (hOff n + i) = some (h i) := by
  rw [rdD, rd, if_pos (by rw [size_eq]; unfold lbnpOff lbOff; omega), hD.hh i hi]

theorem Data.rdlb0 (i j : Nat) (hi : i < n) (hj : j < m) : rdD n m D (lbOff n m + 2 * (i * m + j)) = some (lb i j).1 := by
  have := idx_lt hi hj
  rw [rdD, rd, if_pos (by rw [size_eq]; unfold lbnpOff; omega), (hD.hlb i hi j hj).1]

theorem Data.rdlb1 (i j : Nat) (hi : i < n) (hj : j < m) : rdD n m D (lbOff n m + (2 * (i * m + j) + 1)) = some (lb i j).2 := by
  have := idx_lt hi hj
  rw [rdD, rd, if_pos (by rw [size_eq]; unfold lbnpOff; omega), (hD.hlb i hi j hj).2]

theorem Data.rdn (i j c : Nat) (hi : i < n) (hj : j < m) (hc : c < 4) (v : K) (hv : D (lbnpOff n m + 4 * (i * m + j) + c) = some v) :
    rdD n m D (lbnpOff n m + 4 * (i * m + j) + c) = some v := by
  have := idx_lt hi hj
  rw [rdD, rd, if_pos (by rw [size_eq]; omega), hv]
end

/-- the coefficients of the linear part -/
def co (n : Nat) (Q : Nat → K × K) (u : Nat → K) : K × K := (∑ i ∈ range n, (Q i).1 * u i, ∑ i ∈ range n, (Q i).2 * u i)

/-- the result of `lob_bnd_fst` -/
def fstVal (n : Nat) (z : Nat → K) (Q : Nat → K × K) (h : Nat → K) (lb : Nat → Nat → K × K) (u : Nat → K) (i : Nat) (j : Nat) : K × K :=
  let a := co n Q u
  let w := fun i => u i - (a.1 + a.2 * z i)
  (a.1 + a.2 * h j + ∑ i ∈ range i, (if w i ≥ 0 then w i * (lb i j).1 else w i * (lb i j).2),
   a.1 + a.2 * h j + ∑ i ∈ range i, (if w i ≥ 0 then w i * (lb i j).2 else w i * (lb i j).1))

theorem fst_run {n m : Nat} {D : Mem K} {z h : Nat → K} {Q : Nat → K × K} {lb : Nat → Nat → K × K} (hD : Data n m D z Q h lb)
    {ucap uo : Nat} {um : Mem K} {u : Nat → K} (hu : Has um uo n u) (huc : uo + n ≤ ucap) {cap bo : Nat} (hb : bo + 2 * m ≤ cap) (w : Mem K) :
    ∃ w', fst n m D ucap um uo cap bo w = some w' ∧ Pairs w' bo m (fstVal n z Q h lb u n) ∧ Outside bo (2 * m) w w' := by
  have e1 : fstCoef n m D ucap um uo = some (co n Q u) := by
    obtain ⟨s, e, hs⟩ := forUp_inv (fun i (a : K × K) => a = co i Q u) (fun i a => (rdD n m D (n + 2 * i)).bind fun q0 => (rdD n m D (n + (2 * i + 1))).bind fun q1 => (rd ucap um (uo + i)).bind fun ui =>
      some (a.1 + q0 * ui, a.2 + q1 * ui)) n 0 (0, 0) (by simp [co]) (by
        intro i _ hi a ha
        beta_reduce
        rw [hD.rdQ0 i (by omega), Option.bind_some, hD.rdQ1 i (by omega), Option.bind_some, hu.rd i (by omega) huc, Option.bind_some]
        exact ⟨_, rfl, by rw [ha]; simp [co, sum_range_succ]⟩)
    rw [Nat.zero_add] at hs
    rw [fstCoef, e, hs]
  obtain ⟨w1, e2, p1, o1⟩ := pairLoop bo m (fun j => fstVal n z Q h lb u 0 j)
    (fun j w => (rdD n m D (hOff n + j)).bind fun h => wr2 cap (bo + 2 * j) ((co n Q u).1 + (co n Q u).2 * h) w) w (by
      intro j hj m' _
      beta_reduce
      rw [hD.rdh j hj, Option.bind_some]
      obtain ⟨w', e, h1, h2, h3⟩ := wr2_run (cap := cap) (i := bo + 2 * j) (v := (co n Q u).1 + (co n Q u).2 * h j) (w := m') (by omega)
      exact ⟨w', e, by simpa [fstVal] using h1, by rw [← Nat.add_assoc]; simpa [fstVal] using h2, h3⟩)
  obtain ⟨w2, e3, p2, o2⟩ := pairRounds bo m n (fun i => fstVal n z Q h lb u i)
    (fun i w => (rd ucap um (uo + i)).bind fun ui => (rdD n m D i).bind fun zi =>
    let wi := ui - ((co n Q u).1 + (co n Q u).2 * zi)
    forUp 0 m (fun j w =>
      (rdD n m D (lbOff n m + 2 * (i * m + j))).bind fun l0 => (rdD n m D (lbOff n m + (2 * (i * m + j) + 1))).bind fun l1 =>
      if wi ≥ 0 then acc2 cap (bo + 2 * j) (wi * l0) (wi * l1) w else acc2 cap (bo + 2 * j) (wi * l1) (wi * l0) w) w) w1 p1 (by
      intro i hi m' _ hp
      beta_reduce
      rw [hu.rd i hi huc, Option.bind_some, hD.rdz i hi, Option.bind_some]
      refine pairLoop bo m _ _ m' ?_
      intro j hj m'' ho
      beta_reduce
      rw [hD.rdlb0 i j hi hj, Option.bind_some, hD.rdlb1 i j hi hj, Option.bind_some]
      have h0 := (hp j hj).1
      have h1 := (hp j hj).2
      rw [← ho _ (by omega)] at h0
      rw [← ho _ (by omega)] at h1
      by_cases hw : u i - ((co n Q u).1 + (co n Q u).2 * z i) ≥ 0
      · rw [if_pos hw]
        obtain ⟨w', e, h2, h3, h4⟩ := acc2_run (cap := cap) (i := bo + 2 * j) (v0 := (u i - ((co n Q u).1 + (co n Q u).2 * z i)) * (lb i j).1)
          (v1 := (u i - ((co n Q u).1 + (co n Q u).2 * z i)) * (lb i j).2) (w := m'') (by omega) h0 h1
        refine ⟨w', e, ?_, ?_, h4⟩
        · rw [h2]; simp only [fstVal, sum_range_succ, if_pos hw, add_assoc]
        · rw [← Nat.add_assoc, h3]; simp only [fstVal, sum_range_succ, if_pos hw, add_assoc]
      · rw [if_neg hw]
        obtain ⟨w', e, h2, h3, h4⟩ := acc2_run (cap := cap) (i := bo + 2 * j) (v0 := (u i - ((co n Q u).1 + (co n Q u).2 * z i)) * (lb i j).2)
          (v1 := (u i - ((co n Q u).1 + (co n Q u).2 * z i)) * (lb i j).1) (w := m'') (by omega) h0 h1
        refine ⟨w', e, ?_, ?_, h4⟩
        · rw [h2]; simp only [fstVal, sum_range_succ, if_neg hw, add_assoc]
        · rw [← Nat.add_assoc, h3]; simp only [fstVal, sum_range_succ, if_neg hw, add_assoc])
  refine ⟨w2, ?_, p2, o1.trans o2⟩
  rw [fst, e1, Option.bind_some, e2, Option.bind_some]
  exact e3

/-- the coefficients `a` computed by `lob_bnd_ext` for node `c` of the previous directions -/
def extA (n : Nat) (Q : Nat → K × K) (mr : Nat) (R : Nat → K × K) (c : Nat) : K × K := co n Q fun j => ((R (j * mr + c)).1 + (R (j * mr + c)).2) / 2

/-- the increment for round `j`, node `c` of the previous directions and node `k` -/
def extInc (n : Nat) (z : Nat → K) (Q : Nat → K × K) (lb : Nat → Nat → K × K) (mr : Nat) (R : Nat → K × K) (c k j : Nat) : K × K :=
  let a := extA n Q mr R c
  let t := a.1 + a.2 * z j
  extTerm ((R (j * mr + c)).1 - t) ((R (j * mr + c)).2 - t) (min (lb j k).1 0) (max (lb j k).1 0) (min (lb j k).2 0) (max (lb j k).2 0)

/-- the result of `lob_bnd_ext` after `i` rounds at flat index `c*m+k` -/
def extVal (n m : Nat) (z : Nat → K) (Q : Nat → K × K) (h : Nat → K) (lb : Nat → Nat → K × K) (mr : Nat) (R : Nat → K × K) (i p : Nat) : K × K :=
  let a := extA n Q mr R (p / m)
  (a.1 + a.2 * h (p % m) + ∑ j ∈ range i, (extInc n z Q lb mr R (p / m) (p % m) j).1,
   a.1 + a.2 * h (p % m) + ∑ j ∈ range i, (extInc n z Q lb mr R (p / m) (p % m) j).2)

theorem extVal_at {n m : Nat} {z : Nat → K} {Q : Nat → K × K} {h : Nat → K} {lb : Nat → Nat → K × K} {mr : Nat} {R : Nat → K × K} {i c k : Nat} (hk : k < m) :
    extVal n m z Q h lb mr R i (c * m + k) = ((extA n Q mr R c).1 + (extA n Q mr R c).2 * h k + ∑ j ∈ range i, (extInc n z Q lb mr R c k j).1,
      (extA n Q mr R c).1 + (extA n Q mr R c).2 * h k + ∑ j ∈ range i, (extInc n z Q lb mr R c k j).2) := by
  have e1 : (c * m + k) / m = c := by rw [Nat.mul_comm, Nat.mul_add_div (by omega), Nat.div_eq_of_lt hk, Nat.add_zero]
  have e2 : (c * m + k) % m = k := by rw [Nat.mul_comm, Nat.mul_add_mod, Nat.mod_eq_of_lt hk]
  simp only [extVal, e1, e2]

theorem extCoef_run {n m : Nat} {D : Mem K} {z h : Nat → K} {Q : Nat → K × K} {lb : Nat → Nat → K × K} (hD : Data n m D z Q h lb)
    {mr cap ro ao : Nat} {R : Nat → K × K} {w : Mem K} (hR : Pairs w ro (n * mr) R) (hrc : ro + 2 * (n * mr) ≤ cap) (hac : ao + 2 * mr ≤ cap)
    (hd : ro + 2 * (n * mr) ≤ ao ∨ ao + 2 * mr ≤ ro) :
    ∃ w', extCoef n m D mr cap ro ao w = some w' ∧ Pairs w' ao mr (extA n Q mr R) ∧ Outside ao (2 * mr) w w' := by
  obtain ⟨w1, e1, p1, o1⟩ := pairLoop ao mr (fun c => co 0 Q fun j => ((R (j * mr + c)).1 + (R (j * mr + c)).2) / 2)
    (fun i w => wr2 cap (ao + 2 * i) (0 : K) w) w (by
      intro j hj m' _
      obtain ⟨w', e, h1, h2, h3⟩ := wr2_run (cap := cap) (i := ao + 2 * j) (v := (0 : K)) (w := m') (by omega)
      exact ⟨w', e, by simpa [co] using h1, by rw [← Nat.add_assoc]; simpa [co] using h2, h3⟩)
  obtain ⟨w2, e2, p2, o2⟩ := pairRounds ao mr n (fun i c => co i Q fun j => ((R (j * mr + c)).1 + (R (j * mr + c)).2) / 2)
    (fun j w => (rdD n m D (n + 2 * j)).bind fun q0 => (rdD n m D (n + (2 * j + 1))).bind fun q1 =>
    forUp 0 mr (fun i w => (rd cap w (ro + 2 * (j * mr + i))).bind fun b0 => (rd cap w (ro + (2 * (j * mr + i) + 1))).bind fun b1 =>
      let t := (b0 + b1) / 2
      acc2 cap (ao + 2 * i) (q0 * t) (q1 * t) w) w) w1 p1 (by
      intro j hj m' ho hp
      beta_reduce
      rw [hD.rdQ0 j hj, Option.bind_some, hD.rdQ1 j hj, Option.bind_some]
      refine pairLoop ao mr _ _ m' ?_
      intro c hc m'' ho'
      beta_reduce
      have hR'' : Pairs m'' ro (n * mr) R := ((hR.keep o1 hd).keep ho hd).keep ho' (by omega)
      rw [hR''.rd0 _ (idx_lt hj hc) hrc, Option.bind_some, hR''.rd1 _ (idx_lt hj hc) hrc, Option.bind_some]
      have h0 := (hp c hc).1
      have h1 := (hp c hc).2
      rw [← ho' _ (by omega)] at h0
      rw [← ho' _ (by omega)] at h1
      obtain ⟨w', e, h2, h3, h4⟩ := acc2_run (cap := cap) (i := ao + 2 * c) (v0 := (Q j).1 * (((R (j * mr + c)).1 + (R (j * mr + c)).2) / 2))
          (v1 := (Q j).2 * (((R (j * mr + c)).1 + (R (j * mr + c)).2) / 2)) (w := m'') (by omega) h0 h1
      refine ⟨w', e, ?_, ?_, h4⟩
      · rw [h2]; simp only [co, sum_range_succ]
      · rw [← Nat.add_assoc, h3]; simp only [co, sum_range_succ])
  refine ⟨w2, ?_, p2, o1.trans o2⟩
  rw [extCoef, e1, Option.bind_some]
  exact e2

theorem ext_run {n m : Nat} {D : Mem K} {z h : Nat → K} {Q : Nat → K × K} {lb : Nat → Nat → K × K} (hD : Data n m D z Q h lb)
    {mr cap ro ao bo : Nat} {R : Nat → K × K} {w : Mem K} (hR : Pairs w ro (n * mr) R) (hrc : ro + 2 * (n * mr) ≤ cap) (hac : ao + 2 * mr ≤ cap)
    (hbc : bo + 2 * (mr * m) ≤ cap)
    (hd : ro + 2 * (n * mr) ≤ ao ∨ ao + 2 * mr ≤ ro) (hd1 : ro + 2 * (n * mr) ≤ bo ∨ bo + 2 * (mr * m) ≤ ro) (hd2 : ao + 2 * mr ≤ bo ∨ bo + 2 * (mr * m) ≤ ao) :
    ∃ w' w1, ext n m D mr cap ro ao bo w = some w' ∧ Pairs w' bo (mr * m) (extVal n m z Q h lb mr R n) ∧ Outside ao (2 * mr) w w1 ∧ Outside bo (2 * (mr * m)) w1 w' := by
  obtain ⟨w1, e1, p1, o1⟩ := extCoef_run hD hR hrc hac hd
  have hR1 := hR.keep o1 hd
  obtain ⟨w2, e2, p2, o2⟩ := pairBlocks bo m mr (extVal n m z Q h lb mr R 0)
    (fun i w => (rd cap w (ao + 2 * i)).bind fun a0 => (rd cap w (ao + (2 * i + 1))).bind fun a1 =>
    forUp 0 m (fun k w => (rdD n m D (hOff n + k)).bind fun h => wr2 cap (bo + 2 * (i * m) + 2 * k) (a0 + a1 * h) w) w) w1 (by
      intro c hc m' ho
      beta_reduce
      have hcm : c * m ≤ mr * m := Nat.mul_le_mul_right _ (by omega)
      have pa : Pairs m' ao mr (extA n Q mr R) := p1.keep ho (by omega)
      rw [pa.rd0 c hc hac, Option.bind_some, pa.rd1 c hc hac, Option.bind_some]
      refine pairLoop _ m _ _ m' ?_
      intro k hk m'' _
      beta_reduce
      rw [hD.rdh k hk, Option.bind_some]
      have := idx_lt hc hk
      obtain ⟨w', e, h1, h2, h3⟩ := wr2_run (cap := cap) (i := bo + 2 * (c * m) + 2 * k) (v := (extA n Q mr R c).1 + (extA n Q mr R c).2 * h k) (w := m'') (by omega)
      refine ⟨w', e, ?_, ?_, h3⟩
      · rw [h1, extVal_at hk]; simp
      · rw [← Nat.add_assoc, h2, extVal_at hk]; simp)
  have hR2 := hR1.keep o2 hd1
  have pa2 : Pairs w2 ao mr (extA n Q mr R) := p1.keep o2 hd2
  obtain ⟨w3, e3, p3, o3⟩ := pairRounds bo (mr * m) n (fun i => extVal n m z Q h lb mr R i)
    (fun j w => (rdD n m D j).bind fun zj =>
    forUp 0 mr (fun i w => (rd cap w (ao + 2 * i)).bind fun a0 => (rd cap w (ao + (2 * i + 1))).bind fun a1 =>
      let t := a0 + a1 * zj
      (rd cap w (ro + 2 * (j * mr + i))).bind fun b0 => (rd cap w (ro + (2 * (j * mr + i) + 1))).bind fun b1 =>
      let w0 := b0 - t
      let w1 := b1 - t
      forUp 0 m (fun k w =>
        let p := lbnpOff n m + 4 * (j * m + k)
        (rdD n m D p).bind fun l0 => (rdD n m D (p + 1)).bind fun l1 => (rdD n m D (p + 2)).bind fun l2 => (rdD n m D (p + 3)).bind fun l3 =>
        acc2 cap (bo + 2 * (i * m) + 2 * k) (extTerm w0 w1 l0 l1 l2 l3).1 (extTerm w0 w1 l0 l1 l2 l3).2 w) w) w) w2 p2 (by
      intro j hj m' ho hp
      beta_reduce
      rw [hD.rdz j hj, Option.bind_some]
      refine pairBlocks bo m mr _ _ m' ?_
      intro c hc m'' ho'
      beta_reduce
      have hcm : c * m + m ≤ mr * m := by
        have : (c + 1) * m ≤ mr * m := Nat.mul_le_mul_right _ hc
        rwa [Nat.succ_mul] at this
      have hR'' : Pairs m'' ro (n * mr) R := (hR2.keep ho hd1).keep ho' (by omega)
      have pa : Pairs m'' ao mr (extA n Q mr R) := (pa2.keep ho hd2).keep ho' (by omega)
      rw [pa.rd0 c hc hac, Option.bind_some, pa.rd1 c hc hac, Option.bind_some]
      simp only []
      rw [hR''.rd0 _ (idx_lt hj hc) hrc, Option.bind_some, hR''.rd1 _ (idx_lt hj hc) hrc, Option.bind_some]
      refine pairLoop _ m _ _ m'' ?_
      intro k hk m3 ho3
      beta_reduce
      rw [show rdD n m D (lbnpOff n m + 4 * (j * m + k)) = _ from hD.rdn j k 0 hj hk (by omega) _ (hD.neg0 j hj k hk), Option.bind_some,
        hD.rdn j k 1 hj hk (by omega) _ (hD.pos0 j hj k hk), Option.bind_some,
        hD.rdn j k 2 hj hk (by omega) _ (hD.neg1 j hj k hk), Option.bind_some,
        hD.rdn j k 3 hj hk (by omega) _ (hD.pos1 j hj k hk), Option.bind_some]
      have h0 := (hp _ (idx_lt hc hk)).1
      have h1 := (hp _ (idx_lt hc hk)).2
      rw [← ho' _ (by omega), ← ho3 _ (by omega)] at h0
      rw [← ho' _ (by omega), ← ho3 _ (by omega)] at h1
      obtain ⟨w', e, h2, h3, h4⟩ := acc2_run (cap := cap) (i := bo + 2 * (c * m) + 2 * k) (v0 := (extInc n z Q lb mr R c k j).1)
          (v1 := (extInc n z Q lb mr R c k j).2) (w := m3) (by omega)
          (by rw [show bo + 2 * (c * m) + 2 * k = bo + 2 * (c * m + k) by ring]; exact h0)
          (by rw [show bo + 2 * (c * m) + 2 * k + 1 = bo + (2 * (c * m + k) + 1) by ring]; exact h1)
      refine ⟨w', e, ?_, ?_, h4⟩
      · rw [h2, extVal_at hk, extVal_at hk]; simp only [sum_range_succ, add_assoc]
      · rw [← Nat.add_assoc, h3, extVal_at hk, extVal_at hk]; simp only [sum_range_succ, add_assoc])
  refine ⟨w3, w1, ?_, p3, o1, o2.trans o3⟩
  rw [ext, e1, Option.bind_some, e2, Option.bind_some]
  exact e3

theorem minmax_run {cap bo m : Nat} (hm : 0 < m) (hc : bo + 2 * m ≤ cap) {w : Mem K} {F : Nat → K × K} (hp : Pairs w bo m F) :
    ∃ r, minmax cap bo m w = some r ∧ (∀ k < m, r.1 ≤ (F k).1 ∧ (F k).2 ≤ r.2) ∧ (∃ k < m, r.1 = (F k).1) ∧ ∃ k < m, r.2 = (F k).2 := by
  obtain ⟨r, e, h1, h2, h3⟩ := forUp_inv (fun i (s : K × K) => (∀ k < i, s.1 ≤ (F k).1 ∧ (F k).2 ≤ s.2) ∧ (∃ k < i, s.1 = (F k).1) ∧ ∃ k < i, s.2 = (F k).2)
    (fun k s => (rd cap w (bo + 2 * k)).bind fun b0 => (rd cap w (bo + (2 * k + 1))).bind fun b1 =>
    some (if b0 < s.1 then b0 else s.1, if b1 > s.2 then b1 else s.2)) (m - 1) 1 (F 0)
    ⟨fun k hk => by
      have : k = 0 := by omega
      subst this; exact ⟨le_refl _, le_refl _⟩, ⟨0, by omega, rfl⟩, ⟨0, by omega, rfl⟩⟩ (by
      intro i _ hi s ⟨h1, ⟨k0, hk0, e0⟩, k1, hk1, e1⟩
      beta_reduce
      rw [hp.rd0 i (by omega) hc, Option.bind_some, hp.rd1 i (by omega) hc, Option.bind_some]
      refine ⟨_, rfl, ?_, ?_, ?_⟩
      · intro k hk
        by_cases hki : k = i
        · subst hki
          constructor
          · dsimp only; split_ifs with h
            · exact le_refl _
            · exact not_lt.1 h
          · dsimp only; split_ifs with h
            · exact le_refl _
            · exact not_lt.1 h
        · have := h1 k (by omega)
          constructor
          · dsimp only; split_ifs with h
            · exact h.le.trans this.1
            · exact this.1
          · dsimp only; split_ifs with h
            · exact this.2.trans (le_of_lt h)
            · exact this.2
      · dsimp only; split_ifs with h
        · exact ⟨i, by omega, rfl⟩
        · exact ⟨k0, by omega, e0⟩
      · dsimp only; split_ifs with h
        · exact ⟨i, by omega, rfl⟩
        · exact ⟨k1, by omega, e1⟩)
  rw [show 1 + (m - 1) = m by omega] at h1 h2 h3
  refine ⟨r, ?_, h1, h2, h3⟩
  rw [minmax, if_neg (by omega), show bo = bo + 2 * 0 by omega, hp.rd0 0 hm hc, Option.bind_some, show bo + 2 * 0 + 1 = bo + (2 * 0 + 1) by omega, hp.rd1 0 hm hc, Option.bind_some]
  exact e

end Gslib.Lob
