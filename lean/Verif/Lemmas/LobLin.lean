import Verif.Lemmas.LobMath

/-!
# `lob_bnd_lin_d` and `lob_bnd_d` in closed form
-/

namespace Gslib.Lob
open Gslib.Num Gslib.Poly Gslib.Spec Finset
variable {K : Type} [Field K] [LinearOrder K]

theorem Pairs.sub {w : Mem K} {off n : Nat} {F : Nat → K × K} (h : Pairs w off n F) (a c : Nat) (hac : a + c ≤ n) : Pairs w (off + 2 * a) c (fun k => F (a + k)) :=
  fun k hk => by
    have := h (a + k) (by omega)
    rw [show off + 2 * a + 2 * k = off + 2 * (a + k) by ring, show off + 2 * a + (2 * k + 1) = off + (2 * (a + k) + 1) by ring]
    exact this

theorem pos_of_lt_mul {k n c : Nat} (hk : k < n * c) : 0 < c := by
  rcases Nat.eq_zero_or_pos c with h | h
  · subst h; simp at hk
  · exact h

theorem div_mod_at {c m k : Nat} (hk : k < m) : (c * m + k) / m = c ∧ (c * m + k) % m = k := by
  constructor
  · rw [Nat.mul_comm, Nat.mul_add_div (by omega), Nat.div_eq_of_lt hk, Nat.add_zero]
  · rw [Nat.mul_comm, Nat.mul_add_mod, Nat.mod_eq_of_lt hk]

/-- unchanged outside of two regions -/
def Outside2 (a n b k : Nat) (m m' : Mem K) : Prop := ∀ x, (x < a ∨ a + n ≤ x) → (x < b ∨ b + k ≤ x) → m' x = m x

/-- all polynomials of `lob_bnd_lin_1` / the rows of the first direction: `N` rows of `n` values, row `l` gives pairs `l*m..` -/
def rowVal (n m : Nat) (z : Nat → K) (Q : Nat → K × K) (h : Nat → K) (lb : Nat → Nat → K × K) (U : Nat → K) (p : Nat) : K × K :=
  fstVal n z Q h lb (fun i => U (p / m * n + i)) n (p % m)

theorem rowVal_at {n m : Nat} {z : Nat → K} {Q : Nat → K × K} {h : Nat → K} {lb : Nat → Nat → K × K} {U : Nat → K} {l k : Nat} (hk : k < m) :
    rowVal n m z Q h lb U (l * m + k) = fstVal n z Q h lb (fun i => U (l * n + i)) n k := by
  rw [rowVal, (div_mod_at hk).1, (div_mod_at hk).2]

theorem rows_run {n m : Nat} {D : Mem K} {z h : Nat → K} {Q : Nat → K × K} {lb : Nat → Nat → K × K} (hD : Data n m D z Q h lb)
    {ucap uo N : Nat} {um : Mem K} {U : Nat → K} (hu : Has um uo (N * n) U) (huc : uo + N * n ≤ ucap) {cap bo : Nat} (hb : bo + 2 * (N * m) ≤ cap)
    (f : Nat → Mem K → Option (Mem K)) (hf : ∀ l < N, ∀ w, f l w = fst n m D ucap um (uo + l * n) cap (bo + l * (2 * m)) w) (w : Mem K) :
    ∃ w', forUp 0 N f w = some w' ∧ Pairs w' bo (N * m) (rowVal n m z Q h lb U) ∧ Outside bo (2 * (N * m)) w w' := by
  refine pairBlocks bo m N _ f w ?_
  intro l hl m' _
  have h1 : l * n + n ≤ N * n := by
    have : (l + 1) * n ≤ N * n := Nat.mul_le_mul_right _ hl
    rwa [Nat.succ_mul] at this
  have h2 : l * m + m ≤ N * m := by
    have : (l + 1) * m ≤ N * m := Nat.mul_le_mul_right _ hl
    rwa [Nat.succ_mul] at this
  obtain ⟨w', e, p, o⟩ := fst_run hD (hu.sub (l * n) n h1) (ucap := ucap) (by omega) (cap := cap) (bo := bo + l * (2 * m)) (by rw [show l * (2 * m) = 2 * (l * m) by ring]; omega) m'
  rw [show l * (2 * m) = 2 * (l * m) by ring] at p o
  exact ⟨w', by rw [hf l hl, e], p.congr fun k hk => (rowVal_at hk).symm, o⟩

theorem lin1_run {n m : Nat} {D : Mem K} {z h : Nat → K} {Q : Nat → K × K} {lb : Nat → Nat → K × K} (hD : Data n m D z Q h lb)
    {ucap uo un : Nat} {um : Mem K} {U : Nat → K} (hu : Has um uo (un * n) U) (huc : uo + un * n ≤ ucap) {cap bo : Nat} (hb : bo + 2 * (un * m) ≤ cap) (w : Mem K) :
    ∃ w', lin1 n m D ucap um uo un cap bo w = some w' ∧ Pairs w' bo (un * m) (rowVal n m z Q h lb U) ∧ Outside bo (2 * (un * m)) w w' :=
  rows_run hD hu huc hb _ (fun _ _ _ => rfl) w

/-- the pairs of `lob_bnd_lin_2` for one polynomial -/
def val2 (nr mr : Nat) (zr : Nat → K) (Qr : Nat → K × K) (hr : Nat → K) (lbr : Nat → Nat → K × K) (ns ms : Nat) (zs : Nat → K) (Qs : Nat → K × K) (hs : Nat → K) (lbs : Nat → Nat → K × K)
    (U : Nat → K) (p : Nat) : K × K :=
  extVal ns ms zs Qs hs lbs mr (rowVal nr mr zr Qr hr lbr U) ns p

theorem lin2_run {nr mr : Nat} {Dr : Mem K} {zr hr : Nat → K} {Qr : Nat → K × K} {lbr : Nat → Nat → K × K} (hDr : Data nr mr Dr zr Qr hr lbr)
    {ns ms : Nat} {Ds : Mem K} {zs hs : Nat → K} {Qs : Nat → K × K} {lbs : Nat → Nat → K × K} (hDs : Data ns ms Ds zs Qs hs lbs)
    {ucap uo un : Nat} {um : Mem K} {U : Nat → K} (hu : Has um uo (un * (ns * nr)) U) (huc : uo + un * (ns * nr) ≤ ucap) {cap bo wo : Nat}
    (hb : bo + 2 * (un * (mr * ms)) ≤ cap) (hw : wo + (2 * mr + 2 * (ns * mr)) ≤ cap) (hd : bo + 2 * (un * (mr * ms)) ≤ wo ∨ wo + (2 * mr + 2 * (ns * mr)) ≤ bo) (w : Mem K) :
    ∃ w', lin2 nr mr Dr ns ms Ds ucap um uo un cap bo wo w = some w' ∧
      (∀ l < un, Pairs w' (bo + 2 * (l * (mr * ms))) (mr * ms) (val2 nr mr zr Qr hr lbr ns ms zs Qs hs lbs fun i => U (l * (ns * nr) + i))) ∧
      Outside2 bo (2 * (un * (mr * ms))) wo (2 * mr + 2 * (ns * mr)) w w' := by
  obtain ⟨w', e, h1, h2⟩ := forUp_inv (fun l' w' =>
      (∀ l < l', Pairs w' (bo + 2 * (l * (mr * ms))) (mr * ms) (val2 nr mr zr Qr hr lbr ns ms zs Qs hs lbs fun i => U (l * (ns * nr) + i))) ∧
      Outside2 bo (2 * (un * (mr * ms))) wo (2 * mr + 2 * (ns * mr)) w w')
    (fun l w =>
    (forUp 0 ns (fun i w => fst nr mr Dr ucap um (uo + (l * ns + i) * nr) cap (wo + 2 * mr + i * (2 * mr)) w) w).bind fun w =>
    ext ns ms Ds mr cap (wo + 2 * mr) wo (bo + l * (2 * (mr * ms))) w) un 0 w ⟨fun l hl => by omega, fun _ _ _ => rfl⟩ (by
      intro l _ hl m' ⟨hp, ho⟩
      have hl : l < un := by omega
      have hl2 : l * (mr * ms) + mr * ms ≤ un * (mr * ms) := by
        have : (l + 1) * (mr * ms) ≤ un * (mr * ms) := Nat.mul_le_mul_right _ hl
        rwa [Nat.succ_mul] at this
      have hl1 : l * (ns * nr) + ns * nr ≤ un * (ns * nr) := by
        have : (l + 1) * (ns * nr) ≤ un * (ns * nr) := Nat.mul_le_mul_right _ hl
        rwa [Nat.succ_mul] at this
      obtain ⟨w1, e1, p1, o1⟩ := rows_run hDr (hu.sub (l * (ns * nr)) (ns * nr) hl1) (ucap := ucap) (by omega) (cap := cap) (bo := wo + 2 * mr) (by omega)
        (fun i w => fst nr mr Dr ucap um (uo + (l * ns + i) * nr) cap (wo + 2 * mr + i * (2 * mr)) w)
        (fun i _ w => by rw [show uo + (l * ns + i) * nr = uo + l * (ns * nr) + i * nr by ring]) m'
      obtain ⟨w3, w2, e2, p2, o2, o3⟩ := ext_run hDs (cap := cap) (ao := wo) (bo := bo + 2 * (l * (mr * ms))) p1 (by omega) (by omega) (by omega) (by omega) (by omega) (by omega)
      refine ⟨w3, ?_, ?_, ?_⟩
      · rw [e1, Option.bind_some, show l * (2 * (mr * ms)) = 2 * (l * (mr * ms)) by ring, e2]
      · intro l' hl'
        by_cases hll : l' = l
        · subst hll; exact p2
        · have hl3 : l' * (mr * ms) + mr * ms ≤ l * (mr * ms) := by
            have : (l' + 1) * (mr * ms) ≤ l * (mr * ms) := Nat.mul_le_mul_right _ (by omega)
            rwa [Nat.succ_mul] at this
          exact (((hp l' (by omega)).keep o1 (by omega)).keep o2 (by omega)).keep o3 (by omega)
      · intro x hx1 hx2
        rw [o3 x (by omega), o2 x (by omega), o1 x (by omega), ho x hx1 hx2])
  rw [Nat.zero_add] at h1
  exact ⟨w', e, h1, h2⟩

/-- the pairs of `lob_bnd_lin_3` for one polynomial -/
def val3 (nr mr : Nat) (zr : Nat → K) (Qr : Nat → K × K) (hr : Nat → K) (lbr : Nat → Nat → K × K) (ns ms : Nat) (zs : Nat → K) (Qs : Nat → K × K) (hs : Nat → K) (lbs : Nat → Nat → K × K)
    (nt mt : Nat) (zt : Nat → K) (Qt : Nat → K × K) (ht : Nat → K) (lbt : Nat → Nat → K × K) (U : Nat → K) (p : Nat) : K × K :=
  extVal nt mt zt Qt ht lbt (mr * ms) (fun q => val2 nr mr zr Qr hr lbr ns ms zs Qs hs lbs (fun i => U (q / (mr * ms) * (ns * nr) + i)) (q % (mr * ms))) nt p

theorem co_congr {n : Nat} {Q : Nat → K × K} {u v : Nat → K} (e : ∀ i < n, u i = v i) : co n Q u = co n Q v := by
  unfold co
  refine Prod.ext ?_ ?_
  all_goals
    dsimp only
    refine sum_congr rfl fun i hi => ?_
    rw [e i (mem_range.1 hi)]

theorem fstVal_congr {n : Nat} {z : Nat → K} {Q : Nat → K × K} {h : Nat → K} {lb : Nat → Nat → K × K} {u v : Nat → K} (e : ∀ i < n, u i = v i) (k : Nat) :
    fstVal n z Q h lb u n k = fstVal n z Q h lb v n k := by
  have hc : co n Q u = co n Q v := co_congr e
  unfold fstVal
  simp only [hc]
  congr 2
  · exact sum_congr rfl fun i hi => by rw [e i (mem_range.1 hi)]
  · exact sum_congr rfl fun i hi => by rw [e i (mem_range.1 hi)]

theorem extVal_congr {n m : Nat} {z : Nat → K} {Q : Nat → K × K} {h : Nat → K} {lb : Nat → Nat → K × K} {M : Nat} {R S : Nat → K × K}
    {c k : Nat} (hk : k < m) (e : ∀ j < n, R (j * M + c) = S (j * M + c)) : extVal n m z Q h lb M R n (c * m + k) = extVal n m z Q h lb M S n (c * m + k) := by
  have hc : extA n Q M R c = extA n Q M S c := co_congr fun i hi => by beta_reduce; rw [e i hi]
  rw [extVal_at hk, extVal_at hk]
  simp only [hc]
  congr 2
  · exact sum_congr rfl fun i hi => by simp only [extInc, hc, e i (mem_range.1 hi)]
  · exact sum_congr rfl fun i hi => by simp only [extInc, hc, e i (mem_range.1 hi)]

theorem lin3_run {nr mr : Nat} {Dr : Mem K} {zr hr : Nat → K} {Qr : Nat → K × K} {lbr : Nat → Nat → K × K} (hDr : Data nr mr Dr zr Qr hr lbr)
    {ns ms : Nat} {Ds : Mem K} {zs hs : Nat → K} {Qs : Nat → K × K} {lbs : Nat → Nat → K × K} (hDs : Data ns ms Ds zs Qs hs lbs)
    {nt mt : Nat} {Dt : Mem K} {zt ht : Nat → K} {Qt : Nat → K × K} {lbt : Nat → Nat → K × K} (hDt : Data nt mt Dt zt Qt ht lbt) (hle : ns * nt ≤ ms * mt)
    {ucap uo un : Nat} {um : Mem K} {U : Nat → K} (hu : Has um uo (un * (nt * (ns * nr))) U) (huc : uo + un * (nt * (ns * nr)) ≤ ucap) {cap bo wo : Nat}
    (hb : bo + 2 * (un * (mr * ms * mt)) ≤ cap) (hw : wo + (2 * (mr * ms) + 2 * (nt * (mr * ms))) ≤ cap)
    (hd : bo + 2 * (un * (mr * ms * mt)) ≤ wo ∨ wo + (2 * (mr * ms) + 2 * (nt * (mr * ms))) ≤ bo)
    (hms : 0 < ms) (w : Mem K) :
    ∃ w', lin3 nr mr Dr ns ms Ds nt mt Dt ucap um uo un cap bo wo w = some w' ∧
      (∀ l < un, Pairs w' (bo + 2 * (l * (mr * ms * mt))) (mr * ms * mt) (val3 nr mr zr Qr hr lbr ns ms zs Qs hs lbs nt mt zt Qt ht lbt fun i => U (l * (nt * (ns * nr)) + i))) ∧
      Outside2 bo (2 * (un * (mr * ms * mt))) wo (2 * (mr * ms) + 2 * (nt * (mr * ms))) w w' := by
  obtain ⟨w', e, h1, h2⟩ := forUp_inv (fun l' w' =>
      (∀ l < l', Pairs w' (bo + 2 * (l * (mr * ms * mt))) (mr * ms * mt) (val3 nr mr zr Qr hr lbr ns ms zs Qs hs lbs nt mt zt Qt ht lbt fun i => U (l * (nt * (ns * nr)) + i))) ∧
      Outside2 bo (2 * (un * (mr * ms * mt))) wo (2 * (mr * ms) + 2 * (nt * (mr * ms))) w w')
    (fun l w =>
    let b := bo + l * (2 * (mr * ms * mt))
    (forUp 0 (ns * nt) (fun i w => fst nr mr Dr ucap um (uo + (l * (ns * nt) + i) * nr) cap (b + i * (2 * mr)) w) w).bind fun w =>
    (forUp 0 nt (fun i w => ext ns ms Ds mr cap (b + i * (2 * (mr * ns))) wo (wo + 2 * mr * ms + i * (2 * (mr * ms))) w) w).bind fun w =>
    ext nt mt Dt (mr * ms) cap (wo + 2 * mr * ms) wo b w) un 0 w ⟨fun l hl => by omega, fun _ _ _ => rfl⟩ (by
      intro l _ hl m' ⟨hp, ho⟩
      have hl : l < un := by omega
      have hl2 : l * (mr * ms * mt) + mr * ms * mt ≤ un * (mr * ms * mt) := by
        have : (l + 1) * (mr * ms * mt) ≤ un * (mr * ms * mt) := Nat.mul_le_mul_right _ hl
        rwa [Nat.succ_mul] at this
      have hl1 : l * (nt * (ns * nr)) + nt * (ns * nr) ≤ un * (nt * (ns * nr)) := by
        have : (l + 1) * (nt * (ns * nr)) ≤ un * (nt * (ns * nr)) := Nat.mul_le_mul_right _ hl
        rwa [Nat.succ_mul] at this
      have hnm : ns * nt * mr ≤ mr * ms * mt := by
        calc ns * nt * mr ≤ ms * mt * mr := Nat.mul_le_mul_right _ hle
          _ = mr * ms * mt := by ring
      have hu' : Has um (uo + l * (nt * (ns * nr))) (ns * nt * nr) (fun i => U (l * (nt * (ns * nr)) + i)) := by
        have := hu.sub (l * (nt * (ns * nr))) (nt * (ns * nr)) hl1
        rwa [show nt * (ns * nr) = ns * nt * nr by ring] at this ⊢
      obtain ⟨w1, e1, p1, o1⟩ := rows_run hDr hu' (ucap := ucap) (by rw [show ns * nt * nr = nt * (ns * nr) by ring]; omega) (cap := cap) (bo := bo + 2 * (l * (mr * ms * mt)))
        (by omega) (fun i w => fst nr mr Dr ucap um (uo + (l * (ns * nt) + i) * nr) cap (bo + l * (2 * (mr * ms * mt)) + i * (2 * mr)) w)
        (fun i _ w => by rw [show uo + (l * (ns * nt) + i) * nr = uo + l * (nt * (ns * nr)) + i * nr by ring, show l * (2 * (mr * ms * mt)) = 2 * (l * (mr * ms * mt)) by ring]) m'
      obtain ⟨w2, e2, p2, o2⟩ := forUp_inv (fun i' w' => (∀ i < i', Pairs w' (wo + 2 * (mr * ms) + 2 * (i * (mr * ms))) (mr * ms)
          (val2 nr mr zr Qr hr lbr ns ms zs Qs hs lbs fun q => U (l * (nt * (ns * nr)) + (i * (ns * nr) + q)))) ∧ Outside wo (2 * (mr * ms) + 2 * (nt * (mr * ms))) w1 w')
        (fun i w => ext ns ms Ds mr cap (bo + l * (2 * (mr * ms * mt)) + i * (2 * (mr * ns))) wo (wo + 2 * mr * ms + i * (2 * (mr * ms))) w) nt 0 w1 ⟨fun l hl => by omega, fun _ _ => rfl⟩ (by
          intro i _ hi m2 ⟨hp2, ho2⟩
          have hi : i < nt := by omega
          have hi2 : i * (mr * ms) + mr * ms ≤ nt * (mr * ms) := by
            have : (i + 1) * (mr * ms) ≤ nt * (mr * ms) := Nat.mul_le_mul_right _ hi
            rwa [Nat.succ_mul] at this
          have hi1 : i * (ns * mr) + ns * mr ≤ ns * nt * mr := by
            calc i * (ns * mr) + ns * mr = (i + 1) * (ns * mr) := by ring
              _ ≤ nt * (ns * mr) := Nat.mul_le_mul_right _ hi
              _ = ns * nt * mr := by ring
          have hmr : mr ≤ mr * ms := Nat.le_mul_of_pos_right _ hms
          have p1' := (p1.keep ho2 (by omega)).sub (i * (ns * mr)) (ns * mr) hi1
          obtain ⟨w4, w3, e3, p3, o3, o4⟩ := ext_run hDs (cap := cap) (ao := wo) (bo := wo + 2 * (mr * ms) + 2 * (i * (mr * ms))) p1' (by omega) (by omega) (by omega) (by omega) (by omega) (by omega)
          refine ⟨w4, ?_, ?_, ?_⟩
          · rw [show bo + l * (2 * (mr * ms * mt)) + i * (2 * (mr * ns)) = bo + 2 * (l * (mr * ms * mt)) + 2 * (i * (ns * mr)) by ring,
              show wo + 2 * mr * ms + i * (2 * (mr * ms)) = wo + 2 * (mr * ms) + 2 * (i * (mr * ms)) by ring]
            exact e3
          · intro i' hi'
            by_cases hii : i' = i
            · subst hii
              refine p3.congr fun k hk => ?_
              unfold val2
              have hms' := pos_of_lt_mul hk
              have hkd : k / ms < mr := Nat.div_lt_of_lt_mul (by rwa [Nat.mul_comm])
              rw [show k = k / ms * ms + k % ms by rw [Nat.mul_comm]; exact (Nat.div_add_mod k ms).symm]
              refine extVal_congr (Nat.mod_lt _ hms') fun j hj => ?_
              rw [show i' * (ns * mr) + (j * mr + k / ms) = (i' * ns + j) * mr + k / ms by ring, rowVal_at hkd, rowVal_at hkd]
              refine fstVal_congr (fun q _ => ?_) _
              rw [show (i' * ns + j) * nr + q = i' * (ns * nr) + (j * nr + q) by ring]
            · have hi3 : i' * (mr * ms) + mr * ms ≤ i * (mr * ms) := by
                have : (i' + 1) * (mr * ms) ≤ i * (mr * ms) := Nat.mul_le_mul_right _ (by omega)
                rwa [Nat.succ_mul] at this
              exact ((hp2 i' (by omega)).keep o3 (by omega)).keep o4 (by omega)
          · intro x hx
            rw [o4 x (by omega), o3 x (by omega), ho2 x hx])
      rw [Nat.zero_add] at p2
      have p2' : Pairs w2 (wo + 2 * (mr * ms)) (nt * (mr * ms)) (fun q => val2 nr mr zr Qr hr lbr ns ms zs Qs hs lbs (fun i => U (l * (nt * (ns * nr)) + (q / (mr * ms) * (ns * nr) + i))) (q % (mr * ms))) := by
        intro q hq
        have hpos := pos_of_lt_mul hq
        have hqd : q / (mr * ms) < nt := Nat.div_lt_of_lt_mul (by rwa [Nat.mul_comm])
        have h := p2 (q / (mr * ms)) hqd (q % (mr * ms)) (Nat.mod_lt _ hpos)
        have hq' : q / (mr * ms) * (mr * ms) + q % (mr * ms) = q := by rw [Nat.mul_comm]; exact Nat.div_add_mod q (mr * ms)
        have e1 : wo + 2 * (mr * ms) + 2 * (q / (mr * ms) * (mr * ms)) + 2 * (q % (mr * ms)) = wo + 2 * (mr * ms) + 2 * q := by omega
        have e2 : wo + 2 * (mr * ms) + 2 * (q / (mr * ms) * (mr * ms)) + (2 * (q % (mr * ms)) + 1) = wo + 2 * (mr * ms) + (2 * q + 1) := by omega
        rw [e1, e2] at h
        exact h
      obtain ⟨w4, w3, e3, p3, o3, o4⟩ := ext_run hDt (cap := cap) (ao := wo) (bo := bo + 2 * (l * (mr * ms * mt))) p2' (by omega) (by omega) (by omega) (by omega) (by omega) (by omega)
      refine ⟨w4, ?_, ?_, ?_⟩
      · simp only []
        rw [e1, Option.bind_some, e2, Option.bind_some, show wo + 2 * mr * ms = wo + 2 * (mr * ms) by ring, show l * (2 * (mr * ms * mt)) = 2 * (l * (mr * ms * mt)) by ring]
        exact e3
      · intro l' hl'
        by_cases hll : l' = l
        · subst hll; exact p3
        · have hl3 : l' * (mr * ms * mt) + mr * ms * mt ≤ l * (mr * ms * mt) := by
            have : (l' + 1) * (mr * ms * mt) ≤ l * (mr * ms * mt) := Nat.mul_le_mul_right _ (by omega)
            rwa [Nat.succ_mul] at this
          exact ((((hp l' (by omega)).keep o1 (by omega)).keep o2 (by omega)).keep o3 (by omega)).keep o4 (by omega)
      · intro x hx1 hx2
        rw [o4 x (by omega), o3 x (by omega), o2 x (by omega), o1 x (by omega), ho x hx1 hx2])
  rw [Nat.zero_add] at h1
  exact ⟨w', e, h1, h2⟩

end Gslib.Lob
