import Verif.Lemmas.LobLin

/-!
# From valid tables to enclosures
-/

namespace Gslib.Lob
open Gslib.Num Gslib.Poly Gslib.Spec Finset Polynomial
variable {K : Type} [Field K] [LinearOrder K] [IsStrictOrderedRing K]

/-- weights of linear interpolation in segment `j` -/
def hat (j : Nat) (t : K) (k : Nat) : K := if k = j then 1 - t else if k = j + 1 then t else 0

omit [LinearOrder K] [IsStrictOrderedRing K] in
theorem sum_hat {m j : Nat} (hj : j + 1 < m) (t : K) (v : Nat → K) : ∑ k ∈ range m, hat j t k * v k = plin v j t := by
  have : ∀ k ∈ range m, hat j t k * v k = (if k = j then (1 - t) * v j else 0) + (if k = j + 1 then t * v (j + 1) else 0) := by
    intro k _
    unfold hat
    by_cases h1 : k = j
    · subst h1; rw [if_pos rfl, if_pos rfl, if_neg (by omega), add_zero]
    · by_cases h2 : k = j + 1
      · subst h2; rw [if_neg h1, if_pos rfl, if_neg h1, if_pos rfl, zero_add]
      · rw [if_neg h1, if_neg h2, if_neg h1, if_neg h2, zero_mul, add_zero]
  rw [sum_congr rfl this, sum_add_distrib, sum_ite_eq', sum_ite_eq', if_pos (mem_range.2 (by omega)), if_pos (mem_range.2 hj)]
  rfl

omit [LinearOrder K] [IsStrictOrderedRing K] in
theorem basis_sums {n : Nat} (hn : 2 ≤ n) {z : Nat → K} (hz : ∀ i < n, ∀ j < n, z i = z j → i = j) (x : K) :
    ∑ i ∈ range n, basisAt n z i x = 1 ∧ ∑ i ∈ range n, basisAt n z i x * z i = x := by
  have hi : Set.InjOn z (range n : Set Nat) := fun i hi j hj e => hz i (by simpa using hi) j (by simpa using hj) e
  constructor
  · have := congrArg (eval x) (Lagrange.sum_basis hi ⟨0, mem_range.2 (by omega)⟩)
    rwa [eval_finsetSum, eval_one] at this
  · have hdeg : (X : K[X]).degree < ((range n).card : WithBot Nat) := by
      rw [card_range, degree_X]
      exact_mod_cast (by omega : 1 < n)
    have := congrArg (eval x) (Lagrange.eq_interpolate hi hdeg)
    rw [Lagrange.interpolate_apply, eval_X, eval_finsetSum] at this
    refine Eq.trans (sum_congr rfl fun i _ => ?_) this.symm
    rw [eval_mul, eval_C, eval_X, mul_comm]
    rfl

theorem dir_of {n m : Nat} (hn : 2 ≤ n) {z h : Nat → K} {lb : Nat → Nat → K × K} (hz : ∀ i < n, ∀ j < n, z i = z j → i = j) (hv : ValidTable n m z h lb)
    {j : Nat} (hj : j + 1 < m) {t : K} (h0 : 0 ≤ t) (h1 : t ≤ 1) : Dir n m z h lb (fun i => basisAt n z i (plin h j t)) (hat j t) where
  wts := by
    refine ⟨fun c _ => ?_, ?_⟩
    · unfold hat
      split_ifs
      · linarith
      · exact h0
      · exact le_refl _
    · have := sum_hat hj t (fun _ => (1 : K))
      simp only [mul_one] at this
      rw [this]; unfold plin; ring
  one := (basis_sums hn hz _).1
  lin := by rw [(basis_sums hn hz _).2, sum_hat hj]
  le i hi k hk := by
    have h2 := hv.two
    by_cases hk1 : k + 1 < m
    · have := hv.bounds i hi k hk1 0 (le_refl _) zero_le_one
      unfold plin at this
      simp only [sub_zero, one_mul, zero_mul, add_zero] at this
      exact this.1.trans this.2
    · have := hv.bounds i hi (k - 1) (by omega) 1 zero_le_one (le_refl _)
      unfold plin at this
      simp only [sub_self, one_mul, zero_mul, zero_add] at this
      rw [show k - 1 + 1 = k by omega] at this
      exact this.1.trans this.2
  enc i hi := by
    have := hv.bounds i hi j hj t h0 h1
    unfold Enc
    rw [sum_hat hj t (fun k => (lb i k).1), sum_hat hj t (fun k => (lb i k).2)]
    exact this

/-- every point of [-1,1] is in a segment -/
theorem segment {m : Nat} {h : Nat → K} (hm : 2 ≤ m) (h0 : h 0 = -1) (h1 : h (m - 1) = 1) {x : K} (hx : -1 ≤ x) (hx' : x ≤ 1) :
    ∃ j t, j + 1 < m ∧ 0 ≤ t ∧ t ≤ 1 ∧ x = plin h j t := by
  have : ∃ j, j + 1 < m ∧ h j ≤ x ∧ x ≤ h (j + 1) := by
    by_contra hc
    push Not at hc
    have hall : ∀ j, j + 1 < m → h j ≤ x := by
      intro j
      induction j with
      | zero => intro _; rw [h0]; exact hx
      | succ j ih => intro hj; exact (hc j (by omega) (ih (by omega))).le
    have := hc (m - 2) (by omega) (hall (m - 2) (by omega))
    rw [show m - 2 + 1 = m - 1 by omega, h1] at this
    exact absurd hx' (not_le.2 this)
  obtain ⟨j, hj, ha, hb⟩ := this
  rcases (ha.trans hb).eq_or_lt with e | e
  · refine ⟨j, 0, hj, le_refl _, zero_le_one, ?_⟩
    unfold plin
    rw [← e] at hb
    have := le_antisymm ha hb
    rw [← this]; ring
  · refine ⟨j, (x - h j) / (h (j + 1) - h j), hj, div_nonneg (sub_nonneg.2 ha) (sub_pos.2 e).le, ?_, ?_⟩
    · rw [div_le_one (sub_pos.2 e)]; linarith
    · unfold plin
      have := (sub_pos.2 e).ne'
      field_simp
      ring

theorem enc_plin2 {mr ms : Nat} {i j : Nat} (hi : i + 1 < mr) (hj : j + 1 < ms) (a b : K) (v : Nat → K) :
    ∑ p ∈ range (mr * ms), hat i a (p / ms) * hat j b (p % ms) * v p = plin2 ms v i a j b := by
  rw [sum_range_mul, plin2, ← sum_hat hi]
  refine sum_congr rfl fun c _ => ?_
  rw [← sum_hat hj, mul_sum]
  refine sum_congr rfl fun k hk => ?_
  rw [(div_mod_at (mem_range.1 hk)).1, (div_mod_at (mem_range.1 hk)).2, mul_assoc]

theorem enc_plin3 {mr ms mt : Nat} {i j k : Nat} (hi : i + 1 < mr) (hj : j + 1 < ms) (hk : k + 1 < mt) (a b c : K) (v : Nat → K) :
    ∑ p ∈ range (mr * ms * mt), hat i a (p / mt / ms) * hat j b (p / mt % ms) * hat k c (p % mt) * v p = plin3 ms mt v i a j b k c := by
  rw [sum_range_mul]
  have e := enc_plin2 hi hj a b (fun q => plin (fun k => v (q * mt + k)) k c)
  have : plin3 ms mt v i a j b k c = plin2 ms (fun q => plin (fun k => v (q * mt + k)) k c) i a j b := rfl
  rw [this, ← e]
  refine sum_congr rfl fun q _ => ?_
  rw [← sum_hat hk, mul_sum]
  refine sum_congr rfl fun l hl => ?_
  rw [(div_mod_at (mem_range.1 hl)).1, (div_mod_at (mem_range.1 hl)).2, mul_assoc]

section
variable {nr mr : Nat} {zr hr : Nat → K} {lbr : Nat → Nat → K × K} {φr wr' : Nat → K} (dr : Dir nr mr zr hr lbr φr wr')
  {ns ms : Nat} {zs hs : Nat → K} {lbs : Nat → Nat → K × K} {φs ws : Nat → K} (ds : Dir ns ms zs hs lbs φs ws)
  {nt mt : Nat} {zt ht : Nat → K} {lbt : Nat → Nat → K × K} {φt wt : Nat → K} (dt : Dir nt mt zt ht lbt φt wt)

include dr ds in
theorem val2_le (Qr Qs : Nat → K × K) (U : Nat → K) (p : Nat) (hp : p < mr * ms) :
    (val2 nr mr zr Qr hr lbr ns ms zs Qs hs lbs U p).1 ≤ (val2 nr mr zr Qr hr lbr ns ms zs Qs hs lbs U p).2 := by
  have hms := pos_of_lt_mul hp
  have hp1 : p / ms < mr := Nat.div_lt_of_lt_mul (by rwa [Nat.mul_comm])
  have e : p / ms * ms + p % ms = p := by rw [Nat.mul_comm]; exact Nat.div_add_mod p ms
  have := ds.ext_le Qs mr (rowVal nr mr zr Qr hr lbr U) (fun j hj c hc => by rw [rowVal_at hc]; exact dr.fst_le Qr _ c hc) (p / ms) (p % ms) hp1 (Nat.mod_lt _ hms)
  rw [e] at this
  exact this

include dr ds in
theorem val2_enc (Qr Qs : Nat → K × K) (U : Nat → K) :
    Enc (mr * ms) (fun p => wr' (p / ms) * ws (p % ms)) (val2 nr mr zr Qr hr lbr ns ms zs Qs hs lbs U) (∑ j ∈ range ns, (∑ i ∈ range nr, U (j * nr + i) * φr i) * φs j) := by
  refine ds.ext Qs mr wr' dr.wts.pos (rowVal nr mr zr Qr hr lbr U) (fun j hj c hc => by rw [rowVal_at hc]; exact dr.fst_le Qr _ c hc) _ fun j hj => ?_
  have := dr.fst Qr (fun i => U (j * nr + i))
  unfold Enc at *
  have e : ∀ c ∈ range mr, rowVal nr mr zr Qr hr lbr U (j * mr + c) = fstVal nr zr Qr hr lbr (fun i => U (j * nr + i)) nr c := fun c hc => rowVal_at (mem_range.1 hc)
  refine ⟨le_trans (le_of_eq ?_) this.1, le_trans this.2 (le_of_eq ?_)⟩
  · refine sum_congr rfl fun c hc => ?_
    beta_reduce
    rw [e c hc]
  · refine sum_congr rfl fun c hc => ?_
    rw [← e c hc]

include dr ds dt in
theorem val3_enc (Qr Qs Qt : Nat → K × K) (U : Nat → K) :
    Enc (mr * ms * mt) (fun p => wr' (p / mt / ms) * ws (p / mt % ms) * wt (p % mt)) (val3 nr mr zr Qr hr lbr ns ms zs Qs hs lbs nt mt zt Qt ht lbt U)
      (∑ k ∈ range nt, (∑ j ∈ range ns, (∑ i ∈ range nr, U (k * (ns * nr) + (j * nr + i)) * φr i) * φs j) * φt k) := by
  refine dt.ext Qt (mr * ms) (fun p => wr' (p / ms) * ws (p % ms)) (ds.wtsMul mr wr' dr.wts).pos _ (fun j hj c hc => ?_) _ fun j hj => ?_
  · beta_reduce
    rw [(div_mod_at hc).1, (div_mod_at hc).2]
    exact val2_le dr ds Qr Qs _ c hc
  · have := val2_enc dr ds Qr Qs (fun i => U (j * (ns * nr) + i))
    unfold Enc at *
    have e : ∀ c ∈ range (mr * ms), (fun q => val2 nr mr zr Qr hr lbr ns ms zs Qs hs lbs (fun i => U (q / (mr * ms) * (ns * nr) + i)) (q % (mr * ms))) (j * (mr * ms) + c) =
        val2 nr mr zr Qr hr lbr ns ms zs Qs hs lbs (fun i => U (j * (ns * nr) + i)) c := fun c hc => by
      beta_reduce
      rw [(div_mod_at (mem_range.1 hc)).1, (div_mod_at (mem_range.1 hc)).2]
    refine ⟨le_trans (le_of_eq ?_) this.1, le_trans this.2 (le_of_eq ?_)⟩
    · exact sum_congr rfl fun c hc => by rw [← e c hc]
    · exact sum_congr rfl fun c hc => by rw [← e c hc]
end

omit [LinearOrder K] [IsStrictOrderedRing K] in
theorem poly2_eq (nr : Nat) (zr : Nat → K) (ns : Nat) (zs : Nat → K) (u : Nat → K) (r s : K) :
    poly2 nr zr ns zs u r s = ∑ j ∈ range ns, (∑ i ∈ range nr, u (j * nr + i) * basisAt nr zr i r) * basisAt ns zs j s := by
  unfold poly2
  refine sum_congr rfl fun j _ => ?_
  congr 1
  refine sum_congr rfl fun i _ => ?_
  rw [show i + nr * j = j * nr + i by ring]

omit [LinearOrder K] [IsStrictOrderedRing K] in
theorem poly3_eq (nr : Nat) (zr : Nat → K) (ns : Nat) (zs : Nat → K) (nt : Nat) (zt : Nat → K) (u : Nat → K) (r s t : K) :
    poly3 nr zr ns zs nt zt u r s t = ∑ k ∈ range nt, (∑ j ∈ range ns, (∑ i ∈ range nr, u (k * (ns * nr) + (j * nr + i)) * basisAt nr zr i r) * basisAt ns zs j s) * basisAt nt zt k t := by
  unfold poly3
  refine sum_congr rfl fun k _ => ?_
  congr 1
  refine sum_congr rfl fun j _ => ?_
  congr 1
  refine sum_congr rfl fun i _ => ?_
  rw [show i + nr * (j + ns * k) = k * (ns * nr) + (j * nr + i) by ring]

end Gslib.Lob
