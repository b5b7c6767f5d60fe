import Verif.Lemmas.LobCert

/-!
# The check of one cell
-/

namespace Gslib.Lob
open Polynomial

/-- positive part of `D-h` or of `h-D` -/
noncomputable def xs (σ : Bool) (h D : ℕ) : ℕ := cond σ (Nat.sub D h) (Nat.sub h D)

/-- bounds `lo`, `hi` of the second derivative -/
noncomputable def fits2 (h : ℕ) (σ : Bool) (lo hi D U : ℕ) : Bool := and (Nat.ble (Nat.add lo U) (Nat.mul 4 (xs σ h D))) (Nat.ble U hi)

/-- sign of the third derivative -/
noncomputable def pos3 (h : ℕ) (σ : Bool) (R D U : ℕ) : Bool := Nat.ble U (Nat.mul (Nat.mul 12 R) (xs σ h D))

/-- bounds `lo`, `hi` of the third derivative -/
noncomputable def fits3 (h : ℕ) (σ : Bool) (lo hi R D U : ℕ) : Bool := and (Nat.ble (Nat.add (Nat.mul R lo) U) (Nat.mul (Nat.mul 12 R) (xs σ h D))) (Nat.ble U (Nat.mul R hi))

/-- sign -/
def sgn (σ : Bool) : ℝ := cond σ 1 (-1)

theorem sgn_or (σ : Bool) : sgn σ = 1 ∨ sgn σ = -1 := by cases σ <;> simp [sgn]

theorem xs_spec {h D : ℕ} {a : ℤ} (hD : (D : ℤ) = a + h) (σ : Bool) : ((xs σ h D : ℕ) : ℝ) = max (sgn σ * a) 0 := by
  have e : ∀ x y : ℕ, ((Nat.sub x y : ℕ) : ℝ) = max ((x : ℝ) - y) 0 := by
    intro x y
    show ((x - y : ℕ) : ℝ) = _
    rcases le_total y x with h | h
    · have : (y : ℝ) ≤ x := by exact_mod_cast h
      rw [Nat.cast_sub h, max_eq_left (by linarith)]
    · have : (x : ℝ) ≤ y := by exact_mod_cast h
      rw [Nat.sub_eq_zero_of_le h, max_eq_right (by linarith), Nat.cast_zero]
  have hD' : (D : ℝ) = a + h := by exact_mod_cast hD
  cases σ
  · show ((Nat.sub h D : ℕ) : ℝ) = _
    rw [e, hD', sgn]; congr 1; simp
  · show ((Nat.sub D h : ℕ) : ℝ) = _
    rw [e, hD', sgn]; congr 1; simp

theorem absd_spec {h D : ℕ} {a : ℤ} (hD : (D : ℤ) = a + h) : ((absd h D : ℕ) : ℝ) = |(a : ℝ)| := by
  have h1 := xs_spec hD true
  have h2 := xs_spec hD false
  show ((Nat.sub D h + Nat.sub h D : ℕ) : ℝ) = _
  rw [Nat.cast_add]
  show ((xs true h D : ℕ) : ℝ) + ((xs false h D : ℕ) : ℝ) = _
  rw [h1, h2]
  simp only [sgn, cond_true, cond_false, one_mul, neg_mul]
  rcases le_total 0 (a : ℝ) with h | h
  · rw [max_eq_left h, max_eq_right (by linarith), abs_of_nonneg h, add_zero]
  · rw [max_eq_right h, max_eq_left (by linarith), abs_of_nonpos h, zero_add]

/-- what the digits say about the derivatives on the cell -/
structure CellInfo (p : ℝ[X]) (h R D2 D3 U2 U3 : ℕ) : Prop where
  d2 : ∃ a : ℤ, (D2 : ℤ) = a + h ∧ 2 * |(a : ℝ)| ≤ U2 ∧ ∀ Y : ℝ, |Y| ≤ R → |(derivative^[2] p).eval Y| ≤ U2 ∧ |(derivative^[2] p).eval Y - 2 * a| ≤ U2 - 2 * |(a : ℝ)|
  d3 : ∃ a : ℤ, (D3 : ℤ) = a + h ∧ 6 * R * |(a : ℝ)| ≤ U3 ∧ ∀ Y : ℝ, |Y| ≤ R → R * |(derivative^[3] p).eval Y| ≤ U3 ∧ R * |(derivative^[3] p).eval Y - 6 * a| ≤ U3 - 6 * R * |(a : ℝ)|

theorem sgn_mul_le (σ : Bool) (x : ℝ) : sgn σ * x ≤ |x| := by
  rcases sgn_or σ with h | h <;> rw [h]
  · rw [one_mul]; exact le_abs_self x
  · rw [neg_one_mul]; exact neg_le_abs x

theorem sgn_mul_sub (σ : Bool) {x y r : ℝ} (h : |x - y| ≤ r) : sgn σ * y - r ≤ sgn σ * x := by
  rw [abs_le] at h
  rcases sgn_or σ with hs | hs <;> rw [hs] <;> linarith [h.1, h.2]

variable {p : ℝ[X]} {h R D2 D3 U2 U3 : ℕ}

theorem CellInfo.nz (hi : CellInfo p h R D2 D3 U2 U3) (hc : Nat.blt U2 (Nat.mul 4 (absd h D2)) = true) {Y : ℝ} (hY : |Y| ≤ R) : (derivative^[2] p).eval Y ≠ 0 := by
  obtain ⟨a, hD, -, hb⟩ := hi.d2
  have hc' : U2 < 4 * absd h D2 := by
    have : Nat.succ U2 ≤ Nat.mul 4 (absd h D2) := Nat.le_of_ble_eq_true hc
    exact this
  have hcR : (U2 : ℝ) < 4 * |(a : ℝ)| := by rw [← absd_spec hD]; exact_mod_cast hc'
  intro h0
  have := (hb Y hY).2
  rw [h0, zero_sub, abs_neg, abs_mul, abs_two] at this
  linarith

theorem CellInfo.b2 (hi : CellInfo p h R D2 D3 U2 U3) {σ : Bool} {lo up : ℕ} (hc : fits2 h σ lo up D2 U2 = true) {Y : ℝ} (hY : |Y| ≤ R) :
    (lo : ℝ) ≤ sgn σ * (derivative^[2] p).eval Y ∧ sgn σ * (derivative^[2] p).eval Y ≤ up := by
  obtain ⟨a, hD, hU, hb⟩ := hi.d2
  unfold fits2 at hc
  rw [Bool.and_eq_true] at hc
  have c1 : lo + U2 ≤ 4 * xs σ h D2 := Nat.le_of_ble_eq_true hc.1
  have c2 : U2 ≤ up := Nat.le_of_ble_eq_true hc.2
  have c1R : (lo : ℝ) + U2 ≤ 4 * max (sgn σ * a) 0 := by rw [← xs_spec hD σ]; exact_mod_cast c1
  have c2R : (U2 : ℝ) ≤ up := by exact_mod_cast c2
  have b := hb Y hY
  refine ⟨?_, ((sgn_mul_le σ _).trans b.1).trans c2R⟩
  have m := sgn_mul_sub σ b.2
  have hl : (0 : ℝ) ≤ lo := Nat.cast_nonneg _
  have ha := abs_nonneg (a : ℝ)
  have hs := sgn_mul_le σ (a : ℝ)
  rcases le_total 0 (sgn σ * (a : ℝ)) with h0 | h0
  · rw [max_eq_left h0] at c1R
    have : |(a : ℝ)| = sgn σ * a := by
      rcases sgn_or σ with hs | hs <;> rw [hs] at h0 ⊢
      · rw [one_mul] at h0 ⊢; exact abs_of_nonneg h0
      · rw [neg_one_mul] at h0 ⊢; exact abs_of_nonpos (by linarith)
    linarith
  · rw [max_eq_right h0] at c1R
    have : |(a : ℝ)| = 0 := by linarith
    have : (a : ℝ) = 0 := abs_eq_zero.1 this
    rw [this] at m
    simp only [mul_zero, abs_zero] at m
    linarith

theorem CellInfo.pos (hi : CellInfo p h R D2 D3 U2 U3) (hR : 0 < R) {σ : Bool} (hc : pos3 h σ R D3 U3 = true) {Y : ℝ} (hY : |Y| ≤ R) : 0 ≤ sgn σ * (derivative^[3] p).eval Y := by
  obtain ⟨a, hD, hU, hb⟩ := hi.d3
  have c1 : U3 ≤ 12 * R * xs σ h D3 := Nat.le_of_ble_eq_true hc
  have c1R : (U3 : ℝ) ≤ 12 * R * max (sgn σ * a) 0 := by rw [← xs_spec hD σ]; exact_mod_cast c1
  have hRR : (0 : ℝ) < R := by exact_mod_cast hR
  have b := (hb Y hY).2
  rw [← abs_of_pos hRR, ← abs_mul, mul_sub, abs_of_pos hRR] at b
  have m := sgn_mul_sub σ b
  have ha := abs_nonneg (a : ℝ)
  refine le_of_mul_le_mul_left (?_ : (R : ℝ) * 0 ≤ R * _) hRR
  rcases le_total 0 (sgn σ * (a : ℝ)) with h0 | h0
  · rw [max_eq_left h0] at c1R
    have : |(a : ℝ)| = sgn σ * a := by
      rcases sgn_or σ with hs | hs <;> rw [hs] at h0 ⊢
      · rw [one_mul] at h0 ⊢; exact abs_of_nonneg h0
      · rw [neg_one_mul] at h0 ⊢; exact abs_of_nonpos (by linarith)
    rw [this] at m
    linarith
  · rw [max_eq_right h0] at c1R
    have h1 : (R : ℝ) * |(a : ℝ)| ≤ 0 := by linarith
    have : |(a : ℝ)| ≤ 0 := by
      by_contra hcon
      have := mul_pos hRR (not_le.1 hcon)
      linarith
    have : (a : ℝ) = 0 := abs_eq_zero.1 (le_antisymm this ha)
    rw [this] at m
    simp only [mul_zero, abs_zero] at m
    linarith

theorem CellInfo.b3 (hi : CellInfo p h R D2 D3 U2 U3) (hR : 0 < R) {σ : Bool} {lo up : ℕ} (hc : fits3 h σ lo up R D3 U3 = true) {Y : ℝ} (hY : |Y| ≤ R) :
    (lo : ℝ) ≤ sgn σ * (derivative^[3] p).eval Y ∧ sgn σ * (derivative^[3] p).eval Y ≤ up := by
  obtain ⟨a, hD, hU, hb⟩ := hi.d3
  unfold fits3 at hc
  rw [Bool.and_eq_true] at hc
  have c1 : R * lo + U3 ≤ 12 * R * xs σ h D3 := Nat.le_of_ble_eq_true hc.1
  have c2 : U3 ≤ R * up := Nat.le_of_ble_eq_true hc.2
  have c1R : (R : ℝ) * lo + U3 ≤ 12 * R * max (sgn σ * a) 0 := by rw [← xs_spec hD σ]; exact_mod_cast c1
  have c2R : (U3 : ℝ) ≤ R * up := by exact_mod_cast c2
  have hRR : (0 : ℝ) < R := by exact_mod_cast hR
  have b1 := (hb Y hY).1
  have b := (hb Y hY).2
  rw [← abs_of_pos hRR, ← abs_mul, mul_sub, abs_of_pos hRR] at b
  have m := sgn_mul_sub σ b
  have ha := abs_nonneg (a : ℝ)
  have hl : (0 : ℝ) ≤ R * lo := by positivity
  refine ⟨le_of_mul_le_mul_left (?_ : (R : ℝ) * lo ≤ R * _) hRR, (sgn_mul_le σ _).trans (le_of_mul_le_mul_left (b1.trans c2R) hRR)⟩
  rcases le_total 0 (sgn σ * (a : ℝ)) with h0 | h0
  · rw [max_eq_left h0] at c1R
    have : |(a : ℝ)| = sgn σ * a := by
      rcases sgn_or σ with hs | hs <;> rw [hs] at h0 ⊢
      · rw [one_mul] at h0 ⊢; exact abs_of_nonneg h0
      · rw [neg_one_mul] at h0 ⊢; exact abs_of_nonpos (by linarith)
    rw [this] at m
    linarith
  · rw [max_eq_right h0] at c1R
    have h1 : (R : ℝ) * |(a : ℝ)| ≤ 0 := by linarith
    have : |(a : ℝ)| ≤ 0 := by
      by_contra hcon
      have := mul_pos hRR (not_le.1 hcon)
      linarith
    have : (a : ℝ) = 0 := abs_eq_zero.1 (le_antisymm this ha)
    rw [this] at m
    simp only [mul_zero, abs_zero] at m
    linarith

/-! ### Reading the digits -/

/-- the offset that makes all digits positive -/
noncomputable def offs (B h n : ℕ) : ℕ := ∑ k ∈ Finset.range n, h * (2 ^ B) ^ k

theorem offs_eq (B h n : ℕ) (hB : 0 < B) : offs B h n = Nat.mul h (Nat.div (Nat.sub (Nat.pow 2 (Nat.mul B n)) 1) (Nat.sub (Nat.pow 2 B) 1)) := by
  unfold offs
  rw [← Finset.mul_sum]
  show _ = h * ((2 ^ (B * n) - 1) / (2 ^ B - 1))
  rw [pow_mul, Nat.geomSum_eq (Nat.le_self_pow (by omega) 2)]

theorem cell_info {B h R n : ℕ} (hn : 4 ≤ n) (hB : 2 ^ B = 2 * h) (l : List ℤ) (hl : l.length + 1 = n) {K : ℕ} (hK : ∀ c ∈ l, |c| + 1 ≤ (K : ℤ)) (hKh : K ^ (n - 1) < h) {Q : ℕ}
    (hQ : (Q : ℤ) = (linP l).eval (2 ^ B) + offs B h n) : CellInfo ((linP l).map (Int.castRingHom ℝ)) h R (Nat.mod (Nat.shiftRight (Nat.shiftRight Q B) B) (Nat.pow 2 B))
      (Nat.mod (Nat.shiftRight (Nat.shiftRight (Nat.shiftRight Q B) B) B) (Nat.pow 2 B)) (sums B h R (n - 2) (Nat.shiftRight (Nat.shiftRight Q B) B) 2).1 (sums B h R (n - 2) (Nat.shiftRight (Nat.shiftRight Q B) B) 2).2 := by
  have hco : ∀ k, |(linP l).coeff k| < h := by
    intro k
    refine lt_of_le_of_lt (linP_coeff (Int.natCast_nonneg K) l hK k) ?_
    rw [show l.length = n - 1 by omega]
    exact_mod_cast hKh
  set g : ℕ → ℕ := fun k => ((linP l).coeff k + h).toNat with hg
  have hgc : ∀ k, ((g k : ℕ) : ℤ) = (linP l).coeff k + h := by
    intro k
    have := (abs_lt.1 (hco k)).1
    exact Int.toNat_of_nonneg (by linarith)
  have hglt : ∀ k, g k < 2 ^ B := by
    intro k
    have h1 := (abs_lt.1 (hco k)).2
    have h2 := hgc k
    rw [hB]
    zify
    linarith
  have hQp : Q = packed B g n 0 := by
    zify
    rw [hQ, packed, offs]
    push_cast
    rw [linP_packed l (by omega)]
    refine Finset.sum_congr rfl fun k _ => ?_
    rw [zero_add, hgc]
  obtain ⟨N, rfl⟩ : ∃ N, n = N + 1 + 1 + 1 + 1 := ⟨n - 4, by omega⟩
  have hs : Nat.shiftRight (Nat.shiftRight Q B) B = packed B g (N + 1 + 1) 2 := by
    show (Q >>> B) >>> B = _
    rw [hQp, packed_shift hglt, packed_shift hglt]
  rw [hs]
  have e2 : Nat.mod (packed B g (N + 1 + 1) 2) (Nat.pow 2 B) = g 2 := packed_mod hglt _ _
  have e3 : Nat.mod (Nat.shiftRight (packed B g (N + 1 + 1) 2) B) (Nat.pow 2 B) = g 3 := by
    have : Nat.shiftRight (packed B g (N + 1 + 1) 2) B = packed B g (N + 1) 3 := packed_shift hglt _ _
    rw [this]; exact packed_mod hglt _ _
  rw [e2, e3, show N + 1 + 1 + 1 + 1 - 2 = N + 1 + 1 by omega, sums_packed hglt]
  have hpc : ∀ k, ((linP l).map (Int.castRingHom ℝ)).coeff k = ((linP l).coeff k : ℝ) := fun k => by rw [coeff_map]; rfl
  have hdeg : ((linP l).map (Int.castRingHom ℝ)).natDegree < N + 1 + 1 + 2 := by
    refine lt_of_le_of_lt (natDegree_map_le) ?_
    have := linP_degree l
    omega
  have hU2 : ((∑ t ∈ Finset.range (N + 1 + 1), (2 + t) * (2 + t - 1) * absd h (g (2 + t)) * R ^ t : ℕ) : ℝ) =
      ∑ t ∈ Finset.range (N + 1 + 1), ((t : ℝ) + 2) * (t + 1) * |((linP l).map (Int.castRingHom ℝ)).coeff (t + 2)| * (R : ℝ) ^ t := by
    rw [Nat.cast_sum]
    refine Finset.sum_congr rfl fun t _ => ?_
    rw [show 2 + t - 1 = t + 1 by omega]
    push_cast
    rw [absd_spec (hgc _), hpc, show 2 + t = t + 2 by ring]
    ring
  have hU3 : ((∑ t ∈ Finset.range (N + 1 + 1), (2 + t - 2) * ((2 + t) * (2 + t - 1) * absd h (g (2 + t))) * R ^ t : ℕ) : ℝ) =
      ∑ t ∈ Finset.range (N + 1 + 1), ((t : ℝ) + 2) * (t + 1) * t * |((linP l).map (Int.castRingHom ℝ)).coeff (t + 2)| * (R : ℝ) ^ t := by
    rw [Nat.cast_sum]
    refine Finset.sum_congr rfl fun t _ => ?_
    rw [show 2 + t - 1 = t + 1 by omega, show 2 + t - 2 = t by omega]
    push_cast
    rw [absd_spec (hgc _), hpc, show 2 + t = t + 2 by ring]
    ring
  refine ⟨⟨(linP l).coeff 2, hgc 2, ?_, fun Y hY => ?_⟩, ⟨(linP l).coeff 3, hgc 3, ?_, fun Y hY => ?_⟩⟩
  · have h0 := (d2_bound hdeg (R := R) (Y := 0) (by simp)).2 (by omega)
    have := (abs_nonneg _).trans h0
    rw [← hU2, hpc] at this
    linarith
  · have h0 := d2_bound hdeg hY
    dsimp only at h0
    rw [← hU2, hpc] at h0
    exact ⟨h0.1, h0.2 (by omega)⟩
  · have h0 := (d3_bound hdeg (by omega) (R := R) (Y := 0) (by simp)).2
    have h1 : (0 : ℝ) ≤ R * |(derivative^[3] ((linP l).map (Int.castRingHom ℝ))).eval 0 - 6 * ((linP l).map (Int.castRingHom ℝ)).coeff 3| := by positivity
    have := h1.trans h0
    rw [← hU3, hpc] at this
    linarith
  · have h0 := d3_bound hdeg (by omega) hY
    dsimp only at h0
    rw [← hU3, hpc] at h0
    exact h0

end Gslib.Lob
