import Verif.Lemmas.LobRow

/-!
# From the checked cells to `Good`
-/

namespace Gslib.Lob

theorem find_cell {D φ : ℝ} {a : ℕ} (t : ℕ) (h0 : a * D ≤ φ) (h1 : φ ≤ ((a + t + 1 : ℕ) : ℝ) * D) : ∃ k, a ≤ k ∧ k < a + t + 1 ∧ k * D ≤ φ ∧ φ ≤ (k + 1) * D := by
  induction t generalizing a with
  | zero => exact ⟨a, le_refl _, by omega, h0, by push_cast at h1; simpa using h1⟩
  | succ t ih =>
    rcases le_total φ ((a + 1) * D) with h | h
    · exact ⟨a, le_refl _, by omega, h0, h⟩
    · obtain ⟨k, c1, c2, c3⟩ := ih (a := a + 1) (by push_cast; exact h) (by rw [show a + 1 + t + 1 = a + (t + 1) + 1 by ring]; exact h1)
      exact ⟨k, by omega, by omega, c3⟩

theorem find_cell' {D φ : ℝ} {a b : ℕ} (hab : a < b) (h0 : a * D ≤ φ) (h1 : φ ≤ b * D) : ∃ k, a ≤ k ∧ k < b ∧ k * D ≤ φ ∧ φ ≤ (k + 1) * D := by
  obtain ⟨t, rfl⟩ : ∃ t, b = a + t + 1 := ⟨b - a - 1, by omega⟩
  exact find_cell t h0 h1

/-- static requirements on a cluster -/
structure Clu.Ok (n M : ℕ) (c : Clu) : Prop where
  lt : c.k1 < c.k2
  le : c.k2 ≤ M
  J : 3 ≤ c.k1 * (4 * n - 1) / M
  r1 : 12 * (c.k1 * (4 * n - 1) / M) * c.b ≤ c.a * (2 * (c.k1 * (4 * n - 1) / M) + 1) ^ 2
  J' : 3 ≤ (M - c.k2) * (4 * n - 1) / M
  r2 : 12 * ((M - c.k2) * (4 * n - 1) / M) * c.d ≤ c.c * (2 * ((M - c.k2) * (4 * n - 1) / M) + 1) ^ 2

/-- static requirements on the windows -/
structure Par.Win (P : Par) : Prop where
  n : 4 ≤ P.n
  M : 0 < P.M
  W : 9 * P.M ≤ 8 * (4 * P.n - 1) * P.W
  W2 : 9 * P.M ≤ 16 * (4 * P.n - 1) * P.W2
  E : 2 * P.M ≤ (4 * P.n - 1) * P.E
  EM : P.E ≤ P.M

theorem good_of_cells {P : Par} (hw : P.Win) {r : Row} (hl : r.bl ≤ 2 * r.al) (hr : r.br ≤ 2 * r.ar) (hcl : ∀ c ∈ r.cl, c.Ok P.n P.M) {f2 f3 : ℝ → ℝ} {S : ℝ} {C R : ℕ → ℝ}
    (hcell : ∀ k < P.M, RowCell P k r f2 f3 (C k) (R k))
    (hloc : ∀ k < P.M, ∀ θ, k * (Real.pi / P.M) ≤ θ → θ ≤ (k + 1) * (Real.pi / P.M) → |S * (1 - Real.cos θ) - C k| ≤ R k) :
    Good (fun x => f2 (S * (1 + x))) (fun x => f3 (S * (1 + x))) (Real.pi / (4 * P.n - 1)) := by
  have hM : (0 : ℝ) < P.M := by exact_mod_cast hw.M
  have hn : (4 : ℝ) ≤ P.n := by exact_mod_cast hw.n
  set N : ℝ := 4 * P.n - 1 with hN
  have hNc : ((4 * P.n - 1 : ℕ) : ℝ) = N := by rw [Nat.cast_sub (by have := hw.n; omega)]; push_cast; rfl
  have hNp : 0 < N := by rw [hN]; linarith
  set D := Real.pi / P.M with hD
  set d := Real.pi / N with hd
  have hDp : 0 < D := div_pos Real.pi_pos hM
  have hdp : 0 < d := div_pos Real.pi_pos hNp
  have hMD : (P.M : ℝ) * D = Real.pi := by rw [hD]; field_simp
  have hNd : N * d = Real.pi := by rw [hd]; field_simp
  have hdD : d = P.M * D / N := by rw [hMD]
  have hW : 9 / 8 * d ≤ P.W * D := by
    have : (9 : ℝ) * P.M ≤ 8 * N * P.W := by rw [← hNc]; exact_mod_cast hw.W
    rw [hdD, ← mul_div_assoc, div_le_iff₀ hNp]
    nlinarith
  have hW2 : 9 / 16 * d ≤ P.W2 * D := by
    have : (9 : ℝ) * P.M ≤ 16 * N * P.W2 := by rw [← hNc]; exact_mod_cast hw.W2
    rw [hdD, ← mul_div_assoc, div_le_iff₀ hNp]
    nlinarith
  have hE : 2 * d ≤ P.E * D := by
    have : (2 : ℝ) * P.M ≤ N * P.E := by rw [← hNc]; exact_mod_cast hw.E
    rw [hdD, ← mul_div_assoc, div_le_iff₀ hNp]
    nlinarith
  have hE0 : 0 < P.E := by
    by_contra h
    have : P.E = 0 := by omega
    have := hw.E
    have := hw.M
    simp_all
  have at_ : ∀ θ : ℝ, S * (1 + -Real.cos θ) = S * (1 - Real.cos θ) := fun θ => by ring
  -- lower end of a window
  have lowEnd : ∀ (k1 w : ℕ) (φ : ℝ), 0 ≤ φ → k1 * D - w * D ≤ φ → ((k1 - w : ℕ) : ℝ) * D ≤ φ := by
    intro k1 w φ h0 h1
    rcases le_total w k1 with h | h
    · rw [Nat.cast_sub h]; linarith
    · rw [Nat.sub_eq_zero_of_le h]; simpa using h0
  have upEnd : ∀ (k2 w : ℕ) (φ : ℝ), φ ≤ Real.pi → φ ≤ k2 * D + w * D → φ ≤ ((min (k2 + w) P.M : ℕ) : ℝ) * D := by
    intro k2 w φ h0 h1
    rcases le_total (k2 + w) P.M with h | h
    · rw [min_eq_left h]; push_cast; linarith
    · rw [min_eq_right h, hMD]; exact h0
  constructor
  · refine ⟨sgn r.sl, ((r.al <<< P.e2 : ℕ) : ℝ), sgn_or _, Nat.cast_nonneg _, fun θ h0 h1 => ?_⟩
    obtain ⟨k, -, k2, k3, k4⟩ := find_cell' (a := 0) (b := P.E) (φ := θ) (D := D) hE0 (by simpa using h0) (h1.trans hE)
    have hk := lt_of_lt_of_le k2 hw.EM
    have := (hcell k hk).left k2 _ (hloc k hk θ k3 k4)
    rw [at_]
    refine ⟨this.1, this.2.trans ?_⟩
    rw [Nat.shiftLeft_eq, Nat.shiftLeft_eq]
    have : ((r.bl : ℕ) : ℝ) ≤ 2 * r.al := by exact_mod_cast hl
    push_cast
    have h2 : (0 : ℝ) ≤ 2 ^ P.e2 := by positivity
    have := mul_le_mul_of_nonneg_right this h2
    linarith
  · refine ⟨sgn r.sr, ((r.ar <<< P.e2 : ℕ) : ℝ), sgn_or _, Nat.cast_nonneg _, fun θ h0 h1 => ?_⟩
    obtain ⟨k, k1, k2, k3, k4⟩ := find_cell' (a := P.M - P.E) (b := P.M) (φ := θ) (D := D) (by have := hw.EM; have := hw.M; omega)
      (by rw [Nat.cast_sub hw.EM, sub_mul, hMD]; linarith) (by rw [hMD]; exact h1)
    have := (hcell k k2).right (by omega) _ (hloc k k2 θ k3 k4)
    rw [at_]
    refine ⟨this.1, this.2.trans ?_⟩
    rw [Nat.shiftLeft_eq, Nat.shiftLeft_eq]
    have : ((r.br : ℕ) : ℝ) ≤ 2 * r.ar := by exact_mod_cast hr
    push_cast
    have h2 : (0 : ℝ) ≤ 2 ^ P.e2 := by positivity
    have := mul_le_mul_of_nonneg_right this h2
    linarith
  · intro θ h0 h1 hz
    rw [at_] at hz
    obtain ⟨k, -, hk, k3, k4⟩ := find_cell' (a := 0) (b := P.M) (φ := θ) (D := D) hw.M (by simpa using h0) (by rw [hMD]; exact h1)
    rcases (hcell k hk).nz with ⟨c, hc, c1, c2⟩ | hnz
    · have ok := hcl c hc
      have c1R : (c.k1 : ℝ) ≤ k := by exact_mod_cast c1
      have c2R : (k : ℝ) + 1 ≤ c.k2 := by exact_mod_cast c2
      have t1 : c.k1 * D ≤ θ := le_trans (mul_le_mul_of_nonneg_right c1R hDp.le) k3
      have t2 : θ ≤ c.k2 * D := le_trans k4 (mul_le_mul_of_nonneg_right c2R hDp.le)
      have hlt := ok.lt
      have hle := ok.le
      -- number of segments
      have jb : ∀ x : ℕ, ((x * (4 * P.n - 1) / P.M : ℕ) : ℝ) * d ≤ x * D := by
        intro x
        have h1 : x * (4 * P.n - 1) / P.M * P.M ≤ x * (4 * P.n - 1) := Nat.div_mul_le_self _ _
        have h2 : ((x * (4 * P.n - 1) / P.M : ℕ) : ℝ) * P.M ≤ x * N := by rw [← hNc]; exact_mod_cast h1
        rw [hdD, ← mul_div_assoc, div_le_iff₀ hNp]
        nlinarith
      have e3 : (0 : ℝ) ≤ 2 ^ P.e3 := by positivity
      refine ⟨sgn c.s, sgn_or _, ?_, ⟨c.k1 * (4 * P.n - 1) / P.M, ((c.a <<< P.e3 : ℕ) : ℝ), ((c.b <<< P.e3 : ℕ) : ℝ), ok.J, (jb _).trans t1, Nat.cast_nonneg _, ?_, ?_⟩,
        ⟨(P.M - c.k2) * (4 * P.n - 1) / P.M, ((c.c <<< P.e3 : ℕ) : ℝ), ((c.d <<< P.e3 : ℕ) : ℝ), ok.J', (jb _).trans ?_, Nat.cast_nonneg _, ?_, ?_⟩⟩
      · intro φ p0 p1 pa
        rw [abs_le] at pa
        obtain ⟨k', a1, a2, a3, a4⟩ := find_cell' (a := c.k1 - P.W) (b := min (c.k2 + P.W) P.M) (φ := φ) (D := D) (by omega) (lowEnd _ _ _ p0 (by linarith)) (upEnd _ _ _ p1 (by linarith))
        rw [at_]
        have hk' : k' < P.M := by omega
        exact (hcell k' hk').pos c hc (by omega) (by omega) _ (hloc k' hk' φ a3 a4)
      · have := ok.r1
        have : (12 : ℝ) * ((c.k1 * (4 * P.n - 1) / P.M : ℕ) : ℝ) * c.b ≤ c.a * (2 * ((c.k1 * (4 * P.n - 1) / P.M : ℕ) : ℝ) + 1) ^ 2 := by exact_mod_cast this
        have m := mul_le_mul_of_nonneg_right this e3
        rw [Nat.shiftLeft_eq, Nat.shiftLeft_eq]
        simp only [Nat.cast_mul (c.a), Nat.cast_mul (c.b), Nat.cast_pow, Nat.cast_ofNat]
        linarith
      · intro φ p0 pa pb
        obtain ⟨k', a1, a2, a3, a4⟩ := find_cell' (a := c.k1 - P.W2) (b := c.k2) (φ := φ) (D := D) (by omega) (lowEnd _ _ _ p0 (by linarith)) (pb.trans t2)
        rw [at_]
        have hk' : k' < P.M := by omega
        exact (hcell k' hk').lb c hc (by omega) (by omega) _ (hloc k' hk' φ a3 a4)
      · rw [Nat.cast_sub hle, sub_mul, hMD]; linarith
      · have := ok.r2
        have : (12 : ℝ) * (((P.M - c.k2) * (4 * P.n - 1) / P.M : ℕ) : ℝ) * c.d ≤ c.c * (2 * (((P.M - c.k2) * (4 * P.n - 1) / P.M : ℕ) : ℝ) + 1) ^ 2 := by exact_mod_cast this
        have m := mul_le_mul_of_nonneg_right this e3
        rw [Nat.shiftLeft_eq, Nat.shiftLeft_eq]
        simp only [Nat.cast_mul (c.c), Nat.cast_mul (c.d), Nat.cast_pow, Nat.cast_ofNat]
        linarith
      · intro φ p1 pa pb
        obtain ⟨k', a1, a2, a3, a4⟩ := find_cell' (a := c.k1) (b := min (c.k2 + P.W2) P.M) (φ := φ) (D := D) (by omega) (t1.trans pa) (upEnd _ _ _ p1 (by linarith))
        rw [at_]
        have hk' : k' < P.M := by omega
        exact (hcell k' hk').rb c hc (by omega) (by omega) _ (hloc k' hk' φ a3 a4)
    · exact absurd hz (hnz _ (hloc k hk θ k3 k4))

end Gslib.Lob
