import Verif.Lemmas.Newton3Fin

/-!
# One step of the point search in 3D: `newton_face`
-/

namespace Gslib.El
open Gslib.Lin Gslib.Spec

variable {K : Type} [Field K] [LinearOrder K] [IsStrictOrderedRing K]

/-! ## a quadratic on a rectangle -/

/-- leaving an interval -/
theorem exit1 {l h a u : K} (h1 : l ≤ a) (h2 : a ≤ h) (hu : u ≠ 0) : ∃ t, 0 ≤ t ∧ (a + t * u = l ∨ a + t * u = h) ∧ (¬ (l ≤ a + u ∧ a + u ≤ h) → t ≤ 1) := by
  rcases lt_or_gt_of_ne hu with h0 | h0
  · refine ⟨(l - a) / u, div_nonneg_of_nonpos (by linarith) h0.le, Or.inl ?_, fun hn => ?_⟩
    · rw [div_mul_cancel₀ _ hu]; ring
    · rw [div_le_one_of_neg h0]
      by_contra hc
      exact hn ⟨by linarith, by linarith⟩
  · refine ⟨(h - a) / u, div_nonneg (by linarith) h0.le, Or.inr ?_, fun hn => ?_⟩
    · rw [div_mul_cancel₀ _ hu]; ring
    · rw [div_le_one h0]
      by_contra hc
      exact hn ⟨by linarith, by linarith⟩

/-- in the rectangle -/
def InRect (l h : Fin 2 → K) (a b : K) : Prop := (l 0 ≤ a ∧ a ≤ h 0) ∧ (l 1 ≤ b ∧ b ≤ h 1)

/-- on its boundary -/
def OnRect (l h : Fin 2 → K) (a b : K) : Prop := a = l 0 ∨ a = h 0 ∨ b = l 1 ∨ b = h 1

theorem exit2 {l h : Fin 2 → K} {a b u w : K} (hin : InRect l h a b) (hne : u ≠ 0 ∨ w ≠ 0) :
    ∃ t, 0 ≤ t ∧ InRect l h (a + t * u) (b + t * w) ∧ OnRect l h (a + t * u) (b + t * w) ∧ (¬ InRect l h (a + u) (b + w) → t ≤ 1) := by
  obtain ⟨⟨h1, h2⟩, h3, h4⟩ := hin
  by_cases hu : u = 0
  · have hw : w ≠ 0 := by rcases hne with h | h; exact absurd hu h; exact h
    obtain ⟨t, t0, t1, t2⟩ := exit1 h3 h4 hw
    refine ⟨t, t0, ?_, ?_, fun hn => t2 fun hh => hn ⟨by rw [hu, add_zero]; exact ⟨h1, h2⟩, hh⟩⟩
    · refine ⟨by rw [hu, mul_zero, add_zero]; exact ⟨h1, h2⟩, ?_⟩
      rcases t1 with e | e <;> rw [e]
      · exact ⟨le_refl _, h3.trans h4⟩
      · exact ⟨h3.trans h4, le_refl _⟩
    · rcases t1 with e | e
      · exact Or.inr (Or.inr (Or.inl e))
      · exact Or.inr (Or.inr (Or.inr e))
  · obtain ⟨t, t0, t1, t2⟩ := exit1 h1 h2 hu
    have tin : l 0 ≤ a + t * u ∧ a + t * u ≤ h 0 := by
      rcases t1 with e | e <;> rw [e]
      · exact ⟨le_refl _, h1.trans h2⟩
      · exact ⟨h1.trans h2, le_refl _⟩
    have ton : OnRect l h (a + t * u) (b + t * w) := by
      rcases t1 with e | e
      · exact Or.inl e
      · exact Or.inr (Or.inl e)
    by_cases hw : w = 0
    · refine ⟨t, t0, ⟨tin, by rw [hw, mul_zero, add_zero]; exact ⟨h3, h4⟩⟩, ton, fun hn => t2 fun hh => hn ⟨hh, by rw [hw, add_zero]; exact ⟨h3, h4⟩⟩⟩
    · obtain ⟨q, q0, q1, q2⟩ := exit1 h3 h4 hw
      have qin : l 1 ≤ b + q * w ∧ b + q * w ≤ h 1 := by
        rcases q1 with e | e <;> rw [e]
        · exact ⟨le_refl _, h3.trans h4⟩
        · exact ⟨h3.trans h4, le_refl _⟩
      rcases le_total t q with hle | hle
      · refine ⟨t, t0, ⟨tin, seg_in h3 h4 qin.1 qin.2 t0 hle⟩, ton, fun hn => ?_⟩
        by_cases ha : l 0 ≤ a + u ∧ a + u ≤ h 0
        · exact hle.trans (q2 fun hb => hn ⟨ha, hb⟩)
        · exact t2 ha
      · refine ⟨q, q0, ⟨seg_in h1 h2 tin.1 tin.2 q0 hle, qin⟩, ?_, fun hn => ?_⟩
        · rcases q1 with e | e
          · exact Or.inr (Or.inr (Or.inl e))
          · exact Or.inr (Or.inr (Or.inr e))
        · by_cases ha : l 0 ≤ a + u ∧ a + u ≤ h 0
          · exact q2 fun hb => hn ⟨ha, hb⟩
          · exact hle.trans (t2 ha)

/-- slope of the model -/
def gradF (A : Fin 3 → K) (y : Fin 2 → K) (a b u w : K) : K := -(y 0 * u + y 1 * w) + (A 0 * a * u + A 1 * (a * w + b * u) + A 2 * b * w)
/-- curvature of the model -/
def curvF (A : Fin 3 → K) (u w : K) : K := A 0 * u ^ 2 + 2 * A 1 * u * w + A 2 * w ^ 2

theorem evalF_move (A : Fin 3 → K) (y : Fin 2 → K) (a b u w t : K) : evalF A y (a + t * u) (b + t * w) = evalF A y a b + t * gradF A y a b u w + t ^ 2 * curvF A u w / 2 := by
  unfold evalF gradF curvF; field_simp; ring

/-- a direction without positive curvature leads to the boundary -/
theorem flat_exit (A : Fin 3 → K) (y l h : Fin 2 → K) (a b u w : K) (hin : InRect l h a b) (hne : u ≠ 0 ∨ w ≠ 0) (hc : curvF A u w ≤ 0) :
    ∃ a' b', InRect l h a' b' ∧ OnRect l h a' b' ∧ evalF A y a' b' ≤ evalF A y a b := by
  rcases le_total (gradF A y a b u w) 0 with hg | hg
  · obtain ⟨t, t0, t1, t2, -⟩ := exit2 hin hne
    refine ⟨_, _, t1, t2, ?_⟩
    rw [evalF_move]
    nlinarith [mul_nonneg t0 (neg_nonneg.2 hg), mul_nonneg (sq_nonneg t) (neg_nonneg.2 hc)]
  · obtain ⟨t, t0, t1, t2, -⟩ := exit2 (u := -u) (w := -w) hin (by rcases hne with h | h; exact Or.inl (neg_ne_zero.2 h); exact Or.inr (neg_ne_zero.2 h))
    refine ⟨_, _, t1, t2, ?_⟩
    rw [evalF_move]
    have e1 : gradF A y a b (-u) (-w) = -gradF A y a b u w := by unfold gradF; ring
    have e2 : curvF A (-u) (-w) = curvF A u w := by unfold curvF; ring
    rw [e1, e2]
    nlinarith [mul_nonneg t0 hg, mul_nonneg (sq_nonneg t) (neg_nonneg.2 hc)]

theorem indef_exit (A : Fin 3 → K) (y l h : Fin 2 → K) (a b : K) (hin : InRect l h a b) (hi : A 0 + A 2 ≤ 0 ∨ A 0 * A 2 ≤ A 1 * A 1) :
    ∃ a' b', InRect l h a' b' ∧ OnRect l h a' b' ∧ evalF A y a' b' ≤ evalF A y a b := by
  by_cases h0 : A 0 ≤ 0
  · exact flat_exit A y l h a b 1 0 hin (Or.inl one_ne_zero) (by unfold curvF; linarith)
  by_cases h2 : A 2 ≤ 0
  · exact flat_exit A y l h a b 0 1 hin (Or.inr one_ne_zero) (by unfold curvF; linarith)
  push Not at h0 h2
  have hd : A 0 * A 2 ≤ A 1 * A 1 := by rcases hi with h | h; linarith; exact h
  refine flat_exit A y l h a b (-A 1) (A 0) hin (Or.inr h0.ne') ?_
  have : curvF A (-A 1) (A 0) = A 0 * (A 0 * A 2 - A 1 * A 1) := by unfold curvF; ring
  rw [this]
  exact mul_nonpos_of_nonneg_of_nonpos h0.le (by linarith)

section definite
variable {A : Fin 3 → K} {y : Fin 2 → K}

theorem sym2_sol (hd : A 0 * A 2 - A 1 * A 1 ≠ 0) : A 0 * linSolveSym2 A y 0 + A 1 * linSolveSym2 A y 1 = y 0 ∧ A 1 * linSolveSym2 A y 0 + A 2 * linSolveSym2 A y 1 = y 1 := by
  have hi := mul_inv_cancel₀ hd
  constructor <;> simp [linSolveSym2] <;> generalize (A 0 * A 2 - A 1 * A 1)⁻¹ = i at *
  · linear_combination y 0 * hi
  · linear_combination y 1 * hi

theorem curv_nonneg (ht : ¬ (A 0 + A 2 ≤ 0)) (hd : ¬ (A 0 * A 2 ≤ A 1 * A 1)) (u w : K) : 0 ≤ curvF A u w := by
  push Not at ht hd
  have h0 : 0 < A 0 := by
    by_contra hc
    push Not at hc
    have : 0 < A 2 := by linarith
    nlinarith [mul_nonneg (neg_nonneg.2 hc) this.le, mul_self_nonneg (A 1)]
  have : A 0 * curvF A u w = (A 0 * u + A 1 * w) ^ 2 + (A 0 * A 2 - A 1 * A 1) * w ^ 2 := by unfold curvF; ring
  have h1 : 0 ≤ A 0 * curvF A u w := by
    rw [this]
    have : 0 ≤ A 0 * A 2 - A 1 * A 1 := by linarith
    positivity
  by_contra hc
  push Not at hc
  nlinarith [mul_pos h0 (neg_pos.2 hc)]

/-- value at a point, from the minimum -/
theorem evalF_from_min (hd : A 0 * A 2 - A 1 * A 1 ≠ 0) (a b : K) :
    evalF A y a b = evalF A y (linSolveSym2 A y 0) (linSolveSym2 A y 1) + curvF A (a - linSolveSym2 A y 0) (b - linSolveSym2 A y 1) / 2 := by
  obtain ⟨e0, e1⟩ := sym2_sol (A := A) (y := y) hd
  generalize linSolveSym2 A y 0 = m at *
  generalize linSolveSym2 A y 1 = n at *
  unfold evalF curvF
  linear_combination (a - m) * e0 + (b - n) * e1

theorem def_exit (l h : Fin 2 → K) (ht : ¬ (A 0 + A 2 ≤ 0)) (hd : ¬ (A 0 * A 2 ≤ A 1 * A 1)) (hout : ¬ InRect l h (linSolveSym2 A y 0) (linSolveSym2 A y 1)) (a b : K) (hin : InRect l h a b) :
    ∃ a' b', InRect l h a' b' ∧ OnRect l h a' b' ∧ evalF A y a' b' ≤ evalF A y a b := by
  have hd' : A 0 * A 2 - A 1 * A 1 ≠ 0 := by intro h0; exact hd (by linarith)
  have hne : linSolveSym2 A y 0 - a ≠ 0 ∨ linSolveSym2 A y 1 - b ≠ 0 := by
    by_contra hc
    push Not at hc
    apply hout
    rw [sub_eq_zero.1 hc.1, sub_eq_zero.1 hc.2]; exact hin
  obtain ⟨t, t0, t1, t2, t3⟩ := exit2 hin hne
  have t4 := t3 (by rw [add_sub_cancel, add_sub_cancel]; exact hout)
  refine ⟨_, _, t1, t2, ?_⟩
  rw [evalF_from_min hd' a b, evalF_from_min hd' (a + _) _]
  have e : curvF A (a + t * (linSolveSym2 A y 0 - a) - linSolveSym2 A y 0) (b + t * (linSolveSym2 A y 1 - b) - linSolveSym2 A y 1) = (1 - t) ^ 2 * curvF A (a - linSolveSym2 A y 0) (b - linSolveSym2 A y 1) := by
    unfold curvF; ring
  rw [e]
  have hq := curv_nonneg ht hd (a - linSolveSym2 A y 0) (b - linSolveSym2 A y 1)
  have : 0 ≤ t * (2 - t) * curvF A (a - linSolveSym2 A y 0) (b - linSolveSym2 A y 1) := mul_nonneg (mul_nonneg t0 (by linarith)) hq
  nlinarith

end definite

/-- a side with the second coordinate fixed -/
theorem side0_min {A : Fin 3 → K} {y : Fin 2 → K} {l h c v z : K} (hl : v ≤ evalF A y l c) (hh : v ≤ evalF A y h c)
    (hs : 0 < A 0 → 0 ≤ ((y 0 - A 1 * c) / A 0 - l) * (h - (y 0 - A 1 * c) / A 0) → v ≤ evalF A y ((y 0 - A 1 * c) / A 0) c) (h1 : l ≤ z) (h2 : z ≤ h) : v ≤ evalF A y z c := by
  have hE : ∀ z, evalF A y z c = evalQ (A 0 / 2) ((y 0 - A 1 * c) / 2) z + (-(y 1 * c) + A 2 * c ^ 2 / 2) := by
    intro z; unfold evalF evalQ; field_simp; ring
  by_cases hA : 0 < A 0 ∧ l * A 0 < y 0 - A 1 * c ∧ y 0 - A 1 * c < h * A 0
  · obtain ⟨a0, a1, a2⟩ := hA
    have b1 : l ≤ (y 0 - A 1 * c) / A 0 := (le_div_iff₀ a0).2 a1.le
    have b2 : (y 0 - A 1 * c) / A 0 ≤ h := (div_le_iff₀ a0).2 a2.le
    have := hs a0 (mul_nonneg (by linarith) (by linarith))
    refine this.trans ?_
    have e : evalF A y z c - evalF A y ((y 0 - A 1 * c) / A 0) c = A 0 / 2 * (z - (y 0 - A 1 * c) / A 0) ^ 2 := by
      unfold evalF; field_simp; ring
    have : 0 ≤ A 0 / 2 * (z - (y 0 - A 1 * c) / A 0) ^ 2 := by positivity
    linarith
  · have := parab (A := A 0 / 2) (y := (y 0 - A 1 * c) / 2) h1 h2 (by
      rintro ⟨a0, a1, a2⟩
      exact hA ⟨by linarith, by linarith, by linarith⟩)
    rcases this with h | h
    · rw [hE] at hl ⊢; linarith
    · rw [hE] at hh ⊢; linarith

/-- a side with the first coordinate fixed -/
theorem side1_min {A : Fin 3 → K} {y : Fin 2 → K} {l h c v z : K} (hl : v ≤ evalF A y c l) (hh : v ≤ evalF A y c h)
    (hs : 0 < A 2 → 0 ≤ ((y 1 - A 1 * c) / A 2 - l) * (h - (y 1 - A 1 * c) / A 2) → v ≤ evalF A y c ((y 1 - A 1 * c) / A 2)) (h1 : l ≤ z) (h2 : z ≤ h) : v ≤ evalF A y c z := by
  have hsw : ∀ a b, evalF A y a b = evalF ![A 2, A 1, A 0] ![y 1, y 0] b a := by
    intro a b; simp [evalF]; ring
  rw [hsw] at hl hh ⊢
  refine side0_min hl hh ?_ h1 h2
  intro a0 a1
  have := hs a0 a1
  rw [hsw] at this
  exact this

/-! ## the candidates -/

/-- the move of a candidate -/
def posF (l h dr : Fin 2 → K) (w : Fin 2 → Con) (d : Fin 2) : K := match w d with | .free => dr d | .lo => l d | .hi => h d

/-- what is kept about the best candidate -/
def FaceInv (A : Fin 3 → K) (y l h : Fin 2 → K) (s : FaceSt K) : Prop :=
  ∃ w, s.i = fl w ∧ s.v = evalF A y (posF l h s.dr w 0) (posF l h s.dr w 1) ∧ InRect l h (posF l h s.dr w 0) (posF l h s.dr w 1)

variable {A : Fin 3 → K} {y l h : Fin 2 → K}

theorem corner_in (hle : l 0 ≤ h 0 ∧ l 1 ≤ h 1) (dr : Fin 2 → K) (a b : Con) (ha : a ≠ .free) (hb : b ≠ .free) : InRect l h (posF l h dr ![a, b] 0) (posF l h dr ![a, b] 1) := by
  cases a <;> cases b <;> simp_all [posF, InRect]

theorem faceCorner_run (hle : l 0 ≤ h 0 ∧ l 1 ≤ h 1) (a b : Con) (ha : a ≠ .free) (hb : b ≠ .free) (s : FaceSt K) (hs : FaceInv A y l h s) :
    FaceInv A y l h (faceCorner A y (posF l h 0 ![a, b] 0) (posF l h 0 ![a, b] 1) (fl ![a, b]) s) ∧ (faceCorner A y (posF l h 0 ![a, b] 0) (posF l h 0 ![a, b] 1) (fl ![a, b]) s).v ≤ s.v ∧
      (faceCorner A y (posF l h 0 ![a, b] 0) (posF l h 0 ![a, b] 1) (fl ![a, b]) s).v ≤ evalF A y (posF l h 0 ![a, b] 0) (posF l h 0 ![a, b] 1) := by
  have e : ∀ dr d, posF l h dr ![a, b] d = posF l h 0 ![a, b] d := by intro dr d; fin_cases d <;> cases a <;> cases b <;> simp_all [posF]
  unfold faceCorner
  split_ifs with hc
  · exact ⟨⟨![a, b], rfl, by dsimp only; rw [e s.dr, e s.dr], corner_in hle _ a b ha hb⟩, hc.le, le_refl _⟩
  · exact ⟨hs, le_refl _, not_lt.1 hc⟩

theorem faceSide0_run (hle : l 0 ≤ h 0 ∧ l 1 ≤ h 1) (b : Con) (hb : b ≠ .free) (s : FaceSt K) (hs : FaceInv A y l h s) :
    let c := posF l h 0 ![.free, b] 1
    let s' := faceSide0 A y (l 0) (h 0) c (fl ![.free, b]) s
    FaceInv A y l h s' ∧ s'.v ≤ s.v ∧ (0 ≤ ((y 0 - A 1 * c) / A 0 - l 0) * (h 0 - (y 0 - A 1 * c) / A 0) → s'.v ≤ evalF A y ((y 0 - A 1 * c) / A 0) c) := by
  intro c s'
  have e : ∀ dr : Fin 2 → K, posF l h dr ![.free, b] 1 = c := by intro dr; cases b <;> simp_all [posF, c]
  have e0 : ∀ dr : Fin 2 → K, posF l h dr ![.free, b] 0 = dr 0 := by intro dr; rfl
  have hc : l 1 ≤ c ∧ c ≤ h 1 := by cases b <;> simp_all [posF, c]
  have hs' : s' = faceSide0 A y (l 0) (h 0) c (fl ![.free, b]) s := rfl
  unfold faceSide0 at hs'
  dsimp only at hs'
  split_ifs at hs' with hcond
  · rw [hs']
    refine ⟨⟨![.free, b], rfl, ?_, ?_⟩, hcond.2.le, fun _ => le_refl _⟩
    · rw [e, e0]; rfl
    · rw [e, e0]
      refine ⟨?_, hc⟩
      show l 0 ≤ (y 0 - A 1 * c) / A 0 ∧ _
      rcases mul_nonneg_iff.1 hcond.1 with ⟨h1, h2⟩ | ⟨h1, h2⟩
      · exact ⟨by linarith, by show (y 0 - A 1 * c) / A 0 ≤ _; linarith⟩
      · have := hle.1
        exact ⟨by linarith, by show (y 0 - A 1 * c) / A 0 ≤ _; linarith⟩
  · rw [hs']
    exact ⟨hs, le_refl _, fun h1 => by by_contra h2; exact hcond ⟨h1, not_le.1 h2⟩⟩

theorem faceSide1_run (hle : l 0 ≤ h 0 ∧ l 1 ≤ h 1) (a : Con) (ha : a ≠ .free) (s : FaceSt K) (hs : FaceInv A y l h s) :
    let c := posF l h 0 ![a, .free] 0
    let s' := faceSide1 A y (l 1) (h 1) c (fl ![a, .free]) s
    FaceInv A y l h s' ∧ s'.v ≤ s.v ∧ (0 ≤ ((y 1 - A 1 * c) / A 2 - l 1) * (h 1 - (y 1 - A 1 * c) / A 2) → s'.v ≤ evalF A y c ((y 1 - A 1 * c) / A 2)) := by
  intro c s'
  have e : ∀ dr : Fin 2 → K, posF l h dr ![a, .free] 0 = c := by intro dr; cases a <;> simp_all [posF, c]
  have e0 : ∀ dr : Fin 2 → K, posF l h dr ![a, .free] 1 = dr 1 := by intro dr; rfl
  have hc : l 0 ≤ c ∧ c ≤ h 0 := by cases a <;> simp_all [posF, c]
  have hs' : s' = faceSide1 A y (l 1) (h 1) c (fl ![a, .free]) s := rfl
  unfold faceSide1 at hs'
  dsimp only at hs'
  split_ifs at hs' with hcond
  · rw [hs']
    refine ⟨⟨![a, .free], rfl, ?_, ?_⟩, hcond.2.le, fun _ => le_refl _⟩
    · rw [e, e0]; rfl
    · rw [e, e0]
      refine ⟨hc, ?_⟩
      show l 1 ≤ (y 1 - A 1 * c) / A 2 ∧ _
      rcases mul_nonneg_iff.1 hcond.1 with ⟨h1, h2⟩ | ⟨h1, h2⟩
      · exact ⟨by linarith, by show (y 1 - A 1 * c) / A 2 ≤ _; linarith⟩
      · have := hle.2
        exact ⟨by linarith, by show (y 1 - A 1 * c) / A 2 ≤ _; linarith⟩
  · rw [hs']
    exact ⟨hs, le_refl _, fun h1 => by by_contra h2; exact hcond ⟨h1, not_le.1 h2⟩⟩

/-- the best of the candidates is best on the boundary -/
theorem faceConstrained_run (hle : l 0 ≤ h 0 ∧ l 1 ≤ h 1) (dr : Fin 2 → K) :
    FaceInv A y l h (faceConstrained A y l h dr) ∧ ∀ a b, InRect l h a b → OnRect l h a b → (faceConstrained A y l h dr).v ≤ evalF A y a b := by
  obtain ⟨s0, hs0⟩ : ∃ s0 : FaceSt K, s0 = ⟨evalF A y (l 0) (l 1), 5, dr⟩ := ⟨_, rfl⟩
  have i0 : FaceInv A y l h s0 := ⟨![.lo, .lo], by rw [hs0]; rfl, by rw [hs0]; rfl, corner_in hle _ .lo .lo (by decide) (by decide)⟩
  have v0 : s0.v ≤ evalF A y (l 0) (l 1) := by rw [hs0]
  obtain ⟨s1, hs1⟩ : ∃ s1, s1 = faceCorner A y (h 0) (l 1) 6 s0 := ⟨_, rfl⟩
  obtain ⟨i1, m1, v1⟩ : FaceInv A y l h s1 ∧ s1.v ≤ s0.v ∧ s1.v ≤ evalF A y (h 0) (l 1) := by rw [hs1]; exact faceCorner_run hle .hi .lo (by decide) (by decide) s0 i0
  obtain ⟨s2, hs2⟩ : ∃ s2, s2 = faceCorner A y (l 0) (h 1) 9 s1 := ⟨_, rfl⟩
  obtain ⟨i2, m2, v2⟩ : FaceInv A y l h s2 ∧ s2.v ≤ s1.v ∧ s2.v ≤ evalF A y (l 0) (h 1) := by rw [hs2]; exact faceCorner_run hle .lo .hi (by decide) (by decide) s1 i1
  obtain ⟨s3, hs3⟩ : ∃ s3, s3 = faceCorner A y (h 0) (h 1) 10 s2 := ⟨_, rfl⟩
  obtain ⟨i3, m3, v3⟩ : FaceInv A y l h s3 ∧ s3.v ≤ s2.v ∧ s3.v ≤ evalF A y (h 0) (h 1) := by rw [hs3]; exact faceCorner_run hle .hi .hi (by decide) (by decide) s2 i2
  obtain ⟨s4, hs4⟩ : ∃ s4, s4 = if 0 < A 0 then faceSide0 A y (l 0) (h 0) (h 1) 8 (faceSide0 A y (l 0) (h 0) (l 1) 4 s3) else s3 := ⟨_, rfl⟩
  obtain ⟨i4, m4, v4, v4'⟩ : FaceInv A y l h s4 ∧ s4.v ≤ s3.v ∧
      (0 < A 0 → 0 ≤ ((y 0 - A 1 * l 1) / A 0 - l 0) * (h 0 - (y 0 - A 1 * l 1) / A 0) → s4.v ≤ evalF A y ((y 0 - A 1 * l 1) / A 0) (l 1)) ∧
      (0 < A 0 → 0 ≤ ((y 0 - A 1 * h 1) / A 0 - l 0) * (h 0 - (y 0 - A 1 * h 1) / A 0) → s4.v ≤ evalF A y ((y 0 - A 1 * h 1) / A 0) (h 1)) := by
    rw [hs4]
    split_ifs with hA
    · obtain ⟨a1, a2, a3⟩ := faceSide0_run (A := A) (y := y) hle .lo (by decide) s3 i3
      obtain ⟨b1, b2, b3⟩ := faceSide0_run (A := A) (y := y) hle .hi (by decide) _ a1
      exact ⟨b1, b2.trans a2, fun _ hh => b2.trans (a3 hh), fun _ hh => b3 hh⟩
    · exact ⟨i3, le_refl _, fun hh => absurd hh hA, fun hh => absurd hh hA⟩
  obtain ⟨s5, hs5⟩ : ∃ s5, s5 = if 0 < A 2 then faceSide1 A y (l 1) (h 1) (h 0) 2 (faceSide1 A y (l 1) (h 1) (l 0) 1 s4) else s4 := ⟨_, rfl⟩
  obtain ⟨i5, m5, v5, v5'⟩ : FaceInv A y l h s5 ∧ s5.v ≤ s4.v ∧
      (0 < A 2 → 0 ≤ ((y 1 - A 1 * l 0) / A 2 - l 1) * (h 1 - (y 1 - A 1 * l 0) / A 2) → s5.v ≤ evalF A y (l 0) ((y 1 - A 1 * l 0) / A 2)) ∧
      (0 < A 2 → 0 ≤ ((y 1 - A 1 * h 0) / A 2 - l 1) * (h 1 - (y 1 - A 1 * h 0) / A 2) → s5.v ≤ evalF A y (h 0) ((y 1 - A 1 * h 0) / A 2)) := by
    rw [hs5]
    split_ifs with hA
    · obtain ⟨a1, a2, a3⟩ := faceSide1_run (A := A) (y := y) hle .lo (by decide) s4 i4
      obtain ⟨b1, b2, b3⟩ := faceSide1_run (A := A) (y := y) hle .hi (by decide) _ a1
      exact ⟨b1, b2.trans a2, fun _ hh => b2.trans (a3 hh), fun _ hh => b3 hh⟩
    · exact ⟨i4, le_refl _, fun hh => absurd hh hA, fun hh => absurd hh hA⟩
  have hfin : faceConstrained A y l h dr = s5 := by rw [hs5, hs4, hs3, hs2, hs1, hs0]; rfl
  rw [hfin]
  have w3 : s5.v ≤ evalF A y (h 0) (h 1) := m5.trans (m4.trans v3)
  have w2 : s5.v ≤ evalF A y (l 0) (h 1) := m5.trans (m4.trans (m3.trans v2))
  have w1 : s5.v ≤ evalF A y (h 0) (l 1) := m5.trans (m4.trans (m3.trans (m2.trans v1)))
  have w0 : s5.v ≤ evalF A y (l 0) (l 1) := m5.trans (m4.trans (m3.trans (m2.trans (m1.trans v0))))
  refine ⟨i5, fun a b hin hon => ?_⟩
  rcases hon with rfl | rfl | rfl | rfl
  · exact side1_min w0 w2 v5 hin.2.1 hin.2.2
  · exact side1_min w1 w3 v5' hin.2.1 hin.2.2
  · exact side0_min w0 w1 (fun hA hh => m5.trans (v4 hA hh)) hin.1.1 hin.1.2
  · exact side0_min w2 w3 (fun hA hh => m5.trans (v4' hA hh)) hin.1.1 hin.1.2

/-! ## the result -/

theorem relLo_eq (tr r0 : K) : (relLo tr r0).1 = max (-tr) (-1 - r0) := by
  unfold relLo
  split_ifs with h
  · exact (max_eq_left (by linarith)).symm
  · exact (max_eq_right (by linarith)).symm

theorem relHi_eq (tr r0 : K) : (relHi tr r0).1 = min tr (1 - r0) := by
  unfold relHi
  split_ifs with h
  · exact (min_eq_left (by linarith)).symm
  · exact (min_eq_right (by linarith)).symm

theorem faceSetR_run (tr r0 dr : K) (w : Con) (d3 : Fin 3) (nf : U32) (z : K) (hz : z = match w with | .free => dr | .lo => (relLo tr r0).1 | .hi => (relHi tr r0).1) :
    ∃ w', faceSetR tr r0 dr (BitVec.ofNat 32 w.code) ((relLo tr r0).2, (relHi tr r0).2) d3 nf = (r0 + z, nf ||| fl3 (single3 d3 w')) ∧ (w' = .lo → r0 + z = -1) ∧ (w' = .hi → r0 + z = 1) := by
  have hfree : nf = nf ||| fl3 (single3 d3 .free) := by
    have : fl3 (single3 d3 .free) = 0 := by fin_cases d3 <;> decide
    rw [this]; simp
  subst hz
  cases w with
  | free =>
    exact ⟨.free, by rw [← hfree]; rfl, by simp, by simp⟩
  | lo =>
    unfold relLo
    split_ifs with hlo
    · refine ⟨.free, ?_, by simp, by simp⟩
      rw [← hfree]
      dsimp only
      have : ∀ b : Bool, faceSetR tr r0 dr (BitVec.ofNat 32 Con.lo.code) (false, b) d3 nf = (r0 + -tr, nf) := by
        intro b; cases b <;> rfl
      exact this _
    · refine ⟨.lo, ?_, fun _ => by ring, by simp⟩
      have : ∀ b : Bool, faceSetR tr r0 dr (BitVec.ofNat 32 Con.lo.code) (true, b) d3 nf = (-1, nf ||| ((1 : U32) <<< sh3 d3)) := by
        intro b; cases b <;> rfl
      dsimp only
      rw [this, low_fl3, show r0 + (-1 - r0) = -1 by ring]
  | hi =>
    unfold relHi
    split_ifs with hhi
    · refine ⟨.free, ?_, by simp, by simp⟩
      rw [← hfree]
      dsimp only
      have : ∀ b : Bool, faceSetR tr r0 dr (BitVec.ofNat 32 Con.hi.code) (b, false) d3 nf = (r0 + tr, nf) := by
        intro b; cases b <;> rfl
      exact this _
    · refine ⟨.hi, ?_, by simp, fun _ => by ring⟩
      have : ∀ b : Bool, faceSetR tr r0 dr (BitVec.ofNat 32 Con.hi.code) (b, true) d3 nf = (1, nf ||| ((2 : U32) <<< sh3 d3)) := by
        intro b; cases b <;> rfl
      dsimp only
      rw [this, high_fl3, show r0 + (1 - r0) = 1 by ring]

/-- the flags after a step on a face -/
theorem face_flags (dn : Fin 3) (v a b : Con) : fl3 (single3 dn v) ||| fl3 (single3 (dn + 1) a) ||| fl3 (single3 (dn + 2) b) = fl3 (setc3 (setc3 (single3 dn v) (dn + 1) a) (dn + 2) b) := by
  rw [or_fl3 _ _ _ (single3_other dn _ v (ne1 dn)), or_fl3]
  unfold setc3
  rw [if_neg (ne12 dn).symm]
  exact single3_other dn _ v (ne2 dn)

/-- a face point after the move `z` with constraints `a`, `b` -/
theorem faceFin_step (tol v : K) (r : Fin 2 → K) (dn : Fin 3) (w a b : Con) (p out : Pt K 3) (htr : 0 ≤ p.tr) (hr : RefPt3 p.r (single3 dn w)) (z : Fin 2 → K)
    (h0 : r 0 = p.r (dn + 1) + z 0) (h1 : r 1 = p.r (dn + 2) + z 1) (hz : InRect ![(relLo p.tr (p.r (dn + 1))).1, (relLo p.tr (p.r (dn + 2))).1] ![(relHi p.tr (p.r (dn + 1))).1, (relHi p.tr (p.r (dn + 2))).1] (z 0) (z 1))
    (ha : (a = .lo → r 0 = -1) ∧ (a = .hi → r 0 = 1)) (hb : (b = .lo → r 1 = -1) ∧ (b = .hi → r 1 = 1)) (hv : v ≤ 0) :
    ∃ c, c dn = w ∧ (faceFin tol v r (fl3 (single3 dn w) ||| fl3 (single3 (dn + 1) a) ||| fl3 (single3 (dn + 2) b)) (dn + 1) (dn + 2) dn p out).r dn = p.r dn ∧
      StepOk3 p out (faceFin tol v r (fl3 (single3 dn w) ||| fl3 (single3 (dn + 1) a) ||| fl3 (single3 (dn + 2) b)) (dn + 1) (dn + 2) dn p out) c (decide (|r 0 - p.r (dn + 1)| + |r 1 - p.r (dn + 2)| < tol)) := by
  rw [face_flags]
  set c := setc3 (setc3 (single3 dn w) (dn + 1) a) (dn + 2) b with hc
  have c0 : c dn = w := by rw [hc]; unfold setc3; rw [if_neg (ne2 dn).symm, if_neg (ne1 dn).symm]; exact single3_same dn w
  have c1 : c (dn + 1) = a := by rw [hc]; unfold setc3; rw [if_neg (ne12 dn), if_pos rfl]
  have c2 : c (dn + 2) = b := by rw [hc]; unfold setc3; rw [if_pos rfl]
  have hfl : fl3 c ||| (if |r 0 - p.r (dn + 1)| + |r 1 - p.r (dn + 2)| < tol then (64 : U32) else 0) = lowFlags3 c (decide (|r 0 - p.r (dn + 1)| + |r 1 - p.r (dn + 2)| < tol)) := by
    simp only [lowFlags3, fl3, decide_eq_true_eq]
  have r0 : (faceFin tol v r (fl3 c) (dn + 1) (dn + 2) dn p out).r dn = p.r dn := by
    show (if dn = dn + 2 then r 1 else if dn = dn + 1 then r 0 else if dn = dn then p.r dn else out.r dn) = _
    rw [if_neg (ne2 dn).symm, if_neg (ne1 dn).symm, if_pos rfl]
  have r1 : (faceFin tol v r (fl3 c) (dn + 1) (dn + 2) dn p out).r (dn + 1) = r 0 := by
    show (if dn + 1 = dn + 2 then r 1 else if dn + 1 = dn + 1 then r 0 else if dn + 1 = dn then p.r dn else out.r (dn + 1)) = _
    rw [if_neg (ne12 dn), if_pos rfl]
  have r2 : (faceFin tol v r (fl3 c) (dn + 1) (dn + 2) dn p out).r (dn + 2) = r 1 := by
    show (if dn + 2 = dn + 2 then r 1 else if dn + 2 = dn + 1 then r 0 else if dn + 2 = dn then p.r dn else out.r (dn + 2)) = _
    rw [if_pos rfl]
  obtain ⟨⟨z1, z2⟩, z3, z4⟩ := hz
  change (relLo p.tr (p.r (dn + 1))).1 ≤ z 0 at z1
  change z 0 ≤ (relHi p.tr (p.r (dn + 1))).1 at z2
  change (relLo p.tr (p.r (dn + 2))).1 ≤ z 1 at z3
  change z 1 ≤ (relHi p.tr (p.r (dn + 2))).1 at z4
  rw [relLo_eq] at z1 z3
  rw [relHi_eq] at z2 z4
  have z1 := max_le_iff.1 z1
  have z3 := max_le_iff.1 z3
  have z2 := le_min_iff.1 z2
  have z4 := le_min_iff.1 z4
  refine ⟨c, c0, r0, ?_, ?_, ?_, ?_, ?_, rfl, rfl, rfl, rfl, rfl⟩
  · show ((fl3 c ||| (if |r 0 - p.r (dn + 1)| + |r 1 - p.r (dn + 2)| < tol then (64 : U32) else 0)) ||| (p.flags <<< 7)) &&& 0x7f = _
    rw [hfl]; exact (flags_parts3 _ _ _).1
  · show (((fl3 c ||| (if |r 0 - p.r (dn + 1)| + |r 1 - p.r (dn + 2)| < tol then (64 : U32) else 0)) ||| (p.flags <<< 7)) >>> 7) &&& 0x7f = _
    rw [hfl]; exact (flags_parts3 _ _ _).2
  · intro e
    rcases fin3_cases dn e with rfl | rfl | rfl
    · rw [r0, c0]
      have := hr e
      rw [single3_same] at this; exact this
    · rw [r1, c1]
      exact ⟨by rw [h0]; linarith, by rw [h0]; linarith, ha⟩
    · rw [r2, c2]
      exact ⟨by rw [h1]; linarith, by rw [h1]; linarith, hb⟩
  · intro e
    rcases fin3_cases dn e with rfl | rfl | rfl
    · rw [r0, sub_self, abs_zero]; exact htr
    · rw [r1, h0, add_sub_cancel_left]; exact abs_le.2 ⟨by linarith, by linarith⟩
    · rw [r2, h1, add_sub_cancel_left]; exact abs_le.2 ⟨by linarith, by linarith⟩
  · show 0 ≤ -2 * v
    linarith

theorem newtonFace_step (tol : K) (J : Fin 3 → Fin 3 → K) (rhes resid : Fin 3 → K) (dn : Fin 3) (w : Con) (p out : Pt K 3) (htr : 0 ≤ p.tr) (hr : RefPt3 p.r (single3 dn w)) :
    let A : Fin 3 → K := ![gram J (dn + 1) (dn + 1) - rhes 0, gram J (dn + 1) (dn + 2) - rhes 1, gram J (dn + 2) (dn + 2) - rhes 2]
    let y : Fin 2 → K := ![yAt3 J resid (dn + 1), yAt3 J resid (dn + 2)]
    let p' := newtonFace tol J rhes resid (dn + 1) (dn + 2) dn (fl3 (single3 dn w)) p out
    ∃ c, c dn = w ∧ p'.r dn = p.r dn ∧ StepOk3 p out p' c (decide (|p'.r (dn + 1) - p.r (dn + 1)| + |p'.r (dn + 2) - p.r (dn + 2)| < tol)) ∧ p'.dist2p = -2 * evalF A y (p'.r (dn + 1) - p.r (dn + 1)) (p'.r (dn + 2) - p.r (dn + 2)) ∧
      ∀ a b, |a| ≤ p.tr → |b| ≤ p.tr → -1 ≤ p.r (dn + 1) + a → p.r (dn + 1) + a ≤ 1 → -1 ≤ p.r (dn + 2) + b → p.r (dn + 2) + b ≤ 1 →
        evalF A y (p'.r (dn + 1) - p.r (dn + 1)) (p'.r (dn + 2) - p.r (dn + 2)) ≤ evalF A y a b := by
  intro A y p'
  set l : Fin 2 → K := ![(relLo p.tr (p.r (dn + 1))).1, (relLo p.tr (p.r (dn + 2))).1] with hl
  set h : Fin 2 → K := ![(relHi p.tr (p.r (dn + 1))).1, (relHi p.tr (p.r (dn + 2))).1] with hh
  have hr1 := hr (dn + 1); have hr2 := hr (dn + 2)
  have hle : ∀ e, -1 ≤ p.r e → p.r e ≤ 1 → (relLo p.tr (p.r e)).1 ≤ 0 ∧ 0 ≤ (relHi p.tr (p.r e)).1 := by
    intro e h1 h2
    rw [relLo_eq, relHi_eq]
    exact ⟨max_le (by linarith) (by linarith), le_min htr (by linarith)⟩
  have o1 := hle (dn + 1) hr1.1 hr1.2.1
  have o2 := hle (dn + 2) hr2.1 hr2.2.1
  have hzero : InRect l h 0 0 := ⟨o1, o2⟩
  have hlh : l 0 ≤ h 0 ∧ l 1 ≤ h 1 := ⟨o1.1.trans o1.2, o2.1.trans o2.2⟩
  have hadm : ∀ a b, |a| ≤ p.tr → |b| ≤ p.tr → -1 ≤ p.r (dn + 1) + a → p.r (dn + 1) + a ≤ 1 → -1 ≤ p.r (dn + 2) + b → p.r (dn + 2) + b ≤ 1 → InRect l h a b := by
    intro a b h1 h2 h3 h4 h5 h6
    have h1 := abs_le.1 h1
    have h2 := abs_le.1 h2
    refine ⟨⟨?_, ?_⟩, ?_, ?_⟩
    · show (relLo p.tr (p.r (dn + 1))).1 ≤ a
      rw [relLo_eq]; exact max_le h1.1 (by linarith)
    · show a ≤ (relHi p.tr (p.r (dn + 1))).1
      rw [relHi_eq]; exact le_min h1.2 (by linarith)
    · show (relLo p.tr (p.r (dn + 2))).1 ≤ b
      rw [relLo_eq]; exact max_le h2.1 (by linarith)
    · show b ≤ (relHi p.tr (p.r (dn + 2))).1
      rw [relHi_eq]; exact le_min h2.2 (by linarith)
  have hE0 : evalF A y 0 0 = 0 := by unfold evalF; ring
  have hfree : ∀ d : Fin 3, fl3 (single3 d .free) = 0 := by intro d; fin_cases d <;> decide
  have hz0 : ∀ u : U32, u ||| 0 = u := fun u => BitVec.or_zero
  -- reduce to a move `z`, its constraints and minimality
  suffices hsuf : ∃ (z r : Fin 2 → K) (a b : Con), p' = faceFin tol (evalF A y (z 0) (z 1)) r (fl3 (single3 dn w) ||| fl3 (single3 (dn + 1) a) ||| fl3 (single3 (dn + 2) b)) (dn + 1) (dn + 2) dn p out ∧
      r 0 = p.r (dn + 1) + z 0 ∧ r 1 = p.r (dn + 2) + z 1 ∧ InRect l h (z 0) (z 1) ∧ ((a = .lo → r 0 = -1) ∧ (a = .hi → r 0 = 1)) ∧ ((b = .lo → r 1 = -1) ∧ (b = .hi → r 1 = 1)) ∧
      ∀ a b, InRect l h a b → evalF A y (z 0) (z 1) ≤ evalF A y a b by
    obtain ⟨z, r, a, b, e, h0, h1, hz, ha, hb, hmin⟩ := hsuf
    have hv := hmin 0 0 hzero
    rw [hE0] at hv
    obtain ⟨c, g1, g2, g3⟩ := faceFin_step tol (evalF A y (z 0) (z 1)) r dn w a b p out htr hr z h0 h1 hz ha hb hv
    rw [← e] at g2 g3
    have r1 : p'.r (dn + 1) = r 0 := by
      rw [e]
      show (if dn + 1 = dn + 2 then r 1 else if dn + 1 = dn + 1 then r 0 else if dn + 1 = dn then p.r dn else out.r (dn + 1)) = _
      rw [if_neg (ne12 dn), if_pos rfl]
    have r2 : p'.r (dn + 2) = r 1 := by
      rw [e]
      show (if dn + 2 = dn + 2 then r 1 else if dn + 2 = dn + 1 then r 0 else if dn + 2 = dn then p.r dn else out.r (dn + 2)) = _
      rw [if_pos rfl]
    have q1 : p'.r (dn + 1) - p.r (dn + 1) = z 0 := by rw [r1, h0]; ring
    have q2 : p'.r (dn + 2) - p.r (dn + 2) = z 1 := by rw [r2, h1]; ring
    refine ⟨c, g1, g2, by rw [r1, r2]; exact g3, ?_, fun a b b1 b2 b3 b4 b5 b6 => ?_⟩
    · rw [q1, q2, e]; rfl
    · rw [q1, q2]; exact hmin a b (hadm a b b1 b2 b3 b4 b5 b6)
  -- the run
  let l' : Fin 2 → K := fun d => (relLo p.tr ((![p.r (dn + 1), p.r (dn + 2)] : Fin 2 → K) d)).1
  let h' : Fin 2 → K := fun d => (relHi p.tr ((![p.r (dn + 1), p.r (dn + 2)] : Fin 2 → K) d)).1
  let dr : Fin 2 → K := if A 0 + A 2 ≤ 0 ∨ A 0 * A 2 ≤ A 1 * A 1 then 0 else linSolveSym2 A y
  by_cases hcond : ¬(A 0 + A 2 ≤ 0 ∨ A 0 * A 2 ≤ A 1 * A 1) ∧ 0 ≤ (dr 0 - l' 0) * (h' 0 - dr 0) ∧ 0 ≤ (dr 1 - l' 1) * (h' 1 - dr 1)
  · have hp' : p' = faceFin tol (evalF A y (dr 0) (dr 1)) (fun d => (![p.r (dn + 1), p.r (dn + 2)] : Fin 2 → K) d + dr d) (fl3 (single3 dn w)) (dn + 1) (dn + 2) dn p out := if_pos hcond
    obtain ⟨hi, c1, c2⟩ := hcond
    have hdr : dr = linSolveSym2 A y := if_neg hi
    push Not at hi
    refine ⟨dr, _, .free, .free, by rw [hfree, hfree, hz0, hz0]; exact hp', rfl, rfl, ⟨?_, ?_⟩, ⟨by simp, by simp⟩, ⟨by simp, by simp⟩, fun a b _ => ?_⟩
    · have := hlh.1
      change 0 ≤ (dr 0 - l 0) * (h 0 - dr 0) at c1
      rcases mul_nonneg_iff.1 c1 with ⟨q1, q2⟩ | ⟨q1, q2⟩ <;> constructor <;> linarith
    · have := hlh.2
      change 0 ≤ (dr 1 - l 1) * (h 1 - dr 1) at c2
      rcases mul_nonneg_iff.1 c2 with ⟨q1, q2⟩ | ⟨q1, q2⟩ <;> constructor <;> linarith
    · rw [hdr, evalF_from_min (by intro h0; linarith [hi.2]) a b]
      have := curv_nonneg (A := A) (not_le.2 hi.1) (not_le.2 hi.2) (a - linSolveSym2 A y 0) (b - linSolveSym2 A y 1)
      linarith
  · let s := faceConstrained A y l' h' dr
    let ra := faceSetR p.tr (p.r (dn + 1)) (s.dr 0) (s.i &&& 3) ((relLo p.tr (p.r (dn + 1))).2, (relHi p.tr (p.r (dn + 1))).2) (dn + 1) (fl3 (single3 dn w))
    let rb := faceSetR p.tr (p.r (dn + 2)) (s.dr 1) (s.i >>> 2 &&& 3) ((relLo p.tr (p.r (dn + 2))).2, (relHi p.tr (p.r (dn + 2))).2) (dn + 2) ra.2
    have hp' : p' = faceFin tol s.v ![ra.1, rb.1] rb.2 (dn + 1) (dn + 2) dn p out := if_neg hcond
    have hl' : l' = l := by funext d; fin_cases d <;> rfl
    have hh' : h' = h := by funext d; fin_cases d <;> rfl
    have hs : s = faceConstrained A y l h dr := by show faceConstrained A y l' h' dr = _; rw [hl', hh']
    rw [hl', hh'] at hcond
    obtain ⟨⟨wf, i1, i2, i3⟩, hbest⟩ := faceConstrained_run (A := A) (y := y) (l := l) (h := h) hlh dr
    rw [← hs] at i1 i2 i3 hbest
    have k0 : s.i &&& 3 = BitVec.ofNat 32 (wf 0).code := by rw [i1]; exact conAt_fl wf 0
    have k1 : s.i >>> 2 &&& 3 = BitVec.ofNat 32 (wf 1).code := by rw [i1]; exact conAt_fl wf 1
    obtain ⟨a, ea, ha⟩ := faceSetR_run p.tr (p.r (dn + 1)) (s.dr 0) (wf 0) (dn + 1) (fl3 (single3 dn w)) (posF l h s.dr wf 0) rfl
    have ea : ra = (p.r (dn + 1) + posF l h s.dr wf 0, fl3 (single3 dn w) ||| fl3 (single3 (dn + 1) a)) := by rw [← ea, ← k0]
    obtain ⟨b, eb, hb⟩ := faceSetR_run p.tr (p.r (dn + 2)) (s.dr 1) (wf 1) (dn + 2) ra.2 (posF l h s.dr wf 1) rfl
    have eb : rb = (p.r (dn + 2) + posF l h s.dr wf 1, ra.2 ||| fl3 (single3 (dn + 2) b)) := by rw [← eb, ← k1]
    refine ⟨posF l h s.dr wf, ![ra.1, rb.1], a, b, ?_, ?_, ?_, i3, ?_, ?_, fun a b hab => ?_⟩
    · rw [hp', ← i2, show rb.2 = fl3 (single3 dn w) ||| fl3 (single3 (dn + 1) a) ||| fl3 (single3 (dn + 2) b) by rw [eb, ea]]
    · show ra.1 = _; rw [ea]
    · show rb.1 = _; rw [eb]
    · show (_ → ra.1 = -1) ∧ (_ → ra.1 = 1); rw [ea]; exact ha
    · show (_ → rb.1 = -1) ∧ (_ → rb.1 = 1); rw [eb]; exact hb
    · rw [← i2]
      have : ∃ a' b', InRect l h a' b' ∧ OnRect l h a' b' ∧ evalF A y a' b' ≤ evalF A y a b := by
        by_cases hi : A 0 + A 2 ≤ 0 ∨ A 0 * A 2 ≤ A 1 * A 1
        · exact indef_exit A y l h a b hab hi
        · have hi' := hi
          have hdr : dr = linSolveSym2 A y := if_neg hi
          push Not at hi'
          refine def_exit l h (not_le.2 hi'.1) (not_le.2 hi'.2) (fun hin => hcond ⟨hi, ?_, ?_⟩) a b hab
          · rw [hdr]; exact mul_nonneg (by linarith [hin.1.1]) (by linarith [hin.1.2])
          · rw [hdr]; exact mul_nonneg (by linarith [hin.2.1]) (by linarith [hin.2.2])
      obtain ⟨a', b', q1, q2, q3⟩ := this
      exact (hbest a' b' q1 q2).trans q3

/-! ## `newton_edge` -/

theorem edgeChoice3_eq (A y tr oldr : K) (flags : U32) (de : Fin 3) : (edgeChoice3 A y tr oldr flags de).dr = (edgeChoice A y tr oldr 0 0).dr ∧ (edgeChoice3 A y tr oldr flags de).nr = (edgeChoice A y tr oldr 0 0).nr := by
  unfold edgeChoice3 edgeChoice candLo3 candHi3 candLo candHi
  split_ifs <;> first | exact ⟨rfl, rfl⟩ | (exfalso; simp_all; done)

theorem edgeChoice3_flags (A y tr oldr : K) (c : Fin 3 → Con) (de : Fin 3) (hc : c de = .free) :
    ∃ w, fl3 c ||| (edgeChoice3 A y tr oldr (fl3 c) de).flags = fl3 (setc3 c de w) ∧ (w = .lo → (edgeChoice3 A y tr oldr (fl3 c) de).nr = -1) ∧ (w = .hi → (edgeChoice3 A y tr oldr (fl3 c) de).nr = 1) := by
  have h0 : fl3 c ||| 0 = fl3 (setc3 c de .free) := by
    rw [show fl3 c ||| 0 = fl3 c from BitVec.or_zero]; congr 1; funext e; unfold setc3; split_ifs with h
    · rw [h, hc]
    · rfl
  have h1 : fl3 c ||| (fl3 c ||| ((1 : U32) <<< sh3 de)) = fl3 (setc3 c de .lo) := by rw [← BitVec.or_assoc, BitVec.or_self, low_fl3, or_fl3 c de .lo hc]
  have h2 : fl3 c ||| (fl3 c ||| ((2 : U32) <<< sh3 de)) = fl3 (setc3 c de .hi) := by rw [← BitVec.or_assoc, BitVec.or_self, high_fl3, or_fl3 c de .hi hc]
  unfold edgeChoice3
  split_ifs
  · exact ⟨.free, h0, by simp, by simp⟩
  · unfold candHi3
    split_ifs
    · exact ⟨.free, h0, by simp, by simp⟩
    · exact ⟨.hi, h2, by simp, fun _ => rfl⟩
  · unfold candLo3
    split_ifs
    · exact ⟨.free, h0, by simp, by simp⟩
    · exact ⟨.lo, h1, fun _ => rfl, by simp⟩

theorem newtonEdge3_step (tol : K) (J : Fin 3 → Fin 3 → K) (rhes : K) (resid : Fin 3 → K) (de : Fin 3) (c : Fin 3 → Con) (hc : c de = .free) (p out : Pt K 3) (htr : 0 ≤ p.tr) (hr : RefPt3 p.r c) :
    let p' := newtonEdge3 tol J rhes resid de (de + 1) (de + 2) (fl3 c) p out
    ∃ w, p'.r (de + 1) = p.r (de + 1) ∧ p'.r (de + 2) = p.r (de + 2) ∧ StepOk3 p out p' (setc3 c de w) (decide (|p'.r de - p.r de| < tol)) ∧ p'.dist2p = -evalQ (gram J de de - rhes) (yAt3 J resid de) (p'.r de - p.r de) ∧
      ∀ z, |z| ≤ p.tr → -1 ≤ p.r de + z → p.r de + z ≤ 1 → evalQ (gram J de de - rhes) (yAt3 J resid de) (p'.r de - p.r de) ≤ evalQ (gram J de de - rhes) (yAt3 J resid de) z := by
  intro p'
  have hm := edgeChoice_min (gram J de de - rhes) (yAt3 J resid de) p.tr (p.r de) 0 0 htr ⟨(hr _).1, (hr _).2.1⟩
  obtain ⟨w, hw, hwl, hwh⟩ := edgeChoice3_flags (gram J de de - rhes) (yAt3 J resid de) p.tr (p.r de) c de hc
  obtain ⟨q1, q2⟩ := edgeChoice3_eq (gram J de de - rhes) (yAt3 J resid de) p.tr (p.r de) (fl3 c) de
  rw [← q1, ← q2] at hm
  obtain ⟨ch, hch⟩ : ∃ ch, ch = edgeChoice3 (gram J de de - rhes) (yAt3 J resid de) p.tr (p.r de) (fl3 c) de := ⟨_, rfl⟩
  rw [← hch] at hm hw hwl hwh
  obtain ⟨⟨m1, m2, m3⟩, m4, m5⟩ := hm
  have hp' : p' = { out with
      r := fun d => if d = de + 2 then p.r (de + 2) else if d = de + 1 then p.r (de + 1) else if d = de then ch.nr else out.r d
      dist2p := -(evalQ (gram J de de - rhes) (yAt3 J resid de) ch.dr)
      flags := fl3 c ||| (ch.flags ||| (if |ch.dr| < tol then (64 : U32) else 0)) ||| (p.flags <<< 7) } := by rw [hch]; rfl
  have hfl : fl3 c ||| (ch.flags ||| (if |ch.dr| < tol then (64 : U32) else 0)) = lowFlags3 (setc3 c de w) (decide (|ch.dr| < tol)) := by
    rw [← BitVec.or_assoc, hw]; simp only [lowFlags3, fl3, decide_eq_true_eq]
  have r0 : p'.r de = ch.nr := by
    rw [hp']; dsimp only; rw [if_neg (ne2 de).symm, if_neg (ne1 de).symm, if_pos rfl]
  have r1 : p'.r (de + 1) = p.r (de + 1) := by
    rw [hp']; dsimp only; rw [if_neg (ne12 de), if_pos rfl]
  have r2 : p'.r (de + 2) = p.r (de + 2) := by
    rw [hp']; dsimp only; rw [if_pos rfl]
  have c0 : setc3 c de w de = w := by simp [setc3]
  have c1 : setc3 c de w (de + 1) = c (de + 1) := by unfold setc3; rw [if_neg (ne1 de)]
  have c2 : setc3 c de w (de + 2) = c (de + 2) := by unfold setc3; rw [if_neg (ne2 de)]
  have hd : p'.r de - p.r de = ch.dr := by rw [r0, m4]; ring
  rw [hd]
  refine ⟨w, r1, r2, ⟨?_, ?_, ?_, ?_, ?_, ?_⟩, by rw [hp'], fun z a1 a2 a3 => m5 z a1 a2 a3⟩
  · rw [hp']; dsimp only; rw [hfl]; exact (flags_parts3 _ _ _).1
  · rw [hp']; dsimp only; rw [hfl]; exact (flags_parts3 _ _ _).2
  · intro e
    rcases fin3_cases de e with rfl | rfl | rfl
    · rw [r0, c0, m4]
      exact ⟨m2, m3, fun h => by rw [← m4]; exact hwl h, fun h => by rw [← m4]; exact hwh h⟩
    · rw [r1, c1]; exact hr _
    · rw [r2, c2]; exact hr _
  · intro e
    rcases fin3_cases de e with rfl | rfl | rfl
    · rw [hd]; exact m1
    · rw [r1, sub_self, abs_zero]; exact htr
    · rw [r2, sub_self, abs_zero]; exact htr
  · rw [hp']; dsimp only
    have := m5 0 (by rw [abs_zero]; exact htr) (by rw [add_zero]; exact (hr _).1) (by rw [add_zero]; exact (hr _).2.1)
    rw [show evalQ (gram J de de - rhes) (yAt3 J resid de) 0 = 0 by unfold evalQ; ring] at this
    linarith
  · rw [hp']; exact ⟨rfl, rfl, rfl, rfl, rfl⟩

end Gslib.El
