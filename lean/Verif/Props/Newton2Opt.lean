import Verif.Spec.Newton2Opt
import Verif.Props.Newton2

/-!
# C56: what convergence of the point search means (2D)
-/

namespace Gslib.Props
open Gslib.El Gslib.Spec

section
variable {K : Type} [Field K] [LinearOrder K] [IsStrictOrderedRing K]

theorem descent_y (E : ElMap K) (x r : Fin 2 → K) (d : Fin 2) : E.descent x r d = yAt (E.J r) (E.resid x r) d := by
  unfold ElMap.descent yAt ElMap.resid col0 col1
  simp
  ring

theorem scale_y (E : ElMap K) (x r : Fin 2 → K) (d : Fin 2) : E.scale x r d = |MM (E.J r) d 0| + |MM (E.J r) d 1| + |E.resid x r 0 * E.H r (col0 d) + E.resid x r 1 * E.H r (col1 d)| := by
  rfl

theorem y_zero (jac : Fin 4 → K) (resid dr : Fin 2 → K) (d : Fin 2) : yAt jac resid d = yAt jac (resAt jac resid dr) d + (MM jac d 0 * dr 0 + MM jac d 1 * dr 1) := by
  unfold yAt resAt MM col0 col1
  simp
  ring

theorem mul_small {a b t : K} (h : |b| ≤ t) : |a * b| ≤ |a| * t := by
  rw [abs_mul]; exact mul_le_mul_of_nonneg_left h (abs_nonneg a)

/-- the converged flag of a step -/
theorem conv_iff (p out p' : Pt K 2) (c : Fin 2 → Con) (C : Bool) (h : StepOk p out p' c C) : conv2 p'.flags = C := by
  have h1 : conv2 p'.flags = (p'.flags &&& 0x1f).getLsbD 4 := by
    rw [BitVec.getLsbD_and]; unfold conv2; simp
  rw [h1, h.flags]
  unfold lowFlags
  generalize c 0 = a; generalize c 1 = b
  cases a <;> cases b <;> cases C <;> decide

/-- newton_area -/
theorem area_opt (E : ElMap K) (fuel : Nat) (hf : 2 ≤ fuel) (tol : K) (p out p' : Pt K 2) (hdet : E.J p.r 0 * E.J p.r 3 - E.J p.r 1 * E.J p.r 2 ≠ 0) (htr : 0 ≤ p.tr) (ht : tol ≤ p.tr)
    (hr : ∀ d, -1 ≤ p.r d ∧ p.r d ≤ 1) (e : newtonArea fuel tol (E.J p.r) (E.resid p.x p.r) p out = some p') (hc : conv2 p'.flags = true) :
    NearOpt E p.x p.r p'.r tol ∨ ((∀ d, p'.r d = 1 ∨ p'.r d = -1) ∧ (∃ d, p'.r d = p.r d) ∧ (∀ d, |p'.r d - p.r d| < tol) ∧ ((∀ d, p'.r d = p.r d) → ∃ d, 0 < E.descent p.x p.r d * p.r d)) := by
  obtain ⟨p'', c, dr, e', hpr, hs, -, ha⟩ := newtonArea_step fuel hf tol (E.J p.r) (E.resid p.x p.r) p out hdet htr hr
  rw [e] at e'
  obtain rfl := Option.some.inj e'
  rw [conv_iff _ _ _ _ _ hs, decide_eq_true_eq] at hc
  have hd : ∀ d, |dr d| < tol := by
    intro d
    have := abs_nonneg (dr 0); have := abs_nonneg (dr 1)
    fin_cases d
    · show |dr 0| < tol; linarith
    · show |dr 1| < tol; linarith
  have hlo : ∀ d, c d = .lo → p'.r d = -1 := by
    intro d hv
    have h1 := ha.held d (by rw [hv]; simp)
    rw [hv] at h1
    have h1 : p.r d + dr d = (areaBox p.tr p.r).lo d := h1
    rw [areaBox_lo] at h1
    rw [hpr]; dsimp only
    rcases max_choice (-1) (p.r d - p.tr) with h | h
    · rw [h1, h]
    · rw [h] at h1
      have := (abs_lt.1 (hd d)).1
      exfalso; linarith
  have hhi : ∀ d, c d = .hi → p'.r d = 1 := by
    intro d hv
    have h1 := ha.held d (by rw [hv]; simp)
    rw [hv] at h1
    have h1 : p.r d + dr d = (areaBox p.tr p.r).hi d := h1
    rw [areaBox_hi] at h1
    rw [hpr]; dsimp only
    rcases min_choice 1 (p.r d + p.tr) with h | h
    · rw [h1, h]
    · rw [h] at h1
      have := (abs_lt.1 (hd d)).2
      exfalso; linarith
  have hb : ∀ d, |MM (E.J p.r) d 0 * dr 0 + MM (E.J p.r) d 1 * dr 1| ≤ E.scale p.x p.r d * tol := by
    intro d
    rw [scale_y, add_mul, add_mul]
    have ht0 : 0 ≤ tol := (abs_nonneg _).trans (hd 0).le
    have h1 := mul_small (a := MM (E.J p.r) d 0) (hd 0).le
    have h2 := mul_small (a := MM (E.J p.r) d 1) (hd 1).le
    have h3 : 0 ≤ |E.resid p.x p.r 0 * E.H p.r (col0 d) + E.resid p.x p.r 1 * E.H p.r (col1 d)| * tol := mul_nonneg (abs_nonneg _) ht0
    exact (abs_add_le _ _).trans (by linarith)
  have key : (∀ d, c d ≠ .free → 0 ≤ sgn (c d) * yAt (E.J p.r) (resAt (E.J p.r) (E.resid p.x p.r) dr) d) → NearOpt E p.x p.r p'.r tol := by
    intro h d
    rw [descent_y, y_zero (E.J p.r) (E.resid p.x p.r) dr d]
    have hb := abs_le.1 (hb d)
    cases hv : c d with
    | free => rw [ha.free d hv, zero_add]; exact ⟨fun _ => hb.2, fun _ => hb.1⟩
    | lo =>
      have := h d (by rw [hv]; simp)
      rw [hv] at this
      have : 0 ≤ -1 * yAt (E.J p.r) (resAt (E.J p.r) (E.resid p.x p.r) dr) d := this
      exact ⟨fun _ => by linarith, fun h => absurd (hlo d hv) (ne_of_gt h)⟩
    | hi =>
      have := h d (by rw [hv]; simp)
      rw [hv] at this
      have : 0 ≤ 1 * yAt (E.J p.r) (resAt (E.J p.r) (E.resid p.x p.r) dr) d := this
      exact ⟨fun h => absurd (hhi d hv) (ne_of_lt h), fun _ => by linarith⟩
  by_cases hall : ∀ d, c d ≠ .free
  · by_cases hz : ∃ d, dr d = 0
    · right
      refine ⟨fun d => ?_, hz.imp fun d h => by rw [hpr]; dsimp only; rw [h, add_zero], fun d => by rw [hpr]; dsimp only; rw [add_sub_cancel_left]; exact hd d, fun hsame => ?_⟩
      · rcases con_cases _ (hall d) with h | h
        · exact Or.inr (hlo d h)
        · exact Or.inl (hhi d h)
      · obtain ⟨d, h⟩ := ha.con2 hall
        refine ⟨d, ?_⟩
        have h0 : dr = 0 := by
          funext d
          have := hsame d
          rw [hpr] at this; dsimp only at this
          show dr d = 0
          linarith
        have h1 : yAt (E.J p.r) (resAt (E.J p.r) (E.resid p.x p.r) dr) d = E.descent p.x p.r d := by
          rw [descent_y, y_zero (E.J p.r) (E.resid p.x p.r) dr d, h0]; simp
        have h2 : (sgn (c d) : K) = p.r d := by
          rw [← hsame d]
          rcases con_cases _ (hall d) with h | h
          · rw [hlo d h, h]; rfl
          · rw [hhi d h, h]; rfl
        rw [h1, h2, mul_comm] at h
        exact h
    · left
      push Not at hz
      exact key fun d hv => ha.con d hv (hz d)
  · left
    push Not at hall
    obtain ⟨f, hf⟩ := hall
    refine key fun d hv => ha.con1 d hv ?_
    rcases eq_or_oth f d with rfl | rfl
    · exact absurd hf hv
    · rw [oth_oth]; exact hf

/-- where a parabola is lowest on an interval its slope points out of the interval -/
theorem slope_right {A y l h m : K} (hl : l ≤ m) (hm : m < h) (hmin : ∀ z, l ≤ z → z ≤ h → evalQ A y m ≤ evalQ A y z) : y ≤ A * m := by
  by_contra hy
  push Not at hy
  have key : ∀ z, m < z → z ≤ h → 2 * y ≤ (z + m) * A := by
    intro z h1 h2
    have h3 := hmin z (hl.trans h1.le) h2
    have h4 : evalQ A y z - evalQ A y m = (z - m) * ((z + m) * A - 2 * y) := by unfold evalQ; ring
    by_contra h5
    push Not at h5
    have := mul_pos_of_neg_of_neg (show m - z < 0 by linarith) (show (z + m) * A - 2 * y < 0 by linarith)
    linarith
  rcases le_or_gt A 0 with hA | hA
  · have := key h hm le_rfl
    nlinarith
  · have h1 : m < y / A := by rw [lt_div_iff₀ hA, mul_comm]; exact hy
    have h2 := key (min h (y / A)) (lt_min hm h1) (min_le_left _ _)
    have h3 : min h (y / A) * A ≤ y := (mul_le_mul_of_nonneg_right (min_le_right _ _) hA.le).trans (by rw [div_mul_cancel₀ _ hA.ne'])
    linarith

theorem slope_left {A y l h m : K} (hl : l < m) (hm : m ≤ h) (hmin : ∀ z, l ≤ z → z ≤ h → evalQ A y m ≤ evalQ A y z) : A * m ≤ y := by
  have h1 := slope_right (A := A) (y := -y) (l := -h) (h := -l) (m := -m) (by linarith) (by linarith) fun z h1 h2 => by
    have := hmin (-z) (by linarith) (by linarith)
    unfold evalQ at this ⊢
    linarith [show (-m * A - 2 * -y) * -m = (m * A - 2 * y) * m by ring, show (z * A - 2 * -y) * z = (-z * A - 2 * y) * -z by ring]
  linarith

theorem edge_conv (tol : K) (jac : Fin 4 → K) (rhes : K) (resid : Fin 2 → K) (dn : Fin 2) (v : Con) (p out : Pt K 2) :
    conv2 (newtonEdge tol jac rhes resid (oth dn) dn (fl (single dn v)) p out).flags =
      decide (|(edgeChoice (jtj jac (oth dn) - rhes) (yAt jac resid (oth dn)) p.tr (p.r (oth dn)) (fl (single dn v)) (oth dn)).dr| < tol) := by
  obtain ⟨w, hw, -, -⟩ := edgeChoice_flags (jtj jac (oth dn) - rhes) (yAt jac resid (oth dn)) p.tr (p.r (oth dn)) dn v
  unfold newtonEdge
  dsimp only
  set ch := edgeChoice (jtj jac (oth dn) - rhes) (yAt jac resid (oth dn)) p.tr (p.r (oth dn)) (fl (single dn v)) (oth dn) with hch
  have hfl : fl (single dn v) ||| (ch.flags ||| (if |ch.dr| < tol then (16 : U32) else 0)) = lowFlags (setc (single dn v) (oth dn) w) (decide (|ch.dr| < tol)) := by
    rw [← BitVec.or_assoc, hw]; simp only [lowFlags, fl, decide_eq_true_eq]
  rw [hfl]
  have h1 : ∀ f : U32, conv2 f = (f &&& 0x1f).getLsbD 4 := fun f => by rw [BitVec.getLsbD_and]; unfold conv2; simp
  rw [h1, (flags_parts _ _ _).1]
  generalize setc (single dn v) (oth dn) w = c
  generalize decide (|ch.dr| < tol) = C
  unfold lowFlags
  generalize c 0 = a; generalize c 1 = b
  cases a <;> cases b <;> cases C <;> decide

/-- newton_edge -/
theorem edge_opt (E : ElMap K) (tol : K) (p out : Pt K 2) (dn : Fin 2) (v : Con) (htr : 0 ≤ p.tr) (ht : tol ≤ p.tr) (hr : RefPt p.r (single dn v)) (hv : v ≠ .free)
    (hy : 0 ≤ E.descent p.x p.r dn * p.r dn)
    (hc : conv2 (newtonEdge tol (E.J p.r) (E.resid p.x p.r 0 * E.H p.r (col0 (oth dn)) + E.resid p.x p.r 1 * E.H p.r (col1 (oth dn))) (E.resid p.x p.r) (oth dn) dn (fl (single dn v)) p out).flags = true) :
    NearOpt E p.x p.r (newtonEdge tol (E.J p.r) (E.resid p.x p.r 0 * E.H p.r (col0 (oth dn)) + E.resid p.x p.r 1 * E.H p.r (col1 (oth dn))) (E.resid p.x p.r) (oth dn) dn (fl (single dn v)) p out).r tol := by
  rw [edge_conv, decide_eq_true_eq] at hc
  set rhes := E.resid p.x p.r 0 * E.H p.r (col0 (oth dn)) + E.resid p.x p.r 1 * E.H p.r (col1 (oth dn)) with hrh
  obtain ⟨⟨m1, m2, m3⟩, m4, m5⟩ := edgeChoice_min (jtj (E.J p.r) (oth dn) - rhes) (yAt (E.J p.r) (E.resid p.x p.r) (oth dn)) p.tr (p.r (oth dn)) (fl (single dn v)) (oth dn) htr ⟨(hr _).1, (hr _).2.1⟩
  set ch := edgeChoice (jtj (E.J p.r) (oth dn) - rhes) (yAt (E.J p.r) (E.resid p.x p.r) (oth dn)) p.tr (p.r (oth dn)) (fl (single dn v)) (oth dn) with hch
  have hro : (newtonEdge tol (E.J p.r) rhes (E.resid p.x p.r) (oth dn) dn (fl (single dn v)) p out).r (oth dn) = ch.nr := by simp [newtonEdge, ← hch]
  have hrd : (newtonEdge tol (E.J p.r) rhes (E.resid p.x p.r) (oth dn) dn (fl (single dn v)) p out).r dn = p.r dn := by simp [newtonEdge, (oth_ne dn).symm]
  have ht0 : 0 < tol := lt_of_le_of_lt (abs_nonneg _) hc
  intro d
  have hsc : 0 ≤ E.scale p.x p.r d * tol := mul_nonneg (by rw [scale_y]; positivity) ht0.le
  rcases eq_or_oth dn d with rfl | rfl
  · rw [hrd]
    have h1 := hr d
    rw [single_same] at h1
    rcases con_cases v hv with rfl | rfl
    · rw [h1.2.2.1 rfl] at hy ⊢
      exact ⟨fun _ => by linarith, fun h => absurd h (lt_irrefl _)⟩
    · rw [h1.2.2.2 rfl] at hy ⊢
      exact ⟨fun h => absurd h (lt_irrefl _), fun _ => by linarith⟩
  · rw [hro, m4, descent_y]
    have hmin : ∀ z, max (-p.tr) (-1 - p.r (oth dn)) ≤ z → z ≤ min p.tr (1 - p.r (oth dn)) → evalQ (jtj (E.J p.r) (oth dn) - rhes) (yAt (E.J p.r) (E.resid p.x p.r) (oth dn)) ch.dr ≤ evalQ (jtj (E.J p.r) (oth dn) - rhes) (yAt (E.J p.r) (E.resid p.x p.r) (oth dn)) z := by
      intro z z1 z2
      have z3 := (le_max_left _ _).trans z1
      have z4 := (le_max_right _ _).trans z1
      have z5 := z2.trans (min_le_left _ _)
      have z6 := z2.trans (min_le_right _ _)
      exact m5 z (abs_le.2 ⟨z3, z5⟩) (by linarith) (by linarith)
    have hb := abs_le.1 m1
    have hc' := abs_lt.1 hc
    have hA : |(jtj (E.J p.r) (oth dn) - rhes) * ch.dr| ≤ E.scale p.x p.r (oth dn) * tol := by
      refine (mul_small hc.le).trans (mul_le_mul_of_nonneg_right ?_ ht0.le)
      have h2 : |jtj (E.J p.r) (oth dn) - rhes| ≤ |MM (E.J p.r) (oth dn) (oth dn)| + |rhes| := by
        rw [jtj_MM]; exact abs_sub _ _
      have h3 : |MM (E.J p.r) (oth dn) (oth dn)| ≤ |MM (E.J p.r) (oth dn) 0| + |MM (E.J p.r) (oth dn) 1| := by
        generalize oth dn = o
        rcases eq_or_oth 0 o with rfl | h
        · have := abs_nonneg (MM (E.J p.r) 0 1); linarith
        · obtain rfl : o = 1 := h
          have := abs_nonneg (MM (E.J p.r) 1 0); linarith
      rw [scale_y]; linarith
    have hA := abs_le.1 hA
    constructor
    · intro h
      have := slope_right (max_le hb.1 (by linarith)) (lt_min (by linarith) (by linarith)) hmin
      linarith
    · intro h
      have := slope_left (max_lt (by linarith) (by linarith)) (le_min hb.2 (by linarith)) hmin
      linarith

/-- **C56**: a step that ends the search. Either the present position was accepted; then, if the trust region is not smaller than the tolerance, the present position is a local minimum of the distance over the element up to the
tolerance, or the step stopped at a corner of the element (see `converged_not_nearest`: there the answer may be wrong). Or the present position was rejected and the decrease that had been predicted for it, from the position reported, was
below the tolerance. -/
theorem findpts_el_2_converged (E : ElMap K) (fuel : Nat) (hf : 2 ≤ fuel) (big tol : K) (htol0 : 0 ≤ tol) (htol : tol ≤ 2) (p : Pt K 2) (hE : Regular2 E big p.x) (hp : Good2 E big p) (hc : conv2 p.flags = false) :
    ∃ p', stepPt2 E fuel big tol p = some p' ∧ (conv2 p'.flags = true →
      (p'.oldr = some p.r ∧ p'.dist2 = E.dist2 p.x p.r ∧ (p.tr < tol ∨ NearOpt E p.x p.r p'.r tol ∨ StalledAtCorner p p')) ∨
      (p.oldr = some p'.r ∧ p'.dist2 = E.dist2 p.x p'.r ∧ p.dist2p < E.dist2 p.x p.r * tol)) := by
  obtain ⟨p', h1, -, -, -, h5⟩ := stepPt2_run E fuel hf big tol (big_nonneg E big p.x hE) hE.det p hE.big hp hc
  refine ⟨p', h1, fun hconv => ?_⟩
  obtain ⟨c, C, hfl, href, htr, hh⟩ := id hp
  have hC : C = false := by
    have h2 : conv2 p.flags = (p.flags &&& 0x1f).getLsbD 4 := by rw [BitVec.getLsbD_and]; unfold conv2; simp
    rw [h2, hfl] at hc
    cases C with
    | false => rfl
    | true =>
      exfalso
      revert hc
      unfold lowFlags
      generalize c 0 = a; generalize c 1 = b
      cases a <;> cases b <;> decide
  subst hC
  have hr : ∀ d, -1 ≤ p.r d ∧ p.r d ≤ 1 := fun d => ⟨(href d).1, (href d).2.1⟩
  rcases h5 with ⟨hacc, ho, hd2, -⟩ | ⟨hrej, ho, hd0, hd2, -⟩
  · left
    refine ⟨ho, hd2, ?_⟩
    by_cases ht : p.tr < tol
    · exact Or.inl ht
    right
    push Not at ht
    have hrp : ∃ out, rejectPrior2 big tol (E.resid p.x p.r) p = some (.inl out) := by
      unfold rejectPrior2
      dsimp only
      rw [resid_sq, if_pos hacc]
      exact ⟨_, rfl⟩
    obtain ⟨out, hrp⟩ := hrp
    have hsum : ∀ dn, E.resid p.x p.r 0 * E.J p.r (col0 dn) + E.resid p.x p.r 1 * E.J p.r (col1 dn) = E.descent p.x p.r dn := by
      intro dn; rw [descent_y]; unfold yAt; ring
    have href' : ∀ dn, RefPt p.r (single dn (c dn)) := by
      intro dn e
      rcases eq_or_oth dn e with rfl | rfl
      · rw [single_same]; exact href e
      · rw [single_oth]; exact ⟨(hr _).1, (hr _).2, by simp, by simp⟩
    unfold stepPt2 at h1
    rw [hfl] at h1
    rcases num_cases c with ⟨hcc, hn⟩ | ⟨dn, v, hv, hcc, hn, g1, g2⟩ | ⟨v, w, hv, hw, e0, e1, hn⟩
    · rw [if_pos hn] at h1
      unfold areaPoint at h1
      rw [hrp] at h1
      rcases area_opt E fuel hf tol p out p' (hE.det p.r hr) htr ht hr h1 hconv with h | ⟨ha, hb, -⟩
      · exact Or.inl h
      · exact Or.inr ⟨ha, hb, by rw [hfl, hn]; decide⟩
    · rw [if_neg (by rw [hn]; decide), if_pos hn, g1, g2, Option.bind_some, Option.bind_some] at h1
      unfold edgePoint at h1
      rw [hrp, Option.bind_some] at h1
      dsimp only at h1
      rw [hsum] at h1
      by_cases hst : E.descent p.x p.r dn * p.r dn < 0
      · rw [if_pos hst] at h1
        rcases area_opt E fuel hf tol p out p' (hE.det p.r hr) htr ht hr h1 hconv with h | ⟨ha, hb, -⟩
        · exact Or.inl h
        · exact Or.inr ⟨ha, hb, by rw [hfl, hn]; decide⟩
      · rw [if_neg hst, low_false, show fl c = fl (single dn (c dn)) by rw [hcc, single_same]] at h1
        obtain rfl := Option.some.inj h1
        exact Or.inl (edge_opt E tol p out dn (c dn) htr ht (href' dn) (by rw [hcc, single_same]; exact hv) (not_lt.1 hst) hconv)
    · rw [if_neg (by rw [hn]; decide), if_neg (by rw [hn]; decide)] at h1
      unfold ptPoint at h1
      have hres : (![p.x 0 - E.X p.r 0, p.x 1 - E.X p.r 1] : Fin 2 → K) = E.resid p.x p.r := rfl
      dsimp only at h1
      have s0 : (E.J p.r 0 * E.resid p.x p.r 0 + E.J p.r 2 * E.resid p.x p.r 1) = E.descent p.x p.r 0 := by rw [descent_y]; rfl
      have s1 : (E.J p.r 1 * E.resid p.x p.r 0 + E.J p.r 3 * E.resid p.x p.r 1) = E.descent p.x p.r 1 := by rw [descent_y]; rfl
      rw [hres, hrp, Option.bind_some, s0, s1] at h1
      dsimp only at h1
      have hheld : ∀ d, c d ≠ .free := by
        intro d
        rcases eq_or_oth 0 d with rfl | h
        · rw [e0]; exact hv
        · obtain rfl : d = 1 := h
          rw [e1]; exact hw
      by_cases t0 : E.descent p.x p.r 0 * p.r 0 < 0 <;> by_cases t1 : E.descent p.x p.r 1 * p.r 1 < 0
      · rw [if_pos t0, if_pos t1] at h1
        rcases area_opt E fuel hf tol p out p' (hE.det p.r hr) htr ht hr h1 hconv with h | ⟨ha, hb, hsm, hcor⟩
        · exact Or.inl h
        · exfalso
          obtain ⟨d, hd⟩ := hcor fun d => by
            have h2 := abs_lt.1 (hsm d)
            have h3 := hheld d
            rcases ha d with h | h <;> rcases con_cases _ h3 with h4 | h4
            · have := (href d).2.2.1 h4; rw [h, this] at h2; exfalso; linarith
            · rw [h, (href d).2.2.2 h4]
            · rw [h, (href d).2.2.1 h4]
            · have := (href d).2.2.2 h4; rw [h, this] at h2; exfalso; linarith
          rcases eq_or_oth 0 d with rfl | h
          · linarith
          · obtain rfl : d = 1 := h
            linarith
      · rw [if_pos t0, if_neg t1, pick_fl] at h1
        obtain rfl := Option.some.inj h1
        exact Or.inl (edge_opt E tol p out 1 (c 1) htr ht (href' 1) (hheld 1) (not_lt.1 t1) hconv)
      · rw [if_neg t0, if_pos t1, pick_fl] at h1
        obtain rfl := Option.some.inj h1
        exact Or.inl (edge_opt E tol p out 0 (c 0) htr ht (href' 0) (hheld 0) (not_lt.1 t0) hconv)
      · rw [if_neg t0, if_neg t1] at h1
        obtain rfl := Option.some.inj h1
        left
        intro d
        have hy : 0 ≤ E.descent p.x p.r d * p.r d := by
          rcases eq_or_oth 0 d with rfl | h
          · exact not_lt.1 t0
          · obtain rfl : d = 1 := h
            exact not_lt.1 t1
        show (p.r d < 1 → _) ∧ (-1 < p.r d → _)
        have hsc : 0 ≤ E.scale p.x p.r d * tol := mul_nonneg (by rw [scale_y]; positivity) htol0
        rcases con_cases _ (hheld d) with h4 | h4
        · rw [(href d).2.2.1 h4] at hy ⊢
          exact ⟨fun _ => by linarith, fun h => absurd h (lt_irrefl _)⟩
        · rw [(href d).2.2.2 h4] at hy ⊢
          exact ⟨fun h => absurd h (lt_irrefl _), fun _ => by linarith⟩
  · right
    refine ⟨ho, by rw [hd2]; exact hd0, ?_⟩
    have hrp : ∃ out, rejectPrior2 big tol (E.resid p.x p.r) p = some (.inr out) ∧ (conv2 out.flags = true → p.dist2p < E.dist2 p.x p.r * tol) := by
      have h2 := not_le.2 hrej
      unfold rejectPrior2
      dsimp only
      rw [resid_sq, if_neg h2, ho]
      refine ⟨_, rfl, fun h => ?_⟩
      rcases hh with ⟨_, h1, h2⟩ | ⟨o, c', ho, ho1, ho2, ho3, ho4, ho5⟩ | ⟨h1, h2⟩
      · rw [h1, h2] at hrej; have := hE.big p.r hr; linarith
      · have h3 : ∀ f : U32, conv2 f = (f &&& 0x1f).getLsbD 4 := fun f => by rw [BitVec.getLsbD_and]; unfold conv2; simp
        rw [h3] at h
        dsimp only at h
        rw [low_or_c c' _ ho2 _] at h
        by_contra h4
        rw [decide_eq_false h4] at h
        revert h
        unfold lowFlags
        generalize c' 0 = a; generalize c' 1 = b
        cases a <;> cases b <;> decide
      · rw [h2] at hrej; linarith [sub_self (E.dist2 p.x p.r)]
    obtain ⟨out, hrp, hout⟩ := hrp
    have : p' = out := by
      unfold stepPt2 at h1
      rw [hfl] at h1
      rcases num_cases c with ⟨hcc, hn⟩ | ⟨dn, v, hv, hcc, hn, g1, g2⟩ | ⟨v, w, hv, hw, e0, e1, hn⟩
      · rw [if_pos hn] at h1
        unfold areaPoint at h1
        rw [hrp] at h1
        exact (Option.some.inj h1).symm
      · rw [if_neg (by rw [hn]; decide), if_pos hn, g1, g2, Option.bind_some, Option.bind_some] at h1
        unfold edgePoint at h1
        rw [hrp] at h1
        exact (Option.some.inj h1).symm
      · rw [if_neg (by rw [hn]; decide), if_neg (by rw [hn]; decide)] at h1
        unfold ptPoint at h1
        have hres : (![p.x 0 - E.X p.r 0, p.x 1 - E.X p.r 1] : Fin 2 → K) = E.resid p.x p.r := rfl
        dsimp only at h1
        rw [hres, hrp] at h1
        exact (Option.some.inj h1).symm
    rw [this] at hconv
    exact hout hconv

/-- C56 for the whole search, any number of steps: if it ended as converged, its last step was one of these -/
theorem findpts_el_2_search_converged (E : ElMap K) (fuel : Nat) (hf : 2 ≤ fuel) (big tol : K) (htol0 : 0 ≤ tol) (htol : tol ≤ 2) (n : Nat) (p : Pt K 2) (hE : Regular2 E big p.x) (hp : Good2 E big p)
    (hc : conv2 p.flags = false) (hconv : conv2 (iter (fun p => conv2 p.flags) (step2 E fuel big tol) n p).flags = true) :
    ∃ q, Good2 E big q ∧ q.x = p.x ∧ conv2 q.flags = false ∧ stepPt2 E fuel big tol q = some (iter (fun p => conv2 p.flags) (step2 E fuel big tol) n p) ∧
      let p' := iter (fun p => conv2 p.flags) (step2 E fuel big tol) n p
      (p'.oldr = some q.r ∧ p'.dist2 = E.dist2 p.x q.r ∧ (q.tr < tol ∨ NearOpt E p.x q.r p'.r tol ∨ StalledAtCorner q p')) ∨
      (q.oldr = some p'.r ∧ p'.dist2 = E.dist2 p.x p'.r ∧ q.dist2p < E.dist2 p.x q.r * tol) := by
  induction n generalizing p with
  | zero => unfold iter at hconv; rw [hc] at hconv; exact absurd hconv (by decide)
  | succ n ih =>
    have e : iter (fun p => conv2 p.flags) (step2 E fuel big tol) (n + 1) p = iter (fun p => conv2 p.flags) (step2 E fuel big tol) n (step2 E fuel big tol p) := by
      rw [iter]; simp only [hc]; rfl
    rw [e] at hconv ⊢
    obtain ⟨h1, h2, h3, h4⟩ := step2_good E fuel hf big tol p hE hp hc
    by_cases hs : conv2 (step2 E fuel big tol p).flags = true
    · have e2 : iter (fun p => conv2 p.flags) (step2 E fuel big tol) n (step2 E fuel big tol p) = step2 E fuel big tol p := by
        cases n with
        | zero => rfl
        | succ n => rw [iter]; simp only [hs]; rfl
      rw [e2]
      obtain ⟨p', g1, g2⟩ := findpts_el_2_converged E fuel hf big tol htol0 htol p hE hp hc
      have e3 : step2 E fuel big tol p = p' := by unfold step2; rw [g1]; rfl
      rw [e3] at hs ⊢
      exact ⟨p, hp, rfl, hc, g1, g2 hs⟩
    · rw [Bool.not_eq_true] at hs
      obtain ⟨q, q1, q2, q3, q4, q5⟩ := ih (step2 E fuel big tol p) (by rw [h2]; exact hE) h1 hs hconv
      rw [h2] at q2 q5
      exact ⟨q, q1, q2, q3, q4, q5⟩

end

/-! ## Examples -/

/-- the search of `exElN` for the point `(1,1/2)`: the last step ends it near a local minimum -/
example : let p := iter (fun p => conv2 p.flags) (step2 exElN 2 1000 (1 / 100)) 50 (startPt 1000 0 1 ![1, 1 / 2] ![-1, 1] 0)
    conv2 p.flags = true ∧ NearOpt exElN p.x ![63 / 248, 61 / 124] p.r (1 / 100) := by
  unfold NearOpt
  decide +kernel

/-- the hypotheses of `findpts_el_2_converged` hold at the start -/
example := findpts_el_2_converged exElN 2 (le_refl 2) 1000 (1 / 100) (by norm_num) (by norm_num) (startPt 1000 0 1 ![1, 1 / 2] ![-1, 1] 0) exElN_regular
  (start_good exElN 1000 ![1, 1 / 2] ![-1, 1] 0 (by decide +kernel)) (by decide +kernel)

/-- a parallelogram: `x = r - s`, `y = s/2` -/
def exElP : ElMap Rat where
  X r := ![r 0 - r 1, r 1 / 2]
  J _ := ![1, -1, 0, 1 / 2]
  H _ := 0

/-- **finding**: the search reports convergence at a point that is not a local minimum. The element is a parallelogram with its four corners as nodes, the point is `(-1/10, 21/20)`, outside of the element. The nearest corner is `(1,1)`
(squared distance 5/16), where the search starts; it ends after one step at this corner, "converged", because the Newton step leaves the element in both directions and a constraint met at once is never released. But the point `(9/10,1)` of
the element is nearer (squared distance 121/400). -/
theorem converged_not_nearest :
    let x : Fin 2 → Rat := ![-1 / 10, 21 / 20]
    let p := iter (fun p => conv2 p.flags) (step2 exElP 2 1000 (1 / 1000000)) 50 (startPt 1000 0 1 x ![1, 1] 0)
    (∀ r ∈ [![1, 1], ![1, -1], ![-1, 1], ![-1, -1]], exElP.dist2 x ![1, 1] ≤ exElP.dist2 x r) ∧
    conv2 p.flags = true ∧ p.r 0 = 1 ∧ p.r 1 = 1 ∧ p.dist2 = 5 / 16 ∧ exElP.dist2 x ![9 / 10, 1] = 121 / 400 ∧ (121 / 400 : Rat) < 5 / 16 := by
  decide +kernel

/-- so it is not near a local minimum -/
example : ¬ NearOpt exElP ![-1 / 10, 21 / 20] ![1, 1] ![1, 1] (1 / 1000000) := by
  unfold NearOpt
  decide +kernel

end Gslib.Props
