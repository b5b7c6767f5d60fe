import Verif.Spec.Newton3Opt
import Verif.Props.Newton3
import Verif.Props.Newton2Opt

/-!
# C56: what convergence of the point search means (3D)
-/

namespace Gslib.Props
open Gslib.El Gslib.Spec

section
variable {K : Type} [Field K] [LinearOrder K] [IsStrictOrderedRing K]

theorem descent_y3 (E : ElMap3 K) (x r : Fin 3 → K) (d : Fin 3) : E.descent x r d = yAt3 (E.J r) (E.resid x r) d := by
  unfold ElMap3.descent yAt3 ElMap3.resid
  ring

theorem y_zero3 (J : Fin 3 → Fin 3 → K) (resid dr : Fin 3 → K) (d : Fin 3) : yAt3 J resid d = yy J resid dr d + (gram J d 0 * dr 0 + gram J d 1 * dr 1 + gram J d 2 * dr 2) := by
  unfold yy yAt3 resAt3 gram
  ring

theorem rot_le {f : Fin 3 → K} (hf : ∀ d, 0 ≤ f d) (d : Fin 3) : f d ≤ f 0 + f 1 + f 2 ∧ f (d + 1) + f (d + 2) ≤ f 0 + f 1 + f 2 := by
  have h0 := hf 0; have h1 := hf 1; have h2 := hf 2
  rcases fin3_cases 0 d with rfl | rfl | rfl
  · exact ⟨by linarith, show f 1 + f 2 ≤ _ by linarith⟩
  · exact ⟨show f 1 ≤ _ by linarith, show f 2 + f 0 ≤ _ by linarith⟩
  · exact ⟨show f 2 ≤ _ by linarith, show f 0 + f 1 ≤ _ by linarith⟩

theorem two_le {f : Fin 3 → K} (hf : ∀ d, 0 ≤ f d) {d e : Fin 3} (h : d ≠ e) : f d + f e ≤ f 0 + f 1 + f 2 := by
  have h0 := hf 0; have h1 := hf 1; have h2 := hf 2
  have h3 : ∀ d : Fin 3, d = 0 ∨ d = 1 ∨ d = 2 := by decide
  rcases h3 d with rfl | rfl | rfl <;> rcases h3 e with rfl | rfl | rfl <;> first | exact absurd rfl h | linarith

theorem rh_symm (E : ElMap3 K) (x r : Fin 3 → K) (i j : Fin 3) : E.rh x r i j = E.rh x r j i := by
  unfold ElMap3.rh
  rw [show hix i j = hix j i by clear * -; revert i j; decide]

theorem scale_nonneg3 (E : ElMap3 K) (x r : Fin 3 → K) (d : Fin 3) : 0 ≤ E.scale x r d := by unfold ElMap3.scale; positivity

theorem scale_pair (E : ElMap3 K) (x r : Fin 3 → K) (d e : Fin 3) : |E.jtj r d e| + |E.rh x r d e| ≤ E.scale x r d := by
  have h1 := (rot_le (f := fun e => |E.jtj r d e|) (fun _ => abs_nonneg _) e).1
  have h2 := (rot_le (f := fun e => |E.rh x r d e|) (fun _ => abs_nonneg _) e).1
  unfold ElMap3.scale
  linarith

theorem conv_low3 (f : U32) (c : Fin 3 → Con) (C : Bool) (h : f &&& 0x7f = lowFlags3 c C) : conv3 f = C := by
  have h1 : conv3 f = (f &&& 0x7f).getLsbD 6 := by
    rw [BitVec.getLsbD_and]; unfold conv3; simp
  rw [h1, h]
  unfold lowFlags3
  generalize c 0 = a; generalize c 1 = b; generalize c 2 = e
  cases a <;> cases b <;> cases e <;> cases C <;> decide

theorem low_inj3 {c c' : Fin 3 → Con} {C : Bool} (h : lowFlags3 c false = lowFlags3 c' C) : c = c' := by
  have hC : C = false := by
    have h1 := conv_low3 (lowFlags3 c' C) c' C (low_lt3 c' C)
    rw [← h1, ← h]
    exact conv_low3 _ c false (low_lt3 c false)
  subst hC
  rw [low_false3, low_false3] at h
  exact fl3_inj _ _ h

/-- newton_vol -/
theorem vol_opt (E : ElMap3 K) (fuel : Nat) (hf : 21 ≤ fuel) (tol : K) (p out p' : Pt K 3) (hdet : det3 (E.J p.r) ≠ 0) (htr : 0 ≤ p.tr) (ht : tol ≤ p.tr)
    (hr : ∀ d, -1 ≤ p.r d ∧ p.r d ≤ 1) (e : newtonVol fuel tol (E.J p.r) (E.resid p.x p.r) p out = some p') (hc : conv3 p'.flags = true) :
    InnerOpt3 E p.x p.r p'.r tol ∧ (NearOpt3 E p.x p.r p'.r tol ∨ ∃ d, p'.r d = 1 ∨ p'.r d = -1) := by
  obtain ⟨p'', c, dr, e', hpr, hs, -, hin⟩ := newtonVol_step fuel hf tol (E.J p.r) (E.resid p.x p.r) p out hdet htr hr
  rw [e] at e'
  obtain rfl := Option.some.inj e'
  rw [conv_low3 _ _ _ hs.flags, decide_eq_true_eq] at hc
  have hd : ∀ d, |dr d| < tol := fun d => lt_of_le_of_lt (rot_le (f := fun d => |dr d|) (fun _ => abs_nonneg _) d).1 hc
  have ht0 : 0 ≤ tol := (abs_nonneg _).trans (hd 0).le
  have hinner : InnerOpt3 E p.x p.r p'.r tol := by
    intro d h1 h2
    rw [hpr] at h1 h2
    dsimp only at h1 h2
    have h3 := abs_lt.1 (hd d)
    have hy := hin d (by rw [volBox_lo]; exact max_lt h1 (by linarith)) (by rw [volBox_hi]; exact lt_min h2 (by linarith))
    rw [descent_y3, y_zero3 (E.J p.r) (E.resid p.x p.r) dr d, hy, zero_add]
    have g0 := mul_small (a := gram (E.J p.r) d 0) (hd 0).le
    have g1 := mul_small (a := gram (E.J p.r) d 1) (hd 1).le
    have g2 := mul_small (a := gram (E.J p.r) d 2) (hd 2).le
    have g3 : (|gram (E.J p.r) d 0| + |gram (E.J p.r) d 1| + |gram (E.J p.r) d 2|) * tol ≤ E.scale p.x p.r d * tol := by
      refine mul_le_mul_of_nonneg_right ?_ ht0
      have : 0 ≤ |E.rh p.x p.r d 0| + |E.rh p.x p.r d 1| + |E.rh p.x p.r d 2| := by positivity
      show |E.jtj p.r d 0| + |E.jtj p.r d 1| + |E.jtj p.r d 2| ≤ E.scale p.x p.r d
      unfold ElMap3.scale
      linarith
    have g4 := abs_add_le (gram (E.J p.r) d 0 * dr 0 + gram (E.J p.r) d 1 * dr 1) (gram (E.J p.r) d 2 * dr 2)
    have g5 := abs_add_le (gram (E.J p.r) d 0 * dr 0) (gram (E.J p.r) d 1 * dr 1)
    linarith
  refine ⟨hinner, ?_⟩
  by_cases hb : ∃ d, p'.r d = 1 ∨ p'.r d = -1
  · exact Or.inr hb
  · left
    push Not at hb
    intro d
    have h1 := hs.ref d
    have h2 := abs_le.1 (hinner d (lt_of_le_of_ne h1.1 (hb d).2.symm) (lt_of_le_of_ne h1.2.1 (hb d).1))
    exact ⟨fun _ => h2.2, fun _ => h2.1⟩

/-- a parabola lowest at `m` in the admissible interval: its slope there, with `m` shorter than the tolerance -/
theorem parab_near {A y r tr m tol S : K} (htr : tol ≤ tr) (hm : |m| < tol) (hr : -1 ≤ r + m ∧ r + m ≤ 1) (hA : |A * m| ≤ S)
    (hmin : ∀ z, |z| ≤ tr → -1 ≤ r + z → r + z ≤ 1 → evalQ A y m ≤ evalQ A y z) : (r + m < 1 → y ≤ S) ∧ (-1 < r + m → -S ≤ y) := by
  have hA := abs_le.1 hA
  have hb := abs_lt.1 hm
  have hmin' : ∀ z, max (-tr) (-1 - r) ≤ z → z ≤ min tr (1 - r) → evalQ A y m ≤ evalQ A y z := by
    intro z z1 z2
    have z3 := (le_max_left _ _).trans z1
    have z4 := (le_max_right _ _).trans z1
    have z5 := z2.trans (min_le_left _ _)
    have z6 := z2.trans (min_le_right _ _)
    exact hmin z (abs_le.2 ⟨z3, z5⟩) (by linarith) (by linarith)
  constructor
  · intro h
    have := slope_right (max_le (by linarith) (by linarith [hr.1])) (lt_min (by linarith) (by linarith)) hmin'
    linarith
  · intro h
    have := slope_left (max_lt (by linarith) (by linarith)) (le_min (by linarith) (by linarith [hr.2])) hmin'
    linarith

theorem cross_near {A B y r tr m b tol S : K} (htr : tol ≤ tr) (hm : |m| < tol) (hb : |b| ≤ tol) (hr : -1 ≤ r + m ∧ r + m ≤ 1) (hS : |A| + |B| ≤ S)
    (hmin : ∀ z, |z| ≤ tr → -1 ≤ r + z → r + z ≤ 1 → evalQ A (y - B * b) m ≤ evalQ A (y - B * b) z) : (r + m < 1 → y ≤ S * tol) ∧ (-1 < r + m → -(S * tol) ≤ y) := by
  have h1 := mul_small (a := A) hm.le
  have h2 := abs_le.1 (mul_small (a := B) hb)
  have h3 : (|A| + |B|) * tol ≤ S * tol := mul_le_mul_of_nonneg_right hS ((abs_nonneg _).trans hb)
  obtain ⟨g1, g2⟩ := parab_near htr hm hr h1 hmin
  exact ⟨fun h => by linarith [g1 h], fun h => by linarith [g2 h]⟩

/-- a held coordinate whose descent direction does not point into the element -/
theorem held_near {E : ElMap3 K} {x r r' : Fin 3 → K} {d : Fin 3} {v : Con} {S : K} (hS : 0 ≤ S) (hv : v ≠ .free) (hr : (v = .lo → r d = -1) ∧ (v = .hi → r d = 1)) (hy : 0 ≤ E.descent x r d * r d) (hrr : r' d = r d) :
    (r' d < 1 → E.descent x r d ≤ S) ∧ (-1 < r' d → -S ≤ E.descent x r d) := by
  rw [hrr]
  cases v with
  | free => exact absurd rfl hv
  | lo =>
    rw [hr.1 rfl] at hy ⊢
    exact ⟨fun _ => by linarith, fun h => absurd h (lt_irrefl _)⟩
  | hi =>
    rw [hr.2 rfl] at hy ⊢
    exact ⟨fun h => absurd h (lt_irrefl _), fun _ => by linarith⟩

/-- newton_face -/
theorem face_opt (E : ElMap3 K) (tol : K) (p out : Pt K 3) (dn : Fin 3) (v : Con) (htr : 0 ≤ p.tr) (ht : tol ≤ p.tr) (hr : RefPt3 p.r (single3 dn v)) (hv : v ≠ .free) (rhes : Fin 3 → K)
    (hh : rhes = ![E.rh p.x p.r (dn + 1) (dn + 1), E.rh p.x p.r (dn + 1) (dn + 2), E.rh p.x p.r (dn + 2) (dn + 2)]) (hy : 0 ≤ E.descent p.x p.r dn * p.r dn) (p' : Pt K 3)
    (hp' : p' = newtonFace tol (E.J p.r) rhes (E.resid p.x p.r) (dn + 1) (dn + 2) dn (fl3 (single3 dn v)) p out) (hc : conv3 p'.flags = true) : NearOpt3 E p.x p.r p'.r tol := by
  have hstep := newtonFace_step tol (E.J p.r) rhes (E.resid p.x p.r) dn v p out htr hr
  rw [← hp'] at hstep
  obtain ⟨c, -, h2, h3, -, h5⟩ := hstep
  rw [conv_low3 _ _ _ h3.flags, decide_eq_true_eq] at hc
  have n1 := abs_nonneg (p'.r (dn + 1) - p.r (dn + 1))
  have n2 := abs_nonneg (p'.r (dn + 2) - p.r (dn + 2))
  have ht0 : 0 < tol := by linarith
  set a := p'.r (dn + 1) - p.r (dn + 1) with ha
  set b := p'.r (dn + 2) - p.r (dn + 2) with hb
  have ra : p'.r (dn + 1) = p.r (dn + 1) + a := by rw [ha]; ring
  have rb : p'.r (dn + 2) = p.r (dn + 2) + b := by rw [hb]; ring
  have f1 := h3.ref (dn + 1)
  have f2 := h3.ref (dn + 2)
  rw [ra] at f1
  rw [rb] at f2
  have hsc : ∀ d e, d ≠ e → |gram (E.J p.r) d d - E.rh p.x p.r d d| + |gram (E.J p.r) d e - E.rh p.x p.r d e| ≤ E.scale p.x p.r d := by
    intro d e hde
    have h1 := abs_sub (E.jtj p.r d d) (E.rh p.x p.r d d)
    have h2 := abs_sub (E.jtj p.r d e) (E.rh p.x p.r d e)
    have h3 := two_le (f := fun e => |E.jtj p.r d e| + |E.rh p.x p.r d e|) (fun _ => by positivity) hde
    beta_reduce at h3
    show |E.jtj p.r d d - E.rh p.x p.r d d| + |E.jtj p.r d e - E.rh p.x p.r d e| ≤ _
    unfold ElMap3.scale
    linarith
  intro d
  rcases fin3_cases dn d with rfl | rfl | rfl
  · have := hr d
    rw [single3_same] at this
    exact held_near (mul_nonneg (scale_nonneg3 E p.x p.r d) ht0.le) hv this.2.2 hy h2
  · rw [ra, descent_y3]
    refine cross_near (B := gram (E.J p.r) (dn + 1) (dn + 2) - E.rh p.x p.r (dn + 1) (dn + 2)) (b := b) ht (by linarith) (by linarith) ⟨f1.1, f1.2.1⟩ (hsc (dn + 1) (dn + 2) (ne12 dn)) ?_
    intro z z1 z2 z3
    have := h5 z b z1 (by linarith) z2 z3 f2.1 f2.2.1
    rw [hh] at this
    simp [evalF] at this
    unfold evalQ
    linarith
  · rw [rb, descent_y3]
    refine cross_near (B := gram (E.J p.r) (dn + 2) (dn + 1) - E.rh p.x p.r (dn + 2) (dn + 1)) (b := a) ht (by linarith) (by linarith) ⟨f2.1, f2.2.1⟩ (hsc (dn + 2) (dn + 1) (ne12 dn).symm) ?_
    rw [show gram (E.J p.r) (dn + 2) (dn + 1) = gram (E.J p.r) (dn + 1) (dn + 2) by unfold gram; ring, rh_symm E p.x p.r (dn + 2) (dn + 1)]
    intro z z1 z2 z3
    have := h5 a z (by linarith) z1 f1.1 f1.2.1 z2 z3
    rw [hh] at this
    simp [evalF] at this
    unfold evalQ
    linarith

/-- newton_edge -/
theorem edge_opt3 (E : ElMap3 K) (tol : K) (p out : Pt K 3) (de : Fin 3) (c : Fin 3 → Con) (hc0 : c de = .free) (htr : 0 ≤ p.tr) (ht : tol ≤ p.tr) (hr : RefPt3 p.r c) (hv : ∀ d, d ≠ de → c d ≠ .free) (rhes : K)
    (hh : rhes = E.rh p.x p.r de de) (hy : ∀ d, d ≠ de → 0 ≤ E.descent p.x p.r d * p.r d) (p' : Pt K 3)
    (hp' : p' = newtonEdge3 tol (E.J p.r) rhes (E.resid p.x p.r) de (de + 1) (de + 2) (fl3 c) p out) (hc : conv3 p'.flags = true) : NearOpt3 E p.x p.r p'.r tol := by
  have hstep := newtonEdge3_step tol (E.J p.r) rhes (E.resid p.x p.r) de c hc0 p out htr hr
  rw [← hp'] at hstep
  obtain ⟨w, h1, h2, h3, -, h5⟩ := hstep
  rw [conv_low3 _ _ _ h3.flags, decide_eq_true_eq] at hc
  have ht0 : 0 < tol := lt_of_le_of_lt (abs_nonneg _) hc
  intro d
  by_cases hd : d = de
  · subst hd
    have f1 := h3.ref d
    set a := p'.r d - p.r d with ha
    have ra : p'.r d = p.r d + a := by rw [ha]; ring
    rw [ra] at f1 ⊢
    rw [descent_y3]
    refine cross_near (A := gram (E.J p.r) d d - E.rh p.x p.r d d) (B := 0) (b := 0) ht hc (by rw [abs_zero]; exact ht0.le) ⟨f1.1, f1.2.1⟩ ?_ ?_
    · have h1 := abs_sub (E.jtj p.r d d) (E.rh p.x p.r d d)
      rw [abs_zero, add_zero]
      exact h1.trans (scale_pair E p.x p.r d d)
    · intro z z1 z2 z3
      rw [mul_zero, sub_zero, ← hh]
      exact h5 z z1 z2 z3
  · refine held_near (v := c d) (mul_nonneg (scale_nonneg3 E p.x p.r d) ht0.le) (hv d hd) (hr d).2.2 (hy d hd) ?_
    rcases fin3_cases de d with h | h | h
    · exact absurd h hd
    · rw [h, h1]
    · rw [h, h2]

/-- **C56** in 3D: a step that ends the search. Either the present position was accepted; then, if the trust region is not smaller than the tolerance, the present position is a local minimum of the distance over the element up to the
tolerance, or the step (by `newton_vol`) ended on the boundary, and this is known for the coordinates strictly inside only. Or the present position was rejected and the decrease that had been predicted for it, from the position reported,
was below the tolerance. -/
theorem findpts_el_3_converged (E : ElMap3 K) (fuel : Nat) (hf : 21 ≤ fuel) (big tol : K) (htol0 : 0 ≤ tol) (p : Pt K 3) (hE : Regular3 E big p.x) (hp : Good3 E big p) (hc : conv3 p.flags = false) :
    ∃ p', stepPt3 E fuel big tol p = some p' ∧ (conv3 p'.flags = true →
      (p'.oldr = some p.r ∧ p'.dist2 = E.dist2 p.x p.r ∧ (p.tr < tol ∨ NearOpt3 E p.x p.r p'.r tol ∨ StalledOnBoundary E p p' tol)) ∨
      (p.oldr = some p'.r ∧ p'.dist2 = E.dist2 p.x p'.r ∧ p.dist2p < E.dist2 p.x p.r * tol)) := by
  obtain ⟨p', h1, -, -, -, h5⟩ := stepPt3_run E fuel hf big tol (big_nonneg3 E big p.x hE) hE.det p hE.big hp hc
  refine ⟨p', h1, fun hconv => ?_⟩
  obtain ⟨c, C, hfl, href, htr, hh⟩ := id hp
  obtain rfl : C = false := by rw [← conv_low3 _ _ _ hfl]; exact hc
  have hr : ∀ d, -1 ≤ p.r d ∧ p.r d ≤ 1 := fun d => ⟨(href d).1, (href d).2.1⟩
  have hnum := num_fl3 c
  rw [← low_false3] at hnum
  have hn4 : heldNum c = 0 ∨ heldNum c = 1 ∨ heldNum c = 2 ∨ heldNum c = 3 := by have := heldNum_le c; omega
  have hres : (fun d => p.x d - E.X p.r d) = E.resid p.x p.r := rfl
  rcases h5 with ⟨hacc, ho, hd2, -⟩ | ⟨hrej, ho, hd0, hd2, -⟩
  · left
    refine ⟨ho, hd2, ?_⟩
    by_cases ht : p.tr < tol
    · exact Or.inl ht
    right
    push Not at ht
    have hrp : ∃ out, rejectPrior3 big tol (E.resid p.x p.r) p = some (.inl out) := by
      unfold rejectPrior3
      dsimp only
      rw [resid_sq3, if_pos hacc]
      exact ⟨_, rfl⟩
    obtain ⟨out, hrp⟩ := hrp
    have vol : (∀ d, c d ≠ .free → E.descent p.x p.r d * p.r d < 0) → newtonVol fuel tol (E.J p.r) (E.resid p.x p.r) p out = some p' → NearOpt3 E p.x p.r p'.r tol ∨ StalledOnBoundary E p p' tol := by
      intro hneg e
      obtain ⟨hin, h | h⟩ := vol_opt E fuel hf tol p out p' (hE.det p.r hr) htr ht hr e hconv
      · exact Or.inl h
      · refine Or.inr ⟨h, hin, fun c' C' hfl' d hd => hneg d ?_⟩
        rw [hfl] at hfl'
        rwa [show c = c' from low_inj3 hfl']
    have face : ∀ dn d1 d2 rhes, d1 = dn + 1 → d2 = dn + 2 → c dn ≠ .free → rhes = ![E.rh p.x p.r d1 d1, E.rh p.x p.r d1 d2, E.rh p.x p.r d2 d2] → ¬ E.descent p.x p.r dn * p.r dn < 0 →
        some (newtonFace tol (E.J p.r) rhes (E.resid p.x p.r) d1 d2 dn (lowFlags3 c false &&& ((3 : U32) <<< sh3 dn)) p out) = some p' → NearOpt3 E p.x p.r p'.r tol := by
      intro dn d1 d2 rhes e1 e2 hdn hrh hy e
      subst e1; subst e2
      rw [low_false3, pick_fl3] at e
      exact face_opt E tol p out dn (c dn) htr ht (single_ref3 p.r c href dn) hdn rhes hrh (not_lt.1 hy) p' (Option.some.inj e).symm hconv
    have edge : ∀ de d1 d2 rhes, d1 = de + 1 → d2 = de + 2 → c d1 ≠ .free → c d2 ≠ .free → rhes = E.rh p.x p.r de de → ¬ E.descent p.x p.r d1 * p.r d1 < 0 → ¬ E.descent p.x p.r d2 * p.r d2 < 0 →
        some (newtonEdge3 tol (E.J p.r) rhes (E.resid p.x p.r) de d1 d2 (lowFlags3 c false &&& ~~~((3 : U32) <<< sh3 de)) p out) = some p' → NearOpt3 E p.x p.r p'.r tol := by
      intro de d1 d2 rhes e1 e2 hd1 hd2 hrh hy1 hy2 e
      subst e1; subst e2
      rw [low_false3, release_fl3] at e
      refine edge_opt3 E tol p out de (setc3 c de .free) (by simp [setc3]) htr ht (free_ref3 p.r c href de) (fun d hd => ?_) rhes hrh (fun d hd => ?_) p' (Option.some.inj e).symm hconv
      · unfold setc3
        rw [if_neg hd]
        rcases fin3_cases de d with h | h | h
        · exact absurd h hd
        · rw [h]; exact hd1
        · rw [h]; exact hd2
      · rcases fin3_cases de d with h | h | h
        · exact absurd h hd
        · rw [h]; exact not_lt.1 hy1
        · rw [h]; exact not_lt.1 hy2
    unfold stepPt3 at h1
    dsimp only at h1
    rw [hfl] at h1
    rcases hn4 with hn | hn | hn | hn <;> rw [hn] at hnum
    · rw [if_pos (by rw [hnum]; rfl)] at h1
      unfold volPoint at h1
      rw [hrp] at h1
      refine vol (fun d hd => ?_) h1
      rw [held_zero c hn] at hd
      exact absurd rfl hd
    · rw [if_neg (by rw [hnum]; decide), if_pos (by rw [hnum]; rfl)] at h1
      obtain ⟨dn, hdn, hcc⟩ := held_one c hn
      obtain ⟨f1, f2, f3⟩ := face_fl3 dn (c dn) hdn
      rw [← hcc, ← low_false3] at f1 f2 f3
      rw [f1, f2, f3, Option.bind_some, Option.bind_some, Option.bind_some] at h1
      unfold facePoint at h1
      rw [hrp, Option.bind_some] at h1
      dsimp only at h1
      rw [show E.resid p.x p.r 0 * E.J p.r 0 dn + E.resid p.x p.r 1 * E.J p.r 1 dn + E.resid p.x p.r 2 * E.J p.r 2 dn = E.descent p.x p.r dn from rfl] at h1
      by_cases hy : E.descent p.x p.r dn * p.r dn < 0
      · rw [if_pos hy] at h1
        refine vol (fun d hd => ?_) h1
        have : d = dn := by by_contra h; rw [hcc, single3_other dn d _ h] at hd; exact hd rfl
        rw [this]; exact hy
      · rw [if_neg hy] at h1
        have hpk : lowFlags3 c false &&& ((3 : U32) <<< sh3 dn) = lowFlags3 c false := by rw [low_false3, pick_fl3, ← hcc]
        rw [← hpk] at h1
        exact Or.inl (face dn (dn + 1) (dn + 2) _ rfl rfl hdn rfl hy h1)
    · rw [if_neg (by rw [hnum]; decide), if_neg (by rw [hnum]; decide), if_pos (by rw [hnum]; rfl)] at h1
      obtain ⟨de, k0, k1, k2⟩ := held_two c hn
      obtain ⟨f1, f2, f3⟩ := edge_fl3 c de k0 k1 k2
      rw [← low_false3] at f1 f2 f3
      rw [f1, f2, f3, Option.bind_some, Option.bind_some, Option.bind_some] at h1
      unfold edgePoint3 at h1
      rw [hrp, Option.bind_some] at h1
      dsimp only at h1
      rw [← descent_y3, ← descent_y3] at h1
      by_cases y1 : E.descent p.x p.r (de + 1) * p.r (de + 1) < 0 <;> by_cases y2 : E.descent p.x p.r (de + 2) * p.r (de + 2) < 0
      · rw [if_pos y1, if_pos y2] at h1
        refine vol (fun d hd => ?_) h1
        rcases fin3_cases de d with h | h | h
        · rw [h, k0] at hd; exact absurd rfl hd
        · rw [h]; exact y1
        · rw [h]; exact y2
      · rw [if_pos y1, if_neg y2] at h1
        exact Or.inl (face (de + 2) de (de + 1) _ (by clear * -; revert de; decide) (by clear * -; revert de; decide) k2 rfl y2 h1)
      · rw [if_neg y1, if_pos y2] at h1
        refine Or.inl (face (de + 1) (de + 2) de _ (by clear * -; revert de; decide) (by clear * -; revert de; decide) k1 ?_ y1 h1)
        rw [rh_symm E p.x p.r (de + 2) de]; rfl
      · rw [if_neg y1, if_neg y2] at h1
        have hpk : lowFlags3 c false &&& ~~~((3 : U32) <<< sh3 de) = lowFlags3 c false := by
          rw [low_false3, release_fl3]; congr 1; funext e; unfold setc3; split_ifs with he
          · rw [he, k0]
          · rfl
        rw [← hpk] at h1
        exact Or.inl (edge de (de + 1) (de + 2) _ rfl rfl k1 k2 rfl y1 y2 h1)
    · rw [if_neg (by rw [hnum]; decide), if_neg (by rw [hnum]; decide), if_neg (by rw [hnum]; decide)] at h1
      have hheld := held_three c hn
      unfold ptPoint3 at h1
      dsimp only at h1
      rw [hres, hrp, Option.bind_some] at h1
      dsimp only at h1
      simp only [← descent_y3] at h1
      by_cases y0 : E.descent p.x p.r 0 * p.r 0 < 0 <;> by_cases y1 : E.descent p.x p.r 1 * p.r 1 < 0 <;> by_cases y2 : E.descent p.x p.r 2 * p.r 2 < 0
      · rw [if_pos y0, if_pos y1, if_pos y2] at h1
        refine vol (fun d _ => ?_) h1
        rcases fin3_cases 0 d with rfl | rfl | rfl
        · exact y0
        · exact y1
        · exact y2
      · rw [if_pos y0, if_pos y1, if_neg y2] at h1
        exact Or.inl (face 2 0 1 _ rfl rfl (hheld 2) rfl y2 h1)
      · rw [if_pos y0, if_neg y1, if_pos y2] at h1
        exact Or.inl (face 1 2 0 _ rfl rfl (hheld 1) rfl y1 h1)
      · rw [if_pos y0, if_neg y1, if_neg y2] at h1
        exact Or.inl (edge 0 1 2 _ rfl rfl (hheld 1) (hheld 2) rfl y1 y2 h1)
      · rw [if_neg y0, if_pos y1, if_pos y2] at h1
        exact Or.inl (face 0 1 2 _ rfl rfl (hheld 0) rfl y0 h1)
      · rw [if_neg y0, if_pos y1, if_neg y2] at h1
        exact Or.inl (edge 1 2 0 _ rfl rfl (hheld 2) (hheld 0) rfl y2 y0 h1)
      · rw [if_neg y0, if_neg y1, if_pos y2] at h1
        exact Or.inl (edge 2 0 1 _ rfl rfl (hheld 0) (hheld 1) rfl y0 y1 h1)
      · rw [if_neg y0, if_neg y1, if_neg y2] at h1
        obtain rfl := Option.some.inj h1
        left
        intro d
        have hy : 0 ≤ E.descent p.x p.r d * p.r d := by
          rcases fin3_cases 0 d with rfl | rfl | rfl
          · exact not_lt.1 y0
          · exact not_lt.1 y1
          · exact not_lt.1 y2
        exact held_near (v := c d) (mul_nonneg (scale_nonneg3 E p.x p.r d) htol0) (hheld d) (href d).2.2 hy rfl
  · right
    refine ⟨ho, by rw [hd2]; exact hd0, ?_⟩
    have hrp : ∃ out, rejectPrior3 big tol (E.resid p.x p.r) p = some (.inr out) ∧ (conv3 out.flags = true → p.dist2p < E.dist2 p.x p.r * tol) := by
      have h2 := not_le.2 hrej
      unfold rejectPrior3
      dsimp only
      rw [resid_sq3, if_neg h2, ho]
      refine ⟨_, rfl, fun h => ?_⟩
      rcases hh with ⟨_, h1, h2⟩ | ⟨o, c', ho, ho1, ho2, ho3, ho4, ho5⟩ | ⟨h1, h2⟩
      · rw [h1, h2] at hrej; have := hE.big p.r hr; linarith
      · rw [conv_low3 _ _ _ (low_or_c3 c' _ ho2 _), decide_eq_true_eq] at h
        exact h
      · rw [h2] at hrej; linarith [sub_self (E.dist2 p.x p.r)]
    obtain ⟨out, hrp, hout⟩ := hrp
    have : p' = out := by
      unfold stepPt3 at h1
      dsimp only at h1
      rw [hfl] at h1
      rcases hn4 with hn | hn | hn | hn <;> rw [hn] at hnum
      · rw [if_pos (by rw [hnum]; rfl)] at h1
        unfold volPoint at h1
        rw [hrp] at h1
        exact (Option.some.inj h1).symm
      · rw [if_neg (by rw [hnum]; decide), if_pos (by rw [hnum]; rfl)] at h1
        obtain ⟨dn, hdn, hcc⟩ := held_one c hn
        obtain ⟨f1, f2, f3⟩ := face_fl3 dn (c dn) hdn
        rw [← hcc, ← low_false3] at f1 f2 f3
        rw [f1, f2, f3, Option.bind_some, Option.bind_some, Option.bind_some] at h1
        unfold facePoint at h1
        rw [hrp] at h1
        exact (Option.some.inj h1).symm
      · rw [if_neg (by rw [hnum]; decide), if_neg (by rw [hnum]; decide), if_pos (by rw [hnum]; rfl)] at h1
        obtain ⟨de, k0, k1, k2⟩ := held_two c hn
        obtain ⟨f1, f2, f3⟩ := edge_fl3 c de k0 k1 k2
        rw [← low_false3] at f1 f2 f3
        rw [f1, f2, f3, Option.bind_some, Option.bind_some, Option.bind_some] at h1
        unfold edgePoint3 at h1
        rw [hrp] at h1
        exact (Option.some.inj h1).symm
      · rw [if_neg (by rw [hnum]; decide), if_neg (by rw [hnum]; decide), if_neg (by rw [hnum]; decide)] at h1
        unfold ptPoint3 at h1
        dsimp only at h1
        rw [hres, hrp] at h1
        exact (Option.some.inj h1).symm
    rw [this] at hconv
    exact hout hconv

/-- C56 for the whole search in 3D, any number of steps: if it ended as converged, its last step was one of these -/
theorem findpts_el_3_search_converged (E : ElMap3 K) (fuel : Nat) (hf : 21 ≤ fuel) (big tol : K) (htol0 : 0 ≤ tol) (n : Nat) (p : Pt K 3) (hE : Regular3 E big p.x) (hp : Good3 E big p)
    (hc : conv3 p.flags = false) (hconv : conv3 (iter (fun p => conv3 p.flags) (step3 E fuel big tol) n p).flags = true) :
    ∃ q, Good3 E big q ∧ q.x = p.x ∧ conv3 q.flags = false ∧ stepPt3 E fuel big tol q = some (iter (fun p => conv3 p.flags) (step3 E fuel big tol) n p) ∧
      let p' := iter (fun p => conv3 p.flags) (step3 E fuel big tol) n p
      (p'.oldr = some q.r ∧ p'.dist2 = E.dist2 p.x q.r ∧ (q.tr < tol ∨ NearOpt3 E p.x q.r p'.r tol ∨ StalledOnBoundary E q p' tol)) ∨
      (q.oldr = some p'.r ∧ p'.dist2 = E.dist2 p.x p'.r ∧ q.dist2p < E.dist2 p.x q.r * tol) := by
  induction n generalizing p with
  | zero => unfold iter at hconv; rw [hc] at hconv; exact absurd hconv (by decide)
  | succ n ih =>
    have e : iter (fun p => conv3 p.flags) (step3 E fuel big tol) (n + 1) p = iter (fun p => conv3 p.flags) (step3 E fuel big tol) n (step3 E fuel big tol p) := by
      rw [iter]; simp only [hc]; rfl
    rw [e] at hconv ⊢
    obtain ⟨h1, h2, h3, h4⟩ := step3_good E fuel hf big tol p hE hp hc
    by_cases hs : conv3 (step3 E fuel big tol p).flags = true
    · have e2 : iter (fun p => conv3 p.flags) (step3 E fuel big tol) n (step3 E fuel big tol p) = step3 E fuel big tol p := by
        cases n with
        | zero => rfl
        | succ n => rw [iter]; simp only [hs]; rfl
      rw [e2]
      obtain ⟨p', g1, g2⟩ := findpts_el_3_converged E fuel hf big tol htol0 p hE hp hc
      have e3 : step3 E fuel big tol p = p' := by unfold step3; rw [g1]; rfl
      rw [e3] at hs ⊢
      exact ⟨p, hp, rfl, hc, g1, g2 hs⟩
    · rw [Bool.not_eq_true] at hs
      obtain ⟨q, q1, q2, q3, q4, q5⟩ := ih (step3 E fuel big tol p) (by rw [h2]; exact hE) h1 hs hconv
      rw [h2] at q2 q5
      exact ⟨q, q1, q2, q3, q4, q5⟩

end

/-! ## Examples -/

/-- the hypotheses of `findpts_el_3_converged` hold at the start -/
example := findpts_el_3_converged exElN3 21 (le_refl 21) 1000 (1 / 100) (by norm_num) (startPt 1000 0 1 ![1, 1 / 2, 3] ![-1, 1, -1] 0) exElN3_regular
  (start_good3 exElN3 1000 ![1, 1 / 2, 3] ![-1, 1, -1] 0 (by decide +kernel)) (by decide +kernel)

/-- the search of `exElN3` for the point `(1,1/2,3)`, which is outside of the element, ends near a local minimum on the face `t = 1` -/
example : let p := iter (fun p => conv3 p.flags) (step3 exElN3 21 1000 (1 / 100)) 50 (startPt 1000 0 1 ![1, 1 / 2, 3] ![-1, 1, -1] 0)
    conv3 p.flags = true ∧ p.r 2 = 1 ∧ NearOpt3 exElN3 p.x p.r p.r (1 / 100) := by
  unfold NearOpt3
  decide +kernel

/-- a prism over the parallelogram `exElP`: `x = r - s`, `y = s/2`, `z = t` -/
def exElP3 : ElMap3 Rat where
  X r := ![r 0 - r 1, r 1 / 2, r 2]
  J _ := ![![1, -1, 0], ![0, 1 / 2, 0], ![0, 0, 1]]
  H _ := 0

/-- **finding** in 3D: as `converged_not_nearest`. For the point `(-1/10, 21/20, 1)` the nearest corner of the prism is `(1,1,1)`, where the search starts, and it ends there, "converged", although `(9/10,1,1)` is nearer. -/
theorem converged_not_nearest_3 :
    let x : Fin 3 → Rat := ![-1 / 10, 21 / 20, 1]
    let p := iter (fun p => conv3 p.flags) (step3 exElP3 21 1000 (1 / 1000000)) 50 (startPt 1000 0 1 x ![1, 1, 1] 0)
    (∀ r ∈ [![1, 1, 1], ![1, -1, 1], ![-1, 1, 1], ![-1, -1, 1], ![1, 1, -1], ![1, -1, -1], ![-1, 1, -1], ![-1, -1, -1]], exElP3.dist2 x ![1, 1, 1] ≤ exElP3.dist2 x r) ∧
    conv3 p.flags = true ∧ p.r 0 = 1 ∧ p.r 1 = 1 ∧ p.r 2 = 1 ∧ p.dist2 = 5 / 16 ∧ exElP3.dist2 x ![9 / 10, 1, 1] = 121 / 400 ∧ (121 / 400 : Rat) < 5 / 16 := by
  decide +kernel

end Gslib.Props
