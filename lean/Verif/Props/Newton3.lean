import Verif.Lemmas.Newton3Step
import Verif.Props.FindptsDrv

/-!
# The point search in 3D: steps stay in the element (C44) and the trust region is kept (C45)
-/

namespace Gslib.Props
open Gslib.El Gslib.Spec

section
variable {K : Type} [Field K] [LinearOrder K] [IsStrictOrderedRing K]

/-- C44: `newton_vol` from any point of the element, with an invertible Jacobian: the goto loop is left (after at most 21 passes through its `switch`), the new point is in the element and in the trust region,
held coordinates are exactly at their bound, and `dist2p` is the decrease of the linearised objective, not negative; the point is flagged as converged exactly if the step is shorter than `tol` -/
theorem newton_vol_in_element (fuel : Nat) (hf : 21 ≤ fuel) (tol : K) (J : Fin 3 → Fin 3 → K) (resid : Fin 3 → K) (p out : Pt K 3) (hdet : det3 J ≠ 0) (htr : 0 ≤ p.tr) (hr : ∀ d, -1 ≤ p.r d ∧ p.r d ≤ 1) :
    ∃ p' c, newtonVol fuel tol J resid p out = some p' ∧ StepOk3 p out p' c (decide (|p'.r 0 - p.r 0| + |p'.r 1 - p.r 1| + |p'.r 2 - p.r 2| < tol)) ∧ p'.dist2p = linSq3 J resid 0 - linSq3 J resid fun d => p'.r d - p.r d := by
  obtain ⟨p', c, dr, e, hpr, hs, hd, -⟩ := newtonVol_step fuel hf tol J resid p out hdet htr hr
  refine ⟨p', c, e, ?_, ?_⟩
  · rw [hpr]; simp only [add_sub_cancel_left]; exact hs
  rw [hd, hpr]
  congr 2
  funext d
  simp

/-- the face objective: second order model of the squared distance in the directions `d1` and `d2`, relative to the start; `rhes` are the second derivatives 11, 12, 22, contracted with the residual -/
def faceModel (J : Fin 3 → Fin 3 → K) (rhes resid : Fin 3 → K) (d1 d2 : Fin 3) (a b : K) : K :=
  (J 0 d1 * J 0 d1 + J 1 d1 * J 1 d1 + J 2 d1 * J 2 d1 - rhes 0) * a ^ 2 + 2 * (J 0 d1 * J 0 d2 + J 1 d1 * J 1 d2 + J 2 d1 * J 2 d2 - rhes 1) * (a * b) +
    (J 0 d2 * J 0 d2 + J 1 d2 * J 1 d2 + J 2 d2 * J 2 d2 - rhes 2) * b ^ 2 -
    2 * ((J 0 d1 * resid 0 + J 1 d1 * resid 1 + J 2 d1 * resid 2) * a + (J 0 d2 * resid 0 + J 1 d2 * resid 1 + J 2 d2 * resid 2) * b)

/-- C44: `newton_face` from any point of the face (coordinate `dn` held by `v`, or not held at all): the new point is on the same face, in the element and in the trust region, held coordinates exactly at their
bound; `dist2p` is the decrease of the second order model, whose Hessian may be indefinite, and no admissible move does better -/
theorem newton_face_in_element (tol : K) (J : Fin 3 → Fin 3 → K) (rhes resid : Fin 3 → K) (dn : Fin 3) (v : Con) (p out : Pt K 3) (htr : 0 ≤ p.tr) (hr : RefPt3 p.r (single3 dn v)) :
    ∃ p' c, newtonFace tol J rhes resid (dn + 1) (dn + 2) dn (fl3 (single3 dn v)) p out = p' ∧ StepOk3 p out p' c (decide (|p'.r (dn + 1) - p.r (dn + 1)| + |p'.r (dn + 2) - p.r (dn + 2)| < tol)) ∧ c dn = v ∧ p'.r dn = p.r dn ∧
      p'.dist2p = -faceModel J rhes resid (dn + 1) (dn + 2) (p'.r (dn + 1) - p.r (dn + 1)) (p'.r (dn + 2) - p.r (dn + 2)) ∧
      ∀ a b, |a| ≤ p.tr → |b| ≤ p.tr → -1 ≤ p.r (dn + 1) + a → p.r (dn + 1) + a ≤ 1 → -1 ≤ p.r (dn + 2) + b → p.r (dn + 2) + b ≤ 1 →
        faceModel J rhes resid (dn + 1) (dn + 2) (p'.r (dn + 1) - p.r (dn + 1)) (p'.r (dn + 2) - p.r (dn + 2)) ≤ faceModel J rhes resid (dn + 1) (dn + 2) a b := by
  obtain ⟨c, h1, h2, h3, h4, h5⟩ := newtonFace_step tol J rhes resid dn v p out htr hr
  have hq : ∀ a b, 2 * evalF ![gram J (dn + 1) (dn + 1) - rhes 0, gram J (dn + 1) (dn + 2) - rhes 1, gram J (dn + 2) (dn + 2) - rhes 2] ![yAt3 J resid (dn + 1), yAt3 J resid (dn + 2)] a b =
      faceModel J rhes resid (dn + 1) (dn + 2) a b := by
    intro a b
    simp [evalF, faceModel, gram, yAt3]; ring
  refine ⟨_, c, rfl, h3, h1, h2, ?_, fun a b a1 a2 a3 a4 a5 a6 => ?_⟩
  · rw [h4, ← hq]; ring
  · rw [← hq, ← hq]
    have := h5 a b a1 a2 a3 a4 a5 a6
    linarith

/-- the edge objective: second order model of the squared distance along direction `de`, relative to the start -/
def edgeModel3 (J : Fin 3 → Fin 3 → K) (rhes : K) (resid : Fin 3 → K) (de : Fin 3) (z : K) : K :=
  (J 0 de ^ 2 + J 1 de ^ 2 + J 2 de ^ 2 - rhes) * z ^ 2 - 2 * (J 0 de * resid 0 + J 1 de * resid 1 + J 2 de * resid 2) * z

/-- C44: `newton_edge` in 3D from any point of the edge in direction `de` (the other coordinates held as in `c`): the new point is on the same edge, in the element and in the trust region, held coordinates exactly
at their bound; `dist2p` is the decrease of the second order model and no admissible move does better -/
theorem newton_edge_in_element_3 (tol : K) (J : Fin 3 → Fin 3 → K) (rhes : K) (resid : Fin 3 → K) (de : Fin 3) (c : Fin 3 → Con) (hc : c de = .free) (p out : Pt K 3) (htr : 0 ≤ p.tr) (hr : RefPt3 p.r c) :
    ∃ p' c', newtonEdge3 tol J rhes resid de (de + 1) (de + 2) (fl3 c) p out = p' ∧ StepOk3 p out p' c' (decide (|p'.r de - p.r de| < tol)) ∧ (∀ d, d ≠ de → c' d = c d ∧ p'.r d = p.r d) ∧
      p'.dist2p = -edgeModel3 J rhes resid de (p'.r de - p.r de) ∧
      ∀ z, |z| ≤ p.tr → -1 ≤ p.r de + z → p.r de + z ≤ 1 → edgeModel3 J rhes resid de (p'.r de - p.r de) ≤ edgeModel3 J rhes resid de z := by
  obtain ⟨w, h1, h2, h3, h4, h5⟩ := newtonEdge3_step tol J rhes resid de c hc p out htr hr
  have hq : ∀ z, evalQ (gram J de de - rhes) (yAt3 J resid de) z = edgeModel3 J rhes resid de z := by
    intro z; unfold evalQ edgeModel3 gram yAt3; ring
  refine ⟨_, _, rfl, h3, fun d hd => ⟨by unfold setc3; rw [if_neg hd], ?_⟩, by rw [← hq]; exact h4, fun z a1 a2 a3 => by rw [← hq, ← hq]; exact h5 z a1 a2 a3⟩
  rcases fin3_cases de d with e | e | e
  · exact absurd e hd
  · rw [e]; exact h1
  · rw [e]; exact h2

/-- an element map is invertible and `big` bounds the squared distances -/
structure Regular3 (E : ElMap3 K) (big : K) (x : Fin 3 → K) : Prop where
  det : ∀ r : Fin 3 → K, (∀ d, -1 ≤ r d ∧ r d ≤ 1) → det3 (E.J r) ≠ 0
  big : ∀ r : Fin 3 → K, (∀ d, -1 ≤ r d ∧ r d ≤ 1) → E.dist2 x r ≤ big

/-- one step as a total function -/
def step3 (E : ElMap3 K) (fuel : Nat) (big tol : K) (p : Pt K 3) : Pt K 3 := (stepPt3 E fuel big tol p).getD p

theorem big_nonneg3 (E : ElMap3 K) (big : K) (x : Fin 3 → K) (hE : Regular3 E big x) : 0 ≤ big :=
  le_trans (by unfold ElMap3.dist2; positivity) (hE.big 0 fun _ => ⟨by simp, by simp⟩)

/-- what a user sees of a point of the search in 3D: in the element, held coordinates at their bound; `dist2` is still `big` before the first step, later the squared distance at a point of the element at most `tr`
away -/
theorem findpts_el_3_state (E : ElMap3 K) (big : K) (p : Pt K 3) (hp : Good3 E big p) :
    ∃ c C, p.flags &&& 0x7f = lowFlags3 c C ∧ RefPt3 p.r c ∧ 0 ≤ p.tr ∧ (p.dist2 = big ∨ ∃ o, (∀ d, -1 ≤ o d ∧ o d ≤ 1) ∧ (∀ d, |p.r d - o d| ≤ p.tr) ∧ p.dist2 = E.dist2 p.x o) := by
  obtain ⟨c, C, h1, h2, h3, h4⟩ := hp
  refine ⟨c, C, h1, h2, h3, ?_⟩
  rcases h4 with h | ⟨o, c', ho, ho1, ho2, ho3, ho4, ho5⟩ | h
  · exact Or.inl h.2.1
  · exact Or.inr ⟨o, fun d => ⟨(ho1 d).1, (ho1 d).2.1⟩, ho5, ho3⟩
  · exact Or.inr ⟨p.r, fun d => ⟨(h2 d).1, (h2 d).2.1⟩, fun d => by rw [sub_self, abs_zero]; exact h3, h.2⟩

/-- C45: a step of an unconverged point in 3D. The objective at the present position is compared with what was predicted: either the present position is accepted, `dist2` becomes its squared distance and the radius
stays or doubles; or the previous position is restored with its squared distance and the radius is cut to a quarter or less. `dist2` never grows. -/
theorem findpts_el_3_trust (E : ElMap3 K) (fuel : Nat) (hf : 21 ≤ fuel) (big tol : K) (p : Pt K 3) (hE : Regular3 E big p.x) (hp : Good3 E big p) (hc : conv3 p.flags = false) :
    ∃ p', stepPt3 E fuel big tol p = some p' ∧ Good3 E big p' ∧ p'.x = p.x ∧ p'.index = p.index ∧ p'.dist2 ≤ p.dist2 ∧
      (1 / 100 * p.dist2p ≤ p.dist2 - E.dist2 p.x p.r → p'.oldr = some p.r ∧ p'.dist2 = E.dist2 p.x p.r ∧ (p'.tr = p.tr ∨ p'.tr = 2 * p.tr)) ∧
      (p.dist2 - E.dist2 p.x p.r < 1 / 100 * p.dist2p → p.oldr = some p'.r ∧ p'.dist2 = p.dist2 ∧ p'.dist2 = E.dist2 p.x p'.r ∧ p'.tr ≤ p.tr / 4) := by
  obtain ⟨p', h1, h2, h3, h4, h5⟩ := stepPt3_run E fuel hf big tol (big_nonneg3 E big p.x hE) hE.det p hE.big hp hc
  obtain ⟨c, C, g1, g2, g3, g4⟩ := hp
  refine ⟨p', h1, h2, h3, h4, ?_, ?_, ?_⟩
  · rcases h5 with ⟨a, b, c, d⟩ | ⟨a, b, c, d, e⟩
    · rw [c]
      rcases g4 with h | ⟨o, c', ho, ho1, ho2, ho3, ho4, ho5⟩ | h
      · rw [h.2.2, mul_zero] at a; linarith
      · have : 0 ≤ 1 / 100 * p.dist2p := by positivity
        linarith
      · rw [h.2]
    · rw [d]
  · intro ha
    rcases h5 with ⟨a, b, c, d⟩ | ⟨a, b, c, d, e⟩
    · exact ⟨b, c, d⟩
    · exact absurd ha (not_le.2 a)
  · intro ha
    rcases h5 with ⟨a, b, c, d⟩ | ⟨a, b, c, d, e⟩
    · exact absurd a (not_le.2 ha)
    · exact ⟨b, d, by rw [d]; exact c, e⟩

theorem step3_good (E : ElMap3 K) (fuel : Nat) (hf : 21 ≤ fuel) (big tol : K) (p : Pt K 3) (hE : Regular3 E big p.x) (hp : Good3 E big p) (hc : conv3 p.flags = false) :
    Good3 E big (step3 E fuel big tol p) ∧ (step3 E fuel big tol p).x = p.x ∧ (step3 E fuel big tol p).index = p.index ∧ (step3 E fuel big tol p).dist2 ≤ p.dist2 := by
  obtain ⟨p', h1, h2, h3, h4, h5, -⟩ := findpts_el_3_trust E fuel hf big tol p hE hp hc
  unfold step3
  rw [h1]
  exact ⟨h2, h3, h4, h5⟩

theorem start_good3 (E : ElMap3 K) (big : K) (x r : Fin 3 → K) (i : Nat) (hr : ∀ d, -1 ≤ r d ∧ r d ≤ 1) : Good3 E big (startPt big 0 1 x r i) :=
  ⟨fun _ => .free, false, by show (0 : U32) &&& 0x7f = _; decide, fun d => ⟨(hr d).1, (hr d).2, by simp, by simp⟩, zero_le_one, Or.inl ⟨rfl, rfl, rfl⟩⟩

/-- C44, C45: the whole search of one point in 3D, any number of steps: the point stays in the element with the held coordinates exactly at their bound, and `dist2` after more steps is not larger -/
theorem findpts_el_3_iterates (E : ElMap3 K) (fuel : Nat) (hf : 21 ≤ fuel) (big tol : K) (n : Nat) (p : Pt K 3) (hE : Regular3 E big p.x) (hp : Good3 E big p) :
    Good3 E big (iter (fun p => conv3 p.flags) (step3 E fuel big tol) n p) ∧ (iter (fun p => conv3 p.flags) (step3 E fuel big tol) n p).x = p.x ∧
      (iter (fun p => conv3 p.flags) (step3 E fuel big tol) n p).dist2 ≤ p.dist2 := by
  induction n generalizing p with
  | zero => exact ⟨hp, rfl, le_refl _⟩
  | succ n ih =>
    unfold iter
    by_cases hc : conv3 p.flags = true
    · simp only [hc, if_true]; exact ⟨hp, trivial, le_refl _⟩
    · simp only [hc]
      rw [Bool.not_eq_true] at hc
      obtain ⟨h1, h2, h3, h4⟩ := step3_good E fuel hf big tol p hE hp hc
      obtain ⟨i1, i2, i3⟩ := ih (step3 E fuel big tol p) (by rw [h2]; exact hE) h1
      exact ⟨i1, i2.trans h2, i3.trans h4⟩

end

/-! ## Examples -/

/-- the identity -/
def exId : Fin 3 → Fin 3 → Rat := ![![1, 0, 0], ![0, 1, 0], ![0, 0, 1]]

/-- a point at the centre with radius 1/2 -/
def exPt3 : Pt Rat 3 := ⟨![3, 1, 1 / 4], 0, some 0, 10, 0, 1 / 2, 0, 0⟩

/-- the Newton step is `(3,1,1/4)`, cut at the trust region; the face and then the edge of the box are searched; the result is `(1/2,1/2,1/4)` and no bound of the element is met -/
example : (newtonVol 21 (1 / 1000) exId ![3, 1, 1 / 4] exPt3 exPt3).map (fun p => (p.r 0, p.r 1, p.r 2, p.flags)) = some (1 / 2, 1 / 2, 1 / 4, 0) := by decide +kernel

/-- with a radius of 4 the upper bounds of the element are met in all directions -/
example : (newtonVol 21 (1 / 1000) exId ![3, 2, 4] { exPt3 with tr := 4 } exPt3).map (fun p => (p.r 0, p.r 1, p.r 2, p.flags)) = some (1, 1, 1, 42) := by decide +kernel

/-- the hypotheses of `newton_vol_in_element` hold here -/
example : det3 exId ≠ 0 ∧ 0 ≤ exPt3.tr ∧ ∀ d, -1 ≤ exPt3.r d ∧ exPt3.r d ≤ 1 := by decide +kernel

/-- `newton_face` with an indefinite Hessian (second derivative 3 in the first direction): a side of the box is best -/
example : let p := newtonFace (1 / 1000) exId ![3, 0, 0] ![1 / 4, 1 / 8, 0] 0 1 2 16 { exPt3 with r := ![0, 0, -1] } exPt3
    (p.r 0, p.r 1, p.r 2, p.flags, p.dist2p) = (1 / 2, 1 / 8, -1, 16, 49 / 64) := by decide +kernel

/-- its hypotheses hold here -/
example : RefPt3 (![0, 0, -1] : Fin 3 → Rat) (single3 2 .lo) ∧ fl3 (single3 2 .lo) = 16 := by
  refine ⟨fun d => ?_, by decide⟩
  fin_cases d <;> decide +kernel

/-- `newton_edge` in direction 0 of the edge `s = -1`, `t = 1`: the bound `r = 1` of the element is met -/
example : let p := newtonEdge3 (1 / 1000) exId 0 ![3, 0, 0] 0 1 2 36 { exPt3 with r := ![3 / 4, -1, 1] } exPt3
    (p.r 0, p.r 1, p.r 2, p.flags, p.dist2p) = (1, -1, 1, 38, 23 / 16) := by decide +kernel

/-- Finding: `newton_vol` does not solve its trust region problem, not even from the centre of the element. Here it meets `s = -1` and `t = 1`, finds that both constraints pull inward, releases both at once and stops
(the `switch` has no case for no constraints): it stays on both bounds, with no constraint recorded, although a step with a smaller linearised objective exists. -/
theorem newton_vol_not_exact :
    ∃ (J : Fin 3 → Fin 3 → Rat) (resid : Fin 3 → Rat) (p p' : Pt Rat 3) (dr : Fin 3 → Rat), det3 J ≠ 0 ∧ 0 < p.tr ∧ (∀ d, -1 < p.r d ∧ p.r d < 1) ∧ newtonVol 21 (1 / 1000) J resid p p = some p' ∧
      (∀ d, |dr d| ≤ p.tr) ∧ (∀ d, -1 ≤ p.r d + dr d ∧ p.r d + dr d ≤ 1) ∧ p'.flags &&& 0x7f = 0 ∧ p'.r 1 = -1 ∧ p'.r 2 = 1 ∧
      linSq3 J resid dr < linSq3 J resid fun d => p'.r d - p.r d := by
  let p : Pt Rat 3 := ⟨![-5, -5, 1], ![0, 0, 0], none, 200, 0, 2, 0, 0⟩
  let J : Fin 3 → Fin 3 → Rat := ![![1, 3, -2], ![2, 3, 0], ![-1, -2, 1]]
  obtain ⟨p', c, e, -, -⟩ := newton_vol_in_element 21 (le_refl 21) (1 / 1000 : Rat) J ![-5, -5, 1] p p (by decide +kernel) (by decide +kernel) (by decide +kernel)
  have hr : (newtonVol 21 (1 / 1000 : Rat) J ![-5, -5, 1] p p).map (fun q => (q.r 0, q.r 1, q.r 2, q.flags)) = some (-1 / 3, -1, 1, 0) := by decide +kernel
  rw [e, Option.map_some, Option.some.injEq, Prod.mk.injEq, Prod.mk.injEq, Prod.mk.injEq] at hr
  obtain ⟨h0, h1, h2, h3⟩ := hr
  refine ⟨J, ![-5, -5, 1], p, p', ![-16 / 21, -1, 1 / 7], by decide +kernel, by decide +kernel, by decide +kernel, e, by decide +kernel, by decide +kernel, by rw [h3]; decide, h1, h2, ?_⟩
  unfold linSq3
  beta_reduce
  rw [h0, h1, h2]
  decide +kernel

/-- a sheared parabolic element: `x = 2r + s`, `y = s + t/2 + r^2/8`, `z = t` -/
def exElN3 : ElMap3 Rat where
  X r := ![2 * r 0 + r 1, r 1 + r 2 / 2 + r 0 ^ 2 / 8, r 2]
  J r := ![![2, 1, 0], ![r 0 / 4, 1, 1 / 2], ![0, 0, 1]]
  H _ := ![0, ![1 / 4, 0, 0, 0, 0, 0], 0]

/-- it meets the hypotheses: the determinant is `2 - r/4` -/
theorem exElN3_regular : Regular3 exElN3 1000 ![1, 1 / 2, 3] := by
  constructor
  · intro r hr
    have h := hr 0
    simp only [exElN3, det3]
    show (2 : Rat) * (1 * 1 - 1 / 2 * 0) + 1 * (1 / 2 * 0 - r 0 / 4 * 1) + 0 * (r 0 / 4 * 0 - 1 * 0) ≠ 0
    intro h0; linarith [h.1, h.2]
  · intro r hr
    obtain ⟨a, b⟩ := hr 0
    obtain ⟨c, d⟩ := hr 1
    obtain ⟨f, g⟩ := hr 2
    simp only [exElN3, ElMap3.dist2]
    show ((1 : Rat) - (2 * r 0 + r 1)) ^ 2 + (1 / 2 - (r 1 + r 2 / 2 + r 0 ^ 2 / 8)) ^ 2 + (3 - r 2) ^ 2 ≤ 1000
    have h1 : |(1 : Rat) - (2 * r 0 + r 1)| ≤ 4 := abs_le.2 ⟨by linarith, by linarith⟩
    have h0 : r 0 ^ 2 ≤ 1 := by nlinarith
    have h2 : |(1 / 2 : Rat) - (r 1 + r 2 / 2 + r 0 ^ 2 / 8)| ≤ 4 := abs_le.2 ⟨by nlinarith, by nlinarith⟩
    have h3 : |(3 : Rat) - r 2| ≤ 4 := abs_le.2 ⟨by linarith, by linarith⟩
    have h4 := sq_le_sq' (by linarith [abs_nonneg ((1 : Rat) - (2 * r 0 + r 1))]) h1
    have h5 := sq_le_sq' (by linarith [abs_nonneg ((1 / 2 : Rat) - (r 1 + r 2 / 2 + r 0 ^ 2 / 8))]) h2
    have h6 := sq_le_sq' (by linarith [abs_nonneg ((3 : Rat) - r 2)]) h3
    rw [sq_abs] at h4 h5 h6
    linarith

/-- the point is outside: the search from the node `(-1,1,-1)` goes to the face `t = 1` and ends there after a few steps on the face -/
example : let p := iter (fun p => conv3 p.flags) (step3 exElN3 21 1000 (1 / 100)) 50 (startPt 1000 0 1 ![1, 1 / 2, 3] ![-1, 1, -1] 0)
    conv3 p.flags = true ∧ p.r 2 = 1 ∧ p.flags &&& 0x3f = 32 ∧ 4 ≤ exElN3.dist2 p.x p.r ∧ exElN3.dist2 p.x p.r < 4 + 1 / 1000000 := by
  decide +kernel

end Gslib.Props
