import Verif.Lemmas.Newton2Step
import Verif.Props.FindptsDrv

/-!
# The point search in 2D: steps stay in the element (C44) and the trust region is kept (C45)
-/

namespace Gslib.Props
open Gslib.El Gslib.Spec

section
variable {K : Type} [Field K] [LinearOrder K] [IsStrictOrderedRing K]

theorem linSq_eq (jac : Fin 4 → K) (resid dr : Fin 2 → K) : sq2 (resAt jac resid dr) = linSq jac resid dr := by
  simp [sq2, resAt, linSq]; ring

theorem linSq_zero (jac : Fin 4 → K) (resid : Fin 2 → K) : sq2 resid = linSq jac resid 0 := by
  simp [sq2, linSq]; ring

/-- C44: `newton_area` from any point of the element, with an invertible Jacobian: the goto loop is left after passing `newton_area_edge` at most twice, the new point is in the element and in the trust region,
held coordinates are exactly at their bound, and `dist2p` is the decrease of the linearised objective, not negative -/
theorem newton_area_in_element (fuel : Nat) (hf : 2 ≤ fuel) (tol : K) (jac : Fin 4 → K) (resid : Fin 2 → K) (p out : Pt K 2) (hdet : jac 0 * jac 3 - jac 1 * jac 2 ≠ 0) (htr : 0 ≤ p.tr)
    (hr : ∀ d, -1 ≤ p.r d ∧ p.r d ≤ 1) :
    ∃ p' c C, newtonArea fuel tol jac resid p out = some p' ∧ StepOk p out p' c C ∧ p'.dist2p = linSq jac resid 0 - linSq jac resid fun d => p'.r d - p.r d := by
  obtain ⟨p', c, dr, e, hpr, hs, hd, _⟩ := newtonArea_step fuel hf tol jac resid p out hdet htr hr
  refine ⟨p', _, _, e, hs, ?_⟩
  rw [hd, ← linSq_zero, ← linSq_eq, hpr]
  congr 2
  funext d
  simp

/-- C44: from a point strictly inside the element, `newton_area` solves its trust region problem exactly: no admissible step has a smaller linearised objective -/
theorem newton_area_exact (fuel : Nat) (hf : 2 ≤ fuel) (tol : K) (jac : Fin 4 → K) (resid : Fin 2 → K) (p out p' : Pt K 2) (hdet : jac 0 * jac 3 - jac 1 * jac 2 ≠ 0) (htr : 0 < p.tr)
    (hr : ∀ d, -1 < p.r d ∧ p.r d < 1) (h : newtonArea fuel tol jac resid p out = some p') (dr : Fin 2 → K) (h1 : ∀ d, |dr d| ≤ p.tr) (h2 : ∀ d, -1 ≤ p.r d + dr d ∧ p.r d + dr d ≤ 1) :
    linSq jac resid (fun d => p'.r d - p.r d) ≤ linSq jac resid dr := by
  obtain ⟨p'', c, dr0, e, hpr, -, -, ha⟩ := newtonArea_step fuel hf tol jac resid p out hdet htr.le fun d => ⟨(hr d).1.le, (hr d).2.le⟩
  rw [h] at e
  obtain rfl := Option.some.inj e
  rw [hpr, ← linSq_eq, ← linSq_eq, show (fun d => p.r d + dr0 d - p.r d) = dr0 by funext d; simp]
  refine kkt_min dr0 dr fun d => ?_
  by_cases hc : c d = .free
  · rw [ha.free d hc, zero_mul]
  have hh := ha.held d hc
  have hlo : (areaBox p.tr p.r).lo d < p.r d := by rw [areaBox_lo]; exact max_lt (hr d).1 (by linarith)
  have hhi : p.r d < (areaBox p.tr p.r).hi d := by rw [areaBox_hi]; exact lt_min (hr d).2 (by linarith)
  have h1 := abs_le.1 (h1 d)
  have h2 := h2 d
  have hle : (areaBox p.tr p.r).lo d ≤ p.r d + dr d := by rw [areaBox_lo]; exact max_le h2.1 (by linarith)
  have hge : p.r d + dr d ≤ (areaBox p.tr p.r).hi d := by rw [areaBox_hi]; exact le_min h2.2 (by linarith)
  rcases con_cases _ hc with hv | hv
  · rw [hv] at hh
    have hh : p.r d + dr0 d = (areaBox p.tr p.r).lo d := hh
    have := ha.con d hc (by intro h0; rw [h0] at hh; linarith)
    rw [hv] at this
    have : 0 ≤ -1 * yAt jac (resAt jac resid dr0) d := this
    have h3 : 0 ≤ dr d - dr0 d := by linarith
    nlinarith [mul_nonneg (by linarith : 0 ≤ -yAt jac (resAt jac resid dr0) d) h3]
  · rw [hv] at hh
    have hh : p.r d + dr0 d = (areaBox p.tr p.r).hi d := hh
    have := ha.con d hc (by intro h0; rw [h0] at hh; linarith)
    rw [hv] at this
    have : 0 ≤ 1 * yAt jac (resAt jac resid dr0) d := this
    have h3 : 0 ≤ dr0 d - dr d := by linarith
    nlinarith [mul_nonneg (by linarith : 0 ≤ yAt jac (resAt jac resid dr0) d) h3]

/-- the edge objective: second order model of the squared distance along direction `de`, relative to the start -/
def edgeModel (jac : Fin 4 → K) (rhes : K) (resid : Fin 2 → K) (de : Fin 2) (z : K) : K :=
  (jac (col0 de) ^ 2 + jac (col1 de) ^ 2 - rhes) * z ^ 2 - 2 * (jac (col0 de) * resid 0 + jac (col1 de) * resid 1) * z

/-- C44: `newton_edge` from any point of the edge (coordinate `dn` held by `v`, or not held at all): the new point is on the same edge, in the element and in the trust region, held coordinates exactly at their bound;
`dist2p` is the decrease of the second order model and no admissible move does better -/
theorem newton_edge_in_element (tol : K) (jac : Fin 4 → K) (rhes : K) (resid : Fin 2 → K) (dn : Fin 2) (v : Con) (p out : Pt K 2) (htr : 0 ≤ p.tr) (hr : RefPt p.r (single dn v)) :
    ∃ p' c C, newtonEdge tol jac rhes resid (oth dn) dn (fl (single dn v)) p out = p' ∧ StepOk p out p' c C ∧ c dn = v ∧ p'.r dn = p.r dn ∧
      p'.dist2p = -edgeModel jac rhes resid (oth dn) (p'.r (oth dn) - p.r (oth dn)) ∧
      ∀ z, |z| ≤ p.tr → -1 ≤ p.r (oth dn) + z → p.r (oth dn) + z ≤ 1 → edgeModel jac rhes resid (oth dn) (p'.r (oth dn) - p.r (oth dn)) ≤ edgeModel jac rhes resid (oth dn) z := by
  have hm := edgeChoice_min (jtj jac (oth dn) - rhes) (yAt jac resid (oth dn)) p.tr (p.r (oth dn)) (fl (single dn v)) (oth dn) htr ⟨(hr _).1, (hr _).2.1⟩
  have hq : ∀ z, evalQ (jtj jac (oth dn) - rhes) (yAt jac resid (oth dn)) z = edgeModel jac rhes resid (oth dn) z := by
    intro z; unfold evalQ edgeModel jtj yAt; ring
  obtain ⟨c, C, h1, h2, h3⟩ := newtonEdge_step tol jac rhes resid dn v p out htr hr
  have hro : (newtonEdge tol jac rhes resid (oth dn) dn (fl (single dn v)) p out).r (oth dn) - p.r (oth dn) =
      (edgeChoice (jtj jac (oth dn) - rhes) (yAt jac resid (oth dn)) p.tr (p.r (oth dn)) (fl (single dn v)) (oth dn)).dr := by
    simp only [newtonEdge, if_true]
    rw [hm.2.1]; ring
  refine ⟨_, c, C, rfl, h3, h1, h2, ?_, fun z a1 a2 a3 => ?_⟩
  · rw [hro, ← hq]; rfl
  · rw [hro, ← hq, ← hq]; exact hm.2.2 z a1 a2 a3

/-- an element map is invertible and `big` bounds the squared distances -/
structure Regular2 (E : ElMap K) (big : K) (x : Fin 2 → K) : Prop where
  det : ∀ r : Fin 2 → K, (∀ d, -1 ≤ r d ∧ r d ≤ 1) → E.J r 0 * E.J r 3 - E.J r 1 * E.J r 2 ≠ 0
  big : ∀ r : Fin 2 → K, (∀ d, -1 ≤ r d ∧ r d ≤ 1) → E.dist2 x r ≤ big

/-- one step as a total function -/
def step2 (E : ElMap K) (fuel : Nat) (big tol : K) (p : Pt K 2) : Pt K 2 := (stepPt2 E fuel big tol p).getD p

theorem big_nonneg (E : ElMap K) (big : K) (x : Fin 2 → K) (hE : Regular2 E big x) : 0 ≤ big :=
  le_trans (by unfold ElMap.dist2; positivity) (hE.big 0 fun _ => ⟨by simp, by simp⟩)

/-- what a user sees of a point of the search: in the element, held coordinates at their bound; `dist2` is still `big` before the first step, later the squared distance at a point of the element at most `tr` away;
and the state of the previous step can be restored -/
theorem findpts_el_2_state (E : ElMap K) (big : K) (p : Pt K 2) (hp : Good2 E big p) :
    ∃ c C, p.flags &&& 0x1f = lowFlags c C ∧ RefPt p.r c ∧ 0 ≤ p.tr ∧ (p.dist2 = big ∨ ∃ o, (∀ d, -1 ≤ o d ∧ o d ≤ 1) ∧ (∀ d, |p.r d - o d| ≤ p.tr) ∧ p.dist2 = E.dist2 p.x o) := by
  obtain ⟨c, C, h1, h2, h3, h4⟩ := hp
  refine ⟨c, C, h1, h2, h3, ?_⟩
  rcases h4 with h | ⟨o, c', ho, ho1, ho2, ho3, ho4, ho5⟩ | h
  · exact Or.inl h.2.1
  · exact Or.inr ⟨o, fun d => ⟨(ho1 d).1, (ho1 d).2.1⟩, ho5, ho3⟩
  · exact Or.inr ⟨p.r, fun d => ⟨(h2 d).1, (h2 d).2.1⟩, fun d => by rw [sub_self, abs_zero]; exact h3, h.2⟩

/-- C45: a step of an unconverged point. The objective at the present position is compared with what was predicted: either the present position is accepted, `dist2` becomes its squared distance and the radius
stays or doubles; or the previous position is restored with its squared distance and the radius is cut to a quarter or less. `dist2` never grows. -/
theorem findpts_el_2_trust (E : ElMap K) (fuel : Nat) (hf : 2 ≤ fuel) (big tol : K) (p : Pt K 2) (hE : Regular2 E big p.x) (hp : Good2 E big p) (hc : conv2 p.flags = false) :
    ∃ p', stepPt2 E fuel big tol p = some p' ∧ Good2 E big p' ∧ p'.x = p.x ∧ p'.index = p.index ∧ p'.dist2 ≤ p.dist2 ∧
      (1 / 100 * p.dist2p ≤ p.dist2 - E.dist2 p.x p.r → p'.oldr = some p.r ∧ p'.dist2 = E.dist2 p.x p.r ∧ (p'.tr = p.tr ∨ p'.tr = 2 * p.tr)) ∧
      (p.dist2 - E.dist2 p.x p.r < 1 / 100 * p.dist2p → p.oldr = some p'.r ∧ p'.dist2 = p.dist2 ∧ p'.dist2 = E.dist2 p.x p'.r ∧ p'.tr ≤ p.tr / 4) := by
  obtain ⟨p', h1, h2, h3, h4, h5⟩ := stepPt2_run E fuel hf big tol (big_nonneg E big p.x hE) hE.det p hE.big hp hc
  obtain ⟨c, C, g1, g2, g3, g4⟩ := hp
  refine ⟨p', h1, h2, h3, h4, ?_, ?_, ?_⟩
  · rcases h5 with ⟨a, b, c, d⟩ | ⟨a, b, c, d, e⟩
    · rw [c]
      rcases g4 with h | ⟨o, c', ho, ho1, ho2, ho3, ho4, ho5⟩ | h
      · rw [h.2.2, mul_zero] at a; linarith
      · have : 0 ≤ 1 / 100 * p.dist2p := by positivity
        linarith
      · rw [h.2]
    · rw [d]
  · intro ha
    rcases h5 with ⟨a, b, c, d⟩ | ⟨a, b, c, d, e⟩
    · exact ⟨b, c, d⟩
    · exact absurd ha (not_le.2 a)
  · intro ha
    rcases h5 with ⟨a, b, c, d⟩ | ⟨a, b, c, d, e⟩
    · exact absurd a (not_le.2 ha)
    · exact ⟨b, d, by rw [d]; exact c, e⟩

theorem step2_good (E : ElMap K) (fuel : Nat) (hf : 2 ≤ fuel) (big tol : K) (p : Pt K 2) (hE : Regular2 E big p.x) (hp : Good2 E big p) (hc : conv2 p.flags = false) :
    Good2 E big (step2 E fuel big tol p) ∧ (step2 E fuel big tol p).x = p.x ∧ (step2 E fuel big tol p).index = p.index ∧ (step2 E fuel big tol p).dist2 ≤ p.dist2 := by
  obtain ⟨p', h1, h2, h3, h4, h5, -⟩ := findpts_el_2_trust E fuel hf big tol p hE hp hc
  unfold step2
  rw [h1]
  exact ⟨h2, h3, h4, h5⟩

theorem start_good (E : ElMap K) (big : K) (x r : Fin 2 → K) (i : Nat) (hr : ∀ d, -1 ≤ r d ∧ r d ≤ 1) : Good2 E big (startPt big 0 1 x r i) :=
  ⟨fun _ => .free, false, by show (0 : U32) &&& 0x1f = _; decide, fun d => ⟨(hr d).1, (hr d).2, by simp, by simp⟩, zero_le_one, Or.inl ⟨rfl, rfl, rfl⟩⟩

/-- C44, C45: the whole search of one point, any number of steps: the point stays in the element with the held coordinates exactly at their bound, and `dist2` after more steps is not larger -/
theorem findpts_el_2_iterates (E : ElMap K) (fuel : Nat) (hf : 2 ≤ fuel) (big tol : K) (n : Nat) (p : Pt K 2) (hE : Regular2 E big p.x) (hp : Good2 E big p) :
    Good2 E big (iter (fun p => conv2 p.flags) (step2 E fuel big tol) n p) ∧ (iter (fun p => conv2 p.flags) (step2 E fuel big tol) n p).x = p.x ∧
      (iter (fun p => conv2 p.flags) (step2 E fuel big tol) n p).dist2 ≤ p.dist2 := by
  induction n generalizing p with
  | zero => exact ⟨hp, rfl, le_refl _⟩
  | succ n ih =>
    unfold iter
    by_cases hc : conv2 p.flags = true
    · simp only [hc, if_true]; exact ⟨hp, trivial, le_refl _⟩
    · simp only [hc]
      rw [Bool.not_eq_true] at hc
      obtain ⟨h1, h2, h3, h4⟩ := step2_good E fuel hf big tol p hE hp hc
      obtain ⟨i1, i2, i3⟩ := ih (step2 E fuel big tol p) (by rw [h2]; exact hE) h1
      exact ⟨i1, i2.trans h2, i3.trans h4⟩

end

/-! ## Examples -/

/-- a point at the centre with radius 1/2 -/
def exPt : Pt Rat 2 := ⟨![3, 1], 0, some 0, 10, 0, 1 / 2, 0, 0⟩

/-- the Newton step is `(3,1)`, cut at the trust region to `(1/2, 1/6)`, then moved along that edge to `(1/2, 1/2)`; no bound of the element is met -/
example : (newtonArea 2 (1 / 1000) ![1, 0, 0, 1] ![3, 1] exPt exPt).map (fun p => (p.r 0, p.r 1, p.flags, p.dist2p)) = some (1 / 2, 1 / 2, 0, 10 - ((5 / 2) ^ 2 + (1 / 2) ^ 2)) := by
  decide +kernel

/-- with a radius of 4 the upper bounds of the element are met in both directions -/
example : (newtonArea 2 (1 / 1000) ![1, 0, 0, 1] ![3, 2] { exPt with tr := 4 } exPt).map (fun p => (p.r 0, p.r 1, p.flags)) = some (1, 1, 10) := by decide +kernel

/-- the hypotheses of `newton_area_exact` hold here -/
example : (1 : Rat) * 1 - 0 * 0 ≠ 0 ∧ 0 < exPt.tr ∧ ∀ d, -1 < exPt.r d ∧ exPt.r d < 1 := by decide +kernel

/-- Finding: `newton_area` does not solve its trust region problem when it starts on the boundary. From `(1,0)` with Jacobian `[[1,-1],[0,1/2]]` and the Newton step `(1,10)` the bound `r = 1` is met at once, and it is
not released because `dr = 0` there, although the step `(-1/2, 1/2)` is better than the step `(0,1/2)` taken. -/
theorem newton_area_boundary_not_exact :
    ∃ (jac : Fin 4 → Rat) (resid : Fin 2 → Rat) (p p' : Pt Rat 2) (dr : Fin 2 → Rat), jac 0 * jac 3 - jac 1 * jac 2 ≠ 0 ∧ 0 < p.tr ∧ (∀ d, -1 ≤ p.r d ∧ p.r d ≤ 1) ∧
      newtonArea 2 (1 / 1000) jac resid p p = some p' ∧ (∀ d, |dr d| ≤ p.tr) ∧ (∀ d, -1 ≤ p.r d + dr d ∧ p.r d + dr d ≤ 1) ∧
      linSq jac resid dr < linSq jac resid fun d => p'.r d - p.r d := by
  let p : Pt Rat 2 := ⟨![-9, 5], ![1, 0], none, 200, 0, 1 / 2, 0, 0⟩
  obtain ⟨p', c, C, e, -, -⟩ := newton_area_in_element 2 (le_refl 2) (1 / 1000 : Rat) ![1, -1, 0, 1 / 2] ![-9, 5] p p (by decide +kernel) (by decide +kernel) (by decide +kernel)
  have hr : (newtonArea 2 (1 / 1000 : Rat) ![1, -1, 0, 1 / 2] ![-9, 5] p p).map (fun q => (q.r 0, q.r 1)) = some (1, 1 / 2) := by decide +kernel
  rw [e, Option.map_some, Option.some.injEq, Prod.mk.injEq] at hr
  refine ⟨![1, -1, 0, 1 / 2], ![-9, 5], p, p', ![-1 / 2, 1 / 2], by decide +kernel, by decide +kernel, by decide +kernel, e, by decide +kernel, by decide +kernel, ?_⟩
  unfold linSq
  beta_reduce
  rw [hr.1, hr.2]
  decide +kernel

/-- a sheared parabolic element: `x = 2r + s`, `y = s + r^2/8` -/
def exElN : ElMap Rat where
  X r := ![2 * r 0 + r 1, r 1 + r 0 ^ 2 / 8]
  J r := ![2, 1, r 0 / 4, 1]
  H _ := ![0, 0, 1 / 4, 0]

/-- it meets the hypotheses: the determinant is `2 - r/4` -/
theorem exElN_regular : Regular2 exElN 1000 ![1, 1 / 2] := by
  constructor
  · intro r hr
    have h := hr 0
    simp only [exElN]
    show (2 : Rat) * 1 - 1 * (r 0 / 4) ≠ 0
    intro h0; linarith [h.1, h.2]
  · intro r hr
    obtain ⟨a, b⟩ := hr 0
    obtain ⟨c, d⟩ := hr 1
    simp only [exElN, ElMap.dist2]
    show ((1 : Rat) - (2 * r 0 + r 1)) ^ 2 + (1 / 2 - (r 1 + r 0 ^ 2 / 8)) ^ 2 ≤ 1000
    have h1 : |(1 : Rat) - (2 * r 0 + r 1)| ≤ 4 := abs_le.2 ⟨by linarith, by linarith⟩
    have h0 : r 0 ^ 2 ≤ 1 := by nlinarith
    have h2 : |(1 / 2 : Rat) - (r 1 + r 0 ^ 2 / 8)| ≤ 4 := abs_le.2 ⟨by nlinarith, by nlinarith⟩
    have h3 := sq_le_sq' (by linarith [abs_nonneg ((1 : Rat) - (2 * r 0 + r 1))]) h1
    have h4 := sq_le_sq' (by linarith [abs_nonneg ((1 / 2 : Rat) - (r 1 + r 0 ^ 2 / 8))]) h2
    rw [sq_abs] at h3 h4
    linarith

/-- the search from the node `(-1,1)`: each iterate is the Newton point of the one before and is accepted; the fourth step is small and ends it -/
example : ((List.range 6).map fun n => (iter (fun p => conv2 p.flags) (step2 exElN 2 1000 (1 / 100)) n (startPt 1000 0 1 ![1, 1 / 2] ![-1, 1] 0)).r 0) = [-1, 0, 1 / 4, 63 / 248, 242047 / 952816, 242047 / 952816] ∧
    ((List.range 6).map fun n => (iter (fun p => conv2 p.flags) (step2 exElN 2 1000 (1 / 100)) n (startPt 1000 0 1 ![1, 1 / 2] ![-1, 1] 0)).dist2) = [1000, 281 / 64, 17 / 128, 1 / 16384, 1 / 242095489024, 1 / 242095489024] := by
  decide +kernel

/-- Finding: when the search ends with a small step, the `dist2` reported is that of the position before this step, not of the position reported -/
example : let p := iter (fun p => conv2 p.flags) (step2 exElN 2 1000 (1 / 100)) 50 (startPt 1000 0 1 ![1, 1 / 2] ![-1, 1] 0)
    p.dist2 = 1 / 242095489024 ∧ exElN.dist2 p.x p.r < p.dist2 ∧ p.oldr = some ![63 / 248, 61 / 124] ∧ exElN.dist2 p.x ![63 / 248, 61 / 124] = p.dist2 := by
  decide +kernel

end Gslib.Props
