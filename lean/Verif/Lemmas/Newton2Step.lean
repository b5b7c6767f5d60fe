import Verif.Lemmas.Newton2

/-!
# The search for one point in 2D: what is maintained
-/

namespace Gslib.El
open Gslib.Spec

variable {K : Type} [Field K] [LinearOrder K] [IsStrictOrderedRing K]

/-- what is known of the previous position of a point -/
def Hist (E : ElMap K) (big : K) (p : Pt K 2) : Prop :=
  (p.oldr = none ∧ p.dist2 = big ∧ p.dist2p = 0) ∨
  (∃ o c', p.oldr = some o ∧ RefPt o c' ∧ (p.flags >>> 5) &&& 0x1f = lowFlags c' false ∧ p.dist2 = E.dist2 p.x o ∧ 0 ≤ p.dist2p ∧ ∀ d, |p.r d - o d| ≤ p.tr) ∨
  (p.dist2p ≤ 0 ∧ p.dist2 = E.dist2 p.x p.r)

/-- what is maintained -/
def Good2 (E : ElMap K) (big : K) (p : Pt K 2) : Prop :=
  ∃ c C, p.flags &&& 0x1f = lowFlags c C ∧ RefPt p.r c ∧ 0 ≤ p.tr ∧ Hist E big p

/-- the two outcomes of a step -/
def Outcome2 (E : ElMap K) (p p' : Pt K 2) : Prop :=
  (1 / 100 * p.dist2p ≤ p.dist2 - E.dist2 p.x p.r ∧ p'.oldr = some p.r ∧ p'.dist2 = E.dist2 p.x p.r ∧ (p'.tr = p.tr ∨ p'.tr = 2 * p.tr)) ∨
  (p.dist2 - E.dist2 p.x p.r < 1 / 100 * p.dist2p ∧ p.oldr = some p'.r ∧ p.dist2 = E.dist2 p.x p'.r ∧ p'.dist2 = p.dist2 ∧ p'.tr ≤ p.tr / 4)

theorem resid_sq (E : ElMap K) (x r : Fin 2 → K) : E.resid x r 0 * E.resid x r 0 + E.resid x r 1 * E.resid x r 1 = E.dist2 x r := by
  simp [ElMap.resid, ElMap.dist2]; ring

theorem low_or_c (c : Fin 2 → Con) (f : U32) (h : f &&& 0x1f = lowFlags c false) (b : Prop) [Decidable b] : (f ||| (if b then (16 : U32) else 0)) &&& 0x1f = lowFlags c (decide b) := by
  rw [BitVec.and_comm, BitVec.and_or_distrib_left, BitVec.and_comm, h]
  by_cases hb : b
  · simp only [hb, if_true, decide_true, lowFlags]
    generalize c 0 = x; generalize c 1 = y
    cases x <;> cases y <;> decide
  · simp only [hb, if_false, decide_false, lowFlags]
    simp

/-- checking the previous step: accepted, or rejected and back at the previous position -/
theorem rejectPrior_run (E : ElMap K) (big tol : K) (p : Pt K 2) (hp : Good2 E big p) (hbig : E.dist2 p.x p.r ≤ big) (hb0 : 0 ≤ big) :
    (∃ out, rejectPrior2 big tol (E.resid p.x p.r) p = some (.inl out) ∧ 1 / 100 * p.dist2p ≤ p.dist2 - E.dist2 p.x p.r ∧ out.x = p.x ∧ out.index = p.index ∧ out.oldr = some p.r ∧
      out.dist2 = E.dist2 p.x p.r ∧ (out.tr = p.tr ∨ out.tr = 2 * p.tr)) ∨
    (∃ out, rejectPrior2 big tol (E.resid p.x p.r) p = some (.inr out) ∧ Good2 E big out ∧ out.x = p.x ∧ out.index = p.index ∧ Outcome2 E p out) := by
  unfold rejectPrior2
  dsimp only
  rw [resid_sq]
  by_cases hacc : 1 / 100 * p.dist2p ≤ p.dist2 - E.dist2 p.x p.r
  · left
    rw [if_pos hacc]
    refine ⟨_, rfl, hacc, rfl, rfl, rfl, rfl, ?_⟩
    dsimp only
    split_ifs
    · right; ring
    · left; rfl
  · right
    rw [if_neg hacc]
    push Not at hacc
    obtain ⟨c, C, hfl, href, htr, hh⟩ := hp
    rcases hh with ⟨_, h1, h2⟩ | ⟨o, c', ho, ho1, ho2, ho3, ho4, ho5⟩ | ⟨h1, h2⟩
    · rw [h1, h2] at hacc; linarith
    · rw [ho]
      refine ⟨_, rfl, ⟨c', decide (p.dist2p < E.dist2 p.x p.r * tol), ?_, ho1, ?_, Or.inr (Or.inr ⟨?_, ho3⟩)⟩, rfl, rfl, Or.inr ⟨hacc, ho, ho3, rfl, ?_⟩⟩
      · exact low_or_c c' _ ho2 _
      · show 0 ≤ (if |p.r 1 - o 1| < |p.r 0 - o 0| then |p.r 0 - o 0| else |p.r 1 - o 1|) / 4
        split_ifs <;> positivity
      · show -big ≤ 0
        linarith
      · show (if |p.r 1 - o 1| < |p.r 0 - o 0| then |p.r 0 - o 0| else |p.r 1 - o 1|) / 4 ≤ p.tr / 4
        have := ho5 0; have := ho5 1
        split_ifs <;> linarith
    · rw [h2] at hacc; linarith [sub_self (E.dist2 p.x p.r)]

/-- an accepted point after a step -/
theorem good_of_step (E : ElMap K) (big : K) (p out p' : Pt K 2) (c c0 : Fin 2 → Con) (C : Bool) (hs : StepOk p out p' c C) (hfl : p.flags &&& 0x1f = lowFlags c0 false) (href : RefPt p.r c0) (htr : 0 ≤ p.tr)
    (hacc : 1 / 100 * p.dist2p ≤ p.dist2 - E.dist2 p.x p.r) (hx : out.x = p.x) (hi : out.index = p.index) (ho : out.oldr = some p.r) (hd : out.dist2 = E.dist2 p.x p.r)
    (ht : out.tr = p.tr ∨ out.tr = 2 * p.tr) : Good2 E big p' ∧ p'.x = p.x ∧ p'.index = p.index ∧ Outcome2 E p p' := by
  obtain ⟨e1, e2, e3, e4, e5⟩ := hs.rest
  have hle : p.tr ≤ out.tr := by rcases ht with h | h <;> rw [h]; linarith
  refine ⟨⟨c, C, hs.flags, hs.ref, by rw [e4]; linarith, Or.inr (Or.inl ⟨p.r, c0, by rw [e2, ho], href, by rw [hs.prev, hfl], by rw [e1, e3, hd, hx], hs.pred, fun d => ?_⟩)⟩, by rw [e1, hx], by rw [e5, hi],
    Or.inl ⟨hacc, by rw [e2, ho], by rw [e3, hd], by rw [e4]; exact ht⟩⟩
  rw [e4]; exact (hs.trust d).trans hle

theorem num_cases (c : Fin 2 → Con) : (c = (fun _ => .free) ∧ numConstrained2 (lowFlags c false) = 0) ∨
    (∃ d v, v ≠ .free ∧ c = single d v ∧ numConstrained2 (lowFlags c false) = 1 ∧ dim2 (edgeIndex2 (lowFlags c false) >>> 1) = some d ∧ dim2 (plus1mod2 (edgeIndex2 (lowFlags c false) >>> 1)) = some (oth d)) ∨
    (∃ v w, v ≠ .free ∧ w ≠ .free ∧ c 0 = v ∧ c 1 = w ∧ numConstrained2 (lowFlags c false) = 2) := by
  have key : ∀ a b : Con, (a = .free ∧ b = .free ∧ numConstrained2 (flags2 a b ||| 0) = 0) ∨
      (a ≠ .free ∧ b = .free ∧ numConstrained2 (flags2 a b ||| 0) = 1 ∧ dim2 (edgeIndex2 (flags2 a b ||| 0) >>> 1) = some 0 ∧ dim2 (plus1mod2 (edgeIndex2 (flags2 a b ||| 0) >>> 1)) = some 1) ∨
      (a = .free ∧ b ≠ .free ∧ numConstrained2 (flags2 a b ||| 0) = 1 ∧ dim2 (edgeIndex2 (flags2 a b ||| 0) >>> 1) = some 1 ∧ dim2 (plus1mod2 (edgeIndex2 (flags2 a b ||| 0) >>> 1)) = some 0) ∨
      (a ≠ .free ∧ b ≠ .free ∧ numConstrained2 (flags2 a b ||| 0) = 2) := by
    intro a b; cases a <;> cases b <;> decide
  unfold lowFlags
  simp only [Bool.false_eq_true, if_false]
  rcases key (c 0) (c 1) with ⟨h0, h1, h2⟩ | ⟨h0, h1, h2, h3, h4⟩ | ⟨h0, h1, h2, h3, h4⟩ | ⟨h0, h1, h2⟩
  · left
    refine ⟨?_, h2⟩
    funext d; fin_cases d
    · exact h0
    · exact h1
  · right; left
    refine ⟨0, c 0, h0, ?_, h2, h3, h4⟩
    funext d; fin_cases d
    · exact (single_same 0 (c 0)).symm
    · exact h1.trans (single_oth 0 (c 0)).symm
  · right; left
    refine ⟨1, c 1, h1, ?_, h2, h3, h4⟩
    funext d; fin_cases d
    · exact h0.trans (single_oth 1 (c 1)).symm
    · exact (single_same 1 (c 1)).symm
  · right; right
    exact ⟨c 0, c 1, h0, h1, rfl, rfl, h2⟩

theorem pick_fl (c : Fin 2 → Con) (d : Fin 2) : lowFlags c false &&& ((3 : U32) <<< sh2 d) = fl (single d (c d)) := by
  unfold lowFlags
  fin_cases d
  · show (flags2 (c 0) (c 1) ||| 0) &&& _ = flags2 (c 0) .free
    generalize c 0 = a; generalize c 1 = b
    cases a <;> cases b <;> decide
  · show (flags2 (c 0) (c 1) ||| 0) &&& _ = flags2 .free (c 1)
    generalize c 0 = a; generalize c 1 = b
    cases a <;> cases b <;> decide

theorem low_false (c : Fin 2 → Con) : lowFlags c false = fl c := by
  unfold lowFlags fl
  simp

/-- the step of a point -/
theorem stepPt2_run (E : ElMap K) (fuel : Nat) (hf : 2 ≤ fuel) (big tol : K) (hb0 : 0 ≤ big) (hdet : ∀ r : Fin 2 → K, (∀ d, -1 ≤ r d ∧ r d ≤ 1) → E.J r 0 * E.J r 3 - E.J r 1 * E.J r 2 ≠ 0)
    (p : Pt K 2) (hbig : ∀ r : Fin 2 → K, (∀ d, -1 ≤ r d ∧ r d ≤ 1) → E.dist2 p.x r ≤ big) (hp : Good2 E big p) (hc : p.flags.getLsbD 4 = false) :
    ∃ p', stepPt2 E fuel big tol p = some p' ∧ Good2 E big p' ∧ p'.x = p.x ∧ p'.index = p.index ∧ Outcome2 E p p' := by
  obtain ⟨c, C, hfl, href, htr, hh⟩ := id hp
  have hC : C = false := by
    cases C with
    | false => rfl
    | true =>
      exfalso
      have h1 : (p.flags &&& 0x1f).getLsbD 4 = true := by
        rw [hfl]; unfold lowFlags
        generalize c 0 = a; generalize c 1 = b
        cases a <;> cases b <;> decide
      rw [BitVec.getLsbD_and, hc] at h1
      simp at h1
  subst hC
  have hr : ∀ d, -1 ≤ p.r d ∧ p.r d ≤ 1 := fun d => ⟨(href d).1, (href d).2.1⟩
  have hrej := rejectPrior_run E big tol p hp (hbig p.r hr) hb0
  have area : ∀ out, 1 / 100 * p.dist2p ≤ p.dist2 - E.dist2 p.x p.r → out.x = p.x → out.index = p.index → out.oldr = some p.r → out.dist2 = E.dist2 p.x p.r → (out.tr = p.tr ∨ out.tr = 2 * p.tr) →
      ∃ p', newtonArea fuel tol (E.J p.r) (E.resid p.x p.r) p out = some p' ∧ Good2 E big p' ∧ p'.x = p.x ∧ p'.index = p.index ∧ Outcome2 E p p' := by
    intro out hacc hx hi ho hd ht
    obtain ⟨p', c', dr, e, _, hs, _, _⟩ := newtonArea_step fuel hf tol (E.J p.r) (E.resid p.x p.r) p out (hdet p.r hr) htr hr
    exact ⟨p', e, good_of_step E big p out p' _ c _ hs hfl href htr hacc hx hi ho hd ht⟩
  have edge : ∀ out dn rhes, 1 / 100 * p.dist2p ≤ p.dist2 - E.dist2 p.x p.r → out.x = p.x → out.index = p.index → out.oldr = some p.r → out.dist2 = E.dist2 p.x p.r → (out.tr = p.tr ∨ out.tr = 2 * p.tr) →
      Good2 E big (newtonEdge tol (E.J p.r) rhes (E.resid p.x p.r) (oth dn) dn (fl (single dn (c dn))) p out) ∧
      (newtonEdge tol (E.J p.r) rhes (E.resid p.x p.r) (oth dn) dn (fl (single dn (c dn))) p out).x = p.x ∧
      (newtonEdge tol (E.J p.r) rhes (E.resid p.x p.r) (oth dn) dn (fl (single dn (c dn))) p out).index = p.index ∧
      Outcome2 E p (newtonEdge tol (E.J p.r) rhes (E.resid p.x p.r) (oth dn) dn (fl (single dn (c dn))) p out) := by
    intro out dn rhes hacc hx hi ho hd ht
    have href' : RefPt p.r (single dn (c dn)) := by
      intro e
      rcases eq_or_oth dn e with rfl | rfl
      · rw [single_same]; exact href e
      · rw [single_oth]; exact ⟨(hr _).1, (hr _).2, by simp, by simp⟩
    obtain ⟨c', C', _, _, hs⟩ := newtonEdge_step tol (E.J p.r) rhes (E.resid p.x p.r) dn (c dn) p out htr href'
    exact good_of_step E big p out _ c' c C' hs hfl href htr hacc hx hi ho hd ht
  unfold stepPt2
  rw [hfl]
  rcases num_cases c with ⟨hcc, hn⟩ | ⟨dn, v, hv, hcc, hn, h1, h2⟩ | ⟨v, w, hv, hw, e0, e1, hn⟩
  · rw [if_pos hn]
    unfold areaPoint
    rcases hrej with ⟨out, e, hacc, hx, hi, ho, hd, ht⟩ | ⟨out, e, h⟩
    · rw [e]; exact area out hacc hx hi ho hd ht
    · rw [e]; exact ⟨out, rfl, h⟩
  · rw [if_neg (by rw [hn]; decide), if_pos hn, h1, h2, Option.bind_some, Option.bind_some]
    unfold edgePoint
    rcases hrej with ⟨out, e, hacc, hx, hi, ho, hd, ht⟩ | ⟨out, e, h⟩
    · rw [e, Option.bind_some]
      dsimp only
      by_cases hst : (E.resid p.x p.r 0 * E.J p.r (col0 dn) + E.resid p.x p.r 1 * E.J p.r (col1 dn)) * p.r dn < 0
      · rw [if_pos hst]; exact area out hacc hx hi ho hd ht
      · rw [if_neg hst]
        have := edge out dn (E.resid p.x p.r 0 * E.H p.r (col0 (oth dn)) + E.resid p.x p.r 1 * E.H p.r (col1 (oth dn))) hacc hx hi ho hd ht
        rw [low_false, show fl c = fl (single dn (c dn)) by rw [hcc, single_same]]
        exact ⟨_, rfl, this⟩
    · rw [e]; exact ⟨out, rfl, h⟩
  · rw [if_neg (by rw [hn]; decide), if_neg (by rw [hn]; decide)]
    unfold ptPoint
    have hres : (![p.x 0 - E.X p.r 0, p.x 1 - E.X p.r 1] : Fin 2 → K) = E.resid p.x p.r := rfl
    dsimp only
    rw [hres]
    rcases hrej with ⟨out, e, hacc, hx, hi, ho, hd, ht⟩ | ⟨out, e, h⟩
    · rw [e, Option.bind_some]
      dsimp only
      split_ifs
      · exact area out hacc hx hi ho hd ht
      · rw [pick_fl]; exact ⟨_, rfl, edge out 1 _ hacc hx hi ho hd ht⟩
      · rw [pick_fl]; exact ⟨_, rfl, edge out 0 _ hacc hx hi ho hd ht⟩
      · refine ⟨_, rfl, ⟨c, true, ?_, href, ?_, Or.inr (Or.inr ⟨le_refl _, ?_⟩)⟩, hx, hi, Or.inl ⟨hacc, ho, hd, ht⟩⟩
        · show (lowFlags c false ||| 16) &&& 0x1f = _
          unfold lowFlags
          generalize c 0 = a; generalize c 1 = b
          cases a <;> cases b <;> decide
        · show 0 ≤ out.tr
          rcases ht with h | h <;> rw [h]; linarith
          linarith
        · show out.dist2 = E.dist2 out.x p.r
          rw [hd, hx]
    · rw [e]; exact ⟨out, rfl, h⟩

end Gslib.El
