import Verif.Lemmas.Newton3Face

/-!
# The search for one point in 3D: what is maintained
-/

namespace Gslib.El
open Gslib.Spec

variable {K : Type} [Field K] [LinearOrder K] [IsStrictOrderedRing K]

/-- what is known of the previous position of a point -/
def Hist3 (E : ElMap3 K) (big : K) (p : Pt K 3) : Prop :=
  (p.oldr = none ∧ p.dist2 = big ∧ p.dist2p = 0) ∨
  (∃ o c', p.oldr = some o ∧ RefPt3 o c' ∧ (p.flags >>> 7) &&& 0x7f = lowFlags3 c' false ∧ p.dist2 = E.dist2 p.x o ∧ 0 ≤ p.dist2p ∧ ∀ d, |p.r d - o d| ≤ p.tr) ∨
  (p.dist2p ≤ 0 ∧ p.dist2 = E.dist2 p.x p.r)

/-- what is maintained -/
def Good3 (E : ElMap3 K) (big : K) (p : Pt K 3) : Prop :=
  ∃ c C, p.flags &&& 0x7f = lowFlags3 c C ∧ RefPt3 p.r c ∧ 0 ≤ p.tr ∧ Hist3 E big p

/-- the two outcomes of a step -/
def Outcome3 (E : ElMap3 K) (p p' : Pt K 3) : Prop :=
  (1 / 100 * p.dist2p ≤ p.dist2 - E.dist2 p.x p.r ∧ p'.oldr = some p.r ∧ p'.dist2 = E.dist2 p.x p.r ∧ (p'.tr = p.tr ∨ p'.tr = 2 * p.tr)) ∨
  (p.dist2 - E.dist2 p.x p.r < 1 / 100 * p.dist2p ∧ p.oldr = some p'.r ∧ p.dist2 = E.dist2 p.x p'.r ∧ p'.dist2 = p.dist2 ∧ p'.tr ≤ p.tr / 4)

omit [IsStrictOrderedRing K] [LinearOrder K] in
theorem resid_sq3 (E : ElMap3 K) (x r : Fin 3 → K) : E.resid x r 0 * E.resid x r 0 + E.resid x r 1 * E.resid x r 1 + E.resid x r 2 * E.resid x r 2 = E.dist2 x r := by
  simp only [ElMap3.resid, ElMap3.dist2]; ring

theorem low_or_c3 (c : Fin 3 → Con) (f : U32) (h : f &&& 0x7f = lowFlags3 c false) (b : Prop) [Decidable b] : (f ||| (if b then (64 : U32) else 0)) &&& 0x7f = lowFlags3 c (decide b) := by
  rw [BitVec.and_comm, BitVec.and_or_distrib_left, BitVec.and_comm, h]
  by_cases hb : b
  · simp only [hb, if_true, decide_true, lowFlags3]
    generalize c 0 = x; generalize c 1 = y; generalize c 2 = z
    cases x <;> cases y <;> cases z <;> decide
  · simp only [hb, if_false, decide_false, lowFlags3]
    simp

/-- the largest of the three moves -/
theorem max3_run (a b c tr : K) (ha : |a| ≤ tr) (hb : |b| ≤ tr) (hc : |c| ≤ tr) :
    0 ≤ (if |c| < |b| then (if |b| < |a| then |a| else |b|) else (if |c| < |a| then |a| else |c|)) / 4 ∧
    (if |c| < |b| then (if |b| < |a| then |a| else |b|) else (if |c| < |a| then |a| else |c|)) / 4 ≤ tr / 4 := by
  have := abs_nonneg a; have := abs_nonneg b; have := abs_nonneg c
  split_ifs <;> constructor <;> linarith

/-- checking the previous step: accepted, or rejected and back at the previous position -/
theorem rejectPrior3_run (E : ElMap3 K) (big tol : K) (p : Pt K 3) (hp : Good3 E big p) (hbig : E.dist2 p.x p.r ≤ big) (hb0 : 0 ≤ big) :
    (∃ out, rejectPrior3 big tol (E.resid p.x p.r) p = some (.inl out) ∧ 1 / 100 * p.dist2p ≤ p.dist2 - E.dist2 p.x p.r ∧ out.x = p.x ∧ out.index = p.index ∧ out.oldr = some p.r ∧
      out.dist2 = E.dist2 p.x p.r ∧ (out.tr = p.tr ∨ out.tr = 2 * p.tr)) ∨
    (∃ out, rejectPrior3 big tol (E.resid p.x p.r) p = some (.inr out) ∧ Good3 E big out ∧ out.x = p.x ∧ out.index = p.index ∧ Outcome3 E p out) := by
  unfold rejectPrior3
  dsimp only
  rw [resid_sq3]
  by_cases hacc : 1 / 100 * p.dist2p ≤ p.dist2 - E.dist2 p.x p.r
  · left
    rw [if_pos hacc]
    refine ⟨_, rfl, hacc, rfl, rfl, rfl, rfl, ?_⟩
    dsimp only
    split_ifs
    · right; ring
    · left; rfl
  · right
    rw [if_neg hacc]
    push Not at hacc
    obtain ⟨c, C, hfl, href, htr, hh⟩ := hp
    rcases hh with ⟨_, h1, h2⟩ | ⟨o, c', ho, ho1, ho2, ho3, ho4, ho5⟩ | ⟨h1, h2⟩
    · rw [h1, h2] at hacc; linarith
    · rw [ho]
      have hmx := max3_run (p.r 0 - o 0) (p.r 1 - o 1) (p.r 2 - o 2) p.tr (ho5 0) (ho5 1) (ho5 2)
      refine ⟨_, rfl, ⟨c', decide (p.dist2p < E.dist2 p.x p.r * tol), ?_, ho1, hmx.1, Or.inr (Or.inr ⟨?_, ho3⟩)⟩, rfl, rfl, Or.inr ⟨hacc, ho, ho3, rfl, hmx.2⟩⟩
      · exact low_or_c3 c' _ ho2 _
      · show -big ≤ 0
        linarith
    · rw [h2] at hacc; linarith [sub_self (E.dist2 p.x p.r)]

/-- an accepted point after a step -/
theorem good_of_step3 (E : ElMap3 K) (big : K) (p out p' : Pt K 3) (c c0 : Fin 3 → Con) (C : Bool) (hs : StepOk3 p out p' c C) (hfl : p.flags &&& 0x7f = lowFlags3 c0 false) (href : RefPt3 p.r c0) (htr : 0 ≤ p.tr)
    (hacc : 1 / 100 * p.dist2p ≤ p.dist2 - E.dist2 p.x p.r) (hx : out.x = p.x) (hi : out.index = p.index) (ho : out.oldr = some p.r) (hd : out.dist2 = E.dist2 p.x p.r)
    (ht : out.tr = p.tr ∨ out.tr = 2 * p.tr) : Good3 E big p' ∧ p'.x = p.x ∧ p'.index = p.index ∧ Outcome3 E p p' := by
  obtain ⟨e1, e2, e3, e4, e5⟩ := hs.rest
  have hle : p.tr ≤ out.tr := by rcases ht with h | h <;> rw [h]; linarith
  refine ⟨⟨c, C, hs.flags, hs.ref, by rw [e4]; linarith, Or.inr (Or.inl ⟨p.r, c0, by rw [e2, ho], href, by rw [hs.prev, hfl], by rw [e1, e3, hd, hx], hs.pred, fun d => ?_⟩)⟩, by rw [e1, hx], by rw [e5, hi],
    Or.inl ⟨hacc, by rw [e2, ho], by rw [e3, hd], by rw [e4]; exact ht⟩⟩
  rw [e4]; exact (hs.trust d).trans hle

theorem low_false3 (c : Fin 3 → Con) : lowFlags3 c false = fl3 c := by
  unfold lowFlags3 fl3
  simp

theorem single_ref3 (r : Fin 3 → K) (c : Fin 3 → Con) (h : RefPt3 r c) (d : Fin 3) : RefPt3 r (single3 d (c d)) := by
  intro e
  by_cases he : e = d
  · subst he; rw [single3_same]; exact h e
  · rw [single3_other d e _ he]; exact ⟨(h e).1, (h e).2.1, by simp, by simp⟩

theorem free_ref3 (r : Fin 3 → K) (c : Fin 3 → Con) (h : RefPt3 r c) (d : Fin 3) : RefPt3 r (setc3 c d .free) := by
  intro e
  unfold setc3
  by_cases he : e = d
  · rw [if_pos he]; exact ⟨(h e).1, (h e).2.1, by simp, by simp⟩
  · rw [if_neg he]; exact h e

/-- the step of a point -/
theorem stepPt3_run (E : ElMap3 K) (fuel : Nat) (hf : 21 ≤ fuel) (big tol : K) (hb0 : 0 ≤ big) (hdet : ∀ r : Fin 3 → K, (∀ d, -1 ≤ r d ∧ r d ≤ 1) → det3 (E.J r) ≠ 0)
    (p : Pt K 3) (hbig : ∀ r : Fin 3 → K, (∀ d, -1 ≤ r d ∧ r d ≤ 1) → E.dist2 p.x r ≤ big) (hp : Good3 E big p) (hc : p.flags.getLsbD 6 = false) :
    ∃ p', stepPt3 E fuel big tol p = some p' ∧ Good3 E big p' ∧ p'.x = p.x ∧ p'.index = p.index ∧ Outcome3 E p p' := by
  obtain ⟨c, C, hfl, href, htr, hh⟩ := id hp
  have hC : C = false := by
    cases C with
    | false => rfl
    | true =>
      exfalso
      have h1 : (p.flags &&& 0x7f).getLsbD 6 = true := by
        rw [hfl]; unfold lowFlags3
        generalize c 0 = a; generalize c 1 = b; generalize c 2 = e
        cases a <;> cases b <;> cases e <;> decide
      rw [BitVec.getLsbD_and, hc] at h1
      simp at h1
  subst hC
  have hr : ∀ d, -1 ≤ p.r d ∧ p.r d ≤ 1 := fun d => ⟨(href d).1, (href d).2.1⟩
  have hrej := rejectPrior3_run E big tol p hp (hbig p.r hr) hb0
  have vol : ∀ out, 1 / 100 * p.dist2p ≤ p.dist2 - E.dist2 p.x p.r → out.x = p.x → out.index = p.index → out.oldr = some p.r → out.dist2 = E.dist2 p.x p.r → (out.tr = p.tr ∨ out.tr = 2 * p.tr) →
      ∃ p', newtonVol fuel tol (E.J p.r) (E.resid p.x p.r) p out = some p' ∧ Good3 E big p' ∧ p'.x = p.x ∧ p'.index = p.index ∧ Outcome3 E p p' := by
    intro out hacc hx hi ho hd ht
    obtain ⟨p', c', dr, e, _, hs, _⟩ := newtonVol_step fuel hf tol (E.J p.r) (E.resid p.x p.r) p out (hdet p.r hr) htr hr
    exact ⟨p', e, good_of_step3 E big p out p' _ c _ hs hfl href htr hacc hx hi ho hd ht⟩
  have face : ∀ out dn d1 d2 rhes, d1 = dn + 1 → d2 = dn + 2 → 1 / 100 * p.dist2p ≤ p.dist2 - E.dist2 p.x p.r → out.x = p.x → out.index = p.index → out.oldr = some p.r → out.dist2 = E.dist2 p.x p.r →
      (out.tr = p.tr ∨ out.tr = 2 * p.tr) →
      ∃ p', some (newtonFace tol (E.J p.r) rhes (E.resid p.x p.r) d1 d2 dn (lowFlags3 c false &&& ((3 : U32) <<< sh3 dn)) p out) = some p' ∧ Good3 E big p' ∧ p'.x = p.x ∧ p'.index = p.index ∧ Outcome3 E p p' := by
    intro out dn d1 d2 rhes h1 h2 hacc hx hi ho hd ht
    subst h1; subst h2
    obtain ⟨c', _, _, hs, -⟩ := newtonFace_step tol (E.J p.r) rhes (E.resid p.x p.r) dn (c dn) p out htr (single_ref3 p.r c href dn)
    rw [low_false3, pick_fl3]
    exact ⟨_, rfl, good_of_step3 E big p out _ c' c _ hs hfl href htr hacc hx hi ho hd ht⟩
  have edge : ∀ out de d1 d2 rhes, d1 = de + 1 → d2 = de + 2 → 1 / 100 * p.dist2p ≤ p.dist2 - E.dist2 p.x p.r → out.x = p.x → out.index = p.index → out.oldr = some p.r → out.dist2 = E.dist2 p.x p.r →
      (out.tr = p.tr ∨ out.tr = 2 * p.tr) →
      ∃ p', some (newtonEdge3 tol (E.J p.r) rhes (E.resid p.x p.r) de d1 d2 (lowFlags3 c false &&& ~~~((3 : U32) <<< sh3 de)) p out) = some p' ∧ Good3 E big p' ∧ p'.x = p.x ∧ p'.index = p.index ∧ Outcome3 E p p' := by
    intro out de d1 d2 rhes h1 h2 hacc hx hi ho hd ht
    subst h1; subst h2
    obtain ⟨w, _, _, hs, -⟩ := newtonEdge3_step tol (E.J p.r) rhes (E.resid p.x p.r) de (setc3 c de .free) (by simp [setc3]) p out htr (free_ref3 p.r c href de)
    rw [low_false3, release_fl3]
    exact ⟨_, rfl, good_of_step3 E big p out _ _ c _ hs hfl href htr hacc hx hi ho hd ht⟩
  unfold stepPt3
  dsimp only
  rw [hfl]
  have hnum := num_fl3 c
  rw [← low_false3] at hnum
  have hn4 : heldNum c = 0 ∨ heldNum c = 1 ∨ heldNum c = 2 ∨ heldNum c = 3 := by have := heldNum_le c; omega
  rcases hn4 with hn | hn | hn | hn <;> rw [hn] at hnum
  · rw [if_pos (by rw [hnum]; rfl)]
    unfold volPoint
    rcases hrej with ⟨out, e, hacc, hx, hi, ho, hd, ht⟩ | ⟨out, e, h⟩
    · rw [e]; exact vol out hacc hx hi ho hd ht
    · rw [e]; exact ⟨out, rfl, h⟩
  · rw [if_neg (by rw [hnum]; decide), if_pos (by rw [hnum]; rfl)]
    obtain ⟨dn, hdn, hcc⟩ := held_one c hn
    obtain ⟨f1, f2, f3⟩ := face_fl3 dn (c dn) hdn
    rw [← hcc, ← low_false3] at f1 f2 f3
    rw [f1, f2, f3, Option.bind_some, Option.bind_some, Option.bind_some]
    unfold facePoint
    rcases hrej with ⟨out, e, hacc, hx, hi, ho, hd, ht⟩ | ⟨out, e, h⟩
    · rw [e, Option.bind_some]
      dsimp only
      split_ifs
      · exact vol out hacc hx hi ho hd ht
      · have hpk : lowFlags3 c false &&& ((3 : U32) <<< sh3 dn) = lowFlags3 c false := by rw [low_false3, pick_fl3, ← hcc]
        have := face out dn (dn + 1) (dn + 2) ![E.rh p.x p.r (dn + 1) (dn + 1), E.rh p.x p.r (dn + 1) (dn + 2), E.rh p.x p.r (dn + 2) (dn + 2)] rfl rfl hacc hx hi ho hd ht
        rw [hpk] at this
        exact this
    · rw [e]; exact ⟨out, rfl, h⟩
  · rw [if_neg (by rw [hnum]; decide), if_neg (by rw [hnum]; decide), if_pos (by rw [hnum]; rfl)]
    obtain ⟨de, h0, h1, h2⟩ := held_two c hn
    obtain ⟨f1, f2, f3⟩ := edge_fl3 c de h0 h1 h2
    rw [← low_false3] at f1 f2 f3
    rw [f1, f2, f3, Option.bind_some, Option.bind_some, Option.bind_some]
    unfold edgePoint3
    rcases hrej with ⟨out, e, hacc, hx, hi, ho, hd, ht⟩ | ⟨out, e, h⟩
    · rw [e, Option.bind_some]
      dsimp only
      split_ifs
      · exact vol out hacc hx hi ho hd ht
      · exact face out (de + 2) de (de + 1) _ (by clear * -; revert de; decide) (by clear * -; revert de; decide) hacc hx hi ho hd ht
      · exact face out (de + 1) (de + 2) de _ (by clear * -; revert de; decide) (by clear * -; revert de; decide) hacc hx hi ho hd ht
      · have hpk : lowFlags3 c false &&& ~~~((3 : U32) <<< sh3 de) = lowFlags3 c false := by
          rw [low_false3, release_fl3]; congr 1; funext e; unfold setc3; split_ifs with he
          · rw [he, h0]
          · rfl
        have := edge out de (de + 1) (de + 2) (E.rh p.x p.r de de) rfl rfl hacc hx hi ho hd ht
        rw [hpk] at this
        exact this
    · rw [e]; exact ⟨out, rfl, h⟩
  · rw [if_neg (by rw [hnum]; decide), if_neg (by rw [hnum]; decide), if_neg (by rw [hnum]; decide)]
    unfold ptPoint3
    have hres : (fun d => p.x d - E.X p.r d) = E.resid p.x p.r := rfl
    dsimp only
    rw [hres]
    rcases hrej with ⟨out, e, hacc, hx, hi, ho, hd, ht⟩ | ⟨out, e, h⟩
    · rw [e, Option.bind_some]
      dsimp only
      split_ifs
      · exact vol out hacc hx hi ho hd ht
      · exact face out 2 0 1 _ rfl rfl hacc hx hi ho hd ht
      · exact face out 1 2 0 _ rfl rfl hacc hx hi ho hd ht
      · exact edge out 0 1 2 _ rfl rfl hacc hx hi ho hd ht
      · exact face out 0 1 2 _ rfl rfl hacc hx hi ho hd ht
      · exact edge out 1 2 0 _ rfl rfl hacc hx hi ho hd ht
      · exact edge out 2 0 1 _ rfl rfl hacc hx hi ho hd ht
      · refine ⟨_, rfl, ⟨c, true, ?_, href, ?_, Or.inr (Or.inr ⟨le_refl _, ?_⟩)⟩, hx, hi, Or.inl ⟨hacc, ho, hd, ht⟩⟩
        · show (lowFlags3 c false ||| 64) &&& 0x7f = _
          unfold lowFlags3
          generalize c 0 = a; generalize c 1 = b; generalize c 2 = e
          cases a <;> cases b <;> cases e <;> decide
        · show 0 ≤ out.tr
          rcases ht with h | h <;> rw [h]; linarith
          linarith
        · show out.dist2 = E.dist2 out.x p.r
          rw [hd, hx]
    · rw [e]; exact ⟨out, rfl, h⟩

end Gslib.El
