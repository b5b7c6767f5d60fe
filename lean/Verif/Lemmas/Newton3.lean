import Verif.Lemmas.Newton2
import Verif.Spec.Newton3
import Mathlib.Data.Finset.Card
import Mathlib.Data.Fintype.Pi
import Mathlib.Data.Fintype.BigOperators

/-!
# One step of the point search in 3D: flags, box and `newton_vol`
-/

namespace Gslib.El
open Gslib.Lin Gslib.Spec

/-! ## flags -/

/-- flag word of a configuration -/
def fl3 (c : Fin 3 → Con) : U32 := flags3 (c 0) (c 1) (c 2)

/-- change the state of one coordinate -/
def setc3 (c : Fin 3 → Con) (d : Fin 3) (v : Con) : Fin 3 → Con := fun e => if e = d then v else c e

/-- only coordinate `d` is held -/
def single3 (d : Fin 3) (v : Con) : Fin 3 → Con := setc3 (fun _ => .free) d v

theorem con3 {P : (Fin 3 → Con) → Prop} (h : ∀ a b e, P ![a, b, e]) (c : Fin 3 → Con) : P c := by
  have : c = ![c 0, c 1, c 2] := by funext d; fin_cases d <;> rfl
  rw [this]; exact h _ _ _

theorem low_fl3 (d : Fin 3) : ((1 : U32) <<< sh3 d) = fl3 (single3 d .lo) := by fin_cases d <;> decide
theorem high_fl3 (d : Fin 3) : ((2 : U32) <<< sh3 d) = fl3 (single3 d .hi) := by fin_cases d <;> decide
theorem zero_fl3 : (0 : U32) = fl3 fun _ => .free := by decide

theorem conAt_fl3 (c : Fin 3 → Con) (d : Fin 3) : conAt3 (fl3 c) d = BitVec.ofNat 32 (c d).code := by
  revert c; refine con3 ?_
  intro a b e; fin_cases d <;> cases a <;> cases b <;> cases e <;> decide

theorem conAt_fl3_c (c : Fin 3 → Con) (d : Fin 3) : conAt3 (fl3 c ||| 64) d = BitVec.ofNat 32 (c d).code := by
  revert c; refine con3 ?_
  intro a b e; fin_cases d <;> cases a <;> cases b <;> cases e <;> decide

theorem face_fl3 (d : Fin 3) (v : Con) (hv : v ≠ .free) : dim3 (faceIndex3 (fl3 (single3 d v)) >>> 1) = some d ∧ dim3 (plus1mod3 (faceIndex3 (fl3 (single3 d v)) >>> 1)) = some (d + 1) ∧
    dim3 (plus2mod3 (faceIndex3 (fl3 (single3 d v)) >>> 1)) = some (d + 2) := by
  revert hv; fin_cases d <;> cases v <;> decide

theorem edge_fl3 (c : Fin 3 → Con) (d : Fin 3) (h0 : c d = .free) (h1 : c (d + 1) ≠ .free) (h2 : c (d + 2) ≠ .free) : dim3 (edgeIndex3 (fl3 c) >>> 2) = some d ∧
    dim3 (plus1mod3 (edgeIndex3 (fl3 c) >>> 2)) = some (d + 1) ∧ dim3 (plus2mod3 (edgeIndex3 (fl3 c) >>> 2)) = some (d + 2) := by
  revert c; refine con3 ?_
  intro a b e; fin_cases d <;> cases a <;> cases b <;> cases e <;> decide

theorem or_fl3 (c : Fin 3 → Con) (d : Fin 3) (v : Con) (h : c d = .free) : fl3 c ||| fl3 (single3 d v) = fl3 (setc3 c d v) := by
  revert c; refine con3 ?_
  intro a b e; fin_cases d <;> cases a <;> cases b <;> cases e <;> cases v <;> decide

theorem release_fl3 (c : Fin 3 → Con) (d : Fin 3) : fl3 c &&& ~~~((3 : U32) <<< sh3 d) = fl3 (setc3 c d .free) := by
  revert c; refine con3 ?_
  intro a b e; fin_cases d <;> cases a <;> cases b <;> cases e <;> decide

theorem pick_fl3 (c : Fin 3 → Con) (d : Fin 3) : fl3 c &&& ((3 : U32) <<< sh3 d) = fl3 (single3 d (c d)) := by
  revert c; refine con3 ?_
  intro a b e; fin_cases d <;> cases a <;> cases b <;> cases e <;> decide

/-- number of held coordinates -/
def heldNum (c : Fin 3 → Con) : Nat := (c 0).held + (c 1).held + (c 2).held

theorem num_fl3 (c : Fin 3 → Con) : numConstrained3 (fl3 c) = BitVec.ofNat 32 (heldNum c) := by
  revert c; refine con3 ?_
  intro a b e; cases a <;> cases b <;> cases e <;> decide

theorem heldNum_le (c : Fin 3 → Con) : heldNum c ≤ 3 := by
  revert c; refine con3 ?_
  intro a b e; cases a <;> cases b <;> cases e <;> decide

theorem fl3_inj (c c' : Fin 3 → Con) (h : fl3 c = fl3 c') : c = c' := by
  have h' : ∀ d, BitVec.ofNat 32 (c d).code = BitVec.ofNat 32 (c' d).code := fun d => by rw [← conAt_fl3, ← conAt_fl3, h]
  have hc : ∀ a b : Con, BitVec.ofNat 32 a.code = BitVec.ofNat 32 b.code → a = b := by intro a b; cases a <;> cases b <;> decide
  funext d; exact hc _ _ (h' d)

theorem held_zero (c : Fin 3 → Con) (h : heldNum c = 0) : c = fun _ => .free := by
  revert c; refine con3 ?_
  intro a b e; cases a <;> cases b <;> cases e <;> decide

theorem held_one (c : Fin 3 → Con) (h : heldNum c = 1) : ∃ d, c d ≠ .free ∧ c = single3 d (c d) := by
  revert c; refine con3 ?_
  intro a b e; cases a <;> cases b <;> cases e <;> decide

theorem held_two (c : Fin 3 → Con) (h : heldNum c = 2) : ∃ d, c d = .free ∧ c (d + 1) ≠ .free ∧ c (d + 2) ≠ .free := by
  revert c; refine con3 ?_
  intro a b e; cases a <;> cases b <;> cases e <;> decide

theorem held_three (c : Fin 3 → Con) (h : heldNum c = 3) (d : Fin 3) : c d ≠ .free := by
  revert c; refine con3 ?_
  intro a b e; fin_cases d <;> cases a <;> cases b <;> cases e <;> decide

theorem single3_same (d : Fin 3) (v : Con) : single3 d v d = v := by simp [single3, setc3]
theorem single3_other (d e : Fin 3) (v : Con) (h : e ≠ d) : single3 d v e = .free := by simp [single3, setc3, h]
theorem fin3_cases (d e : Fin 3) : e = d ∨ e = d + 1 ∨ e = d + 2 := by revert d e; decide
theorem ne1 (d : Fin 3) : d + 1 ≠ d := by revert d; decide
theorem ne2 (d : Fin 3) : d + 2 ≠ d := by revert d; decide
theorem ne12 (d : Fin 3) : d + 1 ≠ d + 2 := by revert d; decide

/-! ## the box -/

variable {K : Type} [Field K] [LinearOrder K] [IsStrictOrderedRing K]

/-- the bound on side `v` -/
def Box3.at (b : Box3 K) (d : Fin 3) (v : Con) : K := match v with | .hi => b.hi d | _ => b.lo d

/-- in the box -/
def InBox3 (b : Box3 K) (r : Fin 3 → K) : Prop := ∀ d, b.lo d ≤ r d ∧ r d ≤ b.hi d

/-- a move from `z` in `[lo,hi]` to `z + dr` outside: the fraction is in `[0,1)`, and the move stops on the bound on the side it goes to -/
theorem cutTo3_run (b : Box3 K) (z dr : K) (e : Fin 3) (s : K × U32) (hz : b.lo e ≤ z) (hz' : z ≤ b.hi e) (hout : (z + dr - b.lo e) * (b.hi e - (z + dr)) < 0) :
    ∃ (v : Con) (f : K), v ≠ .free ∧ 0 ≤ f ∧ f < 1 ∧ z + f * dr = b.at e v ∧ 0 < sgn v * dr ∧ cutTo3 (b.lo e) (b.hi e) z (z + dr) dr e s = some (if f < s.1 then (f, fl3 (single3 e v)) else s) := by
  rcases mul_neg_iff.1 hout with ⟨h1, h2⟩ | ⟨h1, h2⟩
  · have hd : 0 < dr := by linarith
    refine ⟨.hi, (b.hi e - z) / dr, by decide, div_nonneg (by linarith) hd.le, (div_lt_one hd).2 (by linarith), ?_, ?_, ?_⟩
    · rw [div_mul_cancel₀ _ hd.ne']; show z + (b.hi e - z) = b.hi e; ring
    · show 0 < 1 * dr; linarith
    · rw [cutTo3, if_neg (by linarith), divE_some hd.ne', ← high_fl3]; rfl
  · have hd : dr < 0 := by linarith
    refine ⟨.lo, (b.lo e - z) / dr, by decide, div_nonneg_of_nonpos (by linarith) hd.le, (div_lt_one_of_neg hd).2 (by linarith), ?_, ?_, ?_⟩
    · rw [div_mul_cancel₀ _ hd.ne]; show z + (b.lo e - z) = b.lo e; ring
    · show 0 < -1 * dr; linarith
    · rw [cutTo3, if_pos (by linarith), divE_some hd.ne, ← low_fl3]; rfl

/-- what is known of (`fac`, `flags`) after some of the coordinates have been tested for a move by `v` from `r`: `D` are those that move -/
def HitOk3 (b : Box3 K) (r v : Fin 3 → K) (s : K × U32) : Prop :=
  0 ≤ s.1 ∧ s.1 ≤ 1 ∧ ((s.1 = 1 ∧ s.2 = 0) ∨ ∃ d w, w ≠ .free ∧ s.1 < 1 ∧ s.2 = fl3 (single3 d w) ∧ r d + s.1 * v d = b.at d w ∧ 0 < sgn w * v d)

theorem hit_step (b : Box3 K) (r v : Fin 3 → K) (d : Fin 3) (hr : b.lo d ≤ r d ∧ r d ≤ b.hi d) (s : K × U32) (hs : HitOk3 b r v s) :
    ∃ s', (if (r d + v d - b.lo d) * (b.hi d - (r d + v d)) < 0 then cutTo3 (b.lo d) (b.hi d) (r d) (r d + v d) (v d) d s else some s) = some s' ∧
      HitOk3 b r v s' ∧ s'.1 ≤ s.1 ∧ b.lo d ≤ r d + s'.1 * v d ∧ r d + s'.1 * v d ≤ b.hi d := by
  obtain ⟨h0, h1, h2⟩ := hs
  by_cases hin : (r d + v d - b.lo d) * (b.hi d - (r d + v d)) < 0
  · rw [if_pos hin]
    obtain ⟨w, f, hv, f0, f1, hat, hsg, e⟩ := cutTo3_run b (r d) (v d) d s hr.1 hr.2 hin
    rw [e]
    have hatb : b.lo d ≤ b.at d w ∧ b.at d w ≤ b.hi d := by
      cases w <;> simp only [Box3.at] <;> constructor <;> linarith [hr.1, hr.2]
    by_cases hf : f < s.1
    · rw [if_pos hf]
      exact ⟨_, rfl, ⟨f0, f1.le, Or.inr ⟨d, w, hv, f1, rfl, hat, hsg⟩⟩, hf.le, by rw [hat]; exact hatb⟩
    · rw [if_neg hf]
      push Not at hf
      exact ⟨s, rfl, ⟨h0, h1, h2⟩, le_refl _, seg_in hr.1 hr.2 (by rw [hat]; exact hatb.1) (by rw [hat]; exact hatb.2) h0 hf⟩
  · rw [if_neg hin]
    push Not at hin
    have hb : b.lo d ≤ r d + 1 * v d ∧ r d + 1 * v d ≤ b.hi d := by
      rw [one_mul]
      rcases mul_nonneg_iff.1 hin with ⟨h1, h2⟩ | ⟨h1, h2⟩ <;> constructor <;> linarith [hr.1, hr.2]
    exact ⟨s, rfl, ⟨h0, h1, h2⟩, le_refl _, seg_in hr.1 hr.2 hb.1 hb.2 h0 h1⟩

theorem hit_start (b : Box3 K) (r v : Fin 3 → K) : HitOk3 b r v (1, 0) := ⟨zero_le_one, le_refl _, Or.inl ⟨rfl, rfl⟩⟩

theorem volHit1_run (b : Box3 K) (r0 dr : Fin 3 → K) (hr : InBox3 b r0) (d : Fin 3) (s : K × U32) (hs : HitOk3 b r0 dr s) :
    ∃ s', volHit1 b r0 dr d s = some s' ∧ HitOk3 b r0 dr s' ∧ s'.1 ≤ s.1 ∧ b.lo d ≤ r0 d + s'.1 * dr d ∧ r0 d + s'.1 * dr d ≤ b.hi d := by
  obtain ⟨s', e, h⟩ := hit_step b r0 dr d (hr d) s hs
  refine ⟨s', ?_, h⟩
  rw [← e]
  unfold volHit1
  by_cases h : 0 ≤ (r0 d + dr d - b.lo d) * (b.hi d - (r0 d + dr d))
  · rw [if_pos h, if_neg (not_lt.2 h)]
  · rw [if_neg h, if_pos (not_le.1 h)]

theorem volHit_run (b : Box3 K) (r0 dr : Fin 3 → K) (hr : InBox3 b r0) : ∃ s, volHit b r0 dr = some s ∧ HitOk3 b r0 dr s ∧ InBox3 b fun d => r0 d + s.1 * dr d := by
  obtain ⟨s1, e1, h1, _, l1, u1⟩ := volHit1_run b r0 dr hr 0 (1, 0) (hit_start b r0 dr)
  obtain ⟨s2, e2, h2, le2, l2, u2⟩ := volHit1_run b r0 dr hr 1 s1 h1
  obtain ⟨s3, e3, h3, le3, l3, u3⟩ := volHit1_run b r0 dr hr 2 s2 h2
  refine ⟨s3, by rw [volHit, e1, Option.bind_some, e2, Option.bind_some, e3], h3, fun d => ?_⟩
  fin_cases d
  · exact seg_in (hr 0).1 (hr 0).2 l1 u1 h3.1 (le3.trans le2)
  · exact seg_in (hr 1).1 (hr 1).2 l2 u2 h3.1 le3
  · exact ⟨l3, u3⟩

theorem checkCon_run (b : Box3 K) (r0 dr v : Fin 3 → K) (hr : InBox3 b fun d => r0 d + dr d) (d : Fin 3) (s : K × U32) (hs : HitOk3 b (fun d => r0 d + dr d) v s) :
    ∃ s', checkCon b r0 dr (v d) d s = some s' ∧ HitOk3 b (fun d => r0 d + dr d) v s' ∧ s'.1 ≤ s.1 ∧ b.lo d ≤ r0 d + dr d + s'.1 * v d ∧ r0 d + dr d + s'.1 * v d ≤ b.hi d := by
  obtain ⟨s', e, h⟩ := hit_step b (fun d => r0 d + dr d) v d (hr d) s hs
  refine ⟨s', ?_, h⟩
  rw [← e]
  unfold checkCon
  beta_reduce
  rw [add_assoc]

/-! ## the quadratic -/

variable {J : Fin 3 → Fin 3 → K} {resid : Fin 3 → K}

/-- `J v` squared -/
def nsq (J : Fin 3 → Fin 3 → K) (v : Fin 3 → K) : K := (J 0 0 * v 0 + J 0 1 * v 1 + J 0 2 * v 2) ^ 2 + (J 1 0 * v 0 + J 1 1 * v 1 + J 1 2 * v 2) ^ 2 + (J 2 0 * v 0 + J 2 1 * v 1 + J 2 2 * v 2) ^ 2

/-- slope of the objective at `dr` in direction `v` (up to the factor -2) -/
def slope (J : Fin 3 → Fin 3 → K) (resid dr v : Fin 3 → K) : K :=
  yAt3 J (resAt3 J resid dr) 0 * v 0 + yAt3 J (resAt3 J resid dr) 1 * v 1 + yAt3 J (resAt3 J resid dr) 2 * v 2

omit [LinearOrder K] [IsStrictOrderedRing K] in
theorem quad_eq (dr v : Fin 3 → K) (t : K) : linSq3 J resid (fun d => dr d + t * v d) = linSq3 J resid dr - 2 * t * slope J resid dr v + t ^ 2 * nsq J v := by
  unfold linSq3 slope nsq yAt3 resAt3; ring

theorem nsq_nonneg (v : Fin 3 → K) : 0 ≤ nsq J v := by unfold nsq; positivity

/-- an invertible matrix moves everything -/
theorem nsq_pos (hdet : det3 J ≠ 0) (v : Fin 3 → K) (hv : ∃ d, v d ≠ 0) : 0 < nsq J v := by
  rcases (nsq_nonneg (J := J) v).lt_or_eq with h | h
  · exact h
  exfalso
  have h' : (J 0 0 * v 0 + J 0 1 * v 1 + J 0 2 * v 2) ^ 2 + (J 1 0 * v 0 + J 1 1 * v 1 + J 1 2 * v 2) ^ 2 + (J 2 0 * v 0 + J 2 1 * v 1 + J 2 2 * v 2) ^ 2 = 0 := h.symm
  have s0 := sq_nonneg (J 0 0 * v 0 + J 0 1 * v 1 + J 0 2 * v 2)
  have s1 := sq_nonneg (J 1 0 * v 0 + J 1 1 * v 1 + J 1 2 * v 2)
  have s2 := sq_nonneg (J 2 0 * v 0 + J 2 1 * v 1 + J 2 2 * v 2)
  have e0 : J 0 0 * v 0 + J 0 1 * v 1 + J 0 2 * v 2 = 0 := pow_eq_zero_iff (two_ne_zero) |>.1 (by linarith)
  have e1 : J 1 0 * v 0 + J 1 1 * v 1 + J 1 2 * v 2 = 0 := pow_eq_zero_iff (two_ne_zero) |>.1 (by linarith)
  have e2 : J 2 0 * v 0 + J 2 1 * v 1 + J 2 2 * v 2 = 0 := pow_eq_zero_iff (two_ne_zero) |>.1 (by linarith)
  have z0 : det3 J * v 0 = 0 := by
    unfold det3; linear_combination (J 1 1 * J 2 2 - J 1 2 * J 2 1) * e0 + (J 0 2 * J 2 1 - J 0 1 * J 2 2) * e1 + (J 0 1 * J 1 2 - J 0 2 * J 1 1) * e2
  have z1 : det3 J * v 1 = 0 := by
    unfold det3; linear_combination (J 1 2 * J 2 0 - J 1 0 * J 2 2) * e0 + (J 0 0 * J 2 2 - J 0 2 * J 2 0) * e1 + (J 0 2 * J 1 0 - J 0 0 * J 1 2) * e2
  have z2 : det3 J * v 2 = 0 := by
    unfold det3; linear_combination (J 1 0 * J 2 1 - J 1 1 * J 2 0) * e0 + (J 0 1 * J 2 0 - J 0 0 * J 2 1) * e1 + (J 0 0 * J 1 1 - J 0 1 * J 1 0) * e2
  obtain ⟨d, hd⟩ := hv
  apply hd
  fin_cases d
  · exact (mul_eq_zero.1 z0).resolve_left hdet
  · exact (mul_eq_zero.1 z1).resolve_left hdet
  · exact (mul_eq_zero.1 z2).resolve_left hdet

/-- a move in a direction whose slope is its own square: the objective does not grow up to `t = 1` -/
theorem quad_le (dr v : Fin 3 → K) (hs : slope J resid dr v = nsq J v) (t : K) (h0 : 0 ≤ t) (h1 : t ≤ 1) : linSq3 J resid (fun d => dr d + t * v d) ≤ linSq3 J resid dr := by
  rw [quad_eq, hs]
  have h := nsq_nonneg (J := J) v
  have : 0 ≤ t * (2 - t) * nsq J v := mul_nonneg (mul_nonneg h0 (by linarith)) h
  linarith [show t * (2 - t) * nsq J v = 2 * t * nsq J v - t ^ 2 * nsq J v by ring]

theorem quad_lt (dr v : Fin 3 → K) (hs : slope J resid dr v = nsq J v) (hp : 0 < nsq J v) (t : K) (h0 : 0 < t) (h1 : t ≤ 1) : linSq3 J resid (fun d => dr d + t * v d) < linSq3 J resid dr := by
  rw [quad_eq, hs]
  have : 0 < t * (2 - t) * nsq J v := mul_pos (mul_pos h0 (by linarith)) hp
  linarith [show t * (2 - t) * nsq J v = 2 * t * nsq J v - t ^ 2 * nsq J v by ring]

theorem gram_pos (hdet : det3 J ≠ 0) (i : Fin 3) : 0 < gram J i i := by
  have h := nsq_pos hdet (fun d => if d = i then 1 else 0) ⟨i, by simp⟩
  have : nsq J (fun d => if d = i then 1 else 0) = gram J i i := by unfold nsq gram; fin_cases i <;> simp <;> ring
  rw [← this]; exact h

/-- the Gram determinant of two columns is not zero -/
theorem gram_det (hdet : det3 J ≠ 0) (d : Fin 3) : 0 < gram J (d + 1) (d + 1) * gram J (d + 2) (d + 2) - gram J (d + 1) (d + 2) * gram J (d + 1) (d + 2) := by
  have hg := gram_pos hdet (d + 1)
  have h := nsq_pos hdet (fun e => if e = d + 1 then -gram J (d + 1) (d + 2) else if e = d + 2 then gram J (d + 1) (d + 1) else 0) ⟨d + 2, by simp [(ne12 d).symm]; exact hg.ne'⟩
  have e : nsq J (fun e => if e = d + 1 then -gram J (d + 1) (d + 2) else if e = d + 2 then gram J (d + 1) (d + 1) else 0) =
      gram J (d + 1) (d + 1) * (gram J (d + 1) (d + 1) * gram J (d + 2) (d + 2) - gram J (d + 1) (d + 2) * gram J (d + 1) (d + 2)) := by
    unfold nsq gram; fin_cases d <;> simp <;> ring
  rw [e] at h
  exact (mul_pos_iff_of_pos_left hg).1 h

end Gslib.El
