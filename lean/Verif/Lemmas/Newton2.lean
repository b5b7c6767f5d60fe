import Verif.Spec.Newton2
import Mathlib.Tactic.IntervalCases
import Mathlib.Tactic.FinCases
import Mathlib.Tactic.Linarith
import Mathlib.Tactic.NormNum
import Mathlib.Tactic.Ring
import Mathlib.Tactic.LinearCombination
import Mathlib.Tactic.FieldSimp
import Mathlib.Algebra.Order.Field.Basic

/-!
# One step of the point search in 2D: lemmas
-/

namespace Gslib.El
open Gslib.Lin Gslib.Spec

/-! ## flags -/

/-- flag word of a configuration -/
def fl (c : Fin 2 → Con) : U32 := flags2 (c 0) (c 1)

/-- change the state of one coordinate -/
def setc (c : Fin 2 → Con) (d : Fin 2) (v : Con) : Fin 2 → Con := fun e => if e = d then v else c e

/-- only coordinate `d` is held -/
def single (d : Fin 2) (v : Con) : Fin 2 → Con := setc (fun _ => .free) d v

/-- the other coordinate -/
def oth (d : Fin 2) : Fin 2 := 1 - d

theorem oth_ne (d : Fin 2) : oth d ≠ d := by fin_cases d <;> decide
theorem oth_oth (d : Fin 2) : oth (oth d) = d := by fin_cases d <;> decide
theorem eq_or_oth (d e : Fin 2) : e = d ∨ e = oth d := by fin_cases d <;> fin_cases e <;> decide

theorem low_fl (d : Fin 2) : ((1 : U32) <<< sh2 d) = fl (single d .lo) := by fin_cases d <;> decide
theorem high_fl (d : Fin 2) : ((2 : U32) <<< sh2 d) = fl (single d .hi) := by fin_cases d <;> decide
theorem zero_fl : (0 : U32) = fl fun _ => .free := by decide

theorem conAt_fl (c : Fin 2 → Con) (d : Fin 2) : conAt (fl c) d = BitVec.ofNat 32 (c d).code := by
  unfold fl
  fin_cases d
  · show conAt _ 0 = BitVec.ofNat 32 (c 0).code
    generalize c 0 = a; generalize c 1 = b
    cases a <;> cases b <;> decide
  · show conAt _ 1 = BitVec.ofNat 32 (c 1).code
    generalize c 0 = a; generalize c 1 = b
    cases a <;> cases b <;> decide

theorem conAt_fl_c (c : Fin 2 → Con) (d : Fin 2) : conAt (fl c ||| 16) d = BitVec.ofNat 32 (c d).code := by
  unfold fl
  fin_cases d
  · show conAt _ 0 = BitVec.ofNat 32 (c 0).code
    generalize c 0 = a; generalize c 1 = b
    cases a <;> cases b <;> decide
  · show conAt _ 1 = BitVec.ofNat 32 (c 1).code
    generalize c 0 = a; generalize c 1 = b
    cases a <;> cases b <;> decide

theorem code_zero (a : Con) : BitVec.ofNat 32 a.code = (0 : U32) ↔ a = .free := by cases a <;> decide
theorem code_one (a : Con) : BitVec.ofNat 32 a.code = (1 : U32) ↔ a = .lo := by cases a <;> decide

theorem edge_fl (d : Fin 2) (v : Con) (hv : v ≠ .free) : dim2 (plus1mod2 (edgeIndex2 (fl (single d v)) >>> 1)) = some (oth d) := by
  revert hv; fin_cases d <;> cases v <;> decide

theorem or_fl (d : Fin 2) (v w : Con) : fl (single d v) ||| fl (single (oth d) w) = fl (setc (single d v) (oth d) w) := by
  fin_cases d <;> cases v <;> cases w <;> decide

theorem release_fl (c : Fin 2 → Con) (d : Fin 2) : fl c &&& ~~~((3 : U32) <<< sh2 d) = fl (setc c d .free) := by
  unfold fl
  fin_cases d
  · show flags2 _ _ &&& ~~~((3 : U32) <<< sh2 0) = flags2 .free (c 1)
    generalize c 0 = a; generalize c 1 = b
    cases a <;> cases b <;> decide
  · show flags2 _ _ &&& ~~~((3 : U32) <<< sh2 1) = flags2 (c 0) .free
    generalize c 0 = a; generalize c 1 = b
    cases a <;> cases b <;> decide

theorem num_fl (d : Fin 2) (v : Con) (hv : v ≠ .free) : numConstrained2 (fl (single d v)) = 1 := by
  revert hv; fin_cases d <;> cases v <;> decide

theorem fl_inj (c c' : Fin 2 → Con) (h : fl c = fl c') : c = c' := by
  have h0 : ∀ a b a' b' : Con, flags2 a b = flags2 a' b' → a = a' ∧ b = b' := by
    intro a b a' b'; cases a <;> cases b <;> cases a' <;> cases b' <;> decide
  obtain ⟨e0, e1⟩ := h0 _ _ _ _ h
  funext d; fin_cases d
  · exact e0
  · exact e1

theorem single_same (d : Fin 2) (v : Con) : single d v d = v := by simp [single, setc]
theorem single_oth (d : Fin 2) (v : Con) : single d v (oth d) = .free := by simp [single, setc, oth_ne]
theorem single_ne (d : Fin 2) (v : Con) (hv : v ≠ .free) : fl (single d v) ≠ 0 := by
  revert hv; fin_cases d <;> cases v <;> decide

/-! ## the box -/

variable {K : Type} [Field K] [LinearOrder K] [IsStrictOrderedRing K]

/-- side of a constraint -/
def sgn (v : Con) : K := match v with | .lo => -1 | .hi => 1 | .free => 0

/-- the bound on side `v` -/
def Box2.at (b : Box2 K) (d : Fin 2) (v : Con) : K := match v with | .hi => b.hi d | _ => b.lo d

omit [IsStrictOrderedRing K] in
theorem divE_some {a b : K} (h : b ≠ 0) : divE a b = some (a / b) := if_neg h

/-- a move from `z` in `[lo,hi]` to `nr = z + dr` outside: the fraction is in `[0,1)`, and the move stops on the bound on the side it goes to -/
theorem cutTo_run (b : Box2 K) (z dr : K) (e : Fin 2) (s : K × U32) (hz : b.lo e ≤ z) (hz' : z ≤ b.hi e) (hout : (z + dr - b.lo e) * (b.hi e - (z + dr)) < 0) :
    ∃ (v : Con) (f : K), v ≠ .free ∧ 0 ≤ f ∧ f < 1 ∧ z + f * dr = b.at e v ∧ 0 < sgn v * dr ∧ cutTo (b.lo e) (b.hi e) z (z + dr) dr e s = some (if f < s.1 then (f, fl (single e v)) else s) := by
  rcases mul_neg_iff.1 hout with ⟨h1, h2⟩ | ⟨h1, h2⟩
  · have hd : 0 < dr := by linarith
    refine ⟨.hi, (b.hi e - z) / dr, by decide, div_nonneg (by linarith) hd.le, (div_lt_one hd).2 (by linarith), ?_, ?_, ?_⟩
    · rw [div_mul_cancel₀ _ hd.ne']; show z + (b.hi e - z) = b.hi e; ring
    · show 0 < 1 * dr; linarith
    · rw [cutTo, if_neg (by linarith), divE_some hd.ne', ← high_fl]; rfl
  · have hd : dr < 0 := by linarith
    refine ⟨.lo, (b.lo e - z) / dr, by decide, div_nonneg_of_nonpos (by linarith) hd.le, (div_lt_one_of_neg hd).2 (by linarith), ?_, ?_, ?_⟩
    · rw [div_mul_cancel₀ _ hd.ne]; show z + (b.lo e - z) = b.lo e; ring
    · show 0 < -1 * dr; linarith
    · rw [cutTo, if_pos (by linarith), divE_some hd.ne, ← low_fl]; rfl

/-- all of `[r0, r0+g*dr]` is between bounds when both ends are -/
theorem seg_in {lo hi z dr f g : K} (h0 : lo ≤ z) (h0' : z ≤ hi) (h1 : lo ≤ z + g * dr) (h1' : z + g * dr ≤ hi) (hf : 0 ≤ f) (hfg : f ≤ g) : lo ≤ z + f * dr ∧ z + f * dr ≤ hi := by
  rcases le_total 0 dr with h | h
  · have := mul_le_mul_of_nonneg_right hfg h
    have := mul_nonneg hf h
    constructor <;> linarith
  · have := mul_le_mul_of_nonpos_right hfg h
    have := mul_nonpos_of_nonneg_of_nonpos hf h
    constructor <;> linarith

/-- the start is in the box -/
def InBox (b : Box2 K) (r : Fin 2 → K) : Prop := ∀ d, b.lo d ≤ r d ∧ r d ≤ b.hi d

/-- what is known of (`fac`, `flags`) after some of the coordinates have been tested -/
def HitOk (b : Box2 K) (r0 dr : Fin 2 → K) (s : K × U32) : Prop :=
  0 ≤ s.1 ∧ s.1 ≤ 1 ∧ ((s.1 = 1 ∧ s.2 = 0) ∨ ∃ d v, v ≠ .free ∧ s.1 < 1 ∧ s.2 = fl (single d v) ∧ r0 d + s.1 * dr d = b.at d v ∧ 0 < sgn v * dr d)

theorem areaHit1_run (b : Box2 K) (r0 dr : Fin 2 → K) (hr : InBox b r0) (d : Fin 2) (s : K × U32) (hs : HitOk b r0 dr s) :
    ∃ s', areaHit1 b r0 dr d s = some s' ∧ HitOk b r0 dr s' ∧ s'.1 ≤ s.1 ∧ b.lo d ≤ r0 d + s'.1 * dr d ∧ r0 d + s'.1 * dr d ≤ b.hi d := by
  obtain ⟨h0, h1, h2⟩ := hs
  unfold areaHit1
  by_cases hin : 0 ≤ (r0 d + dr d - b.lo d) * (b.hi d - (r0 d + dr d))
  · rw [if_pos hin]
    have hb : b.lo d ≤ r0 d + 1 * dr d ∧ r0 d + 1 * dr d ≤ b.hi d := by
      rw [one_mul]
      have := hr d
      rcases mul_nonneg_iff.1 hin with ⟨h1, h2⟩ | ⟨h1, h2⟩ <;> constructor <;> linarith
    exact ⟨s, rfl, ⟨h0, h1, h2⟩, le_refl _, seg_in (hr d).1 (hr d).2 hb.1 hb.2 h0 h1⟩
  · rw [if_neg hin]
    push Not at hin
    obtain ⟨v, f, hv, f0, f1, hat, hsg, e⟩ := cutTo_run b (r0 d) (dr d) d s (hr d).1 (hr d).2 hin
    rw [e]
    have hatb : b.lo d ≤ b.at d v ∧ b.at d v ≤ b.hi d := by
      have := hr d
      cases v <;> simp only [Box2.at] <;> constructor <;> linarith
    by_cases hf : f < s.1
    · rw [if_pos hf]
      exact ⟨_, rfl, ⟨f0, f1.le, Or.inr ⟨d, v, hv, f1, rfl, hat, hsg⟩⟩, hf.le, by rw [hat]; exact hatb⟩
    · rw [if_neg hf]
      push Not at hf
      exact ⟨s, rfl, ⟨h0, h1, h2⟩, le_refl _, seg_in (hr d).1 (hr d).2 (by rw [hat]; exact hatb.1) (by rw [hat]; exact hatb.2) h0 hf⟩

theorem areaHit_run (b : Box2 K) (r0 dr : Fin 2 → K) (hr : InBox b r0) :
    ∃ s, areaHit b r0 dr = some s ∧ HitOk b r0 dr s ∧ InBox b fun d => r0 d + s.1 * dr d := by
  obtain ⟨s1, e1, h1, _, l1, u1⟩ := areaHit1_run b r0 dr hr 0 (1, 0) ⟨zero_le_one, le_refl _, Or.inl ⟨rfl, rfl⟩⟩
  obtain ⟨s2, e2, h2, le2, l2, u2⟩ := areaHit1_run b r0 dr hr 1 s1 h1
  refine ⟨s2, by rw [areaHit, e1]; exact e2, h2, fun d => ?_⟩
  fin_cases d
  · exact seg_in (hr 0).1 (hr 0).2 l1 u1 h2.1 le2
  · exact ⟨l2, u2⟩

/-! ## the quadratic -/

/-- entries of `J^T J` -/
def MM (jac : Fin 4 → K) (i j : Fin 2) : K := jac (col0 i) * jac (col0 j) + jac (col1 i) * jac (col1 j)

theorem MM_symm (jac : Fin 4 → K) (d : Fin 2) : MM jac (oth d) d = MM jac d (oth d) := by unfold MM; ring

theorem jtj_MM (jac : Fin 4 → K) (d : Fin 2) : jtj jac d = MM jac d d := rfl

theorem MM_det (jac : Fin 4 → K) (d : Fin 2) : MM jac d d * MM jac (oth d) (oth d) - MM jac d (oth d) * MM jac d (oth d) = (jac 0 * jac 3 - jac 1 * jac 2) ^ 2 := by
  fin_cases d <;> simp [MM, col0, col1, oth] <;> ring

theorem MM_pos (jac : Fin 4 → K) (hdet : jac 0 * jac 3 - jac 1 * jac 2 ≠ 0) (d : Fin 2) : 0 < MM jac d d := by
  have h1 := MM_det jac d
  have h2 : 0 < (jac 0 * jac 3 - jac 1 * jac 2) ^ 2 := by positivity
  have h3 : 0 ≤ MM jac d d := by unfold MM; nlinarith [sq_nonneg (jac (col0 d)), sq_nonneg (jac (col1 d))]
  rcases h3.lt_or_eq with h | h
  · exact h
  · rw [← h] at h1; nlinarith [sq_nonneg (MM jac d (oth d))]

theorem MM_lt (jac : Fin 4 → K) (hdet : jac 0 * jac 3 - jac 1 * jac 2 ≠ 0) (d : Fin 2) : MM jac d (oth d) * MM jac d (oth d) < MM jac d d * MM jac (oth d) (oth d) := by
  have h1 := MM_det jac d
  have h2 : 0 < (jac 0 * jac 3 - jac 1 * jac 2) ^ 2 := by positivity
  linarith

/-- `resid = J*N` -/
def Sol (jac : Fin 4 → K) (resid N : Fin 2 → K) : Prop := resid 0 = jac 0 * N 0 + jac 1 * N 1 ∧ resid 1 = jac 2 * N 0 + jac 3 * N 1

omit [IsStrictOrderedRing K] [LinearOrder K] in
theorem sol_linSolve (jac : Fin 4 → K) (resid : Fin 2 → K) (hdet : jac 0 * jac 3 - jac 1 * jac 2 ≠ 0) : Sol jac resid (linSolve2 jac resid) := by
  have hi := mul_inv_cancel₀ hdet
  constructor <;> simp [linSolve2] <;> generalize (jac 0 * jac 3 - jac 1 * jac 2)⁻¹ = i at *
  · linear_combination -(resid 0) * hi
  · linear_combination -(resid 1) * hi

variable {jac : Fin 4 → K} {resid N : Fin 2 → K}

theorem y_eq (hN : Sol jac resid N) (dr : Fin 2 → K) (d : Fin 2) :
    yAt jac (resAt jac resid dr) d = MM jac d d * (N d - dr d) + MM jac d (oth d) * (N (oth d) - dr (oth d)) := by
  obtain ⟨h0, h1⟩ := hN
  fin_cases d <;> simp [yAt, resAt, MM, col0, col1, oth, h0, h1] <;> ring

theorem q_eq (hN : Sol jac resid N) (dr : Fin 2 → K) (d : Fin 2) :
    sq2 (resAt jac resid dr) = MM jac d d * (N d - dr d) ^ 2 + 2 * MM jac d (oth d) * (N d - dr d) * (N (oth d) - dr (oth d)) + MM jac (oth d) (oth d) * (N (oth d) - dr (oth d)) ^ 2 := by
  obtain ⟨h0, h1⟩ := hN
  fin_cases d <;> simp [sq2, resAt, MM, col0, col1, oth, h0, h1] <;> ring

/-- two pulls against each other cannot both win -/
theorem no_both {a b m u w : K} (ha : 0 < a) (hb : 0 < b) (hm : m * m < a * b) (hu : 0 < u) (hw : 0 < w) (h1 : a * u < m * w) (h2 : b * w < m * u) : False := by
  have h3 := mul_lt_mul'' h1 h2 (mul_pos ha hu).le (mul_pos hb hw).le
  have h4 := mul_lt_mul_of_pos_right hm (mul_pos hu hw)
  linarith [show a * u * (b * w) = a * b * (u * w) by ring, show m * w * (m * u) = m * m * (u * w) by ring]

/-! ## the loop -/

theorem addAt_same (dr : Fin 2 → K) (d : Fin 2) (v : K) : addAt dr d v d = dr d + v := by simp [addAt]
theorem addAt_oth (dr : Fin 2 → K) (d : Fin 2) (v : K) : addAt dr (oth d) v d = dr d := by simp [addAt, (oth_ne d).symm]

theorem areaEdge_run (b : Box2 K) (hdet : jac 0 * jac 3 - jac 1 * jac 2 ≠ 0) (hN : Sol jac resid N) (r0 dr : Fin 2 → K) (d : Fin 2) (v : Con) (hv : v ≠ .free)
    (hin : b.lo (oth d) ≤ r0 (oth d) + dr (oth d) ∧ r0 (oth d) + dr (oth d) ≤ b.hi (oth d)) :
    ∃ (dr' : Fin 2 → K) (c : Fin 2 → Con), areaEdge b jac resid r0 (dr, fl (single d v)) = some (dr', fl c) ∧ dr' d = dr d ∧
      (b.lo (oth d) ≤ r0 (oth d) + dr' (oth d) ∧ r0 (oth d) + dr' (oth d) ≤ b.hi (oth d)) ∧ sq2 (resAt jac resid dr') ≤ sq2 (resAt jac resid dr) ∧
      ((c = single d v ∧ yAt jac (resAt jac resid dr') (oth d) = 0) ∨
       ∃ w, w ≠ .free ∧ c = setc (single d v) (oth d) w ∧ r0 (oth d) + dr' (oth d) = b.at (oth d) w ∧ 0 < sgn w * yAt jac (resAt jac resid dr') (oth d) ∧
        0 < sgn w * yAt jac (resAt jac resid dr) (oth d)) := by
  set o := oth d with ho
  have hoo : oth o = d := oth_oth d
  set y := yAt jac (resAt jac resid dr) o with hy
  set m := MM jac o o with hm
  have hmp : 0 < m := MM_pos jac hdet o
  set drc := y / m with hdrc
  have hyd : y = m * drc := by rw [hdrc, mul_div_cancel₀ _ hmp.ne']
  -- the effect of a partial move
  have hmove : ∀ f : K, yAt jac (resAt jac resid (addAt dr o (f * drc))) o = (1 - f) * y := by
    intro f
    have h1 := y_eq hN (addAt dr o (f * drc)) o
    have h2 := y_eq hN dr o
    have e2 : addAt dr o (f * drc) (oth o) = dr (oth o) := by rw [hoo]; exact addAt_oth dr d _
    rw [addAt_same, e2] at h1
    rw [h1, ← hm]
    rw [← hy, ← hm] at h2
    linear_combination (-1 : K) * h2 + f * hyd
  have hq : ∀ f : K, 0 ≤ f → f ≤ 1 → sq2 (resAt jac resid (addAt dr o (f * drc))) ≤ sq2 (resAt jac resid dr) := by
    intro f h0 h1
    have e2 : addAt dr o (f * drc) (oth o) = dr (oth o) := by rw [hoo]; exact addAt_oth dr d _
    have q1 := q_eq hN (addAt dr o (f * drc)) o
    have q2 := q_eq hN dr o
    rw [addAt_same, e2] at q1
    have hy2 := y_eq hN dr o
    rw [← hy, ← hm] at hy2
    have key : sq2 (resAt jac resid (addAt dr o (f * drc))) = sq2 (resAt jac resid dr) - f * (2 - f) * (m * drc ^ 2) := by
      rw [q1, q2, ← hm]
      linear_combination (2 * f * drc) * hy2 - (2 * f * drc) * hyd
    rw [key]
    have : 0 ≤ f * (2 - f) * (m * drc ^ 2) := by
      have : 0 ≤ 2 - f := by linarith
      positivity
    linarith
  have heq : areaEdge b jac resid r0 (dr, fl (single d v)) = (edgeHit b r0 dr o drc).map fun h => (addAt dr o (h.1 * drc), fl (single d v) ||| h.2) := by
    rw [areaEdge, edge_fl d v hv, Option.bind_some]
    dsimp only
    rw [jtj_MM, divE_some hmp.ne', Option.bind_some]
  rw [heq]
  unfold edgeHit
  by_cases hout : (r0 o + (dr o + drc) - b.lo o) * (b.hi o - (r0 o + (dr o + drc))) < 0
  · rw [if_pos hout]
    rw [← add_assoc] at hout ⊢
    obtain ⟨w, f, hw, f0, f1, hat, hsg, e⟩ := cutTo_run b (r0 o + dr o) drc o (1, 0) hin.1 hin.2 hout
    rw [e, if_pos f1]
    have hatb : r0 o + (dr o + f * drc) = b.at o w := by rw [← hat]; ring
    have hsy : 0 < sgn w * y := by
      rw [hyd, mul_left_comm]; exact mul_pos hmp hsg
    refine ⟨addAt dr o (f * drc), setc (single d v) o w, ?_, addAt_oth dr d _, ?_, hq f f0 f1.le, Or.inr ⟨w, hw, rfl, ?_, ?_, hsy⟩⟩
    · rw [← or_fl]; rfl
    · rw [addAt_same, hatb]
      have : b.lo o ≤ b.hi o := hin.1.trans hin.2
      cases w <;> simp only [Box2.at] <;> constructor <;> linarith
    · rw [addAt_same, hatb]
    · rw [hmove, mul_left_comm]
      exact mul_pos (by linarith) hsy
  · rw [if_neg hout]
    push Not at hout
    refine ⟨addAt dr o (1 * drc), single d v, ?_, addAt_oth dr d _, ?_, hq 1 zero_le_one (le_refl _), Or.inl ⟨rfl, by rw [hmove]; ring⟩⟩
    · show some _ = some _
      simp
    · rw [addAt_same, one_mul]
      rcases mul_nonneg_iff.1 hout with ⟨h1, h2⟩ | ⟨h1, h2⟩ <;> constructor <;> linarith

/-- constraints are met -/
def Held (b : Box2 K) (r0 dr : Fin 2 → K) (c : Fin 2 → Con) : Prop := ∀ d, c d ≠ .free → r0 d + dr d = b.at d (c d)

theorem setDr_eq (b : Box2 K) (r0 dr : Fin 2 → K) (c : Fin 2 → Con) (h : Held b r0 dr c) : setDr b r0 (dr, fl c) = dr := by
  funext d
  unfold setDr
  dsimp only
  rw [conAt_fl]
  simp only [code_zero, code_one]
  by_cases h0 : c d = .free
  · rw [if_pos h0]
  · rw [if_neg h0]
    have := h d h0
    cases hc : c d with
    | free => exact absurd hc h0
    | lo => rw [hc] at this; simp only [Box2.at] at this; simp; linarith
    | hi => rw [hc] at this; simp only [Box2.at] at this; simp; linarith

/-- the constraints that remain -/
def keep (dr y : Fin 2 → K) (c : Fin 2 → Con) : Fin 2 → Con := fun d => if dr d * y d < 0 then .free else c d

theorem release_run (dr y : Fin 2 → K) (c : Fin 2 → Con) (d : Fin 2) : release dr y d (fl c) = fl (setc c d (if dr d * y d < 0 then .free else c d)) := by
  unfold release
  rw [conAt_fl]
  simp only [code_zero]
  by_cases h0 : c d = .free
  · rw [if_pos h0]
    congr 1
    funext e
    unfold setc
    by_cases he : e = d
    · subst he; rw [if_pos rfl, h0]; simp
    · rw [if_neg he]
  · rw [if_neg h0]
    by_cases h : dr d * y d < 0
    · rw [if_pos h, if_pos h, release_fl]
    · rw [if_neg h, if_neg h]
      congr 1
      funext e
      unfold setc
      by_cases he : e = d
      · subst he; rw [if_pos rfl]
      · rw [if_neg he]

theorem areaRelax_run (b : Box2 K) (r0 dr : Fin 2 → K) (c : Fin 2 → Con) (h : Held b r0 dr c) :
    areaRelax b jac resid r0 (dr, fl c) = (dr, fl (keep dr (yAt jac (resAt jac resid dr)) c)) := by
  unfold areaRelax
  rw [setDr_eq b r0 dr c h]
  dsimp only
  rw [release_run, release_run]
  congr 2
  funext e
  fin_cases e <;> simp [setc, keep]

/-- what holds at the end -/
structure AreaOk (b : Box2 K) (jac : Fin 4 → K) (resid r0 dr : Fin 2 → K) (c : Fin 2 → Con) : Prop where
  box : InBox b fun d => r0 d + dr d
  held : Held b r0 dr c
  desc : sq2 (resAt jac resid dr) ≤ sq2 resid
  free : ∀ d, c d = .free → yAt jac (resAt jac resid dr) d = 0
  con : ∀ d, c d ≠ .free → dr d ≠ 0 → 0 ≤ sgn (c d) * yAt jac (resAt jac resid dr) d
  con1 : ∀ d, c d ≠ .free → c (oth d) = .free → 0 ≤ sgn (c d) * yAt jac (resAt jac resid dr) d
  con2 : (∀ d, c d ≠ .free) → ∃ d, 0 < sgn (c d) * yAt jac (resAt jac resid dr) d

omit [Field K] [LinearOrder K] [IsStrictOrderedRing K] in
theorem con_cases (v : Con) (hv : v ≠ .free) : v = .lo ∨ v = .hi := by cases v <;> simp at *

/-- the move to a bound goes to the side of the bound -/
theorem held_sign (b : Box2 K) (r0 dr : Fin 2 → K) (hr : InBox b r0) (d : Fin 2) (v : Con) (hv : v ≠ .free) (h : r0 d + dr d = b.at d v) : 0 ≤ sgn v * dr d := by
  have := hr d
  rcases con_cases v hv with rfl | rfl
  · simp only [Box2.at, sgn] at *; linarith
  · simp only [Box2.at, sgn] at *; linarith

/-- a constraint is released when the slope points inwards and it is not active at the start -/
theorem neg_iff (b : Box2 K) (r0 dr : Fin 2 → K) (hr : InBox b r0) (d : Fin 2) (v : Con) (hv : v ≠ .free) (h : r0 d + dr d = b.at d v) (y : K) :
    dr d * y < 0 ↔ dr d ≠ 0 ∧ sgn v * y < 0 := by
  have h0 := held_sign b r0 dr hr d v hv h
  rcases con_cases v hv with rfl | rfl
  · simp only [sgn] at *
    constructor
    · intro h1
      refine ⟨fun h => by rw [h] at h1; linarith [zero_mul y], ?_⟩
      by_contra h2
      push Not at h2
      have := mul_nonneg_of_nonpos_of_nonpos (show dr d ≤ 0 by linarith) (show y ≤ 0 by linarith)
      linarith
    · rintro ⟨h1, h2⟩
      exact mul_neg_of_neg_of_pos (lt_of_le_of_ne (by linarith) h1) (by linarith)
  · simp only [sgn] at *
    constructor
    · intro h1
      refine ⟨fun h => by rw [h] at h1; linarith [zero_mul y], ?_⟩
      by_contra h2
      push Not at h2
      have := mul_nonneg (show 0 ≤ dr d by linarith) (show 0 ≤ y by linarith)
      linarith
    · rintro ⟨h1, h2⟩
      exact mul_neg_of_pos_of_neg (lt_of_le_of_ne (by linarith) (Ne.symm h1)) (by linarith)

theorem loop_stop (b : Box2 K) (r0 dr' : Fin 2 → K) (c : Fin 2 → Con) (s : (Fin 2 → K) × U32) (e : areaEdge b jac resid r0 s = some (dr', fl c)) (h : Held b r0 dr' c)
    (hk : keep dr' (yAt jac (resAt jac resid dr')) c = c) (fuel : Nat) : areaLoop b jac resid r0 (fuel + 1) s = some (dr', fl c) := by
  rw [areaLoop, e, Option.bind_some, areaRelax_run b r0 dr' c h, hk, if_pos rfl]

theorem loop_again (b : Box2 K) (r0 dr' : Fin 2 → K) (c : Fin 2 → Con) (s : (Fin 2 → K) × U32) (e : areaEdge b jac resid r0 s = some (dr', fl c)) (h : Held b r0 dr' c)
    (d : Fin 2) (v : Con) (hv : v ≠ .free) (hk : keep dr' (yAt jac (resAt jac resid dr')) c = single d v) (hne : single d v ≠ c) (fuel : Nat) :
    areaLoop b jac resid r0 (fuel + 1) s = areaLoop b jac resid r0 fuel (dr', fl (single d v)) := by
  rw [areaLoop, e, Option.bind_some, areaRelax_run b r0 dr' c h, hk]
  dsimp only
  rw [if_neg (fun h => hne (fl_inj _ _ h)), if_pos (num_fl d v hv)]

/-- one constraint, minimum inside the edge: done -/
theorem interior_done (b : Box2 K) (hdet : jac 0 * jac 3 - jac 1 * jac 2 ≠ 0) (hN : Sol jac resid N) (r0 dr' : Fin 2 → K) (hr : InBox b r0) (hin : InBox b fun d => r0 d + dr' d)
    (hq : sq2 (resAt jac resid dr') ≤ sq2 resid) (d : Fin 2) (v : Con) (hv : v ≠ .free) (hat : r0 d + dr' d = b.at d v) (he : 0 < sgn v * (N d - dr' d))
    (hy : yAt jac (resAt jac resid dr') (oth d) = 0) :
    Held b r0 dr' (single d v) ∧ keep dr' (yAt jac (resAt jac resid dr')) (single d v) = single d v ∧ AreaOk b jac resid r0 dr' (single d v) := by
  have hheld : Held b r0 dr' (single d v) := by
    intro e hc
    rcases eq_or_oth d e with rfl | rfl
    · rw [single_same]; exact hat
    · rw [single_oth] at hc; exact absurd rfl hc
  have hpos : 0 < sgn v * yAt jac (resAt jac resid dr') d := by
    have h1 := y_eq hN dr' d
    have h2 := y_eq hN dr' (oth d)
    rw [hy, oth_oth, MM_symm] at h2
    have hm := MM_pos jac hdet (oth d)
    have hl := MM_lt jac hdet d
    have key : MM jac (oth d) (oth d) * yAt jac (resAt jac resid dr') d = (MM jac d d * MM jac (oth d) (oth d) - MM jac d (oth d) * MM jac d (oth d)) * (N d - dr' d) := by
      rw [h1]; linear_combination (-(MM jac d (oth d))) * h2
    have h3 : 0 < MM jac (oth d) (oth d) * (sgn v * yAt jac (resAt jac resid dr') d) := by
      rw [mul_left_comm, key, mul_left_comm]
      exact mul_pos (by linarith) he
    exact (mul_pos_iff_of_pos_left hm).1 h3
  refine ⟨hheld, ?_, hin, hheld, hq, ?_, ?_, ?_, ?_⟩
  · funext e
    unfold keep
    rcases eq_or_oth d e with rfl | rfl
    · rw [if_neg]
      rw [neg_iff b r0 dr' hr _ v hv hat]
      rintro ⟨_, h⟩; linarith
    · rw [single_oth]; simp
  · intro e hc
    rcases eq_or_oth d e with rfl | rfl
    · rw [single_same] at hc; exact absurd hc hv
    · exact hy
  · intro e hc _
    rcases eq_or_oth d e with rfl | rfl
    · rw [single_same]; exact hpos.le
    · rw [single_oth] at hc; exact absurd rfl hc
  · intro e hc _
    rcases eq_or_oth d e with rfl | rfl
    · rw [single_same]; exact hpos.le
    · rw [single_oth] at hc; exact absurd rfl hc
  · intro hc
    exact absurd (single_oth d v) (hc (oth d))

/-- a corner where nothing is released: done -/
theorem corner_done (b : Box2 K) (r0 dr' : Fin 2 → K) (hr : InBox b r0) (hin : InBox b fun d => r0 d + dr' d)
    (hq : sq2 (resAt jac resid dr') ≤ sq2 resid) (d : Fin 2) (v w : Con) (hv : v ≠ .free) (hw : w ≠ .free) (hat : r0 d + dr' d = b.at d v) (hat' : r0 (oth d) + dr' (oth d) = b.at (oth d) w)
    (hyo : 0 < sgn w * yAt jac (resAt jac resid dr') (oth d)) (hyd : ¬ (dr' d * yAt jac (resAt jac resid dr') d < 0)) :
    keep dr' (yAt jac (resAt jac resid dr')) (setc (single d v) (oth d) w) = setc (single d v) (oth d) w ∧ AreaOk b jac resid r0 dr' (setc (single d v) (oth d) w) := by
  have e1 : setc (single d v) (oth d) w d = v := by unfold setc; rw [if_neg (oth_ne d).symm, single_same]
  have e2 : setc (single d v) (oth d) w (oth d) = w := by simp [setc]
  refine ⟨?_, hin, ?_, hq, ?_, ?_, ?_, fun _ => ⟨oth d, by rw [e2]; exact hyo⟩⟩
  · funext e
    unfold keep
    rcases eq_or_oth d e with rfl | rfl
    · rw [if_neg hyd]
    · rw [if_neg]
      rw [neg_iff b r0 dr' hr _ w hw hat']
      rintro ⟨_, h⟩; linarith
  · intro e _
    rcases eq_or_oth d e with rfl | rfl
    · rw [e1]; exact hat
    · rw [e2]; exact hat'
  · intro e hc
    rcases eq_or_oth d e with rfl | rfl
    · rw [e1] at hc; exact absurd hc hv
    · rw [e2] at hc; exact absurd hc hw
  · intro e _ h0
    rcases eq_or_oth d e with rfl | rfl
    · rw [e1]
      rw [neg_iff b r0 dr' hr _ v hv hat] at hyd
      by_contra h
      exact hyd ⟨h0, not_le.1 h⟩
    · rw [e2]; exact hyo.le
  · intro e _ hc
    rcases eq_or_oth d e with rfl | rfl
    · rw [e2] at hc; exact absurd hc hw
    · rw [oth_oth, e1] at hc; exact absurd hc hv

theorem sgn_sq (v : Con) (hv : v ≠ .free) : (sgn v : K) * sgn v = 1 := by
  rcases con_cases v hv with rfl | rfl <;> simp [sgn]

theorem areaLoop_run (b : Box2 K) (hdet : jac 0 * jac 3 - jac 1 * jac 2 ≠ 0) (hN : Sol jac resid N) (r0 dr : Fin 2 → K) (hr : InBox b r0) (hin : InBox b fun d => r0 d + dr d)
    (hq : sq2 (resAt jac resid dr) ≤ sq2 resid) (d : Fin 2) (v : Con) (hv : v ≠ .free) (hat : r0 d + dr d = b.at d v) (he : 0 < sgn v * (N d - dr d)) (fuel : Nat) :
    ∃ dr' c, areaLoop b jac resid r0 (fuel + 2) (dr, fl (single d v)) = some (dr', fl c) ∧ AreaOk b jac resid r0 dr' c := by
  obtain ⟨dr1, c1, e1, hd1, hin1, hq1, hcase⟩ := areaEdge_run b hdet hN r0 dr d v hv (hin (oth d))
  have hbox1 : InBox b fun d => r0 d + dr1 d := by
    intro e
    rcases eq_or_oth d e with rfl | rfl
    · simp only [hd1]; exact hin _
    · exact hin1
  have hat1 : r0 d + dr1 d = b.at d v := by rw [hd1]; exact hat
  have he1 : 0 < sgn v * (N d - dr1 d) := by rw [hd1]; exact he
  rcases hcase with ⟨rfl, hy1⟩ | ⟨w, hw, rfl, hatw, hyo, hyo'⟩
  · obtain ⟨h1, h2, h3⟩ := interior_done b hdet hN r0 dr1 hr hbox1 (hq1.trans hq) d v hv hat1 he1 hy1
    exact ⟨dr1, _, loop_stop b r0 dr1 _ _ e1 h1 h2 _, h3⟩
  · have c1 : setc (single d v) (oth d) w d = v := by unfold setc; rw [if_neg (oth_ne d).symm, single_same]
    have c2 : setc (single d v) (oth d) w (oth d) = w := by simp [setc]
    have hheld : Held b r0 dr1 (setc (single d v) (oth d) w) := by
      intro e _
      rcases eq_or_oth d e with rfl | rfl
      · rw [c1]; exact hat1
      · rw [c2]; exact hatw
    by_cases hyd : dr1 d * yAt jac (resAt jac resid dr1) d < 0
    · -- constraint d is released
      obtain ⟨hd0, hyd'⟩ := (neg_iff b r0 dr1 hr d v hv hat1 _).1 hyd
      have hne : ¬ dr1 (oth d) * yAt jac (resAt jac resid dr1) (oth d) < 0 := by
        rw [neg_iff b r0 dr1 hr _ w hw hatw]
        rintro ⟨_, h⟩; linarith
      have hkeep : keep dr1 (yAt jac (resAt jac resid dr1)) (setc (single d v) (oth d) w) = single (oth d) w := by
        funext e
        unfold keep
        rcases eq_or_oth d e with rfl | rfl
        · rw [if_pos hyd]
          have := single_oth (oth e) w
          rw [oth_oth] at this; exact this.symm
        · rw [if_neg hne, c2, single_same]
      have hne2 : single (oth d) w ≠ setc (single d v) (oth d) w := by
        intro h
        have h1 := congrFun h d
        rw [c1] at h1
        have := single_oth (oth d) w
        rw [oth_oth, h1] at this; exact hv this
      have hag := loop_again b r0 dr1 _ _ e1 hheld (oth d) w hw hkeep hne2 (fuel + 1)
      have hm := MM_pos jac hdet (oth d)
      have hmd := MM_pos jac hdet d
      have hl := MM_lt jac hdet d
      have yd := y_eq hN dr1 d
      have yo := y_eq hN dr1 (oth d)
      rw [oth_oth, MM_symm] at yo
      have hsv := sgn_sq (K := K) v hv
      have hsw := sgn_sq (K := K) w hw
      have hmm : ∀ x : K, x * x = 1 → (x * MM jac d (oth d)) * (x * MM jac d (oth d)) < MM jac d d * MM jac (oth d) (oth d) := by
        intro x hx
        have : (x * MM jac d (oth d)) * (x * MM jac d (oth d)) = (x * x) * (MM jac d (oth d) * MM jac d (oth d)) := by ring
        rw [this, hx, one_mul]; exact hl
      -- the minimum is beyond the new edge too
      have he2 : 0 < sgn w * (N (oth d) - dr1 (oth d)) := by
        by_contra h
        push Not at h
        rcases h.lt_or_eq with h | h
        · refine no_both (m := sgn v * sgn w * MM jac d (oth d)) (u := sgn v * (N d - dr1 d)) (w := -(sgn w * (N (oth d) - dr1 (oth d)))) hmd hm
            (hmm _ (by linear_combination (sgn w * sgn w : K) * hsv + hsw)) he1 (by linarith) ?_ ?_
          · have : sgn v * yAt jac (resAt jac resid dr1) d = MM jac d d * (sgn v * (N d - dr1 d)) - sgn v * sgn w * MM jac d (oth d) * (-(sgn w * (N (oth d) - dr1 (oth d)))) := by
              rw [yd]; linear_combination (-(sgn v * MM jac d (oth d) * (N (oth d) - dr1 (oth d)))) * hsw
            linarith
          · have : sgn w * yAt jac (resAt jac resid dr1) (oth d) = sgn v * sgn w * MM jac d (oth d) * (sgn v * (N d - dr1 d)) - MM jac (oth d) (oth d) * (-(sgn w * (N (oth d) - dr1 (oth d)))) := by
              rw [yo]; linear_combination (-(sgn w * MM jac d (oth d) * (N d - dr1 d))) * hsv
            linarith
        · have h0 : N (oth d) - dr1 (oth d) = 0 := by
            have : sgn w * (sgn w * (N (oth d) - dr1 (oth d))) = 0 := by rw [h, mul_zero]
            rwa [← mul_assoc, hsw, one_mul] at this
          rw [h0, mul_zero, add_zero] at yd
          rw [yd] at hyd'
          have := mul_pos hmd he1
          linarith [show MM jac d d * (sgn v * (N d - dr1 d)) = sgn v * (MM jac d d * (N d - dr1 d)) by ring]
      obtain ⟨dr2, c2', e2, hd2, hin2, hq2, hcase2⟩ := areaEdge_run b hdet hN r0 dr1 (oth d) w hw (hbox1 (oth (oth d)))
      rw [oth_oth] at hin2 hcase2
      have hbox2 : InBox b fun d => r0 d + dr2 d := by
        intro e
        rcases eq_or_oth d e with rfl | rfl
        · exact hin2
        · simp only [hd2]; exact hbox1 _
      have hat2 : r0 (oth d) + dr2 (oth d) = b.at (oth d) w := by rw [hd2]; exact hatw
      have he2' : 0 < sgn w * (N (oth d) - dr2 (oth d)) := by rw [hd2]; exact he2
      rcases hcase2 with ⟨rfl, hy2⟩ | ⟨w', hw', rfl, hatw', hyd2, hyd2'⟩
      · obtain ⟨h1, h2, h3⟩ := interior_done b hdet hN r0 dr2 hr hbox2 (hq2.trans (hq1.trans hq)) (oth d) w hw hat2 he2' (by rw [oth_oth]; exact hy2)
        exact ⟨dr2, _, by rw [hag]; exact loop_stop b r0 dr2 _ _ e2 h1 h2 _, h3⟩
      · -- the other end: opposite side
        have hside : sgn w' = -(sgn v : K) ∧ 0 < sgn v * (N d - dr2 d) := by
          have hlohi : b.lo d ≤ b.hi d := (hr d).1.trans (hr d).2
          rcases con_cases v hv with rfl | rfl <;> rcases con_cases w' hw' with rfl | rfl <;> simp only [sgn, Box2.at] at *
          · exfalso; linarith
          · exact ⟨by norm_num, by linarith⟩
          · exact ⟨by norm_num, by linarith⟩
          · exfalso; linarith
        obtain ⟨hs, he3⟩ := hside
        have yd2 := y_eq hN dr2 d
        have yo2 := y_eq hN dr2 (oth d)
        rw [oth_oth, MM_symm] at yo2
        have hno : ¬ (dr2 (oth d) * yAt jac (resAt jac resid dr2) (oth d) < 0) := by
          intro h
          obtain ⟨_, h⟩ := (neg_iff b r0 dr2 hr (oth d) w hw hat2 _).1 h
          refine no_both (m := -(sgn v * sgn w * MM jac d (oth d))) (u := sgn v * (N d - dr2 d)) (w := sgn w * (N (oth d) - dr2 (oth d))) hmd hm
            (by have := hmm (sgn v * sgn w) (by linear_combination (sgn w * sgn w : K) * hsv + hsw); linarith) he3 he2' ?_ ?_
          · have : sgn v * yAt jac (resAt jac resid dr2) d = MM jac d d * (sgn v * (N d - dr2 d)) + sgn v * sgn w * MM jac d (oth d) * (sgn w * (N (oth d) - dr2 (oth d))) := by
              rw [yd2]; linear_combination (-(sgn v * MM jac d (oth d) * (N (oth d) - dr2 (oth d)))) * hsw
            rw [hs] at hyd2
            linarith
          · have : sgn w * yAt jac (resAt jac resid dr2) (oth d) = sgn v * sgn w * MM jac d (oth d) * (sgn v * (N d - dr2 d)) + MM jac (oth d) (oth d) * (sgn w * (N (oth d) - dr2 (oth d))) := by
              rw [yo2]; linear_combination (-(sgn w * MM jac d (oth d) * (N d - dr2 d))) * hsv
            linarith
        obtain ⟨h1, h2⟩ := corner_done (jac := jac) (resid := resid) b r0 dr2 hr hbox2 (hq2.trans (hq1.trans hq)) (oth d) w w' hw hw' hat2 (by rw [oth_oth]; exact hatw')
          (by rw [oth_oth]; exact hyd2) hno
        rw [oth_oth] at h1 h2
        exact ⟨dr2, _, by rw [hag]; exact loop_stop b r0 dr2 _ _ e2 h2.held h1 _, h2⟩
    · obtain ⟨h1, h2⟩ := corner_done (jac := jac) (resid := resid) b r0 dr1 hr hbox1 (hq1.trans hq) d v w hv hw hat1 hatw hyo hyd
      exact ⟨dr1, _, loop_stop b r0 dr1 _ _ e1 hheld h1 _, h2⟩

theorem areaSolve_run (b : Box2 K) (jac : Fin 4 → K) (resid : Fin 2 → K) (hdet : jac 0 * jac 3 - jac 1 * jac 2 ≠ 0) (r0 : Fin 2 → K) (hr : InBox b r0) (fuel : Nat) :
    ∃ dr c, areaSolve (fuel + 2) b jac resid r0 = some (dr, fl c) ∧ AreaOk b jac resid r0 dr c := by
  rw [areaSolve, if_neg hdet]
  set N := linSolve2 jac resid with hNdef
  have hN : Sol jac resid N := sol_linSolve jac resid hdet
  obtain ⟨s, e, ⟨h0, h1, hc⟩, hin⟩ := areaHit_run b r0 N hr
  rw [e, Option.bind_some]
  have q0 : sq2 resid = MM jac 0 0 * N 0 ^ 2 + 2 * MM jac 0 (oth 0) * N 0 * N (oth 0) + MM jac (oth 0) (oth 0) * N (oth 0) ^ 2 := by
    have := q_eq hN (fun _ => 0) 0
    simp only [sub_zero] at this
    rw [← this]
    simp [sq2, resAt]
  have hqn : 0 ≤ sq2 resid := by unfold sq2; nlinarith [sq_nonneg (resid 0), sq_nonneg (resid 1)]
  rcases hc with ⟨hs1, hs2⟩ | ⟨d, v, hv, hlt, hs2, hat, hsg⟩
  · rw [if_pos hs2]
    have hres : ∀ d, yAt jac (resAt jac resid N) d = 0 := by intro d; rw [y_eq hN]; ring
    refine ⟨N, fun _ => .free, by rw [← zero_fl], ?_, fun d h => absurd rfl h, ?_, fun d _ => hres d, fun d h => absurd rfl h, fun d h => absurd rfl h, fun h => absurd rfl (h 0)⟩
    · intro d; have := hin d; simp only [hs1, one_mul] at this; exact this
    · rw [q_eq hN N 0]
      simp only [sub_self]
      nlinarith
  · rw [if_neg (by rw [hs2]; exact single_ne d v hv), hs2]
    have hcomm : (fun d => N d * s.1) = fun d => s.1 * N d := by funext d; ring
    rw [hcomm]
    refine areaLoop_run b hdet hN r0 (fun d => s.1 * N d) hr hin ?_ d v hv hat ?_ fuel
    · have : sq2 (resAt jac resid fun d => s.1 * N d) = (1 - s.1) ^ 2 * sq2 resid := by
        rw [q_eq hN _ 0, q0]; ring
      rw [this]
      have : (1 - s.1) ^ 2 ≤ 1 := by nlinarith
      nlinarith
    · have : sgn v * (N d - s.1 * N d) = (1 - s.1) * (sgn v * N d) := by ring
      rw [this]
      exact mul_pos (by linarith) hsg

/-! ## the result of newton_area -/

theorem areaBox_lo (tr : K) (r0 : Fin 2 → K) (d : Fin 2) : (areaBox tr r0).lo d = max (-1) (r0 d - tr) := by
  show (bndLo tr (r0 d)).1 = _
  unfold bndLo
  split_ifs with h
  · rw [max_eq_right h.le]
  · rw [max_eq_left (not_lt.1 h)]

theorem areaBox_hi (tr : K) (r0 : Fin 2 → K) (d : Fin 2) : (areaBox tr r0).hi d = min 1 (r0 d + tr) := by
  show (bndHi tr (r0 d)).1 = _
  unfold bndHi
  split_ifs with h
  · rw [min_eq_right h.le]
  · rw [min_eq_left (not_lt.1 h)]

/-- the constraints that are bounds of the element -/
def real (tr : K) (r0 : Fin 2 → K) (c : Fin 2 → Con) : Fin 2 → Con := fun d =>
  match c d with
  | .free => .free
  | .lo => if (bndLo tr (r0 d)).2 then .lo else .free
  | .hi => if (bndHi tr (r0 d)).2 then .hi else .free

theorem mask_run (tr : K) (r0 : Fin 2 → K) (c : Fin 2 → Con) : fl c &&& (areaBox tr r0).mask = fl (real tr r0 c) := by
  unfold areaBox fl real
  dsimp only
  generalize (bndLo tr (r0 0)).2 = a; generalize (bndHi tr (r0 0)).2 = b; generalize (bndLo tr (r0 1)).2 = a'; generalize (bndHi tr (r0 1)).2 = b'
  generalize c 0 = x; generalize c 1 = y
  revert a b a' b'
  cases x <;> cases y <;> decide

theorem setR_run (tr : K) (r0 dr : Fin 2 → K) (c : Fin 2 → Con) (C : Bool) (hin : InBox (areaBox tr r0) fun d => r0 d + dr d) (hh : Held (areaBox tr r0) r0 dr c) :
    setR r0 dr (fl (real tr r0 c) ||| (if C then (16 : U32) else 0)) = (fun d => r0 d + dr d) ∧ RefPt (fun d => r0 d + dr d) (real tr r0 c) := by
  have hcon : ∀ d, conAt (fl (real tr r0 c) ||| (if C then (16 : U32) else 0)) d = BitVec.ofNat 32 (real tr r0 c d).code := by
    intro d
    cases C
    · simp only [Bool.false_eq_true, if_false]; rw [show fl (real tr r0 c) ||| 0 = fl (real tr r0 c) by simp]; exact conAt_fl _ d
    · exact conAt_fl_c _ d
  have hlo : ∀ d, real tr r0 c d = .lo → r0 d + dr d = -1 := by
    intro d h
    unfold real at h
    cases hc : c d with
    | free => rw [hc] at h; exact absurd h (by simp)
    | hi => rw [hc] at h; dsimp only at h; split_ifs at h
    | lo =>
      rw [hc] at h; dsimp only at h
      have h1 := hh d (by rw [hc]; decide)
      rw [hc] at h1
      have h2 : (areaBox tr r0).at d .lo = (bndLo tr (r0 d)).1 := rfl
      rw [h1, h2]
      unfold bndLo at h ⊢
      split_ifs at h ⊢ <;> simp_all
  have hhi : ∀ d, real tr r0 c d = .hi → r0 d + dr d = 1 := by
    intro d h
    unfold real at h
    cases hc : c d with
    | free => rw [hc] at h; exact absurd h (by simp)
    | lo => rw [hc] at h; dsimp only at h; split_ifs at h
    | hi =>
      rw [hc] at h; dsimp only at h
      have h1 := hh d (by rw [hc]; decide)
      rw [hc] at h1
      have h2 : (areaBox tr r0).at d .hi = (bndHi tr (r0 d)).1 := rfl
      rw [h1, h2]
      unfold bndHi at h ⊢
      split_ifs at h ⊢ <;> simp_all
  constructor
  · funext d
    unfold setR
    rw [hcon]
    simp only [code_zero, code_one]
    cases hc : real tr r0 c d with
    | free => simp
    | lo => simp [hlo d hc]
    | hi => simp [hhi d hc]
  · intro d
    have := hin d
    rw [areaBox_lo, areaBox_hi] at this
    exact ⟨(le_max_left _ _).trans this.1, this.2.trans (min_le_left _ _), hlo d, hhi d⟩

/-- minimality from the slopes -/
theorem kkt_min (dr dr' : Fin 2 → K) (h : ∀ d, yAt jac (resAt jac resid dr) d * (dr' d - dr d) ≤ 0) :
    sq2 (resAt jac resid dr) ≤ sq2 (resAt jac resid dr') := by
  have h0 := h 0
  have h1 := h 1
  have key : sq2 (resAt jac resid dr') - sq2 (resAt jac resid dr) = (jac 0 * (dr' 0 - dr 0) + jac 1 * (dr' 1 - dr 1)) ^ 2 + (jac 2 * (dr' 0 - dr 0) + jac 3 * (dr' 1 - dr 1)) ^ 2
      - 2 * (yAt jac (resAt jac resid dr) 0 * (dr' 0 - dr 0) + yAt jac (resAt jac resid dr) 1 * (dr' 1 - dr 1)) := by
    simp [sq2, resAt, yAt, col0, col1]; ring
  have := sq_nonneg (jac 0 * (dr' 0 - dr 0) + jac 1 * (dr' 1 - dr 1))
  have := sq_nonneg (jac 2 * (dr' 0 - dr 0) + jac 3 * (dr' 1 - dr 1))
  linarith

theorem shift_or_mask5 (f c : U32) : ((f <<< 5) ||| c) &&& 0x1f = c &&& 0x1f := by
  apply BitVec.eq_of_getLsbD_eq
  intro i hi
  simp only [BitVec.getLsbD_and, BitVec.getLsbD_or, BitVec.getLsbD_shiftLeft]
  interval_cases i <;> simp

theorem low_lt (c : Fin 2 → Con) (C : Bool) : lowFlags c C &&& 0x1f = lowFlags c C := by
  unfold lowFlags
  generalize c 0 = a; generalize c 1 = b
  cases a <;> cases b <;> cases C <;> decide

theorem low_shift (c : Fin 2 → Con) (C : Bool) : lowFlags c C >>> 5 = 0 := by
  unfold lowFlags
  generalize c 0 = a; generalize c 1 = b
  cases a <;> cases b <;> cases C <;> decide

/-- the two parts of the flag word after a step -/
theorem flags_parts (c : Fin 2 → Con) (C : Bool) (f : U32) :
    (lowFlags c C ||| (f <<< 5)) &&& 0x1f = lowFlags c C ∧ ((lowFlags c C ||| (f <<< 5)) >>> 5) &&& 0x1f = f &&& 0x1f := by
  constructor
  · rw [BitVec.or_comm, shift_or_mask5, low_lt]
  · rw [BitVec.ushiftRight_or_distrib, low_shift]
    apply BitVec.eq_of_getLsbD_eq
    intro i hi
    simp only [BitVec.getLsbD_and, BitVec.getLsbD_or, BitVec.getLsbD_shiftLeft, BitVec.getLsbD_ushiftRight]
    interval_cases i <;> simp

theorem areaBox_in (tr : K) (r0 : Fin 2 → K) (htr : 0 ≤ tr) (hr : ∀ d, -1 ≤ r0 d ∧ r0 d ≤ 1) : InBox (areaBox tr r0) r0 := by
  intro d
  rw [areaBox_lo, areaBox_hi]
  exact ⟨max_le (hr d).1 (by linarith), le_min (hr d).2 (by linarith)⟩

theorem newtonArea_step (fuel : Nat) (hf : 2 ≤ fuel) (tol : K) (jac : Fin 4 → K) (resid : Fin 2 → K) (p out : Pt K 2) (hdet : jac 0 * jac 3 - jac 1 * jac 2 ≠ 0) (htr : 0 ≤ p.tr)
    (hr : ∀ d, -1 ≤ p.r d ∧ p.r d ≤ 1) :
    ∃ (p' : Pt K 2) (c : Fin 2 → Con) (dr : Fin 2 → K), newtonArea fuel tol jac resid p out = some p' ∧ p'.r = (fun d => p.r d + dr d) ∧
      StepOk p out p' (real p.tr p.r c) (decide (|dr 0| + |dr 1| < tol)) ∧ p'.dist2p = sq2 resid - sq2 (resAt jac resid dr) ∧ AreaOk (areaBox p.tr p.r) jac resid p.r dr c := by
  obtain ⟨fuel, rfl⟩ : ∃ f, fuel = f + 2 := ⟨fuel - 2, by omega⟩
  obtain ⟨dr, c, e, h⟩ := areaSolve_run (areaBox p.tr p.r) jac resid hdet p.r (areaBox_in p.tr p.r htr hr) fuel
  have hfl : (fl c &&& (areaBox p.tr p.r).mask) ||| (if |dr 0| + |dr 1| < tol then (16 : U32) else 0) = lowFlags (real p.tr p.r c) (decide (|dr 0| + |dr 1| < tol)) := by
    rw [mask_run]; simp only [lowFlags, fl, decide_eq_true_eq]
  have hs := setR_run p.tr p.r dr c (decide (|dr 0| + |dr 1| < tol)) h.box h.held
  refine ⟨areaFin tol (areaBox p.tr p.r) jac resid p out (dr, fl c), c, dr, by rw [newtonArea, e]; rfl, ?_, ⟨?_, ?_, ?_, ?_, ?_, rfl, rfl, rfl, rfl, rfl⟩, rfl, h⟩
  · show setR p.r dr ((fl c &&& (areaBox p.tr p.r).mask) ||| (if |dr 0| + |dr 1| < tol then (16 : U32) else 0)) = _
    rw [hfl]; exact hs.1
  · show (((fl c &&& (areaBox p.tr p.r).mask) ||| (if |dr 0| + |dr 1| < tol then (16 : U32) else 0)) ||| (p.flags <<< 5)) &&& 0x1f = _
    rw [hfl]; exact (flags_parts _ _ _).1
  · show ((((fl c &&& (areaBox p.tr p.r).mask) ||| (if |dr 0| + |dr 1| < tol then (16 : U32) else 0)) ||| (p.flags <<< 5)) >>> 5) &&& 0x1f = _
    rw [hfl]; exact (flags_parts _ _ _).2
  · show RefPt (setR p.r dr ((fl c &&& (areaBox p.tr p.r).mask) ||| (if |dr 0| + |dr 1| < tol then (16 : U32) else 0))) _
    rw [hfl, show setR p.r dr (lowFlags (real p.tr p.r c) (decide (|dr 0| + |dr 1| < tol))) = _ from hs.1]; exact hs.2
  · intro d
    show |setR p.r dr ((fl c &&& (areaBox p.tr p.r).mask) ||| (if |dr 0| + |dr 1| < tol then (16 : U32) else 0)) d - p.r d| ≤ p.tr
    rw [hfl, show setR p.r dr (lowFlags (real p.tr p.r c) (decide (|dr 0| + |dr 1| < tol))) = _ from hs.1]
    have := h.box d
    rw [areaBox_lo, areaBox_hi] at this
    have h1 := (le_max_right _ _).trans this.1
    have h2 := this.2.trans (min_le_right _ _)
    rw [abs_le]; constructor <;> linarith
  · show 0 ≤ sq2 resid - sq2 (resAt jac resid dr)
    linarith [h.desc]

/-! ## newton_edge -/

/-- the bounds of the move along the edge -/
theorem cand_lo (tr oldr : K) (flags : U32) (de : Fin 2) : (candLo tr oldr flags de).dr = max (-tr) (-1 - oldr) ∧ (candLo tr oldr flags de).nr = oldr + (candLo tr oldr flags de).dr := by
  unfold candLo
  split_ifs with h
  · exact ⟨(max_eq_left (by linarith)).symm, by ring⟩
  · exact ⟨(max_eq_right (by linarith)).symm, by ring⟩

theorem cand_hi (tr oldr : K) (flags : U32) (de : Fin 2) : (candHi tr oldr flags de).dr = min tr (1 - oldr) ∧ (candHi tr oldr flags de).nr = oldr + (candHi tr oldr flags de).dr := by
  unfold candHi
  split_ifs with h
  · exact ⟨(min_eq_left (by linarith)).symm, by ring⟩
  · exact ⟨(min_eq_right (by linarith)).symm, by ring⟩

/-- a parabola on an interval without its lowest point inside -/
theorem parab {A y l h z : K} (hz : l ≤ z) (hz' : z ≤ h) (hno : ¬ (0 < A ∧ l * A < y ∧ y < h * A)) : evalQ A y l ≤ evalQ A y z ∨ evalQ A y h ≤ evalQ A y z := by
  unfold evalQ
  rcases le_or_gt A 0 with hA | hA
  · by_contra hc
    push Not at hc
    obtain ⟨h1, h2⟩ := hc
    have e1 : (z - l) * ((z + l) * A - 2 * y) < 0 := by nlinarith
    have e2 : (h - z) * ((z + h) * A - 2 * y) > 0 := by nlinarith
    have l1 : 0 < z - l := by
      rcases hz.lt_or_eq with h | h
      · linarith
      · rw [h] at e1; linarith [show (z - z) * ((z + z) * A - 2 * y) = 0 by ring]
    have l2 : 0 < h - z := by
      rcases hz'.lt_or_eq with h | h
      · linarith
      · rw [h, sub_self, zero_mul] at e2; exact absurd e2 (lt_irrefl _)
    have f1 : (z + l) * A - 2 * y < 0 := by by_contra hh; push Not at hh; nlinarith [mul_nonneg l1.le hh]
    have f2 : (z + h) * A - 2 * y > 0 := by by_contra hh; push Not at hh; nlinarith [mul_nonneg_of_nonpos_of_nonpos hh (show -(h - z) ≤ 0 by linarith)]
    nlinarith [mul_nonneg_of_nonpos_of_nonpos hA (show l - h ≤ 0 by linarith)]
  · by_cases h1 : l * A < y
    · have h2 : h * A ≤ y := by by_contra hh; exact hno ⟨hA, h1, not_le.1 hh⟩
      right
      have : (h - z) * ((z + h) * A - 2 * y) ≤ 0 := mul_nonpos_of_nonneg_of_nonpos (by linarith) (by nlinarith)
      nlinarith
    · left
      push Not at h1
      have : 0 ≤ (z - l) * ((z + l) * A - 2 * y) := mul_nonneg (by linarith) (by nlinarith)
      nlinarith

/-- `newton_edge` finds the lowest point of its parabola over the admissible moves -/
theorem edgeChoice_min (A y tr oldr : K) (flags : U32) (de : Fin 2) (htr : 0 ≤ tr) (hr : -1 ≤ oldr ∧ oldr ≤ 1) :
    (|(edgeChoice A y tr oldr flags de).dr| ≤ tr ∧ -1 ≤ oldr + (edgeChoice A y tr oldr flags de).dr ∧ oldr + (edgeChoice A y tr oldr flags de).dr ≤ 1) ∧
    (edgeChoice A y tr oldr flags de).nr = oldr + (edgeChoice A y tr oldr flags de).dr ∧
    ∀ z, |z| ≤ tr → -1 ≤ oldr + z → oldr + z ≤ 1 → evalQ A y (edgeChoice A y tr oldr flags de).dr ≤ evalQ A y z := by
  obtain ⟨l1, l2⟩ := cand_lo tr oldr flags de
  obtain ⟨u1, u2⟩ := cand_hi tr oldr flags de
  unfold edgeChoice
  split_ifs with h1 h2
  · obtain ⟨hA, h2, h3⟩ := h1
    rw [abs_lt] at h3
    refine ⟨⟨h2.le, h3.1.le, h3.2.le⟩, rfl, fun z _ _ _ => ?_⟩
    have : evalQ A y z - evalQ A y (y / A) = A * (z - y / A) ^ 2 := by unfold evalQ; field_simp; ring
    have : 0 ≤ A * (z - y / A) ^ 2 := by positivity
    linarith
  all_goals
    have hno : ¬ (0 < A ∧ (candLo tr oldr flags de).dr * A < y ∧ y < (candHi tr oldr flags de).dr * A) := by
      rintro ⟨hA, h3, h4⟩
      apply h1
      rw [← lt_div_iff₀ hA, l1] at h3
      rw [← div_lt_iff₀ hA, u1] at h4
      have := lt_of_le_of_lt (le_max_left _ _) h3
      have := lt_of_le_of_lt (le_max_right _ _) h3
      have := lt_of_lt_of_le h4 (min_le_left _ _)
      have := lt_of_lt_of_le h4 (min_le_right _ _)
      refine ⟨hA, abs_lt.2 ⟨by linarith, by linarith⟩, abs_lt.2 ⟨by linarith, by linarith⟩⟩
    have hz : ∀ z, |z| ≤ tr → -1 ≤ oldr + z → oldr + z ≤ 1 → evalQ A y (candLo tr oldr flags de).dr ≤ evalQ A y z ∨ evalQ A y (candHi tr oldr flags de).dr ≤ evalQ A y z := by
      intro z z1 z2 z3
      rw [abs_le] at z1
      exact parab (by rw [l1]; exact max_le z1.1 (by linarith)) (by rw [u1]; exact le_min z1.2 (by linarith)) hno
  · have b1 : (candHi tr oldr flags de).dr ≤ tr := by rw [u1]; exact min_le_left _ _
    have b2 : (candHi tr oldr flags de).dr ≤ 1 - oldr := by rw [u1]; exact min_le_right _ _
    have b3 : 0 ≤ (candHi tr oldr flags de).dr := by rw [u1]; exact le_min htr (by linarith)
    refine ⟨⟨abs_le.2 ⟨by linarith, b1⟩, by linarith, by linarith⟩, u2, fun z z1 z2 z3 => ?_⟩
    rcases hz z z1 z2 z3 with h | h
    · exact h2.le.trans h
    · exact h
  · have b1 : -tr ≤ (candLo tr oldr flags de).dr := by rw [l1]; exact le_max_left _ _
    have b2 : -1 - oldr ≤ (candLo tr oldr flags de).dr := by rw [l1]; exact le_max_right _ _
    have b3 : (candLo tr oldr flags de).dr ≤ 0 := by rw [l1]; exact max_le (by linarith) (by linarith)
    refine ⟨⟨abs_le.2 ⟨b1, by linarith⟩, by linarith, by linarith⟩, l2, fun z z1 z2 z3 => ?_⟩
    rcases hz z z1 z2 z3 with h | h
    · exact h
    · exact (not_lt.1 h2).trans h

/-- the flags of the chosen candidate: a constraint only at a bound of the element -/
theorem edgeChoice_flags (A y tr oldr : K) (dn : Fin 2) (v : Con) :
    ∃ w, fl (single dn v) ||| (edgeChoice A y tr oldr (fl (single dn v)) (oth dn)).flags = fl (setc (single dn v) (oth dn) w) ∧
      (w = .lo → (edgeChoice A y tr oldr (fl (single dn v)) (oth dn)).nr = -1) ∧ (w = .hi → (edgeChoice A y tr oldr (fl (single dn v)) (oth dn)).nr = 1) := by
  have h0 : fl (single dn v) ||| 0 = fl (setc (single dn v) (oth dn) .free) := by fin_cases dn <;> cases v <;> decide
  have h1 : fl (single dn v) ||| (fl (single dn v) ||| ((1 : U32) <<< sh2 (oth dn))) = fl (setc (single dn v) (oth dn) .lo) := by fin_cases dn <;> cases v <;> decide
  have h2 : fl (single dn v) ||| (fl (single dn v) ||| ((2 : U32) <<< sh2 (oth dn))) = fl (setc (single dn v) (oth dn) .hi) := by fin_cases dn <;> cases v <;> decide
  unfold edgeChoice
  split_ifs
  · exact ⟨.free, h0, by simp, by simp⟩
  · unfold candHi
    split_ifs
    · exact ⟨.free, h0, by simp, by simp⟩
    · exact ⟨.hi, h2, by simp, fun _ => rfl⟩
  · unfold candLo
    split_ifs
    · exact ⟨.free, h0, by simp, by simp⟩
    · exact ⟨.lo, h1, fun _ => rfl, by simp⟩

theorem newtonEdge_step (tol : K) (jac : Fin 4 → K) (rhes : K) (resid : Fin 2 → K) (dn : Fin 2) (v : Con) (p out : Pt K 2) (htr : 0 ≤ p.tr) (hr : RefPt p.r (single dn v)) :
    ∃ (c : Fin 2 → Con) (C : Bool), c dn = v ∧ (newtonEdge tol jac rhes resid (oth dn) dn (fl (single dn v)) p out).r dn = p.r dn ∧
      StepOk p out (newtonEdge tol jac rhes resid (oth dn) dn (fl (single dn v)) p out) c C := by
  have hm := edgeChoice_min (jtj jac (oth dn) - rhes) (yAt jac resid (oth dn)) p.tr (p.r (oth dn)) (fl (single dn v)) (oth dn) htr ⟨(hr _).1, (hr _).2.1⟩
  obtain ⟨w, hw, hwl, hwh⟩ := edgeChoice_flags (jtj jac (oth dn) - rhes) (yAt jac resid (oth dn)) p.tr (p.r (oth dn)) dn v
  set ch := edgeChoice (jtj jac (oth dn) - rhes) (yAt jac resid (oth dn)) p.tr (p.r (oth dn)) (fl (single dn v)) (oth dn) with hch
  obtain ⟨⟨m1, m2, m3⟩, m4, m5⟩ := hm
  have hcd : setc (single dn v) (oth dn) w dn = v := by unfold setc; rw [if_neg (oth_ne dn).symm, single_same]
  have hco : setc (single dn v) (oth dn) w (oth dn) = w := by simp [setc]
  have hfl : fl (single dn v) ||| (ch.flags ||| (if |ch.dr| < tol then (16 : U32) else 0)) = lowFlags (setc (single dn v) (oth dn) w) (decide (|ch.dr| < tol)) := by
    rw [← BitVec.or_assoc, hw]; simp only [lowFlags, fl, decide_eq_true_eq]
  have hro : (newtonEdge tol jac rhes resid (oth dn) dn (fl (single dn v)) p out).r (oth dn) = ch.nr := by simp [newtonEdge, ← hch]
  have hrd : (newtonEdge tol jac rhes resid (oth dn) dn (fl (single dn v)) p out).r dn = p.r dn := by simp [newtonEdge, (oth_ne dn).symm]
  refine ⟨setc (single dn v) (oth dn) w, decide (|ch.dr| < tol), hcd, hrd, ?_, ?_, ?_, ?_, ?_, rfl, rfl, rfl, rfl, rfl⟩
  · show (fl (single dn v) ||| (ch.flags ||| (if |ch.dr| < tol then (16 : U32) else 0)) ||| (p.flags <<< 5)) &&& 0x1f = _
    rw [hfl]; exact (flags_parts _ _ _).1
  · show ((fl (single dn v) ||| (ch.flags ||| (if |ch.dr| < tol then (16 : U32) else 0)) ||| (p.flags <<< 5)) >>> 5) &&& 0x1f = _
    rw [hfl]; exact (flags_parts _ _ _).2
  · intro e
    rcases eq_or_oth dn e with rfl | rfl
    · rw [hrd, hcd]
      have := hr e
      rw [single_same] at this; exact this
    · rw [hro, hco, m4]
      exact ⟨m2, m3, fun h => by rw [← m4]; exact hwl h, fun h => by rw [← m4]; exact hwh h⟩
  · intro e
    rcases eq_or_oth dn e with rfl | rfl
    · rw [hrd, sub_self, abs_zero]; exact htr
    · rw [hro, m4, add_sub_cancel_left]; exact m1
  · show 0 ≤ -(evalQ _ _ ch.dr)
    have := m5 0 (by rw [abs_zero]; exact htr) (by rw [add_zero]; exact (hr _).1) (by rw [add_zero]; exact (hr _).2.1)
    rw [show evalQ (jtj jac (oth dn) - rhes) (yAt jac resid (oth dn)) 0 = 0 by unfold evalQ; ring] at this
    linarith

end Gslib.El
