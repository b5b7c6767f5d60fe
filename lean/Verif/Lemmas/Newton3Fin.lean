import Verif.Lemmas.Newton3Vol

/-!
# `newton_vol` as a whole
-/

namespace Gslib.El
open Gslib.Lin Gslib.Spec

variable {K : Type} [Field K] [LinearOrder K] [IsStrictOrderedRing K] {J : Fin 3 → Fin 3 → K} {resid : Fin 3 → K}

omit [LinearOrder K] [IsStrictOrderedRing K] in
theorem det9_flat (J : Fin 3 → Fin 3 → K) : det9 (flat9 J) = det3 J := by
  simp [det9, flat9, det3]

omit [LinearOrder K] [IsStrictOrderedRing K] in
theorem sol3 (hdet : det3 J ≠ 0) (d : Fin 3) : J d 0 * linSolve3 (flat9 J) resid 0 + J d 1 * linSolve3 (flat9 J) resid 1 + J d 2 * linSolve3 (flat9 J) resid 2 = resid d := by
  have hi := mul_inv_cancel₀ hdet
  unfold det3 at hi
  fin_cases d
  all_goals
    simp [linSolve3, flat9]
  · linear_combination resid 0 * hi
  · linear_combination resid 1 * hi
  · linear_combination resid 2 * hi

theorem volSolve_run (b : Box3 K) (hdet : det3 J ≠ 0) (r0 : Fin 3 → K) (hr : InBox3 b r0) (fuel : Nat) (hf : 21 ≤ fuel) :
    ∃ dr c, volSolve fuel b J resid r0 = some (dr, fl3 c) ∧ VolOk b J resid r0 dr c := by
  unfold volSolve
  rw [det9_flat, if_neg hdet]
  have hsol := fun d => sol3 (J := J) (resid := resid) hdet d
  generalize linSolve3 (flat9 J) resid = N at hsol
  obtain ⟨h, e, ⟨h0, h1, h2⟩, hin⟩ := volHit_run b r0 N hr
  rw [e, Option.bind_some]
  have hslope : slope J resid 0 N = nsq J N := by
    have e0 := hsol 0; have e1 := hsol 1; have e2 := hsol 2
    unfold slope nsq yAt3 resAt3
    simp only [Pi.zero_apply, mul_zero, add_zero, sub_zero]
    rw [← e0, ← e1, ← e2]; ring
  have hle : linSq3 J resid (fun d => N d * h.1) ≤ linSq3 J resid 0 := by
    have := quad_le (J := J) (resid := resid) 0 N hslope h.1 h0 h1
    have he : (fun d => (0 : Fin 3 → K) d + h.1 * N d) = fun d => N d * h.1 := by funext d; simp [mul_comm]
    rw [he] at this; exact this
  have hin' : InBox3 b fun d => r0 d + N d * h.1 := by intro d; have := hin d; beta_reduce at this; rw [mul_comm h.1 (N d)] at this; exact this
  rcases h2 with ⟨e1, e2⟩ | ⟨d, w, hw, _, e2, hat, _⟩
  · rw [if_pos e2]
    refine ⟨N, fun _ => .free, by rw [← zero_fl3], ?_, fun d hd => absurd rfl hd, ?_, ?_⟩
    · intro d; have := hin d; beta_reduce at this; rw [e1, one_mul] at this; exact this
    · rw [e1] at hle; simpa using hle
    · intro d _ _
      have hz : resAt3 J resid N = 0 := by funext e; unfold resAt3; rw [hsol e]; exact sub_self _
      show yAt3 J (resAt3 J resid N) d = 0
      rw [hz]; simp [yAt3]
  · have hne : h.2 ≠ 0 := by
      rw [e2]; intro h0
      rw [zero_fl3] at h0
      have := congrFun (fl3_inj _ _ h0) d
      rw [single3_same] at this; exact hw this
    rw [if_neg hne, e2]
    have hh : Held3 b r0 (fun d => N d * h.1) (single3 d w) := by
      intro e he
      have hed : e = d := by by_contra hn; rw [single3_other d e w hn] at he; exact he rfl
      subst hed
      rw [single3_same]; beta_reduce; rw [mul_comm]; exact hat
    obtain ⟨fuel, rfl⟩ : ∃ f, fuel = f + 1 := ⟨fuel - 1, by omega⟩
    unfold volLoop
    dsimp only
    have hnum : numConstrained3 (fl3 (single3 d w)) = 1 := by
      revert hw; clear * -; fin_cases d <;> cases w <;> decide
    rw [if_pos hnum]
    obtain ⟨dr1, c1, fin, e1, hin1, hh1, hle1, hfin1, hfin0⟩ := volFace_run (J := J) (resid := resid) b hdet r0 _ d w hw hin' hh
    rw [e1, Option.bind_some]
    cases fin with
    | true => exact ⟨dr1, c1, rfl, hin1, hh1, hle1.trans hle, face_inner (hfin1 rfl).1 hw hh1 (hfin1 rfl).2⟩
    | false =>
      obtain ⟨f, f0, f1, f2, -⟩ := hfin0 rfl
      obtain ⟨dr2, c2, e2, hin2, hh2, hn2, hf2, hle2, -⟩ := volEdge_run (J := J) (resid := resid) b hdet r0 dr1 c1 f f0 f1 f2 hin1 hh1
      have hcan : Canon b J resid r0 dr2 c2 := ⟨hin2, hh2, hn2, hf2⟩
      have := below_start hcan
      simp only [Bool.false_eq_true, if_false]
      unfold volTail
      rw [e2, Option.bind_some]
      exact relax_run b hdet r0 hr fuel dr2 c2 hcan (by omega) (hle2.trans (hle1.trans hle))

theorem volBox_lo (tr : K) (r0 : Fin 3 → K) (d : Fin 3) : (volBox tr r0).lo d = max (-1) (r0 d - tr) := by
  show (bndLo tr (r0 d)).1 = _
  unfold bndLo
  split_ifs with h
  · rw [max_eq_right h.le]
  · rw [max_eq_left (not_lt.1 h)]

theorem volBox_hi (tr : K) (r0 : Fin 3 → K) (d : Fin 3) : (volBox tr r0).hi d = min 1 (r0 d + tr) := by
  show (bndHi tr (r0 d)).1 = _
  unfold bndHi
  split_ifs with h
  · rw [min_eq_right h.le]
  · rw [min_eq_left (not_lt.1 h)]

/-- the constraints that are bounds of the element -/
def real3 (tr : K) (r0 : Fin 3 → K) (c : Fin 3 → Con) : Fin 3 → Con := fun d =>
  match c d with
  | .free => .free
  | .lo => if (bndLo tr (r0 d)).2 then .lo else .free
  | .hi => if (bndHi tr (r0 d)).2 then .hi else .free

/-- `mask` as a word -/
def maskW (l h : Fin 3 → Bool) (d : Fin 3) (m : U32) : U32 := (m ^^^ (if l d then (0 : U32) else (1 : U32) <<< sh3 d)) ^^^ (if h d then (0 : U32) else (2 : U32) <<< sh3 d)

theorem mask3_all (l h : Fin 3 → Bool) (c : Fin 3 → Con) : fl3 c &&& maskW l h 2 (maskW l h 1 (maskW l h 0 0x3f)) =
    fl3 fun d => match c d with | .free => .free | .lo => if l d then .lo else .free | .hi => if h d then .hi else .free := by
  have key : ∀ (a b e : Con) (x x' y y' z z' : Bool), fl3 ![a, b, e] &&& maskW ![x, y, z] ![x', y', z'] 2 (maskW ![x, y, z] ![x', y', z'] 1 (maskW ![x, y, z] ![x', y', z'] 0 0x3f)) =
      fl3 fun d => match (![a, b, e] : Fin 3 → Con) d with | .free => .free | .lo => if (![x, y, z] : Fin 3 → Bool) d then .lo else .free | .hi => if (![x', y', z'] : Fin 3 → Bool) d then .hi else .free := by
    intro a b e
    cases a <;> cases b <;> cases e <;> decide
  have hl : l = ![l 0, l 1, l 2] := by funext d; fin_cases d <;> rfl
  have hh : h = ![h 0, h 1, h 2] := by funext d; fin_cases d <;> rfl
  have hc : c = ![c 0, c 1, c 2] := by funext d; fin_cases d <;> rfl
  rw [hl, hh, hc]
  exact key _ _ _ _ _ _ _ _ _

theorem mask_run3 (tr : K) (r0 : Fin 3 → K) (c : Fin 3 → Con) : fl3 c &&& (volBox tr r0).mask = fl3 (real3 tr r0 c) :=
  mask3_all (fun d => (bndLo tr (r0 d)).2) (fun d => (bndHi tr (r0 d)).2) c

theorem setR3_run (tr : K) (r0 dr : Fin 3 → K) (c : Fin 3 → Con) (C : Bool) (hin : InBox3 (volBox tr r0) fun d => r0 d + dr d) (hh : Held3 (volBox tr r0) r0 dr c) :
    setR3 r0 dr (fl3 (real3 tr r0 c) ||| (if C then (64 : U32) else 0)) = (fun d => r0 d + dr d) ∧ RefPt3 (fun d => r0 d + dr d) (real3 tr r0 c) := by
  have hcon : ∀ d, conAt3 (fl3 (real3 tr r0 c) ||| (if C then (64 : U32) else 0)) d = BitVec.ofNat 32 (real3 tr r0 c d).code := by
    intro d
    cases C
    · simp only [Bool.false_eq_true, if_false]; rw [show fl3 (real3 tr r0 c) ||| 0 = fl3 (real3 tr r0 c) by simp]; exact conAt_fl3 _ d
    · exact conAt_fl3_c _ d
  have hlo : ∀ d, real3 tr r0 c d = .lo → r0 d + dr d = -1 := by
    intro d h
    unfold real3 at h
    cases hc : c d with
    | free => rw [hc] at h; exact absurd h (by simp)
    | hi => rw [hc] at h; dsimp only at h; split_ifs at h
    | lo =>
      rw [hc] at h; dsimp only at h
      have h1 := hh d (by rw [hc]; decide)
      rw [hc] at h1
      have h2 : (volBox tr r0).at d .lo = (bndLo tr (r0 d)).1 := rfl
      rw [h1, h2]
      unfold bndLo at h ⊢
      split_ifs at h ⊢ <;> simp_all
  have hhi : ∀ d, real3 tr r0 c d = .hi → r0 d + dr d = 1 := by
    intro d h
    unfold real3 at h
    cases hc : c d with
    | free => rw [hc] at h; exact absurd h (by simp)
    | lo => rw [hc] at h; dsimp only at h; split_ifs at h
    | hi =>
      rw [hc] at h; dsimp only at h
      have h1 := hh d (by rw [hc]; decide)
      rw [hc] at h1
      have h2 : (volBox tr r0).at d .hi = (bndHi tr (r0 d)).1 := rfl
      rw [h1, h2]
      unfold bndHi at h ⊢
      split_ifs at h ⊢ <;> simp_all
  constructor
  · funext d
    unfold setR3
    rw [hcon]
    simp only [code_zero, code_one]
    cases hc : real3 tr r0 c d with
    | free => simp
    | lo => simp [hlo d hc]
    | hi => simp [hhi d hc]
  · intro d
    have := hin d
    rw [volBox_lo, volBox_hi] at this
    exact ⟨(le_max_left _ _).trans this.1, this.2.trans (min_le_left _ _), hlo d, hhi d⟩

theorem shift_or_mask7 (f c : U32) : ((f <<< 7) ||| c) &&& 0x7f = c &&& 0x7f := by
  apply BitVec.eq_of_getLsbD_eq
  intro i hi
  simp only [BitVec.getLsbD_and, BitVec.getLsbD_or, BitVec.getLsbD_shiftLeft]
  interval_cases i <;> simp

theorem low_lt3 (c : Fin 3 → Con) (C : Bool) : lowFlags3 c C &&& 0x7f = lowFlags3 c C := by
  revert c; refine con3 ?_
  intro a b e; cases a <;> cases b <;> cases e <;> cases C <;> decide

theorem low_shift3 (c : Fin 3 → Con) (C : Bool) : lowFlags3 c C >>> 7 = 0 := by
  revert c; refine con3 ?_
  intro a b e; cases a <;> cases b <;> cases e <;> cases C <;> decide

/-- the two parts of the flag word after a step -/
theorem flags_parts3 (c : Fin 3 → Con) (C : Bool) (f : U32) :
    (lowFlags3 c C ||| (f <<< 7)) &&& 0x7f = lowFlags3 c C ∧ ((lowFlags3 c C ||| (f <<< 7)) >>> 7) &&& 0x7f = f &&& 0x7f := by
  constructor
  · rw [BitVec.or_comm, shift_or_mask7, low_lt3]
  · rw [BitVec.ushiftRight_or_distrib, low_shift3]
    apply BitVec.eq_of_getLsbD_eq
    intro i hi
    simp only [BitVec.getLsbD_and, BitVec.getLsbD_or, BitVec.getLsbD_shiftLeft, BitVec.getLsbD_ushiftRight]
    interval_cases i <;> simp

theorem volBox_in (tr : K) (r0 : Fin 3 → K) (htr : 0 ≤ tr) (hr : ∀ d, -1 ≤ r0 d ∧ r0 d ≤ 1) : InBox3 (volBox tr r0) r0 := by
  intro d
  rw [volBox_lo, volBox_hi]
  exact ⟨max_le (hr d).1 (by linarith), le_min (hr d).2 (by linarith)⟩

omit [LinearOrder K] [IsStrictOrderedRing K] in
theorem linSq3_eq (dr : Fin 3 → K) : sq3 (resAt3 J resid dr) = linSq3 J resid dr := by
  simp only [sq3, resAt3, linSq3]; ring

omit [LinearOrder K] [IsStrictOrderedRing K] in
theorem linSq3_zero : sq3 resid = linSq3 J resid 0 := by
  simp [sq3, linSq3]; ring

theorem newtonVol_step (fuel : Nat) (hf : 21 ≤ fuel) (tol : K) (J : Fin 3 → Fin 3 → K) (resid : Fin 3 → K) (p out : Pt K 3) (hdet : det3 J ≠ 0) (htr : 0 ≤ p.tr)
    (hr : ∀ d, -1 ≤ p.r d ∧ p.r d ≤ 1) :
    ∃ p' c dr, newtonVol fuel tol J resid p out = some p' ∧ (p'.r = fun d => p.r d + dr d) ∧ StepOk3 p out p' c (decide (|dr 0| + |dr 1| + |dr 2| < tol)) ∧ p'.dist2p = linSq3 J resid 0 - linSq3 J resid dr ∧
      ∀ d, (volBox p.tr p.r).lo d < p.r d + dr d → p.r d + dr d < (volBox p.tr p.r).hi d → yy J resid dr d = 0 := by
  obtain ⟨dr, c, e, h⟩ := volSolve_run (J := J) (resid := resid) (volBox p.tr p.r) hdet p.r (volBox_in p.tr p.r htr hr) fuel hf
  have hd : sq3 resid - sq3 (resAt3 J resid dr) = linSq3 J resid 0 - linSq3 J resid dr := by rw [linSq3_eq, ← linSq3_zero]
  obtain ⟨s1, s2⟩ := setR3_run p.tr p.r dr c (decide (|dr 0| + |dr 1| + |dr 2| < tol)) h.box h.held
  simp only [decide_eq_true_eq] at s1
  have hfl : fl3 c &&& (volBox p.tr p.r).mask ||| (if |dr 0| + |dr 1| + |dr 2| < tol then (64 : U32) else 0) = lowFlags3 (real3 p.tr p.r c) (decide (|dr 0| + |dr 1| + |dr 2| < tol)) := by
    rw [mask_run3]; simp only [lowFlags3, fl3, decide_eq_true_eq]
  have hfl' : fl3 (real3 p.tr p.r c) ||| (if |dr 0| + |dr 1| + |dr 2| < tol then (64 : U32) else 0) = lowFlags3 (real3 p.tr p.r c) (decide (|dr 0| + |dr 1| + |dr 2| < tol)) := by
    simp only [lowFlags3, fl3, decide_eq_true_eq]
  have hrr : (volFin tol (volBox p.tr p.r) J resid p out (dr, fl3 c)).r = fun d => p.r d + dr d := by
    show setR3 p.r dr (fl3 c &&& (volBox p.tr p.r).mask ||| (if |dr 0| + |dr 1| + |dr 2| < tol then (64 : U32) else 0)) = _
    rw [hfl, ← hfl']; exact s1
  have hff : (volFin tol (volBox p.tr p.r) J resid p out (dr, fl3 c)).flags = lowFlags3 (real3 p.tr p.r c) (decide (|dr 0| + |dr 1| + |dr 2| < tol)) ||| (p.flags <<< 7) := by
    show (fl3 c &&& (volBox p.tr p.r).mask ||| (if |dr 0| + |dr 1| + |dr 2| < tol then (64 : U32) else 0)) ||| (p.flags <<< 7) = _
    rw [hfl]
  refine ⟨_, real3 p.tr p.r c, dr, by unfold newtonVol; rw [e, Option.map_some], hrr, ?_, hd, h.inner⟩
  refine ⟨?_, ?_, ?_, ?_, ?_, rfl, rfl, rfl, rfl, rfl⟩
  · rw [hff]; exact (flags_parts3 _ _ _).1
  · rw [hff]; exact (flags_parts3 _ _ _).2
  · rw [hrr]; exact s2
  · intro d
    rw [hrr]
    have := h.box d
    rw [volBox_lo, volBox_hi] at this
    have h1 := (le_max_right _ _).trans this.1
    have h2 := this.2.trans (min_le_right _ _)
    exact abs_le.2 ⟨by linarith, by linarith⟩
  · show 0 ≤ sq3 resid - sq3 (resAt3 J resid dr)
    rw [hd]; linarith [h.desc]

end Gslib.El
