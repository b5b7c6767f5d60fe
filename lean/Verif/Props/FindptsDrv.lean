import Verif.Lemmas.FindptsDrv
import Verif.Props.ElFlags
import Mathlib.Algebra.Order.Ring.Rat
import Mathlib.Data.Rat.Defs
import Mathlib.Tactic.IntervalCases

/-!
# C46: the point search inside an element treats each point by itself
-/

namespace Gslib.Props
open Gslib.El Gslib.Spec

theorem drv2_ok : drv2.Ok Valid2 conv2 := by
  have hc : ∀ r s : Con, conv2 (flags2 r s) = false ∧ conv2 (flags2 r s ||| 16) = true := by intro r s; cases r <;> cases s <;> decide
  refine ⟨?_, ?_, ?_, ?_⟩
  · rintro f ⟨r, s, rfl | rfl⟩ h
    · exact BitVec.eq_of_toNat_eq ((el2_flags r s).2.1.trans (el2_flags r s).2.2.1.symm)
    · rw [(hc r s).2] at h; exact absurd h (by simp)
  · rintro f ⟨r, s, rfl | rfl⟩ h
    · show (bin2 _).toNat < 9
      rw [(el2_flags r s).2.2.1]
      cases r <;> cases s <;> decide
    · rw [(hc r s).2] at h; exact absurd h (by simp)
  · rintro f ⟨r, s, rfl | rfl⟩ h
    · rw [(hc r s).1] at h; exact absurd h (by simp)
    · exact (el2_flags r s).2.2.2.1
  · rintro f g ⟨r, s, rfl | rfl⟩ ⟨r', s', rfl | rfl⟩ h h' e
    · obtain ⟨rfl, rfl⟩ := el2_bin_injective r s r' s' e; rfl
    all_goals first | (rw [(hc r s).2] at h; exact absurd h (by simp)) | (rw [(hc r' s').2] at h'; exact absurd h' (by simp))

theorem drv3_ok : drv3.Ok Valid3 conv3 := by
  have hc : ∀ r s t : Con, conv3 (flags3 r s t) = false ∧ conv3 (flags3 r s t ||| 64) = true := by intro r s t; cases r <;> cases s <;> cases t <;> decide
  refine ⟨?_, ?_, ?_, ?_⟩
  · rintro f ⟨r, s, t, rfl | rfl⟩ h
    · exact BitVec.eq_of_toNat_eq ((el3_flags r s t).2.1.trans (el3_flags r s t).2.2.1.symm)
    · rw [(hc r s t).2] at h; exact absurd h (by simp)
  · rintro f ⟨r, s, t, rfl | rfl⟩ h
    · show (bin3 _).toNat < 27
      rw [(el3_flags r s t).2.2.1]
      cases r <;> cases s <;> cases t <;> decide
    · rw [(hc r s t).2] at h; exact absurd h (by simp)
  · rintro f ⟨r, s, t, rfl | rfl⟩ h
    · rw [(hc r s t).1] at h; exact absurd h (by simp)
    · exact (el3_flags r s t).2.2.2.1
  · rintro f g ⟨r, s, t, rfl | rfl⟩ ⟨r', s', t', rfl | rfl⟩ h h' e
    · obtain ⟨rfl, rfl, rfl⟩ := el3_bin_injective r s t r' s' t' e; rfl
    all_goals first | (rw [(hc r s t).2] at h; exact absurd h (by simp)) | (rw [(hc r' s' t').2] at h'; exact absurd h' (by simp))

variable {K F : Type}

/-- **C46 (2d)** If the functions that advance a group of points with the same constraints do the step `step` on each of them (`Inv` is what they maintain of the element data, `Good` what they need of a point),
then `findpts_el_2` runs to the end within its buffers, and the result for point `i` is what at most 50 steps from its own seed give, whatever the other points are: each unconverged point is advanced exactly
once per round, converged ones are left alone, and the result is stored at the index of the point. `K` is any type, in particular the floating-point numbers. -/
theorem findpts_el_2_each_point (f : Nat → F → List (Pt K 2) → Option (F × List (Pt K 2))) (step : Pt K 2 → Pt K 2) (Inv : F → Prop) (Good : Pt K 2 → Prop) (cap npt : Nat)
    (hstep : ∀ (r s : Con) fd ps, Inv fd → ps ≠ [] → ps.length ≤ npt → (∀ p ∈ ps, Good p ∧ p.flags &&& 0x1f = flags2 r s) → ∃ fd', f (r.held + s.held) fd ps = some (fd', ps.map step) ∧ Inv fd')
    (hvalid : ∀ p, Good p → Valid2 (p.flags &&& 0x1f))
    (hgood : ∀ p, Good p → conv2 p.flags = false → Good (step p) ∧ (step p).index = p.index)
    (hcap : 2 * npt ≤ cap) (big zero one : K) (xs rs : List (Fin 2 → K)) (hx : xs.length = npt) (hr : rs.length = npt) (fd : F) (hfd : Inv fd)
    (hinit : ∀ i (h : i < npt), Good (startPt big zero one (xs[i]'(by omega)) (rs[i]'(by omega)) i)) :
    ∃ fd' m, driver drv2 cap npt big zero one f xs rs fd = some (fd', m) ∧ Inv fd' ∧
      ∀ i (h : i < npt), m i = some (let p := iter (fun p => conv2 p.flags) step 50 (startPt big zero one (xs[i]'(by omega)) (rs[i]'(by omega)) i); { p with flags := p.flags &&& 0x1f }) := by
  have hcm : ∀ f : U32, conv2 (f &&& 0x1f) = conv2 f := by intro f; unfold conv2; rw [BitVec.getLsbD_and]; simp [show (0x1f : U32).getLsbD 4 = true by decide]
  by_cases hn : npt = 0
  · subst hn
    have hx := List.length_eq_zero_iff.1 hx
    have hr := List.length_eq_zero_iff.1 hr
    subst hx hr
    exact ⟨_, _, rfl, hfd, fun i h => absurd h (by omega)⟩
  have hpos : 0 < npt := by omega
  have key := driver_run (v := drv2) (valid := Valid2) (conv := conv2) (f := f) (Inv := Inv) (nx := step) (Good := Good) drv2_ok cap npt
    (by
      intro fd g ps hi hne hle hps
      obtain ⟨p, hp⟩ := List.exists_mem_of_ne_nil ps hne
      obtain ⟨hg, e, hc⟩ := hps p hp
      have hv := hvalid p hg
      rw [show p.flags &&& (0x1f : U32) = g from e] at hv
      obtain ⟨r, s, rfl | rfl⟩ := hv
      · obtain ⟨fd', h1, h2⟩ := hstep r s fd ps hi hne hle (fun p hp => ⟨(hps p hp).1, (hps p hp).2.1⟩)
        refine ⟨fd', ?_, h2⟩
        rw [show (drv2.num (flags2 r s)).toNat = r.held + s.held from (el2_flags r s).1]; exact h1
      · exact absurd hc (by cases r <;> cases s <;> decide))
    hvalid (fun p hp hc => hgood p hp (by rw [← hcm]; exact hc)) (by decide) (by decide) (by omega) big zero one xs rs fd hx hr hfd
    (fun i => startPt big zero one (xs.getD i (xs[0]'(by omega))) (rs.getD i (rs[0]'(by omega))) i)
    (by intro i x r ex er; simp only [List.getD_eq_getElem?_getD, ex, er, Option.getD_some]; rfl)
    (by intro i hi; simp only [List.getD_eq_getElem?_getD, List.getElem?_eq_getElem (show i < xs.length by omega), List.getElem?_eq_getElem (show i < rs.length by omega), Option.getD_some]; exact hinit i hi)
  obtain ⟨fd', m, e, hi, h⟩ := key
  refine ⟨fd', m, e, hi, fun i hi => ?_⟩
  rw [h i hi]
  simp only [List.getD_eq_getElem?_getD, List.getElem?_eq_getElem (show i < xs.length by omega), List.getElem?_eq_getElem (show i < rs.length by omega), Option.getD_some]
  rw [show (fun p : Pt K 2 => conv2 (p.flags &&& drv2.mask)) = fun p => conv2 p.flags from funext fun p => hcm p.flags]
  rfl

/-- **C46 (3d)** The same for `findpts_el_3`. -/
theorem findpts_el_3_each_point (f : Nat → F → List (Pt K 3) → Option (F × List (Pt K 3))) (step : Pt K 3 → Pt K 3) (Inv : F → Prop) (Good : Pt K 3 → Prop) (cap npt : Nat)
    (hstep : ∀ (r s t : Con) fd ps, Inv fd → ps ≠ [] → ps.length ≤ npt → (∀ p ∈ ps, Good p ∧ p.flags &&& 0x7f = flags3 r s t) → ∃ fd', f (r.held + s.held + t.held) fd ps = some (fd', ps.map step) ∧ Inv fd')
    (hvalid : ∀ p, Good p → Valid3 (p.flags &&& 0x7f))
    (hgood : ∀ p, Good p → conv3 p.flags = false → Good (step p) ∧ (step p).index = p.index)
    (hcap : 2 * npt ≤ cap) (big zero one : K) (xs rs : List (Fin 3 → K)) (hx : xs.length = npt) (hr : rs.length = npt) (fd : F) (hfd : Inv fd)
    (hinit : ∀ i (h : i < npt), Good (startPt big zero one (xs[i]'(by omega)) (rs[i]'(by omega)) i)) :
    ∃ fd' m, driver drv3 cap npt big zero one f xs rs fd = some (fd', m) ∧ Inv fd' ∧
      ∀ i (h : i < npt), m i = some (let p := iter (fun p => conv3 p.flags) step 50 (startPt big zero one (xs[i]'(by omega)) (rs[i]'(by omega)) i); { p with flags := p.flags &&& 0x7f }) := by
  have hcm : ∀ f : U32, conv3 (f &&& 0x7f) = conv3 f := by intro f; unfold conv3; rw [BitVec.getLsbD_and]; simp [show (0x7f : U32).getLsbD 6 = true by decide]
  by_cases hn : npt = 0
  · subst hn
    have hx := List.length_eq_zero_iff.1 hx
    have hr := List.length_eq_zero_iff.1 hr
    subst hx hr
    exact ⟨_, _, rfl, hfd, fun i h => absurd h (by omega)⟩
  have hpos : 0 < npt := by omega
  have key := driver_run (v := drv3) (valid := Valid3) (conv := conv3) (f := f) (Inv := Inv) (nx := step) (Good := Good) drv3_ok cap npt
    (by
      intro fd g ps hi hne hle hps
      obtain ⟨p, hp⟩ := List.exists_mem_of_ne_nil ps hne
      obtain ⟨hg, e, hc⟩ := hps p hp
      have hv := hvalid p hg
      rw [show p.flags &&& (0x7f : U32) = g from e] at hv
      obtain ⟨r, s, t, rfl | rfl⟩ := hv
      · obtain ⟨fd', h1, h2⟩ := hstep r s t fd ps hi hne hle (fun p hp => ⟨(hps p hp).1, (hps p hp).2.1⟩)
        refine ⟨fd', ?_, h2⟩
        rw [show (drv3.num (flags3 r s t)).toNat = r.held + s.held + t.held from (el3_flags r s t).1]; exact h1
      · exact absurd hc (by cases r <;> cases s <;> cases t <;> decide))
    hvalid (fun p hp hc => hgood p hp (by rw [← hcm]; exact hc)) (by decide) (by decide) (by omega) big zero one xs rs fd hx hr hfd
    (fun i => startPt big zero one (xs.getD i (xs[0]'(by omega))) (rs.getD i (rs[0]'(by omega))) i)
    (by intro i x r ex er; simp only [List.getD_eq_getElem?_getD, ex, er, Option.getD_some]; rfl)
    (by intro i hi; simp only [List.getD_eq_getElem?_getD, List.getElem?_eq_getElem (show i < xs.length by omega), List.getElem?_eq_getElem (show i < rs.length by omega), Option.getD_some]; exact hinit i hi)
  obtain ⟨fd', m, e, hi, h⟩ := key
  refine ⟨fd', m, e, hi, fun i hi => ?_⟩
  rw [h i hi]
  simp only [List.getD_eq_getElem?_getD, List.getElem?_eq_getElem (show i < xs.length by omega), List.getElem?_eq_getElem (show i < rs.length by omega), Option.getD_some]
  rw [show (fun p : Pt K 3 => conv3 (p.flags &&& drv3.mask)) = fun p => conv3 p.flags from funext fun p => hcm p.flags]
  rfl

/-! ## seeds -/

/-- squared distance -/
def sqDist {K : Type} [Ring K] {D : Nat} (x y : Fin D → K) : K := ∑ d, (x d - y d) * (x d - y d)

/-- **C46 (seed)** The starting point of point `i` is the nearest node of the element, the first one in the order of the loops if there are several, when some node is nearer than `DBL_MAX`; when there is none
the starting point is left undefined. -/
theorem seed_nearest {K : Type} [Ring K] [LinearOrder K] {D : Nat} (big : K) (nodes : List ((Fin D → K) × (Fin D → K))) (xs : List (Fin D → K)) (i : Nat) (x : Fin D → K) (hx : xs[i]? = some x) :
    (∃ pre nd post, nodes = pre ++ nd :: post ∧ sqDist x nd.2 < big ∧ (∀ n ∈ pre, sqDist x nd.2 < sqDist x n.2) ∧ (∀ n ∈ post, sqDist x nd.2 ≤ sqDist x n.2) ∧
      (seed big nodes xs)[i]? = some (some nd.1, sqDist x nd.2)) ∨
    ((∀ n ∈ nodes, big ≤ sqDist x n.2) ∧ (seed big nodes xs)[i]? = some (none, big)) := by
  unfold seed
  induction nodes using List.reverseRecOn with
  | nil => right; exact ⟨by simp, by rw [List.foldl_nil, List.getElem?_map, hx]; rfl⟩
  | append_singleton l n ih =>
    rw [List.foldl_append, List.foldl_cons, List.foldl_nil, List.getElem?_zipWith, hx]
    rcases ih with ⟨pre, nd, post, rfl, h1, h2, h3, h4⟩ | ⟨h1, h2⟩
    · rw [h4]
      by_cases hle : sqDist x nd.2 ≤ sqDist x n.2
      · left
        refine ⟨pre, nd, post ++ [n], by simp, h1, h2, ?_, ?_⟩
        · intro m hm
          rcases List.mem_append.1 hm with hm | hm
          · exact h3 m hm
          · rw [List.mem_singleton.1 hm]; exact hle
        · show some (seedNode n x _) = _
          exact congrArg some (if_pos hle)
      · left
        push Not at hle
        refine ⟨pre ++ nd :: post, n, [], rfl, hle.trans h1, ?_, by simp, ?_⟩
        · intro m hm
          rcases List.mem_append.1 hm with hm | hm
          · exact hle.trans (h2 m hm)
          · rcases List.mem_cons.1 hm with rfl | hm
            · exact hle
            · exact lt_of_lt_of_le hle (h3 m hm)
        · show some (seedNode n x _) = _
          exact congrArg some (if_neg (not_le.2 hle))
    · rw [h2]
      by_cases hle : big ≤ sqDist x n.2
      · right
        refine ⟨?_, ?_⟩
        · intro m hm
          rcases List.mem_append.1 hm with hm | hm
          · exact h1 m hm
          · rw [List.mem_singleton.1 hm]; exact hle
        · show some (seedNode n x _) = _
          exact congrArg some (if_pos hle)
      · left
        push Not at hle
        refine ⟨l, n, [], rfl, hle, fun m hm => lt_of_lt_of_le hle (h1 m hm), by simp, ?_⟩
        show some (seedNode n x _) = _
        exact congrArg some (if_neg (not_le.2 hle))

/-- the flags of the previous step, shifted out of the way -/
theorem shift_or_mask5 (f c : U32) : ((f <<< 5) ||| c) &&& 0x1f = c &&& 0x1f := by
  apply BitVec.eq_of_getLsbD_eq
  intro i hi
  simp only [BitVec.getLsbD_and, BitVec.getLsbD_or, BitVec.getLsbD_shiftLeft]
  interval_cases i <;> simp

/-- a step for the examples: a point becomes constrained in `r`, then in `r` and `s`, then converged; the point 2 converges at once; `x` counts the visits -/
def exStep (p : Pt Rat 2) : Pt Rat 2 :=
  { p with x := fun d => p.x d + 1, flags := (p.flags <<< 5) ||| (if p.index = 2 then 16 else if p.flags &&& 0x1f = 0 then 1 else if p.flags &&& 0x1f = 1 then 9 else 25) }

/-- the group function that does `exStep` on each point and counts the calls -/
def exFun : Nat → Nat → List (Pt Rat 2) → Option (Nat × List (Pt Rat 2)) := fun _ c ps => some (c + 1, ps.map exStep)

/-- five points: point 2 needs one step, the others three; four groups are formed (all points, four points with `r` held, then with `r` and `s` held); each result is at its index -/
example : (driver drv2 10 5 1000 0 1 exFun [![0, 0], ![1, 0], ![2, 0], ![3, 0], ![4, 0]] [![0, 0], ![0, 0], ![0, 0], ![0, 0], ![0, 0]] 0).map
    (fun o => (o.1, (List.range 5).map fun i => (o.2 i).map fun p => (p.x 0, p.index, p.flags))) =
    some (3, [some (3, 0, 25), some (4, 1, 25), some (3, 2, 16), some (6, 3, 25), some (7, 4, 25)]) := by decide +kernel

/-- the hypotheses of `findpts_el_2_each_point` hold for it -/
example : ∃ fd' m, driver drv2 10 5 1000 0 1 exFun [![0, 0], ![1, 0], ![2, 0], ![3, 0], ![4, 0]] [![0, 0], ![0, 0], ![0, 0], ![0, 0], ![0, 0]] 0 = some (fd', m) ∧ True ∧
      ∀ i (h : i < 5), m i = some (let p := iter (fun p => conv2 p.flags) exStep 50 (startPt 1000 0 1 ([![0, 0], ![1, 0], ![2, 0], ![3, 0], ![4, 0]][i]) ([![0, 0], ![0, 0], ![0, 0], ![0, 0], ![0, 0]][i]) i);
        { p with flags := p.flags &&& 0x1f }) := by
  refine findpts_el_2_each_point exFun exStep (fun _ => True) (fun p => Valid2 (p.flags &&& 0x1f)) 10 5 (fun r s fd ps _ _ _ _ => ⟨_, rfl, trivial⟩) (fun p hp => hp) ?_ (by decide) 1000 0 1
    _ _ rfl rfl 0 trivial ?_
  · intro p hp hc
    refine ⟨?_, rfl⟩
    have e : (exStep p).flags &&& 0x1f = (if p.index = 2 then 16 else if p.flags &&& 0x1f = 0 then 1 else if p.flags &&& 0x1f = 1 then 9 else 25) := by
      unfold exStep
      dsimp only
      rw [shift_or_mask5]
      split_ifs <;> decide
    rw [e]
    split_ifs
    · exact ⟨.free, .free, Or.inr (by decide)⟩
    · exact ⟨.lo, .free, Or.inl (by decide)⟩
    · exact ⟨.lo, .hi, Or.inl (by decide)⟩
    · exact ⟨.lo, .hi, Or.inr (by decide)⟩
  · intro i _
    exact ⟨.free, .free, Or.inl (by show (0 : U32) &&& 0x1f = _; decide)⟩

/-- nearest node of a 2×2 element with corners (0,0), (2,0), (0,2), (2,2): ties go to the first -/
example : (nodes2 2 2 (fun _ => [-1, 1]) ![[0, 2, 0, 2], [0, 0, 2, 2]]).map (fun nodes => (seed (1000 : Rat) nodes [![2, 1], ![1, 2], ![3, 3], ![100, 100]]).map fun p => (p.1.map fun r => (r 0, r 1), p.2)) =
    some [(some (1, -1), 1), (some (-1, 1), 1), (some (1, 1), 2), (none, 1000)] := by decide +kernel

end Gslib.Props
