import Verif.Lemmas.ObboxCover

/-!
# C39: bounding boxes of elements

An element is the image of the square or cube under the polynomial map with the given values at the Gauss-Lobatto nodes. The maps are required to have a Jacobian of constant sign inside (that is, nonzero);
`obbox_calc` only bounds the boundary, see `obbox_calc_2_misses_interior` for a folded element.
-/

namespace Gslib.Obb
open Gslib.Num Gslib.Poly Gslib.Lob Gslib.Spec Finset Polynomial

/-- `lobatto_nodes` stores the nodes `z`, distinct and from -1 to 1 -/
structure NodesOk {K : Type} [Field K] [LinearOrder K] (fuel : Nat) (eps : K) (guess : Nat → K) (n : Nat) (z : Nat → K) : Prop where
  two : 2 ≤ n
  run : ∃ zm, lobattoNodes n fuel eps guess n (fun _ => none) = some zm ∧ ∀ i < n, zm i = some (z i)
  fix : n ≤ 24 → z = fixVal n
  inj : ∀ i < n, ∀ j < n, z i = z j → i = j
  first : z 0 = -1
  last : z (n - 1) = 1

variable {K : Type} [Field K] [LinearOrder K] [IsStrictOrderedRing K]

/-- for up to 24 nodes (the tabulated case) this holds -/
theorem nodesOk_small (fuel : Nat) (eps : K) (guess : Nat → K) {n : Nat} (hn : 2 ≤ n) (hn' : n ≤ 24) : NodesOk fuel eps guess n (fixVal n) := by
  have hd : ∀ i < n, ∀ j < n, fixVal (K := K) n i = fixVal n j → i = j := by
    intro i hi j hj e
    rcases Nat.lt_trichotomy i j with h | h | h
    · exact absurd e (ne_of_lt (Props.fixVal_mono n hn' i j h hj))
    · exact h
    · exact absurd e.symm (ne_of_lt (Props.fixVal_mono n hn' j i h hi))
  obtain ⟨z1, e, h1, h2⟩ := lobattoFix_run (K := K) n n (fun _ => none) hn hn' (Nat.le_refl _)
  exact ⟨hn, ⟨z1, by rw [lobattoNodes, if_neg (by omega), if_pos hn, e], Props.has_zero h1⟩, fun _ => rfl, hd, by simp [fixVal], by rw [fixVal, if_neg (by omega), if_pos rfl]⟩

theorem setupDir_run {fuel : Nat} {eps : K} {guess ch : Nat → Nat → K} {n m wcap : Nat} {z : Nat → K} (hz : NodesOk fuel eps (guess n) n z)
    (hv : ValidTable n m z (hVal m (ch m)) (tableVal n m z (hVal m (ch m)))) (hw : gllLagSize n ≤ wcap) :
    ∃ I0 D, setupDir fuel eps guess ch wcap n m = some (I0, D) ∧ DirOk n m I0 D z := by
  obtain ⟨zm, hl, hzm⟩ := hz.run
  obtain ⟨g, eg, hg⟩ := gllSetup_run fuel eps (guess n) n hz.two zm z hz.fix (fun i hi => by rw [Nat.zero_add, hzm i hi]) hl
  obtain ⟨p', g', e, -, h1, h2⟩ := gll_step hz.two hz.fix hz.inj hg 1 (2 * n) (by simp [rows]) 0 (fun _ => none)
  obtain ⟨D, w, eD, hD, -⟩ := setup_run (ch := ch m) hz.two hv.two hl hzm hz.fix hz.inj
  refine ⟨p', D, ?_, hz.two, hz.inj, hz.first, hz.last, ⟨_, _, _, hD, hv⟩, fun i hi => ?_, fun i hi => ?_⟩
  · rw [setupDir, if_pos hw, eg, Option.bind_some, e, Option.bind_some, eD]; rfl
  · have := h1 i hi
    rw [rd, if_pos (by omega)] at this
    rw [Nat.zero_add, this]
  · have := h2 (by norm_num) i hi
    rw [rd, if_pos (by omega)] at this
    rw [this]

theorem elLoop {B : Type} {nel : Nat} (f : Nat → Option B) (P : Nat → B → Prop) (h : ∀ e < nel, ∃ b, f e = some b ∧ P e b) :
    ∃ out : Nat → Option B, forUp 0 nel (fun e out => (f e).map fun b => fun k => if k = e then some b else out k) (fun _ => none) = some out ∧ ∀ e < nel, ∃ b, out e = some b ∧ P e b := by
  obtain ⟨out, e, h1⟩ := forUp_inv (fun i (out : Nat → Option B) => ∀ e < i, ∃ b, out e = some b ∧ P e b)
    (fun e out => (f e).map fun b => fun k => if k = e then some b else out k) nel 0 (fun _ => none) (fun e he => by omega) (by
      intro i _ hi out ih
      obtain ⟨b, eb, hb⟩ := h i (by omega)
      refine ⟨fun k => if k = i then some b else out k, by beta_reduce; rw [eb]; rfl, fun k hk => ?_⟩
      by_cases hki : k = i
      · subst hki; exact ⟨b, by simp, hb⟩
      · obtain ⟨b', h'⟩ := ih k (by omega)
        exact ⟨b', by simp [hki, h'.1], h'.2⟩)
  exact ⟨out, e, fun k hk => h1 k (by omega)⟩

end Gslib.Obb

namespace Gslib.Props
open Gslib.Num Gslib.Poly Gslib.Spec Gslib.Lob Gslib.Obb Finset Polynomial

theorem mul_range {K : Type} [Field K] [LinearOrder K] [IsStrictOrderedRing K] {a b x : K} (h : a ≤ b) : 0 ≤ (x - a) * (b - x) ↔ a ≤ x ∧ x ≤ b := by
  constructor
  · intro h0
    rcases mul_nonneg_iff.1 h0 with ⟨h1, h2⟩ | ⟨h1, h2⟩
    · constructor <;> linarith
    · constructor <;> linarith
  · rintro ⟨h1, h2⟩
    exact mul_nonneg (by linarith) (by linarith)

/-- **C39** `obbox_test_2` is nonnegative exactly for the points that satisfy the documented inequalities -/
theorem obbox_test_2_iff {K : Type} [Field K] [LinearOrder K] [IsStrictOrderedRing K] (b : Box K) (hb : ∀ c < 2, (b.x c).1 ≤ (b.x c).2) (p : Nat → K) :
    0 ≤ test2 b p ↔ InBox 2 b.c0 b.A b.x p := by
  have e1 : ∀ c, ∑ e ∈ range 2, b.A c e * (p e - b.c0 e) = b.A c 0 * (p 0 - b.c0 0) + b.A c 1 * (p 1 - b.c0 1) := fun c => by rw [sum_range_succ, sum_range_one]
  have e2 : ∀ r : K, 0 ≤ (r + 1) * (1 - r) ↔ -1 ≤ r ∧ r ≤ 1 := fun r => by
    have := mul_range (K := K) (a := -1) (b := 1) (x := r) (by norm_num)
    rwa [sub_neg_eq_add] at this
  have e3 : ∀ a b : K, 0 ≤ (if a < 0 then a else b) ↔ 0 ≤ a ∧ 0 ≤ b := fun a b => by
    split_ifs with h
    · exact ⟨fun h' => absurd h (not_lt.2 h'), fun h' => h'.1⟩
    · exact ⟨fun h' => ⟨not_lt.1 h, h'⟩, fun h' => h'.2⟩
  unfold test2 axisTest2
  dsimp only
  rw [e3, e3, e3, e2, e2, mul_range (hb 0 (by omega)), mul_range (hb 1 (by omega))]
  constructor
  · rintro ⟨⟨h1, h2⟩, h3, h4⟩ c hc
    rw [e1]
    have : c = 0 ∨ c = 1 := by omega
    rcases this with rfl | rfl
    · exact ⟨h1, h3⟩
    · exact ⟨h2, h4⟩
  · intro h
    have h0 := h 0 (by omega)
    have h1 := h 1 (by omega)
    rw [e1] at h0 h1
    exact ⟨⟨h0.1, h1.1⟩, h0.2, h1.2⟩

/-- **C39** `obbox_test_3` likewise -/
theorem obbox_test_3_iff {K : Type} [Field K] [LinearOrder K] [IsStrictOrderedRing K] (b : Box K) (hb : ∀ c < 3, (b.x c).1 ≤ (b.x c).2) (p : Nat → K) :
    0 ≤ test3 b p ↔ InBox 3 b.c0 b.A b.x p := by
  have e1 : ∀ c, ∑ e ∈ range 3, b.A c e * (p e - b.c0 e) = b.A c 0 * (p 0 - b.c0 0) + b.A c 1 * (p 1 - b.c0 1) + b.A c 2 * (p 2 - b.c0 2) := fun c => by
    rw [sum_range_succ, sum_range_succ, sum_range_one]
  have e2 : ∀ r : K, 0 ≤ (r + 1) * (1 - r) ↔ -1 ≤ r ∧ r ≤ 1 := fun r => by
    have := mul_range (K := K) (a := -1) (b := 1) (x := r) (by norm_num)
    rwa [sub_neg_eq_add] at this
  have e3 : ∀ a b : K, 0 ≤ (if a < 0 then a else b) ↔ 0 ≤ a ∧ 0 ≤ b := fun a b => by
    split_ifs with h
    · exact ⟨fun h' => absurd h (not_lt.2 h'), fun h' => h'.1⟩
    · exact ⟨fun h' => ⟨not_lt.1 h, h'⟩, fun h' => h'.2⟩
  unfold test3 axisTest3
  dsimp only
  rw [e3, e3, e3, e3, e3, e2, e2, e2, mul_range (hb 0 (by omega)), mul_range (hb 1 (by omega)), mul_range (hb 2 (by omega))]
  constructor
  · rintro ⟨⟨h1, h2, h3⟩, h4, h5, h6⟩ c hc
    rw [e1]
    have : c = 0 ∨ c = 1 ∨ c = 2 := by omega
    rcases this with rfl | rfl | rfl
    · exact ⟨h1, h4⟩
    · exact ⟨h2, h5⟩
    · exact ⟨h3, h6⟩
  · intro h
    have h0 := h 0 (by omega)
    have h1 := h 1 (by omega)
    have h2 := h 2 (by omega)
    rw [e1] at h0 h1 h2
    exact ⟨⟨h0.1, h1.1, h2.1⟩, h0.2, h1.2, h2.2⟩

/-- **C39, C38** `obbox_calc_2`: for `nel` elements of `nr*ns` nodes each with nonzero Jacobian inside, given valid tables of bounds (see C37), all accesses stay within the block allocated
and the coordinate arrays, no division by zero occurs, and every point of every element satisfies the inequalities of the element's box and passes `obbox_test_2`; with a positive tolerance it is strictly inside the axis-aligned box;
in the parallelogram the margin is that of the tolerance: `|A (x-c0)| <= 1/(1+tol)` -/
theorem obbox_calc_2_covers (fuel : Nat) (eps : ℝ) (guess ch : Nat → Nat → ℝ) {nr mr ns ms nel ucap : Nat} {zr zs : Nat → ℝ}
    (hzr : NodesOk fuel eps (guess nr) nr zr) (hvr : ValidTable nr mr zr (hVal mr (ch mr)) (tableVal nr mr zr (hVal mr (ch mr))))
    (hzs : NodesOk fuel eps (guess ns) ns zs) (hvs : ValidTable ns ms zs (hVal ms (ch ms)) (tableVal ns ms zs (hVal ms (ch ms))))
    {tol : ℝ} (htol : 0 ≤ tol) {el : Nat → Mem ℝ} {X : Nat → Nat → ℝ} (hel : ∀ c < 2, Has (el c) 0 (nel * (nr * ns)) (X c)) (hcap : nel * (nr * ns) ≤ ucap)
    (hjac : ∀ e < nel, ∀ r s, -1 < r → r < 1 → -1 < s → s < 1 → jac2 (fun c => poly2 nr zr ns zs fun i => X c (e * (nr * ns) + i)) r s ≠ 0) :
    ∃ out, calc2 fuel eps guess ch nr mr ns ms nel tol ucap el = some out ∧ ∀ e < nel, ∃ b, out e = some b ∧
      ∀ r s, -1 ≤ r → r ≤ 1 → -1 ≤ s → s ≤ 1 →
        let p : Nat → ℝ := fun c => poly2 nr zr ns zs (fun i => X c (e * (nr * ns) + i)) r s
        InBox 2 b.c0 b.A b.x p ∧ 0 ≤ test2 b p ∧ (0 < tol → ∀ c < 2, (b.x c).1 < p c ∧ p c < (b.x c).2) ∧
          ∀ c < 2, |∑ e ∈ range 2, b.A c e * (p e - b.c0 e)| ≤ 1 / (1 + tol) := by
  obtain ⟨Ir, Dr, er, hr⟩ := setupDir_run (wcap := wsize2 nr mr ns ms) hzr hvr (by unfold wsize2; omega)
  obtain ⟨Is, Ds, es, hs⟩ := setupDir_run (wcap := wsize2 nr mr ns ms) hzs hvs (by unfold wsize2; omega)
  unfold calc2
  dsimp only
  rw [er, Option.bind_some, es, Option.bind_some]
  refine elLoop (fun e => calcEl2 nr mr Ir Dr ns ms Is Ds tol ucap el (e * (nr * ns))) _ fun e he => ?_
  have hle : e * (nr * ns) + nr * ns ≤ nel * (nr * ns) := by
    have : (e + 1) * (nr * ns) ≤ nel * (nr * ns) := Nat.mul_le_mul_right _ he
    rwa [Nat.succ_mul] at this
  obtain ⟨b, eb, hx, hst, hb⟩ := el2_covers hr hs htol (xo := e * (nr * ns)) (el := el) (U := fun c i => X c (e * (nr * ns) + i)) (ucap := ucap)
    (fun c hc i hi => by have := hel c hc (e * (nr * ns) + i) (by omega); rwa [Nat.zero_add] at this) (by omega) (hjac e he)
  refine ⟨b, eb, fun r s a1 a2 a3 a4 => ?_⟩
  exact ⟨(hb r s a1 a2 a3 a4).1, (obbox_test_2_iff b hx _).2 (hb r s a1 a2 a3 a4).1, hst r s a1 a2 a3 a4, (hb r s a1 a2 a3 a4).2⟩

/-- **C39, C38** `obbox_calc_3` likewise -/
theorem obbox_calc_3_covers (fuel : Nat) (eps : ℝ) (guess ch : Nat → Nat → ℝ) {nr mr ns ms nt mt nel ucap : Nat} {zr zs zt : Nat → ℝ}
    (hzr : NodesOk fuel eps (guess nr) nr zr) (hvr : ValidTable nr mr zr (hVal mr (ch mr)) (tableVal nr mr zr (hVal mr (ch mr))))
    (hzs : NodesOk fuel eps (guess ns) ns zs) (hvs : ValidTable ns ms zs (hVal ms (ch ms)) (tableVal ns ms zs (hVal ms (ch ms))))
    (hzt : NodesOk fuel eps (guess nt) nt zt) (hvt : ValidTable nt mt zt (hVal mt (ch mt)) (tableVal nt mt zt (hVal mt (ch mt))))
    {tol : ℝ} (htol : 0 ≤ tol) {el : Nat → Mem ℝ} {X : Nat → Nat → ℝ} (hel : ∀ c < 3, Has (el c) 0 (nel * (nr * ns * nt)) (X c)) (hcap : nel * (nr * ns * nt) ≤ ucap)
    (hjac : ∀ e < nel, ∀ r s t, -1 < r → r < 1 → -1 < s → s < 1 → -1 < t → t < 1 → jac3 (fun c => poly3 nr zr ns zs nt zt fun i => X c (e * (nr * ns * nt) + i)) r s t ≠ 0) :
    ∃ out, calc3 fuel eps guess ch nr mr ns ms nt mt nel tol ucap el = some out ∧ ∀ e < nel, ∃ b, out e = some b ∧
      ∀ r s t, -1 ≤ r → r ≤ 1 → -1 ≤ s → s ≤ 1 → -1 ≤ t → t ≤ 1 →
        let p : Nat → ℝ := fun c => poly3 nr zr ns zs nt zt (fun i => X c (e * (nr * ns * nt) + i)) r s t
        InBox 3 b.c0 b.A b.x p ∧ 0 ≤ test3 b p ∧ (0 < tol → ∀ c < 3, (b.x c).1 < p c ∧ p c < (b.x c).2) ∧
          ∀ c < 3, |∑ e ∈ range 3, b.A c e * (p e - b.c0 e)| ≤ 1 / (1 + tol) := by
  obtain ⟨Ir, Dr, er, hr⟩ := setupDir_run (wcap := wsize3 nr mr ns ms nt mt) hzr hvr (by unfold wsize3; omega)
  obtain ⟨Is, Ds, es, hs⟩ := setupDir_run (wcap := wsize3 nr mr ns ms nt mt) hzs hvs (by unfold wsize3; omega)
  obtain ⟨It, Dt, et, ht⟩ := setupDir_run (wcap := wsize3 nr mr ns ms nt mt) hzt hvt (by unfold wsize3; omega)
  unfold calc3
  dsimp only
  rw [er, Option.bind_some, es, Option.bind_some, et, Option.bind_some]
  refine elLoop (fun e => calcEl3 nr mr Ir Dr ns ms Is Ds nt mt It Dt tol ucap el (e * (nr * ns * nt))) _ fun e he => ?_
  have hle : e * (nr * ns * nt) + nr * ns * nt ≤ nel * (nr * ns * nt) := by
    have : (e + 1) * (nr * ns * nt) ≤ nel * (nr * ns * nt) := Nat.mul_le_mul_right _ he
    rwa [Nat.succ_mul] at this
  obtain ⟨b, eb, hx, hst, hb⟩ := el3_covers hr hs ht htol (xo := e * (nr * ns * nt)) (el := el) (U := fun c i => X c (e * (nr * ns * nt) + i)) (ucap := ucap)
    (fun c hc i hi => by have := hel c hc (e * (nr * ns * nt) + i) (by omega); rwa [Nat.zero_add] at this) (by omega) (hjac e he)
  refine ⟨b, eb, fun r s t a1 a2 a3 a4 a5 a6 => ?_⟩
  exact ⟨(hb r s t a1 a2 a3 a4 a5 a6).1, (obbox_test_3_iff b hx _).2 (hb r s t a1 a2 a3 a4 a5 a6).1, hst r s t a1 a2 a3 a4 a5 a6, (hb r s t a1 a2 a3 a4 a5 a6).2⟩

/-- the tables are valid for 2 or 3 nodes and at least 4 points (C37) -/
theorem valid_low {n m : Nat} (hn : n = 2 ∨ n = 3) (hm : 4 ≤ m) : ValidTable n m (fixVal n) (hVal m (cheb m)) (tableVal n m (fixVal n) (hVal m (cheb m))) := by
  rcases hn with rfl | rfl
  · exact lob_bnd_setup_valid_2 _ (by omega)
  · exact lob_bnd_setup_valid_3 _ (cheb_spacing hm)

/-- **C39** without further hypotheses for (bi)linear and (bi)quadratic elements and at least 4 points in each direction -/
theorem obbox_calc_2_covers_low (fuel : Nat) (eps : ℝ) (guess : Nat → Nat → ℝ) {nr mr ns ms nel ucap : Nat} (hnr : nr = 2 ∨ nr = 3) (hns : ns = 2 ∨ ns = 3) (hmr : 4 ≤ mr) (hms : 4 ≤ ms)
    {tol : ℝ} (htol : 0 ≤ tol) {el : Nat → Mem ℝ} {X : Nat → Nat → ℝ} (hel : ∀ c < 2, Has (el c) 0 (nel * (nr * ns)) (X c)) (hcap : nel * (nr * ns) ≤ ucap)
    (hjac : ∀ e < nel, ∀ r s, -1 < r → r < 1 → -1 < s → s < 1 → jac2 (fun c => poly2 nr (fixVal nr) ns (fixVal ns) fun i => X c (e * (nr * ns) + i)) r s ≠ 0) :
    ∃ out, calc2 fuel eps guess cheb nr mr ns ms nel tol ucap el = some out ∧ ∀ e < nel, ∃ b, out e = some b ∧
      ∀ r s, -1 ≤ r → r ≤ 1 → -1 ≤ s → s ≤ 1 → 0 ≤ test2 b fun c => poly2 nr (fixVal nr) ns (fixVal ns) (fun i => X c (e * (nr * ns) + i)) r s := by
  obtain ⟨out, e, h⟩ := obbox_calc_2_covers fuel eps guess cheb (nodesOk_small fuel eps (guess nr) (by omega) (by omega)) (valid_low hnr hmr)
    (nodesOk_small fuel eps (guess ns) (by omega) (by omega)) (valid_low hns hms) htol hel hcap hjac
  refine ⟨out, e, fun k hk => ?_⟩
  obtain ⟨b, eb, hb⟩ := h k hk
  exact ⟨b, eb, fun r s a1 a2 a3 a4 => (hb r s a1 a2 a3 a4).2.1⟩

/-- **C39** the same in 3D -/
theorem obbox_calc_3_covers_low (fuel : Nat) (eps : ℝ) (guess : Nat → Nat → ℝ) {nr mr ns ms nt mt nel ucap : Nat} (hnr : nr = 2 ∨ nr = 3) (hns : ns = 2 ∨ ns = 3) (hnt : nt = 2 ∨ nt = 3)
    (hmr : 4 ≤ mr) (hms : 4 ≤ ms) (hmt : 4 ≤ mt)
    {tol : ℝ} (htol : 0 ≤ tol) {el : Nat → Mem ℝ} {X : Nat → Nat → ℝ} (hel : ∀ c < 3, Has (el c) 0 (nel * (nr * ns * nt)) (X c)) (hcap : nel * (nr * ns * nt) ≤ ucap)
    (hjac : ∀ e < nel, ∀ r s t, -1 < r → r < 1 → -1 < s → s < 1 → -1 < t → t < 1 →
      jac3 (fun c => poly3 nr (fixVal nr) ns (fixVal ns) nt (fixVal nt) fun i => X c (e * (nr * ns * nt) + i)) r s t ≠ 0) :
    ∃ out, calc3 fuel eps guess cheb nr mr ns ms nt mt nel tol ucap el = some out ∧ ∀ e < nel, ∃ b, out e = some b ∧
      ∀ r s t, -1 ≤ r → r ≤ 1 → -1 ≤ s → s ≤ 1 → -1 ≤ t → t ≤ 1 →
        0 ≤ test3 b fun c => poly3 nr (fixVal nr) ns (fixVal ns) nt (fixVal nt) (fun i => X c (e * (nr * ns * nt) + i)) r s t := by
  obtain ⟨out, e, h⟩ := obbox_calc_3_covers fuel eps guess cheb (nodesOk_small fuel eps (guess nr) (by omega) (by omega)) (valid_low hnr hmr)
    (nodesOk_small fuel eps (guess ns) (by omega) (by omega)) (valid_low hns hms) (nodesOk_small fuel eps (guess nt) (by omega) (by omega)) (valid_low hnt hmt) htol hel hcap hjac
  refine ⟨out, e, fun k hk => ?_⟩
  obtain ⟨b, eb, hb⟩ := h k hk
  exact ⟨b, eb, fun r s t a1 a2 a3 a4 a5 a6 => (hb r s t a1 a2 a3 a4 a5 a6).2.1⟩

/-- coordinates `x=r`, `y=s+r^2` of a quadratic element -/
def exEl (c i : Nat) : ℝ := if c = 0 then ([-1, 0, 1, -1, 0, 1, -1, 0, 1] : List ℝ).getD i 0 else ([0, -1, 0, 1, 0, 1, 2, 1, 2] : List ℝ).getD i 0

theorem exEl_poly (r s : ℝ) : poly2 3 (fixVal 3) 3 (fixVal 3) (exEl 0) r s = r ∧ poly2 3 (fixVal 3) 3 (fixVal 3) (exEl 1) r s = s + r ^ 2 := by
  unfold poly2 basisAt
  simp only [sum_range_succ, sum_range_zero, basis3.1, basis3.2.1, basis3.2.2, exEl]
  constructor
  · simp
    ring
  · simp
    ring

/-- the hypotheses hold for this element (its Jacobian is 1) -/
example (fuel : Nat) (eps : ℝ) (guess : Nat → Nat → ℝ) : ∃ out, calc2 fuel eps guess cheb 3 6 3 6 1 (1/1000000) 9 (fun c i => some (exEl c i)) = some out ∧ ∃ b, out 0 = some b ∧
    ∀ r s, -1 ≤ r → r ≤ 1 → -1 ≤ s → s ≤ 1 → 0 ≤ test2 b fun c => if c = 0 then r else s + r ^ 2 := by
  have hX : ∀ c, (fun i => exEl c (0 * (3 * 3) + i)) = exEl c := fun c => by funext i; rw [Nat.zero_mul, Nat.zero_add]
  obtain ⟨out, e, h⟩ := obbox_calc_2_covers_low fuel eps guess (nel := 1) (ucap := 9) (mr := 6) (ms := 6) (Or.inr rfl) (Or.inr rfl) (by omega) (by omega) (tol := 1/1000000) (by norm_num)
    (el := fun c i => some (exEl c i)) (X := exEl) (fun c _ i _ => by rw [Nat.zero_add]) (by omega) (by
      intro e he r s _ _ _ _
      have : e = 0 := by omega
      subst this
      have h0 : ∀ a b, poly2 3 (fixVal 3) 3 (fixVal 3) (exEl 0) a b = a := fun a b => (exEl_poly a b).1
      have h1 : ∀ a b, poly2 3 (fixVal 3) 3 (fixVal 3) (exEl 1) a b = b + a ^ 2 := fun a b => (exEl_poly a b).2
      simp only [hX, jac2, h0, h1, Matrix.det_fin_two_of]
      simp)
  obtain ⟨b, eb, hb⟩ := h 0 (by omega)
  refine ⟨out, e, b, eb, fun r s a1 a2 a3 a4 => ?_⟩
  have := hb r s a1 a2 a3 a4
  simp only [hX] at this
  have e2 : test2 b (fun c => poly2 3 (fixVal 3) 3 (fixVal 3) (exEl c) r s) = test2 b fun c => if c = 0 then r else s + r ^ 2 := by
    unfold test2 axisTest2
    simp [(exEl_poly r s).1, (exEl_poly r s).2]
  rwa [e2] at this

/-- **Finding** a folded element, `x=r`, `y=s+4(1-r^2)(1-s^2)` with 3 by 3 nodes and m=4 points (whose Chebyshev nodes are -1, -1/2, 1/2, 1): the Jacobian at the centre is the identity, the edges are straight, and
the box is exactly [-1,1]^2; the node in the middle, (0,4), fails the test -/
theorem obbox_calc_2_misses_interior :
    ((calc2 1 (1/100 : ℚ) (fun _ _ => 0) (fun _ j => if j = 1 then -1/2 else 1/2) 3 4 3 4 1 0 9
      (fun c => if c = 0 then memOf [-1, 0, 1, -1, 0, 1, -1, 0, 1] else memOf [-1, -1, -1, 0, 4, 0, 1, 1, 1])).bind fun out => (out 0).map fun b =>
      (decide (0 ≤ test2 b fun c => if c = 0 then 0 else 4), (List.range 2).map b.x, (List.range 2).map b.c0, [b.A 0 0, b.A 0 1, b.A 1 0, b.A 1 1])) =
    some (false, [(-1, 1), (-1, 1)], [0, 0], [1, 0, 0, 1]) := by
  decide +kernel

end Gslib.Props
