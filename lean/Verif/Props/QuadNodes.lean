import Verif.Props.Quad
import Verif.Lemmas.LegRoots
import Verif.Props.GllTable
import Mathlib.Analysis.SpecialFunctions.Sqrt

/-!
# C58: the computed quadrature nodes are close to exact ones
-/

namespace Gslib.Props
open Gslib.Poly Gslib.Spec Gslib.Num Polynomial

/-- a result of the Newton iteration is close to a zero, for polynomials with real zeros in `(-1,1)` that are at least `γ` apart -/
theorem newton_result_near (f : ℝ[X]) (c γ eps x : ℝ) (m : Nat) (hR : RealRooted f c f.roots) (hm : Multiset.card f.roots = m)
    (hin : ∀ r ∈ f.roots, -1 < r ∧ r < 1) (hγ : 0 < γ) (hgap : ∀ r t, f.roots = r ::ₘ t → ∀ z ∈ t, γ ≤ |r - z|)
    (he : 0 < eps) (he1 : 2 * ((m : ℝ) + 1) * eps ≤ 1) (he2 : 8 * (m : ℝ) * (m + 1) * eps ≤ γ)
    (h : NewtonResult (fun x => f.eval x) (fun x => (derivative f).eval x) eps x) :
    ∃ r, f.eval r = 0 ∧ -1 < r ∧ r < 1 ∧ |x - r| ≤ 8 * ((m : ℝ) - 1) * (m + 1) ^ 2 * eps ^ 2 / γ := by
  obtain ⟨ox, y, d0, e1, e2, d1, e3⟩ := h
  obtain ⟨r, hr, hnear⟩ := near_root hR ox d0
  rw [hm] at hnear
  obtain ⟨b1, b2⟩ := hin r hr
  have hq : f.eval ox / (derivative f).eval ox = ox - y := by rw [e1]; ring
  rw [hq, abs_sub_comm ox y] at hnear
  have hm0 : (0 : ℝ) ≤ m := Nat.cast_nonneg m
  have hy0 : 0 ≤ -y * eps := (abs_nonneg _).trans e2
  have hy : 0 ≤ -y := by
    by_contra hc
    push Not at hc
    have := mul_neg_of_neg_of_pos hc he
    linarith
  have hyr : |y - r| ≤ ((m : ℝ) + 1) * (-y * eps) := by
    calc |y - r| = |(y - ox) + (ox - r)| := by congr 1; ring
      _ ≤ |y - ox| + |ox - r| := abs_add_le _ _
      _ ≤ -y * eps + m * (-y * eps) := add_le_add e2 (hnear.trans (mul_le_mul_of_nonneg_left e2 hm0))
      _ = _ := by ring
  have hy2 : -y ≤ 2 := by
    have h1 := (abs_le.mp hyr).1
    have h2 : ((m : ℝ) + 1) * (-y * eps) ≤ -y * (1 / 2) := by
      have : -y * (((m : ℝ) + 1) * eps) ≤ -y * (1 / 2) := mul_le_mul_of_nonneg_left (by linarith) hy
      linarith
    linarith
  set δ := 2 * ((m : ℝ) + 1) * eps with hδ
  have hyδ : |y - r| ≤ δ := by
    refine hyr.trans ?_
    have : ((m : ℝ) + 1) * eps * -y ≤ (m + 1) * eps * 2 := mul_le_mul_of_nonneg_left hy2 (by positivity)
    rw [hδ]; linarith
  obtain ⟨t, ht⟩ := Multiset.exists_cons_of_mem hr
  have hct : (Multiset.card t : ℝ) + 1 = m := by
    have := congrArg Multiset.card ht
    rw [hm, Multiset.card_cons] at this
    exact_mod_cast this.symm
  have hR' := hR
  rw [ht] at hR'
  have := newton_step_error hR' γ δ y hγ (hgap r t ht) hyδ (by rw [hct, hδ]; linarith)
  refine ⟨r, (hR.root_iff r).mpr hr, b1, b2, ?_⟩
  rw [e3]
  refine this.trans (le_of_eq ?_)
  rw [show (Multiset.card t : ℝ) = m - 1 by linarith, hδ]
  congr 1
  ring

/-- **C58** whenever `gauss_nodes` returns, each of the `n` stored nodes is within `2 n² (n+1)³ eps²` of a zero of `P_n` in `(-1,1)`, provided the
tolerance of the Newton iteration satisfies `8 n² (n+1)² eps <= 5` (with the constant of the code, `eps = 128 * 2^-52`, up to `n = 2000`) -/
theorem gauss_nodes_accurate (cap fuel n : Nat) (eps : ℝ) (guess : Nat → ℝ) (z z' : Mem ℝ) (hc : n ≤ cap) (he : 0 < eps)
    (he2 : 8 * (n : ℝ) ^ 2 * (n + 1) ^ 2 * eps ≤ 5) (h : gaussNodes cap fuel eps guess n z = some z') :
    ∀ i < n, ∃ x r : ℝ, z' i = some x ∧ (legendreP ℝ n).eval r = 0 ∧ -1 < r ∧ r < 1 ∧ |x - r| ≤ 2 * (n : ℝ) ^ 2 * (n + 1) ^ 3 * eps ^ 2 := by
  obtain ⟨v, hv, hnew, -⟩ := gauss_nodes_symmetric cap fuel n eps guess z z' hc h
  have hn0 : (0 : ℝ) ≤ n := Nat.cast_nonneg n
  have first : ∀ i < n / 2, ∃ r : ℝ, (legendreP ℝ n).eval r = 0 ∧ -1 < r ∧ r < 1 ∧ |v i - r| ≤ 2 * (n : ℝ) ^ 2 * (n + 1) ^ 3 * eps ^ 2 := by
    intro i hi
    have hn2 : 2 ≤ n := by omega
    have hn2' : (2 : ℝ) ≤ n := by exact_mod_cast hn2
    have hM : 0 < (n : ℝ) * (n + 1) := by positivity
    have hM6 : 6 ≤ (n : ℝ) * (n + 1) := by nlinarith
    have q1 : 8 * ((n : ℝ) * (n + 1)) * (((n : ℝ) * (n + 1)) * eps) ≤ 5 := by nlinarith
    have q2 : 8 * (n : ℝ) * (n + 1) * eps ≤ 5 / ((n : ℝ) * (n + 1)) := by
      rw [le_div_iff₀ hM]; nlinarith
    have q0 : 0 < ((n : ℝ) * (n + 1)) * eps := mul_pos hM he
    have q3 : 48 * (((n : ℝ) * (n + 1)) * eps) ≤ 5 := by nlinarith
    have q4 : 2 * ((n : ℝ) + 1) * eps ≤ 1 := by
      have : 2 * (((n : ℝ) + 1) * eps) ≤ n * ((n + 1) * eps) := mul_le_mul_of_nonneg_right hn2' (by positivity)
      nlinarith
    obtain ⟨r, h1, h2, h3, h4⟩ := newton_result_near (legendreP ℝ n) _ (5 / ((n : ℝ) * (n + 1))) eps (v i) n (legP_realRooted n) (legP_card n).1
      (fun r hr => legP_root_mem n r (((legP_realRooted n).root_iff r).mpr hr)) (by positivity) (fun r t ht => legP_gap n hn2 r t ht) he q4 q2
      (hnew i hi)
    refine ⟨r, h1, h2, h3, h4.trans ?_⟩
    rw [div_div_eq_mul_div, div_le_iff₀ (by norm_num)]
    have a1 : 0 ≤ (n : ℝ) * (n + 1) ^ 3 * eps ^ 2 := by positivity
    nlinarith
  intro i hi
  refine ⟨v i, ?_⟩
  by_cases h1 : i < n / 2
  · obtain ⟨r, hr⟩ := first i h1
    exact ⟨r, hv.filled i hi, hr⟩
  by_cases h2 : n - 1 - i < n / 2
  · obtain ⟨r, hr0, hr1, hr2, hr3⟩ := first (n - 1 - i) h2
    refine ⟨-r, hv.filled i hi, ?_, by linarith, by linarith, ?_⟩
    · have := legendre_parity r n
      rw [legendre_correct, legendre_correct, hr0, mul_zero] at this
      exact this
    · rw [hv.sym i hi] at hr3
      rw [← abs_neg]
      rwa [show -(v i - -r) = -v i - r by ring]
  · have hodd : n % 2 = 1 := by omega
    have him : i = n / 2 := by omega
    refine ⟨0, hv.filled i hi, ?_, by norm_num, by norm_num, ?_⟩
    · have := legendre_parity (0 : ℝ) n
      rw [neg_zero, Odd.neg_one_pow (Nat.odd_iff.mpr hodd), legendre_correct] at this
      linarith
    · rw [him, hv.mid hodd, sub_zero, abs_zero]; positivity

theorem mem_gllz (n i : Nat) (h4 : 4 ≤ n) (h24 : n ≤ 24) (hi : 1 ≤ i) (hi' : i < n / 2) : (gllz n).getD (i - 1) 0 ∈ gllz n := by
  have hl := gllz_length n h4 h24
  rw [List.getD_eq_getElem?_getD, List.getElem?_eq_getElem (by omega), Option.getD_some]
  exact List.getElem_mem _

/-- **C58** whenever `lobatto_nodes` returns (`n>=2`), the first and last node are -1 and 1, and each of the others is close to a zero of `P_{n-1}'` in
`(-1,1)`: within `10^-49` for `n<=24`, and within `n² (n-1)³ eps²` for larger `n`, provided `4 n² (n-1)² eps <= 5` -/
theorem lobatto_nodes_accurate (cap fuel n : Nat) (eps : ℝ) (guess : Nat → ℝ) (z z' : Mem ℝ) (hc : n ≤ cap) (hn : 2 ≤ n) (he : 0 < eps)
    (he2 : 24 < n → 4 * (n : ℝ) ^ 2 * (n - 1) ^ 2 * eps ≤ 5) (h : lobattoNodes cap fuel eps guess n z = some z') :
    z' 0 = some (-1) ∧ z' (n - 1) = some 1 ∧
    ∀ i, 0 < i → i < n - 1 → ∃ x r : ℝ, z' i = some x ∧ (derivative (legendreP ℝ (n - 1))).eval r = 0 ∧ -1 < r ∧ r < 1 ∧
      |x - r| ≤ if n ≤ 24 then 1 / 10 ^ 49 else (n : ℝ) ^ 2 * (n - 1) ^ 3 * eps ^ 2 := by
  obtain ⟨v, hv, ha, hb, hnew, -⟩ := (lobatto_nodes_symmetric cap fuel n eps guess z hc hn).2 z' h
  refine ⟨by rw [hv.filled 0 (by omega), ha], by rw [hv.filled _ (by omega), hb], ?_⟩
  set bd : ℝ := if n ≤ 24 then 1 / 10 ^ 49 else (n : ℝ) ^ 2 * (n - 1) ^ 3 * eps ^ 2 with hbd
  have hn1 : (1 : ℝ) ≤ n := by exact_mod_cast (by omega : 1 ≤ n)
  have hbd0 : 0 ≤ bd := by
    rw [hbd]; split_ifs
    · positivity
    · have : 0 ≤ (n : ℝ) - 1 := by linarith
      positivity
  have first : ∀ i, 1 ≤ i → i < n / 2 → ∃ r : ℝ, (derivative (legendreP ℝ (n - 1))).eval r = 0 ∧ -1 < r ∧ r < 1 ∧ |v i - r| ≤ bd := by
    intro i hi1 hi2
    by_cases hb24 : n ≤ 24
    · obtain ⟨z1, e1, hz1, -⟩ := lobattoFix_run cap n z hn hb24 hc
      have e' : lobattoNodes cap fuel eps guess n z = some z1 := by rw [lobattoNodes, if_neg (by omega), if_pos hn, e1]
      rw [e'] at h
      obtain rfl := Option.some.inj h
      have hvi : v i = -(((gllz n).getD (i - 1) 0 : ℚ) : ℝ) := by
        have a := hv.filled i (by omega)
        rw [has_zero hz1 i (by omega)] at a
        rw [← Option.some.inj a, fixVal, if_neg (by omega), if_neg (by omega), if_pos hi2, gllzVal]
      obtain ⟨r, hr0, hr⟩ := gllz_accurate n (by omega) hb24 _ (mem_gllz n i (by omega) hb24 hi1 hi2)
      obtain ⟨k, hk⟩ : ∃ k, n - 1 = k + 1 := ⟨n - 2, by omega⟩
      obtain ⟨b1, b2⟩ := legD_root_mem (n - 1) (by omega) r hr0
      refine ⟨-r, ?_, by linarith, by linarith, ?_⟩
      · rw [hk] at hr0 ⊢
        have := P1_parity r k
        rw [show P1 r (k + 1) = 0 from hr0, mul_zero] at this
        exact this
      · rw [hvi, hbd, if_pos hb24]
        rwa [show -(((gllz n).getD (i - 1) 0 : ℚ) : ℝ) - -r = r - (((gllz n).getD (i - 1) 0 : ℚ) : ℝ) by ring]
    · have h25 : (25 : ℝ) ≤ n := by exact_mod_cast (by omega : 25 ≤ n)
      have hN : ((n - 1 : Nat) : ℝ) = n - 1 := by push_cast [Nat.cast_sub (by omega : 1 ≤ n)]; ring
      have hm : ((n - 2 : Nat) : ℝ) = n - 2 := by push_cast [Nat.cast_sub (by omega : 2 ≤ n)]; ring
      have hM : 0 < ((n : ℝ) - 1) * n := by nlinarith
      have hM6 : 600 ≤ ((n : ℝ) - 1) * n := by nlinarith
      have he2 := he2 (by omega)
      have q0 : 0 < (((n : ℝ) - 1) * n) * eps := mul_pos hM he
      have q1 : 4 * (((n : ℝ) - 1) * n) * ((((n : ℝ) - 1) * n) * eps) ≤ 5 := by nlinarith
      have q3 : 2400 * ((((n : ℝ) - 1) * n) * eps) ≤ 5 := by nlinarith
      have q4 : ((n : ℝ) - 1) * eps ≤ (((n : ℝ) - 1) * n) * eps := by
        refine mul_le_mul_of_nonneg_right ?_ he.le
        nlinarith
      obtain ⟨r, h1, h2, h3, h4⟩ := newton_result_near (derivative (legendreP ℝ (n - 1))) _ (10 / (((n - 1 : Nat) : ℝ) * ((n - 1 : Nat) + 1))) eps (v i) (n - 2)
        (legD_realRooted (n - 1) (by omega)) (by rw [(legD_card (n - 1)).1]; omega)
        (fun r hr => legD_root_mem (n - 1) (by omega) r (((legD_realRooted (n - 1) (by omega)).root_iff r).mpr hr))
        (by rw [hN]; have : 0 < (n : ℝ) - 1 := by linarith
            positivity)
        (fun r t ht => legD_gap (n - 1) (by omega) r t ht) he
        (by rw [hm]; nlinarith)
        (by
          rw [hm, hN, show (n : ℝ) - 1 + 1 = n by ring, le_div_iff₀ hM, show (n : ℝ) - 2 + 1 = n - 1 by ring]
          have : 8 * ((n : ℝ) - 2) * (n - 1) * eps * ((n - 1) * n) ≤ 8 * n * (n - 1) * eps * ((n - 1) * n) := by
            refine mul_le_mul_of_nonneg_right (mul_le_mul_of_nonneg_right (mul_le_mul_of_nonneg_right (by linarith) (by linarith)) he.le) hM.le
          nlinarith)
        (hnew (by omega) i hi1 hi2)
      refine ⟨r, h1, h2, h3, h4.trans ?_⟩
      rw [hbd, if_neg hb24, hm, hN, show (n : ℝ) - 1 + 1 = n by ring, div_div_eq_mul_div, div_le_iff₀ (by norm_num)]
      have a0 : 0 ≤ (n : ℝ) - 1 := by linarith
      have a1 : 0 ≤ ((n : ℝ) - 1) ^ 3 * n * eps ^ 2 := by positivity
      have a2 : ((n : ℝ) - 1) ^ 3 * n * eps ^ 2 * (8 * (n - 3)) ≤ ((n : ℝ) - 1) ^ 3 * n * eps ^ 2 * (10 * n) :=
        mul_le_mul_of_nonneg_left (by linarith) a1
      nlinarith
  intro i hi0 hi
  refine ⟨v i, ?_⟩
  obtain ⟨k, hk⟩ : ∃ k, n - 1 = k + 1 := ⟨n - 2, by omega⟩
  by_cases h1 : i < n / 2
  · obtain ⟨r, hr⟩ := first i hi0 h1
    exact ⟨r, hv.filled i (by omega), hr⟩
  by_cases h2 : n - 1 - i < n / 2
  · obtain ⟨r, hr0, hr1, hr2, hr3⟩ := first (n - 1 - i) (by omega) h2
    refine ⟨-r, hv.filled i (by omega), ?_, by linarith, by linarith, ?_⟩
    · rw [hk] at hr0 ⊢
      have := P1_parity r k
      rw [show P1 r (k + 1) = 0 from hr0, mul_zero] at this
      exact this
    · rw [hv.sym i (by omega)] at hr3
      rw [← abs_neg]
      rwa [show -(v i - -r) = -v i - r by ring]
  · have hodd : n % 2 = 1 := by omega
    have him : i = n / 2 := by omega
    refine ⟨0, hv.filled i (by omega), ?_, by norm_num, by norm_num, ?_⟩
    · rw [hk]
      have := P1_parity (0 : ℝ) k
      rw [neg_zero, Odd.neg_one_pow (Nat.odd_iff.mpr (by omega))] at this
      show P1 0 (k + 1) = 0
      linarith
    · rw [him, hv.mid hodd, sub_zero, abs_zero]; exact hbd0

/-- **C58** if moreover the stored nodes are far enough from each other, every zero of `P_n` has been found -/
theorem gauss_nodes_complete (cap fuel n : Nat) (eps : ℝ) (guess : Nat → ℝ) (z z' : Mem ℝ) (hc : n ≤ cap) (he : 0 < eps)
    (he2 : 8 * (n : ℝ) ^ 2 * (n + 1) ^ 2 * eps ≤ 5) (h : gaussNodes cap fuel eps guess n z = some z')
    (hsep : ∀ i < n, ∀ j < n, i ≠ j → ∀ x y, z' i = some x → z' j = some y → 2 * (2 * (n : ℝ) ^ 2 * (n + 1) ^ 3 * eps ^ 2) < |x - y|) :
    ∀ r : ℝ, (legendreP ℝ n).eval r = 0 → ∃ i < n, ∃ x, z' i = some x ∧ |x - r| ≤ 2 * (n : ℝ) ^ 2 * (n + 1) ^ 3 * eps ^ 2 := by
  classical
  have hacc := gauss_nodes_accurate cap fuel n eps guess z z' hc he he2 h
  choose! x r hx hr0 hr1 hr2 hr3 using hacc
  intro s hs
  have hR := legP_realRooted n
  have hmem : ∀ y : ℝ, (legendreP ℝ n).eval y = 0 → y ∈ (legendreP ℝ n).roots.toFinset := fun y hy =>
    Multiset.mem_toFinset.mpr ((hR.root_iff y).mp hy)
  have hcard : (legendreP ℝ n).roots.toFinset.card ≤ (Finset.range n).card := by
    rw [Finset.card_range]
    exact (Multiset.toFinset_card_le _).trans (legP_card n).1.le
  have hinj : Set.InjOn r (Finset.range n : Finset Nat) := by
    intro i hi j hj e
    have hi := Finset.mem_range.mp hi
    have hj := Finset.mem_range.mp hj
    by_contra hij
    have h1 := hsep i hi j hj hij _ _ (hx i hi) (hx j hj)
    have h2 := hr3 i hi
    have h3 := hr3 j hj
    rw [← e] at h3
    have : |x i - x j| ≤ |x i - r i| + |x j - r i| := by
      calc |x i - x j| = |(x i - r i) - (x j - r i)| := by congr 1; ring
        _ ≤ _ := abs_sub _ _
    linarith
  have hsurj := Finset.surjOn_of_injOn_of_card_le r (fun i hi => hmem _ (hr0 i (Finset.mem_range.mp hi))) hinj hcard
  obtain ⟨i, hi, e⟩ := hsurj (hmem s hs)
  have hi := Finset.mem_range.mp hi
  exact ⟨i, hi, x i, hx i hi, e ▸ hr3 i hi⟩

/-! ## a case that meets the hypotheses -/

/-- started at exact negative zeros, the iteration returns them -/
theorem gauss_nodes_at_zeros (cap fuel n : Nat) (eps : ℝ) (guess : Nat → ℝ) (z : Mem ℝ) (hc : n ≤ cap) (he : 0 < eps)
    (hg : ∀ i < n / 2, (legendreP ℝ n).eval (guess i) = 0 ∧ guess i < 0) :
    ∃ z', gaussNodes cap (fuel + 1) eps guess n z = some z' ∧ ∀ i < n / 2, z' i = some (guess i) := by
  have hr : ∀ i < n / 2, newton (legendre n) (legendreD1 n) eps (fuel + 1) (guess i) = some (guess i) := by
    intro i hi
    obtain ⟨h0, h1⟩ := hg i hi
    have hd : legendreD1 n (guess i) ≠ 0 := by
      rw [legendre_d1_correct n (by omega)]; exact fun hd => legP_simple _ _ h0 hd
    have hl : legendre n (guess i) = 0 := by rw [legendre_correct]; exact h0
    have hneg : ¬ (0 > -guess i * eps) := by
      have : 0 < -guess i * eps := mul_pos (by linarith) he
      linarith
    rw [newton, newtonLoop, if_neg hd]
    dsimp only
    rw [hl, zero_div, sub_zero, sub_self, abs_zero, if_neg hneg, Option.bind_some, if_neg hd, hl, zero_div, sub_zero]
  obtain ⟨z', e, h1, -⟩ := halfNodes_run cap 0 n _ guess hr z (by omega)
  refine ⟨z', e, fun i hi => ?_⟩
  rw [has_zero h1 i (by omega), halfVal, if_pos hi]

/-- `-1/√3` is a zero of `P_2` -/
theorem leg2_zero : (legendreP ℝ 2).eval (-√(1 / 3)) = 0 := by
  have h := P_rec (-√(1 / 3)) 0
  rw [P, P, P, legP_one, legP_zero, eval_one, eval_X] at h
  have h3 : √((1 : ℝ) / 3) * √(1 / 3) = 1 / 3 := Real.mul_self_sqrt (by norm_num)
  push_cast at h
  linear_combination h / 2 + 3 / 2 * h3

theorem gauss_nodes_accurate_example : ∃ z' : Mem ℝ, gaussNodes 2 1 (1 / 10 ^ 10) (fun _ => -√(1 / 3)) 2 (fun _ => none) = some z' ∧
    8 * ((2 : Nat) : ℝ) ^ 2 * ((2 : Nat) + 1) ^ 2 * (1 / 10 ^ 10) ≤ 5 := by
  obtain ⟨z', e, -⟩ := gauss_nodes_at_zeros 2 0 2 (1 / 10 ^ 10) (fun _ => -√(1 / 3)) (fun _ => none) le_rfl (by norm_num)
    (fun i _ => ⟨leg2_zero, by have : 0 < √((1 : ℝ) / 3) := Real.sqrt_pos.mpr (by norm_num)
                               linarith⟩)
  exact ⟨z', e, by norm_num⟩

end Gslib.Props
