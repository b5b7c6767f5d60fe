import Verif.Props.LobBnd
import Verif.Lemmas.LobQuad
import Mathlib.Analysis.SpecialFunctions.Trigonometric.Basic

/-!
# C37: the table made by `lob_bnd_setup`
-/

namespace Gslib.Props
open Gslib.Num Gslib.Poly Gslib.Spec Gslib.Lob Finset Polynomial

section
variable {K : Type} [Field K] [LinearOrder K] [IsStrictOrderedRing K]

/-- **C37, C38** `lob_bnd_setup` for `2<=n<=24` and every `m>=2`: all accesses stay within `lob_bnd_size(n,m)` doubles, and afterwards the array holds distinct nodes from -1 to 1, the nodes `h` and
the table whose entry for basis polynomial `i` and interior node `x` of `h` is the smallest and the largest of the value at `x` and of the tangents at the midpoints of the adjacent segments -/
theorem lob_bnd_setup_table (fuel : Nat) (eps : K) (guess ch : Nat → K) {n m : Nat} (hn : 2 ≤ n) (hn' : n ≤ 24) (hm : 2 ≤ m) :
    ∃ (D : Mem K) (Q : Nat → K × K), setup fuel eps guess ch n m = some D ∧ Data n m D (fixVal n) Q (hVal m ch) (tableVal n m (fixVal n) (hVal m ch)) ∧
      (∀ i < n, ∀ j < n, fixVal (K := K) n i = fixVal n j → i = j) ∧ fixVal (K := K) n 0 = -1 ∧ fixVal (K := K) n (n - 1) = 1 ∧ hVal m ch 0 = -1 ∧ hVal m ch (m - 1) = 1 := by
  have hd : ∀ i < n, ∀ j < n, fixVal (K := K) n i = fixVal n j → i = j := by
    intro i hi j hj e
    rcases Nat.lt_trichotomy i j with h | h | h
    · exact absurd e (ne_of_lt (fixVal_mono n hn' i j h hj))
    · exact h
    · exact absurd e.symm (ne_of_lt (fixVal_mono n hn' j i h hi))
  obtain ⟨z1, e, h1, h2⟩ := lobattoFix_run (K := K) n n (fun _ => none) hn hn' (Nat.le_refl _)
  have hl : lobattoNodes n fuel eps guess n (fun _ => none) = some z1 := by rw [lobattoNodes, if_neg (by omega), if_pos hn, e]
  obtain ⟨D, w, e', h3, -⟩ := setup_run (ch := ch) hn hm hl (has_zero h1) (fun _ => rfl) hd
  refine ⟨D, _, e', h3, hd, by simp [fixVal], by rw [fixVal, if_neg (by omega), if_pos rfl], rfl, by rw [hVal, if_neg (by omega), if_pos rfl]⟩

/-- **C37, C38** the same for `n>24`, if `lobatto_nodes` stores distinct nodes -/
theorem lob_bnd_setup_table_large {fuel : Nat} {eps : K} {guess : Nat → K} (ch : Nat → K) {n m : Nat} (hn : 24 < n) (hm : 2 ≤ m) {z : Mem K} {v : Nat → K}
    (hl : lobattoNodes n fuel eps guess n (fun _ => none) = some z) (hv : ∀ i < n, z i = some (v i)) (hd : ∀ i < n, ∀ j < n, v i = v j → i = j) :
    ∃ (D : Mem K) (Q : Nat → K × K), setup fuel eps guess ch n m = some D ∧ Data n m D v Q (hVal m ch) (tableVal n m v (hVal m ch)) := by
  obtain ⟨D, w, e', h3, -⟩ := setup_run (ch := ch) (by omega : 2 ≤ n) hm hl hv (fun h => absurd hn (by omega)) hd
  exact ⟨D, _, e', h3⟩

theorem fix2 : fixVal (K := K) 2 0 = -1 ∧ fixVal (K := K) 2 1 = 1 := by constructor <;> simp [fixVal]
theorem fix3 : fixVal (K := K) 3 0 = -1 ∧ fixVal (K := K) 3 1 = 0 ∧ fixVal (K := K) 3 2 = 1 := by
  refine ⟨?_, ?_, ?_⟩ <;> simp [fixVal, gllzVal, gllz]

/-- entries of the table for a basis polynomial of degree at most 2 -/
theorem tableVal_quad {n m : Nat} {v h : Nat → K} {i : Nat} {c0 c1 a : K} (hb : Lagrange.basis (range n) v i = C c0 + C c1 * X + C a * X ^ 2)
    (h0 : h 0 = -1) (h1 : h (m - 1) = 1) (e0 : quad c0 c1 a (-1) = if i = 0 then 1 else 0) (e1 : quad c0 c1 a 1 = if i = n - 1 then 1 else 0) :
    tableVal n m v h i = quadVal m h c0 c1 a ∧ basisAt n v i = quad c0 c1 a := by
  have hq : ∀ x, basisAt n v i x = quad c0 c1 a x := by
    intro x
    unfold basisAt quad
    rw [hb]; simp
  refine ⟨funext fun j => ?_, funext hq⟩
  unfold tableVal quadVal
  by_cases hj : j = 0 ∨ j = m - 1
  · rw [if_pos hj, if_pos hj, endVal]
    by_cases hj0 : j = 0
    · subst hj0; rw [if_pos rfl, h0, e0]
    · have : j = m - 1 := by omega
      rw [if_neg hj0, this, h1, e1]
  · rw [if_neg hj, if_neg hj, innerVal]
    have hd : ∀ x, (derivative (Lagrange.basis (range n) v i)).eval x = c1 + 2 * a * x := by
      intro x
      rw [hb]
      simp
      ring
    rw [hq, hq, hq, hd, hd]

theorem basis2 : Lagrange.basis (range 2) (fixVal (K := K) 2) 0 = C (1 / 2) + C (-1 / 2) * X + C 0 * X ^ 2 ∧
    Lagrange.basis (range 2) (fixVal (K := K) 2) 1 = C (1 / 2) + C (1 / 2) * X + C 0 * X ^ 2 := by
  have r0 : (range 2).erase 0 = {1} := rfl
  have r1 : (range 2).erase 1 = {0} := rfl
  have c2 : (C (2 : K)) = 2 := rfl
  constructor
  · unfold Lagrange.basis Lagrange.basisDivisor
    rw [r0, prod_singleton, fix2.1, fix2.2]
    rw [show ((-1 : K) - 1)⁻¹ = -1 / 2 by norm_num, show (1 : K) / 2 = -(-1 / 2) * 1 by norm_num]
    simp only [map_mul, map_neg, map_one, map_zero]
    ring
  · unfold Lagrange.basis Lagrange.basisDivisor
    rw [r1, prod_singleton, fix2.1, fix2.2]
    rw [show ((1 : K) - -1)⁻¹ = 1 / 2 by norm_num]
    simp only [map_neg, map_one, map_zero]
    ring

theorem basis3 : Lagrange.basis (range 3) (fixVal (K := K) 3) 0 = C 0 + C (-1 / 2) * X + C (1 / 2) * X ^ 2 ∧
    Lagrange.basis (range 3) (fixVal (K := K) 3) 1 = C 1 + C 0 * X + C (-1) * X ^ 2 ∧
    Lagrange.basis (range 3) (fixVal (K := K) 3) 2 = C 0 + C (1 / 2) * X + C (1 / 2) * X ^ 2 := by
  have r0 : (range 3).erase 0 = {1, 2} := rfl
  have r1 : (range 3).erase 1 = {0, 2} := rfl
  have r2 : (range 3).erase 2 = {0, 1} := rfl
  refine ⟨?_, ?_, ?_⟩
  · unfold Lagrange.basis Lagrange.basisDivisor
    rw [r0, prod_pair (by omega), fix3.1, fix3.2.1, fix3.2.2]
    rw [show ((-1 : K) - 0)⁻¹ = -1 by norm_num, show ((-1 : K) - 1)⁻¹ = -(1 / 2) by norm_num, show (-1 : K) / 2 = -(1 / 2) by norm_num]
    simp only [map_neg, map_one, map_zero]
    ring
  · unfold Lagrange.basis Lagrange.basisDivisor
    rw [r1, prod_pair (by omega), fix3.1, fix3.2.1, fix3.2.2]
    rw [show ((0 : K) - -1)⁻¹ = 1 by norm_num, show ((0 : K) - 1)⁻¹ = -1 by norm_num]
    simp only [map_neg, map_one, map_zero]
    ring
  · unfold Lagrange.basis Lagrange.basisDivisor
    rw [r2, prod_pair (by omega), fix3.1, fix3.2.1, fix3.2.2]
    rw [show ((1 : K) - -1)⁻¹ = 1 / 2 by norm_num, show ((1 : K) - 0)⁻¹ = 1 by norm_num]
    simp only [map_neg, map_one, map_zero]
    ring

/-- **C37** the table of `lob_bnd_setup` is valid for `n=2` and every `m>=2`, whatever the nodes `h` -/
theorem lob_bnd_setup_valid_2 (ch : Nat → K) {m : Nat} (hm : 2 ≤ m) : ValidTable 2 m (fixVal 2) (hVal m ch) (tableVal 2 m (fixVal 2) (hVal m ch)) where
  two := hm
  first := rfl
  last := by rw [hVal, if_neg (by omega), if_pos rfl]
  bounds i hi := by
    have hl : hVal m ch (m - 1) = 1 := by rw [hVal, if_neg (by omega), if_pos rfl]
    have : i = 0 ∨ i = 1 := by omega
    rcases this with rfl | rfl
    · obtain ⟨e1, e2⟩ := tableVal_quad (m := m) (h := hVal m ch) basis2.1 rfl hl (by unfold quad; norm_num) (by unfold quad; norm_num)
      rw [e1, e2]; exact lin_valid _ _
    · obtain ⟨e1, e2⟩ := tableVal_quad (m := m) (h := hVal m ch) basis2.2 rfl hl (by unfold quad; norm_num) (by unfold quad; norm_num)
      rw [e1, e2]; exact lin_valid _ _

/-- **C37** the table of `lob_bnd_setup` is valid for `n=3`, if the first and last segments are at most half as long as their neighbours -/
theorem lob_bnd_setup_valid_3 (ch : Nat → K) {m : Nat} (hs : EndSpacing m (hVal m ch)) : ValidTable 3 m (fixVal 3) (hVal m ch) (tableVal 3 m (fixVal 3) (hVal m ch)) where
  two := by have := hs.four; omega
  first := rfl
  last := by have := hs.four; rw [hVal, if_neg (by omega), if_pos rfl]
  bounds i hi := by
    have hm := hs.four
    have hl : hVal m ch (m - 1) = 1 := by rw [hVal, if_neg (by omega), if_pos rfl]
    have : i = 0 ∨ i = 1 ∨ i = 2 := by omega
    rcases this with rfl | rfl | rfl
    · obtain ⟨e1, e2⟩ := tableVal_quad (m := m) (h := hVal m ch) basis3.1 rfl hl (by unfold quad; norm_num) (by unfold quad; norm_num)
      rw [e1, e2]; exact quad_valid hs _ _ _
    · obtain ⟨e1, e2⟩ := tableVal_quad (m := m) (h := hVal m ch) basis3.2.1 rfl hl (by unfold quad; norm_num) (by unfold quad; norm_num)
      rw [e1, e2]; exact quad_valid hs _ _ _
    · obtain ⟨e1, e2⟩ := tableVal_quad (m := m) (h := hVal m ch) basis3.2.2 rfl hl (by unfold quad; norm_num) (by unfold quad; norm_num)
      rw [e1, e2]; exact quad_valid hs _ _ _
end

/-- the nodes `h` of lob_bnd.c:94 -/
noncomputable def cheb (m : Nat) (j : Nat) : ℝ := Real.cos (((m : ℝ) - 1 - j) * Real.pi / ((m : ℝ) - 1))

/-- **C37** the Chebyshev nodes have this spacing for every `m>=4` -/
theorem cheb_spacing {m : Nat} (hm : 4 ≤ m) : EndSpacing m (hVal m (cheb m)) := by
  have hm' : (4 : ℝ) ≤ m := by exact_mod_cast hm
  have hpos : (0 : ℝ) < (m : ℝ) - 1 := by linarith
  set θ := Real.pi / ((m : ℝ) - 1) with hθ
  have e0 : hVal m (cheb m) 0 = -1 := rfl
  have eL : hVal m (cheb m) (m - 1) = 1 := by rw [hVal, if_neg (by omega), if_pos rfl]
  have eb : ∀ k : Nat, 0 < k → k < m - 1 → hVal m (cheb m) (m - 1 - k) = Real.cos (k * θ) := by
    intro k hk hk'
    rw [hVal, if_neg (by omega), if_neg (by omega), cheb, show m - 1 - k = m - (1 + k) by omega, Nat.cast_sub (by omega), hθ]
    congr 1
    push_cast
    ring
  have ef : ∀ k : Nat, 0 < k → k < m - 1 → hVal m (cheb m) k = -Real.cos (k * θ) := by
    intro k hk hk'
    rw [hVal, if_neg (by omega), if_neg (by omega), cheb, ← Real.cos_pi_sub, hθ]
    congr 1
    field_simp
  have h1 := ef 1 (by omega) (by omega)
  have h2 := ef 2 (by omega) (by omega)
  have b1 := eb 1 (by omega) (by omega)
  have b2 := eb 2 (by omega) (by omega)
  rw [show m - 1 - 1 = m - 2 by omega] at b1
  rw [show m - 1 - 2 = m - 3 by omega] at b2
  simp only [Nat.cast_one, one_mul, Nat.cast_ofNat] at h1 h2 b1 b2
  have hc : (1 : ℝ) / 2 ≤ Real.cos θ := by
    rw [← Real.cos_pi_div_three]
    have hpi := Real.pi_pos
    refine Real.cos_le_cos_of_nonneg_of_le_pi (div_nonneg hpi.le hpos.le) (by linarith) ?_
    exact div_le_div_of_nonneg_left hpi.le (by norm_num) (by linarith)
  have hc1 := Real.cos_le_one θ
  have h2t := Real.cos_two_mul θ
  refine ⟨hm, ?_, ?_, ?_, ?_⟩
  · rw [e0, h1, h2, h2t]; nlinarith
  · rw [e0, h1]; linarith
  · rw [eL, b1, b2, h2t]; nlinarith
  · rw [eL, b1]; linarith

/-- **C37** end to end for `n=3`, `m>=4`: `lob_bnd_setup`, then `lob_bnd_1` bounds every quadratic polynomial on [-1,1] (exact arithmetic) -/
theorem lob_bnd_quadratic (fuel : Nat) (eps : ℝ) (guess : Nat → ℝ) {m : Nat} (hm : 4 ≤ m) :
    ∃ D : Mem ℝ, setup fuel eps guess (cheb m) 3 m = some D ∧
      ∀ (u : Nat → ℝ) (um : Mem ℝ), (∀ i < 3, um i = some (u i)) → ∀ w : Mem ℝ, ∃ r w', bnd1 3 m D 3 um 0 (2 * m) 0 w = some (r, w') ∧
        ∀ q : ℝ[X], q.degree < 3 → q.eval (-1) = u 0 → q.eval 0 = u 1 → q.eval 1 = u 2 → ∀ x, -1 ≤ x → x ≤ 1 → r.1 ≤ q.eval x ∧ q.eval x ≤ r.2 := by
  obtain ⟨D, Q, e, hD, hd, -⟩ := lob_bnd_setup_table fuel eps guess (cheb m) (n := 3) (by omega) (by omega) (by omega : 2 ≤ m)
  refine ⟨D, e, fun u um hu w => ?_⟩
  obtain ⟨r, w', e', -, h⟩ := lob_bnd_1_contains (by omega) hD hd (lob_bnd_setup_valid_3 _ (cheb_spacing hm)) (ucap := 3) (uo := 0) (um := um) (u := u)
    (fun i hi => by rw [Nat.zero_add]; exact hu i hi) (by omega) (cap := 2 * m) (wo := 0) (by omega) w
  refine ⟨r, w', e', fun q hq q0 q1 q2 x hx hx' => ?_⟩
  have hinj : Set.InjOn (fixVal (K := ℝ) 3) (range 3 : Set Nat) := fun i hi j hj e => hd i (by simpa using hi) j (by simpa using hj) e
  have := congrArg (eval x) (Lagrange.eq_interpolate hinj (f := q) (by simpa using hq))
  have e2 : q.eval x = poly1 3 (fixVal 3) u x := by
    rw [this, Lagrange.interpolate_apply, eval_finsetSum]
    unfold poly1 basisAt
    refine sum_congr rfl fun i hi => ?_
    rw [eval_mul, eval_C]
    have : i = 0 ∨ i = 1 ∨ i = 2 := by have := mem_range.1 hi; omega
    rcases this with rfl | rfl | rfl
    · rw [fix3.1, q0]
    · rw [fix3.2.1, q1]
    · rw [fix3.2.2, q2]
  rw [e2]
  exact h x hx hx'

/-- **C37** end to end for `n=3`, `m>=4` in two and three dimensions, with the documented work sizes -/
theorem lob_bnd_quadratic_23 (fuel : Nat) (eps : ℝ) (guess : Nat → ℝ) {m : Nat} (hm : 4 ≤ m) :
    ∃ D : Mem ℝ, setup fuel eps guess (cheb m) 3 m = some D ∧
      (∀ (u : Nat → ℝ) (um : Mem ℝ), (∀ i < 9, um i = some (u i)) → ∀ w : Mem ℝ, ∃ R w', bnd2 3 m D 3 m D 9 um 0 (2 * m * (m + 1 + 3)) 0 w = some (R, w') ∧
        ∀ r s, -1 ≤ r → r ≤ 1 → -1 ≤ s → s ≤ 1 → R.1 ≤ poly2 3 (fixVal 3) 3 (fixVal 3) u r s ∧ poly2 3 (fixVal 3) 3 (fixVal 3) u r s ≤ R.2) ∧
      (∀ (u : Nat → ℝ) (um : Mem ℝ), (∀ i < 27, um i = some (u i)) → ∀ w : Mem ℝ, ∃ R w', bnd3 3 m D 3 m D 3 m D 27 um 0 (2 * m * m * (3 + m + 1)) 0 w = some (R, w') ∧
        ∀ r s t, -1 ≤ r → r ≤ 1 → -1 ≤ s → s ≤ 1 → -1 ≤ t → t ≤ 1 →
          R.1 ≤ poly3 3 (fixVal 3) 3 (fixVal 3) 3 (fixVal 3) u r s t ∧ poly3 3 (fixVal 3) 3 (fixVal 3) 3 (fixVal 3) u r s t ≤ R.2) := by
  obtain ⟨D, Q, e, hD, hd, -⟩ := lob_bnd_setup_table fuel eps guess (cheb m) (n := 3) (by omega) (by omega) (by omega : 2 ≤ m)
  have hv := lob_bnd_setup_valid_3 _ (cheb_spacing hm)
  refine ⟨D, e, fun u um hu w => ?_, fun u um hu w => ?_⟩
  · obtain ⟨r, w', e', -, h⟩ := lob_bnd_2_contains (by omega) hD hd hv (by omega) hD hd hv (ucap := 9) (uo := 0) (um := um) (u := u)
      (fun i hi => by rw [Nat.zero_add]; exact hu i hi) (by omega) (cap := 2 * m * (m + 1 + 3)) (wo := 0) (by omega) w
    exact ⟨r, w', e', h⟩
  · obtain ⟨r, w', e', -, h⟩ := lob_bnd_3_contains (by omega) hD hd hv (by omega) hD hd hv (by omega) hD hd hv (Nat.mul_le_mul (by omega) (by omega)) (ucap := 27) (uo := 0) (um := um) (u := u)
      (fun i hi => by rw [Nat.zero_add]; exact hu i hi) (by omega) (cap := 2 * m * m * (3 + m + 1)) (wo := 0) (by omega) w
    exact ⟨r, w', e', h⟩

/-- the array `l` in memory -/
def memOf (l : List ℚ) : Mem ℚ := fun i => l[i]?

/-- **Finding** with `n=3`, `m=3` (the header only says "we expect m>n") the interval is wrong: for the values 0.01, 0.81, 3.61 of `(x+0.9)^2` at the nodes -1, 0, 1 `lob_bnd_1` returns the lower
bound 0.01, but the polynomial is 0 at -0.9 -/
theorem lob_bnd_wrong_for_m_3 :
    ((setup 1 (1/100) (fun _ => 0) (fun _ => 0) 3 3).bind fun D => (bnd1 3 3 D 3 (memOf [1/100, 81/100, 361/100]) 0 6 0 (fun _ => none)).map Prod.fst) = some (1/100, 361/100) ∧
    poly1 3 (fixVal 3) (fun i => [1/100, 81/100, 361/100].getD i 0) (-9/10 : ℚ) = 0 := by
  constructor
  · decide +kernel
  · unfold poly1 basisAt
    rw [sum_range_succ, sum_range_succ, sum_range_one, basis3.1, basis3.2.1, basis3.2.2]
    norm_num

/-- **Finding** with `m=2` as well: values 1, 0, 1 of `x^2` give the lower bound 1 -/
theorem lob_bnd_wrong_for_m_2 :
    ((setup 1 (1/100) (fun _ => 0) (fun _ => 0) 3 2).bind fun D => (bnd1 3 2 D 3 (memOf [1, 0, 1]) 0 4 0 (fun _ => none)).map Prod.fst) = some (1, 1) := by
  decide +kernel

/-- **Finding** `lob_bnd_lin_3` with `ns*nt > ms*mt` (here n=3, m=2) overruns its output array: `work` of `2*mr*ms+2*nt*ms*mr` = 32 doubles at 0, output of `2*mr*ms*mt` = 16 doubles after it.
(In `lob_bnd_3` the output is followed by `work`, so that the overrun destroys data there instead.) -/
theorem lob_bnd_lin_3_overrun :
    ((setup 1 (1/100) (fun _ => 0) (fun _ => 0) 3 2).bind fun D => (lin3 3 2 D 3 2 D 3 2 D 27 (fun _ => some (0 : ℚ)) 0 1 48 32 0 (fun _ => none)).map fun _ => ()) = none := by
  decide +kernel

end Gslib.Props
