import Verif.Lemmas.Quad
import Verif.Props.Legendre
import Mathlib.Algebra.Order.Ring.Abs
import Mathlib.Data.Rat.Cast.CharZero

/-!
# C35: quadrature nodes and weights
-/

namespace Gslib.Spec
open Gslib.Num
variable {K : Type} [Field K]

/-- the first `n` entries are initialised with `v`, antisymmetric about the middle, and the middle one is zero for odd `n` -/
structure SymNodes (n : Nat) (z : Mem K) (v : Nat → K) : Prop where
  filled : ∀ i < n, z i = some (v i)
  sym : ∀ i < n, v (n - 1 - i) = -v i
  mid : n % 2 = 1 → v (n / 2) = 0

/-- `r` results from a Newton iteration for `f` (derivative `df`) that was stopped by the test `|x-ox| <= -x*eps` -/
def NewtonResult (f df : K → K) [LinearOrder K] (eps r : K) : Prop :=
  ∃ ox x, df ox ≠ 0 ∧ x = ox - f ox / df ox ∧ |x - ox| ≤ -x * eps ∧ df x ≠ 0 ∧ r = x - f x / df x

end Gslib.Spec

namespace Gslib.Props
open Gslib.Poly Gslib.Spec Gslib.Num Polynomial
variable {K : Type} [Field K] [LinearOrder K] [IsStrictOrderedRing K]

theorem halfVal_mid (n : Nat) (r : Nat → K) (h : n % 2 = 1) : halfVal n r (n / 2) = 0 := by
  unfold halfVal; split_ifs <;> first | omega | rfl

theorem has_zero {z : Mem K} {n : Nat} {v : Nat → K} (h : Has z 0 n v) : ∀ i < n, z i = some (v i) :=
  fun i hi => by have := h i hi; rwa [Nat.zero_add] at this

/-- **C35** whenever `gauss_nodes` returns, all `n` nodes are stored, antisymmetric with an exact zero in the middle for odd `n`, the first
half are results of the Newton iteration for the Legendre polynomial, and nothing else is written -/
theorem gauss_nodes_symmetric (cap fuel n : Nat) (eps : K) (guess : Nat → K) (z z' : Mem K) (hc : n ≤ cap)
    (h : gaussNodes cap fuel eps guess n z = some z') :
    ∃ v, SymNodes n z' v ∧
      (∀ i < n / 2, NewtonResult (fun x => (legendreP K n).eval x) (fun x => (derivative (legendreP K n)).eval x) eps (v i)) ∧
      ∀ k, n ≤ k → z' k = z k := by
  have hr := halfNodes_none _ _ _ _ _ _ h
  choose! r hr using hr
  obtain ⟨z1, e, h1, h2⟩ := halfNodes_run cap 0 n _ r hr z (by omega)
  have : z' = z1 := by
    have h' : halfNodes cap 0 n _ z = some z' := h
    rw [e] at h'; exact (Option.some.inj h').symm
  subst this
  refine ⟨halfVal n r, ⟨has_zero h1, halfVal_sym n r, halfVal_mid n r⟩, ?_, fun k hk => h2 k (by omega)⟩
  intro i hi
  have hn0 : 0 < n := by omega
  obtain ⟨ox, x, d0, e1, e2, d1, e3⟩ := newton_spec _ _ _ _ _ _ (hr i hi)
  refine ⟨ox, x, ?_, ?_, e2, ?_, ?_⟩
  · rwa [legendre_d1_correct n hn0] at d0
  · rw [e1, legendre_correct, legendre_d1_correct n hn0]
  · rwa [legendre_d1_correct n hn0] at d1
  · rw [halfVal, if_pos hi, e3, legendre_correct, legendre_d1_correct n hn0]

/-- values stored by `lobatto_nodes_n` -/
def lobVal (n : Nat) (r : Nat → K) (i : Nat) : K := if i = 0 then -1 else if i = n - 1 then 1 else halfVal (n - 2) r (i - 1)

theorem lobVal_sym (n : Nat) (hn : 2 ≤ n) (r : Nat → K) (i : Nat) (hi : i < n) : lobVal n r (n - 1 - i) = -lobVal n r i := by
  unfold lobVal
  split_ifs <;> first | omega | simp | skip
  rw [← halfVal_sym (n - 2) r (i - 1) (by omega), show n - 2 - 1 - (i - 1) = n - 1 - i - 1 by omega]

/-- **C35** `lobatto_nodes` (`n>=2`): all `n` nodes stored, antisymmetric, end points exactly -1 and 1, exact zero in the middle for odd `n`;
nothing else is written. For `n<=24` it always returns. -/
theorem lobatto_nodes_symmetric (cap fuel n : Nat) (eps : K) (guess : Nat → K) (z : Mem K) (hc : n ≤ cap) (hn : 2 ≤ n) :
    (n ≤ 24 → ∃ z', lobattoNodes cap fuel eps guess n z = some z') ∧
    ∀ z', lobattoNodes cap fuel eps guess n z = some z' →
      ∃ v, SymNodes n z' v ∧ v 0 = -1 ∧ v (n - 1) = 1 ∧
      (24 < n → ∀ i, 1 ≤ i → i < n / 2 → NewtonResult (fun x => (derivative (legendreP K (n - 1))).eval x)
        (fun x => (derivative (derivative (legendreP K (n - 1)))).eval x) eps (v i)) ∧
      ∀ k, n ≤ k → z' k = z k := by
  by_cases hb : 24 < n
  · refine ⟨fun h => absurd h (by omega), fun z' h => ?_⟩
    rw [lobattoNodes, if_pos hb, lobattoNodesN, wr_some (by omega), Option.bind_some, wr_some (by omega), Option.bind_some] at h
    have hr := halfNodes_none _ _ _ _ _ _ h
    choose! r hr using hr
    obtain ⟨z1, e, h1, h2⟩ := halfNodes_run cap 1 (n - 2) _ r hr (fun k => if k = n - 1 then some 1 else if k = 0 then some (-1) else z k) (by omega)
    have : z' = z1 := by
      have h' : halfNodes cap 1 (n - 2) _ _ = some z' := h
      rw [e] at h'; exact (Option.some.inj h').symm
    subst this
    refine ⟨lobVal n r, ⟨?_, lobVal_sym n hn r, ?_⟩, ?_, ?_, ?_, ?_⟩
    · intro i hi
      unfold lobVal
      split_ifs with ha hb'
      · rw [h2 i (by omega)]
        show (if i = n - 1 then _ else if i = 0 then _ else _) = _
        rw [if_neg (by omega), if_pos ha]
      · rw [h2 i (by omega)]
        show (if i = n - 1 then _ else _) = _
        rw [if_pos hb']
      · have := h1 (i - 1) (by omega)
        rwa [show 1 + (i - 1) = i by omega] at this
    · intro ho
      rw [lobVal, if_neg (by omega), if_neg (by omega), show n / 2 - 1 = (n - 2) / 2 by omega]
      exact halfVal_mid _ _ (by omega)
    · simp [lobVal]
    · rw [lobVal, if_neg (by omega), if_pos rfl]
    · intro _ i hi hi'
      obtain ⟨ox, x, d0, e1, e2, d1, e3⟩ := newton_spec _ _ _ _ _ _ (hr (i - 1) (by omega))
      rw [show n - 2 + 1 = n - 1 by omega] at e1 e3 d0 d1
      refine ⟨ox, x, ?_, ?_, e2, ?_, ?_⟩
      · rwa [legendre_d2_correct _ (by omega)] at d0
      · rw [e1, legendre_d1_correct _ (by omega), legendre_d2_correct _ (by omega)]
      · rwa [legendre_d2_correct _ (by omega)] at d1
      · rw [lobVal, if_neg (by omega), if_neg (by omega), halfVal, if_pos (by omega), e3, legendre_d1_correct _ (by omega),
          legendre_d2_correct _ (by omega)]
    · intro k hk
      rw [h2 k (by omega)]
      show (if k = n - 1 then _ else if k = 0 then _ else _) = _
      rw [if_neg (by omega), if_neg (by omega)]
  · obtain ⟨z1, e, h1, h2⟩ := lobattoFix_run cap n z hn (by omega) hc
    have e' : lobattoNodes cap fuel eps guess n z = some z1 := by rw [lobattoNodes, if_neg hb, if_pos hn, e]
    refine ⟨fun _ => ⟨z1, e'⟩, fun z' h => ?_⟩
    have : z' = z1 := by rw [e'] at h; exact (Option.some.inj h).symm
    subst this
    refine ⟨fixVal n, ⟨has_zero h1, fun i hi => fixVal_sym n i hn hi, ?_⟩, ?_, ?_, fun h => absurd h hb, fun k hk => h2 k (by omega)⟩
    · intro ho
      unfold fixVal; split_ifs <;> first | omega | rfl
    · simp [fixVal]
    · rw [fixVal, if_neg (by omega), if_pos rfl]

theorem weights_run (cap n : Nat) (hn : 0 < n) (hc : n ≤ cap) (z w : Mem K) (v : Nat → K) (hv : SymNodes n z v) (g : K → K)
    (hg : ∀ x, g (-x) = g x) (f : Nat → Mem K → Option (Mem K))
    (hf : ∀ i < n, ∀ w, f i w = (rd cap z i).bind fun zi => wr cap w i (g zi)) :
    ∃ w', ((forUp 0 ((n - 1) / 2 + 1) f w).bind fun w => (mirror cap 0 n id w).map fun w => (z, w)) = some (z, w') ∧
      (∀ i < n, w' i = some (g (v i))) ∧ ∀ k, n ≤ k → w' k = w k := by
  obtain ⟨w1, e1, h1, o1⟩ := fillUp cap 0 ((n - 1) / 2 + 1) (fun i => g (v i)) f w (by omega) (fun i hi m' _ _ => by
    rw [hf i (by omega), rd, if_pos (by omega), hv.filled i (by omega), Option.bind_some, Nat.zero_add])
  obtain ⟨w2, e2, o2, h2⟩ := mirror_run cap 0 n id w1 (fun i => g (v i)) (by omega) (fun i hi => h1 i (by omega))
  refine ⟨w2, by rw [e1, Option.bind_some, e2]; rfl, ?_, ?_⟩
  · intro i hi
    by_cases hi' : i < (n + 1) / 2
    · rw [o2 i (by omega)]
      have := h1 i (by omega)
      rwa [Nat.zero_add] at this
    · have := h2 (n - 1 - i) (by omega)
      rw [Nat.zero_add, show n - 1 - (n - 1 - i) = i by omega] at this
      rw [this, id, hv.sym i hi, hg]
  · intro k hk
    rw [o2 k (by omega), o1 k (by omega)]

theorem legendre_sq_even (m : Nat) (x : K) : legendre m (-x) * legendre m (-x) = legendre m x * legendre m x := by
  rw [legendre_parity]
  have : ((-1 : K) ^ m) * (-1) ^ m = 1 := by rw [← pow_add, ← two_mul, pow_mul]; simp
  linear_combination (legendre m x * legendre m x) * this

/-- **C35** whenever `gauss_quad` returns (`n>=1`), nodes are as in `gauss_nodes`, and all `n` weights, including the mirrored ones, are
`2(1-z²)/((n+1)P_{n+1}(z))²` at their node; so they are symmetric -/
theorem gauss_quad_symmetric (cap fuel n : Nat) (eps : K) (guess : Nat → K) (z w z' w' : Mem K) (hc : n ≤ cap) (hn : 0 < n)
    (h : gaussQuad cap fuel eps guess n z w = some (z', w')) :
    ∃ v u : Nat → K, SymNodes n z' v ∧ (∀ i < n, w' i = some (u i)) ∧ (∀ i < n, u (n - 1 - i) = u i) ∧
      (∀ i < n, u i = 2 * (1 - v i ^ 2) / (((n : K) + 1) * (legendreP K (n + 1)).eval (v i)) ^ 2) ∧ ∀ k, n ≤ k → w' k = w k := by
  unfold gaussQuad at h
  cases hz : gaussNodes cap fuel eps guess n z with
  | none => rw [hz] at h; simp at h
  | some z1 =>
    rw [hz, Option.bind_some] at h
    obtain ⟨v, hv, -⟩ := gauss_nodes_symmetric cap fuel n eps guess z z1 hc hz
    have hg : ∀ x : K, (fun x => 2 * (1 - x * x) / (((n : K) + 1) * legendre (n + 1) x * (((n : K) + 1) * legendre (n + 1) x))) (-x) =
        (fun x => 2 * (1 - x * x) / (((n : K) + 1) * legendre (n + 1) x * (((n : K) + 1) * legendre (n + 1) x))) x := by
      intro x
      dsimp only
      have := legendre_sq_even (n + 1) x
      congr 1
      · ring
      · linear_combination ((n : K) + 1) ^ 2 * this
    obtain ⟨w2, e, h1, h2⟩ := weights_run cap n hn hc z1 w v hv
      (fun x => 2 * (1 - x * x) / (((n : K) + 1) * legendre (n + 1) x * (((n : K) + 1) * legendre (n + 1) x))) hg _ (fun i hi w => rfl)
    have h' : some (z1, w2) = some (z', w') := by rw [← e]; exact h
    simp only [Option.some.injEq, Prod.mk.injEq] at h'
    obtain ⟨rfl, rfl⟩ := h'
    refine ⟨v, _, hv, h1, ?_, ?_, h2⟩
    · intro i hi; rw [hv.sym i hi]; exact hg (v i)
    · intro i hi; rw [legendre_correct, pow_two, pow_two]

/-- **C35** the same for `lobatto_quad` (`n>=2`), with weights `2/((n-1) n P_{n-1}(z)²)` -/
theorem lobatto_quad_symmetric (cap fuel n : Nat) (eps : K) (guess : Nat → K) (z w z' w' : Mem K) (hc : n ≤ cap) (hn : 2 ≤ n)
    (h : lobattoQuad cap fuel eps guess n z w = some (z', w')) :
    ∃ v u : Nat → K, SymNodes n z' v ∧ v 0 = -1 ∧ v (n - 1) = 1 ∧ (∀ i < n, w' i = some (u i)) ∧ (∀ i < n, u (n - 1 - i) = u i) ∧
      (∀ i < n, u i = 2 / (((n : K) - 1) * n * (legendreP K (n - 1)).eval (v i) ^ 2)) ∧ ∀ k, n ≤ k → w' k = w k := by
  unfold lobattoQuad at h
  cases hz : lobattoNodes cap fuel eps guess n z with
  | none => rw [hz] at h; simp at h
  | some z1 =>
    rw [hz, Option.bind_some] at h
    obtain ⟨v, hv, ha, hb, -⟩ := (lobatto_nodes_symmetric cap fuel n eps guess z hc hn).2 z1 hz
    have hg : ∀ x : K, (fun x => 2 / (((n : K) - 1) * n * legendre (n - 1) x * legendre (n - 1) x)) (-x) =
        (fun x => 2 / (((n : K) - 1) * n * legendre (n - 1) x * legendre (n - 1) x)) x := by
      intro x
      dsimp only
      have := legendre_sq_even (n - 1) x
      congr 1
      linear_combination ((n : K) - 1) * n * this
    obtain ⟨w2, e, h1, h2⟩ := weights_run cap n (by omega) hc z1 w v hv
      (fun x => 2 / (((n : K) - 1) * n * legendre (n - 1) x * legendre (n - 1) x)) hg _ (fun i hi w => rfl)
    have h' : some (z1, w2) = some (z', w') := by rw [← e]; exact h
    simp only [Option.some.injEq, Prod.mk.injEq] at h'
    obtain ⟨rfl, rfl⟩ := h'
    refine ⟨v, _, hv, ha, hb, h1, ?_, ?_, h2⟩
    · intro i hi; rw [hv.sym i hi]; exact hg (v i)
    · intro i hi; rw [legendre_correct, pow_two, ← mul_assoc]

/-- a run of `gauss_nodes` with `n=2` that returns -/
theorem gauss_nodes_example : ∃ z', gaussNodes (K := ℚ) 2 1 1 (fun _ => -1 / 2) 2 (fun _ => none) = some z' := by
  have hr : newton (legendre 2) (legendreD1 2) (1 : ℚ) 1 (-1 / 2) = some (-97 / 168) := by
    have hl : ∀ x : ℚ, legendre 2 x = (3 * x * x - 1) / 2 := by
      intro x
      have h := legendre_recurrence 0 x
      rw [legendre_correct 1, legendre_correct 0, legP_one, legP_zero, eval_X, eval_one] at h
      norm_num at h
      linear_combination h / 2
    have hd : ∀ x : ℚ, legendreD1 2 x = 3 * x := by
      intro x; rw [legendre_d1_correct 2 (by omega), legP_two, eval_mul, eval_C, eval_X]
    norm_num [newton, newtonLoop, hl, hd, abs_le]
  obtain ⟨z', e, -⟩ := halfNodes_run (K := ℚ) 2 0 2 (fun _ => newton (legendre 2) (legendreD1 2) (1 : ℚ) 1 (-1 / 2)) (fun _ => -97 / 168)
    (fun i _ => hr) (fun _ => none) (by omega)
  exact ⟨z', e⟩

/-- `lobatto_quad` with `n=1` (accepted by the interface) reads an uninitialised node -/
theorem lobatto_quad_one_uninit (fuel : Nat) (eps : K) (guess : Nat → K) (w : Mem K) :
    lobattoQuad 1 fuel eps guess 1 (fun _ => none) w = none := by
  simp [lobattoQuad, lobattoNodes, forUp, rd]

end Gslib.Props
