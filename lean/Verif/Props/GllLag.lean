import Verif.Lemmas.GllRun
import Verif.Spec.Lagrange
import Verif.Props.Quad
import Verif.Props.Lagrange

/-!
# C52: Lagrange functions on Lobatto nodes
-/

namespace Gslib.Spec
open Gslib.Num Gslib.Poly
variable {K : Type} [Field K] [LinearOrder K]

/-- one call of the function returned by `gll_lag_setup` -/
def gllRun (n : Nat) (m : Mem K) (c : LagCall K) : Option (Mem K × Mem K) := gllEval n c.pcap c.der c.x (c.p, m)

/-- `data` after a history of calls -/
def gllRunAll (n : Nat) : List (LagCall K) → Mem K → Option (Mem K)
  | [], m => some m
  | c :: cs, m => (gllRun n m c).bind fun r => gllRunAll n cs r.2

/-- `gll_lag_setup`, the history `hist`, and then the call `c`: the contents of `p` -/
def gllResult (fuel : Nat) (eps : K) (guess : Nat → K) (n : Nat) (hist : List (LagCall K)) (c : LagCall K) : Option (Mem K) :=
  (gllLagSetup fuel eps guess n).bind fun m => (gllRunAll n hist m).bind fun m => (gllRun n m c).map Prod.fst

end Gslib.Spec

namespace Gslib.Props
open Gslib.Poly Gslib.Spec Gslib.Num Polynomial

theorem fixVal_rat_step : ∀ n < 25, ∀ i < n - 1, fixVal (K := ℚ) n i < fixVal n (i + 1) := by decide +kernel

variable {K : Type} [Field K] [LinearOrder K] [IsStrictOrderedRing K]

theorem fixVal_cast (n i : Nat) : fixVal (K := K) n i = ((fixVal (K := ℚ) n i : ℚ) : K) := by
  unfold fixVal gllzVal
  split_ifs <;> simp

theorem fixVal_mono (n : Nat) (hn : n ≤ 24) (i j : Nat) (hij : i < j) (hj : j < n) : fixVal (K := K) n i < fixVal n j := by
  induction j with
  | zero => omega
  | succ j ih =>
    have hs : fixVal (K := K) n j < fixVal n (j + 1) := by
      rw [fixVal_cast, fixVal_cast n (j + 1)]
      exact_mod_cast fixVal_rat_step n (by omega) j (by omega)
    by_cases h : i = j
    · subst h; exact hs
    · exact lt_trans (ih (by omega) (by omega)) hs

/-- **C52** for `2<=n<=24` the stored Lobatto nodes increase strictly from -1 to 1 -/
theorem lobatto_nodes_increasing (cap fuel n : Nat) (eps : K) (guess : Nat → K) (z : Mem K) (hc : n ≤ cap) (hn : 2 ≤ n) (hn' : n ≤ 24) :
    ∃ (z' : Mem K) (v : Nat → K), lobattoNodes cap fuel eps guess n z = some z' ∧ (∀ i < n, z' i = some (v i)) ∧ (∀ i j, i < j → j < n → v i < v j) ∧
      v 0 = -1 ∧ v (n - 1) = 1 := by
  obtain ⟨z1, e, h1, h2⟩ := lobattoFix_run cap n z hn (by omega) hc
  refine ⟨z1, fixVal n, by rw [lobattoNodes, if_neg (by omega), if_pos hn, e], has_zero h1, fixVal_mono n hn', ?_, ?_⟩
  · simp [fixVal]
  · rw [fixVal, if_neg (by omega), if_pos rfl]

theorem gllRunAll_run {n : Nat} (hn : 2 ≤ n) {z w : Nat → K} (hz : n ≤ 24 → z = fixVal n) : ∀ (hist : List (LagCall K)),
    (∀ c ∈ hist, c.Ok n) → ∀ m, GData n z w m → ∃ m', gllRunAll n hist m = some m' ∧ GData n z w m'
  | [], _, m, h => ⟨m, rfl, h⟩
  | c :: cs, hc, m, h => by
      obtain ⟨p', m', e, h', -⟩ := gllEval_run hn c.der (LagCall.rows_le (hc c (by simp))) c.x hz (p := c.p) h
      obtain ⟨m'', e', h''⟩ := gllRunAll_run hn hz cs (fun c hc' => hc c (by simp [hc'])) m' h'
      refine ⟨m'', ?_, h''⟩
      rw [gllRunAll, gllRun, e]; exact e'

/-- **C52** `gll_lag_setup` and any history of calls of the function it returns: if `lobatto_nodes` returns distinct nodes `v` (always so for
`n<=24`, next theorem), every call is free of out-of-bounds and uninitialised accesses within `gll_lag_size(n)` doubles of data and stores
the Lagrange basis polynomials of the nodes at `x`, their first derivatives if `der>=1`, second derivatives if `der>=2` -/
theorem gll_lag_correct {fuel n : Nat} {eps : K} {guess : Nat → K} (hn : 2 ≤ n) {z : Mem K} {v : Nat → K}
    (hl : lobattoNodes n fuel eps guess n (fun _ => none) = some z) (hv : ∀ i < n, z i = some (v i))
    (hd : ∀ i < n, ∀ j < n, v i = v j → i = j)
    {hist : List (LagCall K)} (hh : ∀ c ∈ hist, c.Ok n) {c : LagCall K} (hc : c.Ok n) :
    ∃ p, gllResult fuel eps guess n hist c = some p ∧
      (∀ i < n, p i = some ((Lagrange.basis (Finset.range n) v i).eval c.x)) ∧
      (1 ≤ c.der → ∀ i < n, p (n + i) = some ((derivative (Lagrange.basis (Finset.range n) v i)).eval c.x)) ∧
      (2 ≤ c.der → ∀ i < n, p (2 * n + i) = some ((derivative (derivative (Lagrange.basis (Finset.range n) v i))).eval c.x)) ∧
      (∀ k, n ≤ k → (1 ≤ c.der → 2 * n ≤ k) → (2 ≤ c.der → 3 * n ≤ k) → p k = c.p k) := by
  -- replace `v` by a function that agrees on the nodes and is the table outside
  obtain ⟨v', hv', hvv⟩ : ∃ v' : Nat → K, (n ≤ 24 → v' = fixVal n) ∧ ∀ i < n, v i = v' i := by
    by_cases h24 : n ≤ 24
    · obtain ⟨z1, e, h1, -⟩ := lobattoFix_run (K := K) n n (fun _ => none) hn h24 (Nat.le_refl _)
      refine ⟨fixVal n, fun _ => rfl, fun i hi => ?_⟩
      have : z = z1 := by
        rw [lobattoNodes, if_neg (by omega), if_pos hn, e] at hl; exact (Option.some.inj hl).symm
      subst this
      have := has_zero h1 i hi
      rw [hv i hi] at this; exact Option.some.inj this
    · exact ⟨v, fun h => absurd h h24, fun _ _ => rfl⟩
  have hz' : Has z 0 n v' := fun i hi => by rw [Nat.zero_add, hv i hi, hvv i hi]
  have hd' : ∀ i < n, ∀ j < n, v' i = v' j → i = j := fun i hi j hj e => hd i hi j hj (by rw [hvv i hi, hvv j hj, e])
  have hbas : ∀ i < n, Lagrange.basis (Finset.range n) v i = Lagrange.basis (Finset.range n) v' i := by
    intro i hi
    unfold Lagrange.basis
    refine Finset.prod_congr rfl fun j hj => ?_
    rw [hvv i hi, hvv j (by simpa using (Finset.mem_erase.mp hj).2)]
  have h2 : (2 : K) ≠ 0 := two_ne_zero
  obtain ⟨m0, e0, h0⟩ := gllSetup_run fuel eps guess n hn z v' hv' hz' hl
  obtain ⟨m1, e1, h1⟩ := gllRunAll_run hn hv' hist hh m0 h0
  obtain ⟨p', m', e, -, r0, r1, r2, ro⟩ := gllEval_run hn c.der (LagCall.rows_le hc) c.x hv' (p := c.p) h1
  refine ⟨p', ?_, ?_, ?_, ?_, ?_⟩
  · rw [gllResult, e0]
    simp only [Option.bind_some, e1, gllRun, e, Option.map_some]
  · intro i hi
    have := r0 i hi
    rw [Nat.zero_add] at this
    rw [this, (rows_basis n v' h2 hd' c.x i hi).1, hbas i hi]
  · intro hd i hi
    rw [r1 (by omega) i hi, (rows_basis n v' h2 hd' c.x i hi).2.1, hbas i hi]
  · intro hd i hi
    rw [r2 (by omega) i hi, (rows_basis n v' h2 hd' c.x i hi).2.2, hbas i hi]
  · intro k hk hk1 hk2
    refine ro k (Or.inr ?_)
    unfold rows
    split_ifs with h h'
    · have := hk2 (by omega); omega
    · have := hk1 (by omega); omega
    · omega

/-- **C52** for `2<=n<=24`, unconditionally: the unrolled functions interpolate exactly every polynomial of degree below `n`, with its first
and second derivatives, from its values at the nodes `lobatto_nodes` stores -/
theorem gll_lag_interpolates {fuel n : Nat} {eps : K} {guess : Nat → K} (hn : 2 ≤ n) (hn' : n ≤ 24)
    {hist : List (LagCall K)} (hh : ∀ c ∈ hist, c.Ok n) {c : LagCall K} (hc : c.Ok n) :
    ∃ (z : Mem K) (v : Nat → K) (p : Mem K), lobattoNodes n fuel eps guess n (fun _ => none) = some z ∧ (∀ i < n, z i = some (v i)) ∧
      gllResult fuel eps guess n hist c = some p ∧ ∀ q : K[X], q.degree < n →
      ∑ i ∈ Finset.range n, val p i * q.eval (v i) = q.eval c.x ∧
      (1 ≤ c.der → ∑ i ∈ Finset.range n, val p (n + i) * q.eval (v i) = (derivative q).eval c.x) ∧
      (2 ≤ c.der → ∑ i ∈ Finset.range n, val p (2 * n + i) * q.eval (v i) = (derivative (derivative q)).eval c.x) := by
  obtain ⟨z, v, hl, hv, hm, -⟩ := lobatto_nodes_increasing (K := K) n fuel n eps guess (fun _ => none) (Nat.le_refl _) hn hn'
  have hd : ∀ i < n, ∀ j < n, v i = v j → i = j := by
    intro i hi j hj e
    rcases Nat.lt_trichotomy i j with h | h | h
    · exact absurd e (ne_of_lt (hm i j h hj))
    · exact h
    · exact absurd e.symm (ne_of_lt (hm j i h hi))
  obtain ⟨p, e, h0, h1, h2, -⟩ := gll_lag_correct hn hl hv hd hh hc
  have hinj : Set.InjOn v (Finset.range n : Set Nat) := fun a ha b hb hab => hd a (by simpa using ha) b (by simpa using hb) hab
  refine ⟨z, v, p, hl, hv, e, fun q hq => ⟨?_, fun hder => ?_, fun hder => ?_⟩⟩
  · conv_rhs => rw [Lagrange.eq_interpolate hinj (f := q) (by simpa using hq), Lagrange.interpolate_apply, eval_finsetSum]
    refine Finset.sum_congr rfl fun i hi => ?_
    rw [val, h0 i (Finset.mem_range.mp hi), Option.getD_some, eval_mul, eval_C, mul_comm]
  · conv_rhs => rw [Lagrange.eq_interpolate hinj (f := q) (by simpa using hq), Lagrange.interpolate_apply, derivative_sum, eval_finsetSum]
    refine Finset.sum_congr rfl fun i hi => ?_
    rw [val, h1 hder i (Finset.mem_range.mp hi), Option.getD_some, derivative_C_mul, eval_mul, eval_C, mul_comm]
  · conv_rhs => rw [Lagrange.eq_interpolate hinj (f := q) (by simpa using hq), Lagrange.interpolate_apply, derivative_sum, derivative_sum, eval_finsetSum]
    refine Finset.sum_congr rfl fun i hi => ?_
    rw [val, h2 hder i (Finset.mem_range.mp hi), Option.getD_some, derivative_C_mul, derivative_C_mul, eval_mul, eval_C, mul_comm]

end Gslib.Props
