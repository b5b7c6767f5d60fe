import Verif.Model.Lagrange

/-!
# Histories of Lagrange evaluations

A call of the evaluation function: an output array with room for `pcap` doubles, the number of derivatives `der`, and the point `x`.
The caller provides `n` doubles for the values, `2n` if `der=1` and `3n` if `der>=2`.
-/

namespace Gslib.Spec
open Gslib.Num Gslib.Poly
variable {K : Type} [Field K]

/-- one call -/
structure LagCall (K : Type) where
  /-- doubles available in `p` -/
  pcap : Nat
  /-- `p` before the call -/
  p : Mem K
  /-- derivatives wanted -/
  der : Int
  /-- evaluation point -/
  x : K

/-- the output array is large enough -/
def LagCall.Ok (n : Nat) (c : LagCall K) : Prop := n ≤ c.pcap ∧ (1 ≤ c.der → 2 * n ≤ c.pcap) ∧ (2 ≤ c.der → 3 * n ≤ c.pcap)

/-- the contents of `p` after one call, and the work array after it -/
def lagRun (n : Nat) (m : Mem K) (c : LagCall K) : Option (Mem K × Mem K) := lagrangeEval (lagrangeSize n) c.pcap n c.der c.x (c.p, m)

/-- the work array after a history of calls -/
def lagRunAll (n : Nat) : List (LagCall K) → Mem K → Option (Mem K)
  | [], m => some m
  | c :: cs, m => (lagRun n m c).bind fun r => lagRunAll n cs r.2

/-- `lagrange_setup` on nodes `z`, the history `hist`, and then the call `c`: the contents of `p` -/
def lagResult (n : Nat) (z : Nat → K) (hist : List (LagCall K)) (c : LagCall K) : Option (Mem K) :=
  (lagrangeSetup n z).bind fun m => (lagRunAll n hist m).bind fun m => (lagRun n m c).map Prod.fst

/-- the value of an initialised entry -/
def val (m : Mem K) (i : Nat) : K := (m i).getD 0

end Gslib.Spec
