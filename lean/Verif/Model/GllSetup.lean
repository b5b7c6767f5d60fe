import Verif.Model.GllLag
import Verif.Model.Lagrange
import Verif.Model.Quad

/-!
# Set-up and evaluation of the Lagrange basis on Lobatto nodes (poly.c:217-239)

The state of an evaluation is (`p`, `data`). For `n<=24` (`GLL_LAG_FIX_MAX`) `data` holds only the `n` scale factors and the function is one
of the unrolled ones; otherwise `data` holds `9n` doubles and the function is `lagrange_eval`.
-/

namespace Gslib.Poly
open Gslib.Num
variable {K : Type} [Field K]

/-- poly.c:217-220 `gll_lag_size` -/
def gllLagSize (n : Nat) : Nat := (if n ≤ 24 then 1 else 9) * n

/-- reading `w[0..n)` -/
def readRow (cap : Nat) (m : Mem K) : Nat → Option (List K)
  | 0 => some []
  | n + 1 => (readRow cap m n).bind fun l => (rd cap m n).map fun v => l ++ [v]

/-- storing a row at `p+off` -/
def storeRow (pcap off : Nat) (l : List K) (p : Mem K) : Option (Mem K) :=
  forUp 0 l.length (fun i p => wr pcap p (off + i) (l.getD i 0)) p

/-- poly_imp.h: a call of `gll_lag_n(p,data,n,der,x)`. `p` and `data` are `restrict`, so reading all of `w` before storing is the same. -/
def gllFixedEval (cap pcap n : Nat) (der : Int) (x : K) (s : Mem K × Mem K) : Option (Mem K × Mem K) :=
  (readRow cap s.2 n).bind fun w =>
  let rows := gllLag n (fun i => (((gllz n).getD i 0 : Rat) : K)) (fun i => w.getD i 0) x
  (storeRow pcap 0 rows.1 s.1).bind fun p =>
  (if der > 0 then storeRow pcap n rows.2.1 p else some p).bind fun p =>
  (if der > 1 then storeRow pcap (2 * n) rows.2.2 p else some p).map fun p => (p, s.2)

/-- the function `gll_lag_setup` returns: poly.c:229-232 -/
def gllEval (n : Nat) (pcap : Nat) (der : Int) (x : K) (s : Mem K × Mem K) : Option (Mem K × Mem K) :=
  if n ≤ 24 then gllFixedEval (gllLagSize n) pcap n der x s else lagrangeEval (gllLagSize n) pcap n der x s

variable [LinearOrder K]

/-- poly.c:222-236 `gll_lag_setup` for `n>=2` (it returns null otherwise): `data` after the call. `p` has `2n` doubles (line 227); for
`n<=24` the nodes are stored in its second half (line 229), otherwise at the start of `data` (line 231). `lobatto_nodes` fills an array of
its own here, which is then placed there. Lines 50-57 `lagrange_coef` set all scale factors to 1, then evaluate at every node. -/
def gllLagSetup (fuel : Nat) (eps : K) (guess : Nat → K) (n : Nat) : Option (Mem K) :=
  let cap := gllLagSize n
  let wOff := if n ≤ 24 then 0 else n
  (lobattoNodes n fuel eps guess n (fun _ => none)).bind fun z =>
  let p0 : Mem K := fun k => if n ≤ 24 then (if n ≤ k ∧ k < 2 * n then z (k - n) else none) else none
  let m0 : Mem K := fun k => if n ≤ 24 then none else if k < n then z k else none
  (forUp 0 n (fun i m => wr cap m (wOff + i) 1) m0).bind fun m =>
  (forUp 0 n (fun i (s : Mem K × Mem K) =>
    (if n ≤ 24 then rd (2 * n) s.1 (n + i) else rd cap s.2 i).bind fun zi =>
    (gllEval n (2 * n) 0 zi s).bind fun s => (rd (2 * n) s.1 i).bind fun pi =>
    (wr cap s.2 (wOff + i) (1 / pi)).map fun m => (s.1, m)) (p0, m)).map Prod.snd

end Gslib.Poly
