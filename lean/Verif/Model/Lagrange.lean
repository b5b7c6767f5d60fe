import Verif.Model.NumMem
import Mathlib.Algebra.Field.Defs

/-!
# Lagrange interpolation (poly.c)

`double` is replaced by a field (exact arithmetic). `data` holds `9n` doubles (poly.c:59-62 `lagrange_size`): `z`, `w`, `d`, `u0`, `v0`,
`u1`, `v1`, `u2`, `v2`; `p` has room for `pcap` doubles. Out-of-bounds and uninitialised accesses are `none`. With `n=0` the unsigned
`n-1` wraps and the code runs out of bounds: `none`.
-/

namespace Gslib.Poly
open Gslib.Num
variable {K : Type} [Field K]

/-- poly.c:59-62 `lagrange_size` -/
def lagrangeSize (n : Nat) : Nat := 9 * n

/-- poly.c:31 `for(i=0;i<n;++i) d[i]=2*(x-z[i]);` -/
def setD (cap n : Nat) (x : K) (m : Mem K) : Option (Mem K) :=
  forUp 0 n (fun i m => (rd cap m i).bind fun zi => wr cap m (2 * n + i) (2 * (x - zi))) m

/-- poly.c:32: `u0[0]=1; for(i=0;i<n-1;++i) u0[i+1]=u0[i]*d[i];` -/
def setU0 (cap n : Nat) (m : Mem K) : Option (Mem K) :=
  (wr cap m (3 * n) 1).bind fun m =>
  forUp 0 (n - 1) (fun i m => (rd cap m (3 * n + i)).bind fun u => (rd cap m (2 * n + i)).bind fun d =>
    wr cap m (3 * n + (i + 1)) (u * d)) m

/-- poly.c:33: `v0[n-1]=1; for(i=n-1;i;--i) v0[i-1]=d[i]*v0[i];` -/
def setV0 (cap n : Nat) (m : Mem K) : Option (Mem K) :=
  (wr cap m (4 * n + (n - 1)) 1).bind fun m =>
  forDown (n - 1) (fun i m => (rd cap m (2 * n + i)).bind fun d => (rd cap m (4 * n + i)).bind fun v =>
    wr cap m (4 * n + (i - 1)) (d * v)) m

/-- poly.c:37: `u1[0]=0; for(i=0;i<n-1;++i) u1[i+1]=u1[i]*d[i]+u0[i];` -/
def setU1 (cap n : Nat) (m : Mem K) : Option (Mem K) :=
  (wr cap m (5 * n) 0).bind fun m =>
  forUp 0 (n - 1) (fun i m => (rd cap m (5 * n + i)).bind fun u1 => (rd cap m (2 * n + i)).bind fun d =>
    (rd cap m (3 * n + i)).bind fun u0 => wr cap m (5 * n + (i + 1)) (u1 * d + u0)) m

/-- poly.c:38: `v1[n-1]=0; for(i=n-1;i;--i) v1[i-1]=d[i]*v1[i]+v0[i];` -/
def setV1 (cap n : Nat) (m : Mem K) : Option (Mem K) :=
  (wr cap m (6 * n + (n - 1)) 0).bind fun m =>
  forDown (n - 1) (fun i m => (rd cap m (2 * n + i)).bind fun d => (rd cap m (6 * n + i)).bind fun v1 =>
    (rd cap m (4 * n + i)).bind fun v0 => wr cap m (6 * n + (i - 1)) (d * v1 + v0)) m

/-- poly.c:42: `u2[0]=0; for(i=0;i<n-1;++i) u2[i+1]=u2[i]*d[i]+2*u1[i];` -/
def setU2 (cap n : Nat) (m : Mem K) : Option (Mem K) :=
  (wr cap m (7 * n) 0).bind fun m =>
  forUp 0 (n - 1) (fun i m => (rd cap m (7 * n + i)).bind fun u2 => (rd cap m (2 * n + i)).bind fun d =>
    (rd cap m (5 * n + i)).bind fun u1 => wr cap m (7 * n + (i + 1)) (u2 * d + 2 * u1)) m

/-- poly.c:43: `v2[n-1]=0; for(i=n-1;i;--i) v2[i-1]=d[i]*v2[i]+2*v1[i];` -/
def setV2 (cap n : Nat) (m : Mem K) : Option (Mem K) :=
  (wr cap m (8 * n + (n - 1)) 0).bind fun m =>
  forDown (n - 1) (fun i m => (rd cap m (2 * n + i)).bind fun d => (rd cap m (8 * n + i)).bind fun v2 =>
    (rd cap m (6 * n + i)).bind fun v1 => wr cap m (8 * n + (i - 1)) (d * v2 + 2 * v1)) m

/-- poly.c:34 `for(i=0;i<n;++i) p[i]=w[i]*u0[i]*v0[i];` -/
def setP0 (cap n pcap : Nat) (m p : Mem K) : Option (Mem K) :=
  forUp 0 n (fun i p => (rd cap m (n + i)).bind fun w => (rd cap m (3 * n + i)).bind fun u0 => (rd cap m (4 * n + i)).bind fun v0 =>
    wr pcap p i (w * u0 * v0)) p

/-- poly.c:39 `for(i=0;i<n;++i) p1[i]=2*w[i]*(u1[i]*v0[i]+u0[i]*v1[i]);` -/
def setP1 (cap n pcap : Nat) (m p : Mem K) : Option (Mem K) :=
  forUp 0 n (fun i p => (rd cap m (n + i)).bind fun w => (rd cap m (5 * n + i)).bind fun u1 => (rd cap m (4 * n + i)).bind fun v0 =>
    (rd cap m (3 * n + i)).bind fun u0 => (rd cap m (6 * n + i)).bind fun v1 =>
    wr pcap p (n + i) (2 * w * (u1 * v0 + u0 * v1))) p

/-- poly.c:44-45 `for(i=0;i<n;++i) p2[i]=4*w[i]*(u2[i]*v0[i]+2*u1[i]*v1[i]+u0[i]*v2[i]);` -/
def setP2 (cap n pcap : Nat) (m p : Mem K) : Option (Mem K) :=
  forUp 0 n (fun i p => (rd cap m (n + i)).bind fun w => (rd cap m (7 * n + i)).bind fun u2 => (rd cap m (4 * n + i)).bind fun v0 =>
    (rd cap m (5 * n + i)).bind fun u1 => (rd cap m (6 * n + i)).bind fun v1 => (rd cap m (3 * n + i)).bind fun u0 =>
    (rd cap m (8 * n + i)).bind fun v2 =>
    wr pcap p (2 * n + i) (4 * w * (u2 * v0 + 2 * u1 * v1 + u0 * v2))) p

/-- poly.c:25-48 `lagrange_eval`; the state is (`p`, `data`) -/
def lagrangeEval (cap pcap : Nat) (n : Nat) (der : Int) (x : K) (s : Mem K × Mem K) : Option (Mem K × Mem K) :=
  if n = 0 then none else
  (setD cap n x s.2).bind fun m => (setU0 cap n m).bind fun m => (setV0 cap n m).bind fun m =>
  (setP0 cap n pcap m s.1).bind fun p =>
  if der > 0 then
    (setU1 cap n m).bind fun m => (setV1 cap n m).bind fun m => (setP1 cap n pcap m p).bind fun p =>
    if der > 1 then
      (setU2 cap n m).bind fun m => (setV2 cap n m).bind fun m => (setP2 cap n pcap m p).bind fun p => some (p, m)
    else some (p, m)
  else some (p, m)

/-- poly.c:50-57 `lagrange_coef` with `w=data+n`; the nodes `z` are a separate array -/
def lagrangeCoef (cap pcap : Nat) (n : Nat) (z : Nat → K) (s : Mem K × Mem K) : Option (Mem K × Mem K) :=
  (forUp 0 n (fun i m => wr cap m (n + i) 1) s.2).bind fun m =>
  forUp 0 n (fun i s => (lagrangeEval cap pcap n 0 (z i) s).bind fun s => (rd pcap s.1 i).bind fun pi =>
    (wr cap s.2 (n + i) (1 / pi)).bind fun m => some (s.1, m)) (s.1, m)

/-- poly.c:64-72 `lagrange_setup`: `data` (of `9n` uninitialised doubles) after the call; `p` is malloc'ed with `n` entries -/
def lagrangeSetup (n : Nat) (z : Nat → K) : Option (Mem K) :=
  (lagrangeCoef (lagrangeSize n) n n z (fun _ => none, fun i => if i < n then some (z i) else none)).map Prod.snd

end Gslib.Poly
