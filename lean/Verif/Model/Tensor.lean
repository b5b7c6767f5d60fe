import Mathlib.Algebra.Ring.Defs

/-!
# Tensor kernels (tensor.c, tensor.h)

An array of doubles is the list of its entries from the pointer on (`p+k` is `List.drop k`); reading or writing past the end is `none`.
`double` is replaced by a commutative semiring (exact arithmetic). Sizes are natural numbers: products such as `nr*ns` are assumed not
to wrap in `uint`. A kernel's output region is disjoint from what it reads (`restrict`), so a kernel returns the values it stores. `tensor_mxm`, `tensor_mxv`, `tensor_mtxv` are the versions of tensor.c compiled with `GSLIB_USE_NAIVE_BLAS`; the
default build calls an external Fortran `mxm` with the same meaning (tensor.h:54-74), which is not in the repository.
-/

namespace Gslib.Tensor
variable {K : Type} [CommSemiring K]

/-- tensor.c:12-17 `tensor_dot`, the loop with its accumulator -/
def dotLoop : List K → List K → Nat → K → Option K
  | _, _, 0, sum => some sum
  | a :: as, b :: bs, n + 1, sum => dotLoop as bs n (sum + a * b)
  | _, _, _ + 1, _ => none

/-- tensor.c:12-17 `tensor_dot` -/
def dot (a b : List K) (n : Nat) : Option K := dotLoop a b n 0

/-- tensor.c:62 (also 33): `for(i=0;i<nc;++i) C[i] += (*A_++) * b;` for the entries of `C` -/
def addScaled : List K → List K → K → Option (List K)
  | [], _, _ => some []
  | _ :: _, [], _ => none
  | c :: C, a :: A, b => (addScaled C A b).map ((c + a * b) :: ·)

/-- tensor.c:60-63: the loop over `k` for one column of `C` -/
def mxmCol (nc : Nat) : Nat → List K → List K → List K → Option (List K)
  | 0, C, _, _ => some C
  | _ + 1, _, _, [] => none
  | na + 1, C, A, b :: B => (addScaled C A b).bind fun C => mxmCol nc na C (A.drop nc) B

/-- tensor.c:52-65 `tensor_mxm`: the `nc*nb` values stored through `C` (zeroed first) -/
def mxm (nc : Nat) (A : List K) (na : Nat) : List K → Nat → Option (List K)
  | _, 0 => some []
  | B, nb + 1 =>
    (mxmCol nc na (List.replicate nc 0) A B).bind fun c => (mxm nc A na (B.drop na) nb).map (c ++ ·)

/-- tensor.c:25-35 `tensor_mxv` -/
def mxv (ny : Nat) (A x : List K) (nx : Nat) : Option (List K) := mxmCol ny nx (List.replicate ny 0) A x

/-- tensor.c:38-49 `tensor_mtxv`; with `nx=0` the C loop `for(--n;n;--n)` wraps around, which is out of bounds -/
def mtxv : Nat → List K → List K → Nat → Option (List K)
  | 0, _, _, _ => some []
  | ny + 1, a :: A, x :: xs, nx + 1 =>
    (dotLoop A xs nx (a * x)).bind fun s => (mtxv ny (A.drop nx) (x :: xs) (nx + 1)).map (s :: ·)
  | _ + 1, _, _, _ => none

/-- tensor.c:77: the inner loop `for(i<nc) *C++ = tensor_dot(A_,B,na)` -/
def mtxmCol (na : Nat) (B : List K) : Nat → List K → Option (List K)
  | 0, _ => some []
  | nc + 1, A => (dot A B na).bind fun s => (mtxmCol na B nc (A.drop na)).map (s :: ·)

/-- tensor.c:70-79 `tensor_mtxm` -/
def mtxm (nc : Nat) (A : List K) (na : Nat) : List K → Nat → Option (List K)
  | _, 0 => some []
  | B, nb + 1 => (mtxmCol na B nc A).bind fun c => (mtxm nc A na (B.drop na) nb).map (c ++ ·)

/-- storing `vals` at `p[off..]` of a work array; `none` past its end -/
def store (p : List K) (off : Nat) (vals : List K) : Option (List K) :=
  if off + vals.length ≤ p.length then some (p.take off ++ vals ++ p.drop (off + vals.length)) else none

/-- tensor.h:85-88 `tensor_i1` -/
def i1 (Jr : List K) (nr : Nat) (u : List K) : Option K := dot Jr u nr

/-- tensor.h:91-97 `tensor_i2` -/
def i2 (Jr : List K) (nr : Nat) (Js : List K) (ns : Nat) (u work : List K) : Option K :=
  (mtxv ns u Jr nr).bind fun v => (store work 0 v).bind fun work => dot Js work ns

/-- tensor.h:100-109 `tensor_i3` -/
def i3 (Jr : List K) (nr : Nat) (Js : List K) (ns : Nat) (Jt : List K) (nt : Nat) (u work : List K) : Option K :=
  (mtxv (ns * nt) u Jr nr).bind fun v => (store work nt v).bind fun work =>
  (mtxv nt (work.drop nt) Js ns).bind fun v => (store work 0 v).bind fun work => dot Jt work nt

/-- tensor.h:128-134 `tensor_ig1`: the value and the gradient -/
def ig1 (wtr : List K) (nr : Nat) (u : List K) : Option (K × List K) :=
  (dot (wtr.drop nr) u nr).bind fun g0 => (dot wtr u nr).bind fun v => some (v, [g0])

/-- tensor.h:137-146 `tensor_ig2` -/
def ig2 (wtr : List K) (nr : Nat) (wts : List K) (ns : Nat) (u work : List K) : Option (K × List K) :=
  (mxm nr u ns wts 2).bind fun c => (store work 0 c).bind fun work =>
  (dot (wtr.drop nr) work nr).bind fun g0 =>
  (dot wtr (work.drop nr) nr).bind fun g1 =>
  (dot wtr work nr).bind fun v => some (v, [g0, g1])

/-- tensor.h:149-164 `tensor_ig3` -/
def ig3 (wtr : List K) (nr : Nat) (wts : List K) (ns : Nat) (wtt : List K) (nt : Nat) (u work : List K) : Option (K × List K) :=
  let nrs := nr * ns
  let b := 2 * nrs
  let c := b + 2 * nr
  (mxm nrs u nt wtt 2).bind fun x => (store work 0 x).bind fun work =>
  (mxm nr work ns wts 2).bind fun x => (store work b x).bind fun work =>
  (mxv nr (work.drop nrs) wts ns).bind fun x => (store work c x).bind fun work =>
  (dot (work.drop b) (wtr.drop nr) nr).bind fun g0 =>
  (dot (work.drop (b + nr)) wtr nr).bind fun g1 =>
  (dot (work.drop c) wtr nr).bind fun g2 =>
  (dot (work.drop b) wtr nr).bind fun v => some (v, [g0, g1, g2])

/-- tensor.h:172-179 `tensor_2t`: the values stored through `out` -/
def t2 (Jrt : List K) (nr mr : Nat) (Jst : List K) (ns ms : Nat) (u work : List K) : Option (List K) :=
  (mtxm nr Jrt mr u ms).bind fun x => (store work 0 x).bind fun work => mxm nr work ms Jst ns

/-- tensor.h:198-199: the loop over `k` (`p` and `q` are offsets into `work`) -/
def t3Loop (nr ms : Nat) (Jst : List K) (ns : Nat) (p q : Nat) : Nat → List K → Option (List K)
  | 0, work => some work
  | mt + 1, work =>
    (mxm nr (work.drop q) ms Jst ns).bind fun x => (store work p x).bind fun work =>
      t3Loop nr ms Jst ns (p + nr * ns) (q + nr * ms) mt work

/-- tensor.h:187-201 `tensor_3t` -/
def t3 (Jrt : List K) (nr mr : Nat) (Jst : List K) (ns ms : Nat) (Jtt : List K) (nt mt : Nat) (u work : List K) : Option (List K) :=
  let mst := ms * mt
  let w2 := nr * mst
  (mtxm nr Jrt mr u mst).bind fun x => (store work 0 x).bind fun work =>
  (t3Loop nr ms Jst ns w2 0 mt work).bind fun work =>
  mxm (nr * ns) (work.drop w2) mt Jtt nt

end Gslib.Tensor
