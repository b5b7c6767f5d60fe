import Verif.Model.GllSetup

/-!
# Bounds for polynomials on [-1,1]^d (lob_bnd.c, lob_bnd.h)

`double` is replaced by an ordered field. Arrays carry bounds and initialisation checks; a bad access is `none`. Sizes are natural numbers: products
such as `n*m` are assumed not to wrap in `unsigned`. `lob_bnd_data` is one array with the layout of lob_bnd.c:76-78: `z` (n), `Q` (2n), `h` (m),
`lb` (2nm), `lbnp` (4nm). The output `b` and all work arrays live in one memory `w` of `cap` doubles and are given by offsets, so that
overlapping regions would be seen. The input `u` is read from another array (`restrict`). Pointers that are
incremented in the C loops are written as the index they have in that iteration.
-/

namespace Gslib.Lob
open Gslib.Num Gslib.Poly
variable {K : Type} [Field K] [LinearOrder K]

/-- lob_bnd.h:64-65 `lob_bnd_size` -/
def size (n m : Nat) : Nat := m + 3 * n * (2 * m + 1)

/-- entry of `lob_bnd_data` -/
def rdD (n m : Nat) (D : Mem K) (i : Nat) : Option K := rd (size n m) D i

/-- lob_bnd.c:77: offset of `h` -/
def hOff (n : Nat) : Nat := n + 2 * n

/-- lob_bnd.c:78: offset of `lb` -/
def lbOff (n m : Nat) : Nat := hOff n + m

/-- lob_bnd.c:78: offset of `lbnp` -/
def lbnpOff (n m : Nat) : Nat := lbOff n m + 2 * (n * m)

/-- `w[i] += v` -/
def acc (cap i : Nat) (v : K) (w : Mem K) : Option (Mem K) := (rd cap w i).bind fun x => wr cap w i (x + v)

/-- `w[i+1] = w[i] = v` -/
def wr2 (cap i : Nat) (v : K) (w : Mem K) : Option (Mem K) := (wr cap w i v).bind fun w => wr cap w (i + 1) v

/-- `w[i] += v0, w[i+1] += v1` -/
def acc2 (cap i : Nat) (v0 v1 : K) (w : Mem K) : Option (Mem K) := (acc cap i v0 w).bind fun w => acc cap (i + 1) v1 w

/-- lob_bnd.c:134 (`lob_bnd_fst`): `for(i<n) a0+=Q[2i]*u[i], a1+=Q[2i+1]*u[i];` -/
def fstCoef (n m : Nat) (D : Mem K) (ucap : Nat) (u : Mem K) (uo : Nat) : Option (K × K) :=
  forUp 0 n (fun i a => (rdD n m D (n + 2 * i)).bind fun q0 => (rdD n m D (n + (2 * i + 1))).bind fun q1 => (rd ucap u (uo + i)).bind fun ui =>
    some (a.1 + q0 * ui, a.2 + q1 * ui)) (0, 0)

/-- lob_bnd.c:127-144 `lob_bnd_fst` with output at `w+bo`, input at `u+uo` -/
def fst (n m : Nat) (D : Mem K) (ucap : Nat) (u : Mem K) (uo cap bo : Nat) (w : Mem K) : Option (Mem K) :=
  (fstCoef n m D ucap u uo).bind fun a =>
  (forUp 0 m (fun j w => (rdD n m D (hOff n + j)).bind fun h => wr2 cap (bo + 2 * j) (a.1 + a.2 * h) w) w).bind fun w =>
  forUp 0 n (fun i w => (rd ucap u (uo + i)).bind fun ui => (rdD n m D i).bind fun zi =>
    let wi := ui - (a.1 + a.2 * zi)
    forUp 0 m (fun j w =>
      (rdD n m D (lbOff n m + 2 * (i * m + j))).bind fun l0 => (rdD n m D (lbOff n m + (2 * (i * m + j) + 1))).bind fun l1 =>
      if wi ≥ 0 then acc2 cap (bo + 2 * j) (wi * l0) (wi * l1) w else acc2 cap (bo + 2 * j) (wi * l1) (wi * l0) w) w) w

/-- lob_bnd.c:154-162 (`lob_bnd_ext`): the coefficients `a[2*mr]` at `w+ao` from the bounds `br` at `w+ro` -/
def extCoef (n m : Nat) (D : Mem K) (mr cap ro ao : Nat) (w : Mem K) : Option (Mem K) :=
  (forUp 0 mr (fun i w => wr2 cap (ao + 2 * i) 0 w) w).bind fun w =>
  forUp 0 n (fun j w => (rdD n m D (n + 2 * j)).bind fun q0 => (rdD n m D (n + (2 * j + 1))).bind fun q1 =>
    forUp 0 mr (fun i w => (rd cap w (ro + 2 * (j * mr + i))).bind fun b0 => (rd cap w (ro + (2 * (j * mr + i) + 1))).bind fun b1 =>
      let t := (b0 + b1) / 2
      acc2 cap (ao + 2 * i) (q0 * t) (q1 * t) w) w) w

/-- lob_bnd.c:181-192: the two increments for node `k` from the weights `w0`, `w1` and `lbnp[4k..4k+3]` -/
def extTerm (w0 w1 l0 l1 l2 l3 : K) : K × K :=
  if w0 ≥ 0 then (w0 * l1 + w1 * l0, w1 * l3 + w0 * l2)
  else if w1 ≤ 0 then (w0 * l3 + w1 * l2, w1 * l1 + w0 * l0)
  else (w0 * l3 + w1 * l0, w1 * l3 + w0 * l0)

/-- lob_bnd.c:146-196 `lob_bnd_ext` with output at `w+bo`, input bounds at `w+ro`, work at `w+ao` -/
def ext (n m : Nat) (D : Mem K) (mr cap ro ao bo : Nat) (w : Mem K) : Option (Mem K) :=
  (extCoef n m D mr cap ro ao w).bind fun w =>
  (forUp 0 mr (fun i w => (rd cap w (ao + 2 * i)).bind fun a0 => (rd cap w (ao + (2 * i + 1))).bind fun a1 =>
    forUp 0 m (fun k w => (rdD n m D (hOff n + k)).bind fun h => wr2 cap (bo + 2 * (i * m) + 2 * k) (a0 + a1 * h) w) w) w).bind fun w =>
  forUp 0 n (fun j w => (rdD n m D j).bind fun zj =>
    forUp 0 mr (fun i w => (rd cap w (ao + 2 * i)).bind fun a0 => (rd cap w (ao + (2 * i + 1))).bind fun a1 =>
      let t := a0 + a1 * zj
      (rd cap w (ro + 2 * (j * mr + i))).bind fun b0 => (rd cap w (ro + (2 * (j * mr + i) + 1))).bind fun b1 =>
      let w0 := b0 - t
      let w1 := b1 - t
      forUp 0 m (fun k w =>
        let p := lbnpOff n m + 4 * (j * m + k)
        (rdD n m D p).bind fun l0 => (rdD n m D (p + 1)).bind fun l1 => (rdD n m D (p + 2)).bind fun l2 => (rdD n m D (p + 3)).bind fun l3 =>
        acc2 cap (bo + 2 * (i * m) + 2 * k) (extTerm w0 w1 l0 l1 l2 l3).1 (extTerm w0 w1 l0 l1 l2 l3).2 w) w) w) w

/-- lob_bnd.c:198-204 `lob_bnd_lin_1`: `un` polynomials -/
def lin1 (n m : Nat) (D : Mem K) (ucap : Nat) (u : Mem K) (uo un cap bo : Nat) (w : Mem K) : Option (Mem K) :=
  forUp 0 un (fun l w => fst n m D ucap u (uo + l * n) cap (bo + l * (2 * m)) w) w

/-- lob_bnd.c:207-223 `lob_bnd_lin_2` with output at `w+bo` and `work` at `w+wo` -/
def lin2 (nr mr : Nat) (Dr : Mem K) (ns ms : Nat) (Ds : Mem K) (ucap : Nat) (u : Mem K) (uo un cap bo wo : Nat) (w : Mem K) : Option (Mem K) :=
  let br := wo + 2 * mr
  forUp 0 un (fun l w =>
    (forUp 0 ns (fun i w => fst nr mr Dr ucap u (uo + (l * ns + i) * nr) cap (br + i * (2 * mr)) w) w).bind fun w =>
    ext ns ms Ds mr cap br wo (bo + l * (2 * (mr * ms))) w) w

/-- lob_bnd.c:226-246 `lob_bnd_lin_3` with output at `w+bo` and `work` at `w+wo`; the output array first holds the bounds in `r` -/
def lin3 (nr mr : Nat) (Dr : Mem K) (ns ms : Nat) (Ds : Mem K) (nt mt : Nat) (Dt : Mem K) (ucap : Nat) (u : Mem K) (uo un cap bo wo : Nat)
    (w : Mem K) : Option (Mem K) :=
  let bs := wo + 2 * mr * ms
  forUp 0 un (fun l w =>
    let b := bo + l * (2 * (mr * ms * mt))
    (forUp 0 (ns * nt) (fun i w => fst nr mr Dr ucap u (uo + (l * (ns * nt) + i) * nr) cap (b + i * (2 * mr)) w) w).bind fun w =>
    (forUp 0 nt (fun i w => ext ns ms Ds mr cap (b + i * (2 * (mr * ns))) wo (bs + i * (2 * (mr * ms))) w) w).bind fun w =>
    ext nt mt Dt (mr * ms) cap bs wo b w) w

/-- lob_bnd.c:248-256 `minmax` on `w+bo`; with `m=0` the counter wraps and the loop runs out of bounds -/
def minmax (cap bo m : Nat) (w : Mem K) : Option (K × K) :=
  if m = 0 then none else
  (rd cap w bo).bind fun b0 => (rd cap w (bo + 1)).bind fun b1 =>
  forUp 1 (m - 1) (fun k s => (rd cap w (bo + 2 * k)).bind fun b0 => (rd cap w (bo + (2 * k + 1))).bind fun b1 =>
    some (if b0 < s.1 then b0 else s.1, if b1 > s.2 then b1 else s.2)) (b0, b1)

/-- lob_bnd.c:259-265 `lob_bnd_1` with `work` at `w+wo`: the range and the memory afterwards -/
def bnd1 (n m : Nat) (D : Mem K) (ucap : Nat) (u : Mem K) (uo cap wo : Nat) (w : Mem K) : Option ((K × K) × Mem K) :=
  (lin1 n m D ucap u uo 1 cap wo w).bind fun w => (minmax cap wo m w).map fun r => (r, w)

/-- lob_bnd.c:269-278 `lob_bnd_2` -/
def bnd2 (nr mr : Nat) (Dr : Mem K) (ns ms : Nat) (Ds : Mem K) (ucap : Nat) (u : Mem K) (uo cap wo : Nat) (w : Mem K) : Option ((K × K) × Mem K) :=
  let m := mr * ms
  (lin2 nr mr Dr ns ms Ds ucap u uo 1 cap wo (wo + 2 * m) w).bind fun w => (minmax cap wo m w).map fun r => (r, w)

/-- lob_bnd.c:282-293 `lob_bnd_3` -/
def bnd3 (nr mr : Nat) (Dr : Mem K) (ns ms : Nat) (Ds : Mem K) (nt mt : Nat) (Dt : Mem K) (ucap : Nat) (u : Mem K) (uo cap wo : Nat) (w : Mem K) :
    Option ((K × K) × Mem K) :=
  let m := mr * ms * mt
  (lin3 nr mr Dr ns ms Ds nt mt Dt ucap u uo 1 cap wo (wo + 2 * m) w).bind fun w => (minmax cap wo m w).map fun r => (r, w)

/-- lob_bnd.c:89: `for(i=n;i;) --i, Q[2*i]=Q[i]/2, Q[2*i+1] = 3*Q[2*i]*z[i];` -/
def setQ (n m : Nat) (D : Mem K) : Option (Mem K) :=
  forDown n (fun i1 D =>
    let i := i1 - 1
    (rdD n m D (n + i)).bind fun q => (wr (size n m) D (n + 2 * i) (q / 2)).bind fun D =>
    (rdD n m D (n + 2 * i)).bind fun q2 => (rdD n m D i).bind fun zi => wr (size n m) D (n + (2 * i + 1)) (3 * q2 * zi)) D

/-- lob_bnd.c:93-94: the nodes `h`; `ch j` stands for `cos((m-1-j)*PI/(m-1))` -/
def setH (n m : Nat) (ch : Nat → K) (D : Mem K) : Option (Mem K) :=
  (wr (size n m) D (hOff n) (-1)).bind fun D => (wr (size n m) D (hOff n + (m - 1)) 1).bind fun D =>
  forUp 1 (m - 2) (fun j D => wr (size n m) D (hOff n + j) (ch j)) D

/-- lob_bnd.c:98-100: the bounds at the two end points -/
def setEnds (n m : Nat) (D : Mem K) : Option (Mem K) :=
  forUp 0 n (fun i D =>
    (wr2 (size n m) (lbOff n m + 2 * (i * m)) (if i = 0 then 1 else 0) D).bind fun D =>
    wr2 (size n m) (lbOff n m + 2 * (i * m + (m - 1))) (if i = n - 1 then 1 else 0) D) D

/-- lob_bnd.c:107-112: the bounds of basis function `i` at interior node `x` from value and slope at the midpoints `xl`, `xr` of the two adjacent segments and the value at `x` -/
def nodeBounds (x xl xr pl dl pr dr p : K) : K × K :=
  let cl := pl + (x - xl) * dl
  let cr := pr + (x - xr) * dr
  let lo := if cl < cr then cl else cr
  let up := if cl < cr then cr else cl
  (if p < lo then p else lo, if up < p then p else up)

/-- lob_bnd.c:102-116: the loop over interior nodes. `pl`, `pr` hold `2n` doubles (value and derivative), `p` holds `n`; the state is (`pl`, `gll_data`, `data`). -/
def setLb (n m : Nat) (g D : Mem K) : Option (Mem K) :=
  (rdD n m D (hOff n)).bind fun h0 => (rdD n m D (hOff n + 1)).bind fun h1 =>
  (gllEval n (2 * n) 1 ((h0 + h1) / 2) ((fun _ => none : Mem K), g)).bind fun s =>
  (forUp 1 (m - 2) (fun j (s : Mem K × Mem K × Mem K) =>
    (rdD n m s.2.2 (hOff n + j)).bind fun x => (rdD n m s.2.2 (hOff n + (j - 1))).bind fun hl => (rdD n m s.2.2 (hOff n + (j + 1))).bind fun hr =>
    let xl := (x + hl) / 2
    let xr := (x + hr) / 2
    (gllEval n (2 * n) 1 xr ((fun _ => none : Mem K), s.2.1)).bind fun r =>
    (gllEval n n 0 x ((fun _ => none : Mem K), r.2)).bind fun q =>
    (forUp 0 n (fun i D =>
      (rd (2 * n) s.1 i).bind fun pl => (rd (2 * n) s.1 (n + i)).bind fun dl => (rd (2 * n) r.1 i).bind fun pr => (rd (2 * n) r.1 (n + i)).bind fun dr =>
      (rd n q.1 i).bind fun p =>
      (wr (size n m) D (lbOff n m + 2 * (i * m + j)) (nodeBounds x xl xr pl dl pr dr p).1).bind fun D =>
      wr (size n m) D (lbOff n m + (2 * (i * m + j) + 1)) (nodeBounds x xl xr pl dl pr dr p).2) s.2.2).map fun D => (r.1, q.2, D))
    (s.1, s.2, D)).map fun s => s.2.2

/-- lob_bnd.c:117-122: negative and positive parts -/
def setLbnp (n m : Nat) (D : Mem K) : Option (Mem K) :=
  forUp 0 (n * m) (fun i D =>
    let p := lbnpOff n m + 4 * i
    (wr (size n m) D (p + 3) 0).bind fun D => (wr (size n m) D (p + 2) 0).bind fun D => (wr (size n m) D (p + 1) 0).bind fun D => (wr (size n m) D p 0).bind fun D =>
    (rdD n m D (lbOff n m + 2 * i)).bind fun f => (if f < 0 then wr (size n m) D p f else wr (size n m) D (p + 1) f).bind fun D =>
    (rdD n m D (lbOff n m + (2 * i + 1))).bind fun f => if f < 0 then wr (size n m) D (p + 2) f else wr (size n m) D (p + 3) f) D

/-- lob_bnd.c:73-125 `lob_bnd_setup`: `data` after the call, for `n>=2` (`gll_lag_setup` returns null otherwise). With `m<2` the loop bound `m-1` is treated as 0 or wraps: `none` for `m=0`.
`lobatto_quad` fills two arrays of its own here, which are then placed at `z` and `Q`. `pr` and `p` are uninitialised memory before each evaluation;
`memcpy(pl,pr,2n)` is the first component of the next state. -/
def setup (fuel : Nat) (eps : K) (guess : Nat → K) (ch : Nat → K) (n m : Nat) : Option (Mem K) :=
  if m = 0 then none else
  (gllLagSetup fuel eps guess n).bind fun g =>
  (lobattoQuad n fuel eps guess n (fun _ => none) (fun _ => none)).bind fun zw =>
  let D : Mem K := fun k => if k < n then zw.1 k else if k < 2 * n then zw.2 (k - n) else none
  (setQ n m D).bind fun D => (setH n m ch D).bind fun D => (setEnds n m D).bind fun D => (setLb n m g D).bind fun D => setLbnp n m D

end Gslib.Lob
