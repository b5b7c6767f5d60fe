import Mathlib.Algebra.Field.Defs

/-!
# The unrolled Lagrange evaluations for Lobatto nodes (poly_imp.h)

Transcribed statement by statement from poly_imp.h by a script. `g i` is `gllz_n[i]`. The three lists are what the function stores in
`p[0..n)`, `p[n..2n)` (only if `d>0`) and `p[2n..3n)` (only if `d>1`).
-/

namespace Gslib.Poly
variable {K : Type} [Field K]

/-- poly_imp.h:5-21 `gll_lag_02` -/
def gllLag02 (_g w : Nat → K) (xh : K) : List K × List K × List K :=
  let x := xh * 2
  let d00 := x + 2
  let d01 := x - 2
  let u0_01 := 1 * d00
  let v0_00 := d01 * 1
  ([
    w 0 * 1 * v0_00, w 1 * u0_01 * 1],
   [
    2 * w 0 * (1), 2 * w 1 * (1)],
   [
    0, 0])

/-- poly_imp.h:23-43 `gll_lag_03` -/
def gllLag03 (_g w : Nat → K) (xh : K) : List K × List K × List K :=
  let x := xh * 2
  let d00 := x + 2
  let d01 := x
  let d02 := x - 2
  let u0_01 := 1 * d00
  let u0_02 := u0_01 * d01
  let v0_01 := d02 * 1
  let v0_00 := d01 * v0_01
  let u1_02 := 1 * d01 + u0_01
  let v1_00 := d01 * 1 + v0_01
  ([
    w 0 * 1 * v0_00, w 1 * u0_01 * v0_01, w 2 * u0_02 * 1],
   [
    2 * w 0 * (v1_00), 2 * w 1 * (1 * v0_01 + u0_01 * 1), 2 * w 2 * (u1_02)],
   [
    4 * w 0 * (1 * 2), 4 * w 1 * (2 * 1 * 1), 4 * w 2 * (2 * 1)])

/-- poly_imp.h:49-75 `gll_lag_04` -/
def gllLag04 (g w : Nat → K) (xh : K) : List K × List K × List K :=
  let x := xh * 2
  let d00 := x + 2
  let d01 := x + 2 * g 0
  let d02 := x - 2 * g 0
  let d03 := x - 2
  let u0_01 := 1 * d00
  let u0_02 := u0_01 * d01
  let u0_03 := u0_02 * d02
  let v0_02 := d03 * 1
  let v0_01 := d02 * v0_02
  let v0_00 := d01 * v0_01
  let u1_02 := 1 * d01 + u0_01
  let u1_03 := u1_02 * d02 + u0_02
  let v1_01 := d02 * 1 + v0_02
  let v1_00 := d01 * v1_01 + v0_01
  let u2_03 := 2 * d02 + 2 * u1_02
  let v2_00 := d01 * 2 + 2 * v1_01
  ([
    w 0 * 1 * v0_00, w 1 * u0_01 * v0_01, w 2 * u0_02 * v0_02, w 3 * u0_03 * 1],
   [
    2 * w 0 * (v1_00), 2 * w 1 * (1 * v0_01 + u0_01 * v1_01), 2 * w 2 * (u1_02 * v0_02 + u0_02 * 1), 2 * w 3 * (u1_03)],
   [
    4 * w 0 * (1 * v2_00), 4 * w 1 * (2 * 1 * v1_01 + u0_01 * 2), 4 * w 2 * (2 * v0_02 + 2 * u1_02 * 1), 4 * w 3 * (u2_03 * 1)])

/-- poly_imp.h:81-113 `gll_lag_05` -/
def gllLag05 (g w : Nat → K) (xh : K) : List K × List K × List K :=
  let x := xh * 2
  let d00 := x + 2
  let d01 := x + 2 * g 0
  let d02 := x
  let d03 := x - 2 * g 0
  let d04 := x - 2
  let u0_01 := 1 * d00
  let u0_02 := u0_01 * d01
  let u0_03 := u0_02 * d02
  let u0_04 := u0_03 * d03
  let v0_03 := d04 * 1
  let v0_02 := d03 * v0_03
  let v0_01 := d02 * v0_02
  let v0_00 := d01 * v0_01
  let u1_02 := 1 * d01 + u0_01
  let u1_03 := u1_02 * d02 + u0_02
  let u1_04 := u1_03 * d03 + u0_03
  let v1_02 := d03 * 1 + v0_03
  let v1_01 := d02 * v1_02 + v0_02
  let v1_00 := d01 * v1_01 + v0_01
  let u2_03 := 2 * d02 + 2 * u1_02
  let u2_04 := u2_03 * d03 + 2 * u1_03
  let v2_01 := d02 * 2 + 2 * v1_02
  let v2_00 := d01 * v2_01 + 2 * v1_01
  ([
    w 0 * 1 * v0_00, w 1 * u0_01 * v0_01, w 2 * u0_02 * v0_02, w 3 * u0_03 * v0_03, w 4 * u0_04 * 1],
   [
    2 * w 0 * (v1_00), 2 * w 1 * (1 * v0_01 + u0_01 * v1_01), 2 * w 2 * (u1_02 * v0_02 + u0_02 * v1_02),
    2 * w 3 * (u1_03 * v0_03 + u0_03 * 1), 2 * w 4 * (u1_04)],
   [
    4 * w 0 * (1 * v2_00), 4 * w 1 * (2 * 1 * v1_01 + u0_01 * v2_01), 4 * w 2 * (2 * v0_02 + 2 * u1_02 * v1_02 + u0_02 * 2),
    4 * w 3 * (u2_03 * v0_03 + 2 * u1_03 * 1), 4 * w 4 * (u2_04 * 1)])

/-- poly_imp.h:120-156 `gll_lag_06` -/
def gllLag06 (g w : Nat → K) (xh : K) : List K × List K × List K :=
  let x := xh * 2
  let d00 := x + 2
  let d01 := x + 2 * g 0
  let d02 := x + 2 * g 1
  let d03 := x - 2 * g 1
  let d04 := x - 2 * g 0
  let d05 := x - 2
  let u0_01 := 1 * d00
  let u0_02 := u0_01 * d01
  let u0_03 := u0_02 * d02
  let u0_04 := u0_03 * d03
  let u0_05 := u0_04 * d04
  let v0_04 := d05 * 1
  let v0_03 := d04 * v0_04
  let v0_02 := d03 * v0_03
  let v0_01 := d02 * v0_02
  let v0_00 := d01 * v0_01
  let u1_02 := 1 * d01 + u0_01
  let u1_03 := u1_02 * d02 + u0_02
  let u1_04 := u1_03 * d03 + u0_03
  let u1_05 := u1_04 * d04 + u0_04
  let v1_03 := d04 * 1 + v0_04
  let v1_02 := d03 * v1_03 + v0_03
  let v1_01 := d02 * v1_02 + v0_02
  let v1_00 := d01 * v1_01 + v0_01
  let u2_03 := 2 * d02 + 2 * u1_02
  let u2_04 := u2_03 * d03 + 2 * u1_03
  let u2_05 := u2_04 * d04 + 2 * u1_04
  let v2_02 := d03 * 2 + 2 * v1_03
  let v2_01 := d02 * v2_02 + 2 * v1_02
  let v2_00 := d01 * v2_01 + 2 * v1_01
  ([
    w 0 * 1 * v0_00, w 1 * u0_01 * v0_01, w 2 * u0_02 * v0_02, w 3 * u0_03 * v0_03, w 4 * u0_04 * v0_04, w 5 * u0_05 * 1],
   [
    2 * w 0 * (v1_00), 2 * w 1 * (1 * v0_01 + u0_01 * v1_01), 2 * w 2 * (u1_02 * v0_02 + u0_02 * v1_02),
    2 * w 3 * (u1_03 * v0_03 + u0_03 * v1_03), 2 * w 4 * (u1_04 * v0_04 + u0_04 * 1), 2 * w 5 * (u1_05)],
   [
    4 * w 0 * (1 * v2_00), 4 * w 1 * (2 * 1 * v1_01 + u0_01 * v2_01), 4 * w 2 * (2 * v0_02 + 2 * u1_02 * v1_02 + u0_02 * v2_02),
    4 * w 3 * (u2_03 * v0_03 + 2 * u1_03 * v1_03 + u0_03 * 2), 4 * w 4 * (u2_04 * v0_04 + 2 * u1_04 * 1), 4 * w 5 * (u2_05 * 1)])

/-- poly_imp.h:163-205 `gll_lag_07` -/
def gllLag07 (g w : Nat → K) (xh : K) : List K × List K × List K :=
  let x := xh * 2
  let d00 := x + 2
  let d01 := x + 2 * g 0
  let d02 := x + 2 * g 1
  let d03 := x
  let d04 := x - 2 * g 1
  let d05 := x - 2 * g 0
  let d06 := x - 2
  let u0_01 := 1 * d00
  let u0_02 := u0_01 * d01
  let u0_03 := u0_02 * d02
  let u0_04 := u0_03 * d03
  let u0_05 := u0_04 * d04
  let u0_06 := u0_05 * d05
  let v0_05 := d06 * 1
  let v0_04 := d05 * v0_05
  let v0_03 := d04 * v0_04
  let v0_02 := d03 * v0_03
  let v0_01 := d02 * v0_02
  let v0_00 := d01 * v0_01
  let u1_02 := 1 * d01 + u0_01
  let u1_03 := u1_02 * d02 + u0_02
  let u1_04 := u1_03 * d03 + u0_03
  let u1_05 := u1_04 * d04 + u0_04
  let u1_06 := u1_05 * d05 + u0_05
  let v1_04 := d05 * 1 + v0_05
  let v1_03 := d04 * v1_04 + v0_04
  let v1_02 := d03 * v1_03 + v0_03
  let v1_01 := d02 * v1_02 + v0_02
  let v1_00 := d01 * v1_01 + v0_01
  let u2_03 := 2 * d02 + 2 * u1_02
  let u2_04 := u2_03 * d03 + 2 * u1_03
  let u2_05 := u2_04 * d04 + 2 * u1_04
  let u2_06 := u2_05 * d05 + 2 * u1_05
  let v2_03 := d04 * 2 + 2 * v1_04
  let v2_02 := d03 * v2_03 + 2 * v1_03
  let v2_01 := d02 * v2_02 + 2 * v1_02
  let v2_00 := d01 * v2_01 + 2 * v1_01
  ([
    w 0 * 1 * v0_00, w 1 * u0_01 * v0_01, w 2 * u0_02 * v0_02, w 3 * u0_03 * v0_03, w 4 * u0_04 * v0_04, w 5 * u0_05 * v0_05,
    w 6 * u0_06 * 1],
   [
    2 * w 0 * (v1_00), 2 * w 1 * (1 * v0_01 + u0_01 * v1_01), 2 * w 2 * (u1_02 * v0_02 + u0_02 * v1_02),
    2 * w 3 * (u1_03 * v0_03 + u0_03 * v1_03), 2 * w 4 * (u1_04 * v0_04 + u0_04 * v1_04), 2 * w 5 * (u1_05 * v0_05 + u0_05 * 1),
    2 * w 6 * (u1_06)],
   [
    4 * w 0 * (1 * v2_00), 4 * w 1 * (2 * 1 * v1_01 + u0_01 * v2_01), 4 * w 2 * (2 * v0_02 + 2 * u1_02 * v1_02 + u0_02 * v2_02),
    4 * w 3 * (u2_03 * v0_03 + 2 * u1_03 * v1_03 + u0_03 * v2_03), 4 * w 4 * (u2_04 * v0_04 + 2 * u1_04 * v1_04 + u0_04 * 2),
    4 * w 5 * (u2_05 * v0_05 + 2 * u1_05 * 1), 4 * w 6 * (u2_06 * 1)])

/-- poly_imp.h:213-261 `gll_lag_08` -/
def gllLag08 (g w : Nat → K) (xh : K) : List K × List K × List K :=
  let x := xh * 2
  let d00 := x + 2
  let d01 := x + 2 * g 0
  let d02 := x + 2 * g 1
  let d03 := x + 2 * g 2
  let d04 := x - 2 * g 2
  let d05 := x - 2 * g 1
  let d06 := x - 2 * g 0
  let d07 := x - 2
  let u0_01 := 1 * d00
  let u0_02 := u0_01 * d01
  let u0_03 := u0_02 * d02
  let u0_04 := u0_03 * d03
  let u0_05 := u0_04 * d04
  let u0_06 := u0_05 * d05
  let u0_07 := u0_06 * d06
  let v0_06 := d07 * 1
  let v0_05 := d06 * v0_06
  let v0_04 := d05 * v0_05
  let v0_03 := d04 * v0_04
  let v0_02 := d03 * v0_03
  let v0_01 := d02 * v0_02
  let v0_00 := d01 * v0_01
  let u1_02 := 1 * d01 + u0_01
  let u1_03 := u1_02 * d02 + u0_02
  let u1_04 := u1_03 * d03 + u0_03
  let u1_05 := u1_04 * d04 + u0_04
  let u1_06 := u1_05 * d05 + u0_05
  let u1_07 := u1_06 * d06 + u0_06
  let v1_05 := d06 * 1 + v0_06
  let v1_04 := d05 * v1_05 + v0_05
  let v1_03 := d04 * v1_04 + v0_04
  let v1_02 := d03 * v1_03 + v0_03
  let v1_01 := d02 * v1_02 + v0_02
  let v1_00 := d01 * v1_01 + v0_01
  let u2_03 := 2 * d02 + 2 * u1_02
  let u2_04 := u2_03 * d03 + 2 * u1_03
  let u2_05 := u2_04 * d04 + 2 * u1_04
  let u2_06 := u2_05 * d05 + 2 * u1_05
  let u2_07 := u2_06 * d06 + 2 * u1_06
  let v2_04 := d05 * 2 + 2 * v1_05
  let v2_03 := d04 * v2_04 + 2 * v1_04
  let v2_02 := d03 * v2_03 + 2 * v1_03
  let v2_01 := d02 * v2_02 + 2 * v1_02
  let v2_00 := d01 * v2_01 + 2 * v1_01
  ([
    w 0 * 1 * v0_00, w 1 * u0_01 * v0_01, w 2 * u0_02 * v0_02, w 3 * u0_03 * v0_03, w 4 * u0_04 * v0_04, w 5 * u0_05 * v0_05,
    w 6 * u0_06 * v0_06, w 7 * u0_07 * 1],
   [
    2 * w 0 * (v1_00), 2 * w 1 * (1 * v0_01 + u0_01 * v1_01), 2 * w 2 * (u1_02 * v0_02 + u0_02 * v1_02),
    2 * w 3 * (u1_03 * v0_03 + u0_03 * v1_03), 2 * w 4 * (u1_04 * v0_04 + u0_04 * v1_04), 2 * w 5 * (u1_05 * v0_05 + u0_05 * v1_05),
    2 * w 6 * (u1_06 * v0_06 + u0_06 * 1), 2 * w 7 * (u1_07)],
   [
    4 * w 0 * (1 * v2_00), 4 * w 1 * (2 * 1 * v1_01 + u0_01 * v2_01), 4 * w 2 * (2 * v0_02 + 2 * u1_02 * v1_02 + u0_02 * v2_02),
    4 * w 3 * (u2_03 * v0_03 + 2 * u1_03 * v1_03 + u0_03 * v2_03), 4 * w 4 * (u2_04 * v0_04 + 2 * u1_04 * v1_04 + u0_04 * v2_04),
    4 * w 5 * (u2_05 * v0_05 + 2 * u1_05 * v1_05 + u0_05 * 2), 4 * w 6 * (u2_06 * v0_06 + 2 * u1_06 * 1), 4 * w 7 * (u2_07 * 1)])

/-- poly_imp.h:269-321 `gll_lag_09` -/
def gllLag09 (g w : Nat → K) (xh : K) : List K × List K × List K :=
  let x := xh * 2
  let d00 := x + 2
  let d01 := x + 2 * g 0
  let d02 := x + 2 * g 1
  let d03 := x + 2 * g 2
  let d04 := x
  let d05 := x - 2 * g 2
  let d06 := x - 2 * g 1
  let d07 := x - 2 * g 0
  let d08 := x - 2
  let u0_01 := 1 * d00
  let u0_02 := u0_01 * d01
  let u0_03 := u0_02 * d02
  let u0_04 := u0_03 * d03
  let u0_05 := u0_04 * d04
  let u0_06 := u0_05 * d05
  let u0_07 := u0_06 * d06
  let u0_08 := u0_07 * d07
  let v0_07 := d08 * 1
  let v0_06 := d07 * v0_07
  let v0_05 := d06 * v0_06
  let v0_04 := d05 * v0_05
  let v0_03 := d04 * v0_04
  let v0_02 := d03 * v0_03
  let v0_01 := d02 * v0_02
  let v0_00 := d01 * v0_01
  let u1_02 := 1 * d01 + u0_01
  let u1_03 := u1_02 * d02 + u0_02
  let u1_04 := u1_03 * d03 + u0_03
  let u1_05 := u1_04 * d04 + u0_04
  let u1_06 := u1_05 * d05 + u0_05
  let u1_07 := u1_06 * d06 + u0_06
  let u1_08 := u1_07 * d07 + u0_07
  let v1_06 := d07 * 1 + v0_07
  let v1_05 := d06 * v1_06 + v0_06
  let v1_04 := d05 * v1_05 + v0_05
  let v1_03 := d04 * v1_04 + v0_04
  let v1_02 := d03 * v1_03 + v0_03
  let v1_01 := d02 * v1_02 + v0_02
  let v1_00 := d01 * v1_01 + v0_01
  let u2_03 := 2 * d02 + 2 * u1_02
  let u2_04 := u2_03 * d03 + 2 * u1_03
  let u2_05 := u2_04 * d04 + 2 * u1_04
  let u2_06 := u2_05 * d05 + 2 * u1_05
  let u2_07 := u2_06 * d06 + 2 * u1_06
  let u2_08 := u2_07 * d07 + 2 * u1_07
  let v2_05 := d06 * 2 + 2 * v1_06
  let v2_04 := d05 * v2_05 + 2 * v1_05
  let v2_03 := d04 * v2_04 + 2 * v1_04
  let v2_02 := d03 * v2_03 + 2 * v1_03
  let v2_01 := d02 * v2_02 + 2 * v1_02
  let v2_00 := d01 * v2_01 + 2 * v1_01
  ([
    w 0 * 1 * v0_00, w 1 * u0_01 * v0_01, w 2 * u0_02 * v0_02, w 3 * u0_03 * v0_03, w 4 * u0_04 * v0_04, w 5 * u0_05 * v0_05,
    w 6 * u0_06 * v0_06, w 7 * u0_07 * v0_07, w 8 * u0_08 * 1],
   [
    2 * w 0 * (v1_00), 2 * w 1 * (1 * v0_01 + u0_01 * v1_01), 2 * w 2 * (u1_02 * v0_02 + u0_02 * v1_02),
    2 * w 3 * (u1_03 * v0_03 + u0_03 * v1_03), 2 * w 4 * (u1_04 * v0_04 + u0_04 * v1_04), 2 * w 5 * (u1_05 * v0_05 + u0_05 * v1_05),
    2 * w 6 * (u1_06 * v0_06 + u0_06 * v1_06), 2 * w 7 * (u1_07 * v0_07 + u0_07 * 1), 2 * w 8 * (u1_08)],
   [
    4 * w 0 * (1 * v2_00), 4 * w 1 * (2 * 1 * v1_01 + u0_01 * v2_01), 4 * w 2 * (2 * v0_02 + 2 * u1_02 * v1_02 + u0_02 * v2_02),
    4 * w 3 * (u2_03 * v0_03 + 2 * u1_03 * v1_03 + u0_03 * v2_03), 4 * w 4 * (u2_04 * v0_04 + 2 * u1_04 * v1_04 + u0_04 * v2_04),
    4 * w 5 * (u2_05 * v0_05 + 2 * u1_05 * v1_05 + u0_05 * v2_05), 4 * w 6 * (u2_06 * v0_06 + 2 * u1_06 * v1_06 + u0_06 * 2),
    4 * w 7 * (u2_07 * v0_07 + 2 * u1_07 * 1), 4 * w 8 * (u2_08 * 1)])

/-- poly_imp.h:330-388 `gll_lag_10` -/
def gllLag10 (g w : Nat → K) (xh : K) : List K × List K × List K :=
  let x := xh * 2
  let d00 := x + 2
  let d01 := x + 2 * g 0
  let d02 := x + 2 * g 1
  let d03 := x + 2 * g 2
  let d04 := x + 2 * g 3
  let d05 := x - 2 * g 3
  let d06 := x - 2 * g 2
  let d07 := x - 2 * g 1
  let d08 := x - 2 * g 0
  let d09 := x - 2
  let u0_01 := 1 * d00
  let u0_02 := u0_01 * d01
  let u0_03 := u0_02 * d02
  let u0_04 := u0_03 * d03
  let u0_05 := u0_04 * d04
  let u0_06 := u0_05 * d05
  let u0_07 := u0_06 * d06
  let u0_08 := u0_07 * d07
  let u0_09 := u0_08 * d08
  let v0_08 := d09 * 1
  let v0_07 := d08 * v0_08
  let v0_06 := d07 * v0_07
  let v0_05 := d06 * v0_06
  let v0_04 := d05 * v0_05
  let v0_03 := d04 * v0_04
  let v0_02 := d03 * v0_03
  let v0_01 := d02 * v0_02
  let v0_00 := d01 * v0_01
  let u1_02 := 1 * d01 + u0_01
  let u1_03 := u1_02 * d02 + u0_02
  let u1_04 := u1_03 * d03 + u0_03
  let u1_05 := u1_04 * d04 + u0_04
  let u1_06 := u1_05 * d05 + u0_05
  let u1_07 := u1_06 * d06 + u0_06
  let u1_08 := u1_07 * d07 + u0_07
  let u1_09 := u1_08 * d08 + u0_08
  let v1_07 := d08 * 1 + v0_08
  let v1_06 := d07 * v1_07 + v0_07
  let v1_05 := d06 * v1_06 + v0_06
  let v1_04 := d05 * v1_05 + v0_05
  let v1_03 := d04 * v1_04 + v0_04
  let v1_02 := d03 * v1_03 + v0_03
  let v1_01 := d02 * v1_02 + v0_02
  let v1_00 := d01 * v1_01 + v0_01
  let u2_03 := 2 * d02 + 2 * u1_02
  let u2_04 := u2_03 * d03 + 2 * u1_03
  let u2_05 := u2_04 * d04 + 2 * u1_04
  let u2_06 := u2_05 * d05 + 2 * u1_05
  let u2_07 := u2_06 * d06 + 2 * u1_06
  let u2_08 := u2_07 * d07 + 2 * u1_07
  let u2_09 := u2_08 * d08 + 2 * u1_08
  let v2_06 := d07 * 2 + 2 * v1_07
  let v2_05 := d06 * v2_06 + 2 * v1_06
  let v2_04 := d05 * v2_05 + 2 * v1_05
  let v2_03 := d04 * v2_04 + 2 * v1_04
  let v2_02 := d03 * v2_03 + 2 * v1_03
  let v2_01 := d02 * v2_02 + 2 * v1_02
  let v2_00 := d01 * v2_01 + 2 * v1_01
  ([
    w 0 * 1 * v0_00, w 1 * u0_01 * v0_01, w 2 * u0_02 * v0_02, w 3 * u0_03 * v0_03, w 4 * u0_04 * v0_04, w 5 * u0_05 * v0_05,
    w 6 * u0_06 * v0_06, w 7 * u0_07 * v0_07, w 8 * u0_08 * v0_08, w 9 * u0_09 * 1],
   [
    2 * w 0 * (v1_00), 2 * w 1 * (1 * v0_01 + u0_01 * v1_01), 2 * w 2 * (u1_02 * v0_02 + u0_02 * v1_02),
    2 * w 3 * (u1_03 * v0_03 + u0_03 * v1_03), 2 * w 4 * (u1_04 * v0_04 + u0_04 * v1_04), 2 * w 5 * (u1_05 * v0_05 + u0_05 * v1_05),
    2 * w 6 * (u1_06 * v0_06 + u0_06 * v1_06), 2 * w 7 * (u1_07 * v0_07 + u0_07 * v1_07), 2 * w 8 * (u1_08 * v0_08 + u0_08 * 1),
    2 * w 9 * (u1_09)],
   [
    4 * w 0 * (1 * v2_00), 4 * w 1 * (2 * 1 * v1_01 + u0_01 * v2_01), 4 * w 2 * (2 * v0_02 + 2 * u1_02 * v1_02 + u0_02 * v2_02),
    4 * w 3 * (u2_03 * v0_03 + 2 * u1_03 * v1_03 + u0_03 * v2_03), 4 * w 4 * (u2_04 * v0_04 + 2 * u1_04 * v1_04 + u0_04 * v2_04),
    4 * w 5 * (u2_05 * v0_05 + 2 * u1_05 * v1_05 + u0_05 * v2_05), 4 * w 6 * (u2_06 * v0_06 + 2 * u1_06 * v1_06 + u0_06 * v2_06),
    4 * w 7 * (u2_07 * v0_07 + 2 * u1_07 * v1_07 + u0_07 * 2), 4 * w 8 * (u2_08 * v0_08 + 2 * u1_08 * 1), 4 * w 9 * (u2_09 * 1)])

/-- poly_imp.h:397-461 `gll_lag_11` -/
def gllLag11 (g w : Nat → K) (xh : K) : List K × List K × List K :=
  let x := xh * 2
  let d00 := x + 2
  let d01 := x + 2 * g 0
  let d02 := x + 2 * g 1
  let d03 := x + 2 * g 2
  let d04 := x + 2 * g 3
  let d05 := x
  let d06 := x - 2 * g 3
  let d07 := x - 2 * g 2
  let d08 := x - 2 * g 1
  let d09 := x - 2 * g 0
  let d10 := x - 2
  let u0_01 := 1 * d00
  let u0_02 := u0_01 * d01
  let u0_03 := u0_02 * d02
  let u0_04 := u0_03 * d03
  let u0_05 := u0_04 * d04
  let u0_06 := u0_05 * d05
  let u0_07 := u0_06 * d06
  let u0_08 := u0_07 * d07
  let u0_09 := u0_08 * d08
  let u0_10 := u0_09 * d09
  let v0_09 := d10 * 1
  let v0_08 := d09 * v0_09
  let v0_07 := d08 * v0_08
  let v0_06 := d07 * v0_07
  let v0_05 := d06 * v0_06
  let v0_04 := d05 * v0_05
  let v0_03 := d04 * v0_04
  let v0_02 := d03 * v0_03
  let v0_01 := d02 * v0_02
  let v0_00 := d01 * v0_01
  let u1_02 := 1 * d01 + u0_01
  let u1_03 := u1_02 * d02 + u0_02
  let u1_04 := u1_03 * d03 + u0_03
  let u1_05 := u1_04 * d04 + u0_04
  let u1_06 := u1_05 * d05 + u0_05
  let u1_07 := u1_06 * d06 + u0_06
  let u1_08 := u1_07 * d07 + u0_07
  let u1_09 := u1_08 * d08 + u0_08
  let u1_10 := u1_09 * d09 + u0_09
  let v1_08 := d09 * 1 + v0_09
  let v1_07 := d08 * v1_08 + v0_08
  let v1_06 := d07 * v1_07 + v0_07
  let v1_05 := d06 * v1_06 + v0_06
  let v1_04 := d05 * v1_05 + v0_05
  let v1_03 := d04 * v1_04 + v0_04
  let v1_02 := d03 * v1_03 + v0_03
  let v1_01 := d02 * v1_02 + v0_02
  let v1_00 := d01 * v1_01 + v0_01
  let u2_03 := 2 * d02 + 2 * u1_02
  let u2_04 := u2_03 * d03 + 2 * u1_03
  let u2_05 := u2_04 * d04 + 2 * u1_04
  let u2_06 := u2_05 * d05 + 2 * u1_05
  let u2_07 := u2_06 * d06 + 2 * u1_06
  let u2_08 := u2_07 * d07 + 2 * u1_07
  let u2_09 := u2_08 * d08 + 2 * u1_08
  let u2_10 := u2_09 * d09 + 2 * u1_09
  let v2_07 := d08 * 2 + 2 * v1_08
  let v2_06 := d07 * v2_07 + 2 * v1_07
  let v2_05 := d06 * v2_06 + 2 * v1_06
  let v2_04 := d05 * v2_05 + 2 * v1_05
  let v2_03 := d04 * v2_04 + 2 * v1_04
  let v2_02 := d03 * v2_03 + 2 * v1_03
  let v2_01 := d02 * v2_02 + 2 * v1_02
  let v2_00 := d01 * v2_01 + 2 * v1_01
  ([
    w 0 * 1 * v0_00, w 1 * u0_01 * v0_01, w 2 * u0_02 * v0_02, w 3 * u0_03 * v0_03, w 4 * u0_04 * v0_04, w 5 * u0_05 * v0_05,
    w 6 * u0_06 * v0_06, w 7 * u0_07 * v0_07, w 8 * u0_08 * v0_08, w 9 * u0_09 * v0_09, w 10 * u0_10 * 1],
   [
    2 * w 0 * (v1_00), 2 * w 1 * (1 * v0_01 + u0_01 * v1_01), 2 * w 2 * (u1_02 * v0_02 + u0_02 * v1_02),
    2 * w 3 * (u1_03 * v0_03 + u0_03 * v1_03), 2 * w 4 * (u1_04 * v0_04 + u0_04 * v1_04), 2 * w 5 * (u1_05 * v0_05 + u0_05 * v1_05),
    2 * w 6 * (u1_06 * v0_06 + u0_06 * v1_06), 2 * w 7 * (u1_07 * v0_07 + u0_07 * v1_07), 2 * w 8 * (u1_08 * v0_08 + u0_08 * v1_08),
    2 * w 9 * (u1_09 * v0_09 + u0_09 * 1), 2 * w 10 * (u1_10)],
   [
    4 * w 0 * (1 * v2_00), 4 * w 1 * (2 * 1 * v1_01 + u0_01 * v2_01), 4 * w 2 * (2 * v0_02 + 2 * u1_02 * v1_02 + u0_02 * v2_02),
    4 * w 3 * (u2_03 * v0_03 + 2 * u1_03 * v1_03 + u0_03 * v2_03), 4 * w 4 * (u2_04 * v0_04 + 2 * u1_04 * v1_04 + u0_04 * v2_04),
    4 * w 5 * (u2_05 * v0_05 + 2 * u1_05 * v1_05 + u0_05 * v2_05), 4 * w 6 * (u2_06 * v0_06 + 2 * u1_06 * v1_06 + u0_06 * v2_06),
    4 * w 7 * (u2_07 * v0_07 + 2 * u1_07 * v1_07 + u0_07 * v2_07), 4 * w 8 * (u2_08 * v0_08 + 2 * u1_08 * v1_08 + u0_08 * 2),
    4 * w 9 * (u2_09 * v0_09 + 2 * u1_09 * 1), 4 * w 10 * (u2_10 * 1)])

/-- poly_imp.h:471-539 `gll_lag_12` -/
def gllLag12 (g w : Nat → K) (xh : K) : List K × List K × List K :=
  let x := xh * 2
  let d00 := x + 2
  let d01 := x + 2 * g 0
  let d02 := x + 2 * g 1
  let d03 := x + 2 * g 2
  let d04 := x + 2 * g 3
  let d05 := x + 2 * g 4
  let d06 := x - 2 * g 4
  let d07 := x - 2 * g 3
  let d08 := x - 2 * g 2
  let d09 := x - 2 * g 1
  let d10 := x - 2 * g 0
  let d11 := x - 2
  let u0_01 := 1 * d00
  let u0_02 := u0_01 * d01
  let u0_03 := u0_02 * d02
  let u0_04 := u0_03 * d03
  let u0_05 := u0_04 * d04
  let u0_06 := u0_05 * d05
  let u0_07 := u0_06 * d06
  let u0_08 := u0_07 * d07
  let u0_09 := u0_08 * d08
  let u0_10 := u0_09 * d09
  let u0_11 := u0_10 * d10
  let v0_10 := d11 * 1
  let v0_09 := d10 * v0_10
  let v0_08 := d09 * v0_09
  let v0_07 := d08 * v0_08
  let v0_06 := d07 * v0_07
  let v0_05 := d06 * v0_06
  let v0_04 := d05 * v0_05
  let v0_03 := d04 * v0_04
  let v0_02 := d03 * v0_03
  let v0_01 := d02 * v0_02
  let v0_00 := d01 * v0_01
  let u1_02 := 1 * d01 + u0_01
  let u1_03 := u1_02 * d02 + u0_02
  let u1_04 := u1_03 * d03 + u0_03
  let u1_05 := u1_04 * d04 + u0_04
  let u1_06 := u1_05 * d05 + u0_05
  let u1_07 := u1_06 * d06 + u0_06
  let u1_08 := u1_07 * d07 + u0_07
  let u1_09 := u1_08 * d08 + u0_08
  let u1_10 := u1_09 * d09 + u0_09
  let u1_11 := u1_10 * d10 + u0_10
  let v1_09 := d10 * 1 + v0_10
  let v1_08 := d09 * v1_09 + v0_09
  let v1_07 := d08 * v1_08 + v0_08
  let v1_06 := d07 * v1_07 + v0_07
  let v1_05 := d06 * v1_06 + v0_06
  let v1_04 := d05 * v1_05 + v0_05
  let v1_03 := d04 * v1_04 + v0_04
  let v1_02 := d03 * v1_03 + v0_03
  let v1_01 := d02 * v1_02 + v0_02
  let v1_00 := d01 * v1_01 + v0_01
  let u2_03 := 2 * d02 + 2 * u1_02
  let u2_04 := u2_03 * d03 + 2 * u1_03
  let u2_05 := u2_04 * d04 + 2 * u1_04
  let u2_06 := u2_05 * d05 + 2 * u1_05
  let u2_07 := u2_06 * d06 + 2 * u1_06
  let u2_08 := u2_07 * d07 + 2 * u1_07
  let u2_09 := u2_08 * d08 + 2 * u1_08
  let u2_10 := u2_09 * d09 + 2 * u1_09
  let u2_11 := u2_10 * d10 + 2 * u1_10
  let v2_08 := d09 * 2 + 2 * v1_09
  let v2_07 := d08 * v2_08 + 2 * v1_08
  let v2_06 := d07 * v2_07 + 2 * v1_07
  let v2_05 := d06 * v2_06 + 2 * v1_06
  let v2_04 := d05 * v2_05 + 2 * v1_05
  let v2_03 := d04 * v2_04 + 2 * v1_04
  let v2_02 := d03 * v2_03 + 2 * v1_03
  let v2_01 := d02 * v2_02 + 2 * v1_02
  let v2_00 := d01 * v2_01 + 2 * v1_01
  ([
    w 0 * 1 * v0_00, w 1 * u0_01 * v0_01, w 2 * u0_02 * v0_02, w 3 * u0_03 * v0_03, w 4 * u0_04 * v0_04, w 5 * u0_05 * v0_05,
    w 6 * u0_06 * v0_06, w 7 * u0_07 * v0_07, w 8 * u0_08 * v0_08, w 9 * u0_09 * v0_09, w 10 * u0_10 * v0_10, w 11 * u0_11 * 1],
   [
    2 * w 0 * (v1_00), 2 * w 1 * (1 * v0_01 + u0_01 * v1_01), 2 * w 2 * (u1_02 * v0_02 + u0_02 * v1_02),
    2 * w 3 * (u1_03 * v0_03 + u0_03 * v1_03), 2 * w 4 * (u1_04 * v0_04 + u0_04 * v1_04), 2 * w 5 * (u1_05 * v0_05 + u0_05 * v1_05),
    2 * w 6 * (u1_06 * v0_06 + u0_06 * v1_06), 2 * w 7 * (u1_07 * v0_07 + u0_07 * v1_07), 2 * w 8 * (u1_08 * v0_08 + u0_08 * v1_08),
    2 * w 9 * (u1_09 * v0_09 + u0_09 * v1_09), 2 * w 10 * (u1_10 * v0_10 + u0_10 * 1), 2 * w 11 * (u1_11)],
   [
    4 * w 0 * (1 * v2_00), 4 * w 1 * (2 * 1 * v1_01 + u0_01 * v2_01), 4 * w 2 * (2 * v0_02 + 2 * u1_02 * v1_02 + u0_02 * v2_02),
    4 * w 3 * (u2_03 * v0_03 + 2 * u1_03 * v1_03 + u0_03 * v2_03), 4 * w 4 * (u2_04 * v0_04 + 2 * u1_04 * v1_04 + u0_04 * v2_04),
    4 * w 5 * (u2_05 * v0_05 + 2 * u1_05 * v1_05 + u0_05 * v2_05), 4 * w 6 * (u2_06 * v0_06 + 2 * u1_06 * v1_06 + u0_06 * v2_06),
    4 * w 7 * (u2_07 * v0_07 + 2 * u1_07 * v1_07 + u0_07 * v2_07), 4 * w 8 * (u2_08 * v0_08 + 2 * u1_08 * v1_08 + u0_08 * v2_08),
    4 * w 9 * (u2_09 * v0_09 + 2 * u1_09 * v1_09 + u0_09 * 2), 4 * w 10 * (u2_10 * v0_10 + 2 * u1_10 * 1), 4 * w 11 * (u2_11 * 1)])

/-- poly_imp.h:549-623 `gll_lag_13` -/
def gllLag13 (g w : Nat → K) (xh : K) : List K × List K × List K :=
  let x := xh * 2
  let d00 := x + 2
  let d01 := x + 2 * g 0
  let d02 := x + 2 * g 1
  let d03 := x + 2 * g 2
  let d04 := x + 2 * g 3
  let d05 := x + 2 * g 4
  let d06 := x
  let d07 := x - 2 * g 4
  let d08 := x - 2 * g 3
  let d09 := x - 2 * g 2
  let d10 := x - 2 * g 1
  let d11 := x - 2 * g 0
  let d12 := x - 2
  let u0_01 := 1 * d00
  let u0_02 := u0_01 * d01
  let u0_03 := u0_02 * d02
  let u0_04 := u0_03 * d03
  let u0_05 := u0_04 * d04
  let u0_06 := u0_05 * d05
  let u0_07 := u0_06 * d06
  let u0_08 := u0_07 * d07
  let u0_09 := u0_08 * d08
  let u0_10 := u0_09 * d09
  let u0_11 := u0_10 * d10
  let u0_12 := u0_11 * d11
  let v0_11 := d12 * 1
  let v0_10 := d11 * v0_11
  let v0_09 := d10 * v0_10
  let v0_08 := d09 * v0_09
  let v0_07 := d08 * v0_08
  let v0_06 := d07 * v0_07
  let v0_05 := d06 * v0_06
  let v0_04 := d05 * v0_05
  let v0_03 := d04 * v0_04
  let v0_02 := d03 * v0_03
  let v0_01 := d02 * v0_02
  let v0_00 := d01 * v0_01
  let u1_02 := 1 * d01 + u0_01
  let u1_03 := u1_02 * d02 + u0_02
  let u1_04 := u1_03 * d03 + u0_03
  let u1_05 := u1_04 * d04 + u0_04
  let u1_06 := u1_05 * d05 + u0_05
  let u1_07 := u1_06 * d06 + u0_06
  let u1_08 := u1_07 * d07 + u0_07
  let u1_09 := u1_08 * d08 + u0_08
  let u1_10 := u1_09 * d09 + u0_09
  let u1_11 := u1_10 * d10 + u0_10
  let u1_12 := u1_11 * d11 + u0_11
  let v1_10 := d11 * 1 + v0_11
  let v1_09 := d10 * v1_10 + v0_10
  let v1_08 := d09 * v1_09 + v0_09
  let v1_07 := d08 * v1_08 + v0_08
  let v1_06 := d07 * v1_07 + v0_07
  let v1_05 := d06 * v1_06 + v0_06
  let v1_04 := d05 * v1_05 + v0_05
  let v1_03 := d04 * v1_04 + v0_04
  let v1_02 := d03 * v1_03 + v0_03
  let v1_01 := d02 * v1_02 + v0_02
  let v1_00 := d01 * v1_01 + v0_01
  let u2_03 := 2 * d02 + 2 * u1_02
  let u2_04 := u2_03 * d03 + 2 * u1_03
  let u2_05 := u2_04 * d04 + 2 * u1_04
  let u2_06 := u2_05 * d05 + 2 * u1_05
  let u2_07 := u2_06 * d06 + 2 * u1_06
  let u2_08 := u2_07 * d07 + 2 * u1_07
  let u2_09 := u2_08 * d08 + 2 * u1_08
  let u2_10 := u2_09 * d09 + 2 * u1_09
  let u2_11 := u2_10 * d10 + 2 * u1_10
  let u2_12 := u2_11 * d11 + 2 * u1_11
  let v2_09 := d10 * 2 + 2 * v1_10
  let v2_08 := d09 * v2_09 + 2 * v1_09
  let v2_07 := d08 * v2_08 + 2 * v1_08
  let v2_06 := d07 * v2_07 + 2 * v1_07
  let v2_05 := d06 * v2_06 + 2 * v1_06
  let v2_04 := d05 * v2_05 + 2 * v1_05
  let v2_03 := d04 * v2_04 + 2 * v1_04
  let v2_02 := d03 * v2_03 + 2 * v1_03
  let v2_01 := d02 * v2_02 + 2 * v1_02
  let v2_00 := d01 * v2_01 + 2 * v1_01
  ([
    w 0 * 1 * v0_00, w 1 * u0_01 * v0_01, w 2 * u0_02 * v0_02, w 3 * u0_03 * v0_03, w 4 * u0_04 * v0_04, w 5 * u0_05 * v0_05,
    w 6 * u0_06 * v0_06, w 7 * u0_07 * v0_07, w 8 * u0_08 * v0_08, w 9 * u0_09 * v0_09, w 10 * u0_10 * v0_10, w 11 * u0_11 * v0_11,
    w 12 * u0_12 * 1],
   [
    2 * w 0 * (v1_00), 2 * w 1 * (1 * v0_01 + u0_01 * v1_01), 2 * w 2 * (u1_02 * v0_02 + u0_02 * v1_02),
    2 * w 3 * (u1_03 * v0_03 + u0_03 * v1_03), 2 * w 4 * (u1_04 * v0_04 + u0_04 * v1_04), 2 * w 5 * (u1_05 * v0_05 + u0_05 * v1_05),
    2 * w 6 * (u1_06 * v0_06 + u0_06 * v1_06), 2 * w 7 * (u1_07 * v0_07 + u0_07 * v1_07), 2 * w 8 * (u1_08 * v0_08 + u0_08 * v1_08),
    2 * w 9 * (u1_09 * v0_09 + u0_09 * v1_09), 2 * w 10 * (u1_10 * v0_10 + u0_10 * v1_10), 2 * w 11 * (u1_11 * v0_11 + u0_11 * 1),
    2 * w 12 * (u1_12)],
   [
    4 * w 0 * (1 * v2_00), 4 * w 1 * (2 * 1 * v1_01 + u0_01 * v2_01), 4 * w 2 * (2 * v0_02 + 2 * u1_02 * v1_02 + u0_02 * v2_02),
    4 * w 3 * (u2_03 * v0_03 + 2 * u1_03 * v1_03 + u0_03 * v2_03), 4 * w 4 * (u2_04 * v0_04 + 2 * u1_04 * v1_04 + u0_04 * v2_04),
    4 * w 5 * (u2_05 * v0_05 + 2 * u1_05 * v1_05 + u0_05 * v2_05), 4 * w 6 * (u2_06 * v0_06 + 2 * u1_06 * v1_06 + u0_06 * v2_06),
    4 * w 7 * (u2_07 * v0_07 + 2 * u1_07 * v1_07 + u0_07 * v2_07), 4 * w 8 * (u2_08 * v0_08 + 2 * u1_08 * v1_08 + u0_08 * v2_08),
    4 * w 9 * (u2_09 * v0_09 + 2 * u1_09 * v1_09 + u0_09 * v2_09), 4 * w 10 * (u2_10 * v0_10 + 2 * u1_10 * v1_10 + u0_10 * 2),
    4 * w 11 * (u2_11 * v0_11 + 2 * u1_11 * 1), 4 * w 12 * (u2_12 * 1)])

/-- poly_imp.h:634-714 `gll_lag_14` -/
def gllLag14 (g w : Nat → K) (xh : K) : List K × List K × List K :=
  let x := xh * 2
  let d00 := x + 2
  let d01 := x + 2 * g 0
  let d02 := x + 2 * g 1
  let d03 := x + 2 * g 2
  let d04 := x + 2 * g 3
  let d05 := x + 2 * g 4
  let d06 := x + 2 * g 5
  let d07 := x - 2 * g 5
  let d08 := x - 2 * g 4
  let d09 := x - 2 * g 3
  let d10 := x - 2 * g 2
  let d11 := x - 2 * g 1
  let d12 := x - 2 * g 0
  let d13 := x - 2
  let u0_01 := 1 * d00
  let u0_02 := u0_01 * d01
  let u0_03 := u0_02 * d02
  let u0_04 := u0_03 * d03
  let u0_05 := u0_04 * d04
  let u0_06 := u0_05 * d05
  let u0_07 := u0_06 * d06
  let u0_08 := u0_07 * d07
  let u0_09 := u0_08 * d08
  let u0_10 := u0_09 * d09
  let u0_11 := u0_10 * d10
  let u0_12 := u0_11 * d11
  let u0_13 := u0_12 * d12
  let v0_12 := d13 * 1
  let v0_11 := d12 * v0_12
  let v0_10 := d11 * v0_11
  let v0_09 := d10 * v0_10
  let v0_08 := d09 * v0_09
  let v0_07 := d08 * v0_08
  let v0_06 := d07 * v0_07
  let v0_05 := d06 * v0_06
  let v0_04 := d05 * v0_05
  let v0_03 := d04 * v0_04
  let v0_02 := d03 * v0_03
  let v0_01 := d02 * v0_02
  let v0_00 := d01 * v0_01
  let u1_02 := 1 * d01 + u0_01
  let u1_03 := u1_02 * d02 + u0_02
  let u1_04 := u1_03 * d03 + u0_03
  let u1_05 := u1_04 * d04 + u0_04
  let u1_06 := u1_05 * d05 + u0_05
  let u1_07 := u1_06 * d06 + u0_06
  let u1_08 := u1_07 * d07 + u0_07
  let u1_09 := u1_08 * d08 + u0_08
  let u1_10 := u1_09 * d09 + u0_09
  let u1_11 := u1_10 * d10 + u0_10
  let u1_12 := u1_11 * d11 + u0_11
  let u1_13 := u1_12 * d12 + u0_12
  let v1_11 := d12 * 1 + v0_12
  let v1_10 := d11 * v1_11 + v0_11
  let v1_09 := d10 * v1_10 + v0_10
  let v1_08 := d09 * v1_09 + v0_09
  let v1_07 := d08 * v1_08 + v0_08
  let v1_06 := d07 * v1_07 + v0_07
  let v1_05 := d06 * v1_06 + v0_06
  let v1_04 := d05 * v1_05 + v0_05
  let v1_03 := d04 * v1_04 + v0_04
  let v1_02 := d03 * v1_03 + v0_03
  let v1_01 := d02 * v1_02 + v0_02
  let v1_00 := d01 * v1_01 + v0_01
  let u2_03 := 2 * d02 + 2 * u1_02
  let u2_04 := u2_03 * d03 + 2 * u1_03
  let u2_05 := u2_04 * d04 + 2 * u1_04
  let u2_06 := u2_05 * d05 + 2 * u1_05
  let u2_07 := u2_06 * d06 + 2 * u1_06
  let u2_08 := u2_07 * d07 + 2 * u1_07
  let u2_09 := u2_08 * d08 + 2 * u1_08
  let u2_10 := u2_09 * d09 + 2 * u1_09
  let u2_11 := u2_10 * d10 + 2 * u1_10
  let u2_12 := u2_11 * d11 + 2 * u1_11
  let u2_13 := u2_12 * d12 + 2 * u1_12
  let v2_10 := d11 * 2 + 2 * v1_11
  let v2_09 := d10 * v2_10 + 2 * v1_10
  let v2_08 := d09 * v2_09 + 2 * v1_09
  let v2_07 := d08 * v2_08 + 2 * v1_08
  let v2_06 := d07 * v2_07 + 2 * v1_07
  let v2_05 := d06 * v2_06 + 2 * v1_06
  let v2_04 := d05 * v2_05 + 2 * v1_05
  let v2_03 := d04 * v2_04 + 2 * v1_04
  let v2_02 := d03 * v2_03 + 2 * v1_03
  let v2_01 := d02 * v2_02 + 2 * v1_02
  let v2_00 := d01 * v2_01 + 2 * v1_01
  ([
    w 0 * 1 * v0_00, w 1 * u0_01 * v0_01, w 2 * u0_02 * v0_02, w 3 * u0_03 * v0_03, w 4 * u0_04 * v0_04, w 5 * u0_05 * v0_05,
    w 6 * u0_06 * v0_06, w 7 * u0_07 * v0_07, w 8 * u0_08 * v0_08, w 9 * u0_09 * v0_09, w 10 * u0_10 * v0_10, w 11 * u0_11 * v0_11,
    w 12 * u0_12 * v0_12, w 13 * u0_13 * 1],
   [
    2 * w 0 * (v1_00), 2 * w 1 * (1 * v0_01 + u0_01 * v1_01), 2 * w 2 * (u1_02 * v0_02 + u0_02 * v1_02),
    2 * w 3 * (u1_03 * v0_03 + u0_03 * v1_03), 2 * w 4 * (u1_04 * v0_04 + u0_04 * v1_04), 2 * w 5 * (u1_05 * v0_05 + u0_05 * v1_05),
    2 * w 6 * (u1_06 * v0_06 + u0_06 * v1_06), 2 * w 7 * (u1_07 * v0_07 + u0_07 * v1_07), 2 * w 8 * (u1_08 * v0_08 + u0_08 * v1_08),
    2 * w 9 * (u1_09 * v0_09 + u0_09 * v1_09), 2 * w 10 * (u1_10 * v0_10 + u0_10 * v1_10), 2 * w 11 * (u1_11 * v0_11 + u0_11 * v1_11),
    2 * w 12 * (u1_12 * v0_12 + u0_12 * 1), 2 * w 13 * (u1_13)],
   [
    4 * w 0 * (1 * v2_00), 4 * w 1 * (2 * 1 * v1_01 + u0_01 * v2_01), 4 * w 2 * (2 * v0_02 + 2 * u1_02 * v1_02 + u0_02 * v2_02),
    4 * w 3 * (u2_03 * v0_03 + 2 * u1_03 * v1_03 + u0_03 * v2_03), 4 * w 4 * (u2_04 * v0_04 + 2 * u1_04 * v1_04 + u0_04 * v2_04),
    4 * w 5 * (u2_05 * v0_05 + 2 * u1_05 * v1_05 + u0_05 * v2_05), 4 * w 6 * (u2_06 * v0_06 + 2 * u1_06 * v1_06 + u0_06 * v2_06),
    4 * w 7 * (u2_07 * v0_07 + 2 * u1_07 * v1_07 + u0_07 * v2_07), 4 * w 8 * (u2_08 * v0_08 + 2 * u1_08 * v1_08 + u0_08 * v2_08),
    4 * w 9 * (u2_09 * v0_09 + 2 * u1_09 * v1_09 + u0_09 * v2_09), 4 * w 10 * (u2_10 * v0_10 + 2 * u1_10 * v1_10 + u0_10 * v2_10),
    4 * w 11 * (u2_11 * v0_11 + 2 * u1_11 * v1_11 + u0_11 * 2), 4 * w 12 * (u2_12 * v0_12 + 2 * u1_12 * 1), 4 * w 13 * (u2_13 * 1)])

/-- poly_imp.h:725-809 `gll_lag_15` -/
def gllLag15 (g w : Nat → K) (xh : K) : List K × List K × List K :=
  let x := xh * 2
  let d00 := x + 2
  let d01 := x + 2 * g 0
  let d02 := x + 2 * g 1
  let d03 := x + 2 * g 2
  let d04 := x + 2 * g 3
  let d05 := x + 2 * g 4
  let d06 := x + 2 * g 5
  let d07 := x
  let d08 := x - 2 * g 5
  let d09 := x - 2 * g 4
  let d10 := x - 2 * g 3
  let d11 := x - 2 * g 2
  let d12 := x - 2 * g 1
  let d13 := x - 2 * g 0
  let d14 := x - 2
  let u0_01 := 1 * d00
  let u0_02 := u0_01 * d01
  let u0_03 := u0_02 * d02
  let u0_04 := u0_03 * d03
  let u0_05 := u0_04 * d04
  let u0_06 := u0_05 * d05
  let u0_07 := u0_06 * d06
  let u0_08 := u0_07 * d07
  let u0_09 := u0_08 * d08
  let u0_10 := u0_09 * d09
  let u0_11 := u0_10 * d10
  let u0_12 := u0_11 * d11
  let u0_13 := u0_12 * d12
  let u0_14 := u0_13 * d13
  let v0_13 := d14 * 1
  let v0_12 := d13 * v0_13
  let v0_11 := d12 * v0_12
  let v0_10 := d11 * v0_11
  let v0_09 := d10 * v0_10
  let v0_08 := d09 * v0_09
  let v0_07 := d08 * v0_08
  let v0_06 := d07 * v0_07
  let v0_05 := d06 * v0_06
  let v0_04 := d05 * v0_05
  let v0_03 := d04 * v0_04
  let v0_02 := d03 * v0_03
  let v0_01 := d02 * v0_02
  let v0_00 := d01 * v0_01
  let u1_02 := 1 * d01 + u0_01
  let u1_03 := u1_02 * d02 + u0_02
  let u1_04 := u1_03 * d03 + u0_03
  let u1_05 := u1_04 * d04 + u0_04
  let u1_06 := u1_05 * d05 + u0_05
  let u1_07 := u1_06 * d06 + u0_06
  let u1_08 := u1_07 * d07 + u0_07
  let u1_09 := u1_08 * d08 + u0_08
  let u1_10 := u1_09 * d09 + u0_09
  let u1_11 := u1_10 * d10 + u0_10
  let u1_12 := u1_11 * d11 + u0_11
  let u1_13 := u1_12 * d12 + u0_12
  let u1_14 := u1_13 * d13 + u0_13
  let v1_12 := d13 * 1 + v0_13
  let v1_11 := d12 * v1_12 + v0_12
  let v1_10 := d11 * v1_11 + v0_11
  let v1_09 := d10 * v1_10 + v0_10
  let v1_08 := d09 * v1_09 + v0_09
  let v1_07 := d08 * v1_08 + v0_08
  let v1_06 := d07 * v1_07 + v0_07
  let v1_05 := d06 * v1_06 + v0_06
  let v1_04 := d05 * v1_05 + v0_05
  let v1_03 := d04 * v1_04 + v0_04
  let v1_02 := d03 * v1_03 + v0_03
  let v1_01 := d02 * v1_02 + v0_02
  let v1_00 := d01 * v1_01 + v0_01
  let u2_03 := 2 * d02 + 2 * u1_02
  let u2_04 := u2_03 * d03 + 2 * u1_03
  let u2_05 := u2_04 * d04 + 2 * u1_04
  let u2_06 := u2_05 * d05 + 2 * u1_05
  let u2_07 := u2_06 * d06 + 2 * u1_06
  let u2_08 := u2_07 * d07 + 2 * u1_07
  let u2_09 := u2_08 * d08 + 2 * u1_08
  let u2_10 := u2_09 * d09 + 2 * u1_09
  let u2_11 := u2_10 * d10 + 2 * u1_10
  let u2_12 := u2_11 * d11 + 2 * u1_11
  let u2_13 := u2_12 * d12 + 2 * u1_12
  let u2_14 := u2_13 * d13 + 2 * u1_13
  let v2_11 := d12 * 2 + 2 * v1_12
  let v2_10 := d11 * v2_11 + 2 * v1_11
  let v2_09 := d10 * v2_10 + 2 * v1_10
  let v2_08 := d09 * v2_09 + 2 * v1_09
  let v2_07 := d08 * v2_08 + 2 * v1_08
  let v2_06 := d07 * v2_07 + 2 * v1_07
  let v2_05 := d06 * v2_06 + 2 * v1_06
  let v2_04 := d05 * v2_05 + 2 * v1_05
  let v2_03 := d04 * v2_04 + 2 * v1_04
  let v2_02 := d03 * v2_03 + 2 * v1_03
  let v2_01 := d02 * v2_02 + 2 * v1_02
  let v2_00 := d01 * v2_01 + 2 * v1_01
  ([
    w 0 * 1 * v0_00, w 1 * u0_01 * v0_01, w 2 * u0_02 * v0_02, w 3 * u0_03 * v0_03, w 4 * u0_04 * v0_04, w 5 * u0_05 * v0_05,
    w 6 * u0_06 * v0_06, w 7 * u0_07 * v0_07, w 8 * u0_08 * v0_08, w 9 * u0_09 * v0_09, w 10 * u0_10 * v0_10, w 11 * u0_11 * v0_11,
    w 12 * u0_12 * v0_12, w 13 * u0_13 * v0_13, w 14 * u0_14 * 1],
   [
    2 * w 0 * (v1_00), 2 * w 1 * (1 * v0_01 + u0_01 * v1_01), 2 * w 2 * (u1_02 * v0_02 + u0_02 * v1_02),
    2 * w 3 * (u1_03 * v0_03 + u0_03 * v1_03), 2 * w 4 * (u1_04 * v0_04 + u0_04 * v1_04), 2 * w 5 * (u1_05 * v0_05 + u0_05 * v1_05),
    2 * w 6 * (u1_06 * v0_06 + u0_06 * v1_06), 2 * w 7 * (u1_07 * v0_07 + u0_07 * v1_07), 2 * w 8 * (u1_08 * v0_08 + u0_08 * v1_08),
    2 * w 9 * (u1_09 * v0_09 + u0_09 * v1_09), 2 * w 10 * (u1_10 * v0_10 + u0_10 * v1_10), 2 * w 11 * (u1_11 * v0_11 + u0_11 * v1_11),
    2 * w 12 * (u1_12 * v0_12 + u0_12 * v1_12), 2 * w 13 * (u1_13 * v0_13 + u0_13 * 1), 2 * w 14 * (u1_14)],
   [
    4 * w 0 * (1 * v2_00), 4 * w 1 * (2 * 1 * v1_01 + u0_01 * v2_01), 4 * w 2 * (2 * v0_02 + 2 * u1_02 * v1_02 + u0_02 * v2_02),
    4 * w 3 * (u2_03 * v0_03 + 2 * u1_03 * v1_03 + u0_03 * v2_03), 4 * w 4 * (u2_04 * v0_04 + 2 * u1_04 * v1_04 + u0_04 * v2_04),
    4 * w 5 * (u2_05 * v0_05 + 2 * u1_05 * v1_05 + u0_05 * v2_05), 4 * w 6 * (u2_06 * v0_06 + 2 * u1_06 * v1_06 + u0_06 * v2_06),
    4 * w 7 * (u2_07 * v0_07 + 2 * u1_07 * v1_07 + u0_07 * v2_07), 4 * w 8 * (u2_08 * v0_08 + 2 * u1_08 * v1_08 + u0_08 * v2_08),
    4 * w 9 * (u2_09 * v0_09 + 2 * u1_09 * v1_09 + u0_09 * v2_09), 4 * w 10 * (u2_10 * v0_10 + 2 * u1_10 * v1_10 + u0_10 * v2_10),
    4 * w 11 * (u2_11 * v0_11 + 2 * u1_11 * v1_11 + u0_11 * v2_11), 4 * w 12 * (u2_12 * v0_12 + 2 * u1_12 * v1_12 + u0_12 * 2),
    4 * w 13 * (u2_13 * v0_13 + 2 * u1_13 * 1), 4 * w 14 * (u2_14 * 1)])

/-- poly_imp.h:821-911 `gll_lag_16` -/
def gllLag16 (g w : Nat → K) (xh : K) : List K × List K × List K :=
  let x := xh * 2
  let d00 := x + 2
  let d01 := x + 2 * g 0
  let d02 := x + 2 * g 1
  let d03 := x + 2 * g 2
  let d04 := x + 2 * g 3
  let d05 := x + 2 * g 4
  let d06 := x + 2 * g 5
  let d07 := x + 2 * g 6
  let d08 := x - 2 * g 6
  let d09 := x - 2 * g 5
  let d10 := x - 2 * g 4
  let d11 := x - 2 * g 3
  let d12 := x - 2 * g 2
  let d13 := x - 2 * g 1
  let d14 := x - 2 * g 0
  let d15 := x - 2
  let u0_01 := 1 * d00
  let u0_02 := u0_01 * d01
  let u0_03 := u0_02 * d02
  let u0_04 := u0_03 * d03
  let u0_05 := u0_04 * d04
  let u0_06 := u0_05 * d05
  let u0_07 := u0_06 * d06
  let u0_08 := u0_07 * d07
  let u0_09 := u0_08 * d08
  let u0_10 := u0_09 * d09
  let u0_11 := u0_10 * d10
  let u0_12 := u0_11 * d11
  let u0_13 := u0_12 * d12
  let u0_14 := u0_13 * d13
  let u0_15 := u0_14 * d14
  let v0_14 := d15 * 1
  let v0_13 := d14 * v0_14
  let v0_12 := d13 * v0_13
  let v0_11 := d12 * v0_12
  let v0_10 := d11 * v0_11
  let v0_09 := d10 * v0_10
  let v0_08 := d09 * v0_09
  let v0_07 := d08 * v0_08
  let v0_06 := d07 * v0_07
  let v0_05 := d06 * v0_06
  let v0_04 := d05 * v0_05
  let v0_03 := d04 * v0_04
  let v0_02 := d03 * v0_03
  let v0_01 := d02 * v0_02
  let v0_00 := d01 * v0_01
  let u1_02 := 1 * d01 + u0_01
  let u1_03 := u1_02 * d02 + u0_02
  let u1_04 := u1_03 * d03 + u0_03
  let u1_05 := u1_04 * d04 + u0_04
  let u1_06 := u1_05 * d05 + u0_05
  let u1_07 := u1_06 * d06 + u0_06
  let u1_08 := u1_07 * d07 + u0_07
  let u1_09 := u1_08 * d08 + u0_08
  let u1_10 := u1_09 * d09 + u0_09
  let u1_11 := u1_10 * d10 + u0_10
  let u1_12 := u1_11 * d11 + u0_11
  let u1_13 := u1_12 * d12 + u0_12
  let u1_14 := u1_13 * d13 + u0_13
  let u1_15 := u1_14 * d14 + u0_14
  let v1_13 := d14 * 1 + v0_14
  let v1_12 := d13 * v1_13 + v0_13
  let v1_11 := d12 * v1_12 + v0_12
  let v1_10 := d11 * v1_11 + v0_11
  let v1_09 := d10 * v1_10 + v0_10
  let v1_08 := d09 * v1_09 + v0_09
  let v1_07 := d08 * v1_08 + v0_08
  let v1_06 := d07 * v1_07 + v0_07
  let v1_05 := d06 * v1_06 + v0_06
  let v1_04 := d05 * v1_05 + v0_05
  let v1_03 := d04 * v1_04 + v0_04
  let v1_02 := d03 * v1_03 + v0_03
  let v1_01 := d02 * v1_02 + v0_02
  let v1_00 := d01 * v1_01 + v0_01
  let u2_03 := 2 * d02 + 2 * u1_02
  let u2_04 := u2_03 * d03 + 2 * u1_03
  let u2_05 := u2_04 * d04 + 2 * u1_04
  let u2_06 := u2_05 * d05 + 2 * u1_05
  let u2_07 := u2_06 * d06 + 2 * u1_06
  let u2_08 := u2_07 * d07 + 2 * u1_07
  let u2_09 := u2_08 * d08 + 2 * u1_08
  let u2_10 := u2_09 * d09 + 2 * u1_09
  let u2_11 := u2_10 * d10 + 2 * u1_10
  let u2_12 := u2_11 * d11 + 2 * u1_11
  let u2_13 := u2_12 * d12 + 2 * u1_12
  let u2_14 := u2_13 * d13 + 2 * u1_13
  let u2_15 := u2_14 * d14 + 2 * u1_14
  let v2_12 := d13 * 2 + 2 * v1_13
  let v2_11 := d12 * v2_12 + 2 * v1_12
  let v2_10 := d11 * v2_11 + 2 * v1_11
  let v2_09 := d10 * v2_10 + 2 * v1_10
  let v2_08 := d09 * v2_09 + 2 * v1_09
  let v2_07 := d08 * v2_08 + 2 * v1_08
  let v2_06 := d07 * v2_07 + 2 * v1_07
  let v2_05 := d06 * v2_06 + 2 * v1_06
  let v2_04 := d05 * v2_05 + 2 * v1_05
  let v2_03 := d04 * v2_04 + 2 * v1_04
  let v2_02 := d03 * v2_03 + 2 * v1_03
  let v2_01 := d02 * v2_02 + 2 * v1_02
  let v2_00 := d01 * v2_01 + 2 * v1_01
  ([
    w 0 * 1 * v0_00, w 1 * u0_01 * v0_01, w 2 * u0_02 * v0_02, w 3 * u0_03 * v0_03, w 4 * u0_04 * v0_04, w 5 * u0_05 * v0_05,
    w 6 * u0_06 * v0_06, w 7 * u0_07 * v0_07, w 8 * u0_08 * v0_08, w 9 * u0_09 * v0_09, w 10 * u0_10 * v0_10, w 11 * u0_11 * v0_11,
    w 12 * u0_12 * v0_12, w 13 * u0_13 * v0_13, w 14 * u0_14 * v0_14, w 15 * u0_15 * 1],
   [
    2 * w 0 * (v1_00), 2 * w 1 * (1 * v0_01 + u0_01 * v1_01), 2 * w 2 * (u1_02 * v0_02 + u0_02 * v1_02),
    2 * w 3 * (u1_03 * v0_03 + u0_03 * v1_03), 2 * w 4 * (u1_04 * v0_04 + u0_04 * v1_04), 2 * w 5 * (u1_05 * v0_05 + u0_05 * v1_05),
    2 * w 6 * (u1_06 * v0_06 + u0_06 * v1_06), 2 * w 7 * (u1_07 * v0_07 + u0_07 * v1_07), 2 * w 8 * (u1_08 * v0_08 + u0_08 * v1_08),
    2 * w 9 * (u1_09 * v0_09 + u0_09 * v1_09), 2 * w 10 * (u1_10 * v0_10 + u0_10 * v1_10), 2 * w 11 * (u1_11 * v0_11 + u0_11 * v1_11),
    2 * w 12 * (u1_12 * v0_12 + u0_12 * v1_12), 2 * w 13 * (u1_13 * v0_13 + u0_13 * v1_13), 2 * w 14 * (u1_14 * v0_14 + u0_14 * 1),
    2 * w 15 * (u1_15)],
   [
    4 * w 0 * (1 * v2_00), 4 * w 1 * (2 * 1 * v1_01 + u0_01 * v2_01), 4 * w 2 * (2 * v0_02 + 2 * u1_02 * v1_02 + u0_02 * v2_02),
    4 * w 3 * (u2_03 * v0_03 + 2 * u1_03 * v1_03 + u0_03 * v2_03), 4 * w 4 * (u2_04 * v0_04 + 2 * u1_04 * v1_04 + u0_04 * v2_04),
    4 * w 5 * (u2_05 * v0_05 + 2 * u1_05 * v1_05 + u0_05 * v2_05), 4 * w 6 * (u2_06 * v0_06 + 2 * u1_06 * v1_06 + u0_06 * v2_06),
    4 * w 7 * (u2_07 * v0_07 + 2 * u1_07 * v1_07 + u0_07 * v2_07), 4 * w 8 * (u2_08 * v0_08 + 2 * u1_08 * v1_08 + u0_08 * v2_08),
    4 * w 9 * (u2_09 * v0_09 + 2 * u1_09 * v1_09 + u0_09 * v2_09), 4 * w 10 * (u2_10 * v0_10 + 2 * u1_10 * v1_10 + u0_10 * v2_10),
    4 * w 11 * (u2_11 * v0_11 + 2 * u1_11 * v1_11 + u0_11 * v2_11), 4 * w 12 * (u2_12 * v0_12 + 2 * u1_12 * v1_12 + u0_12 * v2_12),
    4 * w 13 * (u2_13 * v0_13 + 2 * u1_13 * v1_13 + u0_13 * 2), 4 * w 14 * (u2_14 * v0_14 + 2 * u1_14 * 1), 4 * w 15 * (u2_15 * 1)])

/-- poly_imp.h:923-1019 `gll_lag_17` -/
def gllLag17 (g w : Nat → K) (xh : K) : List K × List K × List K :=
  let x := xh * 2
  let d00 := x + 2
  let d01 := x + 2 * g 0
  let d02 := x + 2 * g 1
  let d03 := x + 2 * g 2
  let d04 := x + 2 * g 3
  let d05 := x + 2 * g 4
  let d06 := x + 2 * g 5
  let d07 := x + 2 * g 6
  let d08 := x
  let d09 := x - 2 * g 6
  let d10 := x - 2 * g 5
  let d11 := x - 2 * g 4
  let d12 := x - 2 * g 3
  let d13 := x - 2 * g 2
  let d14 := x - 2 * g 1
  let d15 := x - 2 * g 0
  let d16 := x - 2
  let u0_01 := 1 * d00
  let u0_02 := u0_01 * d01
  let u0_03 := u0_02 * d02
  let u0_04 := u0_03 * d03
  let u0_05 := u0_04 * d04
  let u0_06 := u0_05 * d05
  let u0_07 := u0_06 * d06
  let u0_08 := u0_07 * d07
  let u0_09 := u0_08 * d08
  let u0_10 := u0_09 * d09
  let u0_11 := u0_10 * d10
  let u0_12 := u0_11 * d11
  let u0_13 := u0_12 * d12
  let u0_14 := u0_13 * d13
  let u0_15 := u0_14 * d14
  let u0_16 := u0_15 * d15
  let v0_15 := d16 * 1
  let v0_14 := d15 * v0_15
  let v0_13 := d14 * v0_14
  let v0_12 := d13 * v0_13
  let v0_11 := d12 * v0_12
  let v0_10 := d11 * v0_11
  let v0_09 := d10 * v0_10
  let v0_08 := d09 * v0_09
  let v0_07 := d08 * v0_08
  let v0_06 := d07 * v0_07
  let v0_05 := d06 * v0_06
  let v0_04 := d05 * v0_05
  let v0_03 := d04 * v0_04
  let v0_02 := d03 * v0_03
  let v0_01 := d02 * v0_02
  let v0_00 := d01 * v0_01
  let u1_02 := 1 * d01 + u0_01
  let u1_03 := u1_02 * d02 + u0_02
  let u1_04 := u1_03 * d03 + u0_03
  let u1_05 := u1_04 * d04 + u0_04
  let u1_06 := u1_05 * d05 + u0_05
  let u1_07 := u1_06 * d06 + u0_06
  let u1_08 := u1_07 * d07 + u0_07
  let u1_09 := u1_08 * d08 + u0_08
  let u1_10 := u1_09 * d09 + u0_09
  let u1_11 := u1_10 * d10 + u0_10
  let u1_12 := u1_11 * d11 + u0_11
  let u1_13 := u1_12 * d12 + u0_12
  let u1_14 := u1_13 * d13 + u0_13
  let u1_15 := u1_14 * d14 + u0_14
  let u1_16 := u1_15 * d15 + u0_15
  let v1_14 := d15 * 1 + v0_15
  let v1_13 := d14 * v1_14 + v0_14
  let v1_12 := d13 * v1_13 + v0_13
  let v1_11 := d12 * v1_12 + v0_12
  let v1_10 := d11 * v1_11 + v0_11
  let v1_09 := d10 * v1_10 + v0_10
  let v1_08 := d09 * v1_09 + v0_09
  let v1_07 := d08 * v1_08 + v0_08
  let v1_06 := d07 * v1_07 + v0_07
  let v1_05 := d06 * v1_06 + v0_06
  let v1_04 := d05 * v1_05 + v0_05
  let v1_03 := d04 * v1_04 + v0_04
  let v1_02 := d03 * v1_03 + v0_03
  let v1_01 := d02 * v1_02 + v0_02
  let v1_00 := d01 * v1_01 + v0_01
  let u2_03 := 2 * d02 + 2 * u1_02
  let u2_04 := u2_03 * d03 + 2 * u1_03
  let u2_05 := u2_04 * d04 + 2 * u1_04
  let u2_06 := u2_05 * d05 + 2 * u1_05
  let u2_07 := u2_06 * d06 + 2 * u1_06
  let u2_08 := u2_07 * d07 + 2 * u1_07
  let u2_09 := u2_08 * d08 + 2 * u1_08
  let u2_10 := u2_09 * d09 + 2 * u1_09
  let u2_11 := u2_10 * d10 + 2 * u1_10
  let u2_12 := u2_11 * d11 + 2 * u1_11
  let u2_13 := u2_12 * d12 + 2 * u1_12
  let u2_14 := u2_13 * d13 + 2 * u1_13
  let u2_15 := u2_14 * d14 + 2 * u1_14
  let u2_16 := u2_15 * d15 + 2 * u1_15
  let v2_13 := d14 * 2 + 2 * v1_14
  let v2_12 := d13 * v2_13 + 2 * v1_13
  let v2_11 := d12 * v2_12 + 2 * v1_12
  let v2_10 := d11 * v2_11 + 2 * v1_11
  let v2_09 := d10 * v2_10 + 2 * v1_10
  let v2_08 := d09 * v2_09 + 2 * v1_09
  let v2_07 := d08 * v2_08 + 2 * v1_08
  let v2_06 := d07 * v2_07 + 2 * v1_07
  let v2_05 := d06 * v2_06 + 2 * v1_06
  let v2_04 := d05 * v2_05 + 2 * v1_05
  let v2_03 := d04 * v2_04 + 2 * v1_04
  let v2_02 := d03 * v2_03 + 2 * v1_03
  let v2_01 := d02 * v2_02 + 2 * v1_02
  let v2_00 := d01 * v2_01 + 2 * v1_01
  ([
    w 0 * 1 * v0_00, w 1 * u0_01 * v0_01, w 2 * u0_02 * v0_02, w 3 * u0_03 * v0_03, w 4 * u0_04 * v0_04, w 5 * u0_05 * v0_05,
    w 6 * u0_06 * v0_06, w 7 * u0_07 * v0_07, w 8 * u0_08 * v0_08, w 9 * u0_09 * v0_09, w 10 * u0_10 * v0_10, w 11 * u0_11 * v0_11,
    w 12 * u0_12 * v0_12, w 13 * u0_13 * v0_13, w 14 * u0_14 * v0_14, w 15 * u0_15 * v0_15, w 16 * u0_16 * 1],
   [
    2 * w 0 * (v1_00), 2 * w 1 * (1 * v0_01 + u0_01 * v1_01), 2 * w 2 * (u1_02 * v0_02 + u0_02 * v1_02),
    2 * w 3 * (u1_03 * v0_03 + u0_03 * v1_03), 2 * w 4 * (u1_04 * v0_04 + u0_04 * v1_04), 2 * w 5 * (u1_05 * v0_05 + u0_05 * v1_05),
    2 * w 6 * (u1_06 * v0_06 + u0_06 * v1_06), 2 * w 7 * (u1_07 * v0_07 + u0_07 * v1_07), 2 * w 8 * (u1_08 * v0_08 + u0_08 * v1_08),
    2 * w 9 * (u1_09 * v0_09 + u0_09 * v1_09), 2 * w 10 * (u1_10 * v0_10 + u0_10 * v1_10), 2 * w 11 * (u1_11 * v0_11 + u0_11 * v1_11),
    2 * w 12 * (u1_12 * v0_12 + u0_12 * v1_12), 2 * w 13 * (u1_13 * v0_13 + u0_13 * v1_13),
    2 * w 14 * (u1_14 * v0_14 + u0_14 * v1_14), 2 * w 15 * (u1_15 * v0_15 + u0_15 * 1), 2 * w 16 * (u1_16)],
   [
    4 * w 0 * (1 * v2_00), 4 * w 1 * (2 * 1 * v1_01 + u0_01 * v2_01), 4 * w 2 * (2 * v0_02 + 2 * u1_02 * v1_02 + u0_02 * v2_02),
    4 * w 3 * (u2_03 * v0_03 + 2 * u1_03 * v1_03 + u0_03 * v2_03), 4 * w 4 * (u2_04 * v0_04 + 2 * u1_04 * v1_04 + u0_04 * v2_04),
    4 * w 5 * (u2_05 * v0_05 + 2 * u1_05 * v1_05 + u0_05 * v2_05), 4 * w 6 * (u2_06 * v0_06 + 2 * u1_06 * v1_06 + u0_06 * v2_06),
    4 * w 7 * (u2_07 * v0_07 + 2 * u1_07 * v1_07 + u0_07 * v2_07), 4 * w 8 * (u2_08 * v0_08 + 2 * u1_08 * v1_08 + u0_08 * v2_08),
    4 * w 9 * (u2_09 * v0_09 + 2 * u1_09 * v1_09 + u0_09 * v2_09), 4 * w 10 * (u2_10 * v0_10 + 2 * u1_10 * v1_10 + u0_10 * v2_10),
    4 * w 11 * (u2_11 * v0_11 + 2 * u1_11 * v1_11 + u0_11 * v2_11), 4 * w 12 * (u2_12 * v0_12 + 2 * u1_12 * v1_12 + u0_12 * v2_12),
    4 * w 13 * (u2_13 * v0_13 + 2 * u1_13 * v1_13 + u0_13 * v2_13), 4 * w 14 * (u2_14 * v0_14 + 2 * u1_14 * v1_14 + u0_14 * 2),
    4 * w 15 * (u2_15 * v0_15 + 2 * u1_15 * 1), 4 * w 16 * (u2_16 * 1)])

/-- poly_imp.h:1032-1132 `gll_lag_18` -/
def gllLag18 (g w : Nat → K) (xh : K) : List K × List K × List K :=
  let x := xh * 2
  let d00 := x + 2
  let d01 := x + 2 * g 0
  let d02 := x + 2 * g 1
  let d03 := x + 2 * g 2
  let d04 := x + 2 * g 3
  let d05 := x + 2 * g 4
  let d06 := x + 2 * g 5
  let d07 := x + 2 * g 6
  let d08 := x + 2 * g 7
  let d09 := x - 2 * g 7
  let d10 := x - 2 * g 6
  let d11 := x - 2 * g 5
  let d12 := x - 2 * g 4
  let d13 := x - 2 * g 3
  let d14 := x - 2 * g 2
  let d15 := x - 2 * g 1
  let d16 := x - 2 * g 0
  let d17 := x - 2
  let u0_01 := 1 * d00
  let u0_02 := u0_01 * d01
  let u0_03 := u0_02 * d02
  let u0_04 := u0_03 * d03
  let u0_05 := u0_04 * d04
  let u0_06 := u0_05 * d05
  let u0_07 := u0_06 * d06
  let u0_08 := u0_07 * d07
  let u0_09 := u0_08 * d08
  let u0_10 := u0_09 * d09
  let u0_11 := u0_10 * d10
  let u0_12 := u0_11 * d11
  let u0_13 := u0_12 * d12
  let u0_14 := u0_13 * d13
  let u0_15 := u0_14 * d14
  let u0_16 := u0_15 * d15
  let u0_17 := u0_16 * d16
  let v0_16 := d17 * 1
  let v0_15 := d16 * v0_16
  let v0_14 := d15 * v0_15
  let v0_13 := d14 * v0_14
  let v0_12 := d13 * v0_13
  let v0_11 := d12 * v0_12
  let v0_10 := d11 * v0_11
  let v0_09 := d10 * v0_10
  let v0_08 := d09 * v0_09
  let v0_07 := d08 * v0_08
  let v0_06 := d07 * v0_07
  let v0_05 := d06 * v0_06
  let v0_04 := d05 * v0_05
  let v0_03 := d04 * v0_04
  let v0_02 := d03 * v0_03
  let v0_01 := d02 * v0_02
  let v0_00 := d01 * v0_01
  let u1_02 := 1 * d01 + u0_01
  let u1_03 := u1_02 * d02 + u0_02
  let u1_04 := u1_03 * d03 + u0_03
  let u1_05 := u1_04 * d04 + u0_04
  let u1_06 := u1_05 * d05 + u0_05
  let u1_07 := u1_06 * d06 + u0_06
  let u1_08 := u1_07 * d07 + u0_07
  let u1_09 := u1_08 * d08 + u0_08
  let u1_10 := u1_09 * d09 + u0_09
  let u1_11 := u1_10 * d10 + u0_10
  let u1_12 := u1_11 * d11 + u0_11
  let u1_13 := u1_12 * d12 + u0_12
  let u1_14 := u1_13 * d13 + u0_13
  let u1_15 := u1_14 * d14 + u0_14
  let u1_16 := u1_15 * d15 + u0_15
  let u1_17 := u1_16 * d16 + u0_16
  let v1_15 := d16 * 1 + v0_16
  let v1_14 := d15 * v1_15 + v0_15
  let v1_13 := d14 * v1_14 + v0_14
  let v1_12 := d13 * v1_13 + v0_13
  let v1_11 := d12 * v1_12 + v0_12
  let v1_10 := d11 * v1_11 + v0_11
  let v1_09 := d10 * v1_10 + v0_10
  let v1_08 := d09 * v1_09 + v0_09
  let v1_07 := d08 * v1_08 + v0_08
  let v1_06 := d07 * v1_07 + v0_07
  let v1_05 := d06 * v1_06 + v0_06
  let v1_04 := d05 * v1_05 + v0_05
  let v1_03 := d04 * v1_04 + v0_04
  let v1_02 := d03 * v1_03 + v0_03
  let v1_01 := d02 * v1_02 + v0_02
  let v1_00 := d01 * v1_01 + v0_01
  let u2_03 := 2 * d02 + 2 * u1_02
  let u2_04 := u2_03 * d03 + 2 * u1_03
  let u2_05 := u2_04 * d04 + 2 * u1_04
  let u2_06 := u2_05 * d05 + 2 * u1_05
  let u2_07 := u2_06 * d06 + 2 * u1_06
  let u2_08 := u2_07 * d07 + 2 * u1_07
  let u2_09 := u2_08 * d08 + 2 * u1_08
  let u2_10 := u2_09 * d09 + 2 * u1_09
  let u2_11 := u2_10 * d10 + 2 * u1_10
  let u2_12 := u2_11 * d11 + 2 * u1_11
  let u2_13 := u2_12 * d12 + 2 * u1_12
  let u2_14 := u2_13 * d13 + 2 * u1_13
  let u2_15 := u2_14 * d14 + 2 * u1_14
  let u2_16 := u2_15 * d15 + 2 * u1_15
  let u2_17 := u2_16 * d16 + 2 * u1_16
  let v2_14 := d15 * 2 + 2 * v1_15
  let v2_13 := d14 * v2_14 + 2 * v1_14
  let v2_12 := d13 * v2_13 + 2 * v1_13
  let v2_11 := d12 * v2_12 + 2 * v1_12
  let v2_10 := d11 * v2_11 + 2 * v1_11
  let v2_09 := d10 * v2_10 + 2 * v1_10
  let v2_08 := d09 * v2_09 + 2 * v1_09
  let v2_07 := d08 * v2_08 + 2 * v1_08
  let v2_06 := d07 * v2_07 + 2 * v1_07
  let v2_05 := d06 * v2_06 + 2 * v1_06
  let v2_04 := d05 * v2_05 + 2 * v1_05
  let v2_03 := d04 * v2_04 + 2 * v1_04
  let v2_02 := d03 * v2_03 + 2 * v1_03
  let v2_01 := d02 * v2_02 + 2 * v1_02
  let v2_00 := d01 * v2_01 + 2 * v1_01
  ([
    w 0 * 1 * v0_00, w 1 * u0_01 * v0_01, w 2 * u0_02 * v0_02, w 3 * u0_03 * v0_03, w 4 * u0_04 * v0_04, w 5 * u0_05 * v0_05,
    w 6 * u0_06 * v0_06, w 7 * u0_07 * v0_07, w 8 * u0_08 * v0_08, w 9 * u0_09 * v0_09, w 10 * u0_10 * v0_10, w 11 * u0_11 * v0_11,
    w 12 * u0_12 * v0_12, w 13 * u0_13 * v0_13, w 14 * u0_14 * v0_14, w 15 * u0_15 * v0_15, w 16 * u0_16 * v0_16, w 17 * u0_17 * 1],
   [
    2 * w 0 * (v1_00), 2 * w 1 * (1 * v0_01 + u0_01 * v1_01), 2 * w 2 * (u1_02 * v0_02 + u0_02 * v1_02),
    2 * w 3 * (u1_03 * v0_03 + u0_03 * v1_03), 2 * w 4 * (u1_04 * v0_04 + u0_04 * v1_04), 2 * w 5 * (u1_05 * v0_05 + u0_05 * v1_05),
    2 * w 6 * (u1_06 * v0_06 + u0_06 * v1_06), 2 * w 7 * (u1_07 * v0_07 + u0_07 * v1_07), 2 * w 8 * (u1_08 * v0_08 + u0_08 * v1_08),
    2 * w 9 * (u1_09 * v0_09 + u0_09 * v1_09), 2 * w 10 * (u1_10 * v0_10 + u0_10 * v1_10), 2 * w 11 * (u1_11 * v0_11 + u0_11 * v1_11),
    2 * w 12 * (u1_12 * v0_12 + u0_12 * v1_12), 2 * w 13 * (u1_13 * v0_13 + u0_13 * v1_13),
    2 * w 14 * (u1_14 * v0_14 + u0_14 * v1_14), 2 * w 15 * (u1_15 * v0_15 + u0_15 * v1_15), 2 * w 16 * (u1_16 * v0_16 + u0_16 * 1),
    2 * w 17 * (u1_17)],
   [
    4 * w 0 * (1 * v2_00), 4 * w 1 * (2 * 1 * v1_01 + u0_01 * v2_01), 4 * w 2 * (2 * v0_02 + 2 * u1_02 * v1_02 + u0_02 * v2_02),
    4 * w 3 * (u2_03 * v0_03 + 2 * u1_03 * v1_03 + u0_03 * v2_03), 4 * w 4 * (u2_04 * v0_04 + 2 * u1_04 * v1_04 + u0_04 * v2_04),
    4 * w 5 * (u2_05 * v0_05 + 2 * u1_05 * v1_05 + u0_05 * v2_05), 4 * w 6 * (u2_06 * v0_06 + 2 * u1_06 * v1_06 + u0_06 * v2_06),
    4 * w 7 * (u2_07 * v0_07 + 2 * u1_07 * v1_07 + u0_07 * v2_07), 4 * w 8 * (u2_08 * v0_08 + 2 * u1_08 * v1_08 + u0_08 * v2_08),
    4 * w 9 * (u2_09 * v0_09 + 2 * u1_09 * v1_09 + u0_09 * v2_09), 4 * w 10 * (u2_10 * v0_10 + 2 * u1_10 * v1_10 + u0_10 * v2_10),
    4 * w 11 * (u2_11 * v0_11 + 2 * u1_11 * v1_11 + u0_11 * v2_11), 4 * w 12 * (u2_12 * v0_12 + 2 * u1_12 * v1_12 + u0_12 * v2_12),
    4 * w 13 * (u2_13 * v0_13 + 2 * u1_13 * v1_13 + u0_13 * v2_13), 4 * w 14 * (u2_14 * v0_14 + 2 * u1_14 * v1_14 + u0_14 * v2_14),
    4 * w 15 * (u2_15 * v0_15 + 2 * u1_15 * v1_15 + u0_15 * 2), 4 * w 16 * (u2_16 * v0_16 + 2 * u1_16 * 1), 4 * w 17 * (u2_17 * 1)])

/-- poly_imp.h:1145-1251 `gll_lag_19` -/
def gllLag19 (g w : Nat → K) (xh : K) : List K × List K × List K :=
  let x := xh * 2
  let d00 := x + 2
  let d01 := x + 2 * g 0
  let d02 := x + 2 * g 1
  let d03 := x + 2 * g 2
  let d04 := x + 2 * g 3
  let d05 := x + 2 * g 4
  let d06 := x + 2 * g 5
  let d07 := x + 2 * g 6
  let d08 := x + 2 * g 7
  let d09 := x
  let d10 := x - 2 * g 7
  let d11 := x - 2 * g 6
  let d12 := x - 2 * g 5
  let d13 := x - 2 * g 4
  let d14 := x - 2 * g 3
  let d15 := x - 2 * g 2
  let d16 := x - 2 * g 1
  let d17 := x - 2 * g 0
  let d18 := x - 2
  let u0_01 := 1 * d00
  let u0_02 := u0_01 * d01
  let u0_03 := u0_02 * d02
  let u0_04 := u0_03 * d03
  let u0_05 := u0_04 * d04
  let u0_06 := u0_05 * d05
  let u0_07 := u0_06 * d06
  let u0_08 := u0_07 * d07
  let u0_09 := u0_08 * d08
  let u0_10 := u0_09 * d09
  let u0_11 := u0_10 * d10
  let u0_12 := u0_11 * d11
  let u0_13 := u0_12 * d12
  let u0_14 := u0_13 * d13
  let u0_15 := u0_14 * d14
  let u0_16 := u0_15 * d15
  let u0_17 := u0_16 * d16
  let u0_18 := u0_17 * d17
  let v0_17 := d18 * 1
  let v0_16 := d17 * v0_17
  let v0_15 := d16 * v0_16
  let v0_14 := d15 * v0_15
  let v0_13 := d14 * v0_14
  let v0_12 := d13 * v0_13
  let v0_11 := d12 * v0_12
  let v0_10 := d11 * v0_11
  let v0_09 := d10 * v0_10
  let v0_08 := d09 * v0_09
  let v0_07 := d08 * v0_08
  let v0_06 := d07 * v0_07
  let v0_05 := d06 * v0_06
  let v0_04 := d05 * v0_05
  let v0_03 := d04 * v0_04
  let v0_02 := d03 * v0_03
  let v0_01 := d02 * v0_02
  let v0_00 := d01 * v0_01
  let u1_02 := 1 * d01 + u0_01
  let u1_03 := u1_02 * d02 + u0_02
  let u1_04 := u1_03 * d03 + u0_03
  let u1_05 := u1_04 * d04 + u0_04
  let u1_06 := u1_05 * d05 + u0_05
  let u1_07 := u1_06 * d06 + u0_06
  let u1_08 := u1_07 * d07 + u0_07
  let u1_09 := u1_08 * d08 + u0_08
  let u1_10 := u1_09 * d09 + u0_09
  let u1_11 := u1_10 * d10 + u0_10
  let u1_12 := u1_11 * d11 + u0_11
  let u1_13 := u1_12 * d12 + u0_12
  let u1_14 := u1_13 * d13 + u0_13
  let u1_15 := u1_14 * d14 + u0_14
  let u1_16 := u1_15 * d15 + u0_15
  let u1_17 := u1_16 * d16 + u0_16
  let u1_18 := u1_17 * d17 + u0_17
  let v1_16 := d17 * 1 + v0_17
  let v1_15 := d16 * v1_16 + v0_16
  let v1_14 := d15 * v1_15 + v0_15
  let v1_13 := d14 * v1_14 + v0_14
  let v1_12 := d13 * v1_13 + v0_13
  let v1_11 := d12 * v1_12 + v0_12
  let v1_10 := d11 * v1_11 + v0_11
  let v1_09 := d10 * v1_10 + v0_10
  let v1_08 := d09 * v1_09 + v0_09
  let v1_07 := d08 * v1_08 + v0_08
  let v1_06 := d07 * v1_07 + v0_07
  let v1_05 := d06 * v1_06 + v0_06
  let v1_04 := d05 * v1_05 + v0_05
  let v1_03 := d04 * v1_04 + v0_04
  let v1_02 := d03 * v1_03 + v0_03
  let v1_01 := d02 * v1_02 + v0_02
  let v1_00 := d01 * v1_01 + v0_01
  let u2_03 := 2 * d02 + 2 * u1_02
  let u2_04 := u2_03 * d03 + 2 * u1_03
  let u2_05 := u2_04 * d04 + 2 * u1_04
  let u2_06 := u2_05 * d05 + 2 * u1_05
  let u2_07 := u2_06 * d06 + 2 * u1_06
  let u2_08 := u2_07 * d07 + 2 * u1_07
  let u2_09 := u2_08 * d08 + 2 * u1_08
  let u2_10 := u2_09 * d09 + 2 * u1_09
  let u2_11 := u2_10 * d10 + 2 * u1_10
  let u2_12 := u2_11 * d11 + 2 * u1_11
  let u2_13 := u2_12 * d12 + 2 * u1_12
  let u2_14 := u2_13 * d13 + 2 * u1_13
  let u2_15 := u2_14 * d14 + 2 * u1_14
  let u2_16 := u2_15 * d15 + 2 * u1_15
  let u2_17 := u2_16 * d16 + 2 * u1_16
  let u2_18 := u2_17 * d17 + 2 * u1_17
  let v2_15 := d16 * 2 + 2 * v1_16
  let v2_14 := d15 * v2_15 + 2 * v1_15
  let v2_13 := d14 * v2_14 + 2 * v1_14
  let v2_12 := d13 * v2_13 + 2 * v1_13
  let v2_11 := d12 * v2_12 + 2 * v1_12
  let v2_10 := d11 * v2_11 + 2 * v1_11
  let v2_09 := d10 * v2_10 + 2 * v1_10
  let v2_08 := d09 * v2_09 + 2 * v1_09
  let v2_07 := d08 * v2_08 + 2 * v1_08
  let v2_06 := d07 * v2_07 + 2 * v1_07
  let v2_05 := d06 * v2_06 + 2 * v1_06
  let v2_04 := d05 * v2_05 + 2 * v1_05
  let v2_03 := d04 * v2_04 + 2 * v1_04
  let v2_02 := d03 * v2_03 + 2 * v1_03
  let v2_01 := d02 * v2_02 + 2 * v1_02
  let v2_00 := d01 * v2_01 + 2 * v1_01
  ([
    w 0 * 1 * v0_00, w 1 * u0_01 * v0_01, w 2 * u0_02 * v0_02, w 3 * u0_03 * v0_03, w 4 * u0_04 * v0_04, w 5 * u0_05 * v0_05,
    w 6 * u0_06 * v0_06, w 7 * u0_07 * v0_07, w 8 * u0_08 * v0_08, w 9 * u0_09 * v0_09, w 10 * u0_10 * v0_10, w 11 * u0_11 * v0_11,
    w 12 * u0_12 * v0_12, w 13 * u0_13 * v0_13, w 14 * u0_14 * v0_14, w 15 * u0_15 * v0_15, w 16 * u0_16 * v0_16,
    w 17 * u0_17 * v0_17, w 18 * u0_18 * 1],
   [
    2 * w 0 * (v1_00), 2 * w 1 * (1 * v0_01 + u0_01 * v1_01), 2 * w 2 * (u1_02 * v0_02 + u0_02 * v1_02),
    2 * w 3 * (u1_03 * v0_03 + u0_03 * v1_03), 2 * w 4 * (u1_04 * v0_04 + u0_04 * v1_04), 2 * w 5 * (u1_05 * v0_05 + u0_05 * v1_05),
    2 * w 6 * (u1_06 * v0_06 + u0_06 * v1_06), 2 * w 7 * (u1_07 * v0_07 + u0_07 * v1_07), 2 * w 8 * (u1_08 * v0_08 + u0_08 * v1_08),
    2 * w 9 * (u1_09 * v0_09 + u0_09 * v1_09), 2 * w 10 * (u1_10 * v0_10 + u0_10 * v1_10), 2 * w 11 * (u1_11 * v0_11 + u0_11 * v1_11),
    2 * w 12 * (u1_12 * v0_12 + u0_12 * v1_12), 2 * w 13 * (u1_13 * v0_13 + u0_13 * v1_13),
    2 * w 14 * (u1_14 * v0_14 + u0_14 * v1_14), 2 * w 15 * (u1_15 * v0_15 + u0_15 * v1_15),
    2 * w 16 * (u1_16 * v0_16 + u0_16 * v1_16), 2 * w 17 * (u1_17 * v0_17 + u0_17 * 1), 2 * w 18 * (u1_18)],
   [
    4 * w 0 * (1 * v2_00), 4 * w 1 * (2 * 1 * v1_01 + u0_01 * v2_01), 4 * w 2 * (2 * v0_02 + 2 * u1_02 * v1_02 + u0_02 * v2_02),
    4 * w 3 * (u2_03 * v0_03 + 2 * u1_03 * v1_03 + u0_03 * v2_03), 4 * w 4 * (u2_04 * v0_04 + 2 * u1_04 * v1_04 + u0_04 * v2_04),
    4 * w 5 * (u2_05 * v0_05 + 2 * u1_05 * v1_05 + u0_05 * v2_05), 4 * w 6 * (u2_06 * v0_06 + 2 * u1_06 * v1_06 + u0_06 * v2_06),
    4 * w 7 * (u2_07 * v0_07 + 2 * u1_07 * v1_07 + u0_07 * v2_07), 4 * w 8 * (u2_08 * v0_08 + 2 * u1_08 * v1_08 + u0_08 * v2_08),
    4 * w 9 * (u2_09 * v0_09 + 2 * u1_09 * v1_09 + u0_09 * v2_09), 4 * w 10 * (u2_10 * v0_10 + 2 * u1_10 * v1_10 + u0_10 * v2_10),
    4 * w 11 * (u2_11 * v0_11 + 2 * u1_11 * v1_11 + u0_11 * v2_11), 4 * w 12 * (u2_12 * v0_12 + 2 * u1_12 * v1_12 + u0_12 * v2_12),
    4 * w 13 * (u2_13 * v0_13 + 2 * u1_13 * v1_13 + u0_13 * v2_13), 4 * w 14 * (u2_14 * v0_14 + 2 * u1_14 * v1_14 + u0_14 * v2_14),
    4 * w 15 * (u2_15 * v0_15 + 2 * u1_15 * v1_15 + u0_15 * v2_15), 4 * w 16 * (u2_16 * v0_16 + 2 * u1_16 * v1_16 + u0_16 * 2),
    4 * w 17 * (u2_17 * v0_17 + 2 * u1_17 * 1), 4 * w 18 * (u2_18 * 1)])

/-- poly_imp.h:1265-1377 `gll_lag_20` -/
def gllLag20 (g w : Nat → K) (xh : K) : List K × List K × List K :=
  let x := xh * 2
  let d00 := x + 2
  let d01 := x + 2 * g 0
  let d02 := x + 2 * g 1
  let d03 := x + 2 * g 2
  let d04 := x + 2 * g 3
  let d05 := x + 2 * g 4
  let d06 := x + 2 * g 5
  let d07 := x + 2 * g 6
  let d08 := x + 2 * g 7
  let d09 := x + 2 * g 8
  let d10 := x - 2 * g 8
  let d11 := x - 2 * g 7
  let d12 := x - 2 * g 6
  let d13 := x - 2 * g 5
  let d14 := x - 2 * g 4
  let d15 := x - 2 * g 3
  let d16 := x - 2 * g 2
  let d17 := x - 2 * g 1
  let d18 := x - 2 * g 0
  let d19 := x - 2
  let u0_01 := 1 * d00
  let u0_02 := u0_01 * d01
  let u0_03 := u0_02 * d02
  let u0_04 := u0_03 * d03
  let u0_05 := u0_04 * d04
  let u0_06 := u0_05 * d05
  let u0_07 := u0_06 * d06
  let u0_08 := u0_07 * d07
  let u0_09 := u0_08 * d08
  let u0_10 := u0_09 * d09
  let u0_11 := u0_10 * d10
  let u0_12 := u0_11 * d11
  let u0_13 := u0_12 * d12
  let u0_14 := u0_13 * d13
  let u0_15 := u0_14 * d14
  let u0_16 := u0_15 * d15
  let u0_17 := u0_16 * d16
  let u0_18 := u0_17 * d17
  let u0_19 := u0_18 * d18
  let v0_18 := d19 * 1
  let v0_17 := d18 * v0_18
  let v0_16 := d17 * v0_17
  let v0_15 := d16 * v0_16
  let v0_14 := d15 * v0_15
  let v0_13 := d14 * v0_14
  let v0_12 := d13 * v0_13
  let v0_11 := d12 * v0_12
  let v0_10 := d11 * v0_11
  let v0_09 := d10 * v0_10
  let v0_08 := d09 * v0_09
  let v0_07 := d08 * v0_08
  let v0_06 := d07 * v0_07
  let v0_05 := d06 * v0_06
  let v0_04 := d05 * v0_05
  let v0_03 := d04 * v0_04
  let v0_02 := d03 * v0_03
  let v0_01 := d02 * v0_02
  let v0_00 := d01 * v0_01
  let u1_02 := 1 * d01 + u0_01
  let u1_03 := u1_02 * d02 + u0_02
  let u1_04 := u1_03 * d03 + u0_03
  let u1_05 := u1_04 * d04 + u0_04
  let u1_06 := u1_05 * d05 + u0_05
  let u1_07 := u1_06 * d06 + u0_06
  let u1_08 := u1_07 * d07 + u0_07
  let u1_09 := u1_08 * d08 + u0_08
  let u1_10 := u1_09 * d09 + u0_09
  let u1_11 := u1_10 * d10 + u0_10
  let u1_12 := u1_11 * d11 + u0_11
  let u1_13 := u1_12 * d12 + u0_12
  let u1_14 := u1_13 * d13 + u0_13
  let u1_15 := u1_14 * d14 + u0_14
  let u1_16 := u1_15 * d15 + u0_15
  let u1_17 := u1_16 * d16 + u0_16
  let u1_18 := u1_17 * d17 + u0_17
  let u1_19 := u1_18 * d18 + u0_18
  let v1_17 := d18 * 1 + v0_18
  let v1_16 := d17 * v1_17 + v0_17
  let v1_15 := d16 * v1_16 + v0_16
  let v1_14 := d15 * v1_15 + v0_15
  let v1_13 := d14 * v1_14 + v0_14
  let v1_12 := d13 * v1_13 + v0_13
  let v1_11 := d12 * v1_12 + v0_12
  let v1_10 := d11 * v1_11 + v0_11
  let v1_09 := d10 * v1_10 + v0_10
  let v1_08 := d09 * v1_09 + v0_09
  let v1_07 := d08 * v1_08 + v0_08
  let v1_06 := d07 * v1_07 + v0_07
  let v1_05 := d06 * v1_06 + v0_06
  let v1_04 := d05 * v1_05 + v0_05
  let v1_03 := d04 * v1_04 + v0_04
  let v1_02 := d03 * v1_03 + v0_03
  let v1_01 := d02 * v1_02 + v0_02
  let v1_00 := d01 * v1_01 + v0_01
  let u2_03 := 2 * d02 + 2 * u1_02
  let u2_04 := u2_03 * d03 + 2 * u1_03
  let u2_05 := u2_04 * d04 + 2 * u1_04
  let u2_06 := u2_05 * d05 + 2 * u1_05
  let u2_07 := u2_06 * d06 + 2 * u1_06
  let u2_08 := u2_07 * d07 + 2 * u1_07
  let u2_09 := u2_08 * d08 + 2 * u1_08
  let u2_10 := u2_09 * d09 + 2 * u1_09
  let u2_11 := u2_10 * d10 + 2 * u1_10
  let u2_12 := u2_11 * d11 + 2 * u1_11
  let u2_13 := u2_12 * d12 + 2 * u1_12
  let u2_14 := u2_13 * d13 + 2 * u1_13
  let u2_15 := u2_14 * d14 + 2 * u1_14
  let u2_16 := u2_15 * d15 + 2 * u1_15
  let u2_17 := u2_16 * d16 + 2 * u1_16
  let u2_18 := u2_17 * d17 + 2 * u1_17
  let u2_19 := u2_18 * d18 + 2 * u1_18
  let v2_16 := d17 * 2 + 2 * v1_17
  let v2_15 := d16 * v2_16 + 2 * v1_16
  let v2_14 := d15 * v2_15 + 2 * v1_15
  let v2_13 := d14 * v2_14 + 2 * v1_14
  let v2_12 := d13 * v2_13 + 2 * v1_13
  let v2_11 := d12 * v2_12 + 2 * v1_12
  let v2_10 := d11 * v2_11 + 2 * v1_11
  let v2_09 := d10 * v2_10 + 2 * v1_10
  let v2_08 := d09 * v2_09 + 2 * v1_09
  let v2_07 := d08 * v2_08 + 2 * v1_08
  let v2_06 := d07 * v2_07 + 2 * v1_07
  let v2_05 := d06 * v2_06 + 2 * v1_06
  let v2_04 := d05 * v2_05 + 2 * v1_05
  let v2_03 := d04 * v2_04 + 2 * v1_04
  let v2_02 := d03 * v2_03 + 2 * v1_03
  let v2_01 := d02 * v2_02 + 2 * v1_02
  let v2_00 := d01 * v2_01 + 2 * v1_01
  ([
    w 0 * 1 * v0_00, w 1 * u0_01 * v0_01, w 2 * u0_02 * v0_02, w 3 * u0_03 * v0_03, w 4 * u0_04 * v0_04, w 5 * u0_05 * v0_05,
    w 6 * u0_06 * v0_06, w 7 * u0_07 * v0_07, w 8 * u0_08 * v0_08, w 9 * u0_09 * v0_09, w 10 * u0_10 * v0_10, w 11 * u0_11 * v0_11,
    w 12 * u0_12 * v0_12, w 13 * u0_13 * v0_13, w 14 * u0_14 * v0_14, w 15 * u0_15 * v0_15, w 16 * u0_16 * v0_16,
    w 17 * u0_17 * v0_17, w 18 * u0_18 * v0_18, w 19 * u0_19 * 1],
   [
    2 * w 0 * (v1_00), 2 * w 1 * (1 * v0_01 + u0_01 * v1_01), 2 * w 2 * (u1_02 * v0_02 + u0_02 * v1_02),
    2 * w 3 * (u1_03 * v0_03 + u0_03 * v1_03), 2 * w 4 * (u1_04 * v0_04 + u0_04 * v1_04), 2 * w 5 * (u1_05 * v0_05 + u0_05 * v1_05),
    2 * w 6 * (u1_06 * v0_06 + u0_06 * v1_06), 2 * w 7 * (u1_07 * v0_07 + u0_07 * v1_07), 2 * w 8 * (u1_08 * v0_08 + u0_08 * v1_08),
    2 * w 9 * (u1_09 * v0_09 + u0_09 * v1_09), 2 * w 10 * (u1_10 * v0_10 + u0_10 * v1_10), 2 * w 11 * (u1_11 * v0_11 + u0_11 * v1_11),
    2 * w 12 * (u1_12 * v0_12 + u0_12 * v1_12), 2 * w 13 * (u1_13 * v0_13 + u0_13 * v1_13),
    2 * w 14 * (u1_14 * v0_14 + u0_14 * v1_14), 2 * w 15 * (u1_15 * v0_15 + u0_15 * v1_15),
    2 * w 16 * (u1_16 * v0_16 + u0_16 * v1_16), 2 * w 17 * (u1_17 * v0_17 + u0_17 * v1_17), 2 * w 18 * (u1_18 * v0_18 + u0_18 * 1),
    2 * w 19 * (u1_19)],
   [
    4 * w 0 * (1 * v2_00), 4 * w 1 * (2 * 1 * v1_01 + u0_01 * v2_01), 4 * w 2 * (2 * v0_02 + 2 * u1_02 * v1_02 + u0_02 * v2_02),
    4 * w 3 * (u2_03 * v0_03 + 2 * u1_03 * v1_03 + u0_03 * v2_03), 4 * w 4 * (u2_04 * v0_04 + 2 * u1_04 * v1_04 + u0_04 * v2_04),
    4 * w 5 * (u2_05 * v0_05 + 2 * u1_05 * v1_05 + u0_05 * v2_05), 4 * w 6 * (u2_06 * v0_06 + 2 * u1_06 * v1_06 + u0_06 * v2_06),
    4 * w 7 * (u2_07 * v0_07 + 2 * u1_07 * v1_07 + u0_07 * v2_07), 4 * w 8 * (u2_08 * v0_08 + 2 * u1_08 * v1_08 + u0_08 * v2_08),
    4 * w 9 * (u2_09 * v0_09 + 2 * u1_09 * v1_09 + u0_09 * v2_09), 4 * w 10 * (u2_10 * v0_10 + 2 * u1_10 * v1_10 + u0_10 * v2_10),
    4 * w 11 * (u2_11 * v0_11 + 2 * u1_11 * v1_11 + u0_11 * v2_11), 4 * w 12 * (u2_12 * v0_12 + 2 * u1_12 * v1_12 + u0_12 * v2_12),
    4 * w 13 * (u2_13 * v0_13 + 2 * u1_13 * v1_13 + u0_13 * v2_13), 4 * w 14 * (u2_14 * v0_14 + 2 * u1_14 * v1_14 + u0_14 * v2_14),
    4 * w 15 * (u2_15 * v0_15 + 2 * u1_15 * v1_15 + u0_15 * v2_15), 4 * w 16 * (u2_16 * v0_16 + 2 * u1_16 * v1_16 + u0_16 * v2_16),
    4 * w 17 * (u2_17 * v0_17 + 2 * u1_17 * v1_17 + u0_17 * 2), 4 * w 18 * (u2_18 * v0_18 + 2 * u1_18 * 1), 4 * w 19 * (u2_19 * 1)])

/-- poly_imp.h:1391-1507 `gll_lag_21` -/
def gllLag21 (g w : Nat → K) (xh : K) : List K × List K × List K :=
  let x := xh * 2
  let d00 := x + 2
  let d01 := x + 2 * g 0
  let d02 := x + 2 * g 1
  let d03 := x + 2 * g 2
  let d04 := x + 2 * g 3
  let d05 := x + 2 * g 4
  let d06 := x + 2 * g 5
  let d07 := x + 2 * g 6
  let d08 := x + 2 * g 7
  let d09 := x + 2 * g 8
  let d10 := x
  let d11 := x - 2 * g 8
  let d12 := x - 2 * g 7
  let d13 := x - 2 * g 6
  let d14 := x - 2 * g 5
  let d15 := x - 2 * g 4
  let d16 := x - 2 * g 3
  let d17 := x - 2 * g 2
  let d18 := x - 2 * g 1
  let d19 := x - 2 * g 0
  let d20 := x - 2
  let u0_01 := 1 * d00
  let u0_02 := u0_01 * d01
  let u0_03 := u0_02 * d02
  let u0_04 := u0_03 * d03
  let u0_05 := u0_04 * d04
  let u0_06 := u0_05 * d05
  let u0_07 := u0_06 * d06
  let u0_08 := u0_07 * d07
  let u0_09 := u0_08 * d08
  let u0_10 := u0_09 * d09
  let u0_11 := u0_10 * d10
  let u0_12 := u0_11 * d11
  let u0_13 := u0_12 * d12
  let u0_14 := u0_13 * d13
  let u0_15 := u0_14 * d14
  let u0_16 := u0_15 * d15
  let u0_17 := u0_16 * d16
  let u0_18 := u0_17 * d17
  let u0_19 := u0_18 * d18
  let u0_20 := u0_19 * d19
  let v0_19 := d20 * 1
  let v0_18 := d19 * v0_19
  let v0_17 := d18 * v0_18
  let v0_16 := d17 * v0_17
  let v0_15 := d16 * v0_16
  let v0_14 := d15 * v0_15
  let v0_13 := d14 * v0_14
  let v0_12 := d13 * v0_13
  let v0_11 := d12 * v0_12
  let v0_10 := d11 * v0_11
  let v0_09 := d10 * v0_10
  let v0_08 := d09 * v0_09
  let v0_07 := d08 * v0_08
  let v0_06 := d07 * v0_07
  let v0_05 := d06 * v0_06
  let v0_04 := d05 * v0_05
  let v0_03 := d04 * v0_04
  let v0_02 := d03 * v0_03
  let v0_01 := d02 * v0_02
  let v0_00 := d01 * v0_01
  let u1_02 := 1 * d01 + u0_01
  let u1_03 := u1_02 * d02 + u0_02
  let u1_04 := u1_03 * d03 + u0_03
  let u1_05 := u1_04 * d04 + u0_04
  let u1_06 := u1_05 * d05 + u0_05
  let u1_07 := u1_06 * d06 + u0_06
  let u1_08 := u1_07 * d07 + u0_07
  let u1_09 := u1_08 * d08 + u0_08
  let u1_10 := u1_09 * d09 + u0_09
  let u1_11 := u1_10 * d10 + u0_10
  let u1_12 := u1_11 * d11 + u0_11
  let u1_13 := u1_12 * d12 + u0_12
  let u1_14 := u1_13 * d13 + u0_13
  let u1_15 := u1_14 * d14 + u0_14
  let u1_16 := u1_15 * d15 + u0_15
  let u1_17 := u1_16 * d16 + u0_16
  let u1_18 := u1_17 * d17 + u0_17
  let u1_19 := u1_18 * d18 + u0_18
  let u1_20 := u1_19 * d19 + u0_19
  let v1_18 := d19 * 1 + v0_19
  let v1_17 := d18 * v1_18 + v0_18
  let v1_16 := d17 * v1_17 + v0_17
  let v1_15 := d16 * v1_16 + v0_16
  let v1_14 := d15 * v1_15 + v0_15
  let v1_13 := d14 * v1_14 + v0_14
  let v1_12 := d13 * v1_13 + v0_13
  let v1_11 := d12 * v1_12 + v0_12
  let v1_10 := d11 * v1_11 + v0_11
  let v1_09 := d10 * v1_10 + v0_10
  let v1_08 := d09 * v1_09 + v0_09
  let v1_07 := d08 * v1_08 + v0_08
  let v1_06 := d07 * v1_07 + v0_07
  let v1_05 := d06 * v1_06 + v0_06
  let v1_04 := d05 * v1_05 + v0_05
  let v1_03 := d04 * v1_04 + v0_04
  let v1_02 := d03 * v1_03 + v0_03
  let v1_01 := d02 * v1_02 + v0_02
  let v1_00 := d01 * v1_01 + v0_01
  let u2_03 := 2 * d02 + 2 * u1_02
  let u2_04 := u2_03 * d03 + 2 * u1_03
  let u2_05 := u2_04 * d04 + 2 * u1_04
  let u2_06 := u2_05 * d05 + 2 * u1_05
  let u2_07 := u2_06 * d06 + 2 * u1_06
  let u2_08 := u2_07 * d07 + 2 * u1_07
  let u2_09 := u2_08 * d08 + 2 * u1_08
  let u2_10 := u2_09 * d09 + 2 * u1_09
  let u2_11 := u2_10 * d10 + 2 * u1_10
  let u2_12 := u2_11 * d11 + 2 * u1_11
  let u2_13 := u2_12 * d12 + 2 * u1_12
  let u2_14 := u2_13 * d13 + 2 * u1_13
  let u2_15 := u2_14 * d14 + 2 * u1_14
  let u2_16 := u2_15 * d15 + 2 * u1_15
  let u2_17 := u2_16 * d16 + 2 * u1_16
  let u2_18 := u2_17 * d17 + 2 * u1_17
  let u2_19 := u2_18 * d18 + 2 * u1_18
  let u2_20 := u2_19 * d19 + 2 * u1_19
  let v2_17 := d18 * 2 + 2 * v1_18
  let v2_16 := d17 * v2_17 + 2 * v1_17
  let v2_15 := d16 * v2_16 + 2 * v1_16
  let v2_14 := d15 * v2_15 + 2 * v1_15
  let v2_13 := d14 * v2_14 + 2 * v1_14
  let v2_12 := d13 * v2_13 + 2 * v1_13
  let v2_11 := d12 * v2_12 + 2 * v1_12
  let v2_10 := d11 * v2_11 + 2 * v1_11
  let v2_09 := d10 * v2_10 + 2 * v1_10
  let v2_08 := d09 * v2_09 + 2 * v1_09
  let v2_07 := d08 * v2_08 + 2 * v1_08
  let v2_06 := d07 * v2_07 + 2 * v1_07
  let v2_05 := d06 * v2_06 + 2 * v1_06
  let v2_04 := d05 * v2_05 + 2 * v1_05
  let v2_03 := d04 * v2_04 + 2 * v1_04
  let v2_02 := d03 * v2_03 + 2 * v1_03
  let v2_01 := d02 * v2_02 + 2 * v1_02
  let v2_00 := d01 * v2_01 + 2 * v1_01
  ([
    w 0 * 1 * v0_00, w 1 * u0_01 * v0_01, w 2 * u0_02 * v0_02, w 3 * u0_03 * v0_03, w 4 * u0_04 * v0_04, w 5 * u0_05 * v0_05,
    w 6 * u0_06 * v0_06, w 7 * u0_07 * v0_07, w 8 * u0_08 * v0_08, w 9 * u0_09 * v0_09, w 10 * u0_10 * v0_10, w 11 * u0_11 * v0_11,
    w 12 * u0_12 * v0_12, w 13 * u0_13 * v0_13, w 14 * u0_14 * v0_14, w 15 * u0_15 * v0_15, w 16 * u0_16 * v0_16,
    w 17 * u0_17 * v0_17, w 18 * u0_18 * v0_18, w 19 * u0_19 * v0_19, w 20 * u0_20 * 1],
   [
    2 * w 0 * (v1_00), 2 * w 1 * (1 * v0_01 + u0_01 * v1_01), 2 * w 2 * (u1_02 * v0_02 + u0_02 * v1_02),
    2 * w 3 * (u1_03 * v0_03 + u0_03 * v1_03), 2 * w 4 * (u1_04 * v0_04 + u0_04 * v1_04), 2 * w 5 * (u1_05 * v0_05 + u0_05 * v1_05),
    2 * w 6 * (u1_06 * v0_06 + u0_06 * v1_06), 2 * w 7 * (u1_07 * v0_07 + u0_07 * v1_07), 2 * w 8 * (u1_08 * v0_08 + u0_08 * v1_08),
    2 * w 9 * (u1_09 * v0_09 + u0_09 * v1_09), 2 * w 10 * (u1_10 * v0_10 + u0_10 * v1_10), 2 * w 11 * (u1_11 * v0_11 + u0_11 * v1_11),
    2 * w 12 * (u1_12 * v0_12 + u0_12 * v1_12), 2 * w 13 * (u1_13 * v0_13 + u0_13 * v1_13),
    2 * w 14 * (u1_14 * v0_14 + u0_14 * v1_14), 2 * w 15 * (u1_15 * v0_15 + u0_15 * v1_15),
    2 * w 16 * (u1_16 * v0_16 + u0_16 * v1_16), 2 * w 17 * (u1_17 * v0_17 + u0_17 * v1_17),
    2 * w 18 * (u1_18 * v0_18 + u0_18 * v1_18), 2 * w 19 * (u1_19 * v0_19 + u0_19 * 1), 2 * w 20 * (u1_20)],
   [
    4 * w 0 * (1 * v2_00), 4 * w 1 * (2 * 1 * v1_01 + u0_01 * v2_01), 4 * w 2 * (2 * v0_02 + 2 * u1_02 * v1_02 + u0_02 * v2_02),
    4 * w 3 * (u2_03 * v0_03 + 2 * u1_03 * v1_03 + u0_03 * v2_03), 4 * w 4 * (u2_04 * v0_04 + 2 * u1_04 * v1_04 + u0_04 * v2_04),
    4 * w 5 * (u2_05 * v0_05 + 2 * u1_05 * v1_05 + u0_05 * v2_05), 4 * w 6 * (u2_06 * v0_06 + 2 * u1_06 * v1_06 + u0_06 * v2_06),
    4 * w 7 * (u2_07 * v0_07 + 2 * u1_07 * v1_07 + u0_07 * v2_07), 4 * w 8 * (u2_08 * v0_08 + 2 * u1_08 * v1_08 + u0_08 * v2_08),
    4 * w 9 * (u2_09 * v0_09 + 2 * u1_09 * v1_09 + u0_09 * v2_09), 4 * w 10 * (u2_10 * v0_10 + 2 * u1_10 * v1_10 + u0_10 * v2_10),
    4 * w 11 * (u2_11 * v0_11 + 2 * u1_11 * v1_11 + u0_11 * v2_11), 4 * w 12 * (u2_12 * v0_12 + 2 * u1_12 * v1_12 + u0_12 * v2_12),
    4 * w 13 * (u2_13 * v0_13 + 2 * u1_13 * v1_13 + u0_13 * v2_13), 4 * w 14 * (u2_14 * v0_14 + 2 * u1_14 * v1_14 + u0_14 * v2_14),
    4 * w 15 * (u2_15 * v0_15 + 2 * u1_15 * v1_15 + u0_15 * v2_15), 4 * w 16 * (u2_16 * v0_16 + 2 * u1_16 * v1_16 + u0_16 * v2_16),
    4 * w 17 * (u2_17 * v0_17 + 2 * u1_17 * v1_17 + u0_17 * v2_17), 4 * w 18 * (u2_18 * v0_18 + 2 * u1_18 * v1_18 + u0_18 * 2),
    4 * w 19 * (u2_19 * v0_19 + 2 * u1_19 * 1), 4 * w 20 * (u2_20 * 1)])

/-- poly_imp.h:1522-1644 `gll_lag_22` -/
def gllLag22 (g w : Nat → K) (xh : K) : List K × List K × List K :=
  let x := xh * 2
  let d00 := x + 2
  let d01 := x + 2 * g 0
  let d02 := x + 2 * g 1
  let d03 := x + 2 * g 2
  let d04 := x + 2 * g 3
  let d05 := x + 2 * g 4
  let d06 := x + 2 * g 5
  let d07 := x + 2 * g 6
  let d08 := x + 2 * g 7
  let d09 := x + 2 * g 8
  let d10 := x + 2 * g 9
  let d11 := x - 2 * g 9
  let d12 := x - 2 * g 8
  let d13 := x - 2 * g 7
  let d14 := x - 2 * g 6
  let d15 := x - 2 * g 5
  let d16 := x - 2 * g 4
  let d17 := x - 2 * g 3
  let d18 := x - 2 * g 2
  let d19 := x - 2 * g 1
  let d20 := x - 2 * g 0
  let d21 := x - 2
  let u0_01 := 1 * d00
  let u0_02 := u0_01 * d01
  let u0_03 := u0_02 * d02
  let u0_04 := u0_03 * d03
  let u0_05 := u0_04 * d04
  let u0_06 := u0_05 * d05
  let u0_07 := u0_06 * d06
  let u0_08 := u0_07 * d07
  let u0_09 := u0_08 * d08
  let u0_10 := u0_09 * d09
  let u0_11 := u0_10 * d10
  let u0_12 := u0_11 * d11
  let u0_13 := u0_12 * d12
  let u0_14 := u0_13 * d13
  let u0_15 := u0_14 * d14
  let u0_16 := u0_15 * d15
  let u0_17 := u0_16 * d16
  let u0_18 := u0_17 * d17
  let u0_19 := u0_18 * d18
  let u0_20 := u0_19 * d19
  let u0_21 := u0_20 * d20
  let v0_20 := d21 * 1
  let v0_19 := d20 * v0_20
  let v0_18 := d19 * v0_19
  let v0_17 := d18 * v0_18
  let v0_16 := d17 * v0_17
  let v0_15 := d16 * v0_16
  let v0_14 := d15 * v0_15
  let v0_13 := d14 * v0_14
  let v0_12 := d13 * v0_13
  let v0_11 := d12 * v0_12
  let v0_10 := d11 * v0_11
  let v0_09 := d10 * v0_10
  let v0_08 := d09 * v0_09
  let v0_07 := d08 * v0_08
  let v0_06 := d07 * v0_07
  let v0_05 := d06 * v0_06
  let v0_04 := d05 * v0_05
  let v0_03 := d04 * v0_04
  let v0_02 := d03 * v0_03
  let v0_01 := d02 * v0_02
  let v0_00 := d01 * v0_01
  let u1_02 := 1 * d01 + u0_01
  let u1_03 := u1_02 * d02 + u0_02
  let u1_04 := u1_03 * d03 + u0_03
  let u1_05 := u1_04 * d04 + u0_04
  let u1_06 := u1_05 * d05 + u0_05
  let u1_07 := u1_06 * d06 + u0_06
  let u1_08 := u1_07 * d07 + u0_07
  let u1_09 := u1_08 * d08 + u0_08
  let u1_10 := u1_09 * d09 + u0_09
  let u1_11 := u1_10 * d10 + u0_10
  let u1_12 := u1_11 * d11 + u0_11
  let u1_13 := u1_12 * d12 + u0_12
  let u1_14 := u1_13 * d13 + u0_13
  let u1_15 := u1_14 * d14 + u0_14
  let u1_16 := u1_15 * d15 + u0_15
  let u1_17 := u1_16 * d16 + u0_16
  let u1_18 := u1_17 * d17 + u0_17
  let u1_19 := u1_18 * d18 + u0_18
  let u1_20 := u1_19 * d19 + u0_19
  let u1_21 := u1_20 * d20 + u0_20
  let v1_19 := d20 * 1 + v0_20
  let v1_18 := d19 * v1_19 + v0_19
  let v1_17 := d18 * v1_18 + v0_18
  let v1_16 := d17 * v1_17 + v0_17
  let v1_15 := d16 * v1_16 + v0_16
  let v1_14 := d15 * v1_15 + v0_15
  let v1_13 := d14 * v1_14 + v0_14
  let v1_12 := d13 * v1_13 + v0_13
  let v1_11 := d12 * v1_12 + v0_12
  let v1_10 := d11 * v1_11 + v0_11
  let v1_09 := d10 * v1_10 + v0_10
  let v1_08 := d09 * v1_09 + v0_09
  let v1_07 := d08 * v1_08 + v0_08
  let v1_06 := d07 * v1_07 + v0_07
  let v1_05 := d06 * v1_06 + v0_06
  let v1_04 := d05 * v1_05 + v0_05
  let v1_03 := d04 * v1_04 + v0_04
  let v1_02 := d03 * v1_03 + v0_03
  let v1_01 := d02 * v1_02 + v0_02
  let v1_00 := d01 * v1_01 + v0_01
  let u2_03 := 2 * d02 + 2 * u1_02
  let u2_04 := u2_03 * d03 + 2 * u1_03
  let u2_05 := u2_04 * d04 + 2 * u1_04
  let u2_06 := u2_05 * d05 + 2 * u1_05
  let u2_07 := u2_06 * d06 + 2 * u1_06
  let u2_08 := u2_07 * d07 + 2 * u1_07
  let u2_09 := u2_08 * d08 + 2 * u1_08
  let u2_10 := u2_09 * d09 + 2 * u1_09
  let u2_11 := u2_10 * d10 + 2 * u1_10
  let u2_12 := u2_11 * d11 + 2 * u1_11
  let u2_13 := u2_12 * d12 + 2 * u1_12
  let u2_14 := u2_13 * d13 + 2 * u1_13
  let u2_15 := u2_14 * d14 + 2 * u1_14
  let u2_16 := u2_15 * d15 + 2 * u1_15
  let u2_17 := u2_16 * d16 + 2 * u1_16
  let u2_18 := u2_17 * d17 + 2 * u1_17
  let u2_19 := u2_18 * d18 + 2 * u1_18
  let u2_20 := u2_19 * d19 + 2 * u1_19
  let u2_21 := u2_20 * d20 + 2 * u1_20
  let v2_18 := d19 * 2 + 2 * v1_19
  let v2_17 := d18 * v2_18 + 2 * v1_18
  let v2_16 := d17 * v2_17 + 2 * v1_17
  let v2_15 := d16 * v2_16 + 2 * v1_16
  let v2_14 := d15 * v2_15 + 2 * v1_15
  let v2_13 := d14 * v2_14 + 2 * v1_14
  let v2_12 := d13 * v2_13 + 2 * v1_13
  let v2_11 := d12 * v2_12 + 2 * v1_12
  let v2_10 := d11 * v2_11 + 2 * v1_11
  let v2_09 := d10 * v2_10 + 2 * v1_10
  let v2_08 := d09 * v2_09 + 2 * v1_09
  let v2_07 := d08 * v2_08 + 2 * v1_08
  let v2_06 := d07 * v2_07 + 2 * v1_07
  let v2_05 := d06 * v2_06 + 2 * v1_06
  let v2_04 := d05 * v2_05 + 2 * v1_05
  let v2_03 := d04 * v2_04 + 2 * v1_04
  let v2_02 := d03 * v2_03 + 2 * v1_03
  let v2_01 := d02 * v2_02 + 2 * v1_02
  let v2_00 := d01 * v2_01 + 2 * v1_01
  ([
    w 0 * 1 * v0_00, w 1 * u0_01 * v0_01, w 2 * u0_02 * v0_02, w 3 * u0_03 * v0_03, w 4 * u0_04 * v0_04, w 5 * u0_05 * v0_05,
    w 6 * u0_06 * v0_06, w 7 * u0_07 * v0_07, w 8 * u0_08 * v0_08, w 9 * u0_09 * v0_09, w 10 * u0_10 * v0_10, w 11 * u0_11 * v0_11,
    w 12 * u0_12 * v0_12, w 13 * u0_13 * v0_13, w 14 * u0_14 * v0_14, w 15 * u0_15 * v0_15, w 16 * u0_16 * v0_16,
    w 17 * u0_17 * v0_17, w 18 * u0_18 * v0_18, w 19 * u0_19 * v0_19, w 20 * u0_20 * v0_20, w 21 * u0_21 * 1],
   [
    2 * w 0 * (v1_00), 2 * w 1 * (1 * v0_01 + u0_01 * v1_01), 2 * w 2 * (u1_02 * v0_02 + u0_02 * v1_02),
    2 * w 3 * (u1_03 * v0_03 + u0_03 * v1_03), 2 * w 4 * (u1_04 * v0_04 + u0_04 * v1_04), 2 * w 5 * (u1_05 * v0_05 + u0_05 * v1_05),
    2 * w 6 * (u1_06 * v0_06 + u0_06 * v1_06), 2 * w 7 * (u1_07 * v0_07 + u0_07 * v1_07), 2 * w 8 * (u1_08 * v0_08 + u0_08 * v1_08),
    2 * w 9 * (u1_09 * v0_09 + u0_09 * v1_09), 2 * w 10 * (u1_10 * v0_10 + u0_10 * v1_10), 2 * w 11 * (u1_11 * v0_11 + u0_11 * v1_11),
    2 * w 12 * (u1_12 * v0_12 + u0_12 * v1_12), 2 * w 13 * (u1_13 * v0_13 + u0_13 * v1_13),
    2 * w 14 * (u1_14 * v0_14 + u0_14 * v1_14), 2 * w 15 * (u1_15 * v0_15 + u0_15 * v1_15),
    2 * w 16 * (u1_16 * v0_16 + u0_16 * v1_16), 2 * w 17 * (u1_17 * v0_17 + u0_17 * v1_17),
    2 * w 18 * (u1_18 * v0_18 + u0_18 * v1_18), 2 * w 19 * (u1_19 * v0_19 + u0_19 * v1_19), 2 * w 20 * (u1_20 * v0_20 + u0_20 * 1),
    2 * w 21 * (u1_21)],
   [
    4 * w 0 * (1 * v2_00), 4 * w 1 * (2 * 1 * v1_01 + u0_01 * v2_01), 4 * w 2 * (2 * v0_02 + 2 * u1_02 * v1_02 + u0_02 * v2_02),
    4 * w 3 * (u2_03 * v0_03 + 2 * u1_03 * v1_03 + u0_03 * v2_03), 4 * w 4 * (u2_04 * v0_04 + 2 * u1_04 * v1_04 + u0_04 * v2_04),
    4 * w 5 * (u2_05 * v0_05 + 2 * u1_05 * v1_05 + u0_05 * v2_05), 4 * w 6 * (u2_06 * v0_06 + 2 * u1_06 * v1_06 + u0_06 * v2_06),
    4 * w 7 * (u2_07 * v0_07 + 2 * u1_07 * v1_07 + u0_07 * v2_07), 4 * w 8 * (u2_08 * v0_08 + 2 * u1_08 * v1_08 + u0_08 * v2_08),
    4 * w 9 * (u2_09 * v0_09 + 2 * u1_09 * v1_09 + u0_09 * v2_09), 4 * w 10 * (u2_10 * v0_10 + 2 * u1_10 * v1_10 + u0_10 * v2_10),
    4 * w 11 * (u2_11 * v0_11 + 2 * u1_11 * v1_11 + u0_11 * v2_11), 4 * w 12 * (u2_12 * v0_12 + 2 * u1_12 * v1_12 + u0_12 * v2_12),
    4 * w 13 * (u2_13 * v0_13 + 2 * u1_13 * v1_13 + u0_13 * v2_13), 4 * w 14 * (u2_14 * v0_14 + 2 * u1_14 * v1_14 + u0_14 * v2_14),
    4 * w 15 * (u2_15 * v0_15 + 2 * u1_15 * v1_15 + u0_15 * v2_15), 4 * w 16 * (u2_16 * v0_16 + 2 * u1_16 * v1_16 + u0_16 * v2_16),
    4 * w 17 * (u2_17 * v0_17 + 2 * u1_17 * v1_17 + u0_17 * v2_17), 4 * w 18 * (u2_18 * v0_18 + 2 * u1_18 * v1_18 + u0_18 * v2_18),
    4 * w 19 * (u2_19 * v0_19 + 2 * u1_19 * v1_19 + u0_19 * 2), 4 * w 20 * (u2_20 * v0_20 + 2 * u1_20 * 1), 4 * w 21 * (u2_21 * 1)])

/-- poly_imp.h:1659-1787 `gll_lag_23` -/
def gllLag23 (g w : Nat → K) (xh : K) : List K × List K × List K :=
  let x := xh * 2
  let d00 := x + 2
  let d01 := x + 2 * g 0
  let d02 := x + 2 * g 1
  let d03 := x + 2 * g 2
  let d04 := x + 2 * g 3
  let d05 := x + 2 * g 4
  let d06 := x + 2 * g 5
  let d07 := x + 2 * g 6
  let d08 := x + 2 * g 7
  let d09 := x + 2 * g 8
  let d10 := x + 2 * g 9
  let d11 := x
  let d12 := x - 2 * g 9
  let d13 := x - 2 * g 8
  let d14 := x - 2 * g 7
  let d15 := x - 2 * g 6
  let d16 := x - 2 * g 5
  let d17 := x - 2 * g 4
  let d18 := x - 2 * g 3
  let d19 := x - 2 * g 2
  let d20 := x - 2 * g 1
  let d21 := x - 2 * g 0
  let d22 := x - 2
  let u0_01 := 1 * d00
  let u0_02 := u0_01 * d01
  let u0_03 := u0_02 * d02
  let u0_04 := u0_03 * d03
  let u0_05 := u0_04 * d04
  let u0_06 := u0_05 * d05
  let u0_07 := u0_06 * d06
  let u0_08 := u0_07 * d07
  let u0_09 := u0_08 * d08
  let u0_10 := u0_09 * d09
  let u0_11 := u0_10 * d10
  let u0_12 := u0_11 * d11
  let u0_13 := u0_12 * d12
  let u0_14 := u0_13 * d13
  let u0_15 := u0_14 * d14
  let u0_16 := u0_15 * d15
  let u0_17 := u0_16 * d16
  let u0_18 := u0_17 * d17
  let u0_19 := u0_18 * d18
  let u0_20 := u0_19 * d19
  let u0_21 := u0_20 * d20
  let u0_22 := u0_21 * d21
  let v0_21 := d22 * 1
  let v0_20 := d21 * v0_21
  let v0_19 := d20 * v0_20
  let v0_18 := d19 * v0_19
  let v0_17 := d18 * v0_18
  let v0_16 := d17 * v0_17
  let v0_15 := d16 * v0_16
  let v0_14 := d15 * v0_15
  let v0_13 := d14 * v0_14
  let v0_12 := d13 * v0_13
  let v0_11 := d12 * v0_12
  let v0_10 := d11 * v0_11
  let v0_09 := d10 * v0_10
  let v0_08 := d09 * v0_09
  let v0_07 := d08 * v0_08
  let v0_06 := d07 * v0_07
  let v0_05 := d06 * v0_06
  let v0_04 := d05 * v0_05
  let v0_03 := d04 * v0_04
  let v0_02 := d03 * v0_03
  let v0_01 := d02 * v0_02
  let v0_00 := d01 * v0_01
  let u1_02 := 1 * d01 + u0_01
  let u1_03 := u1_02 * d02 + u0_02
  let u1_04 := u1_03 * d03 + u0_03
  let u1_05 := u1_04 * d04 + u0_04
  let u1_06 := u1_05 * d05 + u0_05
  let u1_07 := u1_06 * d06 + u0_06
  let u1_08 := u1_07 * d07 + u0_07
  let u1_09 := u1_08 * d08 + u0_08
  let u1_10 := u1_09 * d09 + u0_09
  let u1_11 := u1_10 * d10 + u0_10
  let u1_12 := u1_11 * d11 + u0_11
  let u1_13 := u1_12 * d12 + u0_12
  let u1_14 := u1_13 * d13 + u0_13
  let u1_15 := u1_14 * d14 + u0_14
  let u1_16 := u1_15 * d15 + u0_15
  let u1_17 := u1_16 * d16 + u0_16
  let u1_18 := u1_17 * d17 + u0_17
  let u1_19 := u1_18 * d18 + u0_18
  let u1_20 := u1_19 * d19 + u0_19
  let u1_21 := u1_20 * d20 + u0_20
  let u1_22 := u1_21 * d21 + u0_21
  let v1_20 := d21 * 1 + v0_21
  let v1_19 := d20 * v1_20 + v0_20
  let v1_18 := d19 * v1_19 + v0_19
  let v1_17 := d18 * v1_18 + v0_18
  let v1_16 := d17 * v1_17 + v0_17
  let v1_15 := d16 * v1_16 + v0_16
  let v1_14 := d15 * v1_15 + v0_15
  let v1_13 := d14 * v1_14 + v0_14
  let v1_12 := d13 * v1_13 + v0_13
  let v1_11 := d12 * v1_12 + v0_12
  let v1_10 := d11 * v1_11 + v0_11
  let v1_09 := d10 * v1_10 + v0_10
  let v1_08 := d09 * v1_09 + v0_09
  let v1_07 := d08 * v1_08 + v0_08
  let v1_06 := d07 * v1_07 + v0_07
  let v1_05 := d06 * v1_06 + v0_06
  let v1_04 := d05 * v1_05 + v0_05
  let v1_03 := d04 * v1_04 + v0_04
  let v1_02 := d03 * v1_03 + v0_03
  let v1_01 := d02 * v1_02 + v0_02
  let v1_00 := d01 * v1_01 + v0_01
  let u2_03 := 2 * d02 + 2 * u1_02
  let u2_04 := u2_03 * d03 + 2 * u1_03
  let u2_05 := u2_04 * d04 + 2 * u1_04
  let u2_06 := u2_05 * d05 + 2 * u1_05
  let u2_07 := u2_06 * d06 + 2 * u1_06
  let u2_08 := u2_07 * d07 + 2 * u1_07
  let u2_09 := u2_08 * d08 + 2 * u1_08
  let u2_10 := u2_09 * d09 + 2 * u1_09
  let u2_11 := u2_10 * d10 + 2 * u1_10
  let u2_12 := u2_11 * d11 + 2 * u1_11
  let u2_13 := u2_12 * d12 + 2 * u1_12
  let u2_14 := u2_13 * d13 + 2 * u1_13
  let u2_15 := u2_14 * d14 + 2 * u1_14
  let u2_16 := u2_15 * d15 + 2 * u1_15
  let u2_17 := u2_16 * d16 + 2 * u1_16
  let u2_18 := u2_17 * d17 + 2 * u1_17
  let u2_19 := u2_18 * d18 + 2 * u1_18
  let u2_20 := u2_19 * d19 + 2 * u1_19
  let u2_21 := u2_20 * d20 + 2 * u1_20
  let u2_22 := u2_21 * d21 + 2 * u1_21
  let v2_19 := d20 * 2 + 2 * v1_20
  let v2_18 := d19 * v2_19 + 2 * v1_19
  let v2_17 := d18 * v2_18 + 2 * v1_18
  let v2_16 := d17 * v2_17 + 2 * v1_17
  let v2_15 := d16 * v2_16 + 2 * v1_16
  let v2_14 := d15 * v2_15 + 2 * v1_15
  let v2_13 := d14 * v2_14 + 2 * v1_14
  let v2_12 := d13 * v2_13 + 2 * v1_13
  let v2_11 := d12 * v2_12 + 2 * v1_12
  let v2_10 := d11 * v2_11 + 2 * v1_11
  let v2_09 := d10 * v2_10 + 2 * v1_10
  let v2_08 := d09 * v2_09 + 2 * v1_09
  let v2_07 := d08 * v2_08 + 2 * v1_08
  let v2_06 := d07 * v2_07 + 2 * v1_07
  let v2_05 := d06 * v2_06 + 2 * v1_06
  let v2_04 := d05 * v2_05 + 2 * v1_05
  let v2_03 := d04 * v2_04 + 2 * v1_04
  let v2_02 := d03 * v2_03 + 2 * v1_03
  let v2_01 := d02 * v2_02 + 2 * v1_02
  let v2_00 := d01 * v2_01 + 2 * v1_01
  ([
    w 0 * 1 * v0_00, w 1 * u0_01 * v0_01, w 2 * u0_02 * v0_02, w 3 * u0_03 * v0_03, w 4 * u0_04 * v0_04, w 5 * u0_05 * v0_05,
    w 6 * u0_06 * v0_06, w 7 * u0_07 * v0_07, w 8 * u0_08 * v0_08, w 9 * u0_09 * v0_09, w 10 * u0_10 * v0_10, w 11 * u0_11 * v0_11,
    w 12 * u0_12 * v0_12, w 13 * u0_13 * v0_13, w 14 * u0_14 * v0_14, w 15 * u0_15 * v0_15, w 16 * u0_16 * v0_16,
    w 17 * u0_17 * v0_17, w 18 * u0_18 * v0_18, w 19 * u0_19 * v0_19, w 20 * u0_20 * v0_20, w 21 * u0_21 * v0_21, w 22 * u0_22 * 1],
   [
    2 * w 0 * (v1_00), 2 * w 1 * (1 * v0_01 + u0_01 * v1_01), 2 * w 2 * (u1_02 * v0_02 + u0_02 * v1_02),
    2 * w 3 * (u1_03 * v0_03 + u0_03 * v1_03), 2 * w 4 * (u1_04 * v0_04 + u0_04 * v1_04), 2 * w 5 * (u1_05 * v0_05 + u0_05 * v1_05),
    2 * w 6 * (u1_06 * v0_06 + u0_06 * v1_06), 2 * w 7 * (u1_07 * v0_07 + u0_07 * v1_07), 2 * w 8 * (u1_08 * v0_08 + u0_08 * v1_08),
    2 * w 9 * (u1_09 * v0_09 + u0_09 * v1_09), 2 * w 10 * (u1_10 * v0_10 + u0_10 * v1_10), 2 * w 11 * (u1_11 * v0_11 + u0_11 * v1_11),
    2 * w 12 * (u1_12 * v0_12 + u0_12 * v1_12), 2 * w 13 * (u1_13 * v0_13 + u0_13 * v1_13),
    2 * w 14 * (u1_14 * v0_14 + u0_14 * v1_14), 2 * w 15 * (u1_15 * v0_15 + u0_15 * v1_15),
    2 * w 16 * (u1_16 * v0_16 + u0_16 * v1_16), 2 * w 17 * (u1_17 * v0_17 + u0_17 * v1_17),
    2 * w 18 * (u1_18 * v0_18 + u0_18 * v1_18), 2 * w 19 * (u1_19 * v0_19 + u0_19 * v1_19),
    2 * w 20 * (u1_20 * v0_20 + u0_20 * v1_20), 2 * w 21 * (u1_21 * v0_21 + u0_21 * 1), 2 * w 22 * (u1_22)],
   [
    4 * w 0 * (1 * v2_00), 4 * w 1 * (2 * 1 * v1_01 + u0_01 * v2_01), 4 * w 2 * (2 * v0_02 + 2 * u1_02 * v1_02 + u0_02 * v2_02),
    4 * w 3 * (u2_03 * v0_03 + 2 * u1_03 * v1_03 + u0_03 * v2_03), 4 * w 4 * (u2_04 * v0_04 + 2 * u1_04 * v1_04 + u0_04 * v2_04),
    4 * w 5 * (u2_05 * v0_05 + 2 * u1_05 * v1_05 + u0_05 * v2_05), 4 * w 6 * (u2_06 * v0_06 + 2 * u1_06 * v1_06 + u0_06 * v2_06),
    4 * w 7 * (u2_07 * v0_07 + 2 * u1_07 * v1_07 + u0_07 * v2_07), 4 * w 8 * (u2_08 * v0_08 + 2 * u1_08 * v1_08 + u0_08 * v2_08),
    4 * w 9 * (u2_09 * v0_09 + 2 * u1_09 * v1_09 + u0_09 * v2_09), 4 * w 10 * (u2_10 * v0_10 + 2 * u1_10 * v1_10 + u0_10 * v2_10),
    4 * w 11 * (u2_11 * v0_11 + 2 * u1_11 * v1_11 + u0_11 * v2_11), 4 * w 12 * (u2_12 * v0_12 + 2 * u1_12 * v1_12 + u0_12 * v2_12),
    4 * w 13 * (u2_13 * v0_13 + 2 * u1_13 * v1_13 + u0_13 * v2_13), 4 * w 14 * (u2_14 * v0_14 + 2 * u1_14 * v1_14 + u0_14 * v2_14),
    4 * w 15 * (u2_15 * v0_15 + 2 * u1_15 * v1_15 + u0_15 * v2_15), 4 * w 16 * (u2_16 * v0_16 + 2 * u1_16 * v1_16 + u0_16 * v2_16),
    4 * w 17 * (u2_17 * v0_17 + 2 * u1_17 * v1_17 + u0_17 * v2_17), 4 * w 18 * (u2_18 * v0_18 + 2 * u1_18 * v1_18 + u0_18 * v2_18),
    4 * w 19 * (u2_19 * v0_19 + 2 * u1_19 * v1_19 + u0_19 * v2_19), 4 * w 20 * (u2_20 * v0_20 + 2 * u1_20 * v1_20 + u0_20 * 2),
    4 * w 21 * (u2_21 * v0_21 + 2 * u1_21 * 1), 4 * w 22 * (u2_22 * 1)])

/-- poly_imp.h:1803-1935 `gll_lag_24` -/
def gllLag24 (g w : Nat → K) (xh : K) : List K × List K × List K :=
  let x := xh * 2
  let d00 := x + 2
  let d01 := x + 2 * g 0
  let d02 := x + 2 * g 1
  let d03 := x + 2 * g 2
  let d04 := x + 2 * g 3
  let d05 := x + 2 * g 4
  let d06 := x + 2 * g 5
  let d07 := x + 2 * g 6
  let d08 := x + 2 * g 7
  let d09 := x + 2 * g 8
  let d10 := x + 2 * g 9
  let d11 := x + 2 * g 10
  let d12 := x - 2 * g 10
  let d13 := x - 2 * g 9
  let d14 := x - 2 * g 8
  let d15 := x - 2 * g 7
  let d16 := x - 2 * g 6
  let d17 := x - 2 * g 5
  let d18 := x - 2 * g 4
  let d19 := x - 2 * g 3
  let d20 := x - 2 * g 2
  let d21 := x - 2 * g 1
  let d22 := x - 2 * g 0
  let d23 := x - 2
  let u0_01 := 1 * d00
  let u0_02 := u0_01 * d01
  let u0_03 := u0_02 * d02
  let u0_04 := u0_03 * d03
  let u0_05 := u0_04 * d04
  let u0_06 := u0_05 * d05
  let u0_07 := u0_06 * d06
  let u0_08 := u0_07 * d07
  let u0_09 := u0_08 * d08
  let u0_10 := u0_09 * d09
  let u0_11 := u0_10 * d10
  let u0_12 := u0_11 * d11
  let u0_13 := u0_12 * d12
  let u0_14 := u0_13 * d13
  let u0_15 := u0_14 * d14
  let u0_16 := u0_15 * d15
  let u0_17 := u0_16 * d16
  let u0_18 := u0_17 * d17
  let u0_19 := u0_18 * d18
  let u0_20 := u0_19 * d19
  let u0_21 := u0_20 * d20
  let u0_22 := u0_21 * d21
  let u0_23 := u0_22 * d22
  let v0_22 := d23 * 1
  let v0_21 := d22 * v0_22
  let v0_20 := d21 * v0_21
  let v0_19 := d20 * v0_20
  let v0_18 := d19 * v0_19
  let v0_17 := d18 * v0_18
  let v0_16 := d17 * v0_17
  let v0_15 := d16 * v0_16
  let v0_14 := d15 * v0_15
  let v0_13 := d14 * v0_14
  let v0_12 := d13 * v0_13
  let v0_11 := d12 * v0_12
  let v0_10 := d11 * v0_11
  let v0_09 := d10 * v0_10
  let v0_08 := d09 * v0_09
  let v0_07 := d08 * v0_08
  let v0_06 := d07 * v0_07
  let v0_05 := d06 * v0_06
  let v0_04 := d05 * v0_05
  let v0_03 := d04 * v0_04
  let v0_02 := d03 * v0_03
  let v0_01 := d02 * v0_02
  let v0_00 := d01 * v0_01
  let u1_02 := 1 * d01 + u0_01
  let u1_03 := u1_02 * d02 + u0_02
  let u1_04 := u1_03 * d03 + u0_03
  let u1_05 := u1_04 * d04 + u0_04
  let u1_06 := u1_05 * d05 + u0_05
  let u1_07 := u1_06 * d06 + u0_06
  let u1_08 := u1_07 * d07 + u0_07
  let u1_09 := u1_08 * d08 + u0_08
  let u1_10 := u1_09 * d09 + u0_09
  let u1_11 := u1_10 * d10 + u0_10
  let u1_12 := u1_11 * d11 + u0_11
  let u1_13 := u1_12 * d12 + u0_12
  let u1_14 := u1_13 * d13 + u0_13
  let u1_15 := u1_14 * d14 + u0_14
  let u1_16 := u1_15 * d15 + u0_15
  let u1_17 := u1_16 * d16 + u0_16
  let u1_18 := u1_17 * d17 + u0_17
  let u1_19 := u1_18 * d18 + u0_18
  let u1_20 := u1_19 * d19 + u0_19
  let u1_21 := u1_20 * d20 + u0_20
  let u1_22 := u1_21 * d21 + u0_21
  let u1_23 := u1_22 * d22 + u0_22
  let v1_21 := d22 * 1 + v0_22
  let v1_20 := d21 * v1_21 + v0_21
  let v1_19 := d20 * v1_20 + v0_20
  let v1_18 := d19 * v1_19 + v0_19
  let v1_17 := d18 * v1_18 + v0_18
  let v1_16 := d17 * v1_17 + v0_17
  let v1_15 := d16 * v1_16 + v0_16
  let v1_14 := d15 * v1_15 + v0_15
  let v1_13 := d14 * v1_14 + v0_14
  let v1_12 := d13 * v1_13 + v0_13
  let v1_11 := d12 * v1_12 + v0_12
  let v1_10 := d11 * v1_11 + v0_11
  let v1_09 := d10 * v1_10 + v0_10
  let v1_08 := d09 * v1_09 + v0_09
  let v1_07 := d08 * v1_08 + v0_08
  let v1_06 := d07 * v1_07 + v0_07
  let v1_05 := d06 * v1_06 + v0_06
  let v1_04 := d05 * v1_05 + v0_05
  let v1_03 := d04 * v1_04 + v0_04
  let v1_02 := d03 * v1_03 + v0_03
  let v1_01 := d02 * v1_02 + v0_02
  let v1_00 := d01 * v1_01 + v0_01
  let u2_03 := 2 * d02 + 2 * u1_02
  let u2_04 := u2_03 * d03 + 2 * u1_03
  let u2_05 := u2_04 * d04 + 2 * u1_04
  let u2_06 := u2_05 * d05 + 2 * u1_05
  let u2_07 := u2_06 * d06 + 2 * u1_06
  let u2_08 := u2_07 * d07 + 2 * u1_07
  let u2_09 := u2_08 * d08 + 2 * u1_08
  let u2_10 := u2_09 * d09 + 2 * u1_09
  let u2_11 := u2_10 * d10 + 2 * u1_10
  let u2_12 := u2_11 * d11 + 2 * u1_11
  let u2_13 := u2_12 * d12 + 2 * u1_12
  let u2_14 := u2_13 * d13 + 2 * u1_13
  let u2_15 := u2_14 * d14 + 2 * u1_14
  let u2_16 := u2_15 * d15 + 2 * u1_15
  let u2_17 := u2_16 * d16 + 2 * u1_16
  let u2_18 := u2_17 * d17 + 2 * u1_17
  let u2_19 := u2_18 * d18 + 2 * u1_18
  let u2_20 := u2_19 * d19 + 2 * u1_19
  let u2_21 := u2_20 * d20 + 2 * u1_20
  let u2_22 := u2_21 * d21 + 2 * u1_21
  let u2_23 := u2_22 * d22 + 2 * u1_22
  let v2_20 := d21 * 2 + 2 * v1_21
  let v2_19 := d20 * v2_20 + 2 * v1_20
  let v2_18 := d19 * v2_19 + 2 * v1_19
  let v2_17 := d18 * v2_18 + 2 * v1_18
  let v2_16 := d17 * v2_17 + 2 * v1_17
  let v2_15 := d16 * v2_16 + 2 * v1_16
  let v2_14 := d15 * v2_15 + 2 * v1_15
  let v2_13 := d14 * v2_14 + 2 * v1_14
  let v2_12 := d13 * v2_13 + 2 * v1_13
  let v2_11 := d12 * v2_12 + 2 * v1_12
  let v2_10 := d11 * v2_11 + 2 * v1_11
  let v2_09 := d10 * v2_10 + 2 * v1_10
  let v2_08 := d09 * v2_09 + 2 * v1_09
  let v2_07 := d08 * v2_08 + 2 * v1_08
  let v2_06 := d07 * v2_07 + 2 * v1_07
  let v2_05 := d06 * v2_06 + 2 * v1_06
  let v2_04 := d05 * v2_05 + 2 * v1_05
  let v2_03 := d04 * v2_04 + 2 * v1_04
  let v2_02 := d03 * v2_03 + 2 * v1_03
  let v2_01 := d02 * v2_02 + 2 * v1_02
  let v2_00 := d01 * v2_01 + 2 * v1_01
  ([
    w 0 * 1 * v0_00, w 1 * u0_01 * v0_01, w 2 * u0_02 * v0_02, w 3 * u0_03 * v0_03, w 4 * u0_04 * v0_04, w 5 * u0_05 * v0_05,
    w 6 * u0_06 * v0_06, w 7 * u0_07 * v0_07, w 8 * u0_08 * v0_08, w 9 * u0_09 * v0_09, w 10 * u0_10 * v0_10, w 11 * u0_11 * v0_11,
    w 12 * u0_12 * v0_12, w 13 * u0_13 * v0_13, w 14 * u0_14 * v0_14, w 15 * u0_15 * v0_15, w 16 * u0_16 * v0_16,
    w 17 * u0_17 * v0_17, w 18 * u0_18 * v0_18, w 19 * u0_19 * v0_19, w 20 * u0_20 * v0_20, w 21 * u0_21 * v0_21,
    w 22 * u0_22 * v0_22, w 23 * u0_23 * 1],
   [
    2 * w 0 * (v1_00), 2 * w 1 * (1 * v0_01 + u0_01 * v1_01), 2 * w 2 * (u1_02 * v0_02 + u0_02 * v1_02),
    2 * w 3 * (u1_03 * v0_03 + u0_03 * v1_03), 2 * w 4 * (u1_04 * v0_04 + u0_04 * v1_04), 2 * w 5 * (u1_05 * v0_05 + u0_05 * v1_05),
    2 * w 6 * (u1_06 * v0_06 + u0_06 * v1_06), 2 * w 7 * (u1_07 * v0_07 + u0_07 * v1_07), 2 * w 8 * (u1_08 * v0_08 + u0_08 * v1_08),
    2 * w 9 * (u1_09 * v0_09 + u0_09 * v1_09), 2 * w 10 * (u1_10 * v0_10 + u0_10 * v1_10), 2 * w 11 * (u1_11 * v0_11 + u0_11 * v1_11),
    2 * w 12 * (u1_12 * v0_12 + u0_12 * v1_12), 2 * w 13 * (u1_13 * v0_13 + u0_13 * v1_13),
    2 * w 14 * (u1_14 * v0_14 + u0_14 * v1_14), 2 * w 15 * (u1_15 * v0_15 + u0_15 * v1_15),
    2 * w 16 * (u1_16 * v0_16 + u0_16 * v1_16), 2 * w 17 * (u1_17 * v0_17 + u0_17 * v1_17),
    2 * w 18 * (u1_18 * v0_18 + u0_18 * v1_18), 2 * w 19 * (u1_19 * v0_19 + u0_19 * v1_19),
    2 * w 20 * (u1_20 * v0_20 + u0_20 * v1_20), 2 * w 21 * (u1_21 * v0_21 + u0_21 * v1_21), 2 * w 22 * (u1_22 * v0_22 + u0_22 * 1),
    2 * w 23 * (u1_23)],
   [
    4 * w 0 * (1 * v2_00), 4 * w 1 * (2 * 1 * v1_01 + u0_01 * v2_01), 4 * w 2 * (2 * v0_02 + 2 * u1_02 * v1_02 + u0_02 * v2_02),
    4 * w 3 * (u2_03 * v0_03 + 2 * u1_03 * v1_03 + u0_03 * v2_03), 4 * w 4 * (u2_04 * v0_04 + 2 * u1_04 * v1_04 + u0_04 * v2_04),
    4 * w 5 * (u2_05 * v0_05 + 2 * u1_05 * v1_05 + u0_05 * v2_05), 4 * w 6 * (u2_06 * v0_06 + 2 * u1_06 * v1_06 + u0_06 * v2_06),
    4 * w 7 * (u2_07 * v0_07 + 2 * u1_07 * v1_07 + u0_07 * v2_07), 4 * w 8 * (u2_08 * v0_08 + 2 * u1_08 * v1_08 + u0_08 * v2_08),
    4 * w 9 * (u2_09 * v0_09 + 2 * u1_09 * v1_09 + u0_09 * v2_09), 4 * w 10 * (u2_10 * v0_10 + 2 * u1_10 * v1_10 + u0_10 * v2_10),
    4 * w 11 * (u2_11 * v0_11 + 2 * u1_11 * v1_11 + u0_11 * v2_11), 4 * w 12 * (u2_12 * v0_12 + 2 * u1_12 * v1_12 + u0_12 * v2_12),
    4 * w 13 * (u2_13 * v0_13 + 2 * u1_13 * v1_13 + u0_13 * v2_13), 4 * w 14 * (u2_14 * v0_14 + 2 * u1_14 * v1_14 + u0_14 * v2_14),
    4 * w 15 * (u2_15 * v0_15 + 2 * u1_15 * v1_15 + u0_15 * v2_15), 4 * w 16 * (u2_16 * v0_16 + 2 * u1_16 * v1_16 + u0_16 * v2_16),
    4 * w 17 * (u2_17 * v0_17 + 2 * u1_17 * v1_17 + u0_17 * v2_17), 4 * w 18 * (u2_18 * v0_18 + 2 * u1_18 * v1_18 + u0_18 * v2_18),
    4 * w 19 * (u2_19 * v0_19 + 2 * u1_19 * v1_19 + u0_19 * v2_19), 4 * w 20 * (u2_20 * v0_20 + 2 * u1_20 * v1_20 + u0_20 * v2_20),
    4 * w 21 * (u2_21 * v0_21 + 2 * u1_21 * v1_21 + u0_21 * 2), 4 * w 22 * (u2_22 * v0_22 + 2 * u1_22 * 1), 4 * w 23 * (u2_23 * 1)])

/-- poly_imp.h:1943-1948 `gll_lag_table[n-2]` -/
def gllLag (n : Nat) (g w : Nat → K) (xh : K) : List K × List K × List K :=
  match n with
  | 2 => gllLag02 g w xh
  | 3 => gllLag03 g w xh
  | 4 => gllLag04 g w xh
  | 5 => gllLag05 g w xh
  | 6 => gllLag06 g w xh
  | 7 => gllLag07 g w xh
  | 8 => gllLag08 g w xh
  | 9 => gllLag09 g w xh
  | 10 => gllLag10 g w xh
  | 11 => gllLag11 g w xh
  | 12 => gllLag12 g w xh
  | 13 => gllLag13 g w xh
  | 14 => gllLag14 g w xh
  | 15 => gllLag15 g w xh
  | 16 => gllLag16 g w xh
  | 17 => gllLag17 g w xh
  | 18 => gllLag18 g w xh
  | 19 => gllLag19 g w xh
  | 20 => gllLag20 g w xh
  | 21 => gllLag21 g w xh
  | 22 => gllLag22 g w xh
  | 23 => gllLag23 g w xh
  | 24 => gllLag24 g w xh
  | _ => ([], [], [])

end Gslib.Poly
