import Mathlib.Algebra.Field.Defs

/-!
# Legendre polynomial evaluation (poly.c:88-130)

`double` is replaced by a field (exact arithmetic). The `double` loop counter takes the integer values `1,3,5,…` (or `2,4,…`) and is
compared with `n-0.5`, i.e. `i<n` for integers.
-/

namespace Gslib.Poly
variable {K : Type} [Field K]

/-- poly.c:99-102, the loop of `legendre` from counter value `i` on `(p[0],p[1])` -/
def legLoop (n : Nat) (x : K) (i : Nat) (p : K × K) : K × K :=
  if i < n then
    let p0 := ((2 * (i : K) + 1) * x * p.2 - (i : K) * p.1) / ((i : K) + 1)
    let p1 := ((2 * (i : K) + 3) * x * p0 - ((i : K) + 1) * p.2) / ((i : K) + 2)
    legLoop n x (i + 2) (p0, p1)
  else p
termination_by n - i

/-- poly.c:93-104 `legendre`: `p[n&1]` -/
def legendre (n : Nat) (x : K) : K :=
  let p := legLoop n x 1 (1, x)
  if n % 2 = 0 then p.1 else p.2

/-- poly.c:112-115, the loop of `legendre_d1` -/
def legLoop1 (n : Nat) (x : K) (i : Nat) (p : K × K) : K × K :=
  if i < n then
    let p1 := ((2 * (i : K) + 1) * x * p.1 - ((i : K) + 1) * p.2) / (i : K)
    let p0 := ((2 * (i : K) + 3) * x * p1 - ((i : K) + 2) * p.1) / ((i : K) + 1)
    legLoop1 n x (i + 2) (p0, p1)
  else p
termination_by n - i

/-- poly.c:106-117 `legendre_d1` -/
def legendreD1 (n : Nat) (x : K) : K :=
  let p := legLoop1 n x 2 (3 * x, 1)
  if n % 2 = 0 then p.1 else p.2

/-- poly.c:125-128, the loop of `legendre_d2` -/
def legLoop2 (n : Nat) (x : K) (i : Nat) (p : K × K) : K × K :=
  if i < n then
    let p0 := ((2 * (i : K) + 1) * x * p.2 - ((i : K) + 2) * p.1) / ((i : K) - 1)
    let p1 := ((2 * (i : K) + 3) * x * p0 - ((i : K) + 3) * p.2) / (i : K)
    legLoop2 n x (i + 2) (p0, p1)
  else p
termination_by n - i

/-- poly.c:119-130 `legendre_d2` -/
def legendreD2 (n : Nat) (x : K) : K :=
  let p := legLoop2 n x 3 (3, 15 * x)
  if n % 2 = 0 then p.1 else p.2

end Gslib.Poly
