import Mathlib.Algebra.Field.Defs

/-!
# Legendre polynomials with floating point arithmetic (poly.c:88-130)

As `Model/Legendre`; the small integers `2*i+1`, `i+1`, ... are exact, every other operation is rounded: `rnd` after a product by such an integer or by `x` and after a division; `dif y p b q` is `y*p-b*q`, rounded (with or without
contraction of one of the products).
-/

namespace Gslib.LegFl
variable {K : Type} [Field K]

/-- poly.c:100, 101, 113, 114, 126, 127: `(c*x*p - b*q)/e` -/
def stepFl (rnd : K → K) (dif : K → K → K → K → K) (x c p b q e : K) : K := rnd (dif (rnd (c * x)) p b q / e)

/-- poly.c:99-102, the loop of `legendre` from counter value `i` on `(p[0],p[1])` -/
def loop0 (rnd : K → K) (dif : K → K → K → K → K) (n : Nat) (x : K) (i : Nat) (p : K × K) : K × K :=
  if i < n then
    let p0 := stepFl rnd dif x (2 * (i : K) + 1) p.2 (i : K) p.1 ((i : K) + 1)
    let p1 := stepFl rnd dif x (2 * (i : K) + 3) p0 ((i : K) + 1) p.2 ((i : K) + 2)
    loop0 rnd dif n x (i + 2) (p0, p1)
  else p
termination_by n - i

/-- poly.c:93-104 `legendre` -/
def legendreFl (rnd : K → K) (dif : K → K → K → K → K) (n : Nat) (x : K) : K :=
  let p := loop0 rnd dif n x 1 (1, x)
  if n % 2 = 0 then p.1 else p.2

/-- poly.c:112-115, the loop of `legendre_d1` -/
def loop1 (rnd : K → K) (dif : K → K → K → K → K) (n : Nat) (x : K) (i : Nat) (p : K × K) : K × K :=
  if i < n then
    let p1 := stepFl rnd dif x (2 * (i : K) + 1) p.1 ((i : K) + 1) p.2 (i : K)
    let p0 := stepFl rnd dif x (2 * (i : K) + 3) p1 ((i : K) + 2) p.1 ((i : K) + 1)
    loop1 rnd dif n x (i + 2) (p0, p1)
  else p
termination_by n - i

/-- poly.c:106-117 `legendre_d1` -/
def legendreD1Fl (rnd : K → K) (dif : K → K → K → K → K) (n : Nat) (x : K) : K :=
  let p := loop1 rnd dif n x 2 (rnd (3 * x), 1)
  if n % 2 = 0 then p.1 else p.2

/-- poly.c:125-128, the loop of `legendre_d2` -/
def loop2 (rnd : K → K) (dif : K → K → K → K → K) (n : Nat) (x : K) (i : Nat) (p : K × K) : K × K :=
  if i < n then
    let p0 := stepFl rnd dif x (2 * (i : K) + 1) p.2 ((i : K) + 2) p.1 ((i : K) - 1)
    let p1 := stepFl rnd dif x (2 * (i : K) + 3) p0 ((i : K) + 3) p.2 (i : K)
    loop2 rnd dif n x (i + 2) (p0, p1)
  else p
termination_by n - i

/-- poly.c:119-130 `legendre_d2` -/
def legendreD2Fl (rnd : K → K) (dif : K → K → K → K → K) (n : Nat) (x : K) : K :=
  let p := loop2 rnd dif n x 3 (3, rnd (15 * x))
  if n % 2 = 0 then p.1 else p.2

end Gslib.LegFl
