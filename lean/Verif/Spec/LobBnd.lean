import Mathlib.LinearAlgebra.Lagrange

/-!
# Piecewise linear bounds of polynomials

Polynomials in one, two and three variables given by their values `u` at tensor-product nodes (first index fastest), and piecewise (bi-, tri-)linear
bounds with nodes `h`.
-/

namespace Gslib.Spec
open Finset
variable {K : Type} [Field K]

/-- value at `x` of the polynomial of degree `<n` that is 1 at node `i` and 0 at the other nodes -/
noncomputable def basisAt (n : Nat) (z : Nat → K) (i : Nat) (x : K) : K := (Lagrange.basis (range n) z i).eval x

/-- the polynomial in one variable with values `u i` at `z i` -/
noncomputable def poly1 (n : Nat) (z : Nat → K) (u : Nat → K) (x : K) : K := ∑ i ∈ range n, u i * basisAt n z i x

/-- the polynomial in two variables with value `u (i+nr*j)` at `(zr i, zs j)` -/
noncomputable def poly2 (nr : Nat) (zr : Nat → K) (ns : Nat) (zs : Nat → K) (u : Nat → K) (r s : K) : K :=
  ∑ j ∈ range ns, (∑ i ∈ range nr, u (i + nr * j) * basisAt nr zr i r) * basisAt ns zs j s

/-- the polynomial in three variables with value `u (i+nr*(j+ns*k))` at `(zr i, zs j, zt k)` -/
noncomputable def poly3 (nr : Nat) (zr : Nat → K) (ns : Nat) (zs : Nat → K) (nt : Nat) (zt : Nat → K) (u : Nat → K) (r s t : K) : K :=
  ∑ k ∈ range nt, (∑ j ∈ range ns, (∑ i ∈ range nr, u (i + nr * (j + ns * k)) * basisAt nr zr i r) * basisAt ns zs j s) * basisAt nt zt k t

/-- linear interpolation of `v` between nodes `j` and `j+1` -/
def plin (v : Nat → K) (j : Nat) (t : K) : K := (1 - t) * v j + t * v (j + 1)

/-- bilinear interpolation in cell `(i,j)`; the value at node `(i,j)` is `v (i*ms+j)` -/
def plin2 (ms : Nat) (v : Nat → K) (i : Nat) (a : K) (j : Nat) (b : K) : K := plin (fun i => plin (fun j => v (i * ms + j)) j b) i a

/-- trilinear interpolation in cell `(i,j,k)`; the value at node `(i,j,k)` is `v ((i*ms+j)*mt+k)` -/
def plin3 (ms mt : Nat) (v : Nat → K) (i : Nat) (a : K) (j : Nat) (b : K) (k : Nat) (c : K) : K :=
  plin (fun i => plin (fun j => plin (fun k => v ((i * ms + j) * mt + k)) k c) j b) i a

variable [LinearOrder K]

/-- the piecewise linear functions with values `lo`, `hi` at the `m` nodes `h` bound `f` on every segment -/
def PLBounds (m : Nat) (h : Nat → K) (b : Nat → K × K) (f : K → K) : Prop :=
  ∀ j, j + 1 < m → ∀ t, 0 ≤ t → t ≤ 1 → plin (fun k => (b k).1) j t ≤ f (plin h j t) ∧ f (plin h j t) ≤ plin (fun k => (b k).2) j t

/-- `m` nodes from -1 to 1 and, for every basis polynomial, piecewise linear bounds on these nodes -/
structure ValidTable (n m : Nat) (z : Nat → K) (h : Nat → K) (lb : Nat → Nat → K × K) : Prop where
  two : 2 ≤ m
  first : h 0 = -1
  last : h (m - 1) = 1
  bounds : ∀ i < n, PLBounds m h (lb i) (basisAt n z i)

end Gslib.Spec
