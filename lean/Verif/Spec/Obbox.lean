import Mathlib.Analysis.Calculus.Deriv.Basic
import Mathlib.Data.Real.Basic
import Mathlib.LinearAlgebra.Matrix.Determinant.Basic
import Mathlib.LinearAlgebra.Matrix.Notation

/-!
# Bounding boxes

The inequalities documented in obbox.h:29-41, and the Jacobian of a map.
-/

namespace Gslib.Spec
open Finset

/-- `p` satisfies `x[c].min <= p[c] <= x[c].max` and `-1 <= A (p - c0) <= 1` for all `d` coordinates -/
def InBox {K : Type} [Field K] [LinearOrder K] (d : Nat) (c0 : Nat → K) (A : Nat → Nat → K) (x : Nat → K × K) (p : Nat → K) : Prop :=
  ∀ c < d, ((x c).1 ≤ p c ∧ p c ≤ (x c).2) ∧ -1 ≤ ∑ e ∈ range d, A c e * (p e - c0 e) ∧ ∑ e ∈ range d, A c e * (p e - c0 e) ≤ 1

/-- determinant of the Jacobian of `(r,s) ↦ (X 0 r s, X 1 r s)` -/
noncomputable def jac2 (X : Nat → ℝ → ℝ → ℝ) (r s : ℝ) : ℝ :=
  Matrix.det !![deriv (fun a => X 0 a s) r, deriv (fun b => X 0 r b) s; deriv (fun a => X 1 a s) r, deriv (fun b => X 1 r b) s]

/-- determinant of the Jacobian of `(r,s,t) ↦ (X 0 r s t, X 1 r s t, X 2 r s t)` -/
noncomputable def jac3 (X : Nat → ℝ → ℝ → ℝ → ℝ) (r s t : ℝ) : ℝ :=
  Matrix.det !![deriv (fun a => X 0 a s t) r, deriv (fun b => X 0 r b t) s, deriv (fun c => X 0 r s c) t;
    deriv (fun a => X 1 a s t) r, deriv (fun b => X 1 r b t) s, deriv (fun c => X 1 r s c) t;
    deriv (fun a => X 2 a s t) r, deriv (fun b => X 2 r b t) s, deriv (fun c => X 2 r s c) t]

end Gslib.Spec
