import Verif.Model.FindptsEval
import Verif.Spec.Findpts

/-!
# Specification of `findpts_eval` in a history of calls
-/

namespace Gslib.Spec
open Gslib Gslib.Fp

variable {D : Nat}

/-- the points of the saved communication pattern after a call: `findpts` forgets them, `findpts_eval` keeps those already saved, else it saves its own -/
def saveCall (g : Option (Nat → List (EvArg D))) : FCall D → Option (Nat → List (EvArg D))
  | .find _ _ => none
  | .eval a _ _ => some (g.getD a)

/-- the points of the saved communication pattern after a history: those of the first `findpts_eval` since the last `findpts` -/
def savedArgs (h : List (FCall D)) : Option (Nat → List (EvArg D)) := h.foldl saveCall none

/-- `out'` is the output array `out` of a process after an evaluation at the points `args`: at the index of a point that was found, the value `ev q el r` of the field, of element `el` of process `q`, at `r`; else unchanged -/
def EvalResult (ev : Nat → Nat → (Fin D → Nat) → Nat) (args : List (EvArg D)) (out out' : List Nat) : Prop :=
  out'.length = out.length ∧
  (∀ (i : Nat) a, args[i]? = some a → a.code ≠ 2 → out'[i]? = some (ev a.proc a.el a.r)) ∧
  ∀ i : Nat, (∀ a, args[i]? = some a → a.code = 2) → out'[i]? = out[i]?

/-- the values of the field on process `q` in element `el` -/
def evAt (eenv : Nat → EvEnv D) (ev : Nat → (Nat → Nat) → (Fin D → Nat) → Nat) (inp : Nat → Nat → Nat) (q el : Nat) (r : Fin D → Nat) : Nat :=
  ev q (fun j => inp q (el * (eenv q).ntot + j)) r

/-- the evaluation acts point by point -/
structure EvEnvOk (np : Nat) (eenv : Nat → EvEnv D) (ev : Nat → (Nat → Nat) → (Fin D → Nat) → Nat) : Prop where
  pw : ∀ q, q < np → ∀ f pts, pts.length ≤ (eenv q).nptMax → (eenv q).evalEl f pts = pts.map (ev q f)
  npt : ∀ q, q < np → 0 < (eenv q).nptMax
  fit : ∀ q, q < np → ∀ f r, ev q f r < 18446744073709551616

/-- valid points -/
structure ArgsOk (np : Nat) (eenv : Nat → EvEnv D) (a : Nat → List (EvArg D)) : Prop where
  found : ∀ p, p < np → ∀ x ∈ a p, x.code ≠ 2 → x.proc < np ∧ x.el < 4294967296 ∧ x.el * (eenv x.proc).ntot < 4294967296 ∧ ∀ d, x.r d < 18446744073709551616
  len : ∀ p, p < np → (a p).length ≤ 4294967296
  small : (∑ p ∈ Finset.range np, (a p).length) * (8 * D + 24) < Crystal.intMax

/-- a valid call when `g` are the points of the saved pattern: `findpts` with valid arguments; for `findpts_eval` the points that are used must be valid and the output array must have room for them -/
def ValidCall (np : Nat) (eenv : Nat → EvEnv D) (g : Option (Nat → List (EvArg D))) : FCall D → Prop
  | .find xs outs => CallOk np xs outs
  | .eval a _ out => ArgsOk np eenv (g.getD a) ∧ ∀ p, p < np → ((g.getD a) p).length ≤ (out p).length

/-- each call of a history is valid at its place -/
def ValidHist (np : Nat) (eenv : Nat → EvEnv D) (h : List (FCall D)) : Prop := ∀ h1 c h2, h = h1 ++ c :: h2 → ValidCall np eenv (savedArgs h1) c

end Gslib.Spec
