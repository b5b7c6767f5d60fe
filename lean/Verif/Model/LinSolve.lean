import Mathlib.Algebra.Field.Defs
import Mathlib.Data.Fin.VecNotation

/-!
# Small linear solves (findpts_el_2.c, findpts_el_3.c, obbox.c)

`double` is replaced by an arbitrary field (exact arithmetic). A C array of `k` doubles is a function `Fin k → K`; matrices are
row-major as in the code.
-/

namespace Gslib.Lin
variable {K : Type} [Field K]

/-- findpts_el_2.c:32-37 `lin_solve_2` -/
def linSolve2 (A : Fin 4 → K) (y : Fin 2 → K) : Fin 2 → K :=
  let idet := 1 / (A 0 * A 3 - A 1 * A 2)
  ![idet * (A 3 * y 0 - A 1 * y 1), idet * (A 0 * y 1 - A 2 * y 0)]

/-- findpts_el_3.c:30-50 `lin_solve_3` -/
def linSolve3 (A : Fin 9 → K) (y : Fin 3 → K) : Fin 3 → K :=
  let a := A 4 * A 8 - A 5 * A 7
  let b := A 5 * A 6 - A 3 * A 8
  let c := A 3 * A 7 - A 4 * A 6
  let idet := 1 / (A 0 * a + A 1 * b + A 2 * c)
  let inv0 := a
  let inv1 := A 2 * A 7 - A 1 * A 8
  let inv2 := A 1 * A 5 - A 2 * A 4
  let inv3 := b
  let inv4 := A 0 * A 8 - A 2 * A 6
  let inv5 := A 2 * A 3 - A 0 * A 5
  let inv6 := c
  let inv7 := A 1 * A 6 - A 0 * A 7
  let inv8 := A 0 * A 4 - A 1 * A 3
  ![idet * (inv0 * y 0 + inv1 * y 1 + inv2 * y 2),
    idet * (inv3 * y 0 + inv4 * y 1 + inv5 * y 2),
    idet * (inv6 * y 0 + inv7 * y 1 + inv8 * y 2)]

/-- findpts_el_3.c:52-57 `lin_solve_sym_2`; `A` holds the entries 00, 01, 11 -/
def linSolveSym2 (A : Fin 3 → K) (y : Fin 2 → K) : Fin 2 → K :=
  let idet := 1 / (A 0 * A 2 - A 1 * A 1)
  ![idet * (A 2 * y 0 - A 1 * y 1), idet * (A 0 * y 1 - A 1 * y 0)]

/-- obbox.c:32-39 `mat_inv_2` -/
def matInv2 (A : Fin 4 → K) : Fin 4 → K :=
  let idet := 1 / (A 0 * A 3 - A 1 * A 2)
  ![idet * A 3, -(idet * A 1), -(idet * A 2), idet * A 0]

/-- obbox.c:41-56 `mat_inv_3` -/
def matInv3 (A : Fin 9 → K) : Fin 9 → K :=
  let a := A 4 * A 8 - A 5 * A 7
  let b := A 5 * A 6 - A 3 * A 8
  let c := A 3 * A 7 - A 4 * A 6
  let idet := 1 / (A 0 * a + A 1 * b + A 2 * c)
  ![idet * a, idet * (A 2 * A 7 - A 1 * A 8), idet * (A 1 * A 5 - A 2 * A 4),
    idet * b, idet * (A 0 * A 8 - A 2 * A 6), idet * (A 2 * A 3 - A 0 * A 5),
    idet * c, idet * (A 1 * A 6 - A 0 * A 7), idet * (A 0 * A 4 - A 1 * A 3)]

end Gslib.Lin
