import Verif.Model.Transfer
import Verif.Spec.Transfer
import Mathlib.Algebra.BigOperators.Group.Finset.Basic

/-!
# Admissible inputs of the struct array transfers

The memory (`TrState`) of each process holds the rows `R q`, to be sent to `D q`.
-/

namespace Gslib.Transfer
open Gslib Gslib.Crystal Gslib.Spec Gslib.Mpi

/-- all entries are bytes -/
def Bytes (bs : List Nat) : Prop := ∀ b ∈ bs, b < 256

/-- the parameters are meaningful -/
structure Wf (P : Params) : Prop where
  ne : P.sizes ≠ []
  field : P.ext = false → P.pOff + 4 ≤ P.sizes.headD 0
  row : 0 < P.rowSize

/-- what becomes of a row sent by `src` to `tgt` -/
def outRow (P : Params) (src tgt : Nat) (r : Row) : Row :=
  if P.ext then r else setProcField P.pOff (if P.setSrc then src else tgt) r

/-- rows are well formed -/
def RowsOk (P : Params) (R : List Row) : Prop := ∀ r ∈ R, r.map List.length = P.sizes ∧ ∀ c ∈ r, Bytes c

/-- a process state holding rows `R` with destinations `D` -/
structure StOk (np : Nat) (P : Params) (s : TrState) (R : List Row) (D : List Nat) : Prop where
  cols : s.cols = colsOf P.sizes.length R
  rows : RowsOk P R
  dlen : D.length = R.length
  dext : P.ext = true → s.proc = D
  dint : P.ext = false → D = R.map (procField P.pOff)
  dest : ∀ d ∈ D, d < np
  stride : P.ext = true → P.stride * R.length ≤ uintRange

/-- rows `R q` with destinations `D q` on every process `q` of `np`; all rows together fit a message -/
structure Inp (np : Nat) (P : Params) (s0 : Nat → TrState) (R : Nat → List Row) (D : Nat → List Nat) : Prop where
  wf : Wf P
  st : ∀ q, q < np → StOk np P (s0 q) (R q) (D q)
  np32 : np ≤ 4294967295
  small : (∑ q ∈ Finset.range np, (R q).length) * (P.rowSize + 3) * 4 < intMax

end Gslib.Transfer
