import Verif.Model.HandleTable
import Verif.Model.GsOp

/-!
# Fortran interface of gs: arguments and fields (gs.c:1552-1656)
-/

namespace Gslib.Fgs
open Gslib Gslib.Tab

/-- C types of the data: gs_defs.h:18-23 `GS_FOR_EACH_DOMAIN`, also the enum `gs_dom` (gs_defs.h:59-63) -/
inductive GDom where
  | double | float | int | long | longLong
  deriving DecidableEq, Repr

/-- `sizeof` on a 64-bit (LP64) target -/
def GDom.size : GDom → Nat
  | .double => 8
  | .float => 4
  | .int => 4
  | .long => 8
  | .longLong => 8

/-- types.h:18-31: the types that can be chosen at compile time for `sint` and `slong` -/
inductive IntT where
  | int | long | longLong
  deriving DecidableEq, Repr

/-- gs_defs.h:65-66 `gs_sint`, `gs_slong` -/
def IntT.dom : IntT → GDom
  | .int => .int
  | .long => .long
  | .longLong => .longLong

/-- types.h:59-75: the types chosen at compile time for `sint` and `slong` -/
structure Cfg where
  sint : IntT
  slong : IntT

/-- gs_defs.h:70-73 `gs_dom_size` in the order of `GS_FOR_EACH_DOMAIN`, the last entry is 0 (`long_long` present) -/
def gsDomSize : List Nat := [GDom.double.size, GDom.float.size, GDom.int.size, GDom.long.size, GDom.longLong.size, 0]

/-- gs.c:1558 `fgs_dom[4] = { gs_float, gs_double, gs_sint, gs_slong }` -/
def fgsDom (c : Cfg) : List GDom := [.float, .double, c.sint.dom, c.slong.dom]

/-- gs_defs.h:76-80: the enum `gs_op` -/
def opEnum : List Gs.Op := [.add, .mul, .min, .max, .bpr]

variable {R : Type}

/-- gs.c:1560-1568 `fgs_check_parms`; the object of the handle -/
def checkParms (h dom op : Int) (t : Tab R) : Outcome R :=
  if dom < 1 ∨ 3 < dom then .abort
  else if op < 1 ∨ 4 < op then .abort
  else check h t

/-- what is passed on to the C interface: object, domain, operation, transpose -/
structure Call (R : Type) where
  obj : R
  dom : GDom
  op : Gs.Op
  transpose : Bool
  deriving DecidableEq, Repr

/-- gs.c:1570-1621 `fgs`, `figs`, `fgs_vec`, `figs_vec`, `fgs_many`, `figs_many`: the common part of their arguments to `cgs`, ... :
`fgs_dom[*dom]`, `(gs_op_t)(*op-1)`, `*transpose!=0`, `fgs_info[*handle]` -/
def fgs (c : Cfg) (h dom op transpose : Int) (t : Tab R) : Outcome (Call R) :=
  (checkParms h dom op t).bind fun r =>
    Outcome.ofOption <| ((fgsDom c)[dom.toNat]?).bind fun d => (opEnum[(op - 1).toNat]?).bind fun o => some ⟨r, d, o, transpose ≠ 0⟩

/-- gs.c:1644 `for(i=*n;i;--i) *p++ = u, u = (char*)u + offset;`: addresses in bytes -/
def fieldPtrs (offset : Nat) : Nat → Nat → List Nat
  | _, 0 => []
  | u, n + 1 => u :: fieldPtrs offset (u + offset) n

/-- gs.c:1643 `offset = *stride * gs_dom_size[*dom-1]`: if `sint` is `int` the product is of type `unsigned`, otherwise of a 64-bit signed type;
then converted to `size_t` -/
def fieldOffset (c : Cfg) (stride : Int) (size : Nat) : Nat :=
  if c.sint = .int then (stride * size % 4294967296).toNat else (stride * size % 18446744073709551616).toNat

/-- gs.c:1630-1649 `fgs_fields`: nothing is done if `*n<0`, otherwise the pointers passed to `gs_many` and the other arguments.
(Simplification: the allocation of the array of pointers succeeds.) -/
def fgsFields (c : Cfg) (h : Int) (u : Nat) (stride n dom op transpose : Int) (t : Tab R) : Outcome (Option (List Nat × Call R)) :=
  (checkParms h dom op t).bind fun _ =>
    if n < 0 then .ok none
    else (Outcome.ofOption gsDomSize[(dom - 1).toNat]?).bind fun size =>
      (fgs c h dom op transpose t).bind fun call => .ok (some (fieldPtrs (fieldOffset c stride size) u n.toNat, call))

/-- gs_local.c:244-330: `gs_many` accesses element `i` of the array that starts at `p` -/
def elemAddr (d : GDom) (p i : Nat) : Nat := p + i * d.size

end Gslib.Fgs
