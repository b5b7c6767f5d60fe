import Verif.Model.Outcome

/-!
# Handle tables: nonblocking requests (gs.c:1243-1374) and Fortran handles (gs.c:1524-1656, fcrystal.c:83-189, findpts.c:242-380)
-/

namespace Gslib.Tab
open Gslib

/-- `INT_MAX`: the counters of the tables are `int` -/
def intMax : Nat := 2147483647

/-- an element of a table of pointers: indeterminate (fresh from `realloc`), null, or a pointer to an object -/
inductive Cell (R : Type) where
  | unset
  | null
  | obj (r : R)
  deriving DecidableEq, Repr

/-- a table: `nblkng_dict, nblkng_n, nblkng_max` (gs.c:1256-1258), `fgs_info, fgs_n, fgs_max` (gs.c:1524-1526),
`handle_array, handle_n, handle_max` (fcrystal.c:83-85, findpts.c:243-245) -/
structure Tab (R : Type) where
  cells : List (Cell R)
  n : Nat
  max : Nat
  deriving DecidableEq, Repr

/-- static initial value: a null pointer and two zeros -/
def empty {R : Type} : Tab R := ⟨[], 0, 0⟩

variable {R : Type}

/-- `if(n==max) max+=max/2+1, p=trealloc(T,p,max)` (gs.c:1270-1271, 1537-1538, fcrystal.c:90-92, findpts.c:263-265); signed overflow
of `max` is undefined behaviour. (Simplification: the allocation succeeds.) -/
def grow (t : Tab R) : Outcome (Tab R) :=
  if t.n = t.max then
    if t.max + (t.max / 2 + 1) ≤ intMax then
      .ok ⟨t.cells ++ List.replicate (t.max + (t.max / 2 + 1) - t.cells.length) .unset, t.n, t.max + (t.max / 2 + 1)⟩
    else .ub
  else .ok t

/-- `p[n] = object; *handle = n++` (gs.c:1273-1284, 1539-1542, fcrystal.c:93-97, findpts.c:266-297); a write outside of the
allocated table is undefined. The handle, and the table afterwards. -/
def put (r : R) (t : Tab R) : Outcome (Nat × Tab R) :=
  (grow t).bind fun t =>
    if t.n < t.cells.length then .ok (t.n, ⟨t.cells.set t.n (.obj r), t.n + 1, t.max⟩) else .ub

/-! ## Fortran handles -/

/-- gs.c:1552-1556 `fgs_check_handle`, fcrystal.c:100-104 and findpts.c:357-360 `CHECK_HANDLE`:
`if(handle<0 || handle>=n || !p[handle]) fail(...)`; the object otherwise -/
def check (h : Int) (t : Tab R) : Outcome R :=
  if h < 0 ∨ (t.n : Int) ≤ h then .abort
  else match t.cells[h.toNat]? with
    | some (.obj r) => .ok r
    | some .null => .abort
    | _ => .ub

/-- gs.c:1651-1656 `fgs_free`, fcrystal.c:183-189 `fcrystal_free`, findpts.c:372-380 `ffindpts_free`, `ffindptsms_free`: check the handle,
release the object, store a null pointer. The object released, and the table afterwards. -/
def free (h : Int) (t : Tab R) : Outcome (R × Tab R) :=
  (check h t).bind fun r => .ok (r, ⟨t.cells.set h.toNat .null, t.n, t.max⟩)

/-! ## Nonblocking requests -/

/-- gs.c:1256-1259: the table and `nblkng_count` -/
structure Nb (R : Type) where
  tab : Tab R
  count : Int
  deriving DecidableEq, Repr

/-- gs.c:1256-1259: static initial values -/
def Nb.empty {R : Type} : Nb R := ⟨Tab.empty, 0⟩

/-- gs.c:1270-1285 (also 1323-1338, 1355-1370): `igs` as far as the table is concerned; `r` stands for the arguments recorded -/
def nbStart (r : R) (t : Nb R) : Outcome (Nat × Nb R) :=
  (put r t.tab).bind fun x => .ok (x.1, ⟨x.2, t.count + 1⟩)

/-- gs.c:1307-1312: `if(nblkng_count == 0) { free(nblkng_dict); nblkng_dict=0; nblkng_max=0; nblkng_n=0; }` -/
def nbRecycle (t : Nb R) : Nb R := if t.count = 0 then ⟨Tab.empty, t.count⟩ else t

/-- gs.c:1291-1313 `gs_wait` as far as the table is concerned: the recorded arguments of the operation that is completed, if any,
and the table afterwards. A negative index and a null pointer are dereferenced without a check: undefined. -/
def nbWait (h : Int) (t : Nb R) : Outcome (Option R × Nb R) :=
  if h < (t.tab.n : Int) then
    if h < 0 then .ub
    else match t.tab.cells[h.toNat]? with
      | some (.obj r) => .ok (some r, nbRecycle ⟨⟨t.tab.cells.set h.toNat .null, t.tab.n, t.tab.max⟩, t.count - 1⟩)
      | _ => .ub
  else .ok (none, nbRecycle t)

end Gslib.Tab
