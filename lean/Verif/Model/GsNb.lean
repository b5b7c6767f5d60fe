import Verif.Model.Gs
import Verif.Model.Nb

/-!
# Nonblocking gather-scatter: igs, igs_vec, igs_many and gs_wait (gs.c:470-521, 980-1018, 1185-1374)

For each exchange method the two halves of an operation: `pre`, `sends` are done by igs, `recvs` (the wait) and `post` by gs_wait. `Verif/Model/Nb.lean` has the schedules.
-/

namespace Gslib.Gs
open Gslib Gslib.Mpi Gslib.Comm

variable {U T W S : Type} (K : Kernels U T)

/-- local computations before and after a step -/
def around (f : S → Outcome S) (st : Step S W) (g : S → Outcome S) : Step S W where
  label := 0
  pre s := (f s).bind st.pre
  sends := st.sends
  payload := st.payload
  recvs := st.recvs
  post s vals := (st.post s vals).bind g

/-- MPI_Iallreduce and its completion on process `id` (comm.c:143-180 with GSLIB_USE_NBC, gs.c:1010-1014): it does not complete before all processes
have contributed, and computes the reduction of the contributions (in the order of the processes). A contribution is modelled as a message to each process. -/
def iallStep (D : Dom T) (op : Op) (np id : Nat) : Step (List T) (List T) where
  label := 0
  pre s := .ok s
  sends := (List.range np).map fun q => (q, id)
  payload s _ := s
  recvs := (List.range np).map fun q => (q, q)
  post _ vals :=
    match vals with
    | [] => .ub
    | v :: vs => .ok (vs.foldl (gatherArray D op) v)

/-- no communication -/
def idleStep : Step S (List T) := ⟨0, fun s => .ok s, [], fun _ _ => [], [], fun s _ => .ok s⟩

/-- a step that fails, `pre` first -/
def failStep (f : S → Outcome S) (o : Outcome S) : Step S (List T) := ⟨0, fun s => (f s).bind fun _ => o, [], fun _ _ => [], [], fun _ _ => .ub⟩

/-- gs.c:1185-1240 gs_aux_irecv, gs_aux_isend and gs_aux_wait on process `id` with handle `h`. `nbc`: compiled with GSLIB_USE_NBC.
* pairwise: gs.c:470-521 (the parts of pw_exec)
* crystal router: cr_setup (gs.c:934-942) does not set the three function pointers; the handle is allocated by malloc, so they are undefined
* all-reduce: gs.c:980-1018. Without GSLIB_USE_NBC, `fail` (comm.c:172). If there is nothing to reduce, comm_iallreduce does not set the request, but gs_wait waits
for it if there is more than one process. With one process nothing is shared, so nothing is reduced (if it were, the request would not be waited for, gs.c:1011). -/
def igsStep (D : Dom T) (op : Op) (nbc : Bool) (np : Nat) (t : Bool) (h : GsData) (id : Nat) : Step (GsSt U T) (List T) :=
  match h.r with
  | .pairwise d => around (gsPre K h t) (pwExecStep K d t id) (gsPost K h t)
  | .crystal _ => failStep (gsPre K h t) .ub
  | .allreduce d =>
    if K.vn * d.total = 0 then
      if np ≤ 1 then around (gsPre K h t) (around (arPre K D op d t) idleStep (arPost K d t)) (gsPost K h t)
      else failStep (gsPre K h t) .ub
    else if nbc then
      if np ≤ 1 then failStep (gsPre K h t) .ub
      else around (gsPre K h t) (around (arPre K D op d t) ((iallStep D op np id).lift GsSt.arr GsSt.setArr) (arPost K d t)) (gsPost K h t)
    else failStep (gsPre K h t) .abort

/-- data of the user: one array (igs, igs_vec) or several (igs_many) -/
inductive UserData (T : Type) where
  | one (x : List T)
  | many (xs : List (List T))

/-- one array -/
def UserData.getOne : UserData T → Option (List T)
  | .one x => some x
  | .many _ => none

/-- several arrays -/
def UserData.getMany : UserData T → Option (List (List T))
  | .one _ => none
  | .many xs => some xs

/-- a buffer: contents, contents of newly allocated memory, array of the all-reduce (see `GsSt`) -/
structure NbBuf (T : Type) where
  buf : List T
  fill : Nat → T
  arr : List T

/-- gs.c:36-39 `gs_mode` with `vn` -/
inductive Mode where
  | plain
  | vec (vn : Nat)
  | many (vn : Nat)
  deriving DecidableEq, Repr

/-- mode, operation, transpose. The domain is the same for all operations of a program (simplification). -/
structure GsArgs where
  mode : Mode
  op : Op
  t : Bool

/-- a step on user data and buffer; data of another kind than expected are undefined -/
def onUser (get : UserData T → Option U) (put : U → UserData T) (st : Step (GsSt U T) (List T)) : Step (UserData T × NbBuf T) (List T) where
  label := 0
  pre x := (Outcome.ofOption (get x.1)).bind fun u => (st.pre ⟨u, x.2.buf, x.2.fill, x.2.arr⟩).bind fun s => .ok (put s.u, ⟨s.buf, s.fill, s.arr⟩)
  sends := st.sends
  payload x k :=
    match get x.1 with
    | none => []
    | some u => st.payload ⟨u, x.2.buf, x.2.fill, x.2.arr⟩ k
  recvs := st.recvs
  post x vals := (Outcome.ofOption (get x.1)).bind fun u => (st.post ⟨u, x.2.buf, x.2.fill, x.2.arr⟩ vals).bind fun s => .ok (put s.u, ⟨s.buf, s.fill, s.arr⟩)

/-- igs, igs_vec, igs_many (gs.c:1267-1374) with arguments `a` and gs handle number `g` on process `p`; `h g p`: the handle -/
def igsEx (D : Dom T) (nbc : Bool) (np : Nat) (h : Nat → Nat → GsData) (a : GsArgs) (g p : Nat) : Step (UserData T × NbBuf T) (List T) :=
  match a.mode with
  | .plain => onUser UserData.getOne .one (igsStep (plainKernels D a.op) D a.op nbc np a.t (h g p) p)
  | .vec vn => onUser UserData.getOne .one (igsStep (vecKernels D a.op vn) D a.op nbc np a.t (h g p) p)
  | .many vn => onUser UserData.getMany .many (igsStep (manyKernels D a.op vn) D a.op nbc np a.t (h g p) p)

end Gslib.Gs
