import Verif.Model.GsUnique
import Verif.Model.GsCr

/-!
# gs_setup, gs, gs_vec and gs_many (gs.c:1110-1151, 1167-1183, 1261-1374, 1379-1445)
-/

namespace Gslib.Gs
open Gslib Gslib.Mpi Gslib.Sarray Gslib.Comm

/-- gs.c:1382 `gs_method`. For gs_auto, `cr` and `ar` are the outcomes of the comparisons `time[1][2]<time[0][2]` (gs.c:1129) after the measurements
for the crystal router and for the all-reduce. The compared times are results of comm_allreduce, hence the same on all processes. -/
inductive Method where
  | auto (cr ar : Bool)
  | pairwise
  | crystal
  | allreduce
  deriving DecidableEq, Repr

/-- memory of a process during gs_setup: topology (with the user's ids), memory of cr_setup, the handle -/
structure SetupSt where
  topo : TopoSt
  cr : CrSetSt
  h : GsData

/-- messages of gs_setup -/
abbrev SetupMsg := TopoMsg ⊕ CrMsg

/-- the part of get_topology -/
def SetupMsg.topo : SetupMsg → TopoMsg
  | .inl x => x
  | .inr _ => .inl []

/-- the part of cr_setup -/
def SetupMsg.cr : SetupMsg → CrMsg
  | .inl _ => .rows []
  | .inr x => x

/-- set the topology -/
def SetupSt.setTopo (s : SetupSt) (t : TopoSt) : SetupSt := { s with topo := t }

/-- set the memory of cr_setup -/
def SetupSt.setCr (s : SetupSt) (t : CrSetSt) : SetupSt := { s with cr := t }

/-- set the exchange method of the handle -/
def SetupSt.setRemote (s : SetupSt) (r : Remote) : SetupSt := { s with h := { s.h with r := r } }

/-- a local computation of gs_setup -/
def setupLoc (f : Nat → SetupSt → Outcome SetupSt) : Coll SetupSt SetupMsg := Coll.loc f (.inl (.inl []))

/-- gs.c:1404 get_topology within gs_setup -/
def setupTopo (np : Nat) : Coll SetupSt SetupMsg := ((getTopology np).mapW Sum.inl SetupMsg.topo).lift SetupSt.topo SetupSt.setTopo

/-- gs.c:1405-1408: make_topology_unique, local_setup -/
def setupLocal (unique : Bool) (id : Nat) (s : SetupSt) : Outcome SetupSt :=
  (if unique then makeUnique false id s.topo else .ok s.topo).bind fun t =>
    .ok { s with topo := t, h := localSetup t.nz s.h.r }

/-- gs.c:616-627 pw_setup -/
def setupPw (s : SetupSt) : Outcome SetupSt :=
  (pwSetup s.topo.sh s.topo.scratch).bind fun d => .ok ((s.setTopo { s.topo with sh := d.2 }).setRemote (.pairwise d.1))

/-- gs.c:934-942 cr_setup: the rows of `sh` are sorted in place; `keep`: the method is kept (for gs_auto, gs.c:1129-1133) -/
def setupCr (np : Nat) (keep : Bool) : Coll SetupSt SetupMsg :=
  ((setupLoc fun _ s => .ok (s.setCr { s.cr with sh := s.topo.sh })).seq (((crSetup np).mapW Sum.inr SetupMsg.cr).lift SetupSt.cr SetupSt.setCr)).seq
    (setupLoc fun _ s => .ok (if keep then s.setRemote (.crystal s.cr.data) else s))

/-- gs.c:1074-1088 allreduce_setup -/
def setupAr (s : SetupSt) : Outcome SetupSt := .ok (s.setRemote (.allreduce (allreduceSetup s.topo.pr s.topo.total)))

/-- gs.c:1396-1397, 1412 `remote_setup[method]`, and 1110-1151 auto_setup. The measurements (dry_run_time) are in Model/GsAuto, which is shown to give
the same handles. -/
def remoteSetup (np : Nat) : Method → Coll SetupSt SetupMsg
  | .pairwise => setupLoc fun _ => setupPw
  | .crystal => setupCr np true
  | .allreduce => setupLoc fun _ => setupAr
  | .auto cr ar =>
    if 1 < np then
      ((setupLoc fun _ => setupPw).seq (setupCr np cr)).seq (setupLoc fun _ s => if s.topo.total < 100000 ∧ ar = true then setupAr s else .ok s)
    else setupLoc fun _ => setupPw

/-- gs.c:1393-1436 gs_setup_aux (and 1438-1445 gs_setup) on `np` processes with `verbose = 0` -/
def gsSetup (unique : Bool) (m : Method) (np : Nat) : Coll SetupSt SetupMsg :=
  ((setupTopo np).seq (setupLoc (setupLocal unique))).seq (remoteSetup np m)

variable {U T : Type} (K : Kernels U T)

/-- `gsh->r.exec` of the handle `h` (gs.c:623, 940, 1080) -/
def remoteExec (D : Dom T) (op : Op) (np : Nat) (t : Bool) (h : GsData) : Coll (GsSt U T) (List T) :=
  match h.r with
  | .pairwise d => pwExec K (fun _ => d) t
  | .crystal d => crExec K np (fun _ => d) t
  | .allreduce d => arExec K D op np d.total (fun _ => d) t

/-- gs_aux (gs.c:1167-1183) on `np` processes; process `p` has the handle `h p`. The kernels `K` of the mode contain domain, operation and `vn`. -/
def gsOp (D : Dom T) (op : Op) (np : Nat) (t : Bool) (h : Nat → GsData) : Nat → Prog (GsSt U T) (List T) :=
  fun p => (gsAux K (fun _ => h p) t (remoteExec K D op np t (h p))).prog p

end Gslib.Gs
