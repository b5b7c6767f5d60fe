import Verif.Model.Gs
import Mathlib.Algebra.Order.Field.Basic

/-!
# gs_setup with gs_auto: the measurements (gs.c:1092-1151)

All three exchange methods are set up, run twelve times without user data, and the fastest one is kept. The measured times are arbitrary numbers `clock p j` (process, measurement); they are made equal on all
processes by comm_allreduce. Arithmetic on times is exact.
-/

namespace Gslib.Gs
open Gslib Gslib.Mpi Gslib.Comm

/-- gs.c:43-56 and the last entries of the tables of kernels (gs.c:449-452, 651-661, 958-961), `mode_dry_run`, `vn = 1`: nothing is done with the user data, entries of the buffer are still copied and combined by the crystal router -/
def dryKernels {T : Type} (D : Dom T) (op : Op) : Kernels Unit T where
  vn := 1
  gather _ u := some u
  init _ u := some u
  scatter _ u := some u
  toBuf _ _ b := some b
  fromBuf _ _ u := some u
  gatherBuf _ _ u := some u
  bufScatter m src b := scatterLoop (fun _ k => ldAt src k) stAt m .outer b
  bufGather m src b := gatherLoop (D.doOp op) ldAt stAt (fun _ k => ldAt src k) m .outer b

/-- gs.c:1092 `times`: average, minimum, maximum -/
structure Times (K : Type) where
  avg : K
  min : K
  max : K

/-- memory of a process during gs_setup with gs_auto: the memory of gs_setup, `r_alt`, the buffer of the measured exchanges, the number in comm_allreduce, `time[0]`, `time[1]` -/
structure AutoSt (K : Type) where
  su : SetupSt
  alt : Remote
  dry : GsSt Unit K
  x : List K
  time0 : Times K
  time1 : Times K

/-- messages: those of the set-up, and those of the measured exchanges and reductions -/
abbrev AutoMsg (K : Type) := SetupMsg ⊕ List K

/-- the part of the set-up -/
def AutoMsg.su {K : Type} : AutoMsg K → SetupMsg
  | .inl x => x
  | .inr _ => .inl (.inl [])

/-- the other part -/
def AutoMsg.vals {K : Type} : AutoMsg K → List K
  | .inl _ => []
  | .inr x => x

variable {K : Type}

/-- set the memory of gs_setup -/
def AutoSt.setSu (s : AutoSt K) (t : SetupSt) : AutoSt K := { s with su := t }

/-- set the buffer -/
def AutoSt.setDry (s : AutoSt K) (t : GsSt Unit K) : AutoSt K := { s with dry := t }

/-- set the number to be reduced -/
def AutoSt.setX (s : AutoSt K) (t : List K) : AutoSt K := { s with x := t }

/-- a local computation -/
def autoLoc (f : Nat → AutoSt K → Outcome (AutoSt K)) : Coll (AutoSt K) (AutoMsg K) := Coll.loc f (.inl (.inl (.inl [])))

/-- an operation of gs_setup -/
def autoSu (c : Coll SetupSt SetupMsg) : Coll (AutoSt K) (AutoMsg K) := (c.mapW Sum.inl AutoMsg.su).lift AutoSt.su AutoSt.setSu

/-- `comm_allreduce(comm,gs_double,op,&times[i],1,&t)` -/
def autoReduce (dom : Dom K) (op : Op) (np : Nat) : Coll (AutoSt K) (AutoMsg K) := ((commAllreduce dom op 1 np).mapW Sum.inr AutoMsg.vals).lift AutoSt.x AutoSt.setX

/-- `c`, `k` times -/
def rep {S W : Type} (c : Coll S W) : Nat → Coll S W
  | 0 => ⟨0, fun _ => []⟩
  | k + 1 => (rep c k).seq c

/-- gs.c:1095-1102: two runs and ten runs of the exchange `ex` with a buffer of `n p` entries on process `p`. buffer_reserve is called once in the program, here before each run
(the size of a buffer never decreases, so the further calls would have no effect). MPI_Barrier between the two loops is not modelled (more schedules are considered). -/
def dryRuns (ex : Coll (GsSt Unit K) (List K)) (n : Nat → Nat) : Coll (GsSt Unit K) (List K) :=
  rep ((Coll.loc (fun p s => .ok (reserve (n p) s)) []).seq ex) 12

variable [Field K] [LinearOrder K]

/-- gs.c:1092-1108 dry_run_time; `t p` is the measured time on process `p`. The result is left in `time1`. -/
def dryTime (dom : Dom K) (np : Nat) (ex : Coll (GsSt Unit K) (List K)) (n : Nat → Nat) (t : Nat → K) : Coll (AutoSt K) (AutoMsg K) :=
  (((((((((dryRuns ex n).mapW Sum.inr AutoMsg.vals).lift AutoSt.dry AutoSt.setDry).seq
  (autoLoc fun p s => .ok { s with x := [t p / np] })).seq
  (autoReduce dom .add np)).seq
  (autoLoc fun p s => match s.x with
    | [v] => .ok { s with x := [t p], time1 := { s.time1 with avg := v } }
    | _ => .ub)).seq
  (autoReduce dom .min np)).seq
  (autoLoc fun p s => match s.x with
    | [v] => .ok { s with x := [t p], time1 := { s.time1 with min := v } }
    | _ => .ub)).seq
  (autoReduce dom .max np)).seq
  (autoLoc fun _ s => match s.x with
    | [v] => .ok { s with time1 := { s.time1 with max := v } }
    | _ => .ub)

/-- the exchange data used by the programs of the processes. A program of the framework (`Mpi.Prog`) is a fixed list of steps, here it depends on the data in memory:
it is given for all data, and `autoRequire` demands that the data in memory are these. -/
structure AutoPar where
  pw : Nat → PwData
  cr : Nat → CrData
  ar : Nat → ArData
  arTotal : Nat
  small : Bool

open Classical in
/-- `c p` must hold for the memory of process `p` (not part of the program, see `AutoPar`) -/
noncomputable def autoRequire (c : Nat → AutoSt K → Prop) : Coll (AutoSt K) (AutoMsg K) :=
  autoLoc fun p s => if c p s then .ok s else .ub

/-- gs.c:1129-1133 `if(time[1][2]<time[0][2])`: keep `r_alt`, or not -/
def autoChoose (s : AutoSt K) : AutoSt K :=
  if s.time1.max < s.time0.max then { s with time0 := { s.time0 with max := s.time1.max }, su := s.su.setRemote s.alt } else s

/-- gs.c:1136 DRY_RUN(0,r,"pairwise times") -/
noncomputable def autoPw (dom : Dom K) (np : Nat) (par : AutoPar) (t : Nat → K) : Coll (AutoSt K) (AutoMsg K) :=
  ((autoRequire fun p s => s.su.h.r = .pairwise (par.pw p)).seq
  (dryTime dom np (pwExec (dryKernels dom .add) par.pw false) (fun p => (Remote.pairwise (par.pw p)).bufferSize) t)).seq
  (autoLoc fun _ s => .ok { s with time0 := s.time1 })

/-- gs.c:1138-1139 cr_setup and DRY_RUN_CHECK -/
noncomputable def autoCr (dom : Dom K) (np : Nat) (par : AutoPar) (t : Nat → K) : Coll (AutoSt K) (AutoMsg K) :=
  ((((autoSu (setupCr np false)).seq
  (autoLoc fun _ s => .ok { s with alt := .crystal s.su.cr.data })).seq
  (autoRequire fun p s => s.alt = .crystal (par.cr p))).seq
  (dryTime dom np (crExec (dryKernels dom .add) np par.cr false) (fun p => (Remote.crystal (par.cr p)).bufferSize) t)).seq
  (autoLoc fun _ s => .ok (autoChoose s))

/-- gs.c:1141-1144 allreduce_setup and DRY_RUN_CHECK -/
noncomputable def autoAr (dom : Dom K) (np : Nat) (par : AutoPar) (t : Nat → K) : Coll (AutoSt K) (AutoMsg K) :=
  (((autoLoc fun _ s => .ok { s with alt := .allreduce (allreduceSetup s.su.topo.pr s.su.topo.total) }).seq
  (autoRequire fun p s => s.alt = .allreduce (par.ar p) ∧ (par.ar p).total = par.arTotal)).seq
  (dryTime dom np (arExec (dryKernels dom .add) dom .add np par.arTotal par.ar false) (fun p => (Remote.allreduce (par.ar p)).bufferSize) t)).seq
  (autoLoc fun _ s => .ok (autoChoose s))

/-- gs.c:1110-1151 auto_setup; `clock p j` is the time on process `p` in measurement `j` -/
noncomputable def autoSetup (dom : Dom K) (np : Nat) (par : AutoPar) (clock : Nat → Nat → K) : Coll (AutoSt K) (AutoMsg K) :=
  if 1 < np then
    ((((autoSu (setupLoc fun _ => setupPw)).seq
    (autoPw dom np par fun p => clock p 0)).seq
    (autoCr dom np par fun p => clock p 1)).seq
    (autoRequire fun _ s => decide (s.su.topo.total < 100000) = par.small)).seq
    (if par.small then autoAr dom np par fun p => clock p 2 else ⟨0, fun _ => []⟩)
  else autoSu (setupLoc fun _ => setupPw)

/-- gs.c:1393-1445 gs_setup with `method = gs_auto` on `np` processes -/
noncomputable def gsSetupAuto (dom : Dom K) (np : Nat) (par : AutoPar) (clock : Nat → Nat → K) : Coll (AutoSt K) (AutoMsg K) :=
  (autoSu ((setupTopo np).seq (setupLoc (setupLocal false)))).seq (autoSetup dom np par clock)

end Gslib.Gs
