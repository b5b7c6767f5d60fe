import Verif.Model.GsTopo

/-!
# Local setup, pairwise and all-reduce exchange, gs_aux (gs.c:334-627, 953-1086, 1167-1183)
-/

namespace Gslib.Gs
open Gslib Gslib.Mpi Gslib.Sarray Gslib.Comm

/-- `other->id==row_id&&cond` (gs.c:344, 355) with `cond` either `other->flag==0` or `1` -/
def sel (ign : Bool) (id : Nat) (o : NonzeroId) : Bool := o.id = id && (!ign || o.flag = 0)

/-- gs.c:335-363 local_map (macro DO_SET): rows grouped by id. `ign`: `ignore_flagged` -/
def localMap (ign : Bool) : List NonzeroId → List Nat
  | [] => [uintMax]
  | row :: rest =>
    if rest.takeWhile (sel ign row.id) ≠ [] then
      row.i :: (rest.takeWhile (sel ign row.id)).map NonzeroId.i ++ uintMax :: localMap ign (rest.dropWhile (sel ign row.id))
    else localMap ign (rest.dropWhile (sel ign row.id))
  termination_by rows => rows.length
  decreasing_by
    · have := (List.dropWhile_suffix (l := rest) (sel ign row.id)).length_le; simp only [List.length_cons]; omega
    · have := (List.dropWhile_suffix (l := rest) (sel ign row.id)).length_le; simp only [List.length_cons]; omega

/-- gs.c:335-363 (macro DO_COUNT): the number of entries allocated for the map -/
def localMapCount (ign : Bool) (count : Nat) : List NonzeroId → Nat
  | [] => count
  | row :: rest =>
    localMapCount ign (count + (rest.takeWhile (sel ign row.id)).length + if rest.takeWhile (sel ign row.id) ≠ [] then 2 else 0) (rest.dropWhile (sel ign row.id))
  termination_by rows => rows.length
  decreasing_by
    have := (List.dropWhile_suffix (l := rest) (sel ign row.id)).length_le; simp only [List.length_cons]; omega

/-- gs.c:365-376 flagged_primaries_map -/
def flaggedPrimariesMap (nz : List NonzeroId) : List Nat :=
  ((nz.filter fun r => r.i = r.primary && r.flag = 1).map NonzeroId.i) ++ [uintMax]

/-- gs.c:399-404 `struct pw_comm_data`: `(p[k], size[k])` for each message, and `total` -/
structure PwComm where
  msgs : List (Nat × Nat)
  total : Nat
  deriving DecidableEq, Repr

/-- gs.c:534-538: the index into the buffer; argument `count` -/
def assignBi (mask : Nat) : Nat → List SharedId → List SharedId
  | _, [] => []
  | count, s :: rest =>
    if s.flags &&& mask ≠ 0 then { s with bi := uintMax } :: assignBi mask count rest
    else { s with bi := count } :: assignBi mask (count + 1) rest

/-- `++count` for the last message of the list -/
def bumpLast : List (Nat × Nat) → List (Nat × Nat)
  | [] => []
  | [x] => [(x.1, x.2 + 1)]
  | x :: xs => x :: bumpLast xs

/-- gs.c:544-553: processes and message sizes; arguments `lp` and the messages so far -/
def pwMsgs (mask : Nat) : Nat → List (Nat × Nat) → List SharedId → List (Nat × Nat)
  | _, acc, [] => acc
  | lp, acc, s :: rest =>
    if s.flags &&& mask ≠ 0 then pwMsgs mask lp acc rest
    else if s.p ≠ lp then pwMsgs mask s.p (acc ++ [(s.p, 1)]) rest
    else pwMsgs mask lp (bumpLast acc) rest

/-- gs.c:526-556 pw_comm_setup: communication data, and `sh` afterwards -/
def pwCommSetup (mask : Nat) (sh : List SharedId) (s : ScratchF Nat) : Outcome (PwComm × List SharedId) :=
  (sarraySort [.int 4 SharedId.p, .int 8 SharedId.id] sh s).bind fun sh =>
    .ok (⟨pwMsgs mask uintMax [] sh, (sh.filter fun x => x.flags &&& mask = 0).length⟩, assignBi mask 0 sh)

/-- gs.c:576-584, rows grouped by `i` -/
def pwMap : List SharedId → List Nat
  | [] => [uintMax]
  | s :: rest =>
    if s.bi = uintMax then pwMap rest
    else s.i :: s.bi :: ((rest.takeWhile fun x => x.i = s.i).filter fun x => x.bi ≠ uintMax).map SharedId.bi ++
      uintMax :: pwMap (rest.dropWhile fun x => x.i = s.i)
  termination_by rows => rows.length
  decreasing_by
    · simp
    · have := (List.dropWhile_suffix (l := rest) (fun x : SharedId => decide (x.i = s.i))).length_le; simp only [List.length_cons]; omega

/-- gs.c:561-586 pw_map_setup: the map, and `sh` afterwards -/
def pwMapSetup (sh : List SharedId) (s : ScratchF Nat) : Outcome (List Nat × List SharedId) :=
  (sarraySort [.int 4 SharedId.i] sh s).bind fun sh => .ok (pwMap sh, sh)

/-- gs.c:406-411 `struct pw_data` (index 0, 1 of `comm` and `map` is `false`, `true`) -/
structure PwData where
  comm : Bool → PwComm
  map : Bool → List Nat

/-- gs.c:588-606 pw_setup_aux; FLAGS_REMOTE = 2, FLAGS_LOCAL = 1. The data, and `sh` afterwards. -/
def pwSetup (sh : List SharedId) (s : ScratchF Nat) : Outcome (PwData × List SharedId) :=
  (pwCommSetup 2 sh s).bind fun r0 => (pwMapSetup r0.2 s).bind fun m0 =>
  (pwCommSetup 1 m0.2 s).bind fun r1 => (pwMapSetup r1.2 s).bind fun m1 =>
    .ok (⟨fun b => if b then r1.1 else r0.1, fun b => if b then m1.1 else m0.1⟩, m1.2)

/-- gs.c:1031-1052 allreduce_map_setup -/
def allreduceMap (pr : List PrimaryShared) (mask : Nat) (toBuf : Bool) : List Nat :=
  ((pr.filter fun p => p.flag &&& mask = 0).flatMap fun p => if toBuf then [p.i, p.ord, uintMax] else [p.ord, p.i, uintMax]) ++ [uintMax]

/-- gs.c:953-957 `struct allreduce_data`; `total` is `buffer_size/2` -/
structure ArData where
  mapTo : Bool → List Nat
  mapFrom : Bool → List Nat
  total : Nat

/-- gs.c:1054-1073 allreduce_setup_aux -/
def allreduceSetup (pr : List PrimaryShared) (total : Nat) : ArData where
  mapTo t := if t then allreduceMap pr 0 true else allreduceMap pr 1 true
  mapFrom t := if t then allreduceMap pr 1 false else allreduceMap pr 0 false
  total := total

/-- gs.c:632-638 `struct cr_stage` -/
structure CrStage where
  scatterMap : List Nat
  gatherMap : List Nat
  sizeR : Nat
  sizeR1 : Nat
  sizeR2 : Nat
  sizeSk : Nat
  sizeS : Nat
  sizeTotal : Nat
  p1 : Nat
  p2 : Nat
  nrecvn : Nat
  deriving DecidableEq, Repr

/-- gs.c:640-644 `struct cr_data`: the stages (there are `nstages+1`, the last one has only maps), and `stage_buffer_size` -/
structure CrData where
  stages : Bool → List CrStage
  sbs : Nat

/-- the exchange method of a handle with its data: gs.c:386-395 `struct gs_remote`. (gs_auto, gs.c:1110-1151, runs the three set-ups and
keeps the result of one of them, depending on measured times.) -/
inductive Remote where
  | pairwise (d : PwData)
  | crystal (d : CrData)
  | allreduce (d : ArData)

/-- gs.c:1156-1162 `struct gs_data` -/
structure GsData where
  mapLocal : Bool → List Nat
  flaggedPrimaries : List Nat
  r : Remote

/-- gs.c:1383-1391 local_setup -/
def localSetup (nz : List NonzeroId) (r : Remote) : GsData :=
  ⟨fun b => localMap (!b) nz, flaggedPrimariesMap nz, r⟩

/-- the memory of a process during gs: user data, contents of the buffer, contents of newly allocated memory,
the array of the all-reduce (the first `gvn` entries of the buffer) -/
structure GsSt (U T : Type) where
  u : U
  buf : List T
  fill : Nat → T
  arr : List T

variable {U T : Type} (K : Kernels U T)

/-- buffer_reserve: at least `n` entries -/
def reserve (n : Nat) (s : GsSt U T) : GsSt U T :=
  { s with buf := s.buf ++ (List.range (n - s.buf.length)).map s.fill }

/-- `buffer_size` of the method (gs.c:604, 915, 1071) -/
def Remote.bufferSize : Remote → Nat
  | .pairwise d => (d.comm false).total + (d.comm true).total
  | .crystal d => 2 * d.sbs
  | .allreduce d => 2 * d.total

/-- gs.c:1177-1180: before the exchange -/
def gsPre (h : GsData) (t : Bool) (s : GsSt U T) : Outcome (GsSt U T) :=
  let s := reserve (K.vn * h.r.bufferSize) s
  Outcome.ofOption <| (K.gather (h.mapLocal t) s.u).bind fun u =>
    (if t then some u else K.init h.flaggedPrimaries u).bind fun u => some { s with u := u }

/-- gs.c:1182: after the exchange -/
def gsPost (h : GsData) (t : Bool) (s : GsSt U T) : Outcome (GsSt U T) :=
  Outcome.ofOption <| (K.scatter (h.mapLocal (!t)) s.u).bind fun u => some { s with u := u }

/-- the part of a send buffer that goes to process `q` (pw_exec_sends, gs.c:426-438) -/
def sliceFor (vn : Nat) : List (Nat × Nat) → List T → Nat → List T
  | [], _, _ => []
  | (p, n) :: ms, b, q => if p = q then b.take (n * vn) else sliceFor vn ms (b.drop (n * vn)) q

/-- gs.c:440-465 pw_exec on process `id`; `recv = 0^transpose`, `send = 1^transpose`. The receive buffers are the first
part of `buf`, the send buffers the rest. A message of another length than expected overflows its buffer or leaves part of it unset. -/
def pwExecStep (d : PwData) (t : Bool) (id : Nat) : Step (GsSt U T) (List T) where
  label := 0
  pre s := Outcome.ofOption <|
    (K.toBuf (d.map (!t)) s.u (s.buf.drop (K.vn * (d.comm t).total))).bind fun sb =>
      some { s with buf := s.buf.take (K.vn * (d.comm t).total) ++ sb }
  sends := (d.comm (!t)).msgs.map fun x => (x.1, id)
  payload s k := sliceFor K.vn (d.comm (!t)).msgs (s.buf.drop (K.vn * (d.comm t).total)) k.1
  recvs := (d.comm t).msgs.map fun x => (x.1, x.1)
  post s vals :=
    if vals.map List.length = (d.comm t).msgs.map (fun x => x.2 * K.vn) then
      let buf := vals.flatten ++ s.buf.drop (K.vn * (d.comm t).total)
      Outcome.ofOption <| (K.gatherBuf (d.map t) buf s.u).bind fun u => some { s with u := u, buf := buf }
    else .ub

/-- pw_exec as a collective operation -/
def pwExec (d : Nat → PwData) (t : Bool) : Coll (GsSt U T) (List T) := ⟨1, fun id => [pwExecStep K (d id) t id]⟩

/-- gs.c:959-978 allreduce_exec before comm_allreduce -/
def arPre (D : Dom T) (op : Op) (d : ArData) (t : Bool) (s : GsSt U T) : Outcome (GsSt U T) :=
  Outcome.ofOption <| (K.toBuf (d.mapTo t) s.u (initArray D op (K.vn * d.total))).bind fun b => some { s with arr := b }

/-- gs.c:977 after comm_allreduce -/
def arPost (d : ArData) (t : Bool) (s : GsSt U T) : Outcome (GsSt U T) :=
  Outcome.ofOption <| (K.fromBuf (d.mapFrom t) s.arr s.u).bind fun u => some { s with u := u }

/-- set the array of the all-reduce -/
def GsSt.setArr (s : GsSt U T) (a : List T) : GsSt U T := { s with arr := a }

/-- gs.c:959-978 allreduce_exec with the reduction `ac` of the array -/
def arExecWith (D : Dom T) (op : Op) (ac : Coll (List T) (List T)) (d : Nat → ArData) (t : Bool) : Coll (GsSt U T) (List T) :=
  ((Coll.loc (fun id => arPre K D op (d id) t) []).seq (ac.lift GsSt.arr GsSt.setArr)).seq (Coll.loc (fun id => arPost K (d id) t) [])

/-- gs.c:959-978 allreduce_exec; `total` is the same on all processes (it is computed by comm_scan) -/
def arExec (D : Dom T) (op : Op) (np total : Nat) (d : Nat → ArData) (t : Bool) : Coll (GsSt U T) (List T) :=
  arExecWith K D op (commAllreduce D op (K.vn * total) np) d t

/-- gs.c:1167-1183 gs_aux with the exchange `ex` of the method -/
def gsAux (h : Nat → GsData) (t : Bool) (ex : Coll (GsSt U T) (List T)) : Coll (GsSt U T) (List T) :=
  ((Coll.loc (fun id => gsPre K (h id) t) []).seq ex).seq (Coll.loc (fun id => gsPost K (h id) t) [])

end Gslib.Gs
