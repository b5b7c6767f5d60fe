import Verif.Model.GsOp
import Verif.Model.Coll

/-!
# comm_scan, comm_allreduce: the reduction tree (comm.c 19-141)

The control flow of `scan_imp` and `allreduce_imp` depends on `id` and `np` only; both functions have the same
loops over the tree and differ in the communication at each node, see `TreeOps`. `uint` arithmetic is modelled on natural numbers: with `np` ranks, a depth of
at most `⌈log₂ np⌉` bits is shifted into `c` and `odd`, which stay below `2^32` for `np < 2^31` (MPI ranks are `int`).
-/

namespace Gslib.Comm
open Gslib Gslib.Mpi Gslib.Gs

/-- the variables `n, c, odd, base` (comm.c:25, 73) -/
structure TreeSt where
  n : Nat
  c : Nat
  odd : Nat
  base : Nat
  deriving DecidableEq, Repr

/-- `uint n = np, c=1, odd=0, base=0;` (comm.c:25, 73) -/
def treeStart (np : Nat) : TreeSt := ⟨np, 1, 0, 0⟩

/-- one round of a descending loop (comm.c:30-32, 59-61, 75-77, 94-96):
`odd=(odd<<1)|(n&1); c<<=1, n>>=1; if(id>=base+n) c|=1, base+=n, n+=(odd&1);` -/
def down (id : Nat) (s : TreeSt) : TreeSt :=
  let odd := (s.odd <<< 1) ||| (s.n &&& 1)
  let c := s.c <<< 1
  let n := s.n >>> 1
  if id ≥ s.base + n then ⟨n + (odd &&& 1), c ||| 1, odd, s.base + n⟩ else ⟨n, c, odd, s.base⟩

/-- start of a round of the ascending loop (comm.c:37-39, 80-82):
`if(c&1) n-=(odd&1), base-=n; c>>=1, n<<=1, n+=(odd&1); odd>>=1;` -/
def up (s : TreeSt) : TreeSt :=
  let n := if s.c &&& 1 ≠ 0 then s.n - (s.odd &&& 1) else s.n
  let base := if s.c &&& 1 ≠ 0 then s.base - n else s.base
  ⟨(n <<< 1) + (s.odd &&& 1), s.c >>> 1, s.odd >>> 1, base⟩

/-- the first loop `while(n>1) { ... }` (comm.c:29-33, 74-78). `fuel`: bound on the number of rounds,
`d`: number of rounds so far (only used for labels) -/
def leaf (id : Nat) : Nat → Nat → TreeSt → Nat × TreeSt
  | 0, d, s => (d, s)
  | fuel + 1, d, s => if s.n > 1 then leaf id fuel (d + 1) (down id s) else (d, s)

/-- communication at a node: arguments label, `id`, rank of the partner -/
structure TreeOps (S W : Type) where
  ascParent : Nat → Nat → Nat → Step S W
  ascChild : Nat → Nat → Nat → Step S W
  descParent : Nat → Nat → Nat → Step S W
  descChild : Nat → Nat → Nat → Step S W

variable {S W : Type}

/-- the second loop `while(n<np) { <up>; if(base==id) {...} else {...; break;} }` (comm.c:36-51, 79-90):
the steps, and the values of the variables after the loop -/
def ascend (o : TreeOps S W) (np id : Nat) : Nat → Nat → TreeSt → Prog S W × (Nat × TreeSt)
  | 0, d, s => ([], (d, s))
  | fuel + 1, d, s =>
    if s.n < np then
      let s' := up s
      if s'.base = id then
        let r := ascend o np id fuel (d - 1) s'
        (o.ascParent (np - d) id (id + s'.n / 2) :: r.1, r.2)
      else ([o.ascChild (np - d) id s'.base], (d - 1, s'))
    else ([], (d, s))

/-- the third loop `while(n>1) { if(base==id) {...} else {...} <down> }` (comm.c:52-62, 91-98) -/
def descend (o : TreeOps S W) (np id : Nat) : Nat → Nat → TreeSt → Prog S W
  | 0, _, _ => []
  | fuel + 1, d, s =>
    if s.n > 1 then
      (if s.base = id then o.descParent (np + d) id (id + s.n / 2) else o.descChild (np + d) id s.base) ::
        descend o np id fuel (d + 1) (down id s)
    else []

/-- comm.c:29-62, 74-98 -/
def treeProg (o : TreeOps S W) (np id : Nat) : Prog S W :=
  let l := leaf id np 0 (treeStart np)
  let a := ascend o np id np l.1 l.2
  a.1 ++ descend o np id np a.2.1 a.2.2

/-- `treeProg` as a collective operation of `np` processes -/
def treeColl (o : TreeOps S W) (np : Nat) : Coll S W := ⟨2 * np, treeProg o np⟩

variable {T : Type}

/-- comm.c:67-99 `allreduce_imp`: memory is the vector `v`; `buf` is only used within a step -/
def allreduceOps (D : Dom T) (op : Op) : TreeOps (List T) (List T) where
  -- comm_recv(com, buf,total_size, id+n/2,id+n/2); gs_gather_array(v,buf,vn, dom,op);
  ascParent l _ peer := ⟨l, .ok, [], fun v _ => v, [(peer, peer)], fun v m => match m with
    | [b] => .ok (gatherArray D op v b)
    | _ => .ub⟩
  -- comm_send(com, v,total_size, base,id);
  ascChild l id peer := ⟨l, .ok, [(peer, id)], fun v _ => v, [], fun v _ => .ok v⟩
  -- comm_send(com, v,total_size, id+n/2,id);
  descParent l id peer := ⟨l, .ok, [(peer, id)], fun v _ => v, [], fun v _ => .ok v⟩
  -- comm_recv(com, v,total_size, base,base);
  descChild l _ peer := ⟨l, .ok, [], fun v _ => v, [(peer, peer)], fun _ m => match m with
    | [b] => .ok b
    | _ => .ub⟩

/-- comm.c:107-141 `comm_allreduce` without MPI reduction: `if(vn==0) return;` else `allreduce_imp`
(`MPI_Allreduce` is used for the operations MPI knows; it is part of the trusted base) -/
def commAllreduce (D : Dom T) (op : Op) (vn np : Nat) : Coll (List T) (List T) :=
  if vn = 0 then ⟨0, fun _ => []⟩ else treeColl (allreduceOps D op) np

/-- memory of `comm_scan`: the input `v` and the two halves of the array `scan` (comm.c:27); the
halves of `buffer` are only used within a step -/
structure ScanSt (T : Type) where
  v : List T
  scan : List T
  red : List T
  deriving DecidableEq, Repr

/-- comm.c:34-35 `gs_init_array(scan,vn,dom,op); memcpy(red,v,vsize);` -/
def scanInit (D : Dom T) (op : Op) (vn : Nat) (s : ScanSt T) : ScanSt T := { s with scan := initArray D op vn, red := s.v }

/-- comm.c:40-58; a message is one vector, or two (`scan` and `red`, 2*vsize bytes) -/
def scanOps (D : Dom T) (op : Op) : TreeOps (ScanSt T) (List T × List T) where
  -- irecv(buf[0], id+n/2,id+n/2); isend(red, id+n/2,id); wait; gs_gather_array(red,buf[0],vn,dom,op);
  ascParent l id peer := ⟨l, .ok, [(peer, id)], fun s _ => (s.red, []), [(peer, peer)], fun s m => match m with
    | [b] => .ok { s with red := gatherArray D op s.red b.1 }
    | _ => .ub⟩
  -- irecv(scan, base,base); isend(red, base,id); wait; break;
  ascChild l id peer := ⟨l, .ok, [(peer, id)], fun s _ => (s.red, []), [(peer, peer)], fun s m => match m with
    | [b] => .ok { s with scan := b.1 }
    | _ => .ub⟩
  -- comm_send(com, scan  ,2*vsize, id+n/2,id);
  descParent l id peer := ⟨l, .ok, [(peer, id)], fun s _ => (s.scan, s.red), [], fun s _ => .ok s⟩
  -- comm_recv(com, buffer,2*vsize, base,base); gs_gather_array(scan,buf[0],vn,dom,op); memcpy(red,buf[1],vsize);
  descChild l _ peer := ⟨l, .ok, [], fun s _ => (s.scan, s.red), [(peer, peer)], fun s m => match m with
    | [b] => .ok { s with scan := gatherArray D op s.scan b.1, red := b.2 }
    | _ => .ub⟩

/-- comm.c:19-63, 101-105 `comm_scan` -/
def commScan (D : Dom T) (op : Op) (vn np : Nat) : Coll (ScanSt T) (List T × List T) :=
  (Coll.loc (fun _ s => .ok (scanInit D op vn s)) ([], [])).seq (treeColl (scanOps D op) np)

/-- comm.c:199-207 `comm_reduce__T`: `T accum = gs_identity[op]; if(n!=0) do { GS_DO_OP(accum,v) } while(--n);
comm_allreduce(&accum,1)`; memory: the input array and `accum` -/
def reduceLocal (D : Dom T) (op : Op) (inp : List T) : T := inp.foldl (D.doOp op) (D.identity op)

/-- comm.c:204-214 -/
def commReduce (D : Dom T) (op : Op) (np : Nat) : Coll (List T) (List T) :=
  (Coll.loc (fun _ inp => .ok [reduceLocal D op inp]) []).seq (commAllreduce D op 1 np)

end Gslib.Comm
