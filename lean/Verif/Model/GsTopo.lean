import Verif.Model.Transfer
import Verif.Model.SarraySort
import Verif.Model.CommTree
import Verif.Model.GsKernel

/-!
# Topology discovery of gs_setup (gs.c:60-257)

`uint` has 32 bits, `ulong` 64. Struct arrays are lists of Lean structures; for the transfers they are converted to the bytes of the C structs.
-/

namespace Gslib.Mpi

/-- messages of another type: `inj`, `proj` convert -/
def Step.mapW {S W W' : Type} (inj : W → W') (proj : W' → W) (s : Step S W) : Step S W' where
  label := s.label
  pre := s.pre
  sends := s.sends
  payload x k := inj (s.payload x k)
  recvs := s.recvs
  post x v := s.post x (v.map proj)

/-- messages of another type -/
def Coll.mapW {S W W' : Type} (inj : W → W') (proj : W' → W) (c : Coll S W) : Coll S W' :=
  ⟨c.T, fun p => (c.prog p).map (Step.mapW inj proj)⟩

end Gslib.Mpi

namespace Gslib.Gs
open Gslib Gslib.Mpi Gslib.Sarray Gslib.Transfer Gslib.Comm

/-- gs.c:89-91 `struct nonzero_id` -/
structure NonzeroId where
  id : Nat
  i : Nat
  flag : Nat
  primary : Nat
  deriving DecidableEq, Repr

/-- gs.c:100-107: a row for each nonzero entry of the user's array; `iabsl` is `Int.natAbs` (the most negative `slong`, which has no
absolute value, is excluded). `primary` is not initialised until line 113. -/
def nonzeroRows : Nat → List Int → List NonzeroId
  | _, [] => []
  | i, x :: ids =>
    if x = 0 then nonzeroRows (i + 1) ids
    else ⟨x.natAbs, i, if x = x.natAbs then 0 else 1, 0⟩ :: nonzeroRows (i + 1) ids

/-- gs.c:111-116: the first index of each group; arguments `last_id`, `primary` -/
def assignPrimary : Nat → Nat → List NonzeroId → List NonzeroId
  | _, _, [] => []
  | last, primary, row :: rows =>
    let primary := if row.id ≠ last then row.i else primary
    { row with primary := primary } :: assignPrimary row.id primary rows

/-- `ULONG_MAX` -/
def ulongMax : Nat := 18446744073709551615

/-- gs.c:93-118 nonzero_ids; `s` is the scratch memory of the sorts -/
def nonzeroIds (ids : List Int) (s : ScratchF Nat) : Outcome (List NonzeroId) :=
  (sarraySort [.int 8 NonzeroId.id, .int 4 NonzeroId.flag] (nonzeroRows 0 ids) s).bind fun rows =>
    sarraySort [.int 4 NonzeroId.primary] (assignPrimary ulongMax uintMax rows) s

/-- gs.c:123 `struct unique_id` -/
structure UniqueId where
  id : Nat
  workProc : Nat
  srcIf : Nat
  deriving DecidableEq, Repr

/-- `~x` of a `uint` -/
def notU (x : Nat) : Nat := uintMax - x

/-- gs.c:124-137 unique_ids -/
def uniqueIds (np : Nat) (nz : List NonzeroId) : List UniqueId :=
  (nz.filter fun r => r.i = r.primary).map fun r => ⟨r.id, r.id % np, if r.flag ≠ 0 then notU r.i else r.i⟩

/-- gs.c:168 `struct shared_id_work` -/
structure SharedWork where
  id : Nat
  ord : Nat
  p1 : Nat
  p2 : Nat
  i1f : Nat
  i2f : Nat
  deriving DecidableEq, Repr

/-- `~x<x`, true for the indices stored as `~i` (gs.c:215, 230) -/
def isNot (x : Nat) : Bool := notU x < x

/-- gs.c:213-219: number of shared ids; arguments `last_id`, `n_shared` -/
def countShared : Nat → Nat → List UniqueId → Nat
  | _, n, [] => n
  | last, n, row :: rest =>
    if isNot row.srcIf then countShared last n rest
    else if row.id = last then countShared last n rest
    else match rest with
      | [] => n
      | other :: _ => if other.id = row.id then countShared row.id (n + 1) rest else countShared last n rest

/-- gs.c:225-246: the pairs; arguments `last_id`, `ordinal[0]`. (`last_id` and `ordinal[0]` are updated in the first round of the inner loop.) -/
def buildWork : Nat → Nat → List UniqueId → List SharedWork
  | _, _, [] => []
  | last, ord, row :: rest =>
    if isNot row.srcIf then buildWork last ord rest
    else
      let others := rest.takeWhile fun o => o.id = row.id
      let new : Bool := others ≠ [] ∧ row.id ≠ last
      let last := if new then row.id else last
      let ord := if new then ord + 1 else ord
      (others.flatMap fun o => [⟨row.id, ord - 1, row.workProc, o.workProc, row.srcIf, o.srcIf⟩,
        ⟨row.id, ord - 1, o.workProc, row.workProc, o.srcIf, row.srcIf⟩]) ++ buildWork last ord rest

/-- gs.c:160-162 `struct shared_id` -/
structure SharedId where
  id : Nat
  i : Nat
  p : Nat
  ri : Nat
  bi : Nat
  flags : Nat
  deriving DecidableEq, Repr

/-- gs.c:164-166 `struct primary_shared_id` -/
structure PrimaryShared where
  id : Nat
  ord : Nat
  i : Nat
  flag : Nat
  deriving DecidableEq, Repr

/-- `~x<x?~x:x` (gs.c:182) -/
def indexOf (x : Nat) : Nat := if notU x < x then notU x else x

/-- gs.c:183-184, with FLAGS_LOCAL = 1, FLAGS_REMOTE = 2; `bi` is not initialised here -/
def toShared (w : SharedWork) : SharedId :=
  ⟨w.id, indexOf w.i1f, w.p2, indexOf w.i2f, 0, ((w.i2f ^^^ indexOf w.i2f) &&& 2) ||| ((w.i1f ^^^ indexOf w.i1f) &&& 1)⟩

/-- gs.c:186-190; argument `last_id` -/
def toPrimary : Nat → List SharedWork → List PrimaryShared
  | _, [] => []
  | last, w :: ws =>
    if w.id ≠ last then ⟨w.id, w.ord, indexOf w.i1f, (w.i1f ^^^ indexOf w.i1f) &&& 1⟩ :: toPrimary w.id ws
    else toPrimary last ws

/-- gs.c:169-194 shared_ids_aux; `pr` has room for `prN` rows -/
def sharedIdsAux (prN : Nat) (wa : List SharedWork) (s : ScratchF Nat) : Outcome (List SharedId × List PrimaryShared) :=
  (sarraySort [.int 8 SharedWork.id] wa s).bind fun wa =>
  if prN < (toPrimary ulongMax wa).length then .ub else
  (sarraySort [.int 4 PrimaryShared.i] (toPrimary ulongMax wa) s).bind fun pr => .ok (wa.map toShared, pr)

/-- a C struct in memory: size, offset of the processor field used by the transfer, bytes (little endian) -/
structure Layout (ρ : Type) where
  size : Nat
  pOff : Nat
  enc : ρ → List Nat
  dec : List Nat → ρ

/-- the bytes of a `ulong` -/
def le8 (x : Nat) : List Nat := le4 (x % 4294967296) ++ le4 (x / 4294967296)

/-- `struct unique_id` with processor field `work_proc` -/
def uniqueLayout : Layout UniqueId where
  size := 16
  pOff := 8
  enc r := le8 r.id ++ le4 r.workProc ++ le4 r.srcIf
  dec b := ⟨unle (b.take 8), unle ((b.drop 8).take 4), unle ((b.drop 12).take 4)⟩

/-- `struct shared_id_work` with processor field `p1` -/
def workLayout : Layout SharedWork where
  size := 32
  pOff := 16
  enc w := le8 w.id ++ le8 w.ord ++ le4 w.p1 ++ le4 w.p2 ++ le4 w.i1f ++ le4 w.i2f
  dec b := ⟨unle (b.take 8), unle ((b.drop 8).take 8), unle ((b.drop 16).take 4), unle ((b.drop 20).take 4),
    unle ((b.drop 24).take 4), unle ((b.drop 28).take 4)⟩

/-- the memory of a process during get_topology: the user's array, the arrays of gs_topology and of shared_ids, the memory
of the transfers and of comm_scan, scratch memory of the sorts -/
structure TopoSt where
  ids : List Int
  nz : List NonzeroId
  nUnique : Nat
  un : List UniqueId
  wa : List SharedWork
  sh : List SharedId
  pr : List PrimaryShared
  total : Nat
  tr : TrState
  scan : ScanSt (BitVec 64)
  scratch : ScratchF Nat

/-- a struct array as the only array of a transfer -/
def putRows {ρ : Type} (L : Layout ρ) (t : TrState) (rows : List ρ) : TrState := { t with cols := [rows.map L.enc] }

/-- the rows after a transfer -/
def getRows {ρ : Type} (L : Layout ρ) (t : TrState) : List ρ := (t.cols.headD []).map L.dec

/-- gs.c:255 and 205-207 -/
def topo1 (np : Nat) (s : TopoSt) : Outcome TopoSt :=
  (nonzeroIds s.ids s.scratch).bind fun nz =>
    .ok { s with nz := nz, nUnique := (uniqueIds np nz).length, tr := putRows uniqueLayout s.tr (uniqueIds np nz) }

/-- gs.c:210-219 -/
def topo2 (s : TopoSt) : Outcome TopoSt :=
  (sarraySort [.int 8 UniqueId.id, .int 4 UniqueId.srcIf] (getRows uniqueLayout s.tr) s.scratch).bind fun un =>
    .ok { s with un := un, scan := { s.scan with v := [BitVec.ofNat 64 (countShared ulongMax 0 un)] } }

/-- gs.c:225-246; `ordinal[0]`, `ordinal[1]` are the results of comm_scan -/
def topo3 (s : TopoSt) : Outcome TopoSt :=
  match s.scan.scan, s.scan.red with
  | [o0], [o1] => .ok { s with total := o1.toNat, tr := putRows workLayout s.tr (buildWork ulongMax o0.toNat s.un) }
  | _, _ => .ub

/-- gs.c:250, 256 -/
def topo4 (s : TopoSt) : Outcome TopoSt :=
  (sharedIdsAux s.nUnique (getRows workLayout s.tr) s.scratch).bind fun r =>
    .ok { s with wa := getRows workLayout s.tr, sh := r.1, pr := r.2 }

/-- messages of get_topology: words of the crystal router, vectors of comm_scan -/
abbrev TopoMsg := List Nat ⊕ (List (BitVec 64) × List (BitVec 64))

/-- the words of a message -/
def TopoMsg.words : TopoMsg → List Nat
  | .inl w => w
  | .inr _ => []

/-- the vectors of a message -/
def TopoMsg.vecs : TopoMsg → List (BitVec 64) × List (BitVec 64)
  | .inl _ => ([], [])
  | .inr v => v

/-- set the transfer memory -/
def TopoSt.setTr (s : TopoSt) (t : TrState) : TopoSt := { s with tr := t }

/-- set the scan memory -/
def TopoSt.setScan (s : TopoSt) (t : ScanSt (BitVec 64)) : TopoSt := { s with scan := t }

/-- a local computation of get_topology -/
def topoLoc (f : TopoSt → Outcome TopoSt) : Coll TopoSt TopoMsg := Coll.loc (fun _ => f) (.inl [])

/-- a transfer within get_topology -/
def topoTransfer {ρ : Type} (np : Nat) (L : Layout ρ) (setSrc : Bool) : Coll TopoSt TopoMsg :=
  ((sarrayTransfer np L.size L.pOff setSrc).mapW Sum.inl TopoMsg.words).lift TopoSt.tr TopoSt.setTr

/-- gs.c:220 `comm_scan(ordinal, &cr->comm,gs_slong,gs_add, &n_shared,1, scan_buf)` (`slong` has 64 bits) -/
def topoScan (np : Nat) : Coll TopoSt TopoMsg :=
  ((commScan (intDom 32 64) .add 1 np).mapW Sum.inr TopoMsg.vecs).lift TopoSt.scan TopoSt.setScan

/-- gs.c:252-257 get_topology (and 196-250 shared_ids) on `np` processes -/
def getTopology (np : Nat) : Coll TopoSt TopoMsg :=
  ((((((topoLoc (topo1 np)).seq (topoTransfer np uniqueLayout true)).seq (topoLoc topo2)).seq (topoScan np)).seq
    (topoLoc topo3)).seq (topoTransfer np workLayout false)).seq (topoLoc topo4)

end Gslib.Gs
