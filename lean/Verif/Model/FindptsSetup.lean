import Verif.Model.GlobalHash
import Verif.Model.CommTree
import Verif.Model.Obbox
import Verif.Model.Findpts

/-!
# `findpts_setup` (findpts_imp.h:78-99, 172-266, findpts_local_imp.h:149-196, 213-239)

The whole construction of the data of `findpts` as one program of `np` processes: the boxes of the elements, the local hash table, the reductions of the bounds and of the sizes, the distributed hash table.
`double` is replaced by an ordered field with a floor function. `comm_allreduce` is the tree of comm.c:67-99 (a build with MPI calls `MPI_Allreduce` for these operations: the results are the same, minima, maxima and sums of integers
being exact). `pow(y,1./D)` is a function `root`. `findpts_el_setup` is in `Model/ElGroup2`, `ElGroup3`.
-/

namespace Gslib.Fp
open Gslib Gslib.Mpi Gslib.Transfer Gslib.Gs Gslib.Hash Gslib.Num Gslib.GHash Gslib.Obb Gslib.Comm

variable {K : Type} [Field K] [LinearOrder K] [FloorRing K]

/-- the arguments of `findpts_setup` on a process: the result of `obbox_calc` for its elements (`none`: undefined), `nel`, `local_hash_size`, `global_hash_size` -/
structure SuArgs (K : Type) where
  obbox : Option (Nat → Option (Box K))
  nel : Nat
  localSize : Nat
  globalSize : Nat

/-- messages: words of the crystal router, vectors of the reductions -/
abbrev SuMsg (K : Type) := List Nat ⊕ List K

/-- memory of a process -/
structure SuSt (K : Type) where
  /-- `local.obb` -/
  boxes : List (Box K)
  /-- `local.hd` -/
  lbnd : List (Range K)
  lhn : Nat
  lsize : Nat
  loff : Mem Nat
  /-- `x` of `hash_bb` (findpts_imp.h:81), also `ghs`; the minima already stored in `bnd` -/
  x : List K
  low : List K
  /-- `hash.bnd`, `hash.hash_n` -/
  bnd : List (Range K)
  hn : Nat
  /-- the boxes as seen by the hash tables, the array `hash`, buffers, `hash.offset` -/
  hb : HbSt K

/-- the axis-aligned part `obb[el].x` of a box -/
def boxRanges (D : Nat) (b : Box K) : List (Range K) := List.ofFn fun d : Fin D => ⟨(b.x d).1, (b.x d).2⟩

/-- findpts_local_imp.h:121 `nu=ceil(pow(max_size-nel,1.0/D))` with the unsigned difference -/
def nu0Of (root : K → K) (maxSize nel : Nat) : Nat := ⌈root (((maxSize + 4294967296 - nel) % 4294967296 : Nat) : K)⌉.toNat

/-- findpts_local_imp.h:213-239 `findptsms_local_setup`: boxes and local table. For `nu=0` the unsigned difference `nu-nl` in `hash_opt_size` wraps: not modelled further (`ub`). -/
def suLocal (D : Nat) (root : K → K) (a : SuArgs K) (s : SuSt K) : Outcome (SuSt K) :=
  (Outcome.ofOption (a.obbox.bind fun out => (List.range a.nel).mapM out)).bind fun boxes =>
  let obb := boxes.map (boxRanges D)
  let nu0 := nu0Of root a.localSize a.nel
  if nu0 = 0 then .ub else
  (Outcome.ofOption (Hash.hashBuild (localBnd D obb) obb a.localSize nu0)).bind fun t =>
  .ok { s with boxes := boxes, lbnd := localBnd D obb, lhn := t.1, lsize := t.2.1, loff := t.2.2.1, hb := { s.hb with obb := obb } }

/-- set `x` -/
def SuSt.setX (s : SuSt K) (x : List K) : SuSt K := { s with x := x }

/-- set the memory of the distributed table -/
def SuSt.setHb (s : SuSt K) (h : HbSt K) : SuSt K := { s with hb := h }

/-- the transfer memory -/
def SuSt.tr (s : SuSt K) : TrState := s.hb.tr

/-- set the transfer memory -/
def SuSt.setTr (s : SuSt K) (t : TrState) : SuSt K := { s with hb := s.hb.setTr t }

/-- local computations -/
def suLoc (f : Nat → SuSt K → Outcome (SuSt K)) : Coll (SuSt K) (SuMsg K) := Coll.loc f (.inl [])

/-- `comm_allreduce(comm,gs_double,op,x,vn,buf)` -/
def suReduce (dom : Dom K) (op : Op) (vn np : Nat) : Coll (SuSt K) (SuMsg K) :=
  ((commAllreduce dom op vn np).lift SuSt.x SuSt.setX).mapW Sum.inr fun m => match m with | .inr l => l | .inl _ => []

/-- findpts_imp.h:78-99 `hash_bb` -/
def suBb (D : Nat) (root : K → K) (dom : Dom K) (np : Nat) (gsize : Nat → Nat) : Coll (SuSt K) (SuMsg K) :=
  ((((((suLoc fun _ s => .ok { s with x := s.lbnd.map Range.min }).seq
  (suReduce dom .min D np)).seq
  (suLoc fun _ s => .ok { s with low := s.x, x := s.lbnd.map Range.max })).seq
  (suReduce dom .max D np)).seq
  (suLoc fun p s => .ok { s with bnd := List.zipWith Range.mk s.low s.x, x := [(gsize p : K)] })).seq
  (suReduce dom .add 1 np)).seq
  (suLoc fun _ s => match s.x with
    | [ghs] => .ok { s with hn := ⌈root ghs⌉.toNat }
    | _ => .ub)

/-- findpts_imp.h:183-207 `hash_build` after `hash_bb`; `hash_n` and `bnd` are read from memory (compare `GHash.hashBuild`) -/
def suBuild (D np : Nat) : Coll (SuSt K) (SuMsg K) :=
  ((suLoc fun _ s => (hb1 D s.hn np s.bnd s.hb).bind fun h => .ok (s.setHb h)).seq
  ((recTransfer (k := 0) SuSt.tr SuSt.setTr np (0 : Fin 2) 0 true).mapW Sum.inl fun m => match m with | .inl l => l | .inr _ => [])).seq
  (suLoc fun _ s => (hb2 D s.hn np s.hb).bind fun h => .ok (s.setHb h))

/-- findpts_imp.h:222-266 `findpts_setup` (`setupms_aux`) -/
def findptsSetup (D : Nat) (root : K → K) (dom : Dom K) (np : Nat) (a : Nat → SuArgs K) : Coll (SuSt K) (SuMsg K) :=
  ((suLoc fun p => suLocal D root (a p)).seq (suBb D root dom np fun p => (a p).globalSize)).seq (suBuild D np)

/-- the data `findpts` uses, in the memory after `findpts_setup`; `test` is `obbox_test`, `findEl` is `findpts_el`, `ims` and `nsid` the session data (findpts_imp.h:216-220, findpts_local_imp.h:200-211) -/
def SuSt.env {D : Nat} (val : Nat → K) (test : Box K → (Nat → K) → K) (findEl : Nat → List (Pt D) → List (FRes D)) (nptMax : Nat) (ims : Bool) (nsid : Nat) (s : SuSt K) : FEnv D K :=
  ⟨⟨s.lbnd, s.lhn, s.lsize, s.loff, fun el x => match s.boxes[el]? with
    | some b => decide (0 ≤ test b fun c => if h : c < D then val (x ⟨c, h⟩) else 0)
    | none => false, findEl, nptMax, ims, nsid⟩, s.bnd, s.hn, s.hb.size, s.hb.off⟩

end Gslib.Fp
