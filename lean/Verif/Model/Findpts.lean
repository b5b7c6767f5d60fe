import Verif.Model.FindptsLocal
import Verif.Model.Rec
import Mathlib.Data.Fin.VecNotation
import Mathlib.Data.Fin.Tuple.Basic

/-!
# `findpts` (findpts_imp.h:268-526, 652-675)

The table of the distributed hash is the one built by `hash_build` (model `GlobalHash`), the local search is the one of `FindptsLocal`. Doubles are bit patterns, `uint` variables and fields are reduced modulo `2^32` where the
code converts from `ulong`.
-/

namespace Gslib.Fp
open Gslib Gslib.Mpi Gslib.Transfer Gslib.Gs Gslib.Hash Gslib.Num Gslib.Spec

/-- findpts_imp.h:216-223 `struct findpts_data` -/
structure FEnv (D : Nat) (K : Type) where
  /-- `local` -/
  loc : LEnv D K
  /-- `hash` -/
  bnd : List (Range K)
  hn : Nat
  size : Nat
  off : Mem Nat

/-- memory of a process during `findpts`: the caller's points with session ids, the caller's output arrays (with `disti`, `elsid`), `proc`; the transferred array, buffers -/
structure FpSt (D : Nat) where
  xs : List (Pt D × Nat)
  outs : List (LRes D)
  procs : List Nat
  tr : TrState
  scratch : Sarray.ScratchF Nat

/-- set the transfer memory -/
def FpSt.setTr {D : Nat} (s : FpSt D) (t : TrState) : FpSt D := { s with tr := t }

/-- `struct src_pt` (findpts_imp.h:268): `x`; `index`, `proc`, `session_id` -/
abbrev SrcPt (D : Nat) := Rec D 3

/-- `struct out_pt` (findpts_imp.h:269): `r`, `dist2`, `disti`; `index`, `code`, `el`, `proc`, `elsid` -/
abbrev OutPt (D : Nat) := Rec (D + 2) 5

/-- memory layout -/
def srcLayout (D : Nat) : Layout (SrcPt D) := recLayout D 3 1 4
/-- memory layout -/
def outLayout (D : Nat) : Layout (OutPt D) := recLayout (D + 2) 5 3 4

variable {D : Nat} {K : Type} [Field K] [LinearOrder K] [FloorRing K]

/-- findpts_imp.h:319-325: a point sent to the process of its hash cell; `hi` is a `uint` -/
def srcRow (val : Nat → K) (np : Nat) (env : FEnv D K) (index : Nat) (x : Pt D × Nat) : SrcPt D :=
  ⟨x.1, ![index, hashIndex env.hn env.bnd (coords val x.1) % 4294967296 % np, x.2]⟩

/-- findpts_imp.h:294-335: local search; then the points that are not inside an element (with several sessions: all points) -/
def fp1 (val : Nat → K) (np sessm : Nat) (env : Nat → FEnv D K) (id : Nat) (s : FpSt D) : Outcome (FpSt D) :=
  (if s.xs.isEmpty then .ok s.outs else findptsLocal val (env id).loc sessm s.xs s.outs s.scratch).bind fun outs =>
  let rows := ((s.xs.zip outs).zipIdx.filter fun p => (p.1.2.code != codeInternal && !(env id).loc.ims) || (env id).loc.ims).map fun p => srcRow val np (env id) p.2 p.1.1
  .ok { s with outs := outs, procs := s.xs.map fun _ => id, tr := putRows (srcLayout D) s.tr rows }

/-- findpts_imp.h:350-357: the processes listed for a point, except the one it came from -/
def routeRow (val : Nat → K) (np : Nat) (env : FEnv D K) (p : SrcPt D) : Option (List (SrcPt D × Nat)) :=
  (readBucket env.size env.off (hashIndex env.hn env.bnd (coords val p.d) / np % 4294967296)).map fun l => (l.filter fun pp => pp != p.u 1).map fun pp => (p, pp)

/-- findpts_imp.h:337-366: route the points to these processes -/
def fp2 (val : Nat → K) (np : Nat) (env : Nat → FEnv D K) (id : Nat) (s : FpSt D) : Outcome (FpSt D) :=
  (Outcome.ofOption (((getRows (srcLayout D) s.tr).mapM (routeRow val np (env id))).map List.flatten)).bind fun l =>
  .ok { s with tr := { putRows (srcLayout D) s.tr (l.map Prod.fst) with proc := l.map Prod.snd } }

/-- the fields of an `out_pt` -/
def outRow (index proc : Nat) (o : LRes D) : OutPt D := ⟨Fin.append o.r ![o.dist2, o.disti], ![index, o.code, o.el, proc, o.elsid]⟩

/-- the local results in an `out_pt` -/
def outRes (r : OutPt D) : LRes D := ⟨r.u 1, r.u 2, fun i => r.d (Fin.castAdd 2 i), r.d (Fin.natAdd D 0), r.d (Fin.natAdd D 1), r.u 4⟩

/-- contents of a new `out_pt` (not initialised in the code) -/
def junkRes : LRes D := ⟨0, 0, fun _ => 0, 0, 0, 0⟩

/-- findpts_imp.h:368-402: search the received points, drop those not found, send back -/
def fp3 (val : Nat → K) (sessm : Nat) (env : Nat → FEnv D K) (id : Nat) (s : FpSt D) : Outcome (FpSt D) :=
  let src := getRows (srcLayout D) s.tr
  (if src.isEmpty then .ok [] else findptsLocal val (env id).loc sessm (src.map fun r => (r.d, r.u 2)) (src.map fun _ => junkRes) s.scratch).bind fun outs =>
  (Sarray.sarraySort [.int 4 fun r => r.u 1] ((src.zip outs).map fun p => outRow (p.1.u 0) (p.1.u 1) p.2) s.scratch).bind fun rows =>
  .ok { s with tr := putRows (outLayout D) s.tr (rows.reverse.dropWhile fun r => r.u 1 == codeNotFound).reverse }

/-- findpts_imp.h:504-518: merge one remote result into the caller's arrays -/
def mergeRow (val : Nat → K) (r : OutPt D) (s : List (LRes D) × List Nat) : Option (List (LRes D) × List Nat) :=
  (s.1[r.u 0]?).bind fun o =>
  if o.code = codeInternal then some s
  else if o.code = codeNotFound ∨ r.u 1 = codeInternal ∨ val (outRes r).dist2 < val o.dist2 then
    if r.u 0 < s.2.length then some (s.1.set (r.u 0) { o with code := r.u 1, el := r.u 2, r := (outRes r).r, dist2 := (outRes r).dist2 }, s.2.set (r.u 0) (r.u 3)) else none
  else some s

/-- findpts_imp.h:403-407, 502-523 (`ims==0`): merge the remote results -/
def fp4 (val : Nat → K) (s : FpSt D) : Outcome (FpSt D) :=
  (Outcome.ofOption (forList (mergeRow val) (getRows (outLayout D) s.tr) (s.outs, s.procs))).bind fun t => .ok { s with outs := t.1, procs := t.2 }

/-- findpts_imp.h:294-402: everything before the merge -/
def findptsSearch (val : Nat → K) (np sessm : Nat) (env : Nat → FEnv D K) : Coll (FpSt D) (List Nat) :=
  (((((Coll.loc (fp1 val np sessm env) []).seq (recTransfer (k := D) FpSt.tr FpSt.setTr np (1 : Fin 3) 4 true)).seq (Coll.loc (fp2 val np env) [])).seq
    (recTransferExt (k := D) FpSt.tr FpSt.setTr np (1 : Fin 3) 4)).seq (Coll.loc (fp3 val sessm env) [])).seq (recTransfer (k := D + 2) FpSt.tr FpSt.setTr np (3 : Fin 5) 4 true)

/-- findpts_imp.h:652-675 `findpts` (`ims==0`) -/
def findpts (val : Nat → K) (np : Nat) (env : Nat → FEnv D K) : Coll (FpSt D) (List Nat) :=
  (findptsSearch val np 0 env).seq (Coll.loc (fun _ => fp4 val) [])

end Gslib.Fp
