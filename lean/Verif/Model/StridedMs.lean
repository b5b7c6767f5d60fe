import Verif.Model.Strided
import Verif.Model.FindptsMs

/-!
# `findptsms` (`ims==1`) on the caller's arrays with strides: merging the remote results (findpts_imp.h:403-500)

The local variables of the loop are an `MsSt` whose lists `outs` and `procs` are empty: the results are in the memory of the caller.
-/

namespace Gslib.Fp
open Gslib Gslib.Mpi Gslib.Transfer Gslib.Gs Gslib.Hash Gslib.Num Gslib.Spec

variable {D : Nat} {K : Type} [Field K] [LinearOrder K] [FloorRing K]

/-- findpts_imp.h:449-455: read the record of a point; `code` is `*code`, `eid` is `*elsid` -/
def ldRes (a : SArgs D) (i eid : Nat) (m : Bytes) : Option (LRes D × Nat) :=
  (ld 8 m (SArr.at a.disti i)).bind fun disti =>
  (ld 8 m (SArr.at a.dist2 i)).bind fun dist2 =>
  (ld 4 m (SArr.at a.code i)).bind fun code =>
  (ld 4 m (SArr.at a.proc i)).bind fun proc =>
  (ld 4 m (SArr.at a.el i)).bind fun el =>
  (ldVec m fun d => SArr.at a.r i + 8 * d.val).map fun r => (⟨code, el, r, dist2, disti, eid⟩, proc)

/-- findpts_imp.h:489-495: store the winner `w` -/
def stRes (a : SArgs D) (i : Nat) (w : LRes D × Nat) (m : Bytes) : Option Bytes :=
  (st 8 m (SArr.at a.disti i) w.1.disti).bind fun m =>
  (st 8 m (SArr.at a.dist2 i) w.1.dist2).bind fun m =>
  (st 4 m (SArr.at a.code i) w.1.code).bind fun m =>
  (st 4 m (SArr.at a.elsid i) w.1.elsid).bind fun m =>
  (st 4 m (SArr.at a.proc i) w.2).bind fun m =>
  (st 4 m (SArr.at a.el i) w.1.el).bind fun m =>
  stVec m (SArr.at a.r i) w.1.r

/-- findpts_imp.h:435-444 -/
def msPointS (low : Nat) (a : SArgs D) (first : Bool) (r : OutPt D) (s : MsSt D) (m : Bytes) : Option (MsSt D) :=
  if r.u 0 ≠ s.oldindex ∨ first = true then
    (ld 4 m (SArr.at a.code (r.u 0))).map fun c =>
      { s with oldindex := r.u 0, as := ({ s.as.1 with disti := low }, s.as.2), oldelsid := 0, istart := false, ioriginator := c != codeNotFound }
  else some s

/-- findpts_imp.h:445-461: `*elsid` is read only if `ioriginator==1` -/
def msSessionS (a : SArgs D) (r : OutPt D) (s : MsSt D) (m : Bytes) : Option (MsSt D) :=
  if r.u 4 ≠ s.oldelsid ∨ s.istart = false then
    if s.ioriginator = true then
      (ld 4 m (SArr.at a.elsid (r.u 0))).bind fun eid =>
      if eid = r.u 4 then (ldRes a (r.u 0) eid m).map fun cs => { s with istart := true, oldelsid := r.u 4, cs := cs, ioriginator := false }
      else some { s with istart := true, oldelsid := r.u 4, cs := ({ s.cs.1 with code := codeNotFound }, s.cs.2) }
    else some { s with istart := true, oldelsid := r.u 4, cs := ({ s.cs.1 with code := codeNotFound }, s.cs.2) }
  else some s

/-- findpts_imp.h:487-497: `*disti` is read only if `ioriginator==1` -/
def msStoreS (val : Nat → K) (a : SArgs D) (r : OutPt D) (s : MsSt D) (m : Bytes) : Option Bytes :=
  if s.ioriginator = true then
    (ld 8 m (SArr.at a.disti (r.u 0))).bind fun d => if val s.as.1.disti < val d then some m else stRes a (r.u 0) s.as m
  else stRes a (r.u 0) s.as m

/-- findpts_imp.h:423-498 -/
def msRowS (val : Nat → K) (low : Nat) (a : SArgs D) (first : Bool) (next : Option (OutPt D)) (r : OutPt D) (s : MsSt D × Bytes) : Option (MsSt D × Bytes) :=
  (msPointS low a first r s.1 s.2).bind fun v =>
  (msSessionS a r v s.2).bind fun v =>
  let v := msBetter val r v
  match next with
  | none => (msStoreS val a r (msAll val v) s.2).map fun m => (msAll val v, m)
  | some r' =>
    if r.u 4 ≠ r'.u 4 ∨ r.u 0 ≠ r'.u 0 then
      if r.u 0 ≠ r'.u 0 then (msStoreS val a r (msAll val v) s.2).map fun m => (msAll val v, m) else some (msAll val v, s.2)
    else some (v, s.2)

/-- findpts_imp.h:422: the loop -/
def msLoopS (val : Nat → K) (low : Nat) (a : SArgs D) : Bool → List (OutPt D) → MsSt D × Bytes → Option (MsSt D × Bytes)
  | _, [], s => some s
  | first, r :: l, s => (msRowS val low a first l.head? r s).bind (msLoopS val low a false l)

/-- findpts_imp.h:403-409, 422-500 (`ims==1`) -/
def fp4msS (val : Nat → K) (low : Nat) (junk : LRes D × Nat) (a : Nat → SArgs D) (id : Nat) (s : SSt) : Outcome SSt :=
  (Sarray.sarraySort [.int 4 fun r => r.u 0, .int 4 fun r => r.u 4] (getRows (outLayout D) s.tr) s.scratch).bind fun rows =>
  (Outcome.ofOption (msLoopS val low (a id) true rows (⟨0, 0, false, false, junk, junk, [], []⟩, s.mem))).bind fun t => .ok { s with mem := t.2 }

/-- findpts_imp.h:271-526 `findptsms` (`ims==1`) of `npt` points, arguments `a`; `sessm` is `*session_id_match` -/
def findptsMsS (val : Nat → K) (low : Nat) (junk : LRes D × Nat) (np sessm : Nat) (env : Nat → FEnv D K) (a : Nat → SArgs D) (npt : Nat → Nat) : Coll SSt (List Nat) :=
  (findptsSearchS val np sessm env a npt).seq (Coll.loc (fp4msS val low junk a) [])

end Gslib.Fp
