import Verif.Model.Findpts

/-!
# `findptsms` with several sessions (`ims==1`): merging the remote results (findpts_imp.h:408-500)

A process belongs to one session (`nsid[0]`, overlapping meshes). Before the merge everything is as in `Findpts`; all points are sent.
-/

namespace Gslib.Fp
open Gslib Gslib.Mpi Gslib.Transfer Gslib.Gs Gslib.Hash Gslib.Num Gslib.Spec

/-- findpts_imp.h:410-420: the variables of the loop. `as` and `cs` are the winners of all sessions and of the current session (`asdisti`, `asdist2`, `asr`, `ascode`, `aselsid`, `asel`; `asproc`) -/
structure MsSt (D : Nat) where
  oldindex : Nat
  oldelsid : Nat
  istart : Bool
  ioriginator : Bool
  as : LRes D × Nat
  cs : LRes D × Nat
  outs : List (LRes D)
  procs : List Nat

variable {D : Nat} {K : Type} [Field K] [LinearOrder K] [FloorRing K]

/-- findpts_imp.h:435-444: `first` is `n==out_pt.n`; `low` is `-DBL_MAX`; `o` is the caller's record of the point -/
def msPoint (low : Nat) (first : Bool) (r : OutPt D) (o : LRes D) (s : MsSt D) : MsSt D :=
  if r.u 0 ≠ s.oldindex ∨ first = true then
    { s with oldindex := r.u 0, as := ({ s.as.1 with disti := low }, s.as.2), oldelsid := 0, istart := false, ioriginator := o.code != codeNotFound }
  else s

/-- findpts_imp.h:445-461: a new session; `q` is the caller's `proc` of the point -/
def msSession (r : OutPt D) (o : LRes D) (q : Nat) (s : MsSt D) : MsSt D :=
  if r.u 4 ≠ s.oldelsid ∨ s.istart = false then
    if s.ioriginator = true ∧ o.elsid = r.u 4 then { s with istart := true, oldelsid := r.u 4, cs := (o, q), ioriginator := false }
    else { s with istart := true, oldelsid := r.u 4, cs := ({ s.cs.1 with code := codeNotFound }, s.cs.2) }
  else s

/-- findpts_imp.h:463-475: the better of the session -/
def msBetter (val : Nat → K) (r : OutPt D) (s : MsSt D) : MsSt D :=
  if s.cs.1.code ≠ codeInternal then
    if s.cs.1.code = codeNotFound ∨ r.u 1 = codeInternal ∨ val (outRes r).dist2 < val s.cs.1.dist2 then { s with cs := (outRes r, r.u 3) } else s
  else s

/-- findpts_imp.h:477-486: the last result of the session: compare with the winner of the other sessions -/
def msAll (val : Nat → K) (s : MsSt D) : MsSt D := if val s.as.1.disti ≤ val s.cs.1.disti then { s with as := s.cs } else s

/-- findpts_imp.h:487-497: the last result of the point: store the winner, unless the caller's process found the point, no other process of its session did, and its `disti` is larger -/
def msStore (val : Nat → K) (r : OutPt D) (o : LRes D) (s : MsSt D) : MsSt D :=
  if ¬ (s.ioriginator = true ∧ val s.as.1.disti < val o.disti) then { s with outs := s.outs.set (r.u 0) s.as.1, procs := s.procs.set (r.u 0) s.as.2 } else s

/-- findpts_imp.h:423-498: the body of the loop; `next` is the next result (lines 424-425, `n>1`) -/
def msRow (val : Nat → K) (low : Nat) (first : Bool) (next : Option (OutPt D)) (r : OutPt D) (s : MsSt D) : Option (MsSt D) :=
  (s.outs[r.u 0]?).bind fun o => (s.procs[r.u 0]?).map fun q =>
  let s := msBetter val r (msSession r o q (msPoint low first r o s))
  match next with
  | none => msStore val r o (msAll val s)
  | some r' =>
    if r.u 4 ≠ r'.u 4 ∨ r.u 0 ≠ r'.u 0 then
      if r.u 0 ≠ r'.u 0 then msStore val r o (msAll val s) else msAll val s
    else s

/-- findpts_imp.h:422: the loop -/
def msLoop (val : Nat → K) (low : Nat) : Bool → List (OutPt D) → MsSt D → Option (MsSt D)
  | _, [], s => some s
  | first, r :: l, s => (msRow val low first l.head? r s).bind (msLoop val low false l)

/-- findpts_imp.h:403-409, 422-500 (`ims==1`): sort by point and session, merge; the variables of the loop start uninitialised (`junk`) -/
def fp4ms (val : Nat → K) (low : Nat) (junk : LRes D × Nat) (s : FpSt D) : Outcome (FpSt D) :=
  (Sarray.sarraySort [.int 4 fun r => r.u 0, .int 4 fun r => r.u 4] (getRows (outLayout D) s.tr) s.scratch).bind fun rows =>
  (Outcome.ofOption (msLoop val low true rows ⟨0, 0, false, false, junk, junk, s.outs, s.procs⟩)).bind fun t => .ok { s with outs := t.outs, procs := t.procs }

/-- findpts_imp.h:271-526 `findptsms` (`ims==1`); `sessm` is `*session_id_match` -/
def findptsMs (val : Nat → K) (low : Nat) (junk : LRes D × Nat) (np sessm : Nat) (env : Nat → FEnv D K) : Coll (FpSt D) (List Nat) :=
  (findptsSearch val np sessm env).seq (Coll.loc (fun _ => fp4ms val low junk) [])

end Gslib.Fp
