import Verif.Model.Findpts

/-!
# `findpts_eval` (findpts_imp.h:528-627, 677-694; findpts_local_imp.h:377-400) and histories of calls

The values of the field and of the output are bit patterns of doubles. `findpts_el_eval` is a function on the values of the field in the element and the list of reference points. The flag `fd->fevsetup` is the same on all
processes, because `findpts` and `findpts_eval` are called by all of them: it is a parameter of the program.
-/

namespace Gslib.Fp
open Gslib Gslib.Mpi Gslib.Transfer Gslib.Gs Gslib.Hash Gslib.Num Gslib.Spec

/-- `code`, `proc`, `el`, `r` of a point: the arguments of `findpts_eval`, normally results of `findpts` -/
structure EvArg (D : Nat) where
  code : Nat
  proc : Nat
  el : Nat
  r : Fin D → Nat

/-- `struct eval_src_pt` (findpts_imp.h:528): `r`; `index`, `proc`, `el` -/
abbrev EvSrc (D : Nat) := Rec D 3
/-- `struct eval_out_pt` (findpts_imp.h:529): `out`; `index`, `proc` -/
abbrev EvOut := Rec 1 2

/-- memory layout -/
def evSrcLayout (D : Nat) : Layout (EvSrc D) := recLayout D 3 1 4
/-- memory layout -/
def evOutLayout : Layout EvOut := recLayout 1 2 1 0

/-- memory of a process: that of `findpts`; the arguments of `findpts_eval` (`in`: values by position); the output array; `fd->savpt` -/
structure FdSt (D : Nat) where
  fp : FpSt D
  args : List (EvArg D)
  inp : Nat → Nat
  out : List Nat
  savpt : List (EvSrc D)

/-- set the transfer memory -/
def FdSt.setTr {D : Nat} (s : FdSt D) (t : TrState) : FdSt D := { s with fp := s.fp.setTr t }
/-- the transfer memory -/
def FdSt.tr {D : Nat} (s : FdSt D) : TrState := s.fp.tr
/-- set the part of `findpts` -/
def FdSt.setFp {D : Nat} (s : FdSt D) (f : FpSt D) : FdSt D := { s with fp := f }

/-- what the evaluation uses of `findpts_local_data`: `ntot` (values per element), `npt_max`, `findpts_el_eval` -/
structure EvEnv (D : Nat) where
  ntot : Nat
  nptMax : Nat
  evalEl : (Nat → Nat) → List (Fin D → Nat) → List Nat

variable {D : Nat} {K : Type} [Field K] [LinearOrder K] [FloorRing K]

/-- findpts_imp.h:541-560: the found points -/
def evRows (args : List (EvArg D)) : List (EvSrc D) :=
  (args.zipIdx.filter fun a => a.1.code != codeNotFound).map fun a => ⟨a.1.r, ![a.2, a.1.proc, a.1.el]⟩

/-- findpts_imp.h:537-562 -/
def ev1 (s : FdSt D) : Outcome (FdSt D) := .ok { s with fp := { s.fp with tr := putRows (evSrcLayout D) s.fp.tr (evRows s.args) } }

/-- findpts_imp.h:564-580: the received points, grouped by element, are saved -/
def ev2 (s : FdSt D) : Outcome (FdSt D) :=
  (Sarray.sarraySort [.int 4 fun r => r.u 2] (getRows (evSrcLayout D) s.fp.tr) s.fp.scratch).bind fun rows => .ok { s with savpt := rows }

/-- findpts_local_imp.h:378-400 `findptsms_local_eval`: batches of at most `npt_max` points of the same element (the inner loop continues with the same element, which the outer one reads again); `el*fd->ntot` is computed in `uint` -/
def localEval (env : EvEnv D) (inp : Nat → Nat) : Nat → List (EvSrc D) → Option (List Nat)
  | _, [] => some []
  | 0, _ :: _ => none
  | n + 1, p :: ps =>
    let batch := ((p :: ps).take env.nptMax).takeWhile fun q => q.u 2 == p.u 2
    (localEval env inp n ((p :: ps).drop batch.length)).map fun l => env.evalEl (fun j => inp (p.u 2 * env.ntot % 4294967296 + j)) (batch.map Rec.d) ++ l

/-- findpts_imp.h:602-617: evaluate the saved points -/
def ev3 (env : Nat → EvEnv D) (id : Nat) (s : FdSt D) : Outcome (FdSt D) :=
  (Outcome.ofOption (localEval (env id) s.inp (s.savpt.length + 1) s.savpt)).bind fun l =>
  .ok { s with fp := { s.fp with tr := putRows evOutLayout s.fp.tr ((s.savpt.zip l).map fun z => ⟨![z.2], ![z.1.u 0, z.1.u 1]⟩) } }

/-- findpts_imp.h:623: store one result -/
def evStore (r : EvOut) (out : List Nat) : Option (List Nat) := if r.u 0 < out.length then some (out.set (r.u 0) (r.d 0)) else none

/-- findpts_imp.h:619-626 -/
def ev4 (s : FdSt D) : Outcome (FdSt D) := (Outcome.ofOption (forList evStore (getRows evOutLayout s.fp.tr) s.out)).bind fun o => .ok { s with out := o }

/-- findpts_imp.h:531-581 `setup_fev_aux` -/
def evSetup (D np : Nat) : Coll (FdSt D) (List Nat) :=
  ((Coll.loc (fun _ => ev1) []).seq (recTransfer (k := D) FdSt.tr FdSt.setTr np (1 : Fin 3) 4 true)).seq (Coll.loc (fun _ => ev2) [])

/-- findpts_imp.h:600-627: the rest of `findptsms_eval` -/
def evRun (np : Nat) (env : Nat → EvEnv D) : Coll (FdSt D) (List Nat) :=
  ((Coll.loc (ev3 env) []).seq (recTransfer (k := 1) FdSt.tr FdSt.setTr np (1 : Fin 2) 0 true)).seq (Coll.loc (fun _ => ev4) [])

/-- findpts_imp.h:583-627 `findptsms_eval`, 677-694 `findpts_eval`; `fev` is `fd->fevsetup` -/
def findptsEval (np : Nat) (env : Nat → EvEnv D) (fev : Bool) : Coll (FdSt D) (List Nat) :=
  if fev then evRun np env else (evSetup D np).seq (evRun np env)

/-- a call made by all processes, with the arguments of each process -/
inductive FCall (D : Nat) where
  /-- `findpts` of the points `xs`, output arrays with old contents `outs` -/
  | find (xs : Nat → List (Pt D × Nat)) (outs : Nat → List (LRes D))
  /-- `findpts_eval` of the field `inp` at `args`, output array with old contents `out` -/
  | eval (args : Nat → List (EvArg D)) (inp : Nat → Nat → Nat) (out : Nat → List Nat)

/-- `fd->fevsetup` after a call (findpts_imp.h:281-284, 592-599) -/
def FCall.fev : FCall D → Bool
  | .find _ _ => false
  | .eval _ _ _ => true

/-- a call, with `fev` the value of `fd->fevsetup` before; the first step stores the arguments, for `findpts` it also frees `savpt` (findpts_imp.h:281-284) -/
def FCall.run (val : Nat → K) (np : Nat) (env : Nat → FEnv D K) (eenv : Nat → EvEnv D) (fev : Bool) : FCall D → Coll (FdSt D) (List Nat)
  | .find xs outs => (Coll.loc (fun id s => .ok { s with fp := { s.fp with xs := xs id, outs := outs id }, savpt := [] }) []).seq ((findpts val np env).lift FdSt.fp FdSt.setFp)
  | .eval args inp out => (Coll.loc (fun id s => .ok { s with args := args id, inp := inp id, out := out id }) []).seq (findptsEval np eenv fev)

/-- a history of calls -/
def history (val : Nat → K) (np : Nat) (env : Nat → FEnv D K) (eenv : Nat → EvEnv D) : Bool → List (FCall D) → Coll (FdSt D) (List Nat)
  | _, [] => Coll.loc (fun _ s => .ok s) []
  | fev, c :: cs => (c.run val np env eenv fev).seq (history val np env eenv c.fev cs)

end Gslib.Fp
