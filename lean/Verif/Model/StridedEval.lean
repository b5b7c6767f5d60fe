import Verif.Model.Strided
import Verif.Model.FindptsEval

/-!
# `findpts_eval` on the caller's arrays with strides (findpts_imp.h:531-627)
-/

namespace Gslib.Fp
open Gslib Gslib.Mpi Gslib.Transfer Gslib.Gs Gslib.Hash Gslib.Num Gslib.Spec

/-- memory of a process: that of `findpts`, `fd->savpt`, the values of the field -/
structure ESt (D : Nat) where
  ss : SSt
  savpt : List (EvSrc D)
  inp : Nat → Nat

variable {D : Nat} {K : Type} [Field K] [LinearOrder K] [FloorRing K]

/-- the transfer memory -/
def ESt.tr (s : ESt D) : TrState := s.ss.tr
/-- set the transfer memory -/
def ESt.setTr (s : ESt D) (t : TrState) : ESt D := { s with ss := s.ss.setTr t }
/-- set the part of `findpts` -/
def ESt.setSs (s : ESt D) (t : SSt) : ESt D := { s with ss := t }

/-- findpts_imp.h:544-559: the loop over the remaining points, from `index` on; the pointers advance by the strides -/
def evLoopS (D : Nat) (a : EArgs) : Nat → Nat → Nat → Nat → Nat → Nat → Bytes → Option (List (EvSrc D))
  | 0, _, _, _, _, _, _ => some []
  | n + 1, index, code, proc, el, r, m =>
    (ld 4 m code).bind fun c =>
    (if c ≠ codeNotFound then (ldVec m fun d : Fin D => r + 8 * d.val).bind fun x => (ld 4 m proc).bind fun q => (ld 4 m el).map fun e => [(⟨x, ![index, q, e]⟩ : EvSrc D)] else some []).bind fun l =>
    (evLoopS D a n (index + 1) (code + a.code.stride) (proc + a.proc.stride) (el + a.el.stride) (r + a.r.stride) m).map fun t => l ++ t

/-- findpts_imp.h:537-562 -/
def ev1S (a : Nat → EArgs) (npt : Nat → Nat) (id : Nat) (s : ESt D) : Outcome (ESt D) :=
  (Outcome.ofOption (evLoopS D (a id) (npt id) 0 (a id).code.base (a id).proc.base (a id).el.base (a id).r.base s.ss.mem)).bind fun rows =>
  .ok (s.setTr (putRows (evSrcLayout D) s.ss.tr rows))

/-- findpts_imp.h:564-580: as `ev2` -/
def ev2S (s : ESt D) : Outcome (ESt D) :=
  (Sarray.sarraySort [.int 4 fun r => r.u 2] (getRows (evSrcLayout D) s.ss.tr) s.ss.scratch).bind fun rows => .ok { s with savpt := rows }

/-- findpts_imp.h:602-617: as `ev3` -/
def ev3S (env : Nat → EvEnv D) (id : Nat) (s : ESt D) : Outcome (ESt D) :=
  (Outcome.ofOption (localEval (env id) s.inp (s.savpt.length + 1) s.savpt)).bind fun l =>
  .ok (s.setTr (putRows evOutLayout s.ss.tr ((s.savpt.zip l).map fun z => ⟨![z.2], ![z.1.u 0, z.1.u 1]⟩)))

/-- findpts_imp.h:619-626 -/
def ev4S (a : Nat → EArgs) (id : Nat) (s : ESt D) : Outcome (ESt D) :=
  (Outcome.ofOption (forList (fun (r : EvOut) m => st 8 m (SArr.at (a id).out (r.u 0)) (r.d 0)) (getRows evOutLayout s.ss.tr) s.ss.mem)).bind fun m => .ok { s with ss := { s.ss with mem := m } }

/-- findpts_imp.h:531-581 `setup_fev_aux` -/
def evSetupS (D np : Nat) (a : Nat → EArgs) (npt : Nat → Nat) : Coll (ESt D) (List Nat) :=
  ((Coll.loc (ev1S a npt) []).seq (recTransfer (k := D) ESt.tr ESt.setTr np (1 : Fin 3) 4 true)).seq (Coll.loc (fun _ => ev2S) [])

/-- findpts_imp.h:600-627: the rest of `findptsms_eval` -/
def evRunS (np : Nat) (env : Nat → EvEnv D) (a : Nat → EArgs) : Coll (ESt D) (List Nat) :=
  ((Coll.loc (ev3S env) []).seq (recTransfer (k := 1) ESt.tr ESt.setTr np (1 : Fin 2) 0 true)).seq (Coll.loc (ev4S a) [])

/-- findpts_imp.h:583-627 `findptsms_eval`, 677-694 `findpts_eval`; `fev` is `fd->fevsetup` -/
def findptsEvalS (np : Nat) (env : Nat → EvEnv D) (a : Nat → EArgs) (npt : Nat → Nat) (fev : Bool) : Coll (ESt D) (List Nat) :=
  if fev then evRunS np env a else (evSetupS D np a npt).seq (evRunS np env a)

end Gslib.Fp
