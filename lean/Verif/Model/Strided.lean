import Verif.Model.Findpts
import Verif.Spec.Strided

/-!
# `findpts` on the caller's arrays with strides (findpts_local_imp.h:249-372, findpts_imp.h:271-526)

The loops over the points advance pointers by the stride; where the points are visited in another order the address is computed by `AT`, `CAT`, `CATD` as base plus `(i)*stride`, a product of two unsigned 32-bit numbers.
Objects lie in the address space, so pointers do not wrap. The transferred arrays of structs are as in `Model/Findpts`.
-/

namespace Gslib.Fp
open Gslib Gslib.Mpi Gslib.Transfer Gslib.Gs Gslib.Hash Gslib.Num Gslib.Spec

/-- read a variable of `sz` bytes; `none`: not allocated or indeterminate -/
def ld (sz : Nat) (m : Bytes) (a : Nat) : Option Nat :=
  (m a).bind fun c => if ∀ k, k < sz → m (a + k) = some (c.1, k) then some c.1 else none

/-- assign to a variable of `sz` bytes; `none`: not allocated -/
def st (sz : Nat) (m : Bytes) (a v : Nat) : Option Bytes :=
  if ∀ k, k < sz → (m (a + k)).isSome = true then some fun b => if a ≤ b ∧ b < a + sz then some (v, b - a) else m b else none

/-- findpts_local_imp.h:249-254, findpts_imp.h:405: `AT(T,var,i)`, `CAT`, `CATD` -/
def SArr.at (f : SArr) (i : Nat) : Nat := f.base + i * f.stride % 4294967296

/-- results of all components, if all have one -/
def seqFin {D : Nat} (f : Fin D → Option Nat) : Option (Fin D → Nat) := if h : ∀ d, (f d).isSome = true then some fun d => (f d).get (h d) else none

/-- `for(d=0;d<D;++d) x[d]=*xp[d]` -/
def ldVec {D : Nat} (m : Bytes) (xp : Fin D → Nat) : Option (Fin D → Nat) := seqFin fun d => ld 8 m (xp d)

/-- `for(d=0;d<D;++d) r[d]=v[d]` -/
def stVec {D : Nat} (m : Bytes) (a : Nat) (v : Fin D → Nat) : Option Bytes := (List.finRange D).foldlM (fun m d => st 8 m (a + 8 * d.val) (v d)) m

variable {D : Nat} {K : Type} [Field K] [LinearOrder K] [FloorRing K]

/-- findpts_local_imp.h:270-292: the loop of `map_points_to_els` over the remaining points, from `index` on; the session id is read even if it is not used -/
def mapLoopS (val : Nat → K) (env : LEnv D K) (sessm : Nat) (a : SArgs D) : Nat → Nat → (Fin D → Nat) → Nat → Nat → Bytes → Option (List IndexEl × Bytes)
  | 0, _, _, _, _, m => some ([], m)
  | n + 1, index, xp, code, sess, m =>
    (ldVec m xp).bind fun x =>
    (st 4 m code codeNotFound).bind fun m =>
    (ld 4 m sess).bind fun sid =>
    (mapPoint val env sessm index x sid).bind fun l =>
    (mapLoopS val env sessm a n (index + 1) (fun d => xp d + (a.x d).stride) (code + a.code.stride) (sess + a.sess.stride) m).map fun t => (l ++ t.1, t.2)

/-- findpts_local_imp.h:329-334: the points of the next batch -/
def scan1S (nptMax el : Nat) (a : SArgs D) (m : Bytes) : List IndexEl → List (Pt D) → Option (List (Pt D))
  | [], acc => some acc
  | q :: qs, acc =>
    if acc.length < nptMax ∧ q.el = el then
      (ld 4 m (SArr.at a.code q.index)).bind fun c =>
      if c = codeInternal then scan1S nptMax el a m qs acc else (ldVec m fun d => SArr.at (a.x d) q.index).bind fun x => scan1S nptMax el a m qs (acc ++ [x])
    else some acc

/-- findpts_local_imp.h:352-359: store a result -/
def storeL (env : LEnv D K) (a : SArgs D) (el i : Nat) (f : FRes D) (m : Bytes) : Option Bytes :=
  (st 4 m (SArr.at a.el i) el).bind fun m =>
  (st 4 m (SArr.at a.code i) (if f.internal then codeInternal else codeBorder)).bind fun m =>
  (st 8 m (SArr.at a.dist2 i) f.dist2).bind fun m =>
  (st 8 m (if env.ims then SArr.at a.disti i else a.disti.base) (if env.ims then f.disti else 0)).bind fun m =>
  (st 4 m (SArr.at a.elsid i) (if env.ims then env.nsid else 0)).bind fun m =>
  stVec m (SArr.at a.r i) f.r

/-- findpts_local_imp.h:349-363: keep the better result; `c` is `*code` -/
def updS (val : Nat → K) (env : LEnv D K) (a : SArgs D) (el i c : Nat) (f : FRes D) (m : Bytes) : Option Bytes :=
  if c = codeNotFound ∨ f.internal = true then storeL env a el i f m
  else (ld 8 m (SArr.at a.dist2 i)).bind fun d => if val f.dist2 < val d then storeL env a el i f m else some m

/-- findpts_local_imp.h:342-366: distribute the results of a batch -/
def scan2S (val : Nat → K) (env : LEnv D K) (a : SArgs D) (el : Nat) (res : List (FRes D)) : List IndexEl → Nat → Bytes → Option (Bytes × List IndexEl)
  | [], _, m => some (m, [])
  | q :: qs, i, m =>
    if i < env.nptMax ∧ q.el = el then
      (ld 4 m (SArr.at a.code q.index)).bind fun c =>
      if c = codeInternal then scan2S val env a el res qs i m
      else (res[i]?).bind fun f => (updS val env a el q.index c f m).bind fun m => scan2S val env a el res qs (i + 1) m
    else some (m, q :: qs)

/-- findpts_local_imp.h:326-368: the inner `do .. while(p->el==el)` -/
def elLoopS (val : Nat → K) (env : LEnv D K) (a : SArgs D) (el : Nat) : Nat → List IndexEl → Bytes → Option (Bytes × List IndexEl)
  | 0, _, _ => none
  | n + 1, p, m =>
    (scan1S env.nptMax el a m p []).bind fun pts =>
    (scan2S val env a el (env.findEl el pts) p 0 m).bind fun s =>
    if (s.2.head?.map IndexEl.el) = some el then elLoopS val env a el n s.2 s.1 else some s

/-- findpts_local_imp.h:319-369: the loop over the elements -/
def elsLoopS (val : Nat → K) (env : LEnv D K) (a : SArgs D) : Nat → List IndexEl → Bytes → Option Bytes
  | _, [], m => some m
  | 0, _ :: _, _ => none
  | n + 1, p :: ps, m => (elLoopS val env a p.el (ps.length + 2) (p :: ps) m).bind fun s => elsLoopS val env a n s.2 s.1

/-- findpts_local_imp.h:303-372 `findptsms_local` -/
def findptsLocalS (val : Nat → K) (env : LEnv D K) (sessm : Nat) (a : SArgs D) (npt : Nat) (m : Bytes) (s : Sarray.ScratchF Nat) : Outcome Bytes :=
  (Outcome.ofOption (mapLoopS val env sessm a npt 0 (fun d => (a.x d).base) a.code.base a.sess.base m)).bind fun t =>
  (Sarray.sarraySort [.int 4 IndexEl.el] t.1 s).bind fun map =>
  Outcome.ofOption (elsLoopS val env a (map.length + 1) map t.2)

/-- a new variable of `sz` bytes, initialised (mem.h `tmalloc`, then an assignment) -/
def newVar (sz p v : Nat) (m : Bytes) : Bytes := fun b => if p ≤ b ∧ b < p + sz then some (v, b - p) else m b

/-- findpts_local_imp.h:436-450: the arguments `findpts_local` adds: three variables with stride 0. There is no `proc`: the field is not used -/
def localArgs (a : SArgs D) (ps pd pe : Nat) : SArgs D := { a with sess := ⟨ps, 0⟩, disti := ⟨pd, 0⟩, elsid := ⟨pe, 0⟩, proc := ⟨pe, 0⟩ }

/-- findpts_local_imp.h:427-460 `findpts_local`: `ps`, `pd`, `pe` are the results of `tmalloc` for `sess_base`, `disti_base`, `elsid_base` (never freed); `*sess_match` is 0 -/
def findptsLocalC (val : Nat → K) (env : LEnv D K) (a : SArgs D) (ps pd pe npt : Nat) (m : Bytes) (s : Sarray.ScratchF Nat) : Outcome Bytes :=
  findptsLocalS val env 0 (localArgs a ps pd pe) npt (newVar 4 pe 0 (newVar 8 pd 0 (newVar 4 ps 0 m))) s

/-- findpts_imp.h:314-333: the loop that collects the points to be sent, from `index` on -/
def sendLoopS (val : Nat → K) (np id : Nat) (env : FEnv D K) (a : SArgs D) : Nat → Nat → (Fin D → Nat) → Nat → Nat → Nat → Bytes → Option (List (SrcPt D) × Bytes)
  | 0, _, _, _, _, _, m => some ([], m)
  | n + 1, index, xp, code, proc, sess, m =>
    (ldVec m xp).bind fun x =>
    (ld 4 m sess).bind fun sid =>
    (st 4 m proc id).bind fun m =>
    (ld 4 m code).bind fun c =>
    (sendLoopS val np id env a n (index + 1) (fun d => xp d + (a.x d).stride) (code + a.code.stride) (proc + a.proc.stride) (sess + a.sess.stride) m).map fun t =>
      (if (c != codeInternal && !env.loc.ims) || env.loc.ims then srcRow val np env index (x, sid) :: t.1 else t.1, t.2)

/-- memory of a process: the caller's memory (with the arrays `distv`, `elsidv` of the library), the transferred array, buffers -/
structure SSt where
  mem : Bytes
  tr : TrState
  scratch : Sarray.ScratchF Nat

/-- set the transfer memory -/
def SSt.setTr (s : SSt) (t : TrState) : SSt := { s with tr := t }

/-- findpts_imp.h:294-335 -/
def fp1S (val : Nat → K) (np sessm : Nat) (env : Nat → FEnv D K) (a : Nat → SArgs D) (npt : Nat → Nat) (id : Nat) (s : SSt) : Outcome SSt :=
  (if npt id = 0 then .ok s.mem else findptsLocalS val (env id).loc sessm (a id) (npt id) s.mem s.scratch).bind fun m =>
  (Outcome.ofOption (sendLoopS val np id (env id) (a id) (npt id) 0 (fun d => ((a id).x d).base) (a id).code.base (a id).proc.base (a id).sess.base m)).bind fun t =>
  .ok { s with mem := t.2, tr := putRows (srcLayout D) s.tr t.1 }

/-- a computation of `Model/Findpts` that uses the transferred array and the buffers only -/
def onTr (f : FpSt D → Outcome (FpSt D)) (s : SSt) : Outcome SSt := (f ⟨[], [], [], s.tr, s.scratch⟩).bind fun t => .ok { s with tr := t.tr, scratch := t.scratch }

/-- findpts_imp.h:512-518: store a remote result -/
def storeR (a : SArgs D) (r : OutPt D) (m : Bytes) : Option Bytes :=
  (stVec m (SArr.at a.r (r.u 0)) (outRes r).r).bind fun m =>
  (st 8 m (SArr.at a.dist2 (r.u 0)) (outRes r).dist2).bind fun m =>
  (st 4 m (SArr.at a.proc (r.u 0)) (r.u 3)).bind fun m =>
  (st 4 m (SArr.at a.el (r.u 0)) (r.u 2)).bind fun m =>
  st 4 m (SArr.at a.code (r.u 0)) (r.u 1)

/-- findpts_imp.h:504-518: merge one remote result into the caller's arrays -/
def mergeRowS (val : Nat → K) (a : SArgs D) (r : OutPt D) (m : Bytes) : Option Bytes :=
  (ld 4 m (SArr.at a.code (r.u 0))).bind fun c =>
  if c = codeInternal then some m
  else if c = codeNotFound ∨ r.u 1 = codeInternal then storeR a r m
  else (ld 8 m (SArr.at a.dist2 (r.u 0))).bind fun d => if val (outRes r).dist2 < val d then storeR a r m else some m

/-- findpts_imp.h:403-407, 502-523 (`ims==0`) -/
def fp4S (val : Nat → K) (a : Nat → SArgs D) (id : Nat) (s : SSt) : Outcome SSt :=
  (Outcome.ofOption (forList (mergeRowS val (a id)) (getRows (outLayout D) s.tr) s.mem)).bind fun m => .ok { s with mem := m }

/-- findpts_imp.h:294-402: everything before the merge -/
def findptsSearchS (val : Nat → K) (np sessm : Nat) (env : Nat → FEnv D K) (a : Nat → SArgs D) (npt : Nat → Nat) : Coll SSt (List Nat) :=
  (((((Coll.loc (fp1S val np sessm env a npt) []).seq (recTransfer (k := D) SSt.tr SSt.setTr np (1 : Fin 3) 4 true)).seq (Coll.loc (fun id => onTr (fp2 val np env id)) [])).seq
    (recTransferExt (k := D) SSt.tr SSt.setTr np (1 : Fin 3) 4)).seq (Coll.loc (fun id => onTr (fp3 val sessm env id)) [])).seq (recTransfer (k := D + 2) SSt.tr SSt.setTr np (3 : Fin 5) 4 true)

/-- findpts_imp.h:652-675 `findpts` (`ims==0`) of `npt` points, arguments `a` -/
def findptsS (val : Nat → K) (np : Nat) (env : Nat → FEnv D K) (a : Nat → SArgs D) (npt : Nat → Nat) : Coll SSt (List Nat) :=
  (findptsSearchS val np 0 env a npt).seq (Coll.loc (fp4S val a) [])

end Gslib.Fp
