import Verif.Model.Hash
import Verif.Model.SarraySort
import Verif.Spec.Hash

/-!
# Searching points among the elements of a process (findpts_local_imp.h:200-400)

A `double` in the caller's arrays is its bit pattern, a natural number; `val` gives its value in an ordered field (no NaN). The caller's arrays with strides are lists with one record per point (the arrays do not overlap).

The search of points in one element, `findpts_el` (followed for multi-session use by `findpts_el_eval`), is a function on lists of points: its model is in `FindptsDrv`, `Newton2`. The oriented box test `obbox_test` is a Boolean
function: its model is in `Obbox`.
-/

namespace Gslib.Fp
open Gslib Gslib.Hash Gslib.Num Gslib.Spec

/-- coordinates of a point (bit patterns) -/
abbrev Pt (D : Nat) := Fin D → Nat

/-- findpts.c:28-30 `CODE_INTERNAL` -/
abbrev codeInternal : Nat := 0
/-- `CODE_BORDER` -/
abbrev codeBorder : Nat := 1
/-- `CODE_NOT_FOUND` -/
abbrev codeNotFound : Nat := 2

/-- what the search in an element yields for a point: `fpt[i].r`, `fpt[i].dist2`, whether `fpt[i].flags==(1u<<(2*D))`, `distrsti[i]` -/
structure FRes (D : Nat) where
  /-- reference coordinates -/
  r : Fin D → Nat
  /-- squared distance -/
  dist2 : Nat
  /-- converged without constraints -/
  internal : Bool
  /-- value of the distance function (multi-session) -/
  disti : Nat

/-- the output for a point: `code`, `el`, `r`, `dist2`, `disti`, `elsid` -/
@[ext] structure LRes (D : Nat) where
  code : Nat
  el : Nat
  r : Fin D → Nat
  dist2 : Nat
  disti : Nat
  elsid : Nat

/-- findpts_local_imp.h:200-211 `struct findpts_local_data` -/
structure LEnv (D : Nat) (K : Type) where
  /-- the hash table `hd` -/
  bnd : List (Range K)
  hn : Nat
  size : Nat
  off : Mem Nat
  /-- `obbox_test(&fd->obb[el],x)>=0` -/
  test : Nat → Pt D → Bool
  /-- `findpts_el` on a list of points in element `el` -/
  findEl : Nat → List (Pt D) → List (FRes D)
  /-- `npt_max` -/
  nptMax : Nat
  /-- `ims` -/
  ims : Bool
  /-- `nsid[0]` -/
  nsid : Nat

variable {D : Nat} {K : Type} [Field K] [LinearOrder K] [FloorRing K]

/-- the values of the coordinates -/
def coords (val : Nat → K) (x : Pt D) : List K := List.ofFn fun d => val (x d)

/-- `struct index_el` (findpts_local.c:14) -/
structure IndexEl where
  index : Nat
  el : Nat
deriving DecidableEq

/-- findpts_local_imp.h:279-280: elements of the own (`sessm==1`: of another) session are skipped -/
def skipSession (env : LEnv D K) (sessm sid : Nat) : Bool :=
  env.ims && ((sessm != 1 && env.nsid == sid) || (sessm == 1 && env.nsid != sid))

/-- findpts_local_imp.h:272-289: the entries of one point -/
def mapPoint (val : Nat → K) (env : LEnv D K) (sessm index : Nat) (x : Pt D) (sid : Nat) : Option (List IndexEl) :=
  (readBucket env.size env.off (hashIndex env.hn env.bnd (coords val x))).map fun els =>
    (els.filter fun el => !skipSession env sessm sid && env.test el x).map fun el => ⟨index, el⟩

/-- findpts_local_imp.h:256-300 `map_points_to_els`; the sentinel is the end of the list (`el` is below `2^32-1`) -/
def mapPointsToEls (val : Nat → K) (env : LEnv D K) (sessm : Nat) (xs : List (Pt D × Nat)) (s : Sarray.ScratchF Nat) : Outcome (List IndexEl) :=
  (Outcome.ofOption ((xs.zipIdx.mapM fun p => mapPoint val env sessm p.2 p.1.1 p.1.2).map List.flatten)).bind fun map =>
  Sarray.sarraySort [.int 4 IndexEl.el] map s

/-- findpts_local_imp.h:329-334: the points of the next batch -/
def scan1 (nptMax el : Nat) (xs : List (Pt D × Nat)) (outs : List (LRes D)) : List IndexEl → List (Pt D) → Option (List (Pt D))
  | [], acc => some acc
  | q :: qs, acc =>
    if acc.length < nptMax ∧ q.el = el then
      (outs[q.index]?).bind fun o =>
      if o.code = codeInternal then scan1 nptMax el xs outs qs acc else (xs[q.index]?).bind fun x => scan1 nptMax el xs outs qs (acc ++ [x.1])
    else some acc

/-- findpts_local_imp.h:349-363: keep the better result -/
def updL (val : Nat → K) (env : LEnv D K) (el : Nat) (f : FRes D) (o : LRes D) : LRes D :=
  if o.code = codeNotFound ∨ f.internal = true ∨ val f.dist2 < val o.dist2 then
    { code := if f.internal then codeInternal else codeBorder, el := el, r := f.r, dist2 := f.dist2, disti := if env.ims then f.disti else 0, elsid := if env.ims then env.nsid else 0 }
  else o

/-- findpts_local_imp.h:342-366: distribute the results of a batch; returns the output and the remaining entries -/
def scan2 (val : Nat → K) (env : LEnv D K) (el : Nat) (res : List (FRes D)) : List IndexEl → Nat → List (LRes D) → Option (List (LRes D) × List IndexEl)
  | [], _, outs => some (outs, [])
  | q :: qs, i, outs =>
    if i < env.nptMax ∧ q.el = el then
      (outs[q.index]?).bind fun o =>
      if o.code = codeInternal then scan2 val env el res qs i outs else (res[i]?).bind fun f => scan2 val env el res qs (i + 1) (outs.set q.index (updL val env el f o))
    else some (outs, q :: qs)

/-- findpts_local_imp.h:326-368: the inner `do .. while(p->el==el)`; `none` when the number of rounds exceeds the fuel -/
def elLoop (val : Nat → K) (env : LEnv D K) (xs : List (Pt D × Nat)) (el : Nat) : Nat → List IndexEl → List (LRes D) → Option (List (LRes D) × List IndexEl)
  | 0, _, _ => none
  | n + 1, p, outs =>
    (scan1 env.nptMax el xs outs p []).bind fun pts =>
    (scan2 val env el (env.findEl el pts) p 0 outs).bind fun s =>
    if (s.2.head?.map IndexEl.el) = some el then elLoop val env xs el n s.2 s.1 else some s

/-- findpts_local_imp.h:319-369: the loop over the elements -/
def elsLoop (val : Nat → K) (env : LEnv D K) (xs : List (Pt D × Nat)) : Nat → List IndexEl → List (LRes D) → Option (List (LRes D))
  | _, [], outs => some outs
  | 0, _ :: _, _ => none
  | n + 1, p :: ps, outs => (elLoop val env xs p.el (ps.length + 2) (p :: ps) outs).bind fun s => elsLoop val env xs n s.2 s.1

/-- findpts_local_imp.h:303-372 `findptsms_local`: the points with their session ids; the old contents of the output -/
def findptsLocal (val : Nat → K) (env : LEnv D K) (sessm : Nat) (xs : List (Pt D × Nat)) (outs : List (LRes D)) (s : Sarray.ScratchF Nat) : Outcome (List (LRes D)) :=
  (mapPointsToEls val env sessm xs s).bind fun map =>
  Outcome.ofOption (elsLoop val env xs (map.length + 1) map (outs.map fun o => { o with code := codeNotFound }))

end Gslib.Fp
