import Verif.Model.ElWork
import Verif.Model.Newton2

/-!
# The search in a 2D element: data of the sides and groups of points (findpts_el_2.c:97-276, 560-819)

`double` is replaced by an ordered field `K`. `fd->lag[d](p, fd->lag_data[d], n, m, x)` stores `lag d m x`, a list of `(m+1)*n` values, through `p`; its own scratch space in `lag_data` is the subject of C33 and C34.
-/

namespace Gslib.El
open Gslib.Tensor Gslib.Num

variable {K : Type} [Field K] [LinearOrder K]

/-- the constant part of `struct findpts_el_data_2`, with the element `x` of `findpts_el_start_2` (findpts_el.h:51-55) -/
structure El2 (K : Type) where
  n : Fin 2 → Nat
  x : Fin 2 → List K
  z : Fin 2 → List K
  wtend : Fin 2 → List K
  lag : Fin 2 → Nat → K → List K

/-- findpts_el_2.c:101 `struct findpts_el_gpt_2` -/
structure GPt2 (K : Type) where
  x : Fin 2 → K
  jac : Fin 4 → K
  hes : Fin 4 → K

/-- the part of `struct findpts_el_data_2` that changes; `edgeX` is what `edge[2].x` and `edge[3].x-nr*(ns-1)` point to (`none` is null), `pt` is `none` while uninitialised -/
structure ElSt2 (K : Type) where
  sideInit : U32
  sides : List K
  work : List K
  edgeX : Option (Fin 2 → List K)
  pt : Option (Fin 4 → GPt2 K)

/-- findpts_el_2.c:128-141 `work_size` -/
def workSize2 (nr ns nptMax : Nat) : Nat :=
  max (max (max ((6 + 2 * (2 * nr + ns)) * nptMax) (4 * (nr + ns))) (6 * (nr + 6))) (nptMax * (10 + 3 * max ns nr))

/-- findpts_el_2.c:171-178: `wtend[d]`, in an array `w` of `6n` doubles -/
def wtendSetup (n : Nat) (lag : Nat → K → List K) (w : List K) : Option (List K) :=
  (store w 0 (lag 2 (-1))).bind fun w => (store w (3 * n) (lag 2 1)).bind fun w => (store w 0 [1]).bind fun w =>
  (forUp 1 (n - 1) (fun i w => store w i [0]) w).bind fun w => (forUp 0 (n - 1) (fun i w => store w (3 * n + i) [0]) w).bind fun w => store w (3 * n + (n - 1)) [1]

/-- findpts_el_2.c:210-216: one round of the loop over `d`; the state is (`work`, `sides`) -/
def edgeRd (e : El2 K) (d : Fin 2) (s : List K × List K) : Option (List K × List K) :=
  (mxmIn s.1 (2 * e.n 1) (e.n 0) (e.x d) (e.n 1) 0 2).bind fun w =>
  (cpy s.2 (8 * e.n 1 + d.val * e.n 0) w (2 * e.n 1) (e.n 0)).bind fun sd =>
  (cpy sd (8 * e.n 1 + (2 + d.val) * e.n 0) w (2 * e.n 1 + e.n 0) (e.n 0)).map fun sd => (w, sd)

/-- findpts_el_2.c:203-217 `compute_edge_data_r` -/
def edgeDataR (e : El2 K) (st : ElSt2 K) : Option (ElSt2 K) :=
  (cpy st.work 0 (e.wtend 1) (e.n 1) (e.n 1)).bind fun w => (cpy w (e.n 1) (e.wtend 1) (4 * e.n 1) (e.n 1)).bind fun w =>
  (edgeRd e 0 (w, st.sides)).bind fun s => (edgeRd e 1 s).map fun s => { st with work := s.1, sides := s.2, edgeX := some e.x }

/-- findpts_el_2.c:227-233: one round of the loop over `d`; the state is (`work`, `sides`) -/
def edgeSd (e : El2 K) (d : Fin 2) (s : List K × List K) : Option (List K × List K) :=
  (mtxmIn s.1 (4 * e.n 0) (e.n 1) (e.x d) (e.n 0) 0 4).bind fun w =>
  (cpy s.2 (d.val * e.n 1) w (4 * e.n 0) (e.n 1)).bind fun sd =>
  (cpy sd ((2 + d.val) * e.n 1) w (4 * e.n 0 + e.n 1) (e.n 1)).bind fun sd =>
  (cpy sd ((4 + d.val) * e.n 1) w (4 * e.n 0 + 2 * e.n 1) (e.n 1)).bind fun sd =>
  (cpy sd ((6 + d.val) * e.n 1) w (4 * e.n 0 + 3 * e.n 1) (e.n 1)).map fun sd => (w, sd)

/-- findpts_el_2.c:220-234 `compute_edge_data_s` -/
def edgeDataS (e : El2 K) (st : ElSt2 K) : Option (ElSt2 K) :=
  (cpy st.work 0 (e.wtend 0) 0 (2 * e.n 0)).bind fun w => (cpy w (2 * e.n 0) (e.wtend 0) (3 * e.n 0) (2 * e.n 0)).bind fun w =>
  (edgeSd e 0 (w, st.sides)).bind fun s => (edgeSd e 1 s).map fun s => { st with work := s.1, sides := s.2 }

/-- findpts_el_2.c:236-249 `get_edge` without the pointer it returns; `k` is `ei/2` -/
def getEdge (e : El2 K) (k : Nat) (st : ElSt2 K) : Option (ElSt2 K) :=
  if st.sideInit &&& ((1 : U32) <<< k) = 0 then
    (if k = 0 then edgeDataS e st else if k = 1 then edgeDataR e st else none).map fun st => { st with sideInit := st.sideInit ||| ((1 : U32) <<< k) }
  else some st

/-- `edge[ei].x[d]` (findpts_el_2.c:181-191, 214-215) -/
def edgeXs (e : El2 K) (st : ElSt2 K) (ei : Nat) (d : Fin 2) : Option (List K) :=
  match ei with
  | 0 => some (st.sides.drop (d.val * e.n 1))
  | 1 => some (st.sides.drop ((4 + d.val) * e.n 1))
  | 2 => st.edgeX.map fun x => x d
  | 3 => st.edgeX.map fun x => (x d).drop (e.n 0 * (e.n 1 - 1))
  | _ => none

/-- `edge[ei].dxdn[d]` (findpts_el_2.c:181-191) -/
def edgeNs (e : El2 K) (st : ElSt2 K) (ei : Nat) (d : Fin 2) : Option (List K) :=
  match ei with
  | 0 => some (st.sides.drop ((2 + d.val) * e.n 1))
  | 1 => some (st.sides.drop ((6 + d.val) * e.n 1))
  | 2 => some (st.sides.drop (8 * e.n 1 + d.val * e.n 0))
  | 3 => some (st.sides.drop (8 * e.n 1 + (2 + d.val) * e.n 0))
  | _ => none

/-- findpts_el_2.c:258-259: `work` and `work2` for coordinate `d` -/
def ptWork (e : El2 K) (d : Fin 2) (w : List K) : Option (List K) :=
  (mxm (e.n 0) (e.x d) (e.n 1) (e.wtend 1) 6).bind fun v => (store w 0 v).bind fun w => mtxmIn w (6 * e.n 0) 6 (e.wtend 0) (e.n 0) 0 6

/-- findpts_el_2.c:261-265: the five entries of `work2` for coordinate `d` of corner `q` = `2*j+i` (in the order of the C statements), with `work2` at offset `o` -/
def ptVals (w : List K) (o : Nat) (q : Fin 4) : Option (Fin 5 → K) :=
  let i := q.val % 2
  let j := q.val / 2
  w[o + (6 * (3 * j + 0) + (3 * i + 0))]?.bind fun a => w[o + (6 * (3 * j + 0) + (3 * i + 1))]?.bind fun b => w[o + (6 * (3 * j + 1) + (3 * i + 0))]?.bind fun c =>
  w[o + (6 * (3 * j + 0) + (3 * i + 2))]?.bind fun h => w[o + (6 * (3 * j + 2) + (3 * i + 0))]?.map fun g => ![a, b, c, h, g]

/-- a function on `Fin 4`, when all of its values exist -/
def all4 {A : Type} (f : Fin 4 → Option A) : Option (Fin 4 → A) := (f 0).bind fun a => (f 1).bind fun b => (f 2).bind fun c => (f 3).map fun d => ![a, b, c, d]

/-- findpts_el_2.c:252-268 `compute_pt_data` -/
def ptData (e : El2 K) (st : ElSt2 K) : Option (ElSt2 K) :=
  (ptWork e 0 st.work).bind fun w => (all4 (ptVals w (6 * e.n 0))).bind fun v0 =>
  (ptWork e 1 w).bind fun w => (all4 (ptVals w (6 * e.n 0))).map fun v1 =>
  { st with work := w, pt := some fun q => ⟨![v0 q 0, v1 q 0], ![v0 q 1, v0 q 2, v1 q 1, v1 q 2], ![v0 q 3, v0 q 4, v1 q 3, v1 q 4]⟩ }

/-- findpts_el_2.c:270-276 `get_pt` without the pointer it returns -/
def getPt (e : El2 K) (st : ElSt2 K) : Option (ElSt2 K) :=
  if st.sideInit &&& 4 = 0 then (ptData e st).map fun st => { st with sideInit := st.sideInit ||| 4 } else some st

/-- findpts_el_2.c:582-588: what is stored for point `i` and coordinate `d` -/
def areaRow (e : El2 K) (pn : Nat) (ps : List (Pt K 2)) (d : Fin 2) (i : Nat) (w : List K) : Option (List K) :=
  let wtr := 6 * pn + 2 * i * e.n 0
  let slice := 6 * pn + 2 * e.n 0 * pn + 2 * e.n 1 * pn + 2 * i * e.n 0
  (ps[i]?).bind fun p => (ig1 (w.drop wtr) (e.n 0) (w.drop slice)).bind fun vg => (store w (2 * pn + (4 * i + 2 * d.val)) vg.2).bind fun w =>
  (store w (2 * i + d.val) [p.x d - vg.1]).bind fun w =>
  (i1 (w.drop wtr) (e.n 0) (w.drop (slice + e.n 0))).bind fun g => store w (2 * pn + (4 * i + 2 * d.val) + 1) [g]

/-- findpts_el_2.c:580-589: one round of the loop over `d` -/
def areaDim (e : El2 K) (pn : Nat) (ps : List (Pt K 2)) (d : Fin 2) (w : List K) : Option (List K) :=
  (mxmIn w (6 * pn + 2 * e.n 0 * pn + 2 * e.n 1 * pn) (e.n 0) (e.x d) (e.n 1) (6 * pn + 2 * e.n 0 * pn) (2 * pn)).bind fun w => forUp 0 pn (areaRow e pn ps d) w

/-- findpts_el_2.c:571-589: `work` before the Newton steps -/
def areaWork (e : El2 K) (ps : List (Pt K 2)) (w : List K) : Option (List K) :=
  let pn := ps.length
  (forUp 0 pn (fun i w => (ps[i]?).bind fun p => store w (6 * pn + 2 * i * e.n 0) (e.lag 0 1 (p.r 0))) w).bind fun w =>
  (forUp 0 pn (fun i w => (ps[i]?).bind fun p => store w (6 * pn + 2 * e.n 0 * pn + 2 * i * e.n 1) (e.lag 1 1 (p.r 1))) w).bind fun w =>
  (areaDim e pn ps 0 w).bind (areaDim e pn ps 1)

/-- `w[o]`, `w[o+1]` -/
def vec2 (w : List K) (o : Nat) : Option (Fin 2 → K) := w[o]?.bind fun a => w[o + 1]?.map fun b => ![a, b]
/-- `w[o]` ... `w[o+3]` -/
def vec4 (w : List K) (o : Nat) : Option (Fin 4 → K) := w[o]?.bind fun a => w[o + 1]?.bind fun b => w[o + 2]?.bind fun c => w[o + 3]?.map fun d => ![a, b, c, d]

/-- findpts_el_2.c:565-595 `findpt_area` -/
def findptArea (fuel : Nat) (big tol : K) (e : El2 K) (st : ElSt2 K) (ps : List (Pt K 2)) : Option (ElSt2 K × List (Pt K 2)) :=
  (areaWork e ps st.work).bind fun w =>
  (ps.zipIdx.mapM fun pi => (vec2 w (2 * pi.2)).bind fun resid => (vec4 w (2 * ps.length + 4 * pi.2)).bind fun jac => areaPoint fuel big tol resid jac pi.1).map fun out =>
  ({ st with work := w }, out)

/-- findpts_el_2.c:626-633: what is stored for point `i` and coordinate `d`; `s` is the offset of `slice` -/
def edgeRow1 (pn s : Nat) (ps : List (Pt K 2)) (de d : Fin 2) (i : Nat) (w : List K) : Option (List K) :=
  (ps[i]?).bind fun p => (w[s + 3 * i]?).bind fun v => (store w (2 * i + d.val) [p.x d - v]).bind fun w =>
  (w[s + 3 * i + 1]?).bind fun j => (store w (2 * pn + (4 * i + 2 * d.val + de.val)) [j]).bind fun w =>
  (w[s + 3 * i + 2]?).bind fun h => (w[6 * pn + i]?).bind fun h0 => store w (6 * pn + i) [h0 + (p.x d - v) * h]

/-- findpts_el_2.c:624-634: one round of the loop over `d` -/
def edgeDim1 (e : El2 K) (pn n : Nat) (ps : List (Pt K 2)) (ei : Nat) (st : ElSt2 K) (de d : Fin 2) (w : List K) : Option (List K) :=
  (edgeXs e st ei d).bind fun x => (mtxvIn w (7 * pn + 3 * n * pn) (3 * pn) (7 * pn) x n).bind fun w => forUp 0 pn (edgeRow1 pn (7 * pn + 3 * n * pn) ps de d) w

/-- findpts_el_2.c:636-639: one round of the second loop over `d` -/
def edgeDim2 (e : El2 K) (pn n : Nat) (ei : Nat) (st : ElSt2 K) (dn d : Fin 2) (w : List K) : Option (List K) :=
  (edgeNs e st ei d).bind fun x => (mtxvIn w (7 * pn + 3 * n * pn) pn (7 * pn) x n).bind fun w =>
  forUp 0 pn (fun i w => (w[7 * pn + 3 * n * pn + i]?).bind fun v => store w (2 * pn + (4 * i + 2 * d.val + dn.val)) [v]) w

/-- findpts_el_2.c:620-639: `work` before the Newton steps -/
def edgeWork (e : El2 K) (ps : List (Pt K 2)) (ei : Nat) (st : ElSt2 K) (de dn : Fin 2) (w : List K) : Option (List K) :=
  let pn := ps.length
  let n := e.n de
  (forUp 0 pn (fun i w => (ps[i]?).bind fun p => store w (7 * pn + 3 * i * n) (e.lag de 2 (p.r de))) w).bind fun w =>
  (forUp 0 pn (fun i w => store w (6 * pn + i) [0]) w).bind fun w =>
  (edgeDim1 e pn n ps ei st de 0 w).bind fun w => (edgeDim1 e pn n ps ei st de 1 w).bind fun w =>
  (forUp 1 (pn - 1) (fun i w => cpyIn w (7 * pn + i * n) (7 * pn + 3 * i * n) n) w).bind fun w =>
  (edgeDim2 e pn n ei st dn 0 w).bind (edgeDim2 e pn n ei st dn 1)

/-- findpts_el_2.c:598-659 `findpt_edge`; `p->flags` is read, so there must be a point -/
def findptEdge (fuel : Nat) (big tol : K) (e : El2 K) (st : ElSt2 K) (ps : List (Pt K 2)) : Option (ElSt2 K × List (Pt K 2)) :=
  (ps[0]?).bind fun p0 =>
  let pflag := p0.flags &&& 0x1f
  let ei := edgeIndex2 pflag
  (dim2 (ei >>> 1)).bind fun dn => (dim2 (plus1mod2 (ei >>> 1))).bind fun de =>
  (getEdge e (ei.toNat / 2) st).bind fun st => (edgeWork e ps ei.toNat st de dn st.work).bind fun w =>
  (ps.zipIdx.mapM fun pi => (vec2 w (2 * pi.2)).bind fun resid => (vec4 w (2 * ps.length + 4 * pi.2)).bind fun jac => (w[6 * ps.length + pi.2]?).bind fun hes =>
    edgePoint fuel big tol resid jac hes de dn pflag pi.1).map fun out =>
  ({ st with work := w }, out)

/-- findpts_el_2.c:661-708 `findpt_pt` -/
def findptPt (fuel : Nat) (big tol : K) (e : El2 K) (st : ElSt2 K) (ps : List (Pt K 2)) : Option (ElSt2 K × List (Pt K 2)) :=
  (ps[0]?).bind fun p0 =>
  let pflag := p0.flags &&& 0x1f
  (getPt e st).bind fun st => st.pt.bind fun pt =>
  if h : (pointIndex2 pflag).toNat < 4 then
    let g := pt ⟨(pointIndex2 pflag).toNat, h⟩
    (ps.mapM (ptPoint fuel big tol g.x g.jac g.hes pflag)).map fun out => (st, out)
  else none

/-- findpts_el_2.c:737-738 `fun[3]` -/
def group2 (fuel : Nat) (big tol : K) (e : El2 K) (k : Nat) (st : ElSt2 K) (ps : List (Pt K 2)) : Option (ElSt2 K × List (Pt K 2)) :=
  match k with
  | 0 => findptArea fuel big tol e st ps
  | 1 => findptEdge fuel big tol e st ps
  | 2 => findptPt fuel big tol e st ps
  | _ => none

/-- findpts_el_2.c:734-796 `findpts_el_2` for the points `xs`, after `findpts_el_start_2` (findpts_el.h:51-55); `cap` is the size of `fd->p` -/
def findptsEl2 (fuel cap : Nat) (big tol : K) (e : El2 K) (xs : List (Fin 2 → K)) (st : ElSt2 K) : Option (ElSt2 K × Mem (Pt K 2)) :=
  (nodes2 (e.n 0) (e.n 1) e.z e.x).bind fun nodes => ((seed big nodes xs).mapM Prod.fst).bind fun rs =>
  driver drv2 cap xs.length big 0 1 (group2 fuel big tol e) xs rs { st with sideInit := 0 }

/-- findpts_el_2.c:798-819 `findpts_el_eval_2` at the points `rs` for the field `inp`: `work` and the values stored through `out` -/
def findptsElEval2 (e : El2 K) (inp : List K) (rs : List (Fin 2 → K)) (w : List K) : Option (List K × List K) :=
  let pn := rs.length
  let nr := e.n 0
  let ns := e.n 1
  (forUp 0 pn (fun i w => (rs[i]?).bind fun r => (store w (i * nr) (e.lag 0 0 (r 0))).bind fun w => store w (nr * pn + i * ns) (e.lag 1 0 (r 1))) w).bind fun w =>
  (mxmIn w (nr * pn + ns * pn) nr inp ns (nr * pn) pn).bind fun w =>
  ((List.range pn).mapM fun i => i1 (w.drop (i * nr)) nr (w.drop (nr * pn + ns * pn + i * nr))).map fun out => (w, out)

end Gslib.El
