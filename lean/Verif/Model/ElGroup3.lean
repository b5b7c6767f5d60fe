import Verif.Model.ElGroup2
import Verif.Model.Newton3

/-!
# The search in a 3D element: data of the sides and groups of points (findpts_el_3.c:154-465, 915-1320)

`double` is replaced by an ordered field `K`. `fd->lag[d](p, fd->lag_data[d], n, m, x)` stores `lag d m x`, a list of `(m+1)*n` values, through `p`; its own scratch space in `lag_data` is the subject of C33 and C34.
-/

namespace Gslib.El
open Gslib.Tensor Gslib.Num

variable {K : Type} [Field K] [LinearOrder K]

/-- `for(i=0;i<n;++i)` with a literal bound -/
def forFin {S : Type} (n : Nat) (f : Fin n → S → Option S) (s : S) : Option S := (List.finRange n).foldlM (fun s i => f i s) s

/-- the constant part of `struct findpts_el_data_3`, with the element `x` of `findpts_el_start_3` (findpts_el.h:110-114) -/
structure El3 (K : Type) where
  n : Fin 3 → Nat
  x : Fin 3 → List K
  z : Fin 3 → List K
  wtend : Fin 3 → List K
  lag : Fin 3 → Nat → K → List K

/-- a `const double *` of `struct findpts_el_gface_3` or `findpts_el_gedge_3`: into `sides`, or into user data -/
inductive Ptr (K : Type) where
  | sides (o : Nat)
  | user (x : List K) (o : Nat)

/-- `p+k` -/
def Ptr.add : Ptr K → Nat → Ptr K
  | .sides o, k => .sides (o + k)
  | .user x o, k => .user x (o + k)

/-- what is found from a pointer on -/
def Ptr.get (sd : List K) : Ptr K → List K
  | .sides o => sd.drop o
  | .user x o => x.drop o

/-- the part of `struct findpts_el_data_3` that changes; `faceX` are the arrays whose addresses (and addresses `+nrs*(nt-1)`) are in `face[4].x` and `face[5].x`, `edgeX d` is `edge[4*d+i].x[c]` (`none` is null), `pt` are the
30 doubles `x`, `jac`, `hes` of each of the 8 entries of `pt` -/
structure ElSt3 (K : Type) where
  sideInit : U32
  sides : List K
  work : List K
  faceX : Option (Fin 3 → List K)
  edgeX : Fin 3 → Option (Fin 4 → Fin 3 → Ptr K)
  pt : List K

/-- findpts_el_3.c:179-200 `work_size` -/
def workSize3 (nr ns nt nptMax : Nat) : Nat :=
  let n1 := if ns < nr then (if nt < nr then nr else nt) else if nt < ns then ns else nt
  let n2 := if ns < nr then (if nt < nr then (if nt < ns then ns else nt) else nr) else if nt < ns then (if nt < nr then nr else nt) else ns
  max (max (max (max ((12 + 2 * (nr + ns + nt + nr * ns)) * nptMax + (if ns < 2 * nr then 2 * nr else ns)) (2 * (nt + nr * ns))) (4 * (nr + ns * nt))) (4 * (n1 + n2))) (nptMax * (15 + 3 * (2 * n1 + n2)))

/-- findpts_el_3.c:208-211: offsets in `sides`: the faces `t = -1, 1`, the edges along direction `d` -/
def offRS (e : El3 K) : Nat := 12 * (e.n 1 * e.n 2) + 12 * (e.n 2 * e.n 0)
/-- findpts_el_3.c:208-211 (also 370-371) -/
def offE (e : El3 K) (d : Fin 3) : Nat := 6 * (e.n 0 * e.n 1) + offRS e + (if 0 < d.val then 36 * e.n 0 else 0) + (if 1 < d.val then 36 * e.n 1 else 0)
/-- findpts_el_3.c:210-211 `tot`, the size of `sides` -/
def sidesSize3 (e : El3 K) : Nat := 6 * (e.n 0 * e.n 1) + offRS e + 36 * e.n 0 + 36 * e.n 1 + 36 * e.n 2

/-- `face[fi].x[c]` (findpts_el_3.c:248-261, 304-305) -/
def faceX (e : El3 K) (st : ElSt3 K) (fi : Nat) (c : Fin 3) : Option (Ptr K) :=
  match fi with
  | 0 => some (.sides (c.val * (e.n 1 * e.n 2)))
  | 1 => some (.sides ((6 + c.val) * (e.n 1 * e.n 2)))
  | 2 => some (.sides (12 * (e.n 1 * e.n 2) + c.val * (e.n 2 * e.n 0)))
  | 3 => some (.sides (12 * (e.n 1 * e.n 2) + (6 + c.val) * (e.n 2 * e.n 0)))
  | 4 => st.faceX.map fun x => .user (x c) 0
  | 5 => st.faceX.map fun x => .user (x c) (e.n 0 * e.n 1 * (e.n 2 - 1))
  | _ => none

/-- `face[fi].dxdn[c]`, an offset in `sides` (findpts_el_3.c:248-261) -/
def faceN (e : El3 K) (fi : Nat) (c : Fin 3) : Option Nat :=
  match fi with
  | 0 => some ((3 + c.val) * (e.n 1 * e.n 2))
  | 1 => some ((9 + c.val) * (e.n 1 * e.n 2))
  | 2 => some (12 * (e.n 1 * e.n 2) + (3 + c.val) * (e.n 2 * e.n 0))
  | 3 => some (12 * (e.n 1 * e.n 2) + (9 + c.val) * (e.n 2 * e.n 0))
  | 4 => some (offRS e + c.val * (e.n 0 * e.n 1))
  | 5 => some (offRS e + (3 + c.val) * (e.n 0 * e.n 1))
  | _ => none

/-- findpts_el_3.c:263-281 `edge[4*d+i].dxdn1[c]` (`k=0`), `d2xdn1[c]` (`k=1`), `d2xdn2[c]` (`k=2`): an offset in `sides` -/
def edgeD (e : El3 K) (d : Fin 3) (i k : Nat) (c : Fin 3) : Nat := offE e d + (9 * i + 3 * k + c.val) * e.n d

/-- findpts_el_3.c:263-267 `edge[4*d+i].dxdn2[c]`: an offset in `sides` -/
def edgeN2 (e : El3 K) (d : Fin 3) (i : Nat) (c : Fin 3) : Option Nat :=
  (dim3 (plus1mod3 (BitVec.ofNat 32 d.val))).bind fun dn1 =>
  (faceN e (2 * (plus2mod3 (BitVec.ofNat 32 d.val)).toNat + i / 2) c).map fun o => if i % 2 = 0 then o else o + (e.n d * e.n dn1 - e.n d)

/-- findpts_el_3.c:301-303: one round of the loop over `d`; the state is (`work`, `sides`) -/
def faceRSd (e : El3 K) (c : Fin 3) (s : List K × List K) : Option (List K × List K) :=
  (mxmIn s.1 (2 * e.n 2) (e.n 0 * e.n 1) (e.x c) (e.n 2) 0 2).bind fun w =>
  (cpy s.2 (offRS e + c.val * (e.n 0 * e.n 1)) w (2 * e.n 2) (e.n 0 * e.n 1)).bind fun sd =>
  (cpy sd (offRS e + (3 + c.val) * (e.n 0 * e.n 1)) w (2 * e.n 2 + e.n 0 * e.n 1) (e.n 0 * e.n 1)).map fun sd => (w, sd)

/-- findpts_el_3.c:292-307 `compute_face_data_rs` -/
def faceDataRS (e : El3 K) (st : ElSt3 K) : Option (ElSt3 K) :=
  (cpy st.work 0 (e.wtend 2) (e.n 2) (e.n 2)).bind fun w => (cpy w (e.n 2) (e.wtend 2) (4 * e.n 2) (e.n 2)).bind fun w =>
  (forFin 3 (faceRSd e) (w, st.sides)).map fun s => { st with work := s.1, sides := s.2, faceX := some e.x }

/-- findpts_el_3.c:317-323: one round of the loop over `i`; the state is (`work`, `sides`) -/
def faceSTd (e : El3 K) (c : Fin 3) (s : List K × List K) : Option (List K × List K) :=
  (mtxmIn s.1 (4 * e.n 0) (e.n 1 * e.n 2) (e.x c) (e.n 0) 0 4).bind fun w =>
  (cpy s.2 (c.val * (e.n 1 * e.n 2)) w (4 * e.n 0) (e.n 1 * e.n 2)).bind fun sd =>
  (cpy sd ((3 + c.val) * (e.n 1 * e.n 2)) w (4 * e.n 0 + e.n 1 * e.n 2) (e.n 1 * e.n 2)).bind fun sd =>
  (cpy sd ((6 + c.val) * (e.n 1 * e.n 2)) w (4 * e.n 0 + 2 * (e.n 1 * e.n 2)) (e.n 1 * e.n 2)).bind fun sd =>
  (cpy sd ((9 + c.val) * (e.n 1 * e.n 2)) w (4 * e.n 0 + 3 * (e.n 1 * e.n 2)) (e.n 1 * e.n 2)).map fun sd => (w, sd)

/-- findpts_el_3.c:310-324 `compute_face_data_st` -/
def faceDataST (e : El3 K) (st : ElSt3 K) : Option (ElSt3 K) :=
  (cpy st.work 0 (e.wtend 0) 0 (2 * e.n 0)).bind fun w => (cpy w (2 * e.n 0) (e.wtend 0) (3 * e.n 0) (2 * e.n 0)).bind fun w =>
  (forFin 3 (faceSTd e) (w, st.sides)).map fun s => { st with work := s.1, sides := s.2 }

/-- findpts_el_3.c:339-342: `for(outk=out+o,i=0;i<nr;++i,outk+=nt) *outk=*in++`, with `in` at offset `s` of `w` -/
def spread (w : List K) (s nr o nt : Nat) (sd : List K) : Option (List K) := forUp 0 nr (fun i sd => (w[s + i]?).bind fun v => store sd (o + i * nt) [v]) sd

/-- findpts_el_3.c:336-343: one round of the loop over `k`; the state is (`work`, `sides`) -/
def faceTRk (e : El3 K) (c : Fin 3) (k : Nat) (s : List K × List K) : Option (List K × List K) :=
  let out := 12 * (e.n 1 * e.n 2)
  let ntr := e.n 2 * e.n 0
  (mxmIn s.1 (4 * e.n 1) (e.n 0) ((e.x c).drop (k * (e.n 0 * e.n 1))) (e.n 1) 0 4).bind fun w =>
  (spread w (4 * e.n 1) (e.n 0) (out + c.val * ntr + k) (e.n 2) s.2).bind fun sd =>
  (spread w (4 * e.n 1 + e.n 0) (e.n 0) (out + (3 + c.val) * ntr + k) (e.n 2) sd).bind fun sd =>
  (spread w (4 * e.n 1 + 2 * e.n 0) (e.n 0) (out + (6 + c.val) * ntr + k) (e.n 2) sd).bind fun sd =>
  (spread w (4 * e.n 1 + 3 * e.n 0) (e.n 0) (out + (9 + c.val) * ntr + k) (e.n 2) sd).map fun sd => (w, sd)

/-- findpts_el_3.c:327-345 `compute_face_data_tr` -/
def faceDataTR (e : El3 K) (st : ElSt3 K) : Option (ElSt3 K) :=
  (cpy st.work 0 (e.wtend 1) 0 (2 * e.n 1)).bind fun w => (cpy w (2 * e.n 1) (e.wtend 1) (3 * e.n 1) (2 * e.n 1)).bind fun w =>
  (forFin 3 (fun c => forUp 0 (e.n 2) (faceTRk e c)) (w, st.sides)).map fun s => { st with work := s.1, sides := s.2 }

/-- findpts_el_3.c:347-361 `get_face` without the pointer it returns; `k` is `fi/2` -/
def getFace (e : El3 K) (k : Nat) (st : ElSt3 K) : Option (ElSt3 K) :=
  if st.sideInit &&& ((1 : U32) <<< k) = 0 then
    (if k = 0 then faceDataST e st else if k = 1 then faceDataTR e st else if k = 2 then faceDataRS e st else none).map fun st => { st with sideInit := st.sideInit ||| ((1 : U32) <<< k) }
  else some st

/-- findpts_el_3.c:385-391: one round of the loop over `i` and `xd`; `st` holds the pointers, the state is (`work`, `sides`) -/
def edgeN1d (e : El3 K) (st : ElSt3 K) (d dn1 dn2 : Fin 3) (i : Fin 2) (c : Fin 3) (s : List K × List K) : Option (List K × List K) :=
  (faceX e st (2 * dn2.val + i.val) c).bind fun p =>
  (mxmIn s.1 (4 * e.n dn1) (e.n d) (p.get s.2) (e.n dn1) 0 4).bind fun w =>
  (cpy s.2 (edgeD e d (2 * i.val) 0 c) w (4 * e.n dn1) (e.n d)).bind fun sd =>
  (cpy sd (edgeD e d (2 * i.val) 1 c) w (4 * e.n dn1 + e.n d) (e.n d)).bind fun sd =>
  (cpy sd (edgeD e d (2 * i.val + 1) 0 c) w (4 * e.n dn1 + 2 * e.n d) (e.n d)).bind fun sd =>
  (cpy sd (edgeD e d (2 * i.val + 1) 1 c) w (4 * e.n dn1 + 3 * e.n d) (e.n d)).map fun sd => (w, sd)

/-- findpts_el_3.c:394-398: one round of the second loop over `i` and `xd` -/
def edgeN2d (e : El3 K) (st : ElSt3 K) (d dn1 dn2 : Fin 3) (i : Fin 2) (c : Fin 3) (s : List K × List K) : Option (List K × List K) :=
  (faceX e st (2 * dn1.val + i.val) c).bind fun p =>
  (mtxmIn s.1 (2 * e.n dn2) (e.n d) (p.get s.2) (e.n dn2) 0 2).bind fun w =>
  (cpy s.2 (edgeD e d i.val 2 c) w (2 * e.n dn2) (e.n d)).bind fun sd =>
  (cpy sd (edgeD e d (2 + i.val) 2 c) w (2 * e.n dn2 + e.n d) (e.n d)).map fun sd => (w, sd)

/-- a function on `Fin n`, when all of its values exist -/
def allFin {A : Type} : (n : Nat) → (Fin n → Option A) → Option (Fin n → A)
  | 0, _ => some fun i => i.elim0
  | n + 1, f => (f 0).bind fun a => (allFin n fun i => f i.succ).map fun g => Fin.cons a g

/-- findpts_el_3.c:380-382: `edge[4*d+i].x[c]` -/
def edgePtrs (e : El3 K) (st : ElSt3 K) (d dn1 dn2 : Fin 3) : Option (Fin 4 → Fin 3 → Ptr K) :=
  allFin 4 fun i => allFin 3 fun c => (faceX e st (2 * dn2.val + i.val / 2) c).map fun p => if i.val % 2 = 0 then p else p.add (e.n d * (e.n dn1 - 1))

/-- findpts_el_3.c:364-402 `compute_edge_data` -/
def edgeData (e : El3 K) (d : Fin 3) (st : ElSt3 K) : Option (ElSt3 K) :=
  (dim3 (plus1mod3 (BitVec.ofNat 32 d.val))).bind fun dn1 => (dim3 (plus2mod3 (BitVec.ofNat 32 d.val))).bind fun dn2 =>
  (getFace e dn2.val st).bind fun st => (getFace e dn1.val st).bind fun st =>
  (edgePtrs e st d dn1 dn2).bind fun px =>
  (cpy st.work 0 (e.wtend dn1) (e.n dn1) (2 * e.n dn1)).bind fun w => (cpy w (2 * e.n dn1) (e.wtend dn1) (4 * e.n dn1) (2 * e.n dn1)).bind fun w =>
  (forFin 2 (fun i => forFin 3 (edgeN1d e st d dn1 dn2 i)) (w, st.sides)).bind fun s =>
  (cpy s.1 0 (e.wtend dn2) (2 * e.n dn2) (e.n dn2)).bind fun w => (cpy w (e.n dn2) (e.wtend dn2) (5 * e.n dn2) (e.n dn2)).bind fun w =>
  (forFin 2 (fun i => forFin 3 (edgeN2d e st d dn1 dn2 i)) (w, s.2)).map fun s =>
  { st with work := s.1, sides := s.2, edgeX := fun d' => if d' = d then some px else st.edgeX d' }

/-- findpts_el_3.c:404-411 `get_edge` without the pointer it returns; `d` is `ei/4` -/
def getEdge3 (e : El3 K) (d : Fin 3) (st : ElSt3 K) : Option (ElSt3 K) :=
  if st.sideInit &&& ((8 : U32) <<< d.val) = 0 then (edgeData e d st).map fun st => { st with sideInit := st.sideInit ||| ((8 : U32) <<< d.val) } else some st

/-- findpts_el_3.c:155 `struct findpts_el_gpt_3`: `pt[q].x[c]` -/
def ptX (q : Nat) (c : Fin 3) : Nat := 30 * q + c.val
/-- `pt[q].jac[3*c+j]` -/
def ptJ (q : Nat) (c : Fin 3) (j : Nat) : Nat := 30 * q + 3 + (3 * c.val + j)
/-- `pt[q].hes[6*c+k]` -/
def ptH (q : Nat) (c : Fin 3) (k : Nat) : Nat := 30 * q + 12 + (6 * c.val + k)

/-- `pt[...] = l[j]` -/
def put (a : Nat) (l : List K) (j : Nat) (pt : List K) : Option (List K) := (l[j]?).bind fun v => store pt a [v]

/-- findpts_el_3.c:420-430: one round of the first loop over `i` and `d` -/
def ptCopy (e : El3 K) (sd : List K) (px : Fin 4 → Fin 3 → Ptr K) (i : Fin 4) (c : Fin 3) (pt : List K) : Option (List K) :=
  (edgeN2 e 0 i.val c).bind fun n2 =>
  let x := (px i c).get sd
  let x1 := sd.drop (edgeD e 0 i.val 0 c)
  let x2 := sd.drop n2
  let x11 := sd.drop (edgeD e 0 i.val 1 c)
  let x22 := sd.drop (edgeD e 0 i.val 2 c)
  (put (ptX (2 * i.val) c) x 0 pt).bind fun pt => (put (ptJ (2 * i.val) c 1) x1 0 pt).bind fun pt => (put (ptJ (2 * i.val) c 2) x2 0 pt).bind fun pt =>
  (put (ptH (2 * i.val) c 3) x11 0 pt).bind fun pt => (put (ptH (2 * i.val) c 5) x22 0 pt).bind fun pt =>
  (put (ptX (2 * i.val + 1) c) x (e.n 0 - 1) pt).bind fun pt => (put (ptJ (2 * i.val + 1) c 1) x1 (e.n 0 - 1) pt).bind fun pt => (put (ptJ (2 * i.val + 1) c 2) x2 (e.n 0 - 1) pt).bind fun pt =>
  (put (ptH (2 * i.val + 1) c 3) x11 (e.n 0 - 1) pt).bind fun pt => put (ptH (2 * i.val + 1) c 5) x22 (e.n 0 - 1) pt

/-- findpts_el_3.c:433-439: one round of the second loop; the state is (`work`, `pt`) -/
def ptR (e : El3 K) (sd : List K) (px : Fin 4 → Fin 3 → Ptr K) (i : Fin 4) (c : Fin 3) (s : List K × List K) : Option (List K × List K) :=
  (mtxvIn s.1 (4 * e.n 0) 4 0 ((px i c).get sd) (e.n 0)).bind fun w =>
  (put (ptJ (2 * i.val) c 0) w (4 * e.n 0) s.2).bind fun pt => (put (ptH (2 * i.val) c 0) w (4 * e.n 0 + 1) pt).bind fun pt =>
  (put (ptJ (2 * i.val + 1) c 0) w (4 * e.n 0 + 2) pt).bind fun pt => (put (ptH (2 * i.val + 1) c 0) w (4 * e.n 0 + 3) pt).map fun pt => (w, pt)

/-- findpts_el_3.c:441-448: one round of the third loop -/
def ptRN (e : El3 K) (sd : List K) (i : Fin 4) (c : Fin 3) (s : List K × List K) : Option (List K × List K) :=
  (edgeN2 e 0 i.val c).bind fun n2 =>
  (mtxvIn s.1 (2 * e.n 0) 2 0 (sd.drop (edgeD e 0 i.val 0 c)) (e.n 0)).bind fun w =>
  (put (ptH (2 * i.val) c 1) w (2 * e.n 0) s.2).bind fun pt => (put (ptH (2 * i.val + 1) c 1) w (2 * e.n 0 + 1) pt).bind fun pt =>
  (mtxvIn w (2 * e.n 0) 2 0 (sd.drop n2) (e.n 0)).bind fun w =>
  (put (ptH (2 * i.val) c 2) w (2 * e.n 0) pt).bind fun pt => (put (ptH (2 * i.val + 1) c 2) w (2 * e.n 0 + 1) pt).map fun pt => (w, pt)

/-- findpts_el_3.c:452-456: one round of the last loop -/
def ptT (e : El3 K) (sd : List K) (i : Fin 4) (c : Fin 3) (s : List K × List K) : Option (List K × List K) :=
  (edgeN2 e 2 i.val c).bind fun n2 =>
  (mtxvIn s.1 (2 * e.n 2) 2 0 (sd.drop n2) (e.n 2)).bind fun w =>
  (put (ptH i.val c 4) w (2 * e.n 2) s.2).bind fun pt => (put (ptH (4 + i.val) c 4) w (2 * e.n 2 + 1) pt).map fun pt => (w, pt)

/-- findpts_el_3.c:414-457 `compute_pt_data` -/
def ptData3 (e : El3 K) (st : ElSt3 K) : Option (ElSt3 K) :=
  (getEdge3 e 0 st).bind fun st => (st.edgeX 0).bind fun px =>
  (forFin 4 (fun i => forFin 3 (ptCopy e st.sides px i)) st.pt).bind fun pt =>
  (cpy st.work 0 (e.wtend 0) (e.n 0) (2 * e.n 0)).bind fun w => (cpy w (2 * e.n 0) (e.wtend 0) (4 * e.n 0) (2 * e.n 0)).bind fun w =>
  (forFin 4 (fun i => forFin 3 (ptR e st.sides px i)) (w, pt)).bind fun s =>
  (cpyIn s.1 (e.n 0) (2 * e.n 0) (e.n 0)).bind fun w =>
  (forFin 4 (fun i => forFin 3 (ptRN e st.sides i)) (w, s.2)).bind fun s =>
  (getEdge3 e 2 { st with work := s.1, pt := s.2 }).bind fun st =>
  (cpy st.work 0 (e.wtend 2) (e.n 2) (e.n 2)).bind fun w => (cpy w (e.n 2) (e.wtend 2) (4 * e.n 2) (e.n 2)).bind fun w =>
  (forFin 4 (fun i => forFin 3 (ptT e st.sides i)) (w, st.pt)).map fun s => { st with work := s.1, pt := s.2 }

/-- findpts_el_3.c:459-465 `get_pt` without the pointer it returns -/
def getPt3 (e : El3 K) (st : ElSt3 K) : Option (ElSt3 K) :=
  if st.sideInit &&& 0x40 = 0 then (ptData3 e st).map fun st => { st with sideInit := st.sideInit ||| 0x40 } else some st

/-- findpts_el_3.c:941-948: what is stored for point `i` and coordinate `d`; `s` and `t` are the offsets of `slice` and `temp` (what `tensor_ig2` and `tensor_i2` leave in `temp`, which nothing else reads, is left out) -/
def volRow (e : El3 K) (pn s t : Nat) (ps : List (Pt K 3)) (d : Fin 3) (i : Nat) (w : List K) : Option (List K) :=
  let wr := 12 * pn + 2 * i * (e.n 0 + e.n 1)
  let sl := s + 2 * i * (e.n 0 * e.n 1)
  (ps[i]?).bind fun p => (ig2 (w.drop wr) (e.n 0) (w.drop (wr + 2 * e.n 0)) (e.n 1) (w.drop sl) (w.drop t)).bind fun vg => (store w (3 * pn + (9 * i + 3 * d.val)) vg.2).bind fun w =>
  (store w (3 * i + d.val) [p.x d - vg.1]).bind fun w =>
  (i2 (w.drop wr) (e.n 0) (w.drop (wr + 2 * e.n 0)) (e.n 1) (w.drop (sl + e.n 0 * e.n 1)) (w.drop t)).bind fun g => store w (3 * pn + (9 * i + 3 * d.val) + 2) [g]

/-- findpts_el_3.c:939-949: one round of the loop over `d` -/
def volDim (e : El3 K) (pn : Nat) (ps : List (Pt K 3)) (d : Fin 3) (w : List K) : Option (List K) :=
  let wt := 12 * pn + 2 * (e.n 0 + e.n 1) * pn
  let s := wt + 2 * e.n 2 * pn
  (mxmIn w s (e.n 0 * e.n 1) (e.x d) (e.n 2) wt (2 * pn)).bind fun w => forUp 0 pn (volRow e pn s (s + 2 * pn * (e.n 0 * e.n 1)) ps d) w

/-- findpts_el_3.c:932-949: `work` before the Newton steps -/
def volWork (e : El3 K) (ps : List (Pt K 3)) (w : List K) : Option (List K) :=
  let pn := ps.length
  (forUp 0 pn (fun i w => (ps[i]?).bind fun p => store w (12 * pn + 2 * i * (e.n 0 + e.n 1)) (e.lag 0 1 (p.r 0))) w).bind fun w =>
  (forUp 0 pn (fun i w => (ps[i]?).bind fun p => store w (12 * pn + 2 * i * (e.n 0 + e.n 1) + 2 * e.n 0) (e.lag 1 1 (p.r 1))) w).bind fun w =>
  (forUp 0 pn (fun i w => (ps[i]?).bind fun p => store w (12 * pn + 2 * (e.n 0 + e.n 1) * pn + 2 * i * e.n 2) (e.lag 2 1 (p.r 2))) w).bind fun w =>
  forFin 3 (volDim e pn ps) w

/-- `w[o]` ... `w[o+n-1]` -/
def vecN (n : Nat) (w : List K) (o : Nat) : Option (Fin n → K) := allFin n fun i => w[o + i.val]?

/-- `w[o+3*d+j]` -/
def mat3 (w : List K) (o : Nat) : Option (Fin 3 → Fin 3 → K) := allFin 3 fun d => vecN 3 w (o + 3 * d.val)

/-- findpts_el_3.c:921-955 `findpt_vol` -/
def findptVol (fuel : Nat) (big tol : K) (e : El3 K) (st : ElSt3 K) (ps : List (Pt K 3)) : Option (ElSt3 K × List (Pt K 3)) :=
  (volWork e ps st.work).bind fun w =>
  (ps.zipIdx.mapM fun pi => (vecN 3 w (3 * pi.2)).bind fun resid => (mat3 w (3 * ps.length + 9 * pi.2)).bind fun jac => volPoint fuel big tol resid jac pi.1).map fun out =>
  ({ st with work := w }, out)

/-- `w[a] += v` -/
def addTo (w : List K) (a : Nat) (v : K) : Option (List K) := (w[a]?).bind fun h => store w a [h + v]

/-- findpts_el_3.c:989-1000: what is stored for point `i` and coordinate `d`; `s` is the offset of `slice` -/
def faceRow1 (pn n1 s : Nat) (ps : List (Pt K 3)) (d1 d2 d : Fin 3) (i : Nat) (w : List K) : Option (List K) :=
  (ps[i]?).bind fun p => (mtxm 3 (w.drop (15 * pn + 3 * i * n1)) n1 (w.drop (s + 3 * i * n1)) 3).bind fun v =>
  (v[0]?).bind fun v0 => (store w (3 * i + d.val) [p.x d - v0]).bind fun w =>
  (v[1]?).bind fun v1 => (store w (3 * pn + (9 * i + 3 * d.val + d1.val)) [v1]).bind fun w =>
  (v[3]?).bind fun v3 => (store w (3 * pn + (9 * i + 3 * d.val + d2.val)) [v3]).bind fun w =>
  (v[2]?).bind fun v2 => (addTo w (12 * pn + 3 * i) ((p.x d - v0) * v2)).bind fun w =>
  (v[4]?).bind fun v4 => (addTo w (12 * pn + 3 * i + 1) ((p.x d - v0) * v4)).bind fun w =>
  (v[6]?).bind fun v6 => addTo w (12 * pn + 3 * i + 2) ((p.x d - v0) * v6)

/-- findpts_el_3.c:987-1001: one round of the loop over `d`; `x` is `face->x` -/
def faceDim1 (pn n1 n2 : Nat) (ps : List (Pt K 3)) (x : Fin 3 → List K) (d1 d2 d : Fin 3) (w : List K) : Option (List K) :=
  let s := 15 * pn + 3 * n1 * pn + 3 * n2 * pn
  (mxmIn w s n1 (x d) n2 (15 * pn + 3 * n1 * pn) (3 * pn)).bind fun w => forUp 0 pn (faceRow1 pn n1 s ps d1 d2 d) w

/-- findpts_el_3.c:1003-1007: one round of the second loop over `d`; `x` is `face->dxdn` -/
def faceDim2 (pn n1 n2 : Nat) (x : Fin 3 → List K) (dn d : Fin 3) (w : List K) : Option (List K) :=
  let s := 15 * pn + 3 * n1 * pn + 3 * n2 * pn
  (mxmIn w s n1 (x d) n2 (15 * pn + 3 * n1 * pn) pn).bind fun w =>
  forUp 0 pn (fun i w => (dot (w.drop (15 * pn + 3 * i * n1)) (w.drop (s + i * n1)) n1).bind fun v => store w (3 * pn + (9 * i + 3 * d.val + dn.val)) [v]) w

/-- findpts_el_3.c:982-1007: `work` before the Newton steps -/
def faceWork (e : El3 K) (ps : List (Pt K 3)) (x xn : Fin 3 → List K) (dn d1 d2 : Fin 3) (w : List K) : Option (List K) :=
  let pn := ps.length
  let n1 := e.n d1
  let n2 := e.n d2
  (forUp 0 pn (fun i w => (ps[i]?).bind fun p => store w (15 * pn + 3 * i * n1) (e.lag d1 2 (p.r d1))) w).bind fun w =>
  (forUp 0 pn (fun i w => (ps[i]?).bind fun p => store w (15 * pn + 3 * n1 * pn + 3 * i * n2) (e.lag d2 2 (p.r d2))) w).bind fun w =>
  (forUp 0 (3 * pn) (fun i w => store w (12 * pn + i) [0]) w).bind fun w =>
  (forFin 3 (faceDim1 pn n1 n2 ps x d1 d2) w).bind fun w =>
  (forUp 1 (pn - 1) (fun i w => cpyIn w (15 * pn + 3 * n1 * pn + i * n2) (15 * pn + 3 * n1 * pn + 3 * i * n2) n2) w).bind fun w =>
  forFin 3 (faceDim2 pn n1 n2 xn dn) w

/-- findpts_el_3.c:958-1031 `findpt_face`; `p->flags` is read, so there must be a point -/
def findptFace (fuel : Nat) (big tol : K) (e : El3 K) (st : ElSt3 K) (ps : List (Pt K 3)) : Option (ElSt3 K × List (Pt K 3)) :=
  (ps[0]?).bind fun p0 =>
  let pflag := p0.flags &&& 0x7f
  let fi := faceIndex3 pflag
  (dim3 (fi >>> 1)).bind fun dn => (dim3 (plus1mod3 (fi >>> 1))).bind fun d1 => (dim3 (plus2mod3 (fi >>> 1))).bind fun d2 =>
  (getFace e (fi.toNat / 2) st).bind fun st =>
  (allFin 3 fun c => (faceX e st fi.toNat c).map (Ptr.get st.sides)).bind fun x => (allFin 3 fun c => (faceN e fi.toNat c).map fun o => st.sides.drop o).bind fun xn =>
  (faceWork e ps x xn dn d1 d2 st.work).bind fun w =>
  (ps.zipIdx.mapM fun pi => (vecN 3 w (3 * pi.2)).bind fun resid => (mat3 w (3 * ps.length + 9 * pi.2)).bind fun jac => (vecN 3 w (12 * ps.length + 3 * pi.2)).bind fun hes =>
    facePoint fuel big tol resid jac hes dn d1 d2 pflag pi.1).map fun out =>
  ({ st with work := w }, out)

/-- the local arrays of `findpt_edge` -/
structure EdgeLoc (K : Type) where
  resid : Fin 3 → K
  jac : Fin 3 → Fin 3 → K
  hes : Fin 5 → K

/-- `f[i] = v` -/
def setFin {A : Type} {n : Nat} (f : Fin n → A) (i : Fin n) (v : A) : Fin n → A := fun j => if j = i then v else f j

/-- findpts_el_3.c:1060-1074: one round of the loop over `d`; `wt` is at the start of `w`; the lists are `x`, `dxdn1`, `dxdn2`, `d2xdn1`, `d2xdn2` of the edge for coordinate `d` -/
def edgeLocD (w : List K) (n : Nat) (x x1 x2 x11 x22 : List K) (p : Pt K 3) (de dn1 dn2 d : Fin 3) (s : EdgeLoc K) : Option (EdgeLoc K) :=
  (mtxv 3 w x n).bind fun a => (vecN 3 a 0).bind fun a =>
  let r := p.x d - a 0
  (mtxv 2 w x1 n).bind fun b => (vecN 2 b 0).bind fun b =>
  (mtxv 2 w x2 n).bind fun c => (vecN 2 c 0).bind fun c =>
  (dot w x11 n).bind fun g => (dot w x22 n).map fun h =>
  ⟨setFin s.resid d r, setFin s.jac d (setFin (setFin (setFin (s.jac d) de (a 1)) dn1 (b 0)) dn2 (c 0)),
    ![s.hes 0 + r * a 2, s.hes 1 + r * b 1, s.hes 2 + r * c 1, s.hes 3 + r * g, s.hes 4 + r * h]⟩

/-- findpts_el_3.c:1055-1112: one round of the loop over the points; the state is `work`. The first contents of `resid` and `jac` do not matter -/
def edgeOne (fuel : Nat) (big tol : K) (e : El3 K) (x x1 x2 x11 x22 : Fin 3 → List K) (de dn1 dn2 : Fin 3) (pflag : U32) (p : Pt K 3) (w : List K) : Option (List K × Pt K 3) :=
  (store w 0 (e.lag de 2 (p.r de))).bind fun w =>
  (forFin 3 (fun d => edgeLocD w (e.n de) (x d) (x1 d) (x2 d) (x11 d) (x22 d) p de dn1 dn2 d) ⟨0, 0, 0⟩).bind fun s =>
  (edgePoint3 fuel big tol s.resid s.jac s.hes de dn1 dn2 pflag p).map fun out => (w, out)

/-- findpts_el_3.c:1055: the loop over the points -/
def edgeMany (f : Pt K 3 → List K → Option (List K × Pt K 3)) : List (Pt K 3) → List K → Option (List K × List (Pt K 3))
  | [], w => some (w, [])
  | p :: ps, w => (f p w).bind fun s => (edgeMany f ps s.1).map fun t => (t.1, s.2 :: t.2)

/-- findpts_el_3.c:1034-1113 `findpt_edge`; `p->flags` is read, so there must be a point -/
def findptEdge3 (fuel : Nat) (big tol : K) (e : El3 K) (st : ElSt3 K) (ps : List (Pt K 3)) : Option (ElSt3 K × List (Pt K 3)) :=
  (ps[0]?).bind fun p0 =>
  let pflag := p0.flags &&& 0x7f
  let ei := edgeIndex3 pflag
  (dim3 (ei >>> 2)).bind fun de => (dim3 (plus1mod3 (ei >>> 2))).bind fun dn1 => (dim3 (plus2mod3 (ei >>> 2))).bind fun dn2 =>
  (getEdge3 e de st).bind fun st => (st.edgeX de).bind fun px =>
  (allFin 3 fun c => (edgeN2 e de (ei.toNat % 4) c).map fun o => st.sides.drop o).bind fun x2 =>
  (edgeMany (edgeOne fuel big tol e (fun c => (px (Fin.ofNat 4 (ei.toNat % 4)) c).get st.sides) (fun c => st.sides.drop (edgeD e de (ei.toNat % 4) 0 c)) x2 (fun c => st.sides.drop (edgeD e de (ei.toNat % 4) 1 c))
    (fun c => st.sides.drop (edgeD e de (ei.toNat % 4) 2 c)) de dn1 dn2 pflag) ps st.work).map fun s => ({ st with work := s.1 }, s.2)

/-- findpts_el_3.c:1115-1182 `findpt_pt`; `p->flags` is read, so there must be a point -/
def findptPt3 (fuel : Nat) (big tol : K) (e : El3 K) (st : ElSt3 K) (ps : List (Pt K 3)) : Option (ElSt3 K × List (Pt K 3)) :=
  (ps[0]?).bind fun p0 =>
  let pflag := p0.flags &&& 0x7f
  (getPt3 e st).bind fun st =>
  let q := 30 * (pointIndex3 pflag).toNat
  (vecN 3 st.pt q).bind fun x => (mat3 st.pt (q + 3)).bind fun jac => (allFin 3 fun d => vecN 6 st.pt (q + 12 + 6 * d.val)).bind fun hes =>
  (ps.mapM (ptPoint3 fuel big tol x jac hes pflag)).map fun out => (st, out)

/-- findpts_el_3.c:1214-1215 `fun[4]` -/
def group3 (fuel : Nat) (big tol : K) (e : El3 K) (k : Nat) (st : ElSt3 K) (ps : List (Pt K 3)) : Option (ElSt3 K × List (Pt K 3)) :=
  match k with
  | 0 => findptVol fuel big tol e st ps
  | 1 => findptFace fuel big tol e st ps
  | 2 => findptEdge3 fuel big tol e st ps
  | 3 => findptPt3 fuel big tol e st ps
  | _ => none

/-- findpts_el_3.c:1211-1292 `findpts_el_3` for the points `xs`, after `findpts_el_start_3` (findpts_el.h:110-114); `cap` is the size of `fd->p` -/
def findptsEl3 (fuel cap : Nat) (big tol : K) (e : El3 K) (xs : List (Fin 3 → K)) (st : ElSt3 K) : Option (ElSt3 K × Mem (Pt K 3)) :=
  (nodes3 (e.n 0) (e.n 1) (e.n 2) e.z e.x).bind fun nodes => ((seed big nodes xs).mapM Prod.fst).bind fun rs =>
  driver drv3 cap xs.length big 0 1 (group3 fuel big tol e) xs rs { st with sideInit := 0 }

/-- findpts_el_3.c:1304-1309: the weights of point `i` -/
def evalWts3 (e : El3 K) (rs : List (Fin 3 → K)) (i : Nat) (w : List K) : Option (List K) :=
  (rs[i]?).bind fun r => (store w (i * (e.n 0 + e.n 1)) (e.lag 0 0 (r 0))).bind fun w => (store w (i * (e.n 0 + e.n 1) + e.n 0) (e.lag 1 0 (r 1))).bind fun w =>
  store w ((e.n 0 + e.n 1) * rs.length + i * e.n 2) (e.lag 2 0 (r 2))

/-- findpts_el_3.c:1294-1318 `findpts_el_eval_3` at the points `rs` for the field `inp`: `work` (without what `tensor_i2` leaves in `temp`) and the values stored through `out` -/
def findptsElEval3 (e : El3 K) (inp : List K) (rs : List (Fin 3 → K)) (w : List K) : Option (List K × List K) :=
  let pn := rs.length
  let wt := (e.n 0 + e.n 1) * pn
  let s := wt + e.n 2 * pn
  let t := s + pn * (e.n 0 * e.n 1)
  (forUp 0 pn (evalWts3 e rs) w).bind fun w => (mxmIn w s (e.n 0 * e.n 1) inp (e.n 2) wt pn).bind fun w =>
  ((List.range pn).mapM fun i => i2 (w.drop (i * (e.n 0 + e.n 1))) (e.n 0) (w.drop (i * (e.n 0 + e.n 1) + e.n 0)) (e.n 1) (w.drop (s + i * (e.n 0 * e.n 1))) (w.drop t)).map fun out => (w, out)

end Gslib.El
