import Verif.Model.ElFlags
import Verif.Model.NumMem
import Mathlib.Data.Fin.VecNotation
import Mathlib.Algebra.BigOperators.Fin
import Mathlib.Algebra.Ring.Defs

/-!
# The driver of the point search inside an element (findpts_el_2.c:710-796, findpts_el_3.c:1184-1292)

`findpts_el_2` and `findpts_el_3` have the same text up to the dimension `D` and the flag functions, which are parameters (`Drv`). No arithmetic on coordinates is done here. `fd->p` is one array
of `cap` points; `pbuf` is at offset 0 and `pstart` at offset `npt`. The functions `findpt_area`, ... that advance a group of points are a parameter `f`; `F` is the part of `fd` they use and update.
Counters are natural numbers (`unsigned` in C, bounded by `npt`).
-/

namespace Gslib.El
open Gslib.Num

/-- findpts_el_2.c:39-42 `struct findpts_el_pt_2`, findpts_el_3.c:59-62 `struct findpts_el_pt_3`; `oldr` is `none` while uninitialised -/
structure Pt (K : Type) (D : Nat) where
  x : Fin D → K
  r : Fin D → K
  oldr : Option (Fin D → K)
  dist2 : K
  dist2p : K
  tr : K
  index : Nat
  flags : U32

/-- what differs between 2D and 3D: number of bins, `FLAG_MASK`, `pt_flags_to_bin_noC`, `pt_flags_to_bin`, `num_constrained` -/
structure Drv where
  nb : Nat
  mask : U32
  noC : U32 → U32
  bin : U32 → U32
  num : U32 → U32

/-- findpts_el_2.c:52-72 -/
def drv2 : Drv := ⟨9, 0x1f, binNoC2, bin2, numConstrained2⟩

/-- findpts_el_3.c:72-92 -/
def drv3 : Drv := ⟨27, 0x7f, binNoC3, bin3, numConstrained3⟩

variable {K F A : Type} {D : Nat}

/-- `n` entries from offset `o` on -/
def readMany (cap : Nat) (m : Mem A) (o : Nat) : Nat → Option (List A)
  | 0 => some []
  | n + 1 => (rd cap m o).bind fun a => (readMany cap m (o + 1) n).map (a :: ·)

/-- stores at offset `o` on -/
def storeMany (cap : Nat) (o : Nat) : List A → Mem A → Option (Mem A)
  | [], m => some m
  | a :: l, m => (wr cap m o a).bind fun m => storeMany cap (o + 1) l m

/-- the bin of a point: findpts_el_2.c:777, 786, findpts_el_3.c:1273, 1282 `pt_flags_to_bin(pout->flags & FLAG_MASK)` -/
def Drv.binOf (v : Drv) (p : Pt K D) : Nat := (v.bin (p.flags &&& v.mask)).toNat

/-- findpts_el_2.c:767-771, findpts_el_3.c:1261-1265: `for(p=pstart,pout=pbuf; p!=pe; p+=pn,pout+=pn) ...` from `p=pstart+k` on. A group of 0 points (no progress) or one that goes past `pe` never ends the loop: `none`
when the number of rounds exceeds the number of points. The points of a group are read before the results are stored (the two regions are disjoint). -/
def advance (v : Drv) (cap npt : Nat) (f : Nat → F → List (Pt K D) → Option (F × List (Pt K D))) (count : Mem Nat) (pe : Nat) : Nat → Nat → F × Mem (Pt K D) → Option (F × Mem (Pt K D))
  | 0, k, s => if k = pe then some s else none
  | fuel + 1, k, s =>
    if k = pe then some s else
    (rd cap s.2 (npt + k)).bind fun p => (rd v.nb count (v.noC (p.flags &&& v.mask)).toNat).bind fun pn =>
    (readMany cap s.2 (npt + k) pn).bind fun ps => (f (v.num (p.flags &&& v.mask)).toNat s.1 ps).bind fun o =>
    (storeMany cap k o.2 s.2).bind fun m => advance v cap npt f count pe fuel (k + pn) (o.1, m)

/-- findpts_el_2.c:774-777, findpts_el_3.c:1268-1273: the number of points in each bin -/
def tally (v : Drv) (cap nconv : Nat) (m : Mem (Pt K D)) : Option (Mem Nat) :=
  forUp 0 nconv (fun k off => (rd cap m k).bind fun p => (rd (v.nb + 1) off (v.binOf p)).bind fun c => wr (v.nb + 1) off (v.binOf p) (c + 1)) (fun i => if i < v.nb + 1 then some 0 else none)

/-- findpts_el_2.c:778-784, findpts_el_3.c:1274-1280: `count`, `offset` and the new `nconv`; the state is (`count`, `offset`, `sum`) -/
def sums (v : Drv) (count off : Mem Nat) : Option (Mem Nat × Mem Nat × Nat) :=
  (forUp 0 v.nb (fun i (s : Mem Nat × Mem Nat × Nat) => (rd (v.nb + 1) s.2.1 i).bind fun ci => (wr v.nb s.1 i ci).bind fun count =>
    (wr (v.nb + 1) s.2.1 i s.2.2).map fun off => (count, off, s.2.2 + ci)) (count, off, 0)).bind fun s =>
  (wr (v.nb + 1) s.2.1 v.nb s.2.2).map fun off => (s.1, off, s.2.2)

/-- findpts_el_2.c:785-786, findpts_el_3.c:1281-1282: `pstart[offset[bin]++] = *pout`; the state is (`offset`, `fd->p`) -/
def place (v : Drv) (cap npt nconv : Nat) (off : Mem Nat) (m : Mem (Pt K D)) : Option (Mem Nat × Mem (Pt K D)) :=
  forUp 0 nconv (fun k (s : Mem Nat × Mem (Pt K D)) => (rd cap s.2 k).bind fun p => (rd (v.nb + 1) s.1 (v.binOf p)).bind fun o =>
    (wr (v.nb + 1) s.1 (v.binOf p) (o + 1)).bind fun off => (wr cap s.2 (npt + o) p).map fun m => (off, m)) (off, m)

/-- state of the main loop: `fd`, `fd->p`, `count`, `nconv` -/
structure DrvSt (K F : Type) (D : Nat) where
  fd : F
  m : Mem (Pt K D)
  count : Mem Nat
  nconv : Nat

/-- findpts_el_2.c:756-787, findpts_el_3.c:1237-1283: the body of the main loop -/
def drvBody (v : Drv) (cap npt : Nat) (f : Nat → F → List (Pt K D) → Option (F × List (Pt K D))) (s : DrvSt K F D) : Option (DrvSt K F D) :=
  (advance v cap npt f s.count s.nconv s.nconv 0 (s.fd, s.m)).bind fun a =>
  (tally v cap s.nconv a.2).bind fun off => (sums v s.count off).bind fun t =>
  (place v cap npt s.nconv t.2.1 a.2).map fun b => ⟨a.1, b.2, t.1, t.2.2⟩

/-- findpts_el_2.c:755, findpts_el_3.c:1236 `while(nconv && step++ < 50)`: at most `n` rounds -/
def drvLoop (v : Drv) (cap npt : Nat) (f : Nat → F → List (Pt K D) → Option (F × List (Pt K D))) : Nat → DrvSt K F D → Option (DrvSt K F D)
  | 0, s => some s
  | n + 1, s => if s.nconv = 0 then some s else (drvBody v cap npt f s).bind (drvLoop v cap npt f n)

/-- findpts_el_2.c:789-792, findpts_el_3.c:1285-1288: `pbuf[p->index]=*p, pbuf[p->index].flags&=FLAG_MASK` -/
def drvOut (v : Drv) (cap npt : Nat) (m : Mem (Pt K D)) : Option (Mem (Pt K D)) :=
  forUp 0 npt (fun k m => (rd cap m (npt + k)).bind fun p => wr cap m p.index { p with flags := p.flags &&& v.mask }) m

/-- findpts_el_2.c:739-754, findpts_el_3.c:1216-1235: the state before the first round, when the seeds `rs` are known; `big` is `DBL_MAX`. `pbuf` counts as uninitialised (it is overwritten before it is
read). -/
def drvInit (v : Drv) (cap npt : Nat) (big zero one : K) (xs rs : List (Fin D → K)) (fd : F) : Option (DrvSt K F D) :=
  (forUp 0 npt (fun i m => xs[i]?.bind fun x => rs[i]?.bind fun r => wr cap m (npt + i) ⟨x, r, none, big, zero, one, i, 0⟩) ((fun _ => none : Mem (Pt K D)))).map fun m =>
  ⟨fd, m, fun i => if i = 0 then some npt else if i < v.nb then some 0 else none, npt⟩

/-- findpts_el_2.c:724-728, findpts_el_3.c:1200-1204: point `x` with (`r`, `dist2`) so far, and a node with reference coordinates `nd.1` at the position `nd.2`; the squared distance is written as a sum over the coordinates -/
def seedNode [Ring K] [LE K] [DecidableLE K] (nd : (Fin D → K) × (Fin D → K)) (x : Fin D → K) (p : Option (Fin D → K) × K) : Option (Fin D → K) × K :=
  let dist2 := ∑ d, (x d - nd.2 d) * (x d - nd.2 d)
  if p.2 ≤ dist2 then p else (some nd.1, dist2)

/-- findpts_el_2.c:710-732, findpts_el_3.c:1184-1209 `seed`: (`r`, `dist2`) of the points `xs`; `nodes` lists the nodes in the order of the loops. `r` is `none` while uninitialised. -/
def seed [Ring K] [LE K] [DecidableLE K] (big : K) (nodes : List ((Fin D → K) × (Fin D → K))) (xs : List (Fin D → K)) : List (Option (Fin D → K) × K) :=
  nodes.foldl (fun ps nd => List.zipWith (seedNode nd) xs ps) (xs.map fun _ => (none, big))

/-- findpts_el_2.c:716-723: the nodes in the order of the loops; node `(i,j)` of the element is entry `i + j*nr` of `x` -/
def nodes2 (nr ns : Nat) (z : Fin 2 → List K) (x : Fin 2 → List K) : Option (List ((Fin 2 → K) × (Fin 2 → K))) :=
  ((List.range ns).flatMap fun j => (List.range nr).map fun i => (i, j)).mapM fun ij => (z 0)[ij.1]?.bind fun zr => (z 1)[ij.2]?.bind fun zs =>
    (x 0)[ij.1 + ij.2 * nr]?.bind fun x0 => (x 1)[ij.1 + ij.2 * nr]?.map fun x1 => (![zr, zs], ![x0, x1])

/-- findpts_el_3.c:1190-1199: the nodes in the order of the loops; node `(i,j,k)` of the element is entry `i + (j + k*ns)*nr` of `x` -/
def nodes3 (nr ns nt : Nat) (z : Fin 3 → List K) (x : Fin 3 → List K) : Option (List ((Fin 3 → K) × (Fin 3 → K))) :=
  ((List.range nt).flatMap fun k => (List.range ns).flatMap fun j => (List.range nr).map fun i => (i, j, k)).mapM fun c =>
    (z 0)[c.1]?.bind fun zr => (z 1)[c.2.1]?.bind fun zs => (z 2)[c.2.2]?.bind fun zt =>
    (x 0)[c.1 + (c.2.1 + c.2.2 * ns) * nr]?.bind fun x0 => (x 1)[c.1 + (c.2.1 + c.2.2 * ns) * nr]?.bind fun x1 =>
    (x 2)[c.1 + (c.2.1 + c.2.2 * ns) * nr]?.map fun x2 => (![zr, zs, zt], ![x0, x1, x2])

/-- findpts_el_2.c:734-796 `findpts_el_2`, findpts_el_3.c:1211-1292 `findpts_el_3` after `seed` -/
def driver (v : Drv) (cap npt : Nat) (big zero one : K) (f : Nat → F → List (Pt K D) → Option (F × List (Pt K D))) (xs rs : List (Fin D → K)) (fd : F) : Option (F × Mem (Pt K D)) :=
  (drvInit v cap npt big zero one xs rs fd).bind fun s => (drvLoop v cap npt f 50 s).bind fun s => (drvOut v cap npt s.m).map fun m => (s.fd, m)

end Gslib.El
