import Verif.Model.Hash
import Verif.Model.Rec
import Mathlib.Data.Fin.VecNotation

/-!
# The distributed hash table of findpts (findpts_imp.h:43-207, findpts.c:35-68)

`double` is replaced by an ordered field with a floor function, `ulong` and the bit positions are natural numbers (no wrap-around), `uint` fields of the transferred structs are reduced modulo `2^32`.
The global bound and the number of cells per coordinate come from `MPI_Allreduce` (trusted base); the exponent `1./D` of `hash_n` is not modelled: `hn` is any positive number, equal on all processes.
-/

namespace Gslib.GHash
open Gslib Gslib.Mpi Gslib.Transfer Gslib.Gs Gslib.Hash Gslib.Num

variable {K : Type} [Field K] [LinearOrder K] [FloorRing K]

/-- findpts_local_imp.h:133-147 `hash_bb`: the bound of the boxes of a process, `[0,0]` without boxes -/
def localBnd (D : Nat) (obb : List (List (Range K))) : List (Range K) := (hashBb obb).getD (List.replicate D ⟨0, 0⟩)

/-- findpts_imp.h:82-88: `comm_allreduce` of the lower ends with `gs_min`, of the upper ends with `gs_max` -/
def globalBnd (D np : Nat) (obb : Nat → List (List (Range K))) : List (Range K) := (hashBb ((List.range np).map fun q => localBnd D (obb q))).getD []

/-- findpts.c:44-49 `set_bit` -/
def setBit (p : List Nat) (i : Nat) : Option (List Nat) := p[i / 8]?.map fun b => p.set (i / 8) (b ||| (1 <<< (i % 8)))

/-- findpts.c:51-56 `get_bit` -/
def getBit (p : List Nat) (i : Nat) : Option Nat := p[i / 8]?.map fun b => (b >>> (i % 8)) &&& 1

/-- findpts.c:58-63 `byte_bits` -/
def byteBits (x : Nat) : Nat := ((List.range 8).map fun bit => (x >>> bit) &&& 1).sum

/-- findpts.c:65-70 `count_bits` -/
def countBits (p : List Nat) : Nat := (p.map byteBits).sum

/-- findpts_imp.h:111-119: the bits set for a box with cells `rs`, in loop order; `loc` are the cells of the process (`local_base` to `local_base+local_n`) -/
def maskCells : List IRange → List IRange → List Nat
  | r :: rs, l :: ls => (maskCells rs ls).flatMap fun hi => (List.range (r.max - r.min)).map fun i => hi * (l.max - l.min) + (r.min + i - l.min)
  | _, _ => [0]

/-- findpts_imp.h:101-123 `set_local_mask` -/
def setLocalMask (hn : Nat) (bnd : List (Range K)) (loc : List IRange) (obb : List (List (Range K))) (mask : List Nat) : Option (List Nat) :=
  forList (fun box mask => forList (fun i mask => setBit mask i) (maskCells (hashRanges hn bnd box) loc) mask) obb mask

/-- `struct proc_index` (findpts.c:33): fields `proc`, `index` -/
abbrev ProcIndex := Rec 0 2

/-- findpts_imp.h:139: `hp->proc = hi%np, hp->index = hi/np` -/
def procIndex (np hi : Nat) : ProcIndex := ⟨fun _ => 0, ![hi % np % 4294967296, hi / np % 4294967296]⟩

/-- findpts_imp.h:125-145 `fill_hash`: state (`bit`, rows written); the array has room for `nc` rows -/
def fillHash (hn np nc : Nat) (loc : List IRange) (mask : List Nat) : Option (List ProcIndex) :=
  (forList (fun hi (s : Nat × List ProcIndex) => (getBit mask s.1).bind fun b =>
    if b = 0 then some (s.1 + 1, s.2) else if s.2.length < nc then some (s.1 + 1, s.2 ++ [procIndex np hi]) else none) (cells hn loc) (0, [])).map Prod.snd

/-- findpts_imp.h:183-203 `hash_build` before the transfer; `hash.n=nc` requires all `nc` rows to be written -/
def localRows (hn np : Nat) (bnd lbnd : List (Range K)) (obb : List (List (Range K))) : Option (List ProcIndex) :=
  let loc := hashRanges hn bnd lbnd
  let ntot := (loc.map fun r => r.max - r.min).prod
  (setLocalMask hn bnd loc obb (List.replicate ((ntot + 7) / 8) 0)).bind fun mask =>
  (fillHash hn np (countBits mask) loc mask).bind fun rows => if rows.length = countBits mask then some rows else none

/-- findpts_imp.h:161-166: one row of the sorted array; state (`i`, `next_cell`, `offset`) -/
def tableRow (size ncell : Nat) (r : ProcIndex) (s : Nat × Nat × Mem Nat) : Option (Nat × Nat × Mem Nat) :=
  (Num.wr size s.2.2 (ncell + 1 + s.1) (r.u 0)).bind fun off =>
  (forUp s.2.1 (r.u 1 + 1 - s.2.1) (fun c off => Num.wr size off c (ncell + 1 + s.1)) off).map fun off => (s.1 + 1, max s.2.1 (r.u 1 + 1), off)

/-- findpts_imp.h:160-169: `offset` from the sorted rows -/
def tableOf (ncell : Nat) (rows : List ProcIndex) : Option (Mem Nat) :=
  let size := ncell + 1 + rows.length
  (forList (tableRow size ncell) rows (0, 0, fun _ => none)).bind fun s =>
  forUp s.2.1 (ncell + 1 - s.2.1) (fun c off => Num.wr size off c (ncell + 1 + s.1)) s.2.2

/-- memory of a process during `hash_build` -/
structure HbSt (K : Type) where
  /-- the element boxes -/
  obb : List (List (Range K))
  /-- the array `hash` and the crystal router -/
  tr : TrState
  /-- buffers -/
  scratch : Sarray.ScratchF Nat
  /-- size and contents of `offset` -/
  size : Nat
  off : Mem Nat

/-- set the transfer memory -/
def HbSt.setTr (s : HbSt K) (t : TrState) : HbSt K := { s with tr := t }

/-- the layout of `struct proc_index` -/
def piLayout : Layout ProcIndex := recLayout 0 2 0 0

/-- findpts_imp.h:183-203 -/
def hb1 (D hn np : Nat) (bnd : List (Range K)) (s : HbSt K) : Outcome (HbSt K) :=
  (Outcome.ofOption (localRows hn np bnd (localBnd D s.obb) s.obb)).bind fun rows => .ok { s with tr := putRows piLayout s.tr rows }

/-- findpts_imp.h:147-170 `table_from_hash` -/
def hb2 (D hn np : Nat) (s : HbSt K) : Outcome (HbSt K) :=
  let ncell := (hn ^ D - 1) / np + 1
  (Sarray.sarraySort [.int 4 fun r => r.u 1] (getRows piLayout s.tr) s.scratch).bind fun rows =>
  (Outcome.ofOption (tableOf ncell rows)).bind fun off => .ok { s with size := ncell + 1 + rows.length, off := off }

/-- findpts_imp.h:172-207 `hash_build` after `hash_bb` -/
def hashBuild (D hn np : Nat) (bnd : List (Range K)) : Coll (HbSt K) (List Nat) :=
  ((Coll.loc (fun _ => hb1 D hn np bnd) []).seq (recTransfer (k := 0) HbSt.tr HbSt.setTr np (0 : Fin 2) 0 true)).seq (Coll.loc (fun _ => hb2 D hn np) [])

end Gslib.GHash
