import Verif.Model.NumMem
import Mathlib.Algebra.Order.Floor.Defs
import Mathlib.Algebra.Order.Floor.Ring
import Mathlib.Algebra.Order.Field.Basic

/-!
# Point-to-element hashing (findpts_local_imp.h, findpts_imp.h, findpts_local.c)

`double` is replaced by an ordered field with a floor function. The dimension `D` (2 or 3 in the source, selected by the preprocessor) is the
length of the lists: entry `d` of a list belongs to coordinate `d`. `uint`/`ulong` results are natural numbers (no wrap-around). The arrays `count` and `offset` carry bounds and initialisation checks; an access outside is `none`.
-/

namespace Gslib.Hash
open Gslib.Num
variable {K : Type} [Field K] [LinearOrder K] [FloorRing K]

/-- a coordinate interval `struct dbl_range` (obbox.h:49) -/
structure Range (K : Type) where
  /-- lower end -/
  min : K
  /-- upper end -/
  max : K

/-- an index range `struct uint_range` (findpts_local.c:18) -/
structure IRange where
  /-- first -/
  min : Nat
  /-- one past the last -/
  max : Nat

/-- findpts_local.c:21-27 `dbl_range_merge` -/
def rangeMerge (a b : Range K) : Range K := ⟨if b.min < a.min then b.min else a.min, if a.max > b.max then a.max else b.max⟩

/-- findpts_local_imp.h:82-87 (findpts_imp.h:58-63) `hash_setfac`: `fac = n/(max-min)` -/
def facOf (n : Nat) (b : Range K) : K := (n : K) / (b.max - b.min)

/-- findpts_local.c:32-36 (findpts.c:38-42) `hash_index_aux` -/
def hashIndexAux (low fac : K) (n : Nat) (x : K) : Nat :=
  let i := ⌊(x - low) * fac⌋
  if i < 0 then 0 else if n - 1 < i.toNat then n - 1 else i.toNat

/-- findpts_local_imp.h:74-80 (findpts_imp.h:50-57) `hash_index`: `((i2*n)+i1)*n+i0` -/
def hashIndex (n : Nat) : List (Range K) → List K → Nat
  | b :: bs, x :: xs => hashIndex n bs xs * n + hashIndexAux b.min (facOf n b) n x
  | _, _ => 0

/-- findpts_local_imp.h:89-99 (findpts_imp.h:65-76) `hash_range` in one coordinate. `i1` is converted to unsigned; it is non-negative for
boxes inside the bound -/
def hashRange (n : Nat) (b r : Range K) : IRange :=
  let i0 := ⌊(r.min - b.min) * facOf n b⌋
  let i1 := ⌈(r.max - b.min) * facOf n b⌉.toNat
  let lo := if i0 < 0 then 0 else i0.toNat
  let hi := if i1 < n then i1 else n
  ⟨lo, if hi = lo then hi + 1 else hi⟩

/-- the ranges of a box in all coordinates -/
def hashRanges (n : Nat) (bnd box : List (Range K)) : List IRange := List.zipWith (hashRange n) bnd box

/-- findpts_local_imp.h:163-169, 183-191 (`FOR_LOOP`): the cells `(k*hn+j)*hn+i` visited by the nested loops, in order; the last coordinate is
the outermost loop -/
def cells (hn : Nat) : List IRange → List Nat
  | [] => [0]
  | r :: rs => (cells hn rs).flatMap fun hi => (List.range (r.max - r.min)).map fun i => hi * hn + (r.min + i)

/-- findpts_local_imp.h:101-115 `hash_count` without wrap-around -/
def hashCount (n : Nat) (bnd : List (Range K)) (obb : List (List (Range K))) : Nat :=
  (obb.map fun box => ((hashRanges n bnd box).map fun r => r.max - r.min).prod).sum

/-- findpts_local_imp.h:123-128: the bisection loop of `hash_opt_size`; `size nm` is `nm^D+1+hash_count(nm)` -/
def bisect (size : Nat → Nat) (maxSize nl nu low : Nat) : Nat × Nat :=
  if nu - nl > 1 then
    let nm := nl + (nu - nl) / 2
    if size nm ≤ maxSize then bisect size maxSize nm nu (size nm) else bisect size maxSize nl nm low
  else (nl, low)
termination_by nu - nl
decreasing_by all_goals omega

/-- findpts_local_imp.h:117-131 `hash_opt_size`: (`hash_n`, returned size). `nu0` is `ceil(pow(max_size-nel,1.0/D))`, not modelled further. -/
def hashOptSize (bnd : List (Range K)) (obb : List (List (Range K))) (maxSize nu0 : Nat) : Nat × Nat :=
  bisect (fun n => n ^ bnd.length + 1 + hashCount n bnd obb) maxSize 1 nu0 (2 + obb.length)

/-- findpts_local_imp.h:133-147 `hash_bb` for `nel>0` elements -/
def hashBb : List (List (Range K)) → Option (List (Range K))
  | [] => none
  | b :: bs => some (bs.foldl (fun acc x => List.zipWith rangeMerge acc x) b)

/-- `for(i=0;i<len;++i) body(l[i])` -/
def forList {A S : Type} (f : A → S → Option S) : List A → S → Option S
  | [], s => some s
  | a :: l, s => (f a s).bind (forList f l)

/-- findpts_local_imp.h:160-171: all increments `++count[c]`, for all elements and cells -/
def countAll (hnd : Nat) (ev : List (Nat × Nat)) (count : Mem Nat) : Option (Mem Nat) :=
  forList (fun e count => (rd hnd count e.1).bind fun c => wr hnd count e.1 (c + 1)) ev count

/-- findpts_local_imp.h:172-179: `offset[0..hnd]` and the maximum; the state is (`offset`, `sum`, `max`) -/
def offsets (size hnd : Nat) (count : Mem Nat) (offset : Mem Nat) : Option (Mem Nat × Nat × Nat) :=
  (rd hnd count 0).bind fun c0 => (wr size offset 0 (hnd + 1)).bind fun offset =>
  forUp 0 hnd (fun i (s : Mem Nat × Nat × Nat) => (rd hnd count i).bind fun c =>
    (wr size s.1 (i + 1) (s.2.1 + c)).map fun o => (o, s.2.1 + c, if c > s.2.2 then c else s.2.2)) (offset, hnd + 1, c0)

/-- findpts_local_imp.h:180-194: `offset[offset[index+1]-count[index]]=el; --count[index];` for all elements and cells -/
def fillAll (size hnd : Nat) (ev : List (Nat × Nat)) (s : Mem Nat × Mem Nat) : Option (Mem Nat × Mem Nat) :=
  forList (fun e (s : Mem Nat × Mem Nat) => (rd size s.1 (e.1 + 1)).bind fun o => (rd hnd s.2 e.1).bind fun c =>
    (wr size s.1 (o - c) e.2).bind fun off => (wr hnd s.2 e.1 (c - 1)).map fun cnt => (off, cnt)) ev s

/-- the sequence of (cell, element) visits of the double loops over elements and cells -/
def events (hn : Nat) (bnd : List (Range K)) (obb : List (List (Range K))) : List (Nat × Nat) :=
  (List.range obb.length).flatMap fun el => (cells hn (hashRanges hn bnd (obb.getD el []))).map fun c => (c, el)

/-- findpts_local_imp.h:154-196: `hash_build` after `hash_bb`: (`hash_n`, size of `offset`, `offset`, `max`) -/
def hashBuild (bnd : List (Range K)) (obb : List (List (Range K))) (maxSize nu0 : Nat) : Option (Nat × Nat × Mem Nat × Nat) :=
  let r := hashOptSize bnd obb maxSize nu0
  let hn := r.1
  let hnd := hn ^ bnd.length
  let ev := events hn bnd obb
  (countAll hnd ev (fun i => if i < hnd then some 0 else none)).bind fun count =>
  (offsets r.2 hnd count (fun _ => none)).bind fun s =>
  (fillAll r.2 hnd ev (s.1, count)).map fun t => (hn, r.2, t.1, s.2.2)

/-- findpts_local_imp.h:149-196 `hash_build` for at least one element: (`bnd`, `hash_n`, size of `offset`, `offset`, `max`) -/
def hashBuildAll (obb : List (List (Range K))) (maxSize nu0 : Nat) : Option (List (Range K) × Nat × Nat × Mem Nat × Nat) :=
  (hashBb obb).bind fun bnd => (hashBuild bnd obb maxSize nu0).map fun t => (bnd, t)

end Gslib.Hash
