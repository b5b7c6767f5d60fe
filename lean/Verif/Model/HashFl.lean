import Verif.Model.Hash

/-!
# The local hash table with rounding (findpts_local_imp.h, findpts_local.c)

As `Model/Hash`, but every floating point operation is followed by `rnd`. The products of 32-bit integers do not wrap here (see `Model/HashWrap`); integers are converted to `double` exactly. The hash functions of findpts_imp.h
(global table) have the same form.
-/

namespace Gslib.Hash
open Gslib.Num
variable {K : Type} [Field K] [LinearOrder K] [FloorRing K]

/-- findpts_local_imp.h:82-87 (findpts_imp.h:58-63) `hash_setfac`: `fac = n/(max-min)` -/
def facFl (rnd : K → K) (n : Nat) (b : Range K) : K := rnd ((n : K) / rnd (b.max - b.min))

/-- `(x-low)*fac` (findpts_local.c:34, findpts_local_imp.h:93-94) -/
def scaleFl (rnd : K → K) (low fac x : K) : K := rnd (rnd (x - low) * fac)

/-- findpts_local.c:32-36 (findpts.c:38-42) `hash_index_aux` -/
def hashIndexAuxFl (rnd : K → K) (low fac : K) (n : Nat) (x : K) : Nat :=
  let i := ⌊scaleFl rnd low fac x⌋
  if i < 0 then 0 else if n - 1 < i.toNat then n - 1 else i.toNat

/-- findpts_local_imp.h:74-80 (findpts_imp.h:50-57) `hash_index` -/
def hashIndexFl (rnd : K → K) (n : Nat) : List (Range K) → List K → Nat
  | b :: bs, x :: xs => hashIndexFl rnd n bs xs * n + hashIndexAuxFl rnd b.min (facFl rnd n b) n x
  | _, _ => 0

/-- findpts_local_imp.h:89-99 (findpts_imp.h:65-76) `hash_range` in one coordinate -/
def hashRangeFl (rnd : K → K) (n : Nat) (b r : Range K) : IRange :=
  let i0 := ⌊scaleFl rnd b.min (facFl rnd n b) r.min⌋
  let i1 := ⌈scaleFl rnd b.min (facFl rnd n b) r.max⌉.toNat
  let lo := if i0 < 0 then 0 else i0.toNat
  let hi := if i1 < n then i1 else n
  ⟨lo, if hi = lo then hi + 1 else hi⟩

/-- the ranges of a box in all coordinates -/
def hashRangesFl (rnd : K → K) (n : Nat) (bnd box : List (Range K)) : List IRange := List.zipWith (hashRangeFl rnd n) bnd box

/-- findpts_local_imp.h:101-115 `hash_count` -/
def hashCountFl (rnd : K → K) (n : Nat) (bnd : List (Range K)) (obb : List (List (Range K))) : Nat :=
  (obb.map fun box => ((hashRangesFl rnd n bnd box).map fun r => r.max - r.min).prod).sum

/-- findpts_local_imp.h:117-131 `hash_opt_size` -/
def hashOptSizeFl (rnd : K → K) (bnd : List (Range K)) (obb : List (List (Range K))) (maxSize nu0 : Nat) : Nat × Nat :=
  bisect (fun n => n ^ bnd.length + 1 + hashCountFl rnd n bnd obb) maxSize 1 nu0 (2 + obb.length)

/-- findpts_local_imp.h:160-169, 180-191: the visits (cell, element) -/
def eventsFl (rnd : K → K) (hn : Nat) (bnd : List (Range K)) (obb : List (List (Range K))) : List (Nat × Nat) :=
  (List.range obb.length).flatMap fun el => (cells hn (hashRangesFl rnd hn bnd (obb.getD el []))).map fun c => (c, el)

/-- findpts_local_imp.h:154-196: `hash_build` after `hash_bb` -/
def hashBuildFl (rnd : K → K) (bnd : List (Range K)) (obb : List (List (Range K))) (maxSize nu0 : Nat) : Option (Nat × Nat × Mem Nat × Nat) :=
  let r := hashOptSizeFl rnd bnd obb maxSize nu0
  let hn := r.1
  let hnd := hn ^ bnd.length
  let ev := eventsFl rnd hn bnd obb
  (countAll hnd ev (fun i => if i < hnd then some 0 else none)).bind fun count =>
  (offsets r.2 hnd count (fun _ => none)).bind fun s =>
  (fillAll r.2 hnd ev (s.1, count)).map fun t => (hn, r.2, t.1, s.2.2)

/-- findpts_local_imp.h:149-196 `hash_build` for at least one element; `hash_bb` only compares -/
def hashBuildAllFl (rnd : K → K) (obb : List (List (Range K))) (maxSize nu0 : Nat) : Option (List (Range K) × Nat × Nat × Mem Nat × Nat) :=
  (hashBb obb).bind fun bnd => (hashBuildFl rnd bnd obb maxSize nu0).map fun t => (bnd, t)

end Gslib.Hash
