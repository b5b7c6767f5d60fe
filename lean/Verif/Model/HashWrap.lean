import Verif.Model.Hash

/-!
# The local hash table with the machine arithmetic of the default build (findpts_local_imp.h, findpts_local.c)

As `Model/Hash`, but `uint` has 32 bits and wraps, and the conversion of a `double` to `sint` is undefined (`none`) outside of the 32-bit range. `double` is still an ordered field with a floor function.
-/

namespace Gslib.Hash
open Gslib.Num
variable {K : Type} [Field K] [LinearOrder K] [FloorRing K]

/-- `uint` subtraction -/
def subU (a b : Nat) : Nat := (a + (4294967296 - b % 4294967296)) % 4294967296

/-- findpts_local.c:29-30 `ifloor`, `iceil`: conversion to `sint` -/
def sintOf (i : Int) : Option Int := if -2147483648 ≤ i ∧ i ≤ 2147483647 then some i else none

/-- findpts_local_imp.h:94 `const uint i1 = iceil(...)`: conversion of an `sint` to `uint` -/
def uintOf (i : Int) : Nat := (i % 4294967296).toNat

/-- findpts_local_imp.h:89-99 `hash_range` -/
def hashRangeM (n : Nat) (b r : Range K) : Option IRange :=
  (sintOf ⌊(r.min - b.min) * facOf n b⌋).bind fun i0 => (sintOf ⌈(r.max - b.min) * facOf n b⌉).bind fun i1 =>
  let lo := if i0 < 0 then 0 else i0.toNat
  let hi := if uintOf i1 < n then uintOf i1 else n
  some ⟨lo, if hi = lo then (hi + 1) % 4294967296 else hi⟩

/-- the ranges of a box in all coordinates (findpts_local_imp.h:109-111, 162) -/
def hashRangesM (n : Nat) : List (Range K) → List (Range K) → Option (List IRange)
  | b :: bs, r :: rs => (hashRangeM n b r).bind fun x => (hashRangesM n bs rs).map (x :: ·)
  | _, _ => some []

/-- findpts_local_imp.h:109-111 `ci = ir.max-ir.min; ci *= ir.max-ir.min;` -/
def boxCountM (rs : List IRange) : Nat := rs.foldl (fun c r => c * subU r.max r.min % 4294967296) 1

/-- findpts_local_imp.h:107-113, the loop of `hash_count` -/
def hashCountM (n : Nat) (bnd : List (Range K)) : List (List (Range K)) → Nat → Option Nat
  | [], c => some c
  | box :: l, c => (hashRangesM n bnd box).bind fun rs => hashCountM n bnd l ((c + boxCountM rs) % 4294967296)

/-- findpts_local_imp.h:124-125, 158 `nm*nm`, `nmd*=nm` -/
def powM (n : Nat) : Nat → Nat
  | 0 => 1
  | D + 1 => powM n D * n % 4294967296

/-- findpts_local_imp.h:126 `size = nmd+1+hash_count(p,obb,nel,nm)` -/
def sizeM (bnd : List (Range K)) (obb : List (List (Range K))) (n : Nat) : Option Nat :=
  (hashCountM n bnd obb 0).map fun c => (powM n bnd.length + 1 + c) % 4294967296

/-- findpts_local_imp.h:123-128 -/
def bisectM (size : Nat → Option Nat) (maxSize nl nu low : Nat) : Option (Nat × Nat) :=
  if subU nu nl > 1 then
    let nm := (nl + subU nu nl / 2) % 4294967296
    (size nm).bind fun s => if s ≤ maxSize then bisectM size maxSize nm nu s else bisectM size maxSize nl nm low
  else some (nl, low)
termination_by subU nu nl
decreasing_by all_goals (unfold subU at *; omega)

/-- findpts_local_imp.h:117-131 `hash_opt_size`; `nu0` is `ceil(pow(max_size-nel,1.0/D))`, which is 0 when `max_size` is `nel` -/
def hashOptSizeM (bnd : List (Range K)) (obb : List (List (Range K))) (maxSize nu0 : Nat) : Option (Nat × Nat) :=
  bisectM (sizeM bnd obb) maxSize 1 nu0 ((2 + obb.length) % 4294967296)

/-- findpts_local_imp.h:159-171 -/
def countAllM (hnd : Nat) (ev : List (Nat × Nat)) (count : Mem Nat) : Option (Mem Nat) :=
  forList (fun e count => (rd hnd count e.1).bind fun c => wr hnd count e.1 ((c + 1) % 4294967296)) ev count

/-- findpts_local_imp.h:172-179 -/
def offsetsM (size hnd : Nat) (count : Mem Nat) (offset : Mem Nat) : Option (Mem Nat × Nat × Nat) :=
  (rd hnd count 0).bind fun c0 => (wr size offset 0 ((hnd + 1) % 4294967296)).bind fun offset =>
  forUp 0 hnd (fun i (s : Mem Nat × Nat × Nat) => (rd hnd count i).bind fun c =>
    (wr size s.1 (i + 1) ((s.2.1 + c) % 4294967296)).map fun o => (o, (s.2.1 + c) % 4294967296, if c > s.2.2 then c else s.2.2)) (offset, (hnd + 1) % 4294967296, c0)

/-- findpts_local_imp.h:180-194; the index `index+1` is `uint` -/
def fillAllM (size hnd : Nat) (ev : List (Nat × Nat)) (s : Mem Nat × Mem Nat) : Option (Mem Nat × Mem Nat) :=
  forList (fun e (s : Mem Nat × Mem Nat) => (rd size s.1 ((e.1 + 1) % 4294967296)).bind fun o => (rd hnd s.2 e.1).bind fun c =>
    (wr size s.1 (subU o c) e.2).bind fun off => (wr hnd s.2 e.1 (subU c 1)).map fun cnt => (off, cnt)) ev s

/-- findpts_local_imp.h:160-169, 180-191: the visits (cell, element) of the elements `el`, `el+1`, ...; the index `((k*hn)+j)*hn+i` is `uint` -/
def eventsM (hn : Nat) (bnd : List (Range K)) : List (List (Range K)) → Nat → Option (List (Nat × Nat))
  | [], _ => some []
  | box :: l, el => (hashRangesM hn bnd box).bind fun rs => (eventsM hn bnd l (el + 1)).map (((cells hn rs).map fun c => (c % 4294967296, el)) ++ ·)

/-- findpts_local_imp.h:154-196: `hash_build` after `hash_bb`: (`hash_n`, size of `offset`, `offset`, `max`) -/
def hashBuildM (bnd : List (Range K)) (obb : List (List (Range K))) (maxSize nu0 : Nat) : Option (Nat × Nat × Mem Nat × Nat) :=
  (hashOptSizeM bnd obb maxSize nu0).bind fun r =>
  let hn := r.1
  let hnd := powM hn bnd.length
  (eventsM hn bnd obb 0).bind fun ev =>
  (countAllM hnd ev (fun i => if i < hnd then some 0 else none)).bind fun count =>
  (offsetsM r.2 hnd count (fun _ => none)).bind fun s =>
  (fillAllM r.2 hnd ev (s.1, count)).map fun t => (hn, r.2, t.1, s.2.2)

/-- findpts_local_imp.h:149-196 `hash_build` for at least one element -/
def hashBuildAllM (obb : List (List (Range K))) (maxSize nu0 : Nat) : Option (List (Range K) × Nat × Nat × Mem Nat × Nat) :=
  (hashBb obb).bind fun bnd => (hashBuildM bnd obb maxSize nu0).map fun t => (bnd, t)

end Gslib.Hash
