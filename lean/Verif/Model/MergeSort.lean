import Mathlib.Order.Defs.LinearOrder
import Verif.Model.Mem

/-!
# Model of the merge sort of `src/sort_imp.h`
-/

namespace Gslib.MergeSort
open Gslib

variable {α κ : Type} [LinearOrder κ]

/-- Local variables of the MERGE_SORT macro, sort_imp.h:280-283 (`i, n, odd, c, b, base`), and the
two buffers `buf[0]`, `buf[1]` (`b` is a `Bool`: `false` = 0, `true` = 1).
Simplification: the `uint` bit stacks `odd` and `c` are unbounded naturals (their depth is at most
log2 n, so 32 bits suffice); `base` is `sint`, here `Int`. -/
structure St (α : Type) where
  i : Nat
  n : Nat
  odd : Nat
  c : Nat
  b : Bool
  base : Int
  buf : Bufs Bool α

/-- sort_imp.h:288 `while(n>3) odd<<=1,odd|=(n&1),n>>=1,c<<=1,b^=1;` -/
def descend (s : St α) : St α :=
  if 3 < s.n then
    descend { s with odd := s.odd * 2 + s.n % 2, n := s.n / 2, c := s.c * 2, b := !s.b }
  else s
termination_by s.n
decreasing_by omega

/-- sort_imp.h:287 `base+=n, n+=(odd&1), c|=1, b^=1;` (taken when `(c&1)==0`, so `c|=1` is `c+1`) -/
def advance (s : St α) : St α :=
  { s with base := s.base + s.n, n := s.n + s.odd % 2, c := s.c + 1, b := !s.b }

/-- sort_imp.h:290 `base-=n-(odd&1),n<<=1,n-=(odd&1),odd>>=1,c>>=1;` -/
def up (s : St α) : St α :=
  { s with base := s.base - (s.n - s.odd % 2 : Int), n := s.n * 2 - s.odd % 2, odd := s.odd / 2,
           c := s.c / 2 }

/-- MERGE_2, sort_imp.h:267-269 -/
def merge2 (key : α → κ) (v0 v1 : α) : α × α :=
  if key v1 < key v0 then (v1, v0) else (v0, v1)

/-- MERGE_3, sort_imp.h:270-279 -/
def merge3 (key : α → κ) (v0 v1 v2 : α) : α × α × α :=
  if key v1 < key v0 then
    if key v2 < key v1 then (v2, v1, v0)
    else if key v2 < key v0 then (v1, v2, v0) else (v1, v0, v2)
  else
    if key v2 < key v0 then (v2, v0, v1)
    else if key v2 < key v1 then (v0, v2, v1) else (v0, v1, v2)

/-- sort_imp.h:309 `do *p++=*ap++; while(ap!=ae);` -/
def copyTail (cap : Nat) (b : Bool) (ae : Nat) : Nat → Nat → Nat → Bufs Bool α → Option (Bufs Bool α)
  | 0, _, _, _ => none
  | fuel + 1, p, ap, m => do
    let y ← rd cap m (!b) ap
    let m ← wr cap m b p y
    if ap + 1 ≠ ae then copyTail cap b ae fuel (p + 1) (ap + 1) m else some m

/-- sort_imp.h:302-315, the merge loop; `p, ap, bp` are positions: `p` and `bp` in `buf[b]`, `ap` in
`buf[b^1]`. -/
def mergeLoop (key : α → κ) (cap : Nat) (b : Bool) (ae be : Nat) :
    Nat → Nat → Nat → Nat → Bufs Bool α → Option (Bufs Bool α)
  | 0, _, _, _, _ => none
  | fuel + 1, p, ap, bp, m => do
    let x ← rd cap m b bp
    let y ← rd cap m (!b) ap
    if key x < key y then
      let m ← wr cap m b p x
      if bp + 1 ≠ be then mergeLoop key cap b ae be fuel (p + 1) ap (bp + 1) m
      else copyTail cap b ae fuel (p + 1) ap m
    else
      let m ← wr cap m b p y
      if ap + 1 = ae then some m else mergeLoop key cap b ae be fuel (p + 1) (ap + 1) bp m

/-- sort_imp.h:292-316, what is done at a node: leaves of 2 or 3 elements are read with SETVAL from
the input (`inp`, an out-of-range read is `none`) and written sorted; inner nodes are merged.
A negative `base` is an out-of-bounds pointer (`none`). -/
def process (key : α → κ) (cap : Nat) (inp : List α) (s : St α) : Option (St α) :=
  if s.base < 0 then none else
  let p := s.base.toNat
  if s.n = 2 then do
    let v0 ← inp[s.i]?
    let v1 ← inp[s.i + 1]?
    let r := merge2 key v0 v1
    let m ← wr cap s.buf s.b p r.1
    let m ← wr cap m s.b (p + 1) r.2
    some { s with i := s.i + 2, buf := m }
  else if s.n = 3 then do
    let v0 ← inp[s.i]?
    let v1 ← inp[s.i + 1]?
    let v2 ← inp[s.i + 2]?
    let r := merge3 key v0 v1 v2
    let m ← wr cap s.buf s.b p r.1
    let m ← wr cap m s.b (p + 1) r.2.1
    let m ← wr cap m s.b (p + 2) r.2.2
    some { s with i := s.i + 3, buf := m }
  else do
    let na := s.n / 2
    let nb := (s.n + 1) / 2
    let m ← mergeLoop key cap s.b (p + na) (p + na + nb) s.n p p (p + na) s.buf
    some { s with buf := m }

/-- sort_imp.h:284-317, the outer `for(;;)`; running out of fuel is `none`. -/
def loop (key : α → κ) (cap : Nat) (inp : List α) : Nat → St α → Option (St α)
  | 0, _ => none
  | fuel + 1, s =>
    if s.c % 2 = 0 then
      (process key cap inp (descend (advance s))).bind (loop key cap inp fuel)
    else
      let s := up s
      if s.c = 0 then some s
      else (process key cap inp s).bind (loop key cap inp fuel)

/-- sort_imp.h:280-318 MERGE_SORT() on `An = inp.length` inputs; `m` is the (arbitrary) initial
contents of the two buffers. The result is the final contents of `buf[0]`.
`fuel` is the number of loop iterations allowed. -/
def mergeSort (key : α → κ) (inp : List α) (m : Bufs Bool α) (fuel : Nat) : Option (Bufs Bool α) :=
  let An := inp.length
  (loop key An inp fuel { i := 0, n := An, odd := 0, c := 0, b := true, base := -(An : Int), buf := m }).map
    (·.buf)

/-- sort_imp.h:320-333 merge_sortv: output buffer is `buf[0]`. -/
def mergeSortv (key : α → κ) (A : List α) (m : Bufs Bool α) : Option (List α) := do
  let m ← mergeSort key A m (A.length + 1)
  readList (m false) A.length

/-- sort_imp.h:335-352 merge_copy_perm (Duff's device): the loop body of 8 copies is entered at
`n%8`; `left` is the number of copies in the current round, `rounds` is `n_by_8`. Copies
`p[pos].i` to `idx[pos]`; `idx` is modelled as the list produced so far. An unreadable `p` cell is
`none`. For `n = 0` the C code would enter `case 0` and copy 8 entries and then wrap `n_by_8`
(never called with `n = 0`): modelled as `none`. -/
def copyPerm {β : Type} (p : Nat → Option (β × Nat)) (n : Nat) : Option (List Nat) :=
  if n = 0 then none else
  go ((n + 7) / 8) (if n % 8 = 0 then 8 else n % 8) 0 []
where
  /-- one pass through the `do { } while(--n_by_8 > 0)` -/
  go : Nat → Nat → Nat → List Nat → Option (List Nat)
    | 0, _, _, acc => some acc
    | r + 1, left, pos, acc => do
      let xs ← (List.range left).mapM fun k => (p (pos + k)).map (·.2)
      go r 8 (pos + left) (acc ++ xs)

/-- sort_imp.h:354-368 merge_sortp0: SETVAL reads `A` in order and attaches the index. -/
def mergeSortp0 (A : List κ) (m : Bufs Bool (κ × Nat)) : Option (List Nat) := do
  let m ← mergeSort (·.1) A.zipIdx m (A.length + 1)
  copyPerm (m false) A.length

/-- sort_imp.h:370-384 merge_sortp: SETVAL reads `x.i=idx[ai]`, `x.v=A[x.i]`
(`none` if an index is out of range). `idx` is only written at the end. -/
def mergeSortp (idx : List Nat) (A : List κ) (m : Bufs Bool (κ × Nat)) : Option (List Nat) := do
  let inp ← idx.mapM fun j => A[j]?.map fun v => (v, j)
  let m ← mergeSort (·.1) inp m (A.length + 1)
  copyPerm (m false) A.length

end Gslib.MergeSort
