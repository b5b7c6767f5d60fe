import Verif.Model.Mem
import Mathlib.Logic.Function.Basic

/-!
# Model of the radix sort of `src/sort_imp.h`

Keys are unsigned integers of `D` 8-bit digits (`D = DIGITS`, sort_imp.h:55-62), modelled by `Nat`.
-/

namespace Gslib.Radix
open Gslib

/-- sort_imp.h:131 `(*A>>sh)&DIGIT_MASK` -/
def digit (sh v : Nat) : Nat := (v >>> sh) &&& 255

/-- sort_imp.h:66-67 COUNT_DIGIT: `count[i][val&DIGIT_MASK]++, val>>=DIGIT_BITS` for the digits
`i, i+1, ...` (`r` of them). -/
def countDigits : Nat → Nat → Nat → (Nat → Nat → Nat) → (Nat → Nat → Nat)
  | 0, _, _, count => count
  | r + 1, i, val, count =>
    countDigits r (i + 1) (val >>> 8)
      (Function.update count i (Function.update (count i) (val &&& 255) (count i (val &&& 255) + 1)))

/-- sort_imp.h:74-92 radix_count: returns the bitwise or of all inputs and the table of digit
counts. (The C loop is a `do ... while`, only called with `n >= 256`.) -/
def radixCount (D : Nat) (A : List Nat) : Nat × (Nat → Nat → Nat) :=
  A.foldl (fun acc val => (acc.1 ||| val, countDigits D 0 val acc.2)) (0, fun _ _ => 0)

/-- sort_imp.h:102-113 radix_offsets, `g` groups of four left, at position `c`. -/
def radixOffsetsLoop : Nat → Nat → Nat → (Nat → Nat) → (Nat → Nat)
  | 0, _, _, t => t
  | g + 1, c, sum, t =>
    let c0 := t c; let c1 := t (c + 1); let c2 := t (c + 2); let c3 := t (c + 3)
    let o1 := sum + c0; let o2 := o1 + c1; let o3 := o2 + c2
    radixOffsetsLoop g (c + 4) (o3 + c3)
      (Function.update (Function.update (Function.update (Function.update t c sum) (c + 1) o1) (c + 2) o2)
        (c + 3) o3)

/-- sort_imp.h:102-113, on the 256 entries of a row -/
def radixOffsets (t : Nat → Nat) : Nat → Nat := radixOffsetsLoop 64 0 0 t

/-- sort_imp.h:115-125 radix_zeros: list of `(shift, row)` of the digits that are not zero in
every input, with the row replaced by its offsets. `r` digits are left, `i` is the current digit. -/
def radixZeros : Nat → Nat → Nat → (Nat → Nat → Nat) → List (Nat × (Nat → Nat))
  | 0, _, _, _ => []
  | r + 1, i, bitorkey, count =>
    let rest := radixZeros r (i + 1) (bitorkey >>> 8) count
    if bitorkey &&& 255 ≠ 0 then (i * 8, radixOffsets (count i)) :: rest else rest

/-- The counting-sort pass shared by radix_passv (sort_imp.h:127-132), radix_passp0_b (158-169),
radix_passp_b (171-184), radix_passp_m (186-195), radix_passp_e (197-203), radix_passp0_be
(205-212) and the loop of radix_passp_be (214-228): element `i` is read from the source, and
written at `out[off[digit]++]`. `src m i` reads the `i`-th source element *from the current
memory*, `dig` extracts its digit and `f` is what is stored. -/
def pass {ι α β : Type} [DecidableEq ι] (n : Nat) (dig : α → Nat) (f : α → β)
    (src : Bufs ι β → Nat → Option α) (dst : ι) :
    Nat → Nat → (Nat → Nat) → Bufs ι β → Option (Bufs ι β)
  | 0, _, _, m => some m
  | r + 1, i, off, m => do
    let x ← src m i
    let m ← wr n m dst (off (dig x)) (f x)
    pass n dig f src dst r (i + 1) (Function.update off (dig x) (off (dig x) + 1)) m

/-- the three arrays radix_sortv works on -/
inductive Loc | A | out | work
  deriving DecidableEq, Repr

/-- sort_imp.h:147-151, the passes after the first; swaps `src` and `dst` after each. Returns the
memory and the final `src`. -/
def passes (n : Nat) : List (Nat × (Nat → Nat)) → Loc → Loc → Bufs Loc Nat → Option (Bufs Loc Nat × Loc)
  | [], src, _, m => some (m, src)
  | (sh, off) :: ds, src, dst, m => do
    let m ← pass n (digit sh) id (fun m i => rd n m src i) dst n 0 off m
    passes n ds dst src m

/-- sort_imp.h:134-156 radix_sortv. `inPlace` tells whether `out == A`; the strided input is
viewed as the buffer `Loc.A` of its `n` keys. `memset`/`memcpy` write the whole buffer. -/
def radixSortv (D n : Nat) (inPlace : Bool) (m : Bufs Loc Nat) : Option (Bufs Loc Nat) := do
  let out := if inPlace then Loc.A else Loc.out
  let A ← readList (m .A) n
  let (bitorkey, count) := radixCount D A
  match radixZeros D 0 bitorkey count with
  | [] => some (fun b k => if b = out ∧ k < n then some 0 else m b k)
  | (sh0, off0) :: ds =>
    let digits := ds.length + 1
    let src := if inPlace || digits % 2 == 0 then Loc.work else out
    let dst := if inPlace || digits % 2 == 0 then out else Loc.work
    let m ← pass n (digit sh0) id (fun m i => rd n m .A i) src n 0 off0 m
    let (m, src) ← passes n ds src dst m
    if src ≠ out then some (fun b k => if b = out ∧ k < n then m src k else m b k) else some m

/-- sort_imp.h:250-254 the middle passes of radix_sortp between the two halves of `work`; the last
digit is not done here. Returns the memory, the final `src` half and the last digit. -/
def passesP (n : Nat) : Nat × (Nat → Nat) → List (Nat × (Nat → Nat)) → Bool → Bufs Bool (Nat × Nat) →
    Option (Bufs Bool (Nat × Nat) × Bool × (Nat × (Nat → Nat)))
  | d, [], src, m => some (m, src, d)
  | (sh, off), d' :: ds, src, m => do
    let m ← pass n (fun x : Nat × Nat => digit sh x.1) id (fun m i => rd n m src i) (!src) n 0 off m
    passesP n d' ds (!src) m

/-- the source of the first pass of radix_sortp: without starting permutation the keys in order,
tagged with their index (sort_imp.h:158-169, 205-212); with one, `j = p[i]`, `v = A[j]`
(sort_imp.h:171-184, 214-228) -/
def firstRead (perm : Option (List Nat)) (A : List Nat) (i : Nat) : Option (Nat × Nat) :=
  match perm with
  | none => A[i]?.map fun v => (v, i)
  | some p => p[i]?.bind fun j => A[j]?.map fun v => (v, j)

/-- sort_imp.h:230-257 radix_sortp. `perm` is the starting permutation (`perm_start != 0`) or
`none`; the result is the final contents of `idx`. The halves `work`, `work+n` are `false`,
`true`. `idx0` is the initial contents of `idx` when there is no starting permutation
(irrelevant: always overwritten). -/
def radixSortp (D : Nat) (perm : Option (List Nat)) (A : List Nat) (m : Bufs Bool (Nat × Nat))
    (idx0 : Bufs Unit Nat) : Option (List Nat) := do
  let n := A.length
  let (bitorkey, count) := radixCount D A
  match radixZeros D 0 bitorkey count with
  | [] => match perm with
    | none => some (List.range n)
    | some p => some p
  | [(sh0, off0)] =>
    let w ← pass n (fun x : Nat × Nat => digit sh0 x.1) (·.2) (fun _ i => firstRead perm A i) () n 0 off0 idx0
    readList (w ()) n
  | (sh0, off0) :: d1 :: ds =>
    let digits := ds.length + 2
    let src := if digits % 2 == 0 then true else false
    let m ← pass n (fun x : Nat × Nat => digit sh0 x.1) id (fun _ i => firstRead perm A i) src n 0 off0 m
    let (m, src, (sh, off)) ← passesP n d1 ds src m
    let w ← pass n (fun x : Nat × Nat => digit sh x.1) (·.2) (fun _ i => rd n m src i) () n 0 off idx0
    readList (w ()) n

end Gslib.Radix
