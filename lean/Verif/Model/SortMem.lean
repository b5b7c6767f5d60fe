import Verif.Model.SarraySort
import Verif.Model.Strided
import Verif.Model.DynArray
import Verif.Spec.SortMem

/-!
# `sortv`, `sortp`, `sarray_sort` on data in memory, with strides (src/sort_imp.h, src/sarray_sort.c, src/sarray_sort.h)

The sorts of `Model/Sort` take the list of keys; here the keys are read from memory the way the code does: by a pointer advanced by the stride (`INC_PTR`), with the end pointer and random
accesses computed by `INDEX_PTR`, a product of two unsigned 32-bit numbers. The permutation and the work space lie in the buffer (another block), as arrays of
`uint` and `sort_data`: `Layout` below says where.
-/

namespace Gslib.SortMem
open Gslib Gslib.Spec Gslib.Sorting Gslib.DynArray Gslib.Sarray

variable {κ : Type} [LinearOrder κ]

/-- sort_imp.h:30 `INDEX_PTR(A,stride,i)`: `(i)*(stride)` is a 32-bit product -/
def indexPtr (base stride i : Nat) : Nat := base + i * stride % 4294967296

/-- sort_imp.h:74-92 radix_count: `do { .. } while(INC_PTR(A,stride),A!=end)`. The first argument bounds the number of rounds; the result is `none` if `end` is not reached in this number of rounds or if the
pointer leaves the memory of the program -/
def countLoop (D : Nat) (m : Bytes) (stride en : Nat) : Nat → Nat → Nat × (Nat → Nat → Nat) → Option (Nat × (Nat → Nat → Nat))
  | 0, _, _ => none
  | f + 1, a, acc =>
    (Fp.ld D m a).bind fun v =>
    let acc := (acc.1 ||| v, Radix.countDigits D 0 v acc.2)
    if a + stride ≠ en then countLoop D m stride en f (a + stride) acc else some acc

/-- sort_imp.h:134-139, 230-237 the counting of radix_sortv and radix_sortp. (If `end` is reached, then in at most `n` rounds, since `end` is at most `A+n*stride`.) -/
def countM (D : Nat) (m : Bytes) (base stride n : Nat) : Option (Nat × (Nat → Nat → Nat)) :=
  countLoop D m stride (indexPtr base stride n) n base (0, fun _ _ => 0)

/-- the first pass of radix_sortp: `INC_PTR` without starting permutation (sort_imp.h:158-169, 205-212), `INDEX_PTR` with one (sort_imp.h:171-184, 214-228) -/
def firstReadM (D : Nat) (perm : Option (List Nat)) (m : Bytes) (base stride : Nat) (i : Nat) : Option (Nat × Nat) :=
  match perm with
  | none => (Fp.ld D m (base + i * stride)).map fun v => (v, i)
  | some p => p[i]?.bind fun j => (Fp.ld D m (indexPtr base stride j)).map fun v => (v, j)

/-- sort_imp.h:230-257 radix_sortp -/
def radixSortpM (D : Nat) (perm : Option (List Nat)) (m : Bytes) (base stride n : Nat) (w : Bufs Bool (Nat × Nat)) (idx0 : Bufs Unit Nat) : Option (List Nat) :=
  (countM D m base stride n).bind fun c =>
  match Radix.radixZeros D 0 c.1 c.2 with
  | [] => match perm with
    | none => some (List.range n)
    | some p => some p
  | [(sh0, off0)] =>
    (Radix.pass n (fun x : Nat × Nat => Radix.digit sh0 x.1) (·.2) (fun _ i => firstReadM D perm m base stride i) () n 0 off0 idx0).bind fun w =>
    readList (w ()) n
  | (sh0, off0) :: d1 :: ds =>
    let digits := ds.length + 2
    let src := if digits % 2 == 0 then true else false
    (Radix.pass n (fun x : Nat × Nat => Radix.digit sh0 x.1) id (fun _ i => firstReadM D perm m base stride i) src n 0 off0 w).bind fun w =>
    (Radix.passesP n d1 ds src w).bind fun r =>
    (Radix.pass n (fun x : Nat × Nat => Radix.digit r.2.2.1 x.1) (·.2) (fun _ i => rd n r.1 r.2.1 i) () n 0 r.2.2.2 idx0).bind fun w =>
    readList (w ()) n

/-- the keys in the order in which merge_sortv and merge_sortp0 read them, `*A,INC_PTR(A,stride)` (sort_imp.h:329, 361) -/
def seqKeys (sz : Nat) (m : Bytes) (base stride n : Nat) : Option (List Nat) := (List.range n).mapM fun i => Fp.ld sz m (base + i * stride)

/-- sort_imp.h:354-368 merge_sortp0; `val` is the number the contents of a variable stands for -/
def mergeSortp0M (sz : Nat) (val : Nat → κ) (m : Bytes) (base stride n : Nat) (w : Bufs Bool (κ × Nat)) : Option (List Nat) :=
  (seqKeys sz m base stride n).bind fun A => MergeSort.mergeSortp0 (A.map val) w

/-- sort_imp.h:370-384 merge_sortp: `x.i=idx[ai],x.v=INDEX_PTR(A,stride,x.i)` -/
def mergeSortpM (sz : Nat) (val : Nat → κ) (idx : List Nat) (m : Bytes) (base stride n : Nat) (w : Bufs Bool (κ × Nat)) : Option (List Nat) :=
  (idx.mapM fun j => (Fp.ld sz m (indexPtr base stride j)).map fun v => (val v, j)).bind fun inp =>
  (MergeSort.mergeSort (·.1) inp w (n + 1)).bind fun w => MergeSort.copyPerm (w false) n

/-- sort_imp.h:479-511 sortp, keys of `D` bytes (uint: 4, ulong: 8) -/
def sortpIntM (D : Nat) (perm : Option (List Nat)) (m : Bytes) (base stride n : Nat) (s : ScratchP Nat) : Outcome (List Nat) :=
  if n < 256 then
    if n < 2 then
      if n = 1 then .ok [0] else .ok []
    else match perm with
      | some q => .ofOption (mergeSortpM D id q m base stride n s.work)
      | none => .ofOption (mergeSortp0M D id m base stride n s.work)
  else .ofOption (radixSortpM D perm m base stride n s.work fun _ => s.idx)

/-- sort_imp.h:531-546 sortp for `double`/`float` -/
def sortpRealM (sz : Nat) (val : Nat → κ) (perm : Option (List Nat)) (m : Bytes) (base stride n : Nat) (s : ScratchP κ) : Outcome (List Nat) :=
  if n < 2 then
    if n = 1 then .ok [0] else .ok []
  else match perm with
    | some q => .ofOption (mergeSortpM sz val q m base stride n s.work)
    | none => .ofOption (mergeSortp0M sz val m base stride n s.work)

/-- sort_imp.h:134-156 radix_sortv with `out != A`; `out` and `work` are arrays of `T` -/
def radixSortvM (D : Nat) (m : Bytes) (base stride n : Nat) (w : Bufs Radix.Loc Nat) : Option (Bufs Radix.Loc Nat) :=
  (countM D m base stride n).bind fun c =>
  match Radix.radixZeros D 0 c.1 c.2 with
  | [] => some (fun b k => if b = .out ∧ k < n then some 0 else w b k)
  | (sh0, off0) :: ds =>
    let digits := ds.length + 1
    let src := if digits % 2 == 0 then Radix.Loc.work else .out
    let dst := if digits % 2 == 0 then Radix.Loc.out else .work
    (passvM D m stride (indexPtr base stride n) sh0 src n n base off0 w).bind fun w =>
    (Radix.passes n ds src dst w).bind fun r =>
    if r.2 ≠ .out then some (fun b k => if b = .out ∧ k < n then r.1 r.2 k else r.1 b k) else some r.1
where
  /-- sort_imp.h:127-132 radix_passv on the strided input: `do out[off[(*A>>sh)&DIGIT_MASK]++] = *A; while(INC_PTR(A,stride),A!=end)` -/
  passvM (D : Nat) (m : Bytes) (stride en sh : Nat) (dst : Radix.Loc) (n : Nat) : Nat → Nat → (Nat → Nat) → Bufs Radix.Loc Nat → Option (Bufs Radix.Loc Nat)
    | 0, _, _, _ => none
    | f + 1, a, off, w =>
      (Fp.ld D m a).bind fun x =>
      (wr n w dst (off (Radix.digit sh x)) x).bind fun w =>
      if a + stride ≠ en then passvM D m stride en sh dst n f (a + stride) (Function.update off (Radix.digit sh x) (off (Radix.digit sh x) + 1)) w else some w

/-- sort_imp.h:448-477 sortv with `out != A`; the result is the contents of `out[0..n)` -/
def sortvIntM (D : Nat) (m : Bytes) (base stride n : Nat) (s : Scratch Nat) : Outcome (List Nat) :=
  if n < 256 then
    if n < 2 then
      if n = 0 then .ok [] else .ofOption ((Fp.ld D m base).map fun v => [v])
    else .ofOption ((seqKeys D m base stride n).bind fun A => MergeSort.mergeSortv id A s.bufs)
  else .ofOption ((radixSortvM D m base stride n (s.rbufs [])).bind fun w => readList (w .out) n)

/-- sarray_sort.h:49-58 sarray_sort_field: the first key lies at `offsetof`, the stride is `sizeof(T)` -/
def sortFieldM (f : MemField κ) (base size n : Nat) (m : Bytes) (keep : Option (List Nat)) (s : ScratchF κ) : Outcome (List Nat) :=
  match f with
  | .int D off => sortpIntM D keep m (base + off) size n s.i
  | .real sz off val => sortpRealM sz val keep m (base + off) size n s.r

/-- sarray_sort.h:60-86: the fields from the last (keep=0) to the first (keep=1) -/
def sortFieldsM (base size n : Nat) (m : Bytes) (s : ScratchF κ) : List (MemField κ) → Outcome (Option (List Nat))
  | [] => .ok none
  | f :: fs => (sortFieldsM base size n m s fs).bind fun q => (sortFieldM f base size n m q s).bind fun p => .ok (some p)

/-- `memcpy(dst,src,size)`; undefined if a byte is not accessible or the two overlap -/
def memcpy (size dst src : Nat) (m : Bytes) : Option Bytes :=
  if (∀ k, k < size → (m (dst + k)).isSome = true ∧ (m (src + k)).isSome = true) ∧ (dst + size ≤ src ∨ src + size ≤ dst) then
    some fun b => if dst ≤ b ∧ b < dst + size then m (src + (b - dst)) else m b
  else none

/-- `memcpy(item,dst,size)` to the work space -/
def loadRow (size a : Nat) (m : Bytes) : Option Bytes :=
  if ∀ k, k < size → (m (a + k)).isSome = true then some fun k => if k < size then m (a + k) else none else none

/-- `memcpy(dst,item,size)` from the work space -/
def storeRow (size a : Nat) (item m : Bytes) : Option Bytes :=
  if ∀ k, k < size → (m (a + k)).isSome = true ∧ (item k).isSome = true then some fun b => if a ≤ b ∧ b < a + size then item (b - a) else m b else none

/-- sarray_sort.c:25-33; `pi*size` is a product of `size_t` -/
def cycleM (base size n i : Nat) (item : Bytes) : Nat → Nat → Int → Bytes → (Nat → Int) → Option (Bytes × (Nat → Int))
  | 0, _, _, _, _ => none
  | fuel + 1, dst, pi, m, fp =>
    if pi < 0 ∨ (n : Int) ≤ pi then none else
    let src := base + pi.toNat * size
    (memcpy size dst src m).bind fun m =>
    let ppi := fp pi.toNat
    let fp := Function.update fp pi.toNat (-ppi - 1)
    if ppi = (i : Int) then (storeRow size src item m).map fun m => (m, fp)
    else cycleM base size n i item fuel src ppi m fp

/-- sarray_sort.c:19-35 -/
def permStepM (base size n i : Nat) (m : Bytes) (fp : Nat → Int) : Option (Bytes × (Nat → Int)) :=
  let pi := fp i
  if pi < 0 then some (m, Function.update fp i (-pi - 1))
  else if pi = (i : Int) then some (m, fp)
  else (loadRow size (base + i * size) m).bind fun item => cycleM base size n i item n (base + i * size) pi m fp

/-- sarray_sort.c:19 -/
def permLoopM (base size n : Nat) : Nat → Nat → Bytes → (Nat → Int) → Option (Bytes × (Nat → Int))
  | 0, _, m, fp => some (m, fp)
  | r + 1, i, m, fp => (permStepM base size n i m fp).bind fun x => permLoopM base size n r (i + 1) x.1 x.2

/-- sarray_sort.c:14-37 sarray_permute_ -/
def sarrayPermuteM (base size n : Nat) (m : Bytes) (perm : List Nat) : Option (Bytes × List Int) :=
  if perm.length ≠ n then none else
  (permLoopM base size n n 0 m fun k => Int.ofNat (perm.getD k 0)).map fun r => (r.1, (List.range n).map r.2)

/-- sarray_sort.h:60-86 sarray_sort, sarray_sort_2, _3, _4 on the array of `n` structs of `size` bytes at `base`; the result is the memory after the call -/
def sarraySortM (fs : List (MemField κ)) (base size n : Nat) (m : Bytes) (s : ScratchF κ) : Outcome Bytes :=
  (sortFieldsM base size n m s fs).bind fun
    | none => .ok m
    | some p => .ofOption ((sarrayPermuteM base size n m p).map (·.1))

/-! ### the buffer -/

/-- sort_imp.h:482, 536 `work_off=align_as(sort_data,n*sizeof(uint))`; `al` is the alignment of `sort_data` -/
def workOff (al n : Nat) : Nat := alignAs al (wrap (n * 4))

/-- sort_imp.h:484, 495, 537 the argument of `buffer_reserve`: `work_off+2*n*sizeof(sort_data)`; `2*n` is a product of a 32-bit `int` and a `uint` -/
def sortpReserve (sz al n : Nat) : Nat := wrap (workOff al n + wrap (2 * n % 4294967296 * sz))

/-- offset in the buffer of `perm[k]` (sort_imp.h:485) -/
def permOff (k : Nat) : Nat := 4 * k

/-- offset of entry `k` of `work` (`b=0`) or `work+n` (`b=1`), the two halves of the work space (sort_imp.h:244-246, 359) -/
def workAt (sz al n : Nat) (b : Bool) (k : Nat) : Nat := workOff al n + ((if b then n else 0) + k) * sz

/-- sarray_sort.c:42 the argument of `buffer_reserve` in sarray_permute_buf_ -/
def permuteReserve (al size n : Nat) : Nat := alignAs al (wrap (wrap (n * 4) + size))

/-- sarray_sort.c:44 offset of the work space of sarray_permute_buf_ -/
def permuteWork (al n : Nat) : Nat := alignAs al (wrap (n * 4))

end Gslib.SortMem
