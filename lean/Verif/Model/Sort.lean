import Verif.Model.Outcome
import Verif.Model.MergeSort
import Verif.Model.Radix
import Verif.Model.HeapSort
import Mathlib.Order.Nat

/-!
# Model of `sortv` / `sortp`, src/sort_imp.h:448-546
-/

namespace Gslib

namespace Sorting
open Gslib

variable {α κ : Type} [LinearOrder κ]

/-- scratch memory and initial contents of the output array: arbitrary -/
structure Scratch (α : Type) where
  out : Nat → Option α
  work : Nat → Option α

/-- buffers of the merge sort: `buf[0] = out`, `buf[1] = work`, sort_imp.h:325 -/
def Scratch.bufs {α : Type} (s : Scratch α) : Bufs Bool α := fun b => if b then s.work else s.out

/-- buffers of the radix sort -/
def Scratch.rbufs (s : Scratch Nat) (A : List Nat) : Bufs Radix.Loc Nat
  | .A => fun k => A[k]?
  | .out => s.out
  | .work => s.work

/-- heap_sortv on a list: run on the array and read back -/
def heapList (key : α → κ) (A : List α) : Option (List α) :=
  match A with
  | [] => none
  | x :: xs =>
    (HeapSort.heapSortv key A.length (fun k => (x :: xs).getD k x)).map fun a => (List.range A.length).map a

/-- sort_imp.h:448-477 sortv for unsigned integer keys with `D` bytes (uint: 4, ulong: 8).
`inPlace` is `out==A`, `unitStride` is `stride==sizeof(T)`. Result: final contents of `out[0..n)`
(`[]` for `n = 0`, where nothing is written). -/
def sortvInt (D : Nat) (inPlace unitStride : Bool) (A : List Nat) (s : Scratch Nat) : Outcome (List Nat) :=
  let n := A.length
  if n < 256 then
    if n < 2 then
      if n = 0 then .ok [] else .ok (A.take 1)
    else if inPlace then
      if !unitStride then .abort else .ofOption (heapList id A)
    else .ofOption (MergeSort.mergeSortv id A s.bufs)
  else
    .ofOption do
      let m ← Radix.radixSortv D n inPlace (s.rbufs A)
      readList (m (if inPlace then .A else .out)) n

/-- sort_imp.h:514-529 sortv for `double`/`float` (REALSORT). `key` maps a value to a linear order
(identifies `0.0` and `-0.0`; NaN is excluded). -/
def sortvReal (key : α → κ) (inPlace unitStride : Bool) (A : List α) (s : Scratch α) : Outcome (List α) :=
  let n := A.length
  if n < 2 then
    if n = 0 then .ok [] else .ok (A.take 1)
  else if inPlace then
    if !unitStride then .abort else .ofOption (heapList key A)
  else .ofOption (MergeSort.mergeSortv key A s.bufs)

/-- buffers of merge_sortp: `buf[0]=work+An`, `buf[1]=work` (sort_imp.h:359, 375) -/
structure ScratchP (κ : Type) where
  idx : Nat → Option Nat
  work : Bufs Bool (κ × Nat)

/-- sort_imp.h:479-511 sortp for unsigned integer keys with `D` bytes. `perm = some q`: `start_perm != 0` and the
buffer starts with `q`. Result: the permutation left at the start of the buffer. -/
def sortpInt (D : Nat) (perm : Option (List Nat)) (A : List Nat) (s : ScratchP Nat) : Outcome (List Nat) :=
  let n := A.length
  if n < 256 then
    if n < 2 then
      if n = 1 then .ok [0] else .ok []
    else match perm with
      | some q => .ofOption (MergeSort.mergeSortp q A s.work)
      | none => .ofOption (MergeSort.mergeSortp0 A s.work)
  else .ofOption (Radix.radixSortp D perm A s.work fun _ => s.idx)

/-- sort_imp.h:531-546 sortp for `double`/`float` (REALSORT); the keys are already mapped to a linear
order -/
def sortpReal (perm : Option (List Nat)) (A : List κ) (s : ScratchP κ) : Outcome (List Nat) :=
  let n := A.length
  if n < 2 then
    if n = 1 then .ok [0] else .ok []
  else match perm with
    | some q => .ofOption (MergeSort.mergeSortp q A s.work)
    | none => .ofOption (MergeSort.mergeSortp0 A s.work)

end Sorting
end Gslib
