import Mathlib.Order.Defs.LinearOrder
import Mathlib.Logic.Function.Basic

/-!
# Model of `heap_sortv`, src/sort_imp.h:397-421

The array is a total function with `n` valid cells; any access at an index `≥ n` is undefined
behaviour (`none`).
-/

namespace Gslib.HeapSort

variable {α κ : Type} [LinearOrder κ]

/-- bounds-checked read -/
def rdA (n : Nat) (a : Nat → α) (k : Nat) : Option α := if k < n then some (a k) else none

/-- bounds-checked write -/
def wrA (n : Nat) (a : Nat → α) (k : Nat) (v : α) : Option (Nat → α) :=
  if k < n then some (Function.update a k v) else none

/-- sort_imp.h:405-406 `do A[h]=A[p], h=p, p=(p-1)>>1; while(h && A[p] < item); A[h] = item;`
entered with `h > 0`, `p = (h-1)>>1`. (When `h` becomes 0, C computes the wrapped-around value
`(0u-1)>>1` for `p` but does not use it.) -/
def siftUp (key : α → κ) (n : Nat) (item : α) (h : Nat) (a : Nat → α) : Option (Nat → α) :=
  if hh : h = 0 then none else do
    let p := (h - 1) / 2
    let x ← rdA n a p
    let a ← wrA n a h x
    if p = 0 then wrA n a p item
    else do
      let y ← rdA n a ((p - 1) / 2)
      if key y < key item then siftUp key n item p a else wrA n a p item
termination_by h
decreasing_by omega

/-- sort_imp.h:401-407, body of the build loop for `i` -/
def buildStep (key : α → κ) (n i : Nat) (a : Nat → α) : Option (Nat → α) := do
  let item ← rdA n a i
  let x ← rdA n a ((i - 1) / 2)
  if key item ≤ key x then some a else siftUp key n item i a

/-- sort_imp.h:401 `for(i=1;i<n;++i)`; `r` iterations left -/
def build (key : α → κ) (n : Nat) : Nat → Nat → (Nat → α) → Option (Nat → α)
  | 0, _, a => some a
  | r + 1, i, a => (buildStep key n i a).bind (build key n r (i + 1))

/-- sort_imp.h:414-415 `ch=1+(h<<1), r=ch+1; if(r<i && A[ch]<A[r]) ch=r;` -/
def pickChild (key : α → κ) (n i h : Nat) (a : Nat → α) : Option Nat :=
  let ch := 1 + h * 2
  let r := ch + 1
  if r < i then do
    let x ← rdA n a ch
    let y ← rdA n a r
    if key x < key y then some r else some ch
  else some ch

/-- sort_imp.h:413-419: `for(;;) { [pickChild]; if(ch>=i || item>=A[ch]) break; A[h]=A[ch], h=ch; }
A[h]=item;` (the first argument is fuel; running out is `none`) -/
def siftDown (key : α → κ) (n i : Nat) (item : α) : Nat → Nat → (Nat → α) → Option (Nat → α)
  | 0, _, _ => none
  | fuel + 1, h, a => do
    let ch ← pickChild key n i h a
    if i ≤ ch then wrA n a h item
    else do
      let x ← rdA n a ch
      if key x ≤ key item then wrA n a h item
      else do
        let a ← wrA n a h x
        siftDown key n i item fuel ch a

/-- sort_imp.h:409-420 body of the extraction loop for `i` -/
def extractStep (key : α → κ) (n i : Nat) (a : Nat → α) : Option (Nat → α) := do
  let item ← rdA n a i
  let x ← rdA n a 0
  let a ← wrA n a i x
  siftDown key n i item i 0 a

/-- sort_imp.h:409 `for(i=n-1;i;--i)` -/
def extract (key : α → κ) (n : Nat) : Nat → (Nat → α) → Option (Nat → α)
  | 0, a => some a
  | i + 1, a => (extractStep key n (i + 1) a).bind (extract key n i)

/-- sort_imp.h:397-421 heap_sortv (called with `n >= 2`; for `n = 0` the C loop bound `n-1` wraps:
modelled as `none`) -/
def heapSortv (key : α → κ) (n : Nat) (a : Nat → α) : Option (Nat → α) :=
  if n = 0 then none else (build key n (n - 1) 1 a).bind (extract key n (n - 1))

end Gslib.HeapSort
