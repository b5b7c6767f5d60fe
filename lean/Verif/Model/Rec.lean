import Verif.Model.GsTopo

/-!
# Arrays of C structs made of doubles and unsigned integers

The structs sent by findpts (findpts.c:33, findpts_imp.h:268-269, 528-529): `k` doubles followed by `m` `uint`s (4 bytes) and padding to a multiple of 8 bytes. A double is its bit pattern, a number below `2^64`.
The padding bytes, never read by the code, are taken to be zero.
-/

namespace Gslib.Gs
open Gslib Gslib.Mpi Gslib.Transfer

/-- a struct of `k` doubles and `m` integers -/
@[ext] structure Rec (k m : Nat) where
  /-- the bit patterns of the doubles -/
  d : Fin k → Nat
  /-- the integers -/
  u : Fin m → Nat

/-- memory layout; `j` is the position of the processor field among the integers -/
def recLayout (k m : Nat) (j : Fin m) (pad : Nat) : Layout (Rec k m) where
  size := 8 * k + 4 * m + pad
  pOff := 8 * k + 4 * j.val
  enc r := (List.ofFn fun i => le8 (r.d i)).flatten ++ (List.ofFn fun i => le4 (r.u i)).flatten ++ List.replicate pad 0
  dec b := ⟨fun i => unle ((b.drop (8 * i.val)).take 8), fun i => unle ((b.drop (8 * k + 4 * i.val)).take 4)⟩

/-- assignment to integer field `j` -/
def Rec.set {k m : Nat} (j : Fin m) (w : Nat) (r : Rec k m) : Rec k m := { r with u := fun i => if i = j then w else r.u i }

/-- `sarray_transfer(struct .., &array, proc, setSrc, cr)` for the array held in the transfer memory `get s` -/
def recTransfer {σ : Type} (get : σ → TrState) (set : σ → TrState → σ) (np : Nat) {k m : Nat} (j : Fin m) (pad : Nat) (setSrc : Bool) : Coll σ (List Nat) :=
  (sarrayTransfer np (recLayout k m j pad).size (recLayout k m j pad).pOff setSrc).lift get set

/-- `sarray_transfer_ext(struct .., &array, proc, sizeof(uint), cr)`: destinations in a separate array -/
def recTransferExt {σ : Type} (get : σ → TrState) (set : σ → TrState → σ) (np : Nat) {k m : Nat} (j : Fin m) (pad : Nat) : Coll σ (List Nat) :=
  (sarrayTransferExt np (recLayout k m j pad).size 4).lift get set

end Gslib.Gs
