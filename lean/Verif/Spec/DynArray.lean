import Verif.Model.DynArray

/-!
# What a growing array should do

An abstract array is the list of the bytes appended so far.
-/

namespace Gslib.Spec
open Gslib Gslib.DynArray

/-- the bytes appended by a sequence of calls -/
def appended : List Op → List UInt8
  | [] => []
  | .reserve _ :: os => appended os
  | .cat s _ :: os => s ++ appended os

/-- the largest number of rows a sequence of calls asks room for, starting with `n` rows -/
def demand (n : Nat) : List Op → Nat
  | [] => n
  | .reserve m :: os => max m (demand n os)
  | .cat _ k :: os => max (n + k) (demand (n + k) os)

/-- every `cat` is given exactly as many bytes as its row count says -/
def WellSized (size : Nat) (os : List Op) : Prop := ∀ s n, Op.cat s n ∈ os → s.length = n * size

/-- the array holds the rows `bytes`: the block has the advertised capacity and starts with these bytes -/
structure Holds (size : Nat) (a : Arr) (bytes : List UInt8) : Prop where
  block : a.block.length = a.max * size
  fits : a.n ≤ a.max
  rows : bytes.length = a.n * size
  contents : a.block.take (a.n * size) = bytes.map some

/-- number of reallocations and of rows moved by them during a sequence of calls that succeeds -/
def moves (avail : Nat → Bool) (size : Nat) : List Op → Arr → Nat × Nat
  | [], _ => (0, 0)
  | o :: os, a =>
    match o.run avail size a with
    | .ok a' =>
      let r := moves avail size os a'
      if a'.max = a.max then r else (r.1 + 1, r.2 + a.max)
    | _ => (0, 0)

end Gslib.Spec
