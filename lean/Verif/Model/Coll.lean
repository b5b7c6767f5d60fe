import Verif.Model.Mpi

/-!
# Composition of collective operations

A collective operation is a program for each process. Local computations, sequences of collective operations
(a process may enter the second one while others are still in the first) and operations on a part of the memory.
-/

namespace Gslib.Mpi
open Gslib

/-- a collective operation; `T` bounds the labels of its steps -/
structure Coll (S W : Type) where
  T : Nat
  prog : Nat → Prog S W

variable {S W A : Type}

/-- lockstep execution on processes `0..P-1` -/
def Coll.run (c : Coll S W) (P : Nat) (s : Nat → S) : Outcome (Nat → S) := lockRun c.prog P c.T s

/-- every process `p` computes `f p` on its memory, no communication -/
def Coll.loc (f : Nat → S → Outcome S) (w : W) : Coll S W :=
  ⟨1, fun p => [⟨0, f p, [], fun _ _ => w, [], fun s _ => .ok s⟩]⟩

/-- renumber the labels (not part of the program, see `Step.label`) -/
def Step.shift (k : Nat) (s : Step S W) : Step S W := { s with label := k + s.label }

/-- first `a`, then `b` -/
def Coll.seq (a b : Coll S W) : Coll S W :=
  ⟨a.T + b.T, fun p => a.prog p ++ (b.prog p).map (Step.shift a.T)⟩

/-- a step on a part of the memory -/
def Step.lift (get : S → A) (set : S → A → S) (s : Step A W) : Step S W where
  label := s.label
  pre x := (s.pre (get x)).bind fun a => .ok (set x a)
  sends := s.sends
  payload x k := s.payload (get x) k
  recvs := s.recvs
  post x v := (s.post (get x) v).bind fun a => .ok (set x a)

/-- an operation on a part of the memory -/
def Coll.lift (get : S → A) (set : S → A → S) (c : Coll A W) : Coll S W :=
  ⟨c.T, fun p => (c.prog p).map (Step.lift get set)⟩

end Gslib.Mpi
