import Verif.Model.Nb

/-!
# Specification of programs with nonblocking operations
-/

namespace Gslib.Spec
open Gslib Gslib.Nb Gslib.Mpi

variable {A U B W : Type}

/-- the operations started by a program, in order -/
def started : List (Ev A) → List (Rec A)
  | [] => []
  | .igs _ r :: es => r :: started es
  | .wait _ :: es => started es

/-- what a program must observe; `o`: the outstanding operations with the variables their handles are stored in. An operation may be started if its array,
its buffer, its `gsh` and the variable are not those of an outstanding operation; only outstanding operations are waited for;
all are waited for in the end. -/
def Disciplined : List (Nat × Rec A) → List (Ev A) → Prop
  | o, [] => o = []
  | o, .igs v r :: es => (∀ y ∈ o, y.1 ≠ v ∧ y.2.x ≠ r.x ∧ y.2.b ≠ r.b ∧ y.2.g ≠ r.g) ∧ Disciplined (o ++ [(v, r)]) es
  | o, .wait v :: es => (∃ r, (v, r) ∈ o) ∧ Disciplined (o.filter fun y => y.1 ≠ v) es

/-- a collective operation of a history: `a` and `g` are the same on all processes, the addresses of array and buffer need not be -/
structure Op (A : Type) where
  a : A
  g : Nat
  x : Nat → Nat
  b : Nat → Nat

/-- the arguments on process `p` -/
def Op.on (o : Op A) (p : Nat) : Rec A := ⟨o.a, o.g, o.x p, o.b p⟩

/-- the processes start the operations `ops` in this order, and each of them is disciplined. The waits are placed independently on each process. -/
structure NbProgram (P : Nat) (ops : List (Op A)) (prog : Nat → List (Ev A)) : Prop where
  order : ∀ p, p < P → started (prog p) = ops.map fun o => o.on p
  disciplined : ∀ p, p < P → Disciplined [] (prog p)

/-- the user arrays after the operations were done one after the other; `eff o v`: the effect of operation `o` on its arrays `v p` of all processes -/
def oneByOne (eff : Op A → (Nat → U) → Nat → U) : List (Op A) → (Nat → Nat → U) → Nat → Nat → U
  | [], m => m
  | o :: os, m => oneByOne eff os fun p => Function.update (m p) (o.x p) (eff o (fun q => m q (o.x q)) p)

/-- what every schedule of a program with nonblocking operations does: no execution is infinite, none stops before all processes have ended
(also if sends complete only when the receive is posted), and in the end `Q` holds of the user arrays, no message is left and the table of requests is released -/
structure AllNbSchedules (ex : A → Nat → Nat → Step (U × B) W) (P : Nat) (prog : Nat → List (Ev A)) (u0 : Nat → Nat → U) (b0 : Nat → Nat → B)
    (Q : (Nat → Nat → U) → Prop) : Prop where
  noInfinite : ¬ ∃ f : Nat → Conf A U B W, f 0 = start prog u0 b0 ∧ ∀ i, Nb.Trans ex P (f i) (f (i + 1))
  noDeadlock : ∀ c, Nb.Reach ex P (start prog u0 b0) c → ¬ Nb.Finished P c → (∃ c', Nb.Trans ex P c c') ∧ ∃ p, p < P ∧ ReadyStrict ex c p
  result : ∀ c, Nb.Reach ex P (start prog u0 b0) c → Nb.Finished P c → Q (fun p => (c.st p).u) ∧
    (∀ g a b t, a < P → b < P → c.chan g a b t = []) ∧ ∀ p, p < P → (c.st p).tab = Tab.Nb.empty

end Gslib.Spec
