import Verif.Model.Mpi

/-!
# Specification: what it means that every schedule of a parallel program does something
-/

namespace Gslib.Spec
open Gslib.Mpi

/-- what every schedule of a program does: no execution is infinite, none stops before all processes have ended
(also if sends complete only when the receive is posted), and in the end `Q` holds and no message is left -/
structure AllSchedules {S W : Type} (prog : Nat → Prog S W) (P : Nat) (s0 : Nat → S) (Q : (Nat → S) → Prop) : Prop where
  noInfinite : ¬ ∃ f : Nat → Conf S W, f 0 = start prog s0 ∧ ∀ i, Trans P (f i) (f (i + 1))
  noDeadlock : ∀ c, Reach P (start prog s0) c → ¬ Finished P c → (∃ c', Trans P c c') ∧
    ((∃ p, p < P ∧ (c.proc p).posted = false ∧ (c.proc p).rest ≠ []) ∨ ∃ p, p < P ∧ ReadyStrict c p)
  result : ∀ c, Reach P (start prog s0) c → Finished P c → Q (fun p => (c.proc p).st) ∧
    ∀ a b g, a < P → b < P → c.chan a b g = []

end Gslib.Spec
