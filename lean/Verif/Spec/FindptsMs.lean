import Verif.Spec.Findpts

/-!
# Specification of the point search in overlapping meshes

Process `q` belongs to session `sess q`. Each session has its best result; among these the one with the largest value of the distance function `disti` is taken.
-/

namespace Gslib.Spec
open Gslib Gslib.Fp

variable {D : Nat} {K : Type} [LinearOrder K]

/-- `res` is a best result among the candidates `C`: "not found" when there is none; else it is a best result of some session, and every session with a candidate has a best result whose `disti` is not larger -/
def IsBestMs (val : Nat → K) (find : Nat → Nat → FRes D) (sess : Nat → Nat) (C : Nat → Nat → Prop) (res : PtRes D) : Prop :=
  (res.code = 2 ∧ ∀ q el, ¬ C q el) ∨
  (res.code ≠ 2 ∧ ∃ e, IsBest val find (fun q el => C q el ∧ sess q = e) res ∧
    ∀ e', (∃ q el, C q el ∧ sess q = e') → ∃ res', IsBest val find (fun q el => C q el ∧ sess q = e') res' ∧
      val (find res'.proc res'.el).disti ≤ val (find res.proc res.el).disti)

end Gslib.Spec
