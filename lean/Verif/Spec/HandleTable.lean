import Verif.Model.HandleTable

/-!
# Specification of handle tables: what a user observes of a history of calls
-/

namespace Gslib.Spec
open Gslib Gslib.Tab

/-- what is observed at a call: an object or operation `r` was created and handle `h` returned, or the one with handle `h` was
completed (released), and it was `r` -/
inductive TabObs (R : Type) where
  | created (h : Nat) (r : R)
  | done (h : Nat) (r : R)
  deriving DecidableEq, Repr

variable {R : Type}

/-- handles in use after a history (latest call last), with the object each was returned for -/
def inUse : List (TabObs R) → List (Nat × R)
  | [] => []
  | .created h r :: os => inUse os ++ [(h, r)]
  | .done h _ :: os => (inUse os).filter fun x => x.1 ≠ h

/-- `Live τ h r`: after the history `τ` (oldest call first), handle `h` is in use for `r` -/
def Live (τ : List (TabObs R)) (h : Nat) (r : R) : Prop := (h, r) ∈ inUse τ.reverse

/-- no handle is in use after the history -/
def NoneLive (τ : List (TabObs R)) : Prop := ∀ h r, ¬ Live τ h r

/-- number of objects created in a history -/
def numCreated (τ : List (TabObs R)) : Nat := (τ.filter fun o => match o with | .created _ _ => true | .done _ _ => false).length

/-- the histories of a program that starts nonblocking operations and waits for handles that are in use, together with the table
of the library -/
inductive NbHist : List (TabObs R) → Nb R → Prop
  | init : NbHist [] Nb.empty
  | start {τ t t'} (r : R) (h : Nat) : NbHist τ t → nbStart r t = .ok (h, t') → NbHist (τ ++ [.created h r]) t'
  | wait {τ t t'} (h : Nat) (r0 r : R) : NbHist τ t → Live τ h r0 → nbWait h t = .ok (some r, t') → NbHist (τ ++ [.done h r]) t'

/-- the histories of a Fortran program that creates and frees objects; every successful call is allowed -/
inductive FHist : List (TabObs R) → Tab R → Prop
  | init : FHist [] Tab.empty
  | setup {τ t t'} (r : R) (h : Nat) : FHist τ t → put r t = .ok (h, t') → FHist (τ ++ [.created h r]) t'
  | free {τ t t'} (h : Nat) (r : R) : FHist τ t → Tab.free (h : Int) t = .ok (r, t') → FHist (τ ++ [.done h r]) t'

end Gslib.Spec
