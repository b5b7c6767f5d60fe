import Mathlib.Data.List.Perm.Basic

/-!
# Specification of message routing (independent of the model)
-/

namespace Gslib.Spec

/-- a message as documented in crystal.c: target, source, payload -/
structure Msg where
  target : Nat
  source : Nat
  payload : List Nat
  deriving DecidableEq, Repr

/-- its representation in a buffer: target, source, length, payload -/
def Msg.words (m : Msg) : List Nat := m.target :: m.source :: m.payload.length :: m.payload

/-- a buffer holding a sequence of messages -/
def flat (ms : List Msg) : List Nat := ms.flatMap Msg.words

/-- all messages on processes `0..P-1` addressed to `p` -/
def addressedTo (P : Nat) (M : Nat → List Msg) (p : Nat) : List Msg :=
  (List.range P).flatMap fun q => (M q).filter fun m => m.target = p

end Gslib.Spec
