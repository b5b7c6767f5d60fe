import Mathlib.Order.Defs.LinearOrder

/-!
# Specification of the reduction operations: commutative monoids
-/

namespace Gslib.Spec

/-- `f` is associative and commutative with identity `e`, on the values satisfying `ok` -/
structure CommMonoidOn {T : Type} (ok : T → Prop) (f : T → T → T) (e : T) : Prop where
  closed : ∀ a b, ok a → ok b → ok (f a b)
  okId : ok e
  assoc : ∀ a b c, ok a → ok b → ok c → f (f a b) c = f a (f b c)
  comm : ∀ a b, ok a → ok b → f a b = f b a
  idLeft : ∀ a, ok a → f e a = a
  idRight : ∀ a, ok a → f a e = a

/-- `n` is a binary prefix of `a`: `a` with some number of low bits dropped -/
def BinPrefix (n a : Nat) : Prop := ∃ i, n = a >>> i

end Gslib.Spec
