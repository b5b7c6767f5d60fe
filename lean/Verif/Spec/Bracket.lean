/-!
# Specification: a value computed from a list with an operation that need not be associative
-/

namespace Gslib.Spec

/-- `y` is the list `l` with the operation `f` between the entries, and parentheses set somehow, nested at most `d` deep -/
inductive Bracketed {T : Type} (f : T → T → T) : Nat → List T → T → Prop
  | val (x : T) : Bracketed f 0 [x] x
  | op {d d' : Nat} {l l' : List T} {x y : T} : Bracketed f d l x → Bracketed f d' l' y → Bracketed f (max d d' + 1) (l ++ l') (f x y)

end Gslib.Spec
