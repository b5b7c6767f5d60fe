import Verif.Spec.Sort

/-!
# Specification of the struct-array sorts (independent of the model)
-/

namespace Gslib.Spec

/-- one sort key of a row: an unsigned integer, or a value of a linear order (float, double) -/
inductive Key (ρ κ : Type) where
  | nat (f : ρ → Nat)
  | ord (f : ρ → κ)

variable {ρ κ : Type} [LinearOrder κ]

/-- row `a` has a smaller key than row `b` -/
def Key.Lt : Key ρ κ → ρ → ρ → Prop
  | .nat f, a, b => f a < f b
  | .ord f, a, b => f a < f b

/-- rows `a`, `b` agree in a key -/
def Key.Same : Key ρ κ → ρ → ρ → Prop
  | .nat f, a, b => f a = f b
  | .ord f, a, b => f a = f b

/-- lexicographic order by a list of keys, the first key is the most significant -/
def LexLe : List (Key ρ κ) → ρ → ρ → Prop
  | [], _, _ => True
  | k :: ks, a, b => k.Lt a b ∨ (k.Same a b ∧ LexLe ks a b)

/-- `out` is the stable rearrangement of `rows` in lexicographic order: same rows, sorted, and rows
agreeing in all keys keep their relative order -/
structure IsLexSort (ks : List (Key ρ κ)) (rows out : List ρ) : Prop where
  perm : out.Perm rows
  sorted : out.Pairwise (LexLe ks)
  stable : ∀ (q : ρ → Bool) (r : ρ), (∀ a, q a = true ↔ ∀ k ∈ ks, k.Same r a) → out.filter q = rows.filter q

end Gslib.Spec
