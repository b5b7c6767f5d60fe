import Verif.Lemmas.LagrangeRun

/-!
# First values of the recurrences, and the fixed Lobatto nodes
-/

namespace Gslib.Poly
variable {K : Type} [Field K]

theorem U0_zero (d : Nat → K) : U0 d 0 = 1 := rfl
theorem U1_zero (d : Nat → K) : U1 d 0 = 0 := rfl
theorem U2_zero (d : Nat → K) : U2 d 0 = 0 := rfl
theorem U1_one (d : Nat → K) : U1 d 1 = 1 := by simp [U1, U0]
theorem U2_one (d : Nat → K) : U2 d 1 = 0 := by simp [U2, U1]
theorem U2_two (d : Nat → K) : U2 d 2 = 2 := by simp [U2, U1, U0]

/-- the nodes of the fixed tables -/
def gnode (n : Nat) (g : Nat → K) (i : Nat) : K :=
  if i = 0 then -1 else if i = n - 1 then 1 else if i < n / 2 then -g (i - 1) else if n - 1 - i < n / 2 then g (n - 1 - i - 1) else 0

/-- rows as lists -/
def rowLists (n : Nat) (w d : Nat → K) : List K × List K × List K :=
  ((List.range n).map (row0 n w d), (List.range n).map (row1 n w d), (List.range n).map (row2 n w d))

/-- close a goal that is a ring identity up to the first values of the recurrences -/
macro "gll_close" : tactic =>
  `(tactic| all_goals (try simp only [U0_zero, U1_zero, U2_zero, U1_one, U2_one, U2_two]) <;> (try ring))

end Gslib.Poly
