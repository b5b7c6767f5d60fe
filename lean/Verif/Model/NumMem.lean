/-!
# Arrays of doubles with bounds and initialisation checks, and C `for` loops
-/

namespace Gslib.Num

/-- an array of doubles: index ↦ contents, `none` while uninitialised -/
abbrev Mem (K : Type) := Nat → Option K

variable {K S : Type}

/-- read entry `i` of an array of `cap` entries -/
def rd (cap : Nat) (m : Mem K) (i : Nat) : Option K := if i < cap then m i else none

/-- write entry `i` of an array of `cap` entries -/
def wr (cap : Nat) (m : Mem K) (i : Nat) (v : K) : Option (Mem K) :=
  if i < cap then some fun k => if k = i then some v else m k else none

/-- `for(i=a;i<a+n;++i) body` -/
def forUp (a : Nat) : Nat → (Nat → S → Option S) → S → Option S
  | 0, _, s => some s
  | n + 1, f, s => (f a s).bind (forUp (a + 1) n f)

/-- `for(i=n;i;--i) body` -/
def forDown : Nat → (Nat → S → Option S) → S → Option S
  | 0, _, s => some s
  | n + 1, f, s => (f (n + 1) s).bind (forDown n f)

end Gslib.Num
