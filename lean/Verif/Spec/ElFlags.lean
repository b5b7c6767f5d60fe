import Verif.Model.ElFlags

/-!
# Constraint configurations

A coordinate of the reference element is free, held at -1 or held at +1.
-/

namespace Gslib.Spec
open Gslib.El

/-- state of one coordinate -/
inductive Con where
  | free | lo | hi
  deriving DecidableEq, Repr

namespace Con

/-- the two flag bits of a coordinate: 0 free, 1 held at -1, 2 held at +1 -/
def code : Con → Nat
  | free => 0 | lo => 1 | hi => 2

/-- 1 when constrained -/
def held : Con → Nat
  | free => 0 | _ => 1

/-- 0 for the side -1, 1 for the side +1 -/
def side : Con → Nat
  | hi => 1 | _ => 0

/-- all states -/
def all : List Con := [free, lo, hi]

end Con

/-- flag word of a 2d configuration, `CSSRR` -/
def flags2 (r s : Con) : U32 := BitVec.ofNat 32 (r.code + 4 * s.code)

/-- flag word of a 3d configuration, `CTTSSRR` -/
def flags3 (r s t : Con) : U32 := BitVec.ofNat 32 (r.code + 4 * s.code + 16 * t.code)

/-- number of set bits among the first `n` -/
def bitCount (p : List Byte) (n : Nat) : Nat := ((List.range n).filter fun i => (p[i / 8]?.map fun b => b.getLsbD (i % 8)) = some true).length

end Gslib.Spec
