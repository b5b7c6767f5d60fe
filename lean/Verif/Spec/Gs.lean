import Verif.Spec.GsOp
import Mathlib.Data.List.Dedup

/-!
# Specification of gather-scatter (independent of the model)

`ids q` is the array of ids of process `q` (0: ignored, negative: flagged), `v q` its array of values.
-/

namespace Gslib.Spec

variable {T : Type}

/-- an admissible array of ids: fewer than `2^31` entries, absolute values below `2^63` (64 bit `slong`, the most negative value excluded) -/
structure IdsOk (ids : List Int) : Prop where
  len : ids.length ≤ 2147483648
  abs : ∀ x ∈ ids, x.natAbs < 9223372036854775808

/-- number of triples `(p, q, a)` of two processes and an id (without sign) on both -/
def sharing (np : Nat) (ids : Nat → List Int) : Nat :=
  ((List.range np).map fun p => ((List.range np).map fun q =>
    (((ids p).map Int.natAbs).dedup.filter fun a => a ≠ 0 ∧ a ∈ (ids q).map Int.natAbs).length).sum).sum

/-- admissible input of gs_setup: ids as above, the sizes of all messages (40 bytes for a pair of processes sharing an id) fit in an `int`, number of processes in a `uint` -/
structure GsInput (np : Nat) (ids : Nat → List Int) : Prop where
  np_le : np ≤ 4294967295
  ids_ok : ∀ q, q < np → IdsOk (ids q)
  small : 40 * sharing np ids < 2147483647

/-- the values of the entries whose id satisfies `c`, in order -/
def pick (c : Int → Bool) (ids : List Int) (v : List T) : List T := ((ids.zip v).filter fun x => c x.1).map (·.2)

/-- the unflagged entries with id `a`, on all processes -/
def unflagged (np : Nat) (ids : Nat → List Int) (v : Nat → List T) (a : Nat) : List T :=
  (List.range np).flatMap fun q => pick (fun x => x = (a : Int)) (ids q) (v q)

/-- all entries with id `a` or `-a`, on all processes -/
def members (np : Nat) (ids : Nat → List Int) (v : Nat → List T) (a : Nat) : List T :=
  (List.range np).flatMap fun q => pick (fun x => x.natAbs = a) (ids q) (v q)

/-- the reduction of a list of values -/
def reduce (f : T → T → T) (e : T) (l : List T) : T := l.foldl f e

/-- gather-scatter, `transpose = 0`: every entry with a nonzero id becomes the reduction of the unflagged entries with this id -/
def gsOut (f : T → T → T) (e : T) (np : Nat) (ids : Nat → List Int) (v : Nat → List T) (q : Nat) : List T :=
  ((ids q).zip (v q)).map fun x => if x.1 = 0 then x.2 else reduce f e (unflagged np ids v x.1.natAbs)

/-- the first entry of a process with id `a` or `-a`, if the process has no unflagged one -/
def loneFlagged (ids : List Int) (i : Nat) (a : Nat) : Prop :=
  (a : Int) ∉ ids ∧ ∀ j, j < i → (ids.getD j 0).natAbs ≠ a

instance (ids : List Int) (i a : Nat) : Decidable (loneFlagged ids i a) := by unfold loneFlagged; infer_instance

/-- gather-scatter, `transpose = 1`: every unflagged entry becomes the reduction of all entries with this id, flagged or not. Flagged entries are unchanged,
with one exception: on a process where an id has only flagged entries, the first of them becomes the reduction of those of this process. -/
def gsOutT (f : T → T → T) (e : T) (np : Nat) (ids : Nat → List Int) (v : Nat → List T) (q : Nat) : List T :=
  ((ids q).zip (v q)).zipIdx.map fun x =>
    if 0 < x.1.1 then reduce f e (members np ids v x.1.1.natAbs)
    else if x.1.1 < 0 ∧ loneFlagged (ids q) x.2 x.1.1.natAbs then
      reduce f e (pick (fun y => y.natAbs = x.1.1.natAbs) (ids q) (v q))
    else x.1.2

/-- gather-scatter: both variants -/
def gsResult (t : Bool) (f : T → T → T) (e : T) (np : Nat) (ids : Nat → List Int) (v : Nat → List T) (q : Nat) : List T :=
  if t then gsOutT f e np ids v q else gsOut f e np ids v q

/-- component `k` of an array of vectors with `vn` entries: the entries number `k`, `vn+k`, `2vn+k`, ... -/
def column (vn k : Nat) (x : List T) : List T := (List.range (x.length / vn)).filterMap fun i => x[i * vn + k]?

end Gslib.Spec
