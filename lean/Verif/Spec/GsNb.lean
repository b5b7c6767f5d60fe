import Verif.Model.GsNb
import Verif.Spec.Gs
import Verif.Spec.Nb

/-!
# Specification of nonblocking gather-scatter
-/

namespace Gslib.Spec
open Gslib Gslib.Mpi Gslib.Gs Gslib.Nb

variable {T : Type}

/-- `h` are handles returned by gs_setup with method `m` and ids `ids` on `np` processes: a run of gs_setup, with some initial memory and under some schedule, ended with `h` -/
def FromSetup (m : Method) (np : Nat) (ids : Nat → List Int) (h : Nat → GsData) : Prop :=
  GsInput np ids ∧ ∃ (s0 : Nat → SetupSt) (c : Mpi.Conf SetupSt SetupMsg), (∀ q, q < np → (s0 q).topo.ids = ids q) ∧
    Mpi.Reach np (Mpi.start (gsSetup false m np).prog s0) c ∧ Mpi.Finished np c ∧ ∀ q, q < np → h q = (c.proc q).st.h

/-- igs and gs_wait can be used with a handle: its method is not the crystal router; for the all-reduce, GSLIB_USE_NBC and at least one shared id are needed
(with one process, nothing is shared) -/
def Usable (nbc : Bool) (np : Nat) : Remote → Prop
  | .pairwise _ => True
  | .crystal _ => False
  | .allreduce d => (np ≤ 1 ∧ d.total = 0) ∨ (nbc = true ∧ 2 ≤ np ∧ d.total ≠ 0)

/-- the array of igs and igs_vec -/
def arrayOf : UserData T → List T
  | .one x => x
  | .many _ => []

/-- array `k` of igs_many -/
def arrayNo (k : Nat) : UserData T → List T
  | .one _ => []
  | .many xs => xs.getD k []

/-- the array of vectors with `vn` components and the components `c 0`, `c 1`, ... (each of length `n`) -/
def interleave (vn n : Nat) (c : Nat → List T) : List T := (List.range n).flatMap fun i => (List.range vn).filterMap fun k => (c k)[i]?

/-- the effect of the blocking operation on the data `v p` of the processes (properties C20-C24) -/
def gsEffect (D : Dom T) (np : Nat) (ids : Nat → List Int) (a : GsArgs) (v : Nat → UserData T) (q : Nat) : UserData T :=
  match a.mode with
  | .plain => .one (gsResult a.t (D.doOp a.op) (D.identity a.op) np ids (fun p => arrayOf (v p)) q)
  | .vec vn => .one (interleave vn (ids q).length fun k => gsResult a.t (D.doOp a.op) (D.identity a.op) np ids (fun p => column vn k (arrayOf (v p))) q)
  | .many vn => .many ((List.range vn).map fun k => gsResult a.t (D.doOp a.op) (D.identity a.op) np ids (fun p => arrayNo k (v p)) q)

/-- the data fit the ids: one array with an entry (a vector) for each id, or `vn` arrays with an entry for each id; the entries satisfy `okT` -/
def DataOk (okT : T → Prop) (ids : List Int) : Mode → UserData T → Prop
  | .plain, .one x => x.length = ids.length ∧ ∀ y ∈ x, okT y
  | .vec vn, .one x => 1 ≤ vn ∧ x.length = ids.length * vn ∧ ∀ y ∈ x, okT y
  | .many vn, .many xs => 1 ≤ vn ∧ xs.length = vn ∧ ∀ x ∈ xs, x.length = ids.length ∧ ∀ y ∈ x, okT y
  | _, _ => False

end Gslib.Spec
