import Verif.Props.Transfer

/-!
# C15: the product `max*row_size` of `cap_rows` wraps
-/

namespace Gslib.Props
open Gslib.Transfer Gslib.Mpi

/-- one tuple of five integers for process 0, room for `2^30` tuples -/
def demoWrap : TrState := demoState 1 1073741824 [[[0, 0, 0, 0, 1, 0, 0, 0, 2, 0, 0, 0, 3, 0, 0, 0, 4, 0, 0, 0]]] []

/-- **C15 fails**, finding 13: `crystal_ituple_transfer` with one tuple of five integers and room for `2^30` of them: `max*row_size = 2^32` wraps to zero, the only tuple counts as one too many and unpacking runs behind the data received -/
theorem fixed_transfer_capacity_wraps : (ituTransfer 1 5 1).run 1 (fun _ => demoWrap) = .ub := by
  have h : kind ((ituTransfer 1 5 1).run 1 fun _ => demoWrap) = 1 := by decide +kernel
  generalize (ituTransfer 1 5 1).run 1 (fun _ => demoWrap) = o at h
  cases o <;> simp [kind] at h ⊢

/-- one tuple less of capacity, and the transfer succeeds -/
example : kind ((ituTransfer 1 5 1).run 1 fun _ => { demoWrap with max := 1073741823 }) = 0 := by decide +kernel

end Gslib.Props
