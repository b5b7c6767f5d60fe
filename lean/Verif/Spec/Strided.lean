import Mathlib.Data.Fin.Basic

/-!
# Caller's arrays with byte strides

Memory by bytes. A stored value occupies `sz` consecutive bytes; each of them holds the value and its position in it (fragments), so that a read that does not coincide with a stored value has no result. `none`: the byte does not
belong to an object the program may access.
-/

namespace Gslib.Spec

/-- memory: bytes by address -/
abbrev Bytes := Nat → Option (Nat × Nat)

/-- the value of `sz` bytes stored at address `a` -/
def HoldsAt (m : Bytes) (sz a v : Nat) : Prop := ∀ k, k < sz → m (a + k) = some (v, k)

/-- an array argument of `findpts`: address and distance in bytes between consecutive points (`code_base`, `code_stride`, ..) -/
structure SArr where
  base : Nat
  stride : Nat

/-- the array arguments of `findpts` -/
structure SArgs (D : Nat) where
  code : SArr
  proc : SArr
  el : SArr
  r : SArr
  dist2 : SArr
  x : Fin D → SArr
  /-- `session_id`, `disti`, `elsid`: for `findpts` arrays allocated by the library -/
  sess : SArr
  disti : SArr
  elsid : SArr

/-- a variable of a point -/
inductive Slot (D : Nat) where
  | code (i : Nat)
  | proc (i : Nat)
  | el (i : Nat)
  | r (i : Nat) (d : Fin D)
  | dist2 (i : Nat)
  | x (i : Nat) (d : Fin D)
  | sess (i : Nat)
  | disti (i : Nat)
  | elsid (i : Nat)

variable {D : Nat}

/-- number of the point -/
def Slot.idx : Slot D → Nat
  | .code i | .proc i | .el i | .r i _ | .dist2 i | .x i _ | .sess i | .disti i | .elsid i => i

/-- results; the others are arguments -/
def Slot.written : Slot D → Prop
  | .x _ _ | .sess _ => False
  | _ => True

/-- the function: `findptsms` (`ms`), `findpts` (`std`), `findpts_local` (`loc`) -/
inductive Fn where
  | ms
  | std
  | loc

/-- variables that are no results of the function: scratch variables of the library. `disti` and `elsid` are results of `findptsms` only; `findpts_local` has no `proc`. -/
def Slot.scratch : Fn → Slot D → Prop
  | .std, .disti _ | .std, .elsid _ | .loc, .disti _ | .loc, .elsid _ | .loc, .proc _ => True
  | _, _ => False

/-- `sizeof(uint)` or `sizeof(double)` -/
def Slot.size : Slot D → Nat
  | .code _ | .proc _ | .el _ | .sess _ | .elsid _ => 4
  | _ => 8

/-- the address the interface promises: that of point 0 plus the number of the point times the stride -/
def Slot.addr (a : SArgs D) : Slot D → Nat
  | .code i => a.code.base + i * a.code.stride
  | .proc i => a.proc.base + i * a.proc.stride
  | .el i => a.el.base + i * a.el.stride
  | .r i d => a.r.base + i * a.r.stride + 8 * d.val
  | .dist2 i => a.dist2.base + i * a.dist2.stride
  | .x i d => (a.x d).base + i * (a.x d).stride
  | .sess i => a.sess.base + i * a.sess.stride
  | .disti i => a.disti.base + i * a.disti.stride
  | .elsid i => a.elsid.base + i * a.elsid.stride

/-- the arguments for `n` points: no result overlaps another variable; the last point of every array begins less than 4 GB behind the first. Scratch variables may overlap each other (`findpts_local` passes one variable
with stride 0) -/
structure SArgs.Ok (a : SArgs D) (fn : Fn) (n : Nat) : Prop where
  disj : ∀ s t : Slot D, s.idx < n → t.idx < n → s.written → s ≠ t → ¬ t.scratch fn → s.addr a + s.size ≤ t.addr a ∨ t.addr a + t.size ≤ s.addr a
  small : ∀ i, i < n → i * a.code.stride < 2 ^ 32 ∧ i * a.proc.stride < 2 ^ 32 ∧ i * a.el.stride < 2 ^ 32 ∧ i * a.r.stride < 2 ^ 32 ∧ i * a.dist2.stride < 2 ^ 32 ∧
    (∀ d, i * (a.x d).stride < 2 ^ 32) ∧ i * a.disti.stride < 2 ^ 32 ∧ i * a.elsid.stride < 2 ^ 32

/-- an array argument of `findpts_local` -/
def Slot.caller (s : Slot D) : Prop := ¬ s.scratch .loc ∧ ∀ j, s ≠ .sess j

/-- the array arguments of `findpts_local` (`code`, `el`, `r`, `dist2`, `x`) for `n` points -/
structure SArgs.LocOk (a : SArgs D) (n : Nat) : Prop where
  disj : ∀ s t : Slot D, s.idx < n → t.idx < n → s.caller → t.caller → s.written → s ≠ t → s.addr a + s.size ≤ t.addr a ∨ t.addr a + t.size ≤ s.addr a
  small : ∀ i, i < n → i * a.code.stride < 2 ^ 32 ∧ i * a.el.stride < 2 ^ 32 ∧ i * a.r.stride < 2 ^ 32 ∧ i * a.dist2.stride < 2 ^ 32 ∧ ∀ d, i * (a.x d).stride < 2 ^ 32

/-- a block of `sz` bytes at `p` that `malloc` may return: nothing of it is in use -/
def Fresh (m : Bytes) (sz p : Nat) : Prop := ∀ k, k < sz → m (p + k) = none

/-- the results may be written -/
def Writable (a : SArgs D) (n : Nat) (m : Bytes) : Prop := ∀ s : Slot D, s.idx < n → s.written → ∀ k, k < s.size → (m (s.addr a + k)).isSome = true

/-- every byte that does not belong to a result of one of the `n` points is unchanged -/
def OnlyResults (a : SArgs D) (n : Nat) (m m' : Bytes) : Prop :=
  ∀ b, (∀ s : Slot D, s.idx < n → s.written → b < s.addr a ∨ s.addr a + s.size ≤ b) → m' b = m b

/-- variable `s` has the value `v` -/
def SlotIs (a : SArgs D) (m : Bytes) (s : Slot D) (v : Nat) : Prop := HoldsAt m s.size (s.addr a) v

/-- the array arguments of `findpts_eval` -/
structure EArgs where
  out : SArr
  code : SArr
  proc : SArr
  el : SArr
  r : SArr

/-- where the interface promises the value at point `i` -/
def EArgs.outAddr (a : EArgs) (i : Nat) : Nat := a.out.base + i * a.out.stride

/-- the output array for `n` points: its entries do not overlap, they may be written, the last one begins less than 4 GB behind the first -/
structure EArgs.Ok (a : EArgs) (n : Nat) (m : Bytes) : Prop where
  disj : 8 ≤ a.out.stride
  small : ∀ i, i < n → i * a.out.stride < 2 ^ 32
  writable : ∀ i, i < n → ∀ k, k < 8 → (m (a.outAddr i + k)).isSome = true

/-- the arguments of point `i`: `code`, and if it is found `proc`, `el`, `r` -/
def EArgs.PointIs (a : EArgs) (m : Bytes) (i code proc el : Nat) (r : Fin D → Nat) : Prop :=
  HoldsAt m 4 (a.code.base + i * a.code.stride) code ∧
    (code ≠ 2 → HoldsAt m 4 (a.proc.base + i * a.proc.stride) proc ∧ HoldsAt m 4 (a.el.base + i * a.el.stride) el ∧ ∀ d : Fin D, HoldsAt m 8 (a.r.base + i * a.r.stride + 8 * d.val) (r d))

end Gslib.Spec
