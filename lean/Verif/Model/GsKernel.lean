import Verif.Model.GsOp

/-!
# The gather, scatter and initialization kernels (gs_local.c)

A map is a list of `uint`: groups `i, j₁, ..., jₖ, UINT_MAX` (k ≥ 1), then a final `UINT_MAX`. An access outside an array, or reading
past the end of the map, is undefined behaviour (`none`).
-/

namespace Gslib.Gs

/-- `UINT_MAX` for a 32 bit `uint` -/
def uintMax : Nat := 4294967295

/-- where a kernel is in the map: before a group, before the first `j` of a group, before another `j` -/
inductive Pos (A : Type) where
  | outer
  | first (a : A)
  | more (a : A)

variable {T U : Type}

/-- gs_local.c:60-71 `gather_T_OP`, and 114-127 `gather_vec_T_OP` (see `gatherVec`):
`while((i=*map++)!=UINT_MAX) { T t=out[i]; j=*map++; do GS_DO_OP(t,in[j*in_stride]); while((j=*map++)!=UINT_MAX); out[i]=t; }`.
`ld out i` reads `out[i]`, `st out i t` assigns it, `rd out j` reads `in[j*in_stride]` (from the current memory `out`, as `in` may be the
same array), `f` is the operation. -/
def gatherLoop {V : Type} (f : V → V → V) (ld : U → Nat → Option V) (st : U → Nat → V → Option U) (rd : U → Nat → Option V) :
    List Nat → Pos (Nat × V) → U → Option U
  | [], _, _ => none
  | x :: map, .outer, out =>
    if x = uintMax then some out else (ld out x).bind fun t => gatherLoop f ld st rd map (.first (x, t)) out
  | x :: map, .first a, out => (rd out x).bind fun y => gatherLoop f ld st rd map (.more (a.1, f a.2 y)) out
  | x :: map, .more a, out =>
    if x = uintMax then (st out a.1 a.2).bind fun out => gatherLoop f ld st rd map .outer out
    else (rd out x).bind fun y => gatherLoop f ld st rd map (.more (a.1, f a.2 y)) out

/-- gs_local.c:76-87 `scatter_T`, and 132-144 `gs_scatter_vec` (see `scatterVec`):
`while((i=*map++)!=UINT_MAX) { T t=in[i*in_stride]; j=*map++; do out[j*out_stride]=t; while((j=*map++)!=UINT_MAX); }` -/
def scatterLoop {V : Type} (rd : U → Nat → Option V) (st : U → Nat → V → Option U) : List Nat → Pos V → U → Option U
  | [], _, _ => none
  | x :: map, .outer, out => if x = uintMax then some out else (rd out x).bind fun t => scatterLoop rd st map (.first t) out
  | x :: map, .first t, out => (st out x t).bind fun out => scatterLoop rd st map (.more t) out
  | x :: map, .more t, out =>
    if x = uintMax then scatterLoop rd st map .outer out
    else (st out x t).bind fun out => scatterLoop rd st map (.more t) out

/-- gs_local.c:92-97 `init_T`, 149-158 `init_vec_T`: `while((i=*map++)!=UINT_MAX) out[i]=e;` -/
def initLoop {V : Type} (e : V) (st : U → Nat → V → Option U) : List Nat → U → Option U
  | [], _ => none
  | x :: map, out => if x = uintMax then some out else (st out x e).bind fun out => initLoop e st map out

/-- `a[k]` -/
def ldAt (a : List T) (k : Nat) : Option T := a[k]?

/-- `a[k]=t` -/
def stAt (a : List T) (k : Nat) (t : T) : Option (List T) := if k < a.length then some (a.set k t) else none

/-- the `vn` entries from `k*vn` -/
def ldVec (vn : Nat) (a : List T) (k : Nat) : Option (List T) :=
  if k * vn + vn ≤ a.length then some ((a.drop (k * vn)).take vn) else none

/-- assign the `vn` entries from `k*vn` -/
def stVec (vn : Nat) (a : List T) (k : Nat) (t : List T) : Option (List T) :=
  if k * vn + vn ≤ a.length ∧ t.length = vn then some (a.take (k * vn) ++ t ++ a.drop (k * vn + vn)) else none

/-- The kernels used by gs_aux and the exec functions for one `gs_mode`, with the domain and the operation filled in. `U` is the user data,
the communication buffers are arrays of `T` with `vn` entries per unit. -/
structure Kernels (U T : Type) where
  /-- entries of `T` per unit in buffers (`vn`, 1 for mode_plain) -/
  vn : Nat
  /-- local_gather -/
  gather : List Nat → U → Option U
  /-- init -/
  init : List Nat → U → Option U
  /-- local_scatter -/
  scatter : List Nat → U → Option U
  /-- scatter_to_buf, scatter_user_to_buf: map, user data, buffer -/
  toBuf : List Nat → U → List T → Option (List T)
  /-- scatter_from_buf, scatter_buf_to_user: map, buffer, user data -/
  fromBuf : List Nat → List T → U → Option U
  /-- gather_from_buf, gather_buf_to_user: map, buffer, user data -/
  gatherBuf : List Nat → List T → U → Option U
  /-- scatter_buf_to_buf: map, source, destination -/
  bufScatter : List Nat → List T → List T → Option (List T)
  /-- gather_buf_to_buf: map, source, destination -/
  bufGather : List Nat → List T → List T → Option (List T)

variable (D : Dom T) (op : Op)

/-- gs_local.c:206-230 `gs_gather`, `gs_scatter`, `gs_init`: mode_plain -/
def plainKernels : Kernels (List T) T where
  vn := 1
  gather m u := gatherLoop (D.doOp op) ldAt stAt ldAt m .outer u
  init m u := initLoop (D.identity op) stAt m u
  scatter m u := scatterLoop ldAt stAt m .outer u
  toBuf m u b := scatterLoop (fun _ k => ldAt u k) stAt m .outer b
  fromBuf m b u := scatterLoop (fun _ k => ldAt b k) stAt m .outer u
  gatherBuf m b u := gatherLoop (D.doOp op) ldAt stAt (fun _ k => ldAt b k) m .outer u
  bufScatter m src b := scatterLoop (fun _ k => ldAt src k) stAt m .outer b
  bufGather m src b := gatherLoop (D.doOp op) ldAt stAt (fun _ k => ldAt src k) m .outer b

/-- gs_local.c:114-127 `gather_vec`: entry `k` of the unit `out[i]` is combined with entry `k` of `in[j]`;
`out[i]` is updated in place after each `j`. (`vn ≥ 1`: the inner `do ... while(pk!=pe)` does not end otherwise.) -/
def gatherVecLoop (vn : Nat) (rd : List T → Nat → Option (List T)) :
    List Nat → Pos Nat → List T → Option (List T)
  | [], _, _ => none
  | x :: map, .outer, out => if x = uintMax then some out else gatherVecLoop vn rd map (.first x) out
  | x :: map, .first i, out =>
    (ldVec vn out i).bind fun t => (rd out x).bind fun y => (stVec vn out i (gatherArray D op t y)).bind fun out =>
      gatherVecLoop vn rd map (.more i) out
  | x :: map, .more i, out =>
    if x = uintMax then gatherVecLoop vn rd map .outer out else
    (ldVec vn out i).bind fun t => (rd out x).bind fun y => (stVec vn out i (gatherArray D op t y)).bind fun out =>
      gatherVecLoop vn rd map (.more i) out

/-- gs_local.c:132-144, 235-251 `gs_gather_vec`, `gs_scatter_vec`, `gs_init_vec`: mode_vec, `vn ≥ 1` -/
def vecKernels (vn : Nat) : Kernels (List T) T where
  vn := vn
  gather m u := gatherVecLoop D op vn (ldVec vn) m .outer u
  init m u := initLoop (initArray D op vn) (stVec vn) m u
  scatter m u := scatterLoop (ldVec vn) (stVec vn) m .outer u
  toBuf m u b := scatterLoop (fun _ k => ldVec vn u k) (stVec vn) m .outer b
  fromBuf m b u := scatterLoop (fun _ k => ldVec vn b k) (stVec vn) m .outer u
  gatherBuf m b u := gatherVecLoop D op vn (fun _ k => ldVec vn b k) m .outer u
  bufScatter m src b := scatterLoop (fun _ k => ldVec vn src k) (stVec vn) m .outer b
  bufGather m src b := gatherVecLoop D op vn (fun _ k => ldVec vn src k) m .outer b

/-- `for(i=vn;i;--i) scatter_T((T*)p,vn,*q++,1,map), p+=unit_size` (gs_local.c:309-319): from array number `k` on -/
def manyToVec (vn : Nat) (m : List Nat) : Nat → List (List T) → List T → Option (List T)
  | _, [], b => some b
  | k, a :: as, b =>
    (scatterLoop (fun _ i => ldAt a i) (fun b j t => stAt b (j * vn + k) t) m .outer b).bind fun b => manyToVec vn m (k + 1) as b

/-- `for(i=vn;i;--i) scatter_T(*p++,1,(const T*)q,vn,map), q+=unit_size` (gs_local.c:321-331) -/
def vecToMany (vn : Nat) (m : List Nat) (b : List T) : Nat → List (List T) → Option (List (List T))
  | _, [] => some []
  | k, a :: as =>
    (scatterLoop (fun _ i => ldAt b (i * vn + k)) stAt m .outer a).bind fun a => (vecToMany vn m b (k + 1) as).bind fun as => some (a :: as)

/-- `for(i=vn;i;--i) gather_T_OP(*p++,(const T*)q,vn,map), q+=unit_size` (gs_local.c:295-307) -/
def vecToManyGather (vn : Nat) (m : List Nat) (b : List T) : Nat → List (List T) → Option (List (List T))
  | _, [] => some []
  | k, a :: as =>
    (gatherLoop (D.doOp op) ldAt stAt (fun _ i => ldAt b (i * vn + k)) m .outer a).bind fun a =>
      (vecToManyGather vn m b (k + 1) as).bind fun as => some (a :: as)

/-- gs_local.c:256-331 `gs_gather_many`, `gs_scatter_many`, `gs_init_many` and the kernels between `vn` arrays and one strided array:
mode_many, `vn ≥ 1` arrays -/
def manyKernels (vn : Nat) : Kernels (List (List T)) T where
  vn := vn
  gather m u := u.mapM fun a => gatherLoop (D.doOp op) ldAt stAt ldAt m .outer a
  init m u := u.mapM fun a => initLoop (D.identity op) stAt m a
  scatter m u := u.mapM fun a => scatterLoop ldAt stAt m .outer a
  toBuf m u b := manyToVec vn m 0 u b
  fromBuf m b u := vecToMany vn m b 0 u
  gatherBuf m b u := vecToManyGather D op vn m b 0 u
  bufScatter m src b := scatterLoop (fun _ k => ldVec vn src k) (stVec vn) m .outer b
  bufGather m src b := gatherVecLoop D op vn (fun _ k => ldVec vn src k) m .outer b

end Gslib.Gs
