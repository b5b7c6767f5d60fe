import Verif.Model.Crystal
import Verif.Model.Coll
import Verif.Model.Sort
import Mathlib.Data.Nat.Log

/-!
# Model of `src/sarray_transfer.c` and of the tuple transfers of `src/fcrystal.c`

A row of a struct array is a list of bytes (numbers below 256), an array a list of rows. Buffers are lists of words as in
`Model/Crystal.lean`; the bytes of a word are stored little endian (the byte order is not observable).
-/

namespace Gslib.Transfer
open Gslib Gslib.Mpi Gslib.Crystal Gslib.Sorting

/-- the bytes of a `uint` -/
def le4 (w : Nat) : List Nat := [w % 256, w / 256 % 256, w / 65536 % 256, w / 16777216 % 256]

/-- the number with given bytes -/
def unle : List Nat → Nat
  | [] => 0
  | b :: bs => b + 256 * unle bs

/-- a word buffer as bytes -/
def bytesOf (ws : List Nat) : List Nat := ws.flatMap le4

/-- bytes as a word buffer -/
def wordsOf : List Nat → List Nat
  | a :: b :: c :: d :: r => unle [a, b, c, d] :: wordsOf r
  | _ => []

/-- `memcpy` of the bytes `bs` to byte offset `off` of a word buffer; outside of the buffer: undefined behaviour -/
def poke (ws : List Nat) (off : Nat) (bs : List Nat) : Option (List Nat) :=
  if off + bs.length ≤ 4 * ws.length then some (wordsOf (blit (bytesOf ws) off bs)) else none

/-- `memcpy` of `n` bytes from byte offset `off` -/
def peek (ws : List Nat) (off n : Nat) : Option (List Nat) :=
  if off + n ≤ 4 * ws.length then some (((bytesOf ws).drop off).take n) else none

/-- assignment of a word -/
def pokeW (ws : List Nat) (i w : Nat) : Option (List Nat) := if i < ws.length then some (ws.set i w) else none

/-- `input + size*i` (sarray_transfer.c:34, 77): the product is computed in 32 bits -/
def rowAt (A : List (List Nat)) (size i : Nat) : Option (List Nat) := if size * i < uintRange then A[i]? else none

/-- local variables of PACK_BODY, sarray_transfer.c:30-32; `lenPtr = none` points to `dummy` -/
structure PackSt where
  buf : List Nat
  out : Nat
  lenPtr : Option Nat
  lp : Nat
  len : Nat

/-- `*len_ptr = len` -/
def setLen (s : PackSt) : Option (List Nat) :=
  match s.lenPtr with
  | none => some s.buf
  | some k => pokeW s.buf k s.len

/-- sarray_transfer.c:36-42 -/
def packHeader (id p : Nat) (s : PackSt) : Option PackSt :=
  if p ≠ s.lp then do
    let buf ← setLen s
    let buf ← pokeW buf s.out p
    let buf ← pokeW buf (s.out + 1) id
    some ⟨buf, s.out + 3, some (s.out + 2), p, 0⟩
  else some s

/-- sarray_transfer.c:33-45, the loop body; `getP` and `copyRow` are the macros of pack_int or pack_ext -/
def packStep (rowSize id : Nat) (A : List (List Nat)) (size : Nat) (getP : Nat → List Nat → Option Nat)
    (copyRow : List Nat → Nat → List Nat → Option (List Nat)) (s : PackSt) (i : Nat) : Option PackSt := do
  let row ← rowAt A size i
  let p ← getP i row
  let s ← packHeader id p s
  let buf ← copyRow s.buf s.out row
  some { s with buf := buf, out := s.out + rowSize, len := s.len + rowSize }

/-- sarray_transfer.c:29-48 PACK_BODY. `junk` is the contents of the memory returned by `buffer_reserve`;
`n*(row_size+3)` is computed in 32 bits. -/
def packBody (rowSize id : Nat) (A : List (List Nat)) (size : Nat) (getP : Nat → List Nat → Option Nat)
    (copyRow : List Nat → Nat → List Nat → Option (List Nat)) (perm : List Nat) (junk : Nat → Nat) : Option (List Nat) := do
  let cap := A.length * (rowSize + 3) % uintRange
  let s ← perm.foldlM (packStep rowSize id A size getP copyRow) ⟨(List.range cap).map fun k => junk k % uintRange, 0, none, 4294967295, 0⟩
  let buf ← setLen s
  some (buf.take s.out)

/-- sarray_transfer.c:25 GET_P of pack_int -/
def getPInt (pOff : Nat) (_ : Nat) (row : List Nat) : Option Nat :=
  if pOff + 4 ≤ row.length then some (unle ((row.drop pOff).take 4)) else none

/-- sarray_transfer.c:26-27 COPY_ROW of pack_int -/
def copyRowInt (size pOff : Nat) (buf : List Nat) (out : Nat) (row : List Nat) : Option (List Nat) := do
  let buf ← poke buf (4 * out) (row.take pOff)
  poke buf (4 * out + pOff) ((row.drop (pOff + 4)).take (size - (pOff + 4)))

/-- sarray_transfer.c:60 GET_P of pack_ext; `proc_stride*perm[i]` is computed in 32 bits -/
def getPExt (proc : List Nat) (stride : Nat) (i : Nat) (_ : List Nat) : Option Nat :=
  if stride * i < uintRange then proc[i]? else none

/-- sarray_transfer.c:61 COPY_ROW of pack_ext -/
def copyRowExt (buf : List Nat) (out : Nat) (row : List Nat) : Option (List Nat) := poke buf (4 * out) row

/-- sarray_transfer.c:76-77: the loop over the rows of one message, `pos` is `buf`, result: buffer and rest of `perm` -/
def packMoreMsg (off rowSize size : Nat) (A : List (List Nat)) (msgEnd : Nat) :
    Nat → List Nat → Nat → List Nat → Option (List Nat × List Nat)
  | 0, _, _, _ => none
  | fuel + 1, buf, pos, perm =>
    if pos = msgEnd then some (buf, perm) else
    match perm with
    | [] => none
    | i :: perm => do
      let row ← rowAt A size i
      let buf ← poke buf (4 * pos + off) row
      packMoreMsg off rowSize size A msgEnd fuel buf (pos + rowSize) perm

/-- sarray_transfer.c:73-78 -/
def packMoreLoop (off rowSize size : Nat) (A : List (List Nat)) : Nat → List Nat → Nat → List Nat → Option (List Nat)
  | 0, _, _, _ => none
  | fuel + 1, buf, pos, perm =>
    if pos = buf.length then some buf else do
      let len ← buf[pos + 2]?
      let (buf, perm) ← packMoreMsg off rowSize size A (pos + 3 + len) (fuel + 1) buf (pos + 3) perm
      packMoreLoop off rowSize size A fuel buf (pos + 3 + len) perm

/-- sarray_transfer.c:68-79 pack_more; the buffer has `data->n` words -/
def packMore (off rowSize size : Nat) (A : List (List Nat)) (data perm : List Nat) : Option (List Nat) :=
  packMoreLoop off rowSize size A (data.length + 1) data 0 perm

/-- sarray_transfer.c:158-159, and 177-178 for `off`: arrays `1..An-1` -/
def packRest (rowSize : Nat) (perm : List Nat) : Nat → List (List (List Nat)) → List Nat → List Nat → Option (List Nat)
  | off, A :: As, size :: sizes, data =>
    if size ≠ 0 then do
      let data ← packMore off rowSize size A data perm
      packRest rowSize perm (off + size) As sizes data
    else packRest rowSize perm off As sizes data
  | _, [], [], data => some data
  | _, _, _, _ => none

/-- sarray_transfer.c:88-89 and 102-107: rows of one message. `rd` reads a row at a buffer position, `cap` is the number of rows
for which there is room at `out` -/
def unpackMsg (rowSize : Nat) (rd : Nat → Option (List Nat)) (cap msgEnd : Nat) :
    Nat → Nat → List (List Nat) → Option (List (List Nat))
  | 0, _, _ => none
  | fuel + 1, pos, out =>
    if pos = msgEnd then some out
    else if cap ≤ out.length then none
    else do
      let row ← rd pos
      unpackMsg rowSize rd cap msgEnd fuel (pos + rowSize) (out ++ [row])

/-- sarray_transfer.c:85-90 and 98-108: `rdMsg m pos` reads the row at `pos` of the message starting at `m` -/
def unpackLoop (rowSize : Nat) (data : List Nat) (n : Nat) (rdMsg : Nat → Nat → Option (List Nat)) (cap : Nat) :
    Nat → Nat → List (List Nat) → Option (List (List Nat))
  | 0, _, _ => none
  | fuel + 1, pos, out =>
    if pos = n then some out else do
      let len ← data[pos + 2]?
      let out ← unpackMsg rowSize (rdMsg pos) cap (pos + 3 + len) (fuel + 1) (pos + 3) out
      unpackLoop rowSize data n rdMsg cap fuel (pos + 3 + len) out

/-- sarray_transfer.c:81-91 unpack_more. `data` is the buffer memory, `n` is `data->n` -/
def unpackMore (size off rowSize : Nat) (data : List Nat) (n cap : Nat) : Option (List (List Nat)) :=
  unpackLoop rowSize data n (fun _ pos => peek data (4 * pos + off) size) cap (data.length + n + 1) 0 []

/-- sarray_transfer.c:103-105: a row of unpack_int -/
def rdInt (size pOff : Nat) (setSrc : Bool) (data : List Nat) (m pos : Nat) : Option (List Nat) := do
  let p ← data[m + if setSrc then 1 else 0]?
  let a ← peek data (4 * pos) pOff
  let b ← peek data (4 * pos + pOff) (size - (pOff + 4))
  some (a ++ le4 p ++ b)

/-- sarray_transfer.c:93-109 unpack_int -/
def unpackInt (size pOff : Nat) (setSrc : Bool) (rowSize : Nat) (data : List Nat) (n cap : Nat) : Option (List (List Nat)) :=
  unpackLoop rowSize data n (rdInt size pOff setSrc data) cap (data.length + n + 1) 0 []

/-- sarray_transfer.c:177-178, and 166/172 for columns with `size[i]=0`, which become `nr` rows of no bytes -/
def unpackRest (rowSize : Nat) (data : List Nat) (n cap nr : Nat) : Nat → List (List (List Nat)) → List Nat → Option (List (List (List Nat)))
  | off, _ :: As, size :: sizes =>
    if size ≠ 0 then do
      let A ← unpackMore size off rowSize data n cap
      let As ← unpackRest rowSize data n cap nr (off + size) As sizes
      some (A :: As)
    else do
      let As ← unpackRest rowSize data n cap nr off As sizes
      some (List.replicate nr [] :: As)
  | _, [], [] => some []
  | _, _, _ => none

/-- sarray_transfer.c:115 and 130: sum of the lengths of the messages from position `pos` -/
def sumLens (data : List Nat) : Nat → Nat → Nat → Option Nat
  | 0, _, _ => none
  | fuel + 1, pos, n =>
    if pos = data.length then some n else do
      let len ← data[pos + 2]?
      sumLens data fuel (pos + len + 3) ((n + len) % uintRange)

/-- sarray_transfer.c:111-117 num_rows; division by zero is undefined -/
def numRows (data : List Nat) (rowSize : Nat) : Option Nat := do
  let n ← sumLens data (data.length + 1) 0 0
  if rowSize = 0 then none else some (n / rowSize)

/-- sarray_transfer.c:124-133: result: new buffer, new `data->n`, sum of lengths -/
def capLoop (maxn : Nat) (data : List Nat) : Nat → Nat → Nat → Option (List Nat × Nat × Nat)
  | 0, _, _ => none
  | fuel + 1, pos, n =>
    if pos = data.length then some (data, data.length, n) else do
      let len ← data[pos + 2]?
      let n := (n + len) % uintRange
      if n < maxn then capLoop maxn data fuel (pos + len + 3) n
      else do
        -- buf[2] -= (maxn-n), in 32 bit arithmetic
        let newLen := (len + (uintRange - (maxn + uintRange - n) % uintRange)) % uintRange
        let n ← sumLens data (data.length + 1) (pos + len + 3) n
        some (data.set (pos + 2) newLen, pos + 3 + newLen, n)

/-- sarray_transfer.c:119-135 cap_rows -/
def capRows (data : List Nat) (rowSize max : Nat) : Option (List Nat × Nat × Nat) := do
  let (d, dn, n) ← capLoop (max * rowSize % uintRange) data (data.length + 1) 0 0
  if rowSize = 0 then none else some (d, dn, n / rowSize)

/-- arguments of sarray_transfer_many that are the same on all processes -/
structure Params where
  sizes : List Nat
  fixed : Bool
  ext : Bool
  setSrc : Bool
  pOff : Nat
  stride : Nat

/-- memory of a process: the arrays (rows of bytes), their least capacity (rows), the array `proc` if `ext`, the crystal router, the return value,
contents of unallocated and scratch memory -/
structure TrState where
  cols : List (List (List Nat))
  max : Nat
  proc : List Nat
  cr : CrState
  ret : Nat
  junk : Nat → Nat
  scratch : ScratchP Nat

/-- sarray_transfer.c:147-148 -/
def Params.off1 (P : Params) : Nat := if P.ext then P.sizes.headD 0 else P.sizes.headD 0 - 4

/-- sarray_transfer.c:149-150 -/
def Params.rowSize (P : Params) : Nat := (P.off1 + P.sizes.tail.sum + 3) / 4

/-- sarray_transfer.c:152 the keys given to sortp: with `!ext` the processor fields of the rows -/
def keysOf (P : Params) (s : TrState) : Option (List Nat) :=
  if P.ext then (if s.proc.length = (s.cols.headD []).length then some s.proc else none)
  else (s.cols.headD []).mapM fun row => getPInt P.pOff 0 row

/-- sarray_transfer.c:147-159: everything before crystal_router -/
def packAll (P : Params) (id : Nat) (s : TrState) : Outcome TrState :=
  match s.cols, P.sizes with
  | A :: As, size :: sizes =>
    (Outcome.ofOption (keysOf P s)).bind fun keys =>
    (sortpInt 4 none keys s.scratch).bind fun perm =>
    Outcome.ofOption do
      let data ← (if P.ext then packBody P.rowSize id A size (getPExt s.proc P.stride) copyRowExt perm s.junk
        else packBody P.rowSize id A size (getPInt P.pOff) (copyRowInt size P.pOff) perm s.junk)
      let data ← packRest P.rowSize perm P.off1 As sizes data
      some { s with cr := { s.cr with data := data } }
  | _, _ => .ub

/-- sarray_transfer.c:175-178: unpack into arrays with room for `cap` rows -/
def unpackAll (P : Params) (s : TrState) (data : List Nat) (n cap ret : Nat) : Option TrState :=
  match s.cols, P.sizes with
  | _ :: As, size :: sizes => do
    let A ← (if P.ext then unpackMore size 0 P.rowSize data n cap
      else unpackInt size P.pOff P.setSrc P.rowSize data n cap)
    let As ← unpackRest P.rowSize data n cap (min ret cap) P.off1 As sizes
    some { s with cols := A :: As, ret := ret }
  | _, _ => none

/-- sarray_transfer.c:163-180: everything after crystal_router. -/
def unpackPart (P : Params) (s : TrState) : Outcome TrState :=
  Outcome.ofOption <|
    if !P.fixed then do
      let n ← numRows s.cr.data P.rowSize
      unpackAll P s s.cr.data s.cr.data.length n n
    else do
      let (d, dn, n) ← capRows s.cr.data P.rowSize s.max
      unpackAll P s d dn s.max n

/-- the router part of the memory -/
def setCr (s : TrState) (c : CrState) : TrState := { s with cr := c }

/-- crystal.c:126-154 on `P` processes as a collective operation -/
def routerColl (P : Nat) : Coll CrState (List Nat) := ⟨2 * Nat.clog 2 P, router P⟩

/-- sarray_transfer.c:137-181 sarray_transfer_many on `np` processes -/
def transferMany (np : Nat) (P : Params) : Coll TrState (List Nat) :=
  ((Coll.loc (fun id => packAll P id) []).seq ((routerColl np).lift TrState.cr setCr)).seq
    (Coll.loc (fun _ => unpackPart P) [])

/-- sarray_transfer.c:184-190 sarray_transfer_ and macro sarray_transfer (sarray_transfer.h:89-90) -/
def sarrayTransfer (np size pOff : Nat) (setSrc : Bool) : Coll TrState (List Nat) :=
  transferMany np ⟨[size], false, false, setSrc, pOff, size⟩

/-- sarray_transfer.c:192-197 sarray_transfer_ext_ -/
def sarrayTransferExt (np size stride : Nat) : Coll TrState (List Nat) :=
  transferMany np ⟨[size], false, true, false, 0, stride⟩

/-- fcrystal.c:150-160 crystal_ituple_transfer with `m` integers per row; `proc_key` is one-based -/
def ituTransfer (np m procKey : Nat) : Coll TrState (List Nat) :=
  transferMany np ⟨[4 * m], true, false, true, (procKey - 1) * 4, 4 * m⟩

/-- fcrystal.c:162-181 crystal_tuple_transfer with `mi` integers, `ml` longs,
`md` doubles per row; `proc_key` is one-based -/
def tupleTransfer (np mi ml md procKey : Nat) : Coll TrState (List Nat) :=
  transferMany np ⟨[4 * mi, 8 * ml, 8 * md], true, false, true, (procKey - 1) * 4, 4 * mi⟩

end Gslib.Transfer
