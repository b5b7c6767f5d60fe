import Verif.Model.Mpi

/-!
# Model of `src/crystal.c`

Buffers are lists of words (`uint`, as natural numbers); `data.n` is the length of the list.
-/

namespace Gslib.Crystal
open Gslib Gslib.Mpi

/-- write `xs` at position `dst` -/
def blit (buf : List Nat) (dst : Nat) (xs : List Nat) : List Nat :=
  buf.take dst ++ xs ++ buf.drop (dst + xs.length)

/-- `memcpy` inside one buffer: overlapping ranges are undefined behaviour -/
def memcpyIn (buf : List Nat) (dst src n : Nat) : Option (List Nat) :=
  if dst < src + n ∧ src < dst + n then none else some (blit buf dst ((buf.drop src).take n))

/-- `memmove` inside one buffer -/
def memmoveIn (buf : List Nat) (dst src n : Nat) : Option (List Nat) :=
  some (blit buf dst ((buf.drop src).take n))

/-- crystal.c:71-75 uintcpy, `dst` and `src` positions in the same buffer -/
def uintcpy (buf : List Nat) (dst src n : Nat) : Option (List Nat) :=
  if dst + n ≤ src then memcpyIn buf dst src n
  else if dst ≠ src then memmoveIn buf dst src n
  else some buf

/-- crystal.c:84-95, the loop of crystal_move. `src`, `keep` are positions in `p->data` (compacted in place), `send` is
what was written to `p->work` so far. Reading past the end `data.n`, or writing more than the reserved `data.n` words
of `p->work`, is undefined behaviour. The first argument is fuel. -/
def moveLoop (cutoff : Nat) (sendHi : Bool) (n : Nat) : Nat → List Nat → Nat → Nat → List Nat → Option (List Nat × Nat × List Nat)
  | 0, buf, keep, src, send => if src < n then none else some (buf, keep, send)
  | fuel + 1, buf, keep, src, send =>
    if src < n then
      match buf[src]?, buf[src + 2]? with
      | some target, some plen =>
        let len := 3 + plen
        if n < src + len then none else
        if (if sendHi then cutoff ≤ target else target < cutoff) then
          if n < send.length + len then none else
          moveLoop cutoff sendHi n fuel buf keep (src + len) (send ++ (buf.drop src).take len)
        else
          (uintcpy buf keep src len).bind fun buf => moveLoop cutoff sendHi n fuel buf (keep + len) (src + len) send
      | _, _ => none
    else some (buf, keep, send)

/-- crystal.c:77-98 crystal_move: contents of `p->data` and of `p->work` after the call -/
def crystalMove (data : List Nat) (cutoff : Nat) (sendHi : Bool) : Option (List Nat × List Nat) :=
  (moveLoop cutoff sendHi data.length data.length data 0 0 []).map fun r => (r.1.take r.2.1, r.2.2)

/-- memory of a process: `p->data`, the used part of `p->work`, `count[]` of crystal_exchange -/
structure CrState where
  data : List Nat
  work : List Nat
  cnt : List Nat
  deriving DecidableEq, Repr

/-- `INT_MAX` (32 bit int) -/
def intMax : Nat := 2147483647

/-- crystal.c:133 `nl = (n+1)/2`, first rank of the upper half -/
def bhOf (bl n : Nat) : Nat := bl + (n + 1) / 2

/-- crystal.c:147 the mirror image of `id` in the group -/
def mirror (id bl n : Nat) : Nat := n - 1 - (id - bl) + bl

/-- crystal.c:147-148 `targ` -/
def targOf (id bl n : Nat) : Nat := if id = mirror id bl n then bhOf bl n else mirror id bl n

/-- crystal.c:147-149 `recvn` -/
def recvnOf (id bl n : Nat) : Nat :=
  if n % 2 = 1 ∧ id = bhOf bl n then 2 else if id = mirror id bl n then 0 else 1

/-- crystal.c:106-109: the processes received from -/
def recvFrom (id bl n : Nat) : List Nat :=
  if recvnOf id bl n = 0 then [] else if recvnOf id bl n = 1 then [targOf id bl n] else [targOf id bl n, id - 1]

/-- crystal.c:133-145: move, and abort if more than `INT_MAX` bytes are to be sent -/
def moveStage (id bl n : Nat) (s : CrState) : Outcome CrState :=
  (Outcome.ofOption (crystalMove s.data (bhOf bl n) (decide (id < bhOf bl n)))).bind fun r =>
    if intMax ≤ r.2.length * 4 then .abort else .ok ⟨r.1, r.2, []⟩

/-- crystal.c:133-145 and 106-111: exchange of the message lengths in stage `t` (`tag = 2t`) -/
def countStep (id t bl n : Nat) : Step CrState (List Nat) where
  label := 2 * t
  pre := moveStage id bl n
  sends := [(targOf id bl n, 2 * t)]
  payload s _ := [s.work.length]
  recvs := (recvFrom id bl n).map fun q => (q, 2 * t)
  post s vals := .ok { s with cnt := vals.map fun v => v.headD 0 }

/-- `uint` has 32 bits -/
def uintRange : Nat := 4294967296

/-- crystal.c:113-123: exchange of the messages. A message whose length is not the announced one does not fit its receive
buffer, nor does one if the new length of the buffer (line 113, `uint`) wraps around. -/
def dataStep (id t bl n : Nat) : Step CrState (List Nat) where
  label := 2 * t + 1
  pre := .ok
  sends := [(targOf id bl n, 2 * t + 1)]
  payload s _ := s.work
  recvs := (recvFrom id bl n).map fun q => (q, 2 * t + 1)
  post s vals := if vals.map List.length = s.cnt ∧ s.data.length + s.cnt.sum < uintRange then .ok { s with data := s.data ++ vals.flatten } else .ub

/-- crystal.c:126-154 crystal_router on process `id`, from stage `t` with group `bl`, `n` -/
def routerProg (id t bl n : Nat) : Prog CrState (List Nat) :=
  if h : 1 < n then
    countStep id t bl n :: dataStep id t bl n ::
      (if id < bhOf bl n then routerProg id (t + 1) bl ((n + 1) / 2)
       else routerProg id (t + 1) (bhOf bl n) (n - (n + 1) / 2))
  else []
termination_by n
decreasing_by all_goals omega

/-- crystal_router on `P` processes -/
def router (P : Nat) (id : Nat) : Prog CrState (List Nat) := routerProg id 0 0 P

end Gslib.Crystal
