import Verif.Model.Mpi
import Verif.Model.HandleTable

/-!
# Nonblocking operations: igs, gs_wait and schedules (gs.c:1185-1374)

A nonblocking operation is split: `igs` computes locally and posts its sends and receives, `gs_wait` waits for them and computes locally.
Operation `a` with handle `g` (a `struct gs_data *`) on process `p` is given by a `Step` (see `Verif/Model/Mpi.lean`), used here in two parts. Every handle has its
own communicator (gs.c:1442 comm_dup, comm.h:158 comm_init), so messages of different handles cannot be confused.
-/

namespace Gslib.Nb
open Gslib Gslib.Mpi Gslib.Tab

/-- the arguments of igs (igs_vec, igs_many), gs.c:1243-1252 `struct nonblocking_private`: `a` stands for mode, `vn`, `dom`, `op` and `transpose`,
`g` for `gsh`, `x` for the address of the data, `b` for the address of the buffer -/
structure Rec (A : Type) where
  a : A
  g : Nat
  x : Nat
  b : Nat

/-- a call in a program: `igs(..., &var[v])`, `gs_wait(var[v])` -/
inductive Ev (A : Type) where
  | igs (v : Nat) (r : Rec A)
  | wait (v : Nat)

/-- memory of a process: user arrays, buffers, variables for handles of requests, table of requests; for each `gsh` its array of requests
(`pwd->req`, gs.c:409, `ard->req`, gs.c:955): the request handle whose sends and receives it holds -/
structure PSt (A U B : Type) where
  u : Nat → U
  buf : Nat → B
  var : Nat → Int
  tab : Nb (Rec A)
  req : Nat → Option Nat

/-- all processes: remaining calls and memory; messages under way: `chan handle source destination tag`, oldest first -/
structure Conf (A U B W : Type) where
  rest : Nat → List (Ev A)
  st : Nat → PSt A U B
  chan : Nat → Nat → Nat → Nat → List W

variable {A U B W : Type}

/-- one move of one process. `ex a g p`: the operation. -/
inductive Trans (ex : A → Nat → Nat → Step (U × B) W) (P : Nat) : Conf A U B W → Conf A U B W → Prop
  /-- igs, gs.c:1267-1289 with gs_aux_irecv and gs_aux_isend: record the arguments, compute, post receives and sends; the array of requests of the handle
  is overwritten -/
  | igs (c : Conf A U B W) (p v : Nat) (r : Rec A) (es : List (Ev A)) (h : Nat) (tab' : Nb (Rec A)) (s' : U × B) (hp : p < P)
      (hr : c.rest p = .igs v r :: es) (ht : nbStart r (c.st p).tab = .ok (h, tab'))
      (hs : (ex r.a r.g p).pre ((c.st p).u r.x, (c.st p).buf r.b) = .ok s') :
      Trans ex P c ⟨Function.update c.rest p es,
        Function.update c.st p ⟨Function.update (c.st p).u r.x s'.1, Function.update (c.st p).buf r.b s'.2, Function.update (c.st p).var v h, tab',
          Function.update (c.st p).req r.g (some h)⟩,
        fun g a b t => if g = r.g ∧ a = p ∧ (b, t) ∈ (ex r.a r.g p).sends then c.chan g a b t ++ [(ex r.a r.g p).payload s' (b, t)] else c.chan g a b t⟩
  /-- gs_wait, gs.c:1291-1313 with gs_aux_wait: the wait for the requests in the array of the handle returns when the messages have arrived; then compute with the
  arguments recorded for the request. If the array does not hold the requests of this operation, the computation would use
  receive buffers that may be incomplete: undefined, no move. -/
  | wait (c : Conf A U B W) (p v : Nat) (r : Rec A) (es : List (Ev A)) (h : Nat) (tab' : Nb (Rec A)) (vals : List W) (s' : U × B) (hp : p < P)
      (hr : c.rest p = .wait v :: es) (hh : (c.st p).var v = h) (ht : nbWait h (c.st p).tab = .ok (some r, tab')) (hq : (c.st p).req r.g = some h)
      (hv : heads (c.chan r.g) p (ex r.a r.g p).recvs = some vals)
      (hs : (ex r.a r.g p).post ((c.st p).u r.x, (c.st p).buf r.b) vals = .ok s') :
      Trans ex P c ⟨Function.update c.rest p es,
        Function.update c.st p ⟨Function.update (c.st p).u r.x s'.1, Function.update (c.st p).buf r.b s'.2, (c.st p).var, tab',
          Function.update (c.st p).req r.g none⟩,
        fun g a b t => if g = r.g ∧ b = p ∧ (a, t) ∈ (ex r.a r.g p).recvs then (c.chan g a b t).tail else c.chan g a b t⟩
  /-- gs_wait with a number that is not the index of a request: only the table can change -/
  | waitNone (c : Conf A U B W) (p v : Nat) (es : List (Ev A)) (tab' : Nb (Rec A)) (hp : p < P)
      (hr : c.rest p = .wait v :: es) (ht : nbWait ((c.st p).var v) (c.st p).tab = .ok (none, tab')) :
      Trans ex P c ⟨Function.update c.rest p es, Function.update c.st p { c.st p with tab := tab' }, c.chan⟩

/-- reachable by any schedule -/
inductive Reach (ex : A → Nat → Nat → Step (U × B) W) (P : Nat) (c0 : Conf A U B W) : Conf A U B W → Prop
  | refl : Reach ex P c0 c0
  | step {c c'} : Reach ex P c0 c → Trans ex P c c' → Reach ex P c0 c'

/-- initial configuration: user arrays `u0 p`, buffers `b0 p` of process `p`, no request, no message -/
def start (prog : Nat → List (Ev A)) (u0 : Nat → Nat → U) (b0 : Nat → Nat → B) : Conf A U B W :=
  ⟨prog, fun p => ⟨u0 p, b0 p, fun _ => 0, Nb.empty, fun _ => none⟩, fun _ _ _ _ => []⟩

/-- every process has ended -/
def Finished (P : Nat) (c : Conf A U B W) : Prop := ∀ p, p < P → c.rest p = []

/-- process `p` can go on even if MPI delays the completion of each send until the destination has posted the receive of this very message:
it starts an operation, or it waits for one whose messages have arrived and whose own messages were received or
the destination has posted (and not completed) an operation of the same handle that receives it, and no other message is before it -/
def ReadyStrict (ex : A → Nat → Nat → Step (U × B) W) (c : Conf A U B W) (p : Nat) : Prop :=
  (∃ v r es, c.rest p = .igs v r :: es) ∨
  ∃ v es r, ∃ (h : Nat) (tab' : Nb (Rec A)), c.rest p = .wait v :: es ∧ (c.st p).var v = h ∧ nbWait h (c.st p).tab = .ok (some r, tab') ∧
    (∃ vals, heads (c.chan r.g) p (ex r.a r.g p).recvs = some vals) ∧
    ∀ y ∈ (ex r.a r.g p).sends, c.chan r.g p y.1 y.2 = [] ∨
      ((c.chan r.g p y.1 y.2).length = 1 ∧ ∃ (h' : Nat) (r' : Rec A) (tab'' : Nb (Rec A)), (c.st y.1).req r.g = some h' ∧
        nbWait h' (c.st y.1).tab = .ok (some r', tab'') ∧ r'.g = r.g ∧ (p, y.2) ∈ (ex r'.a r'.g y.1).recvs)

end Gslib.Nb
