import Verif.Model.Outcome
import Mathlib.Logic.Function.Basic

/-!
# Message passing: processes, schedules, lockstep execution

gslib communicates by `comm_isend`/`comm_irecv`/`comm_wait` (comm.h:242-269) and their blocking forms
`comm_send`/`comm_recv` (comm.h:221-240), thin wrappers of the MPI point-to-point calls. A process is a list of
`Step`s: compute locally (`pre`), post all sends and receives of the step, wait for all of them, compute locally
(`post`). A blocking send (receive) is a step with one send (receive).

`Trans` is the asynchronous semantics: any process may move at any time; a message is identified by source,
destination and tag only, messages with equal source, destination and tag are received in the order
they were sent (MPI non-overtaking rule). `lockRun` executes all processes label by label. That every schedule
gives the lockstep result without deadlock is proved in `Verif/Lemmas/Mpi.lean`, for every program whose sends
and receives match.
-/

namespace Gslib.Mpi
open Gslib

/-- local computation, posting, waiting, local computation. `sends`: (destination, tag), `recvs`: (source, tag).
`label` is not part of the program: it orders the steps for the proof and the lockstep execution. -/
structure Step (S W : Type) where
  label : Nat
  pre : S → Outcome S
  sends : List (Nat × Nat)
  payload : S → Nat × Nat → W
  recvs : List (Nat × Nat)
  post : S → List W → Outcome S

/-- the steps of one process -/
abbrev Prog (S W : Type) := List (Step S W)

/-- a running process: remaining steps, whether the operations of the first one are posted, memory -/
structure Proc (S W : Type) where
  rest : Prog S W
  posted : Bool
  st : S

/-- all processes and the messages under way: `chan source destination tag`, oldest first -/
structure Conf (S W : Type) where
  proc : Nat → Proc S W
  chan : Nat → Nat → Nat → List W

variable {S W : Type}

/-- the messages at the head of the channels a step receives from -/
def heads (chan : Nat → Nat → Nat → List W) (p : Nat) (recvs : List (Nat × Nat)) : Option (List W) :=
  recvs.mapM fun x => (chan x.1 p x.2).head?

/-- one move of one process -/
inductive Trans (P : Nat) : Conf S W → Conf S W → Prop
  /-- compute and post the sends and receives of the first step -/
  | post (c : Conf S W) (p : Nat) (s : Step S W) (r : Prog S W) (st' : S) (hp : p < P)
      (hr : (c.proc p).rest = s :: r) (hn : (c.proc p).posted = false) (hs : s.pre (c.proc p).st = .ok st') :
      Trans P c ⟨Function.update c.proc p ⟨s :: r, true, st'⟩,
        fun a b g => if a = p ∧ (b, g) ∈ s.sends then c.chan a b g ++ [s.payload st' (b, g)] else c.chan a b g⟩
  /-- the wait returns: all messages to be received have arrived -/
  | complete (c : Conf S W) (p : Nat) (s : Step S W) (r : Prog S W) (vals : List W) (st' : S) (hp : p < P)
      (hr : (c.proc p).rest = s :: r) (hn : (c.proc p).posted = true)
      (hv : heads c.chan p s.recvs = some vals) (hs : s.post (c.proc p).st vals = .ok st') :
      Trans P c ⟨Function.update c.proc p ⟨r, false, st'⟩,
        fun a b g => if b = p ∧ (a, g) ∈ s.recvs then (c.chan a b g).tail else c.chan a b g⟩

/-- reachable by any schedule -/
inductive Reach (P : Nat) (c0 : Conf S W) : Conf S W → Prop
  | refl : Reach P c0 c0
  | step {c c'} : Reach P c0 c → Trans P c c' → Reach P c0 c'

/-- initial configuration: nothing posted, no message under way -/
def start (prog : Nat → Prog S W) (s0 : Nat → S) : Conf S W :=
  ⟨fun p => ⟨prog p, false, s0 p⟩, fun _ _ _ => []⟩

/-- every process has ended -/
def Finished (P : Nat) (c : Conf S W) : Prop := ∀ p, p < P → (c.proc p).rest = []

/-- the step of a program with a given label -/
def stepAt (pr : Prog S W) (l : Nat) : Option (Step S W) := pr.find? (·.label == l)

/-- collect the results of processes `0..P-1` -/
def seqAll (d : Nat → S) (o : Nat → Outcome S) : Nat → Outcome (Nat → S)
  | 0 => .ok d
  | k + 1 => (seqAll d o k).bind fun f => (o k).bind fun v => .ok (Function.update f k v)

/-- messages for process `p` at label `l`, when `e` are the states after the `pre` computations; a receive without
matching send does not complete -/
def gather (prog : Nat → Prog S W) (P l : Nat) (e : Nat → S) (p : Nat) (recvs : List (Nat × Nat)) : Option (List W) :=
  recvs.mapM fun x =>
    if x.1 < P then
      match stepAt (prog x.1) l with
      | none => none
      | some s => if (p, x.2) ∈ s.sends then some (s.payload (e x.1) (p, x.2)) else none
    else none

/-- process `p` runs the `pre` part of its step labelled `l`, if any -/
def preOf (prog : Nat → Prog S W) (l : Nat) (d : Nat → S) (p : Nat) : Outcome S :=
  match stepAt (prog p) l with
  | none => .ok (d p)
  | some s => s.pre (d p)

/-- process `p` receives the messages of its step labelled `l`, if any, and runs the `post` part -/
def postOf (prog : Nat → Prog S W) (P l : Nat) (e : Nat → S) (p : Nat) : Outcome S :=
  match stepAt (prog p) l with
  | none => .ok (e p)
  | some s => (Outcome.ofOption (gather prog P l e p s.recvs)).bind (s.post (e p))

/-- all processes execute their steps labelled `l` -/
def lockStep (prog : Nat → Prog S W) (P l : Nat) (d : Nat → S) : Outcome (Nat → S) :=
  (seqAll d (preOf prog l d) P).bind fun e => seqAll d (postOf prog P l e) P

/-- lockstep execution of the labels `0..T-1` -/
def lockRun (prog : Nat → Prog S W) (P : Nat) : Nat → (Nat → S) → Outcome (Nat → S)
  | 0, d => .ok d
  | T + 1, d => (lockRun prog P T d).bind (lockStep prog P T)

/-- sends and receives match: at each label, `p` sends to `q` with tag `g` iff `q` receives from `p` with tag `g`;
no message is sent or received twice in a step; labels increase along each program -/
structure Matched (prog : Nat → Prog S W) (P T : Nat) : Prop where
  labels : ∀ p, p < P → (prog p).Pairwise (fun a b => a.label < b.label)
  bound : ∀ p, p < P → ∀ s ∈ prog p, s.label < T
  recvNodup : ∀ p, p < P → ∀ s ∈ prog p, s.recvs.Nodup
  sendNodup : ∀ p, p < P → ∀ s ∈ prog p, s.sends.Nodup
  send : ∀ p, p < P → ∀ s ∈ prog p, ∀ x ∈ s.sends, x.1 < P ∧ ∃ s' ∈ prog x.1, s'.label = s.label ∧ (p, x.2) ∈ s'.recvs
  recv : ∀ p, p < P → ∀ s ∈ prog p, ∀ x ∈ s.recvs, x.1 < P ∧ ∃ s' ∈ prog x.1, s'.label = s.label ∧ (p, x.2) ∈ s'.sends

/-- the wait of process `p` can return even if MPI delays the completion of each send until the destination has
posted the receive of this very message (rendezvous) -/
def ReadyStrict (c : Conf S W) (p : Nat) : Prop :=
  ∃ s r, (c.proc p).rest = s :: r ∧ (c.proc p).posted = true ∧ (∃ vals, heads c.chan p s.recvs = some vals) ∧
    ∀ x ∈ s.sends, c.chan p x.1 x.2 = [] ∨
      ((c.chan p x.1 x.2).length = 1 ∧ (c.proc x.1).posted = true ∧
        ∃ s' r', (c.proc x.1).rest = s' :: r' ∧ (p, x.2) ∈ s'.recvs)

end Gslib.Mpi
