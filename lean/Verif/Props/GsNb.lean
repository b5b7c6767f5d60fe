import Verif.Lemmas.GsNbAll

/-!
# Property C26: nonblocking gather-scatter

Specification: `Verif/Spec/Nb.lean` (programs, schedules), `Verif/Spec/GsNb.lean` (effect of an operation, handles). Model: `Verif/Model/Nb.lean`, `Verif/Model/GsNb.lean`.

A program is a list of calls of igs (igs_vec, igs_many) and gs_wait on each process. `igsEx D nbc np h` are the operations with the handles `h g p` (handle number `g` on process `p`).
-/

namespace Gslib.Props
open Gslib Gslib.Spec Gslib.Mpi Gslib.Gs Gslib.Nb

variable {T : Type}

/-- the handles of gs_setup -/
theorem fromSetup_handles {m : Method} {np : Nat} {ids : Nat → List Int} {h : Nat → GsData} (hs : FromSetup m np ids h) : Handles np ids h := by
  obtain ⟨hin, s0, c, h0, hr, hf, hh⟩ := hs
  have := ((gs_setup_handles hin m s0 h0 (fun s => Handles np ids fun q => (s q).h) fun s h => h).result c hr hf).1
  refine ⟨this.ids_ok, this.bound, this.small, ?_, ?_⟩
  · intro q hq
    rw [hh q hq]; exact this.ok.loc q hq
  · have heq : ∀ q, q < np → (h q).r = ((c.proc q).st).h.r := fun q hq => by rw [hh q hq]
    cases this.ok.remote with
    | pairwise h => exact .pairwise fun q hq => (heq q hq).trans (h q hq)
    | crystal d hd h => exact .crystal d hd fun q hq => (heq q hq).trans (h q hq)
    | allreduce st ord total ho htot hst h => exact .allreduce st ord total ho htot hst fun q hq => (heq q hq).trans (h q hq)

/-- **C26**: for every number of processes and every list of operations (plain, vec or many; any operation and transpose) with handles from gs_setup, every program that starts the operations
in this order on all processes and waits for each of them, where the waits may be placed differently on each process and in any order, with any number of outstanding operations with
distinct arrays, buffers and gs handles, ends on all processes under every schedule (no deadlock, also with synchronous sends), and the data are those after the
corresponding blocking operations one after the other; no message is left over and the request table is released. -/
theorem igs_wait_equals_gs (D : Dom T) (okT : T → Prop) (hD : ∀ op, CommMonoidOn okT (D.doOp op) (D.identity op)) (nbc : Bool) {np : Nat} (m : Nat → Method) (ids : Nat → Nat → List Int)
    (h : Nat → Nat → GsData) (ops : List (Spec.Op GsArgs)) (prog : Nat → List (Ev GsArgs)) (hp : NbProgram np ops prog) (hN : ops.length ≤ 1073741824)
    (hset : ∀ o ∈ ops, FromSetup (m o.g) np (ids o.g) (h o.g)) (hu : ∀ o ∈ ops, ∀ q, q < np → Usable nbc np (h o.g q).r) (u0 : Nat → Nat → UserData T) (b0 : Nat → Nat → NbBuf T)
    (hdata : ∀ l o l', ops = l ++ o :: l' → ∀ q, q < np → DataOk okT (ids o.g q) o.a.mode (oneByOne (fun o v => gsEffect D np (ids o.g) o.a v) l u0 q (o.x q))) :
    AllNbSchedules (igsEx D nbc np h) np prog u0 b0 fun u => ∀ p, p < np → u p = oneByOne (fun o v => gsEffect D np (ids o.g) o.a v) ops u0 p := by
  haveI : Inhabited GsArgs := ⟨⟨.plain, .add, false⟩⟩
  refine nb_all hp hN u0 b0 _ ?_ ?_
  · intro o ho
    rcases Nat.eq_zero_or_pos np with h0 | h0
    · subst h0
      exact ⟨fun p hp => absurd hp (by omega), fun p hp => absurd hp (by omega)⟩
    · obtain ⟨l, l', he⟩ := List.append_of_mem ho
      exact (igs_effect D okT hD nbc (fromSetup_handles (hset o ho)) (hu o ho) o.a (hdata l o l' he) h0).1
  · intro l o l' he b
    have ho : o ∈ ops := by rw [he]; simp
    rcases Nat.eq_zero_or_pos np with h0 | h0
    · subst h0
      exact ⟨fun q => (u0 q 0, b q), ⟨fun q => (u0 q 0, b q), fun p hp => absurd hp (by omega)⟩, fun p hp => absurd hp (by omega)⟩
    · exact (igs_effect D okT hD nbc (fromSetup_handles (hset o ho)) (hu o ho) o.a (hdata l o l' he) h0).2 b

/-- the exchange method of the handles -/
theorem setup_run_of {m : Method} {np : Nat} {ids : Nat → List Int} {h : Nat → GsData} (hs : FromSetup m np ids h) :
    ∃ s0 s1 s' : Nat → SetupSt, ((setupTopo np).seq (setupLoc (setupLocal false))).run np s0 = .ok s1 ∧ (remoteSetup np m).run np s1 = .ok s' ∧ ∀ q, q < np → h q = (s' q).h := by
  obtain ⟨hin, s0, c, h0, hr, hf, hh⟩ := hs
  obtain ⟨s', e, -⟩ := gsSetup_run hin m s0 h0
  have := ((allSchedules_of_lockRun (gsSetup_ok false m np) e (fun s => ∀ q, q < np → s q = s' q) fun _ h => h).result c hr hf).1
  have hseq : ((setupTopo np).seq (setupLoc (setupLocal false))).Ok np := Coll.seq_ok (setupTopo_ok np) (Coll.loc_ok _ _ _)
  have e : ((((setupTopo np).seq (setupLoc (setupLocal false))).seq (remoteSetup np m)).run np s0) = .ok s' := e
  rw [Coll.seq_run hseq] at e
  obtain ⟨s1, e1, e2⟩ := Outcome.bind_eq_ok e
  exact ⟨s0, s1, s', e1, e2, fun q hq => (hh q hq).trans (congrArg SetupSt.h (this q hq))⟩

/-- handles for the pairwise method can always be used -/
theorem pairwise_usable {np : Nat} {ids : Nat → List Int} {h : Nat → GsData} (hs : FromSetup .pairwise np ids h) (nbc : Bool) {q : Nat} (hq : q < np) : Usable nbc np (h q).r := by
  obtain ⟨-, s1, s', -, e2, h3⟩ := setup_run_of hs
  have e2 : (setupLoc fun _ => setupPw).run np s1 = .ok s' := e2
  have := loc_of_run e2 q hq
  unfold setupPw at this
  obtain ⟨d, -, h4⟩ := Outcome.bind_eq_ok this
  rw [h3 q hq, ← Outcome.ok.inj h4]
  exact trivial

/-- with the pairwise method there is no condition on the build and the ids -/
theorem igs_wait_equals_gs_pairwise (D : Dom T) (okT : T → Prop) (hD : ∀ op, CommMonoidOn okT (D.doOp op) (D.identity op)) (nbc : Bool) {np : Nat} (ids : Nat → Nat → List Int)
    (h : Nat → Nat → GsData) (ops : List (Spec.Op GsArgs)) (prog : Nat → List (Ev GsArgs)) (hp : NbProgram np ops prog) (hN : ops.length ≤ 1073741824)
    (hset : ∀ o ∈ ops, FromSetup .pairwise np (ids o.g) (h o.g)) (u0 : Nat → Nat → UserData T) (b0 : Nat → Nat → NbBuf T)
    (hdata : ∀ l o l', ops = l ++ o :: l' → ∀ q, q < np → DataOk okT (ids o.g q) o.a.mode (oneByOne (fun o v => gsEffect D np (ids o.g) o.a v) l u0 q (o.x q))) :
    AllNbSchedules (igsEx D nbc np h) np prog u0 b0 fun u => ∀ p, p < np → u p = oneByOne (fun o v => gsEffect D np (ids o.g) o.a v) ops u0 p :=
  igs_wait_equals_gs D okT hD nbc (fun _ => .pairwise) ids h ops prog hp hN hset (fun o ho _ hq => pairwise_usable (hset o ho) nbc hq) u0 b0 hdata

/-- **finding**: with a handle for the crystal router igs is undefined (it calls function pointers that were never set) -/
theorem igs_crystal_undefined {np : Nat} {ids : Nat → List Int} (h : Nat → Nat → GsData) {g : Nat} (hs : FromSetup .crystal np ids (h g)) (D : Dom T) (nbc : Bool) (a : GsArgs) {p : Nat} (hp : p < np)
    (x s : UserData T × NbBuf T) : (igsEx D nbc np h a g p).pre x ≠ .ok s := by
  obtain ⟨-, s1, s', -, e2, h3⟩ := setup_run_of hs
  have e2 : (setupCr np true).run np s1 = .ok s' := e2
  have k1 : (setupLoc fun _ s => .ok (s.setCr { s.cr with sh := s.topo.sh })).Ok np := Coll.loc_ok _ _ _
  have k2 := Coll.lift_ok SetupSt.cr SetupSt.setCr (Coll.mapW_ok Sum.inr SetupMsg.cr (crSetup_ok np))
  unfold setupCr at e2
  rw [Coll.seq_run (Coll.seq_ok k1 k2)] at e2
  obtain ⟨s2, -, e3⟩ := Outcome.bind_eq_ok e2
  have e4 := loc_of_run e3 p hp
  have hr : ∃ d, (h g p).r = .crystal d := ⟨(s2 p).cr.data, by rw [h3 p hp, ← Outcome.ok.inj e4]; rfl⟩
  obtain ⟨d, hr⟩ := hr
  have key : ∀ {U : Type} (K : Kernels U T) (op : Gs.Op) (t : Bool) (y z : GsSt U T), (igsStep K D op nbc np t (h g p) p).pre y ≠ .ok z := by
    intro U K op t y z e
    unfold igsStep at e
    rw [hr] at e
    obtain ⟨_, -, e⟩ := Outcome.bind_eq_ok (show (gsPre K (h g p) t y).bind (fun _ => .ub) = .ok z from e)
    cases e
  intro e
  unfold igsEx at e
  rcases a with ⟨mode, op, t⟩
  cases mode <;>
  · obtain ⟨u, -, e⟩ := Outcome.bind_eq_ok e
    obtain ⟨z, e, -⟩ := Outcome.bind_eq_ok e
    exact key _ _ _ _ _ e

/-- **finding**: with a handle for the all-reduce, igs aborts if the library is not compiled with GSLIB_USE_NBC (and anything is shared) -/
theorem igs_allreduce_aborts {np : Nat} (h : GsData) (d : ArData) (hr : h.r = .allreduce d) (hd : d.total ≠ 0) (D : Dom T) (op : Gs.Op) (t : Bool) (p : Nat) (s s1 : GsSt (List T) T)
    (hpre : gsPre (plainKernels D op) h t s = .ok s1) : (igsStep (plainKernels D op) D op false np t h p).pre s = .abort := by
  unfold igsStep
  rw [hr]
  show (if (plainKernels D op).vn * d.total = 0 then _ else _ : Step (GsSt (List T) T) (List T)).pre s = _
  rw [if_neg (by show ¬ 1 * d.total = 0; omega)]
  show (gsPre (plainKernels D op) h t s).bind _ = _
  rw [hpre]; rfl

/-! ### the hypotheses are met -/

/-- some schedule ends -/
theorem exists_finished {S W : Type} {prog : Nat → Prog S W} {P : Nat} {s0 : Nat → S} {Q : (Nat → S) → Prop} (h : AllSchedules prog P s0 Q) :
    ∃ c, Mpi.Reach P (Mpi.start prog s0) c ∧ Mpi.Finished P c := by
  by_contra hc
  push Not at hc
  have hstep : ∀ c : {c // Mpi.Reach P (Mpi.start prog s0) c}, ∃ c' : {c // Mpi.Reach P (Mpi.start prog s0) c}, Mpi.Trans P c.1 c'.1 := by
    intro c
    obtain ⟨⟨c', hc'⟩, -⟩ := h.noDeadlock c.1 c.2 (hc c.1 c.2)
    exact ⟨⟨c', .step c.2 hc'⟩, hc'⟩
  choose nxt hn using hstep
  exact h.noInfinite ⟨fun i => (nxt^[i] ⟨_, .refl⟩).1, rfl, fun i => by
    show Mpi.Trans P (nxt^[i] ⟨_, .refl⟩).1 (nxt^[i+1] ⟨_, .refl⟩).1
    rw [Function.iterate_succ_apply']; exact hn _⟩

/-- gs_setup returns handles for all admissible ids and every method -/
theorem exists_fromSetup {np : Nat} {ids : Nat → List Int} (hin : GsInput np ids) (m : Method) (s0 : SetupSt) : ∃ h, FromSetup m np ids h := by
  let s : Nat → SetupSt := fun q => s0.setTopo { s0.topo with ids := ids q }
  obtain ⟨c, hr, hf⟩ := exists_finished (gs_setup_handles hin m s (fun _ _ => rfl) (fun _ => True) fun _ _ => trivial)
  exact ⟨fun q => (c.proc q).st.h, hin, s, c, fun _ _ => rfl, hr, hf, fun _ _ => rfl⟩

/-- two operations on three processes: gs with `add` on array 0, gs_many (two arrays) with `max`, transposed, on data 1 -/
def exOps : List (Spec.Op GsArgs) := [⟨⟨.plain, .add, false⟩, 0, fun _ => 0, fun _ => 0⟩, ⟨⟨.many 2, .max, true⟩, 1, fun _ => 1, fun _ => 1⟩]

/-- both are outstanding at the same time; process 0 waits in the order of the starts, the others in the opposite order -/
def exProg (p : Nat) : List (Ev GsArgs) :=
  [.igs 0 ⟨⟨.plain, .add, false⟩, 0, 0, 0⟩, .igs 1 ⟨⟨.many 2, .max, true⟩, 1, 1, 1⟩] ++ if p = 0 then [.wait 0, .wait 1] else [.wait 1, .wait 0]

example : NbProgram 3 exOps exProg where
  order p _ := by unfold exProg; split <;> rfl
  disciplined p _ := by unfold exProg; split <;> simp [Disciplined]

/-- data for the ids `exIds` of both handles -/
def exData (q : Nat) (x : Nat) : UserData (BitVec 32) := if x = 0 then .one (exVals q) else .many [exVals q, exVals q]

example : ∀ l o l', exOps = l ++ o :: l' → ∀ q, q < 3 →
    DataOk (fun _ => True) (exIds q) o.a.mode (oneByOne (fun o v => gsEffect (intDom 32 32) 3 exIds o.a v) l exData q (o.x q)) := by
  intro l o l' he q hq
  have hlen : (exVals q).length = (exIds q).length := by
    have : q = 0 ∨ q = 1 ∨ q = 2 := by omega
    rcases this with rfl | rfl | rfl <;> rfl
  match l, he with
  | [], he =>
    obtain ⟨rfl, -⟩ := List.cons.inj he
    exact ⟨hlen, fun _ _ => trivial⟩
  | [_], he =>
    obtain ⟨h1, he⟩ := List.cons.inj he
    obtain ⟨h2, -⟩ := List.cons.inj he
    subst h1
    subst h2
    refine ⟨by decide, rfl, ?_⟩
    intro x hx
    have : x = exVals q := by simpa using hx
    rw [this]
    exact ⟨hlen, fun _ _ => trivial⟩
  | _ :: _ :: _, he =>
    have := congrArg List.length he
    simp [exOps] at this

end Gslib.Props
