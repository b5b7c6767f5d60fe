import Verif.Lemmas.Crystal
import Verif.Lemmas.Coll

/-!
# Properties C09, C10, C11, C50: the crystal router

Specification: `Verif/Spec/Crystal.lean`. Model: `Verif/Model/Mpi.lean` (message passing, all schedules),
`Verif/Model/Crystal.lean`.
-/

namespace Gslib.Props
open Gslib Gslib.Spec Gslib.Mpi Gslib.Crystal

/-- the data buffers of processes `0..P-1` hold the message lists `M`, all addressed to existing processes -/
structure Holds (P : Nat) (M : Nat → List Msg) (s0 : Nat → CrState) : Prop where
  data : ∀ p, p < P → (s0 p).data = flat (M p)
  target : ∀ p, p < P → ∀ m ∈ M p, m.target < P

/-- total number of bytes in all messages -/
def totalBytes (P : Nat) (M : Nat → List Msg) : Nat := (∑ p ∈ Finset.range P, (flat (M p)).length) * 4

theorem stage_small {P : Nat} {M : Nat → List Msg} {s0 : Nat → CrState} (h : Holds P M s0)
    (hn : totalBytes P M < 4 * uintRange) : ∀ t p, p < P → (flat (stageM P M t p)).length < uintRange := by
  intro t p hp
  have := stage_le_total P M h.target t p hp
  unfold totalBytes at hn
  omega

/-! ## C09 -/

/-- **C09**: for every number of processes, every family of message lists addressed to existing processes
and of total size below `INT_MAX` bytes, under every schedule: the execution ends, and then the buffer of
each process holds exactly the messages addressed to it, unmodified, each exactly once. -/
theorem crystal_router_delivers (P : Nat) (M : Nat → List Msg) (s0 : Nat → CrState) (h : Holds P M s0)
    (hn : totalBytes P M < intMax) :
    AllSchedules (router P) P s0 fun s => ∀ p, p < P → ∃ out, (s p).data = flat out ∧ out.Perm (addressedTo P M p) := by
  obtain ⟨d', h1, h2⟩ := run_ok P M s0 h.data (Nat.clog 2 P) (fun t _ => fits_of_total P M h.target hn t)
    (stage_small h (by unfold intMax uintRange at *; omega))
  apply allSchedules_of_lockRun (router_matched P) h1
  intro s hs p hp
  refine ⟨_, ?_, stageM_final P M h.target p hp⟩
  rw [hs p hp, h2 p hp]

/-- without the bound on the total size, as long as the number of words fits `uint`: the router ends with
the messages delivered, or aborts; it never has undefined behaviour -/
theorem crystal_router_delivers_or_aborts (P : Nat) (M : Nat → List Msg) (s0 : Nat → CrState) (h : Holds P M s0)
    (hn : totalBytes P M < 4 * uintRange) :
    lockRun (router P) P (2 * Nat.clog 2 P) s0 = .abort ∨
    AllSchedules (router P) P s0 fun s => ∀ p, p < P → ∃ out, (s p).data = flat out ∧ out.Perm (addressedTo P M p) := by
  by_cases c : ∀ t, t < Nat.clog 2 P → Fits P t (stageM P M t)
  · right
    obtain ⟨d', h1, h2⟩ := run_ok P M s0 h.data (Nat.clog 2 P) c (stage_small h hn)
    apply allSchedules_of_lockRun (router_matched P) h1
    intro s hs p hp
    refine ⟨_, ?_, stageM_final P M h.target p hp⟩
    rw [hs p hp, h2 p hp]
  · exact .inl (run_abort P M s0 h.data (stage_small h hn) _ c)

/-- five processes, process `p` holds a message for itself and one for process `4 - p` -/
def demoM (p : Nat) : List Msg := [⟨4 - p, p, [10 * p, 7]⟩, ⟨p, p, []⟩]
/-- the buffers of `demoM` -/
def demoS (p : Nat) : CrState := ⟨flat (demoM p), [], []⟩

example : Holds 5 demoM demoS := ⟨fun _ _ => rfl, by decide⟩
example : totalBytes 5 demoM < intMax := by decide
example : addressedTo 5 demoM 1 = [⟨1, 1, []⟩, ⟨1, 3, [30, 7]⟩] := by decide

/-! ## C10 -/

/-- the messages exchanged by two processes in a step: what `p` sends to `q` with tag `g` -/
def SendsIn (s : Step CrState (List Nat)) (q g : Nat) : Prop := (q, g) ∈ s.sends
/-- what is received from `q` with tag `g` -/
def RecvsIn (s : Step CrState (List Nat)) (q g : Nat) : Prop := (q, g) ∈ s.recvs

/-- **C10** (matching): in every exchange, each message a process sends is received by the process it names in
its exchange of the same stage, each message it posts a receive for is sent, no message is posted twice, the
stages of a process are in increasing order and there are at most `⌈log₂ P⌉` of them (two exchanges each: lengths and data) -/
theorem crystal_router_matching (P p : Nat) (hp : p < P) :
    (∀ s ∈ router P p, ∀ q g, SendsIn s q g → q < P ∧ q ≠ p ∧ ∃ s' ∈ router P q, s'.label = s.label ∧ RecvsIn s' p g) ∧
    (∀ s ∈ router P p, ∀ q g, RecvsIn s q g → q < P ∧ q ≠ p ∧ ∃ s' ∈ router P q, s'.label = s.label ∧ SendsIn s' p g) ∧
    (∀ s ∈ router P p, s.sends.Nodup ∧ s.recvs.Nodup ∧ s.sends.length = 1) ∧
    (router P p).Pairwise (fun a b => a.label < b.label) ∧
    (router P p).length ≤ 2 * Nat.clog 2 P := by
  have hm := router_matched P
  refine ⟨?_, ?_, ?_, hm.labels p hp, ?_⟩
  · intro s hs q g hq
    obtain ⟨h1, h2⟩ := hm.send p hp s hs (q, g) hq
    refine ⟨h1, ?_, h2⟩
    rintro rfl
    obtain ⟨t, hg, h | h⟩ := (mem_router P q s).1 hs
    all_goals
      subst h
      have := targ_side hg (grp_in P q hp t)
      simp only [SendsIn, countStep, dataStep, List.mem_singleton, Prod.mk.injEq] at hq
      rw [← hq.1] at this
      omega
  · intro s hs q g hq
    obtain ⟨h1, h2⟩ := hm.recv p hp s hs (q, g) hq
    refine ⟨h1, ?_, h2⟩
    rintro rfl
    obtain ⟨s', hs', _, hq'⟩ := h2
    obtain ⟨t, hg, h | h⟩ := (mem_router P q s').1 hs'
    all_goals
      subst h
      have := targ_side hg (grp_in P q hp t)
      simp only [countStep, dataStep, List.mem_singleton, Prod.mk.injEq] at hq'
      rw [← hq'.1] at this
      omega
  · intro s hs
    refine ⟨hm.sendNodup p hp s hs, hm.recvNodup p hp s hs, ?_⟩
    obtain ⟨t, hg, h | h⟩ := (mem_router P p s).1 hs <;> subst h <;> rfl
  · have h1 := hm.labels p hp
    have h2 := hm.bound p hp
    have h3 : ((router P p).map Step.label).Pairwise (· < ·) := List.pairwise_map.2 h1
    have h4 : ((router P p).map Step.label) ⊆ List.range (2 * Nat.clog 2 P) := by
      intro l hl
      obtain ⟨s, hs, rfl⟩ := List.mem_map.1 hl
      exact List.mem_range.2 (h2 s hs)
    have h5 := (List.subperm_of_subset (h3.imp (fun h => Nat.ne_of_lt h)) h4).length_le
    simpa using h5

/-- **C10** (no deadlock): under every schedule, also with rendezvous sends, the router ends -/
theorem crystal_router_no_deadlock (P : Nat) (M : Nat → List Msg) (s0 : Nat → CrState) (h : Holds P M s0)
    (hn : totalBytes P M < intMax) : AllSchedules (router P) P s0 fun _ => True := by
  have := crystal_router_delivers P M s0 h hn
  exact ⟨this.noInfinite, this.noDeadlock, fun c hc hf => ⟨trivial, (this.result c hc hf).2⟩⟩

example : (router 5 2).length = 4 ∧ (router 5 0).length = 6 := by simp [router, routerProg, bhOf]
example : Nat.clog 2 5 = 3 := by decide

/-! ## C11 -/

/-- **C11**: for every list of messages, every cutoff and direction, splitting the buffer in place ends without undefined
behaviour (no out-of-bounds access, no overlapping memcpy); the work buffer holds exactly the messages for the
other half, the data buffer the others, both in their original order. -/
theorem crystal_move_splits (ms : List Msg) (cutoff : Nat) (sendHi : Bool) :
    crystalMove (flat ms) cutoff sendHi =
      some (flat (ms.filter fun m => if sendHi then m.target < cutoff else cutoff ≤ m.target),
            flat (ms.filter fun m => if sendHi then cutoff ≤ m.target else m.target < cutoff)) := by
  rw [crystalMove_spec]
  have e1 : ms.filter (fun m => !goes cutoff sendHi m) =
      ms.filter (fun m => if sendHi then m.target < cutoff else cutoff ≤ m.target) := by
    apply List.filter_congr
    intro m _
    cases sendHi <;> simp [goes, ← decide_not]
  have e2 : ms.filter (goes cutoff sendHi) =
      ms.filter (fun m => if sendHi then cutoff ≤ m.target else m.target < cutoff) := by
    apply List.filter_congr
    intro m _
    cases sendHi <;> simp [goes]
  rw [e1, e2]

example : crystalMove (flat [⟨5, 0, [1]⟩, ⟨2, 0, [3, 4]⟩, ⟨9, 1, []⟩, ⟨0, 0, [8]⟩]) 3 true =
    some ([2, 0, 2, 3, 4, 0, 0, 1, 8], [5, 0, 1, 1, 9, 1, 0]) := by decide

/-! ## C50 -/

/-- **C50**: whatever the buffers hold (well formed or not), under every schedule, no message of `INT_MAX` bytes or
more is ever posted. -/
theorem crystal_router_no_oversized_message (P : Nat) (s0 : Nat → CrState) (h0 : ∀ p, (s0 p).work = [])
    (c : Conf CrState (List Nat)) (hc : Reach P (start (router P) s0) c) (p q g : Nat) :
    ∀ w ∈ c.chan p q g, w.length * 4 < intMax := by
  suffices h : (∀ p, ((c.proc p).st.work).length * 4 < intMax) ∧
      (∀ p, ∀ s ∈ (c.proc p).rest, ∃ t bl n, s = countStep p t bl n ∨ s = dataStep p t bl n) ∧
      (∀ p q g, ∀ w ∈ c.chan p q g, w.length * 4 < intMax) from h.2.2 p q g
  induction hc with
  | refl =>
    refine ⟨fun p => by simp [start, h0, intMax], ?_, fun p q g w hw => by simp [start] at hw⟩
    intro p s hs
    obtain ⟨t, _, h⟩ := (mem_router P p s).1 hs
    exact ⟨t, _, _, h⟩
  | step _ ht ih =>
    obtain ⟨i1, i2, i3⟩ := ih
    cases ht with
    | post p s r st' hp hr hn hs =>
      have hst : st'.work.length * 4 < intMax := by
        obtain ⟨t, bl, n, rfl | rfl⟩ := i2 p s (by rw [hr]; simp)
        · simp only [countStep, moveStage] at hs
          obtain ⟨v, hv, hs⟩ := Outcome.bind_eq_ok hs
          split at hs
          · cases hs
          · cases hs; simp only; omega
        · simp only [dataStep, Outcome.ok.injEq] at hs
          rw [← hs]; exact i1 p
      refine ⟨?_, ?_, ?_⟩
      · intro p'
        by_cases e : p' = p
        · subst e; simpa using hst
        · simpa [Function.update, e] using i1 p'
      · intro p' s' hs'
        by_cases e : p' = p
        · subst e; simp at hs'; exact i2 p' s' (by rw [hr]; simpa using hs')
        · simp [Function.update, e] at hs'; exact i2 p' s' hs'
      · intro a b g w hw
        simp only at hw
        split at hw
        · rcases List.mem_append.1 hw with hw | hw
          · exact i3 a b g w hw
          · simp only [List.mem_singleton] at hw
            subst hw
            obtain ⟨t, bl, n, rfl | rfl⟩ := i2 p s (by rw [hr]; simp)
            · simp [countStep, intMax]
            · simpa [dataStep] using hst
        · exact i3 a b g w hw
    | complete p s r vals st' hp hr hn hv hs =>
      have hst : st'.work.length * 4 < intMax := by
        obtain ⟨t, bl, n, rfl | rfl⟩ := i2 p s (by rw [hr]; simp)
        · simp only [countStep, Outcome.ok.injEq] at hs
          rw [← hs]; exact i1 p
        · simp only [dataStep] at hs
          split at hs
          · cases hs; exact i1 p
          · cases hs
      refine ⟨?_, ?_, ?_⟩
      · intro p'
        by_cases e : p' = p
        · subst e; simpa using hst
        · simpa [Function.update, e] using i1 p'
      · intro p' s' hs'
        by_cases e : p' = p
        · subst e; simp at hs'; exact i2 p' s' (by rw [hr]; exact List.mem_cons_of_mem _ hs')
        · simp [Function.update, e] at hs'; exact i2 p' s' hs'
      · intro a b g w hw
        simp only at hw
        split at hw
        · exact i3 a b g w (List.mem_of_mem_tail hw)
        · exact i3 a b g w hw

/-- **C50**: the router aborts if a process has `INT_MAX` bytes or more for the other half in the first stage -/
theorem crystal_router_aborts_when_too_long (P : Nat) (hP : 1 < P) (M : Nat → List Msg) (s0 : Nat → CrState) (h : Holds P M s0)
    (hn : totalBytes P M < 4 * uintRange) (p : Nat) (hp : p < P)
    (hbig : intMax ≤ (flat ((M p).filter fun m => (m.target < (P + 1) / 2) ≠ (p < (P + 1) / 2))).length * 4) :
    lockRun (router P) P (2 * Nat.clog 2 P) s0 = .abort := by
  apply run_abort P M s0 h.data (stage_small h hn)
  intro hf
  have h0 : 0 < Nat.clog 2 P := Nat.clog_pos (by omega) (by omega)
  have := hf 0 h0 p hp (by simpa [grp] using hP)
  have e : sent P 0 (stageM P M 0) p = (M p).filter fun m => (m.target < (P + 1) / 2) ≠ (p < (P + 1) / 2) := by
    unfold sent stageM
    apply List.filter_congr
    intro m _
    simp only [grp, Function.iterate_zero, id_eq, bhOf, Nat.zero_add, goes]
    by_cases c : p < (P + 1) / 2 <;> by_cases c' : m.target < (P + 1) / 2 <;> simp [c, c'] <;> omega
  rw [e] at this
  omega

/-- a message of `n` words from process 0 to process 1 -/
def hugeM (n p : Nat) : List Msg := if p = 0 then [⟨1, 0, List.replicate n 0⟩] else []

example (n : Nat) : Holds 2 (hugeM n) (fun p => ⟨flat (hugeM n p), [], []⟩) := by
  refine ⟨fun _ _ => rfl, ?_⟩
  intro p hp m hm
  unfold hugeM at hm
  split at hm
  · simp only [List.mem_singleton] at hm; subst hm; simp
  · simp at hm
example (n : Nat) (h : intMax ≤ n * 4) (h' : n + 3 < uintRange) : totalBytes 2 (hugeM n) < 4 * uintRange ∧
    intMax ≤ (flat ((hugeM n 0).filter fun m => (m.target < (2 + 1) / 2) ≠ (0 < (2 + 1) / 2))).length * 4 := by
  have h0 : hugeM n 0 = [⟨1, 0, List.replicate n 0⟩] := rfl
  have h1 : hugeM n 1 = [] := rfl
  unfold totalBytes
  rw [Finset.sum_range_succ, Finset.sum_range_succ, Finset.sum_range_zero, h0, h1]
  simp [flat, Msg.words]
  omega
example : intMax ≤ 600000000 * 4 ∧ 600000000 + 3 < uintRange := by decide

end Gslib.Props
