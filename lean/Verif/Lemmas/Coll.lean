import Verif.Model.Coll
import Verif.Spec.Schedules
import Verif.Lemmas.Mpi

namespace Gslib.Mpi
open Gslib Gslib.Spec

variable {S W A : Type}

theorem allSchedules_of_lockRun {prog : Nat → Prog S W} {P T : Nat} {s0 sf : Nat → S} (hm : Matched prog P T)
    (hrun : lockRun prog P T s0 = .ok sf) (Q : (Nat → S) → Prop)
    (hQ : ∀ s : Nat → S, (∀ p, p < P → s p = sf p) → Q s) : AllSchedules prog P s0 Q where
  noInfinite := by
    rintro ⟨f, h0, hs⟩
    have hdec : ∀ i, work P (f (i + 1)) < work P (f i) := fun i => work_decreases (hs i)
    have : ∀ i, work P (f i) + i ≤ work P (f 0) := by
      intro i
      induction i with
      | zero => simp
      | succ i ih => have := hdec i; omega
    have := this (work P (f 0) + 1)
    omega
  noDeadlock c hc hf := (schedule_independent hm hrun hc).2.1 hf
  result c hc hf := by
    obtain ⟨h1, h2⟩ := (schedule_independent hm hrun hc).1 hf
    exact ⟨hQ _ h1, h2⟩

/-- a collective operation whose sends and receives match -/
def Coll.Ok (c : Coll S W) (P : Nat) : Prop := Matched c.prog P c.T

theorem Coll.loc_ok (f : Nat → S → Outcome S) (w : W) (P : Nat) : (Coll.loc f w).Ok P where
  labels p _ := by simp [loc]
  bound p _ s hs := by simp [loc] at hs ⊢; subst hs; rfl
  recvNodup p _ s hs := by simp [loc] at hs; subst hs; simp
  sendNodup p _ s hs := by simp [loc] at hs; subst hs; simp
  send p _ s hs := by simp [loc] at hs; subst hs; simp
  recv p _ s hs := by simp [loc] at hs; subst hs; simp

theorem Coll.seq_ok {a b : Coll S W} {P : Nat} (ha : a.Ok P) (hb : b.Ok P) : (a.seq b).Ok P where
  labels p hp := by
    simp only [seq]
    rw [List.pairwise_append]
    refine ⟨ha.labels p hp, List.pairwise_map.2 ((hb.labels p hp).imp ?_), ?_⟩
    · intro x y h; simpa [Step.shift] using h
    · intro x hx y hy
      obtain ⟨z, _, rfl⟩ := List.mem_map.1 hy
      have := ha.bound p hp x hx
      simp only [Step.shift]; omega
  bound p hp s hs := by
    simp only [seq] at hs ⊢
    rcases List.mem_append.1 hs with h | h
    · have := ha.bound p hp s h; omega
    · obtain ⟨z, hz, rfl⟩ := List.mem_map.1 h
      have := hb.bound p hp z hz
      simp only [Step.shift]; omega
  recvNodup p hp s hs := by
    rcases List.mem_append.1 hs with h | h
    · exact ha.recvNodup p hp s h
    · obtain ⟨z, hz, rfl⟩ := List.mem_map.1 h
      exact hb.recvNodup p hp z hz
  sendNodup p hp s hs := by
    rcases List.mem_append.1 hs with h | h
    · exact ha.sendNodup p hp s h
    · obtain ⟨z, hz, rfl⟩ := List.mem_map.1 h
      exact hb.sendNodup p hp z hz
  send p hp s hs x hx := by
    rcases List.mem_append.1 hs with h | h
    · obtain ⟨h1, s', h2, h3⟩ := ha.send p hp s h x hx
      exact ⟨h1, s', List.mem_append_left _ h2, h3⟩
    · obtain ⟨z, hz, rfl⟩ := List.mem_map.1 h
      obtain ⟨h1, s', h2, h3, h4⟩ := hb.send p hp z hz x hx
      exact ⟨h1, s'.shift a.T, List.mem_append_right _ (List.mem_map_of_mem h2), by simp [Step.shift, h3], h4⟩
  recv p hp s hs x hx := by
    rcases List.mem_append.1 hs with h | h
    · obtain ⟨h1, s', h2, h3⟩ := ha.recv p hp s h x hx
      exact ⟨h1, s', List.mem_append_left _ h2, h3⟩
    · obtain ⟨z, hz, rfl⟩ := List.mem_map.1 h
      obtain ⟨h1, s', h2, h3, h4⟩ := hb.recv p hp z hz x hx
      exact ⟨h1, s'.shift a.T, List.mem_append_right _ (List.mem_map_of_mem h2), by simp [Step.shift, h3], h4⟩

theorem Coll.lift_ok {c : Coll A W} {P : Nat} (get : S → A) (set : S → A → S) (h : c.Ok P) : (c.lift get set).Ok P where
  labels p hp := List.pairwise_map.2 ((h.labels p hp).imp fun h => h)
  bound p hp s hs := by
    obtain ⟨z, hz, rfl⟩ := List.mem_map.1 hs
    exact h.bound p hp z hz
  recvNodup p hp s hs := by
    obtain ⟨z, hz, rfl⟩ := List.mem_map.1 hs
    exact h.recvNodup p hp z hz
  sendNodup p hp s hs := by
    obtain ⟨z, hz, rfl⟩ := List.mem_map.1 hs
    exact h.sendNodup p hp z hz
  send p hp s hs x hx := by
    obtain ⟨z, hz, rfl⟩ := List.mem_map.1 hs
    obtain ⟨h1, s', h2, h3, h4⟩ := h.send p hp z hz x hx
    exact ⟨h1, _, List.mem_map_of_mem h2, h3, h4⟩
  recv p hp s hs x hx := by
    obtain ⟨z, hz, rfl⟩ := List.mem_map.1 hs
    obtain ⟨h1, s', h2, h3, h4⟩ := h.recv p hp z hz x hx
    exact ⟨h1, _, List.mem_map_of_mem h2, h3, h4⟩

/-! ## results -/

theorem seqAll_congr {d : Nat → S} {o o' : Nat → Outcome S} : ∀ (P : Nat), (∀ p, p < P → o p = o' p) →
    seqAll d o P = seqAll d o' P
  | 0, _ => rfl
  | P + 1, h => by
    rw [seqAll, seqAll, seqAll_congr P (fun p hp => h p (by omega)), h P (by omega)]

theorem Coll.loc_run {f : Nat → S → Outcome S} {w : W} {P : Nat} {s : Nat → S} :
    (Coll.loc f w).run P s = seqAll s (fun p => f p (s p)) P := by
  have h : ∀ p, stepAt ((Coll.loc f w).prog p) 0 = some ⟨0, f p, [], fun _ _ => w, [], fun s _ => .ok s⟩ := by
    intro p; rfl
  change (Outcome.ok s).bind (lockStep _ P 0) = _
  simp only [Outcome.bind, lockStep]
  have e : preOf (Coll.loc f w).prog 0 s = fun p => f p (s p) := by
    funext p; simp [preOf, h]
  rw [e]
  cases hs : seqAll s (fun p => f p (s p)) P with
  | ok g =>
    simp only [Outcome.bind]
    obtain ⟨h1, h2⟩ := seqAll_ok hs
    apply seqAll_of_ok
    · intro p hp
      simp [postOf, h, gather, Outcome.ofOption, Outcome.bind]
    · exact h2
  | abort => rfl
  | ub => rfl

/-- local computations all succeed -/
theorem Coll.loc_run_ok {f : Nat → S → Outcome S} {w : W} {P : Nat} {s g : Nat → S}
    (h : ∀ p, p < P → f p (s p) = .ok (g p)) : (Coll.loc f w).run P s = .ok (fun p => if p < P then g p else s p) := by
  rw [Coll.loc_run]
  apply seqAll_of_ok
  · intro p hp; rw [h p hp, if_pos hp]
  · intro p hp; rw [if_neg (by omega)]

theorem lockStep_congr {prog prog' : Nat → Prog S W} {P l l' : Nat} (k : Nat)
    (h : ∀ p, p < P → stepAt (prog p) l = (stepAt (prog' p) l').map (Step.shift k)) (d : Nat → S) :
    lockStep prog P l d = lockStep prog' P l' d := by
  unfold lockStep
  have e1 : seqAll d (preOf prog l d) P = seqAll d (preOf prog' l' d) P := by
    apply seqAll_congr
    intro p hp
    unfold preOf
    rw [h p hp]
    cases stepAt (prog' p) l' <;> rfl
  rw [e1]
  congr 1
  funext e
  apply seqAll_congr
  intro p hp
  unfold postOf
  rw [h p hp]
  have hg : ∀ recvs, gather prog P l e p recvs = gather prog' P l' e p recvs := by
    intro recvs
    unfold gather
    apply mapM_option_congr
    intro x _
    split
    · rename_i hx
      rw [h x.1 hx]
      cases stepAt (prog' x.1) l' <;> rfl
    · rfl
  cases stepAt (prog' p) l' with
  | none => rfl
  | some s => simp only [Option.map_some, Step.shift]; rw [hg]

theorem stepAt_shift (pr : Prog S W) (k l : Nat) : stepAt (pr.map (Step.shift k)) (k + l) = (stepAt pr l).map (Step.shift k) := by
  induction pr with
  | nil => rfl
  | cons s pr ih =>
    unfold stepAt at *
    rw [List.map_cons, List.find?_cons, List.find?_cons, ih]
    have : ((Step.shift k s).label == k + l) = (s.label == l) := by
      simp [Step.shift]
    rw [this]
    cases s.label == l <;> rfl

theorem Step.shift_zero (s : Step S W) : Step.shift 0 s = s := by cases s; simp [Step.shift]

theorem lockRun_congr {prog prog' : Nat → Prog S W} {P : Nat} : ∀ (T : Nat)
    (_ : ∀ l, l < T → ∀ p, p < P → stepAt (prog p) l = stepAt (prog' p) l) (d : Nat → S),
    lockRun prog P T d = lockRun prog' P T d
  | 0, _, _ => rfl
  | T + 1, h, d => by
    rw [lockRun, lockRun, lockRun_congr T (fun l hl => h l (by omega)) d]
    congr 1
    funext e
    apply lockStep_congr 0
    intro p hp
    rw [h T (by omega) p hp]
    cases stepAt (prog' p) T with
    | none => rfl
    | some s => simp [Step.shift_zero]

theorem Coll.seq_run {a b : Coll S W} {P : Nat} (ha : a.Ok P) (d : Nat → S) :
    (a.seq b).run P d = (a.run P d).bind (b.run P) := by
  unfold Coll.run
  have h1 : ∀ l, l < a.T → ∀ p, p < P → stepAt ((a.seq b).prog p) l = stepAt (a.prog p) l := by
    intro l hl p hp
    unfold stepAt
    simp only [seq]
    rw [List.find?_append]
    cases hf : (a.prog p).find? (·.label == l) with
    | some s => rfl
    | none =>
      rw [Option.none_or, List.find?_eq_none]
      intro x hx
      obtain ⟨z, _, rfl⟩ := List.mem_map.1 hx
      simp [Step.shift]; omega
  have h2 : ∀ l p, p < P → stepAt ((a.seq b).prog p) (a.T + l) = (stepAt (b.prog p) l).map (Step.shift a.T) := by
    intro l p hp
    rw [← stepAt_shift]
    unfold stepAt
    simp only [seq]
    rw [List.find?_append]
    have : (a.prog p).find? (·.label == a.T + l) = none := by
      rw [List.find?_eq_none]
      intro x hx
      have := ha.bound p hp x hx
      simp; omega
    rw [this, Option.none_or]
  have h3 : ∀ T, lockRun (a.seq b).prog P (a.T + T) d = (lockRun a.prog P a.T d).bind (lockRun b.prog P T) := by
    intro T
    induction T with
    | zero =>
      rw [Nat.add_zero, lockRun_congr a.T h1 d]
      cases lockRun a.prog P a.T d <;> rfl
    | succ T ih =>
      rw [← Nat.add_assoc, lockRun, ih]
      cases lockRun a.prog P a.T d with
      | ok e =>
        simp only [Outcome.bind, lockRun]
        congr 1
        funext e
        exact lockStep_congr a.T (fun p hp => h2 T p hp) e
      | abort => rfl
      | ub => rfl
  exact h3 b.T

/-- a lens -/
structure Lens (get : S → A) (set : S → A → S) : Prop where
  get_set : ∀ s a, get (set s a) = a
  set_get : ∀ s, set s (get s) = s
  set_set : ∀ s a b, set (set s a) b = set s b

/-- put the parts back, on processes `0..P-1` -/
def putAll (set : S → A → S) (P : Nat) (d : Nat → S) (f : Nat → A) : Nat → S := fun p => if p < P then set (d p) (f p) else d p

theorem seqAll_lift {get : S → A} {set : S → A → S} (hl : Lens get set) {P : Nat} {d : Nat → S} {o : Nat → Outcome A} {o' : Nat → Outcome S} {a0 : Nat → A}
    (h : ∀ p, p < P → o' p = (o p).bind fun a => .ok (set (d p) a)) :
    seqAll d o' P = (seqAll a0 o P).bind fun f => .ok (putAll set P d f) := by
  cases hs : seqAll a0 o P with
  | ok f =>
    obtain ⟨h1, h2⟩ := seqAll_ok hs
    simp only [Outcome.bind]
    apply seqAll_of_ok
    · intro p hp
      rw [h p hp, h1 p hp]
      simp [Outcome.bind, putAll, hp]
    · intro p hp; simp only [putAll]; rw [if_neg (by omega)]
  | abort =>
    simp only [Outcome.bind]
    clear hl
    induction P with
    | zero => cases hs
    | succ P ih =>
      rw [seqAll] at hs ⊢
      cases hq : seqAll a0 o P with
      | abort => rw [ih (fun p hp => h p (by omega)) hq]; rfl
      | ub => rw [hq] at hs; cases hs
      | ok f =>
        rw [hq] at hs
        simp only [Outcome.bind] at hs
        have : seqAll d o' P = .ok (putAll set P d f) := by
          obtain ⟨h1, h2⟩ := seqAll_ok hq
          apply seqAll_of_ok
          · intro p hp
            rw [h p (by omega), h1 p hp]
            simp [Outcome.bind, putAll, hp]
          · intro p hp; simp only [putAll]; rw [if_neg (by omega)]
        rw [this]
        simp only [Outcome.bind]
        rw [h P (by omega)]
        cases ho : o P with
        | ok v => rw [ho] at hs; cases hs
        | abort => rfl
        | ub => rw [ho] at hs; cases hs
  | ub =>
    simp only [Outcome.bind]
    clear hl
    induction P with
    | zero => cases hs
    | succ P ih =>
      rw [seqAll] at hs ⊢
      cases hq : seqAll a0 o P with
      | abort => rw [hq] at hs; cases hs
      | ub => rw [ih (fun p hp => h p (by omega)) hq]; rfl
      | ok f =>
        rw [hq] at hs
        simp only [Outcome.bind] at hs
        have : seqAll d o' P = .ok (putAll set P d f) := by
          obtain ⟨h1, h2⟩ := seqAll_ok hq
          apply seqAll_of_ok
          · intro p hp
            rw [h p (by omega), h1 p hp]
            simp [Outcome.bind, putAll, hp]
          · intro p hp; simp only [putAll]; rw [if_neg (by omega)]
        rw [this]
        simp only [Outcome.bind]
        rw [h P (by omega)]
        cases ho : o P with
        | ok v => rw [ho] at hs; cases hs
        | abort => rw [ho] at hs; cases hs
        | ub => rfl

theorem stepAt_lift (get : S → A) (set : S → A → S) (pr : Prog A W) (l : Nat) :
    stepAt (pr.map (Step.lift get set)) l = (stepAt pr l).map (Step.lift get set) := by
  unfold stepAt
  rw [List.find?_map]
  rfl

theorem lockStep_lift {get : S → A} {set : S → A → S} (hl : Lens get set) (prog : Nat → Prog A W) (P l : Nat) (d : Nat → S) (a : Nat → A)
    (ha : ∀ p, p < P → get (d p) = a p) :
    lockStep (fun p => (prog p).map (Step.lift get set)) P l d =
      (lockStep prog P l a).bind fun f => .ok (putAll set P d f) := by
  unfold lockStep
  rw [seqAll_lift hl (o := preOf prog l a) (a0 := a)]
  · cases hs : seqAll a (preOf prog l a) P with
    | abort => rfl
    | ub => rfl
    | ok e =>
      simp only [Outcome.bind]
      rw [seqAll_lift hl (o := postOf prog P l e) (a0 := a)]
      · rfl
      · intro p hp
        unfold postOf
        rw [stepAt_lift]
        have hget : ∀ q, q < P → get (putAll set P d e q) = e q := by
          intro q hq; simp only [putAll, hq, if_true, hl.get_set]
        have hg : ∀ recvs, gather (fun p => (prog p).map (Step.lift get set)) P l (putAll set P d e) p recvs = gather prog P l e p recvs := by
          intro recvs
          unfold gather
          apply mapM_option_congr
          intro x _
          split
          · rename_i hx
            rw [stepAt_lift]
            cases stepAt (prog x.1) l with
            | none => rfl
            | some s => simp only [Option.map_some, Step.lift, hget _ hx]
          · rfl
        cases stepAt (prog p) l with
        | none => simp [Outcome.bind, putAll, hp]
        | some s =>
          simp only [Option.map_some]
          rw [hg]
          simp only [Step.lift]
          cases gather prog P l e p s.recvs with
          | none => rfl
          | some v =>
            simp only [Outcome.ofOption, Outcome.bind]
            rw [hget p hp]
            cases s.post (e p) v with
            | ok x => simp [putAll, hp, hl.set_set]
            | abort => rfl
            | ub => rfl
  · intro p hp
    unfold preOf
    rw [stepAt_lift]
    cases stepAt (prog p) l with
    | none => simp [Outcome.bind, ← ha p hp, hl.set_get]
    | some s => simp only [Option.map_some, Step.lift]; rw [ha p hp]

theorem Coll.lift_run {get : S → A} {set : S → A → S} (hl : Lens get set) (c : Coll A W) (P : Nat) (d : Nat → S) (a : Nat → A)
    (ha : ∀ p, p < P → get (d p) = a p) :
    (c.lift get set).run P d = (c.run P a).bind fun f => .ok (putAll set P d f) := by
  unfold Coll.run Coll.lift
  simp only
  generalize c.T = T
  induction T with
  | zero =>
    simp only [lockRun, Outcome.bind]
    congr 1
    funext p
    unfold putAll
    split
    · rename_i hp; rw [← ha p hp, hl.set_get]
    · rfl
  | succ T ih =>
    rw [lockRun, ih, lockRun]
    cases lockRun c.prog P T a with
    | ok f =>
      simp only [Outcome.bind]
      rw [lockStep_lift hl c.prog P T _ f (by intro p hp; simp only [putAll, hp, if_true, hl.get_set])]
      cases lockStep c.prog P T f with
      | ok g =>
        simp only [Outcome.bind]
        congr 1
        funext p
        unfold putAll
        split
        · simp [hl.set_set]
        · rfl
      | abort => rfl
      | ub => rfl
    | abort => rfl
    | ub => rfl

end Gslib.Mpi
