import Verif.Lemmas.GsPwExec
import Verif.Lemmas.Crystal
import Verif.Model.GsCr

/-! # Collective operations in rounds -/

namespace Gslib.Mpi
open Gslib Gslib.Crystal

variable {S W : Type}

theorem Coll.ok_congr {a b : Coll S W} {P : Nat} (hT : a.T = b.T) (h : ∀ p, p < P → a.prog p = b.prog p) (hb : b.Ok P) : a.Ok P where
  labels p hp := by rw [h p hp]; exact hb.labels p hp
  bound p hp s hs := by rw [h p hp] at hs; rw [hT]; exact hb.bound p hp s hs
  recvNodup p hp s hs := by rw [h p hp] at hs; exact hb.recvNodup p hp s hs
  sendNodup p hp s hs := by rw [h p hp] at hs; exact hb.sendNodup p hp s hs
  send p hp s hs x hx := by
    rw [h p hp] at hs
    obtain ⟨h1, s', h2, h3⟩ := hb.send p hp s hs x hx
    exact ⟨h1, s', by rw [h _ h1]; exact h2, h3⟩
  recv p hp s hs x hx := by
    rw [h p hp] at hs
    obtain ⟨h1, s', h2, h3⟩ := hb.recv p hp s hs x hx
    exact ⟨h1, s', by rw [h _ h1]; exact h2, h3⟩

theorem Coll.run_congr {a b : Coll S W} {P : Nat} (hT : a.T = b.T) (h : ∀ p, p < P → a.prog p = b.prog p) (s : Nat → S) : a.run P s = b.run P s := by
  unfold Coll.run
  rw [hT]
  exact lockRun_congr _ (fun l _ p hp => by rw [h p hp]) s

/-- one step of the active processes -/
def Coll.one (act : Nat → Prop) [DecidablePred act] (st : Nat → Step S W) : Coll S W := ⟨1, fun p => if act p then [st p] else []⟩

theorem Coll.one_prog (act : Nat → Prop) [DecidablePred act] (st : Nat → Step S W) (p : Nat) : (Coll.one act st).prog p = if act p then [st p] else [] := rfl

theorem Coll.one_ok {act : Nat → Prop} [DecidablePred act] {st : Nat → Step S W} {P : Nat} (hl : ∀ p, (st p).label = 0)
    (hs : ∀ p, p < P → act p → (st p).sends.Nodup ∧ ∀ x ∈ (st p).sends, x.1 < P ∧ act x.1 ∧ (p, x.2) ∈ (st x.1).recvs)
    (hr : ∀ p, p < P → act p → (st p).recvs.Nodup ∧ ∀ x ∈ (st p).recvs, x.1 < P ∧ act x.1 ∧ (p, x.2) ∈ (st x.1).sends) : (Coll.one act st).Ok P where
  labels p _ := by rw [Coll.one_prog]; split <;> simp
  bound p _ s h := by
    rw [Coll.one_prog] at h; split at h
    · rw [List.mem_singleton] at h; subst h; rw [hl p]; exact Nat.one_pos
    · simp at h
  recvNodup p hp s h := by
    rw [Coll.one_prog] at h; split at h
    · rename_i c; rw [List.mem_singleton] at h; subst h; exact (hr p hp c).1
    · simp at h
  sendNodup p hp s h := by
    rw [Coll.one_prog] at h; split at h
    · rename_i c; rw [List.mem_singleton] at h; subst h; exact (hs p hp c).1
    · simp at h
  send p hp s h x hx := by
    rw [Coll.one_prog] at h ⊢; split at h
    · rename_i c; rw [List.mem_singleton] at h; subst h
      obtain ⟨h1, h2, h3⟩ := (hs p hp c).2 x hx
      exact ⟨h1, st x.1, by rw [if_pos h2]; simp, by rw [hl, hl], h3⟩
    · simp at h
  recv p hp s h x hx := by
    rw [Coll.one_prog] at h ⊢; split at h
    · rename_i c; rw [List.mem_singleton] at h; subst h
      obtain ⟨h1, h2, h3⟩ := (hr p hp c).2 x hx
      exact ⟨h1, st x.1, by rw [if_pos h2]; simp, by rw [hl, hl], h3⟩
    · simp at h

theorem Coll.one_run' {act : Nat → Prop} [DecidablePred act] {st : Nat → Step S W} (hl : ∀ p, (st p).label = 0) {P : Nat} {s e g : Nat → S}
    (hpre : ∀ p, p < P → act p → (st p).pre (s p) = .ok (e p))
    (hrecv : ∀ p, p < P → act p → ∀ x ∈ (st p).recvs, x.1 < P ∧ act x.1 ∧ (p, x.2) ∈ (st x.1).sends)
    (hpost : ∀ p, p < P → act p → (st p).post (e p) ((st p).recvs.map fun x => (st x.1).payload (e x.1) (p, x.2)) = .ok (g p)) :
    (Coll.one act st).run P s = .ok (fun p => if p < P ∧ act p then g p else s p) := by
  have h : ∀ p, stepAt ((Coll.one act st).prog p) 0 = if act p then some (st p) else none := by
    intro p
    rw [Coll.one_prog]
    split
    · simp [stepAt, hl p]
    · rfl
  change (Outcome.ok s).bind (lockStep _ P 0) = _
  simp only [Outcome.bind, lockStep]
  have e1 : seqAll s (preOf (Coll.one act st).prog 0 s) P = .ok (fun p => if p < P ∧ act p then e p else s p) := by
    apply seqAll_of_ok
    · intro p hp
      unfold preOf
      rw [h]
      by_cases c : act p
      · simp only [c, hp, if_true, and_self]
        exact hpre p hp c
      · simp [c]
    · intro p hp; rw [if_neg (by omega)]
  rw [e1]
  simp only
  apply seqAll_of_ok
  · intro p hp
    unfold postOf
    rw [h]
    by_cases c : act p
    · simp only [c, hp, if_true, and_self]
      have hg : gather (Coll.one act st).prog P 0 (fun p => if p < P ∧ act p then e p else s p) p (st p).recvs =
          some ((st p).recvs.map fun x => (st x.1).payload (e x.1) (p, x.2)) := by
        unfold gather
        apply mapM_eq_map
        intro x hx
        obtain ⟨h1, h2, h3⟩ := hrecv p hp c x hx
        rw [if_pos h1, h, if_pos h2]
        simp only [h1, h2, h3, if_true, and_self]
      rw [hg]
      exact hpost p hp c
    · simp [c]
  · intro p hp; rw [if_neg (by omega)]

/-- rounds `0..t-1` -/
def Coll.rounds (lv : Nat → Coll S W) : Nat → Coll S W
  | 0 => ⟨0, fun _ => []⟩
  | t + 1 => (Coll.rounds lv t).seq (lv t)

theorem Coll.nil_ok (P : Nat) : (⟨0, fun _ => []⟩ : Coll S W).Ok P where
  labels _ _ := List.Pairwise.nil
  bound _ _ s h := by simp at h
  recvNodup _ _ s h := by simp at h
  sendNodup _ _ s h := by simp at h
  send _ _ s h := by simp at h
  recv _ _ s h := by simp at h

theorem Coll.rounds_ok {lv : Nat → Coll S W} {P : Nat} : ∀ T, (∀ t, t < T → (lv t).Ok P) → (Coll.rounds lv T).Ok P
  | 0, _ => Coll.nil_ok P
  | T + 1, h => Coll.seq_ok (Coll.rounds_ok T fun t ht => h t (by omega)) (h T (by omega))

theorem Coll.rounds_run {lv : Nat → Coll S W} {P : Nat} (Inv : Nat → (Nat → S) → Prop) {s : Nat → S} (h0 : Inv 0 s) : ∀ T, (∀ t, t < T → (lv t).Ok P) →
    (∀ t, t < T → ∀ s, Inv t s → ∃ s', (lv t).run P s = .ok s' ∧ Inv (t + 1) s') → ∃ s', (Coll.rounds lv T).run P s = .ok s' ∧ Inv T s'
  | 0, _, _ => ⟨s, rfl, h0⟩
  | T + 1, hok, h => by
    obtain ⟨s1, e1, i1⟩ := Coll.rounds_run Inv h0 T (fun t ht => hok t (by omega)) (fun t ht => h t (by omega))
    obtain ⟨s2, e2, i2⟩ := h T (by omega) s1 i1
    refine ⟨s2, ?_, i2⟩
    rw [Coll.rounds, Coll.seq_run (Coll.rounds_ok T fun t ht => hok t (by omega)), e1]
    exact e2

theorem Coll.rounds_prog {lv : Nat → Coll S W} {B : Nat} (hB : ∀ t, (lv t).T = B) (p : Nat) : ∀ T, (Coll.rounds lv T).T = B * T ∧
    (Coll.rounds lv T).prog p = (List.range T).flatMap fun t => ((lv t).prog p).map (Step.shift (B * t))
  | 0 => ⟨rfl, rfl⟩
  | T + 1 => by
    obtain ⟨h1, h2⟩ := Coll.rounds_prog hB p T
    constructor
    · show (Coll.rounds lv T).T + (lv T).T = _
      rw [h1, hB]; ring
    · show (Coll.rounds lv T).prog p ++ ((lv T).prog p).map (Step.shift (Coll.rounds lv T).T) = _
      rw [h1, h2, List.range_succ, List.flatMap_append]
      simp

/-- the halving loop as rounds -/
theorem halvingProg_eq (B : Nat) (body : Nat → Nat → Nat → Prog S W) (np id : Nat) : ∀ k t, (grp np id (t + k)).2 ≤ 1 →
    halvingProg B body id t (grp np id t).1 (grp np id t).2 =
      (List.range k).flatMap fun j => if 1 < (grp np id (t + j)).2 then (body (t + j) (grp np id (t + j)).1 (grp np id (t + j)).2).map (Step.shift (B * (t + j))) else []
  | 0, t, h => by rw [halvingProg, dif_neg (by simp at h; omega)]; rfl
  | k + 1, t, h => by
    have ih := halvingProg_eq B body np id k (t + 1) (by rw [show t + 1 + k = t + (k + 1) by omega]; exact h)
    rw [List.range_succ_eq_map, List.flatMap_cons, List.flatMap_map]
    have hc : (fun j => if 1 < (grp np id (t + 1 + j)).2 then (body (t + 1 + j) (grp np id (t + 1 + j)).1 (grp np id (t + 1 + j)).2).map (Step.shift (B * (t + 1 + j))) else []) =
        fun j => if 1 < (grp np id (t + j.succ)).2 then (body (t + j.succ) (grp np id (t + j.succ)).1 (grp np id (t + j.succ)).2).map (Step.shift (B * (t + j.succ))) else [] := by
      funext j
      rw [show t + 1 + j = t + j.succ by omega]
    rw [hc] at ih
    rw [← ih, Nat.add_zero]
    by_cases c : 1 < (grp np id t).2
    · rw [halvingProg, dif_pos c, if_pos c]
      congr 1
      rw [grp_succ]
      unfold half
      rw [if_pos c]
      unfold bhOf
      split <;> rfl
    · rw [if_neg c, List.nil_append]
      have : grp np id (t + 1) = grp np id t := by
        rw [grp_succ]; unfold half; rw [if_neg c]
      rw [this]
      rw [halvingProg, dif_neg c, halvingProg, dif_neg c]

/-- the halving loop as a collective operation in rounds -/
theorem halving_congr {B : Nat} {body : Nat → Nat → Nat → Nat → Prog S W} {np : Nat} {lv : Nat → Coll S W} (hB : ∀ t, (lv t).T = B)
    (h : ∀ t p, p < np → (lv t).prog p = if 1 < (grp np p t).2 then body p t (grp np p t).1 (grp np p t).2 else []) {p : Nat} (hp : p < np) :
    halvingProg B (body p) p 0 0 np = (Coll.rounds lv (Nat.clog 2 np)).prog p := by
  have := halvingProg_eq B (body p) np p (Nat.clog 2 np) 0 (by rw [Nat.zero_add, grp_size np p hp _ (le_refl _)])
  simp only [Nat.zero_add] at this
  rw [show (grp np p 0).1 = 0 from rfl, show (grp np p 0).2 = np from rfl] at this
  rw [this, (Coll.rounds_prog hB p _).2]
  apply List.flatMap_congr
  intro t _
  rw [h t p hp]
  split <;> rfl

end Gslib.Mpi
