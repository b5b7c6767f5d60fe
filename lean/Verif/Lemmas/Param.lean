import Verif.Lemmas.Coll

/-!
# Programs that compute with values they do not inspect: related inputs give related results

`StepRel RS RW a b`: the steps `a` and `b` communicate in the same way, and do related things to memories related by `RS` and messages related by `RW`.
-/

namespace Gslib.Mpi
open Gslib Gslib.Spec

variable {S S' W W' A A' : Type}

structure StepRel (RS : S → S' → Prop) (RW : W → W' → Prop) (a : Step S W) (b : Step S' W') : Prop where
  label : b.label = a.label
  sends : b.sends = a.sends
  recvs : b.recvs = a.recvs
  pre : ∀ s s' t, RS s s' → a.pre s = .ok t → ∃ t', b.pre s' = .ok t' ∧ RS t t'
  payload : ∀ s s' k, RS s s' → RW (a.payload s k) (b.payload s' k)
  post : ∀ s s' v v' t, RS s s' → List.Forall₂ RW v v' → a.post s v = .ok t → ∃ t', b.post s' v' = .ok t' ∧ RS t t'

abbrev ProgRel (RS : S → S' → Prop) (RW : W → W' → Prop) (a : Prog S W) (b : Prog S' W') : Prop := List.Forall₂ (StepRel RS RW) a b

variable {RS : S → S' → Prop} {RW : W → W' → Prop}

theorem stepAt_rel {a : Prog S W} {b : Prog S' W'} (h : ProgRel RS RW a b) (l : Nat) :
    (stepAt a l = none ∧ stepAt b l = none) ∨ ∃ s s', stepAt a l = some s ∧ stepAt b l = some s' ∧ StepRel RS RW s s' := by
  induction h with
  | nil => exact Or.inl ⟨rfl, rfl⟩
  | @cons x y xs ys hd _ ih =>
    unfold stepAt at *
    rw [List.find?_cons, List.find?_cons, hd.label]
    cases hx : (x.label == l)
    · simpa using ih
    · exact Or.inr ⟨x, y, rfl, rfl, hd⟩

theorem seqAll_rel {P : Nat} {d : Nat → S} {d' : Nat → S'} {o : Nat → Outcome S} {o' : Nat → Outcome S'} {f : Nat → S} (e : seqAll d o P = .ok f)
    (h : ∀ p, p < P → ∀ t, o p = .ok t → ∃ t', o' p = .ok t' ∧ RS t t') : ∃ f', seqAll d' o' P = .ok f' ∧ ∀ p, p < P → RS (f p) (f' p) := by
  obtain ⟨e1, _⟩ := seqAll_ok e
  have k : ∀ p, ∃ t', p < P → o' p = .ok t' ∧ RS (f p) t' := by
    intro p
    by_cases hp : p < P
    · obtain ⟨t', q⟩ := h p hp (f p) (e1 p hp)
      exact ⟨t', fun _ => q⟩
    · exact ⟨d' p, fun h => absurd h hp⟩
  choose t' ht' using k
  refine ⟨fun p => if p < P then t' p else d' p, seqAll_of_ok _ P (fun p hp => by rw [if_pos hp]; exact (ht' p hp).1) (fun p hp => by rw [if_neg (by omega)]), fun p hp => ?_⟩
  beta_reduce
  rw [if_pos hp]
  exact (ht' p hp).2

theorem mapM_rel {α β β' : Type} {R : β → β' → Prop} {g : α → Option β} {g' : α → Option β'} : ∀ (l : List α) (v : List β), (∀ x ∈ l, ∀ y, g x = some y → ∃ y', g' x = some y' ∧ R y y') →
    l.mapM g = some v → ∃ v', l.mapM g' = some v' ∧ List.Forall₂ R v v'
  | [], v, _, e => by
    have : v = [] := by simpa using e.symm
    subst this
    exact ⟨[], rfl, .nil⟩
  | x :: l, v, h, e => by
    rw [List.mapM_cons] at e
    obtain ⟨y, e1, e⟩ := Option.bind_eq_some_iff.1 e
    obtain ⟨ys, e2, e⟩ := Option.bind_eq_some_iff.1 e
    obtain rfl := Option.some.inj e
    obtain ⟨y', f1, r1⟩ := h x (by simp) y e1
    obtain ⟨ys', f2, r2⟩ := mapM_rel l ys (fun z hz => h z (by simp [hz])) e2
    exact ⟨y' :: ys', by rw [List.mapM_cons, f1, f2]; rfl, .cons r1 r2⟩

theorem lockStep_rel {P l : Nat} {prog : Nat → Prog S W} {prog' : Nat → Prog S' W'} (h : ∀ p, p < P → ProgRel RS RW (prog p) (prog' p)) {d : Nat → S} {d' : Nat → S'}
    (hd : ∀ p, p < P → RS (d p) (d' p)) {t : Nat → S} (e : lockStep prog P l d = .ok t) : ∃ t', lockStep prog' P l d' = .ok t' ∧ ∀ p, p < P → RS (t p) (t' p) := by
  unfold lockStep at e ⊢
  obtain ⟨u, e1, e2⟩ := Outcome.bind_eq_ok e
  obtain ⟨u', f1, hu⟩ := seqAll_rel (RS := RS) (d' := d') (o' := preOf prog' l d') e1 (by
    intro p hp v ev
    unfold preOf at ev ⊢
    rcases stepAt_rel (h p hp) l with ⟨a, b⟩ | ⟨s, s', a, b, c⟩
    · rw [a] at ev
      rw [b]
      obtain rfl := Outcome.ok.inj ev
      exact ⟨_, rfl, hd p hp⟩
    · rw [a] at ev
      rw [b]
      exact c.pre _ _ _ (hd p hp) ev)
  rw [f1]
  show ∃ t', seqAll d' (postOf prog' P l u') P = .ok t' ∧ _
  refine seqAll_rel e2 ?_
  intro p hp v ev
  unfold postOf at ev ⊢
  rcases stepAt_rel (h p hp) l with ⟨a, b⟩ | ⟨s, s', a, b, c⟩
  · rw [a] at ev
    rw [b]
    obtain rfl := Outcome.ok.inj ev
    exact ⟨_, rfl, hu p hp⟩
  · rw [a] at ev
    rw [b]
    obtain ⟨vals, g1, g2⟩ := Outcome.bind_eq_ok ev
    have g1' : gather prog P l u p s.recvs = some vals := by
      cases hg : gather prog P l u p s.recvs with
      | none => rw [hg] at g1; cases g1
      | some x => rw [hg] at g1; rw [Outcome.ok.inj g1]
    obtain ⟨vals', k1, k2⟩ := mapM_rel (R := RW) (g' := fun x => if x.1 < P then
        match stepAt (prog' x.1) l with
        | none => none
        | some s => if (p, x.2) ∈ s.sends then some (s.payload (u' x.1) (p, x.2)) else none
      else none) s.recvs vals (by
      intro x _ y hy
      beta_reduce at hy ⊢
      by_cases hx : x.1 < P
      · rw [if_pos hx] at hy ⊢
        rcases stepAt_rel (h x.1 hx) l with ⟨a, b⟩ | ⟨z, z', a, b, c⟩
        · rw [a] at hy; cases hy
        · rw [a] at hy
          rw [b]
          simp only at hy ⊢
          rw [c.sends]
          by_cases hm : (p, x.2) ∈ z.sends
          · rw [if_pos hm] at hy ⊢
            obtain rfl := Option.some.inj hy
            exact ⟨_, rfl, c.payload _ _ _ (hu x.1 hx)⟩
          · rw [if_neg hm] at hy; cases hy
      · rw [if_neg hx] at hy; cases hy) g1'
    have k1' : gather prog' P l u' p s'.recvs = some vals' := by rw [c.recvs]; exact k1
    simp only [k1']
    exact c.post _ _ _ _ _ (hu p hp) k2 g2

theorem lockRun_rel {P : Nat} {prog : Nat → Prog S W} {prog' : Nat → Prog S' W'} (h : ∀ p, p < P → ProgRel RS RW (prog p) (prog' p)) {d : Nat → S} {d' : Nat → S'}
    (hd : ∀ p, p < P → RS (d p) (d' p)) : ∀ (T : Nat) {t : Nat → S}, lockRun prog P T d = .ok t → ∃ t', lockRun prog' P T d' = .ok t' ∧ ∀ p, p < P → RS (t p) (t' p)
  | 0, t, e => by
    obtain rfl := Outcome.ok.inj e
    exact ⟨d', rfl, hd⟩
  | T + 1, t, e => by
    rw [lockRun] at e
    obtain ⟨u, e1, e2⟩ := Outcome.bind_eq_ok e
    obtain ⟨u', f1, hu⟩ := lockRun_rel h hd T e1
    obtain ⟨t', f2, ht⟩ := lockStep_rel h hu e2
    exact ⟨t', by rw [lockRun, f1]; exact f2, ht⟩

theorem forall₂_mem_right {α β : Type} {R : α → β → Prop} {a : List α} {b : List β} (h : List.Forall₂ R a b) : ∀ y ∈ b, ∃ x ∈ a, R x y := by
  induction h with
  | nil => intro y hy; cases hy
  | cons hd _ ih =>
    intro y hy
    rcases List.mem_cons.1 hy with rfl | hy
    · exact ⟨_, by simp, hd⟩
    · obtain ⟨x, hx, r⟩ := ih y hy
      exact ⟨x, by simp [hx], r⟩

theorem forall₂_mem_left {α β : Type} {R : α → β → Prop} {a : List α} {b : List β} (h : List.Forall₂ R a b) : ∀ x ∈ a, ∃ y ∈ b, R x y := by
  induction h with
  | nil => intro y hy; cases hy
  | cons hd _ ih =>
    intro y hy
    rcases List.mem_cons.1 hy with rfl | hy
    · exact ⟨_, by simp, hd⟩
    · obtain ⟨x, hx, r⟩ := ih y hy
      exact ⟨x, by simp [hx], r⟩

theorem labels_rel {a : Prog S W} {b : Prog S' W'} (h : ProgRel RS RW a b) (hp : a.Pairwise (fun x y => x.label < y.label)) : b.Pairwise (fun x y => x.label < y.label) := by
  induction h with
  | nil => exact .nil
  | cons hd tl ih =>
    rw [List.pairwise_cons] at hp ⊢
    refine ⟨fun y hy => ?_, ih hp.2⟩
    obtain ⟨x, hx, r⟩ := forall₂_mem_right tl y hy
    rw [hd.label, r.label]
    exact hp.1 x hx

theorem matched_rel {P T : Nat} {prog : Nat → Prog S W} {prog' : Nat → Prog S' W'} (h : ∀ p, p < P → ProgRel RS RW (prog p) (prog' p)) (m : Matched prog P T) : Matched prog' P T where
  labels p hp := labels_rel (h p hp) (m.labels p hp)
  bound p hp s hs := by
    obtain ⟨x, hx, r⟩ := forall₂_mem_right (h p hp) s hs
    rw [r.label]; exact m.bound p hp x hx
  recvNodup p hp s hs := by
    obtain ⟨x, hx, r⟩ := forall₂_mem_right (h p hp) s hs
    rw [r.recvs]; exact m.recvNodup p hp x hx
  sendNodup p hp s hs := by
    obtain ⟨x, hx, r⟩ := forall₂_mem_right (h p hp) s hs
    rw [r.sends]; exact m.sendNodup p hp x hx
  send p hp s hs y hy := by
    obtain ⟨x, hx, r⟩ := forall₂_mem_right (h p hp) s hs
    rw [r.sends] at hy
    obtain ⟨a, z, b, c, d⟩ := m.send p hp x hx y hy
    obtain ⟨z', b', r'⟩ := forall₂_mem_left (h y.1 a) z b
    exact ⟨a, z', b', by rw [r'.label, c, r.label], by rw [r'.recvs]; exact d⟩
  recv p hp s hs y hy := by
    obtain ⟨x, hx, r⟩ := forall₂_mem_right (h p hp) s hs
    rw [r.recvs] at hy
    obtain ⟨a, z, b, c, d⟩ := m.recv p hp x hx y hy
    obtain ⟨z', b', r'⟩ := forall₂_mem_left (h y.1 a) z b
    exact ⟨a, z', b', by rw [r'.label, c, r.label], by rw [r'.sends]; exact d⟩

/-! ### collective operations -/

/-- the programs of all processes are related -/
structure CollRel (RS : S → S' → Prop) (RW : W → W' → Prop) (a : Coll S W) (b : Coll S' W') : Prop where
  T : b.T = a.T
  prog : ∀ p, ProgRel RS RW (a.prog p) (b.prog p)

theorem StepRel.shift {a : Step S W} {b : Step S' W'} (h : StepRel RS RW a b) (k : Nat) : StepRel RS RW (a.shift k) (b.shift k) :=
  ⟨by simp [Step.shift, h.label], h.sends, h.recvs, h.pre, h.payload, h.post⟩

theorem CollRel.seq {a a' : Coll S W} {b b' : Coll S' W'} (h : CollRel RS RW a b) (h' : CollRel RS RW a' b') : CollRel RS RW (a.seq a') (b.seq b') where
  T := by simp [Coll.seq, h.T, h'.T]
  prog p := by
    simp only [Coll.seq]
    refine List.rel_append (h.prog p) ?_
    rw [List.forall₂_map_left_iff, List.forall₂_map_right_iff, h.T]
    exact (h'.prog p).imp fun _ _ r => r.shift _

theorem CollRel.loc {f : Nat → S → Outcome S} {g : Nat → S' → Outcome S'} {w : W} {w' : W'} (hw : RW w w')
    (h : ∀ p s s' t, RS s s' → f p s = .ok t → ∃ t', g p s' = .ok t' ∧ RS t t') : CollRel RS RW (Coll.loc f w) (Coll.loc g w') where
  T := rfl
  prog p := .cons ⟨rfl, rfl, rfl, h p, fun _ _ _ _ => hw, fun s s' v v' t r _ e => by
    obtain rfl := Outcome.ok.inj e
    exact ⟨s', rfl, r⟩⟩ .nil

theorem CollRel.lift {RA : A → A' → Prop} {get : S → A} {set : S → A → S} {get' : S' → A'} {set' : S' → A' → S'} (hg : ∀ s s', RS s s' → RA (get s) (get' s'))
    (hs : ∀ s s' x x', RS s s' → RA x x' → RS (set s x) (set' s' x')) {a : Coll A W} {b : Coll A' W'} (h : CollRel RA RW a b) : CollRel RS RW (a.lift get set) (b.lift get' set') where
  T := h.T
  prog p := by
    simp only [Coll.lift]
    rw [ProgRel, List.forall₂_map_left_iff, List.forall₂_map_right_iff]
    refine (h.prog p).imp fun x y r => ⟨r.label, r.sends, r.recvs, ?_, fun s s' k hs => r.payload _ _ k (hg s s' hs), ?_⟩
    · intro s s' t hr e
      obtain ⟨u, e1, e2⟩ := Outcome.bind_eq_ok e
      obtain rfl := Outcome.ok.inj e2
      obtain ⟨u', f1, q⟩ := r.pre _ _ _ (hg s s' hr) e1
      exact ⟨_, by simp only [Step.lift, f1]; rfl, hs _ _ _ _ hr q⟩
    · intro s s' v v' t hr hv e
      obtain ⟨u, e1, e2⟩ := Outcome.bind_eq_ok e
      obtain rfl := Outcome.ok.inj e2
      obtain ⟨u', f1, q⟩ := r.post _ _ _ _ _ (hg s s' hr) hv e1
      exact ⟨_, by simp only [Step.lift, f1]; rfl, hs _ _ _ _ hr q⟩

end Gslib.Mpi
