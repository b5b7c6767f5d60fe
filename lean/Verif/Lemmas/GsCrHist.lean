import Verif.Lemmas.GsCrInv
import Verif.Lemmas.GsTopo

/-! # cr_setup: the stages of both directions -/

namespace Gslib.Gs
open Gslib Gslib.Mpi Gslib.Sarray Gslib.Spec Gslib.Props Gslib.Crystal

variable {tr : Bool} {np : Nat} {ids : Nat → List Int}

/-- number of rounds of process `p` -/
def dep (np p : Nat) : Nat := ((List.range (Nat.clog 2 np)).filter fun t => Act np t p).length

theorem filter_range_prefix {P : Nat → Bool} (h : ∀ t, P (t + 1) = true → P t = true) : ∀ T, (List.range T).filter P = List.range ((List.range T).filter P).length ∧
    ∀ t, t < T → (P t = true ↔ t < ((List.range T).filter P).length)
  | 0 => ⟨rfl, by simp⟩
  | T + 1 => by
    obtain ⟨i1, i2⟩ := filter_range_prefix h T
    have hle : ((List.range T).filter P).length ≤ T := by
      have := List.length_filter_le P (List.range T); rwa [List.length_range] at this
    rw [List.range_succ, List.filter_append]
    by_cases c : P T = true
    · have hall : ∀ k t, t + k = T → P t = true := by
        intro k
        induction k with
        | zero => intro t ht; rw [show t = T by omega]; exact c
        | succ k ih => intro t ht; exact h t (ih (t + 1) (by omega))
      have hf : (List.range T).filter P = List.range T := by
        rw [List.filter_eq_self]
        intro t ht
        rw [List.mem_range] at ht
        exact hall (T - t) t (by omega)
      rw [hf, List.filter_cons_of_pos c, List.filter_nil, ← List.range_succ, List.length_range]
      refine ⟨rfl, fun t ht => ?_⟩
      simp [ht, hall (T - t) t (by omega)]
    · rw [List.filter_cons_of_neg c, List.filter_nil, List.append_nil]
      refine ⟨i1, fun t ht => ?_⟩
      by_cases e : t = T
      · subst e
        exact ⟨fun h => absurd h c, fun h => by omega⟩
      · exact i2 t (by omega)

theorem act_bool {p : Nat} : ∀ t, decide (Act np (t + 1) p) = true → decide (Act np t p) = true := by
  intro t h
  rw [decide_eq_true_eq] at *
  exact act_mono h

theorem act_iff {t p : Nat} (ht : t < Nat.clog 2 np) : Act np t p ↔ t < dep np p := by
  have := (filter_range_prefix (P := fun t => decide (Act np t p)) act_bool (Nat.clog 2 np)).2 t ht
  rw [decide_eq_true_eq] at this
  exact this

theorem dep_le (np p : Nat) : dep np p ≤ Nat.clog 2 np := by
  have := List.length_filter_le (fun t => decide (Act np t p)) (List.range (Nat.clog 2 np))
  rwa [List.length_range] at this

theorem act_filter (np p : Nat) : ((List.range (Nat.clog 2 np)).filter fun t => Act np t p) = List.range (dep np p) :=
  (filter_range_prefix (P := fun t => decide (Act np t p)) act_bool (Nat.clog 2 np)).1

theorem Dest.has {a p : Nat} (h : Dest tr np ids a p) : has (ids p) a := by
  obtain ⟨_, h⟩ := h
  cases tr
  · exact h.1
  · exact hasU.has h.1

theorem Dest.isShared {a p : Nat} (h : Dest tr np ids a p) : IsShared np ids a := by
  obtain ⟨hp, h⟩ := h
  cases tr
  · obtain ⟨h1, r, hr, hne, h2⟩ := h
    exact ⟨p, r, hp, hr, hne, h1, hasU.has h2, Or.inr h2⟩
  · obtain ⟨h1, r, hr, hne, h2⟩ := h
    exact ⟨p, r, hp, hr, hne, hasU.has h1, h2, Or.inl h1⟩

/-- a history of cr_learn -/
structure Hist (tr : Bool) (np : Nat) (ids : Nat → List Int) (T : Nat) (R : Nat → Nat → List CrlId) (V : Nat → Lvl) : Prop where
  rows0 : RowsOk tr np ids 0 (R 0)
  step : ∀ t, t < T → Step1 np t (V t) (R t) (R (t + 1))

theorem Hist.rows {T : Nat} {R : Nat → Nat → List CrlId} {V : Nat → Lvl} (h : Hist tr np ids T R V) : ∀ t, t ≤ T → RowsOk tr np ids t (R t)
  | 0, _ => h.rows0
  | t + 1, ht => (h.rows t (by omega)).step (h.step t (by omega))

/-- at most `NB` ids are exchanged -/
def IdBound (np : Nat) (ids : Nat → List Int) (NB : Nat) : Prop := ∀ L : List Nat, L.Nodup → (∀ a ∈ L, IsShared np ids a) → L.length ≤ NB

theorem Step1.len {NB t : Nat} {V : Lvl} {R R' : Nat → List CrlId} (h : RowsOk tr np ids t R) (hs : Step1 np t V R R') (hB : IdBound np ids NB) {p : Nat} (hp : p < np) (ha : Act np t p) :
    (V.L p).length ≤ NB := by
  refine hB _ (hs.act p hp ha).nodup ?_
  intro a hm
  obtain ⟨w, hw, rfl⟩ := ((hs.act p hp ha).mem a).1 hm
  exact (h.row p hp w hw).2.1.isShared

theorem Step1.sizes {NB t : Nat} {V : Lvl} {R R' : Nat → List CrlId} (h : RowsOk tr np ids t R) (hs : Step1 np t V R R') (hB : IdBound np ids NB) {p : Nat} (hp : p < np) (ha : Act np t p) :
    (V.stg p).sizeR1 ≤ NB ∧ (V.stg p).sizeR2 ≤ NB ∧ ∀ x ∈ (rfr np t p).zip [0, (V.stg p).sizeR1], x.2 + (V.stg x.1).sizeS ≤ (V.stg p).sizeR := by
  have hl := hs.act p hp ha
  have hS : ∀ q ∈ rfr np t p, (V.stg q).sizeS ≤ NB := by
    intro q hq
    obtain ⟨r1, r2, _⟩ := rfr_spec hp ha hq
    exact ((hs.act q r1 r2).sS).trans (hs.len h hB r1 r2)
  have h1 := hl.r1
  have h2 := hl.r2
  have h3 := hl.r
  have hlen := rfr_len np t p
  revert h1 h2 hS hlen
  generalize rfr np t p = l
  intro hS h1 h2 hlen
  match l, hlen with
  | [], _ =>
    simp at h1 h2
    refine ⟨by omega, by omega, by simp⟩
  | [x], _ =>
    have := hS x (by simp)
    simp only [List.map_cons, List.map_nil, List.getD_cons_zero, List.getD_cons_succ, List.getD_nil] at h1 h2
    refine ⟨by omega, by omega, ?_⟩
    intro y hy
    simp at hy; subst hy
    simp only; omega
  | [x, y], _ =>
    have hx := hS x (by simp)
    have hy := hS y (by simp)
    simp only [List.map_cons, List.map_nil, List.getD_cons_zero, List.getD_cons_succ, List.getD_nil] at h1 h2
    refine ⟨by omega, by omega, ?_⟩
    intro z hz
    simp at hz
    rcases hz with rfl | rfl <;> simp only <;> omega

/-- slots are inside the buffer of the stage -/
theorem Step1.slot_lt {NB t : Nat} {V : Lvl} {R R' : Nat → List CrlId} (h : RowsOk tr np ids t R) (hs : Step1 np t V R R') (hB : IdBound np ids NB) {p : Nat} (hp : p < np) (ha : Act np t p) :
    (V.stg p).sizeTotal ≤ 3 * NB ∧ ∀ w ∈ R' p, w.si < (V.stg p).sizeTotal := by
  have hl := hs.act p hp ha
  obtain ⟨h1, h2, h3⟩ := hs.sizes h hB hp ha
  have h4 := hl.r
  have h5 := hl.tot
  have h6 := hl.sk
  have h7 := hs.len h hB hp ha
  refine ⟨by omega, ?_⟩
  intro w hw
  rcases (hl.next w).1 hw with ⟨x, hx, hg, rfl⟩ | ⟨q, off, hq, x, hx, hg, rfl⟩
  · have : (V.L p).idxOf x.id < (V.L p).length := List.idxOf_lt_length_iff.2 ((hl.mem _).2 ⟨x, hx, rfl⟩)
    show (V.L p).idxOf x.id + _ < _
    omega
  · have hq' := (List.of_mem_zip hq).1
    obtain ⟨r1, r2, r3, r4⟩ := rfr_spec hp ha hq'
    have h8 := (hs.act q r1 r2).goes x hx hg
    have h9 := h3 _ hq
    simp only at h9
    show (V.L q).idxOf x.id + off < _
    omega

/-- the rows of a history have small slots -/
theorem Hist.si_lt {T NB : Nat} {R : Nat → Nat → List CrlId} {V : Nat → Lvl} (h : Hist tr np ids T R V) (hB : IdBound np ids NB) (hNB : 3 * NB < 4294967295)
    (h0 : ∀ p, p < np → ∀ w ∈ R 0 p, w.si < 4294967295) : ∀ t, t ≤ T → ∀ p, p < np → ∀ w ∈ R t p, w.si < 4294967295
  | 0, _ => h0
  | t + 1, ht => by
    intro p hp w hw
    by_cases ha : Act np t p
    · obtain ⟨h1, h2⟩ := (h.step t (by omega)).slot_lt (h.rows t (by omega)) hB hp ha
      have := h2 w hw
      omega
    · rw [(h.step t (by omega)).inact p hp ha] at hw
      exact h.si_lt hB hNB h0 t (by omega) p hp w hw

/-- the result of cr_learn -/
structure Learned (tr : Bool) (np : Nat) (ids : Nat → List Int) (R0 : Nat → List CrlId) (R : Nat → Nat → List CrlId) (V : Nat → Lvl) (gl : Nat → List CrGroup) (stages : Nat → List CrStage) : Prop where
  hist : Hist tr np ids (Nat.clog 2 np) R V
  start : ∀ p, p < np → R 0 p = R0 p
  stages : ∀ p, p < np → stages p = ((List.range (dep np p)).map fun t => (V t).stg p) ++
    [⟨encGroups ((gl p).map fun g => (g.2.1, [g.1])), encGroups (((gl p).filter fun g => g.2.2 ≠ []).map fun g => (g.1, g.2.2)), 0, 0, 0, 0, 0, 0, 0, 0, 0⟩]
  maps : ∀ p, p < np → MapsOk ((R (Nat.clog 2 np) p).map fun w => { w with bi := w.ri }) (gl p)
  back : ∀ p, p < np → ∀ g ∈ gl p, ∃ w ∈ R (Nat.clog 2 np) p, w.ri = g.1

theorem RowsOk.congr {t : Nat} {R R' : Nat → List CrlId} (h : RowsOk tr np ids t R) (he : ∀ p, p < np → R' p = R p) : RowsOk tr np ids t R' where
  row q hq w hw := h.row q hq w (he q hq ▸ hw)
  prod q hq w hw d hd hD := by
    rw [he q hq] at hw ⊢
    exact h.prod q hq w hw d hd hD
  ne a d hD := by
    obtain ⟨q, hq, h1, h2⟩ := h.ne a d hD
    exact ⟨q, hq, h1, by rw [he q hq]; exact h2⟩

theorem crLearn_ok (np : Nat) : (crLearn np).Ok np := by
  unfold crLearn
  refine Coll.seq_ok (Coll.ok_congr (b := Coll.rounds (learnLv np) (Nat.clog 2 np)) ?_ ?_ (Coll.rounds_ok _ fun t _ => learnLv_ok np t)) (Coll.loc_ok _ _ np)
  · exact ((Coll.rounds_prog (B := 2) (fun t => learnLv_T np t) 0 _).1).symm
  · intro p hp
    exact halving_congr (B := 2) (body := fun id t bl n => [learnCount np id t bl n, learnRows np id t bl n]) (fun t => learnLv_T np t) (fun t p _ => learnLv_prog np t p) hp

/-- cr_learn -/
theorem crLearn_run {NB : Nat} (hi : ∀ q, q < np → IdsOk (ids q)) (hB : IdBound np ids NB) (hNB : 3 * NB < 4294967295) (s : Nat → LearnSt)
    (hst : ∀ p, p < np → (s p).stages = []) (h0 : RowsOk tr np ids 0 fun p => (s p).cw) (hsi0 : ∀ p, p < np → ∀ w ∈ (s p).cw, w.si < 4294967295) :
    ∃ s' R V gl, (crLearn np).run np s = .ok s' ∧ Learned tr np ids (fun p => (s p).cw) R V gl (fun p => (s' p).stages) := by
  -- the rounds
  have hrounds : ∃ s', (Coll.rounds (learnLv np) (Nat.clog 2 np)).run np s = .ok s' ∧
      ∃ R V, Hist tr np ids (Nat.clog 2 np) R V ∧ R 0 = (fun p => (s p).cw) ∧ ∀ p, p < np → (s' p).cw = R (Nat.clog 2 np) p ∧
        (s' p).stages = ((List.range (Nat.clog 2 np)).filter fun t => Act np t p).map fun t => (V t).stg p := by
    refine Coll.rounds_run (fun t s' => ∃ R V, Hist tr np ids t R V ∧ R 0 = (fun p => (s p).cw) ∧ ∀ p, p < np → (s' p).cw = R t p ∧
        (s' p).stages = ((List.range t).filter fun t => Act np t p).map fun t => (V t).stg p) ?_ _ (fun t _ => learnLv_ok np t) ?_
    · refine ⟨fun _ p => (s p).cw, fun _ => ⟨fun _ => [], fun _ => [], fun _ => ⟨[], [], 0, 0, 0, 0, 0, 0, 0, 0, 0⟩⟩, ⟨h0, fun t ht => by omega⟩, rfl, ?_⟩
      intro p hp
      exact ⟨rfl, hst p hp⟩
    · rintro t ht s1 ⟨R, V, hH, hR0, hs1⟩
      have hrow := hH.rows t (le_refl _)
      have hsi := hH.si_lt hB hNB (fun p hp w hw => by rw [hR0] at hw; exact hsi0 p hp w hw) t (le_refl _)
      obtain ⟨V1, s2, e2, h2⟩ := learn_level np t s1 (by
        intro p hp w hw
        rw [(hs1 p hp).1] at hw
        have hD := (hrow.row p hp w hw).2.1
        have := has_lt (hi _ hD.1) hD.has
        omega) (by
        intro p hp w hw
        rw [(hs1 p hp).1] at hw
        have := hsi p hp w hw
        omega) (by
        intro p hp L hnd hL
        have := hB L hnd (by
          intro a ha
          obtain ⟨w, hw, rfl⟩ := hL a ha
          rw [(hs1 p hp).1] at hw
          exact (hrow.row p hp w hw).2.1.isShared)
        omega)
      refine ⟨s2, e2, fun t' => if t' ≤ t then R t' else fun p => (s2 p).cw, fun t' => if t' < t then V t' else V1, ⟨?_, ?_⟩, ?_, ?_⟩
      · rw [if_pos (Nat.zero_le _)]; exact hH.rows0
      · intro t' ht'
        by_cases c : t' < t
        · rw [if_pos (show t' ≤ t by omega), if_pos (show t' + 1 ≤ t by omega), if_pos c]
          exact hH.step t' c
        · have : t' = t := by omega
          subst this
          rw [if_pos (le_refl _), if_neg (by omega), if_neg (by omega)]
          constructor
          · intro p hp ha
            have := ((h2 p hp).1 ha).1
            refine { this with mem := ?_, maps := ?_, back := ?_, goes := ?_, next := ?_ }
            · have := this.mem
              rw [(hs1 p hp).1] at this; exact this
            · have := this.maps
              rw [(hs1 p hp).1] at this; exact this
            · have := this.back
              rw [(hs1 p hp).1] at this; exact this
            · have := this.goes
              rw [(hs1 p hp).1] at this; exact this
            · intro w
              rw [this.next w, (hs1 p hp).1]
              apply or_congr Iff.rfl
              refine exists_congr fun q => exists_congr fun off => and_congr_right fun hq => ?_
              rw [(hs1 q (rfr_spec hp ha (List.of_mem_zip hq).1).1).1]
          · intro p hp ha
            rw [(h2 p hp).2 ha]
            exact (hs1 p hp).1
      · beta_reduce; rw [if_pos (Nat.zero_le _)]; exact hR0
      · intro p hp
        beta_reduce
        rw [if_neg (show ¬ t + 1 ≤ t by omega)]
        refine ⟨rfl, ?_⟩
        rw [List.range_succ, List.filter_append, List.map_append]
        have hold : (((List.range t).filter fun t => Act np t p).map fun t' => ((if t' < t then V t' else V1).stg p)) = (s1 p).stages := by
          rw [(hs1 p hp).2]
          apply List.map_congr_left
          intro t' ht'
          rw [if_pos (List.mem_range.1 (List.mem_filter.1 ht').1)]
        rw [hold]
        by_cases ha : Act np t p
        · rw [((h2 p hp).1 ha).2, List.filter_cons_of_pos (by simpa using ha)]
          simp
        · rw [(h2 p hp).2 ha, List.filter_cons_of_neg (by simpa using ha)]
          simp
  obtain ⟨s1, e1, R, V, hH, hR0, hs1⟩ := hrounds
  have hrow := hH.rows _ (le_refl _)
  have hsi := hH.si_lt hB hNB (fun p hp w hw => by rw [hR0] at hw; exact hsi0 p hp w hw) _ (le_refl _)
  -- the last stage
  have hend : ∀ p, ∃ x : List CrlId × List CrGroup, p < np → crlMaps ((s1 p).cw.map fun w => { w with bi := w.ri }) (s1 p).scratch =
      .ok (x.1, encGroups (x.2.map fun g => (g.2.1, [g.1])), encGroups ((x.2.filter fun g => g.2.2 ≠ []).map fun g => (g.1, g.2.2))) ∧
      MapsOk ((s1 p).cw.map fun w => { w with bi := w.ri }) x.2 ∧ ∀ g ∈ x.2, ∃ w ∈ (s1 p).cw, w.ri = g.1 := by
    intro p
    by_cases hp : p < np
    · obtain ⟨out, gl, h1, h2, h3, h4⟩ := crlMaps_spec ((s1 p).cw.map fun w => { w with bi := w.ri }) (s1 p).scratch (by
        intro x hx
        obtain ⟨w, hw, rfl⟩ := List.mem_map.1 hx
        rw [(hs1 p hp).1] at hw
        obtain ⟨_, h2, h3⟩ := hrow.row p hp w hw
        have h4 := prim_lt_length h2.has
        have h5 := (hi _ h2.1).len
        show w.ri < _
        omega) (by
        intro x hx
        obtain ⟨w, hw, rfl⟩ := List.mem_map.1 hx
        rw [(hs1 p hp).1] at hw
        have := hsi p hp w hw
        show w.si < _
        omega)
      refine ⟨(out, gl), fun _ => ⟨h1, h3, ?_⟩⟩
      intro g hg
      obtain ⟨x, hx, e⟩ := h4 g hg
      obtain ⟨w, hw, rfl⟩ := List.mem_map.1 hx
      exact ⟨w, hw, e⟩
    · exact ⟨([], []), fun h => absurd h hp⟩
  choose X hX using hend
  let last : Nat → CrStage := fun p => ⟨encGroups ((X p).2.map fun g => (g.2.1, [g.1])), encGroups (((X p).2.filter fun g => g.2.2 ≠ []).map fun g => (g.1, g.2.2)), 0, 0, 0, 0, 0, 0, 0, 0, 0⟩
  let g : Nat → LearnSt := fun p => { s1 p with cw := (X p).1, stages := (s1 p).stages ++ [last p] }
  have e2 : (Coll.loc (fun _ => learnEnd) (.rows []) : Coll LearnSt CrMsg).run np s1 = .ok (fun p => if p < np then g p else s1 p) := by
    apply Coll.loc_run_ok
    intro p hp
    show learnEnd (s1 p) = _
    unfold learnEnd
    rw [(hX p hp).1]
    rfl
  refine ⟨fun p => if p < np then g p else s1 p, R, V, fun p => (X p).2, ?_, ?_⟩
  · unfold crLearn
    refine Coll.seq_run_ok ?_ (s1 := s1) ?_ e2
    · refine Coll.ok_congr (b := Coll.rounds (learnLv np) (Nat.clog 2 np)) ?_ ?_ (Coll.rounds_ok _ fun t _ => learnLv_ok np t)
      · exact ((Coll.rounds_prog (B := 2) (fun t => learnLv_T np t) 0 _).1).symm
      · intro p hp
        exact halving_congr (B := 2) (body := fun id t bl n => [learnCount np id t bl n, learnRows np id t bl n]) (fun t => learnLv_T np t) (fun t p _ => learnLv_prog np t p) hp
    · rw [Coll.run_congr (b := Coll.rounds (learnLv np) (Nat.clog 2 np))]
      · exact e1
      · exact ((Coll.rounds_prog (B := 2) (fun t => learnLv_T np t) 0 _).1).symm
      · intro p hp
        exact halving_congr (B := 2) (body := fun id t bl n => [learnCount np id t bl n, learnRows np id t bl n]) (fun t => learnLv_T np t) (fun t p _ => learnLv_prog np t p) hp
  · refine ⟨hH, fun p hp => by rw [hR0], ?_, ?_, ?_⟩
    · intro p hp
      beta_reduce
      rw [if_pos hp, ← act_filter, ← (hs1 p hp).2]
    · intro p hp
      have := (hX p hp).2.1
      rw [(hs1 p hp).1] at this; exact this
    · intro p hp
      have := (hX p hp).2.2
      rw [(hs1 p hp).1] at this; exact this

/-! ### the first rows -/

/-- the shared ids of a process, in any order and with any buffer index -/
structure ShOk (np : Nat) (ids : Nat → List Int) (q : Nat) (sh : List SharedId) : Prop where
  mem : ∀ x ∈ sh, ∃ a p, p < np ∧ Shared2 ids q p a ∧ x = { shRow ids q p a with bi := x.bi }
  cover : ∀ a p, p < np → Shared2 ids q p a → ∃ x ∈ sh, x = { shRow ids q p a with bi := x.bi }

/-- the process itself gets a row -/
def meCond (m : Nat) (s : SharedId) : Bool := decide (s.flags &&& (m ^^^ 3) = 0) && decide (s.flags &&& 1 = 0)

theorem crlWorkInit_cons (m q : Nat) (s : SharedId) (l : List SharedId) (i : Nat) (b : Bool) : ∃ ad me : Bool, ad = (decide (s.i = i) && b) ∧ me = (!ad && meCond m s) ∧
    crlWorkInit m q i b (s :: l) = (if me = true then [⟨s.id, q, s.i, s.i, 0, 0⟩] else []) ++ (if s.flags &&& m = 0 then [⟨s.id, s.p, s.ri, s.i, 0, 0⟩] else []) ++
      crlWorkInit m q s.i (ad || me) l := by
  refine ⟨_, _, rfl, rfl, ?_⟩
  rw [crlWorkInit]
  unfold meCond
  by_cases c : s.i = i <;> simp [c, Bool.and_assoc]

theorem mem_crlWorkInit_of (m q : Nat) : ∀ (l : List SharedId) (i : Nat) (b : Bool) (w : CrlId), w ∈ crlWorkInit m q i b l →
    (∃ s ∈ l, s.flags &&& m = 0 ∧ w = ⟨s.id, s.p, s.ri, s.i, 0, 0⟩) ∨ ∃ s ∈ l, meCond m s = true ∧ w = ⟨s.id, q, s.i, s.i, 0, 0⟩
  | [], i, b, w, h => by simp [crlWorkInit] at h
  | s :: l, i, b, w, h => by
    obtain ⟨ad, me, e1, e2, e3⟩ := crlWorkInit_cons m q s l i b
    rw [e3] at h
    rw [List.mem_append, List.mem_append] at h
    rcases h with (h | h) | h
    · split at h
      · rename_i c
        rw [List.mem_singleton] at h
        refine Or.inr ⟨s, by simp, ?_, h⟩
        rw [e2, Bool.and_eq_true] at c
        exact c.2
      · simp at h
    · split at h
      · rename_i c
        rw [List.mem_singleton] at h
        exact Or.inl ⟨s, by simp, c, h⟩
      · simp at h
    · rcases mem_crlWorkInit_of m q l _ _ w h with ⟨x, hx, r⟩ | ⟨x, hx, r⟩
      · exact Or.inl ⟨x, by simp [hx], r⟩
      · exact Or.inr ⟨x, by simp [hx], r⟩

theorem mem_crlWorkInit_send (m q : Nat) : ∀ (l : List SharedId) (i : Nat) (b : Bool) (s : SharedId), s ∈ l → s.flags &&& m = 0 →
    (⟨s.id, s.p, s.ri, s.i, 0, 0⟩ : CrlId) ∈ crlWorkInit m q i b l
  | [], i, b, s, h, _ => by simp at h
  | x :: l, i, b, s, h, hf => by
    obtain ⟨ad, me, e1, e2, e3⟩ := crlWorkInit_cons m q x l i b
    rw [e3, List.mem_append, List.mem_append]
    rcases List.mem_cons.1 h with rfl | h
    · exact Or.inl (Or.inr (by rw [if_pos hf]; simp))
    · exact Or.inr (mem_crlWorkInit_send m q l _ _ s h hf)

theorem mem_crlWorkInit_me (m q : Nat) : ∀ (l : List SharedId) (i : Nat) (b : Bool) (s : SharedId), s ∈ l → meCond m s = true →
    (∃ s' ∈ l, s'.i = s.i ∧ (⟨s'.id, q, s'.i, s'.i, 0, 0⟩ : CrlId) ∈ crlWorkInit m q i b l) ∨ (b = true ∧ s.i = i)
  | [], i, b, s, h, _ => by simp at h
  | x :: l, i, b, s, h, hf => by
    obtain ⟨ad, me, e1, e2, e3⟩ := crlWorkInit_cons m q x l i b
    have hrec : s ∈ l → (∃ s' ∈ x :: l, s'.i = s.i ∧ (⟨s'.id, q, s'.i, s'.i, 0, 0⟩ : CrlId) ∈ crlWorkInit m q i b (x :: l)) ∨ ((ad || me) = true ∧ s.i = x.i) := by
      intro h
      rcases mem_crlWorkInit_me m q l x.i (ad || me) s h hf with ⟨s', h1, h2, h3⟩ | h2
      · exact Or.inl ⟨s', by simp [h1], h2, by rw [e3]; exact List.mem_append_right _ h3⟩
      · exact Or.inr h2
    cases ad with
    | true =>
      rw [eq_comm, Bool.and_eq_true, decide_eq_true_eq] at e1
      rcases List.mem_cons.1 h with rfl | h
      · exact Or.inr ⟨e1.2, e1.1⟩
      · rcases hrec h with h | ⟨_, h⟩
        · exact Or.inl h
        · exact Or.inr ⟨e1.2, h.trans e1.1⟩
    | false =>
      simp only [Bool.not_false, Bool.true_and] at e2
      cases me with
      | true =>
        have hin : (⟨x.id, q, x.i, x.i, 0, 0⟩ : CrlId) ∈ crlWorkInit m q i b (x :: l) := by
          rw [e3]; simp
        rcases List.mem_cons.1 h with rfl | h
        · exact Or.inl ⟨_, by simp, rfl, hin⟩
        · rcases hrec h with h | ⟨_, h⟩
          · exact Or.inl h
          · exact Or.inl ⟨x, by simp, h.symm, hin⟩
      | false =>
        rcases List.mem_cons.1 h with rfl | h
        · rw [hf] at e2; exact absurd e2 (by simp)
        · rcases hrec h with h | ⟨h, _⟩
          · exact Or.inl h
          · exact absurd h (by simp)

/-- the send mask of a direction -/
def crMask (tr : Bool) : Nat := if tr then 2 else 1

theorem flags_send (tr : Bool) {q p a : Nat} : (shRow ids q p a).flags &&& crMask tr = 0 ↔ if tr then hasU (ids p) a else hasU (ids q) a := by
  unfold shRow crMask
  simp only
  by_cases h1 : hasU (ids p) a <;> by_cases h2 : hasU (ids q) a <;> cases tr <;> simp [h1, h2]

theorem flags_me (tr : Bool) {q p a b : Nat} : meCond (crMask tr) { shRow ids q p a with bi := b } = true ↔ hasU (ids q) a ∧ (tr = false → hasU (ids p) a) := by
  unfold shRow crMask meCond
  simp only
  by_cases h1 : hasU (ids p) a <;> by_cases h2 : hasU (ids q) a <;> cases tr <;> simp [h1, h2]

/-- crl_work_init -/
theorem mem_init {q : Nat} (hq : q < np) {sh : List SharedId} (h : ShOk np ids q sh) (tr : Bool) (w : CrlId) : w ∈ crlWorkInit (crMask tr) q uintMax false sh ↔
    ∃ a p, Contrib tr (ids q) a ∧ Dest tr np ids a p ∧ w = ⟨a, p, prim (ids p) a, prim (ids q) a, 0, 0⟩ := by
  constructor
  · intro hw
    rcases mem_crlWorkInit_of _ _ _ _ _ w hw with ⟨s, hs, hf, rfl⟩ | ⟨s, hs, hf, rfl⟩
    · obtain ⟨a, p, hp, hS, he⟩ := h.mem s hs
      rw [he] at hf ⊢
      have hf := (flags_send (ids := ids) tr (q := q) (p := p) (a := a)).1 hf
      refine ⟨a, p, ?_, ⟨hp, ?_⟩, rfl⟩
      · unfold Contrib
        cases tr
        · exact hf
        · exact hS.2.1
      · cases tr
        · exact ⟨hS.2.2.1, q, hq, hS.1.symm, hf⟩
        · exact ⟨hf, q, hq, hS.1.symm, hS.2.1⟩
    · obtain ⟨a, p, hp, hS, he⟩ := h.mem s hs
      rw [he] at hf ⊢
      have hf := (flags_me (ids := ids) tr (q := q) (p := p) (a := a)).1 hf
      refine ⟨a, q, ?_, ⟨hq, ?_⟩, rfl⟩
      · unfold Contrib
        cases tr
        · exact hf.1
        · exact hS.2.1
      · cases tr
        · exact ⟨hS.2.1, p, hp, hS.1, hf.2 rfl⟩
        · exact ⟨hf.1, p, hp, hS.1, hS.2.2.1⟩
  · rintro ⟨a, p, hc, hD, rfl⟩
    by_cases e : p = q
    · subst e
      -- the row of the process itself
      have : ∃ r, r < np ∧ Shared2 ids p r a ∧ hasU (ids p) a ∧ (tr = false → hasU (ids r) a) := by
        obtain ⟨_, hD⟩ := hD
        cases tr
        · obtain ⟨h1, r, hr, hne, h2⟩ := hD
          have hc : hasU (ids p) a := hc
          exact ⟨r, hr, ⟨hne, h1, hasU.has h2, Or.inr h2⟩, hc, fun _ => h2⟩
        · obtain ⟨h1, r, hr, hne, h2⟩ := hD
          exact ⟨r, hr, ⟨hne, hasU.has h1, h2, Or.inl h1⟩, h1, by simp⟩
      obtain ⟨r, hr, hS, h3, h4⟩ := this
      obtain ⟨x, hx, he⟩ := h.cover a r hr hS
      rcases mem_crlWorkInit_me (crMask tr) p sh uintMax false x hx (by rw [he]; exact (flags_me tr).2 ⟨h3, h4⟩) with ⟨s', h5, h6, h7⟩ | h5
      · obtain ⟨a', p', hp', hS', he'⟩ := h.mem s' h5
        have hxi : x.i = prim (ids p) a := by rw [he]; rfl
        have hsi : s'.i = prim (ids p) a' := by rw [he']; rfl
        have hsid : s'.id = a' := by rw [he']; rfl
        have : a' = a := prim_inj hS'.2.1 hS.2.1 (by rw [← hsi, h6, hxi])
        rw [hsid, hsi, this] at h7
        exact h7
      · exact absurd h5.1 (by simp)
    · -- the row of another process
      have hS : Shared2 ids q p a ∧ (if tr then hasU (ids p) a else hasU (ids q) a) := by
        obtain ⟨_, hD⟩ := hD
        cases tr
        · have hc : hasU (ids q) a := hc
          exact ⟨⟨e, hasU.has hc, hD.1, Or.inl hc⟩, hc⟩
        · have hc : Gslib.Gs.has (ids q) a := hc
          exact ⟨⟨e, hc, hasU.has hD.1, Or.inr hD.1⟩, hD.1⟩
      obtain ⟨x, hx, he⟩ := h.cover a p hD.1 hS.1
      have := mem_crlWorkInit_send (crMask tr) q sh uintMax false x hx (by rw [he]; exact (flags_send tr).2 hS.2)
      rw [he] at this
      exact this

theorem rows_init {R : Nat → List CrlId} (h : ∀ q, q < np → ∀ w, w ∈ R q ↔ ∃ a p, Contrib tr (ids q) a ∧ Dest tr np ids a p ∧ w = ⟨a, p, prim (ids p) a, prim (ids q) a, 0, 0⟩) :
    RowsOk tr np ids 0 R where
  row q hq w hw := by
    obtain ⟨a, p, hc, hD, rfl⟩ := (h q hq w).1 hw
    exact ⟨⟨Nat.zero_le _, by show p < 0 + np; have := hD.1; omega⟩, hD, rfl⟩
  prod q hq w hw d _ hD := by
    obtain ⟨a, p, hc, hD', rfl⟩ := (h q hq w).1 hw
    exact ⟨_, (h q hq _).2 ⟨a, d, hc, hD, rfl⟩, rfl, rfl, rfl⟩
  ne a d hD := by
    have : ∃ q, q < np ∧ Contrib tr (ids q) a := by
      obtain ⟨hd, h1⟩ := hD
      cases tr
      · obtain ⟨_, r, hr, _, h2⟩ := h1; exact ⟨r, hr, h2⟩
      · exact ⟨d, hd, hasU.has h1.1⟩
    obtain ⟨q, hq, hc⟩ := this
    exact ⟨q, hq, ⟨Nat.zero_le _, by show q < 0 + np; omega⟩, _, (h q hq _).2 ⟨a, d, hc, hD, rfl⟩, rfl⟩

end Gslib.Gs
