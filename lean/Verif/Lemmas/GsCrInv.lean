import Verif.Lemmas.GsCrLearn
import Verif.Lemmas.GsAux
import Mathlib.Data.List.Dedup

/-! # cr_learn: invariants of the rows, and the sums over groups -/

namespace Gslib.Gs
open Gslib Gslib.Mpi Gslib.Spec Gslib.Props Gslib.Crystal

/-- process `p` gets the result for id `a` from the exchange -/
def Dest (tr : Bool) (np : Nat) (ids : Nat → List Int) (a p : Nat) : Prop :=
  p < np ∧ if tr then hasU (ids p) a ∧ ∃ r, r < np ∧ r ≠ p ∧ has (ids r) a else has (ids p) a ∧ ∃ r, r < np ∧ r ≠ p ∧ hasU (ids r) a

variable {tr : Bool} {np : Nat} {ids : Nat → List Int}

/-- the rows at the beginning of round `t` -/
structure RowsOk (tr : Bool) (np : Nat) (ids : Nat → List Int) (t : Nat) (R : Nat → List CrlId) : Prop where
  row : ∀ q, q < np → ∀ w ∈ R q, InG (Crystal.grp np q t) w.p ∧ Dest tr np ids w.id w.p ∧ w.ri = prim (ids w.p) w.id
  prod : ∀ q, q < np → ∀ w ∈ R q, ∀ d, InG (Crystal.grp np q t) d → Dest tr np ids w.id d → ∃ w' ∈ R q, w'.id = w.id ∧ w'.p = d ∧ w'.si = w.si
  ne : ∀ a d, Dest tr np ids a d → ∃ q, q < np ∧ InG (Crystal.grp np d t) q ∧ ∃ w ∈ R q, w.id = a

theorem outg_false {t p : Nat} {w : CrlId} (ha : Act np t p) (hw : InG (Crystal.grp np p t) w.p) (hp : p < np) :
    outg np t p w = false ↔ InG (Crystal.grp np p (t + 1)) w.p := by
  have hin := grp_in np p hp t
  rw [Crystal.grp_succ]
  unfold Act at ha
  unfold outg CrlId.goes up cut half
  rw [if_pos ha]
  unfold InG bhOf at *
  by_cases c : p < (Crystal.grp np p t).1 + ((Crystal.grp np p t).2 + 1) / 2
  · simp only [c, decide_true, if_true, decide_eq_false_iff_not]; omega
  · simp only [c, decide_false, Bool.false_eq_true, if_false, decide_eq_false_iff_not]; omega

theorem outg_true {t p q : Nat} {w : CrlId} (ha : Act np t p) (hp : p < np) (hq : q ∈ rfr np t p) (hw : InG (Crystal.grp np p t) w.p) :
    outg np t q w = true ↔ InG (Crystal.grp np p (t + 1)) w.p := by
  obtain ⟨h1, h2, h3, h4⟩ := rfr_spec hp ha hq
  have hin := grp_in np p hp t
  have hside := targ_side h2 (grp_in np q h1 t)
  have h3' : targOf q (Crystal.grp np q t).1 (Crystal.grp np q t).2 = p := h3
  rw [h3'] at hside
  rw [Crystal.grp_succ]
  unfold Act at ha
  unfold outg CrlId.goes up cut half
  rw [if_pos ha]
  rw [h4] at *
  unfold InG bhOf at *
  by_cases c : p < (Crystal.grp np p t).1 + ((Crystal.grp np p t).2 + 1) / 2
  · have c' : ¬ q < (Crystal.grp np p t).1 + ((Crystal.grp np p t).2 + 1) / 2 := by
      intro hh; exact (hside.1 hh) c
    simp only [c', c, decide_false, Bool.false_eq_true, if_true, if_false, decide_eq_true_eq]; omega
  · have c' : q < (Crystal.grp np p t).1 + ((Crystal.grp np p t).2 + 1) / 2 := hside.2 c
    simp only [c', c, decide_true, if_true, if_false, decide_eq_true_eq]; omega

theorem zip_cover {A B : Type} {x : A} (b c : B) : ∀ {l : List A}, l.length ≤ 2 → x ∈ l → ∃ y, (x, y) ∈ l.zip [b, c]
  | [], _, h => by simp at h
  | [a], _, h => by simp at h; subst h; exact ⟨b, by simp⟩
  | [a, d], _, h => by
    simp at h
    rcases h with rfl | rfl
    · exact ⟨b, by simp⟩
    · exact ⟨c, by simp⟩

/-- the other half sends to this half -/
theorem other_half {t p q : Nat} (hp : p < np) (ha : Act np t p) (hq : InG (Crystal.grp np p t) q) (hn : ¬ InG (Crystal.grp np p (t + 1)) q) :
    tgt np t q < np ∧ InG (Crystal.grp np p (t + 1)) (tgt np t q) ∧ q ∈ rfr np t (tgt np t q) ∧ Act np t (tgt np t q) ∧ q < np := by
  obtain ⟨hqn, he⟩ := grp_same np p hp t q hq
  have haq : Act np t q := by unfold Act; rw [he]; exact ha
  obtain ⟨h1, h2, h3, h4⟩ := tgt_spec hqn haq
  refine ⟨h1, ?_, h3, h2, hqn⟩
  have hside := targ_side haq (grp_in np q hqn t)
  have hin := grp_in np (tgt np t q) h1 t
  rw [h4] at hin
  change _ ↔ ¬ tgt np t q < _ at hside
  rw [Crystal.grp_succ] at hn ⊢
  have hpin := grp_in np p hp t
  unfold Act at ha
  unfold half at hn ⊢
  rw [if_pos ha] at hn ⊢
  rw [he] at hside hin
  unfold InG bhOf at *
  by_cases c : p < (Crystal.grp np p t).1 + ((Crystal.grp np p t).2 + 1) / 2
  · simp only [c, if_true] at hn ⊢
    omega
  · simp only [c, if_false] at hn ⊢
    omega

theorem act_mono {t p : Nat} (h : Act np (t + 1) p) : Act np t p := by
  unfold Act at *
  rw [Crystal.grp_succ] at h
  unfold half at h
  by_contra c
  rw [if_neg c] at h
  exact c h

theorem grp_inactive {t p : Nat} (h : ¬ Act np t p) : Crystal.grp np p (t + 1) = Crystal.grp np p t := by
  rw [Crystal.grp_succ]
  unfold half
  rw [if_neg (show ¬ 1 < _ from h)]

/-- the levels of a history up to round `T` -/
structure Step1 (np t : Nat) (V : Lvl) (R R' : Nat → List CrlId) : Prop where
  act : ∀ p, p < np → Act np t p → LvlOk np t V R p (R' p)
  inact : ∀ p, p < np → ¬ Act np t p → R' p = R p

theorem RowsOk.step {t : Nat} {V : Lvl} {R R' : Nat → List CrlId} (h : RowsOk tr np ids t R) (hs : Step1 np t V R R') : RowsOk tr np ids (t + 1) R' where
  row q hq w hw := by
    by_cases ha : Act np t q
    · rcases ((hs.act q hq ha).next w).1 hw with ⟨x, hx, hg, rfl⟩ | ⟨r, off, hr, x, hx, hg, rfl⟩
      · obtain ⟨h1, h2, h3⟩ := h.row q hq x hx
        exact ⟨(outg_false ha h1 hq).1 hg, h2, h3⟩
      · have hr := (List.of_mem_zip hr).1
        obtain ⟨r1, r2, r3, r4⟩ := rfr_spec hq ha hr
        obtain ⟨h1, h2, h3⟩ := h.row r r1 x hx
        rw [r4] at h1
        exact ⟨(outg_true ha hq hr h1).1 hg, h2, h3⟩
    · rw [hs.inact q hq ha] at hw
      rw [grp_inactive ha]
      exact h.row q hq w hw
  prod q hq w hw d hd hD := by
    by_cases ha : Act np t q
    · have hd' : InG (Crystal.grp np q t) d := by rw [Crystal.grp_succ] at hd; exact half_sub hd
      rcases ((hs.act q hq ha).next w).1 hw with ⟨x, hx, hg, rfl⟩ | ⟨r, off, hr, x, hx, hg, rfl⟩
      · obtain ⟨x', hx', e1, e2, e3⟩ := h.prod q hq x hx d hd' hD
        refine ⟨_, ((hs.act q hq ha).next _).2 (Or.inl ⟨x', hx', ?_, rfl⟩), e1, e2, ?_⟩
        · exact (outg_false ha (e2 ▸ hd') hq).2 (e2 ▸ hd)
        · show (V.L q).idxOf x'.id + _ = (V.L q).idxOf x.id + _
          rw [e1]
      · have hr' := (List.of_mem_zip hr).1
        obtain ⟨r1, r2, r3, r4⟩ := rfr_spec hq ha hr'
        obtain ⟨x', hx', e1, e2, e3⟩ := h.prod r r1 x hx d (by rw [r4]; exact hd') hD
        refine ⟨_, ((hs.act q hq ha).next _).2 (Or.inr ⟨r, off, hr, x', hx', ?_, rfl⟩), e1, e2, ?_⟩
        · exact (outg_true ha hq hr' (e2 ▸ hd')).2 (e2 ▸ hd)
        · show (V.L r).idxOf x'.id + _ = (V.L r).idxOf x.id + _
          rw [e1]
    · rw [hs.inact q hq ha] at hw ⊢
      rw [grp_inactive ha] at hd
      exact h.prod q hq w hw d hd hD
  ne a d hD := by
    obtain ⟨q, hq, hqd, w, hw, rfl⟩ := h.ne a d hD
    have hd := hD.1
    have he := (grp_same np d hd t q hqd).2
    by_cases ha : Act np t d
    · have haq : Act np t q := by unfold Act; rw [he]; exact ha
      obtain ⟨x, hx, e1, e2, _⟩ := h.prod q hq w hw d (by rw [he]; exact grp_in np d hd t) hD
      by_cases c : InG (Crystal.grp np d (t + 1)) q
      · refine ⟨q, hq, c, _, ((hs.act q hq haq).next _).2 (Or.inl ⟨x, hx, ?_, rfl⟩), e1⟩
        rw [outg_false haq (by rw [e2, he]; exact grp_in np d hd t) hq, e2, (grp_same np d hd (t + 1) q c).2]
        exact grp_in np d hd (t + 1)
      · obtain ⟨h1, h2, h3, h4, _⟩ := other_half hd ha hqd c
        obtain ⟨off, hoff⟩ := zip_cover 0 (V.stg (tgt np t q)).sizeR1 (rfr_len np t (tgt np t q)) h3
        have hg1 := (grp_same np d hd (t + 1) _ h2).2
        have hg0 : Crystal.grp np (tgt np t q) t = Crystal.grp np d t := (tgt_spec hq haq).2.2.2.trans he
        refine ⟨tgt np t q, h1, h2, _, ((hs.act _ h1 h4).next _).2 (Or.inr ⟨q, off, hoff, x, hx, ?_, rfl⟩), e1⟩
        rw [outg_true h4 h1 h3 (by rw [e2, hg0]; exact grp_in np d hd t), e2, hg1]
        exact grp_in np d hd (t + 1)
    · have haq : ¬ Act np t q := by unfold Act; rw [he]; exact ha
      refine ⟨q, hq, by rw [grp_inactive ha]; exact hqd, w, ?_, rfl⟩
      rw [hs.inact q hq haq]; exact hw

/-! ### slots -/

/-- the slots with a value for id `a` -/
def slots (R : List CrlId) (a : Nat) : List Nat := ((R.filter fun w => w.id = a).map CrlId.si).dedup

theorem mem_slots {R : List CrlId} {a s : Nat} : s ∈ slots R a ↔ ∃ w ∈ R, w.id = a ∧ w.si = s := by
  unfold slots
  rw [List.mem_dedup, List.mem_map]
  constructor
  · rintro ⟨w, hw, rfl⟩
    rw [List.mem_filter] at hw
    exact ⟨w, hw.1, by simpa using hw.2, rfl⟩
  · rintro ⟨w, hw, h1, rfl⟩
    exact ⟨w, List.mem_filter.2 ⟨hw, by simpa using h1⟩, rfl⟩

theorem slots_nodup (R : List CrlId) (a : Nat) : (slots R a).Nodup := List.nodup_dedup _

theorem slots_eq_nil {R : List CrlId} {a : Nat} (h : ∀ w ∈ R, w.id ≠ a) : slots R a = [] := by
  rw [List.eq_nil_iff_forall_not_mem]
  intro s hs
  obtain ⟨w, hw, h1, _⟩ := mem_slots.1 hs
  exact h w hw h1

variable {V' : Type} {f : V' → V' → V'} {e : V'}

/-- the value for id `a` on a process -/
def cval (f : V' → V' → V') (e : V') (R : Nat → List CrlId) (c : Nat → Nat → V') (q a : Nat) : V' := reduce f e ((slots (R q) a).map (c q))

/-- the labels used for id `a` in the buffer of `p` after a round -/
def newSlots (np t : Nat) (V : Lvl) (p a : Nat) : List Nat :=
  (if a ∈ V.L p then [(V.L p).idxOf a + (V.stg p).sizeR] else []) ++
    ((rfr np t p).zip [0, (V.stg p).sizeR1]).flatMap fun x => if a ∈ V.L x.1 then [(V.L x.1).idxOf a + x.2] else []

theorem slots_next {t p a d : Nat} {V : Lvl} {R R' : Nat → List CrlId} (h : RowsOk tr np ids t R) (hs : Step1 np t V R R') (hp : p < np) (ha : Act np t p)
    (hd : InG (Crystal.grp np p (t + 1)) d) (hD : Dest tr np ids a d) : (slots (R' p) a).Perm (newSlots np t V p a) := by
  have hl := hs.act p hp ha
  have hd' : InG (Crystal.grp np p t) d := by rw [Crystal.grp_succ] at hd; exact half_sub hd
  have hmemL : ∀ q, q < np → Act np t q → (a ∈ V.L q ↔ ∃ w ∈ R q, w.id = a) := fun q hq haq => (hs.act q hq haq).mem a
  -- rows of `a` that go to `d`
  have hrow : ∀ q, q < np → Crystal.grp np q t = Crystal.grp np p t → (∃ w ∈ R q, w.id = a) → ∃ w ∈ R q, w.id = a ∧ w.p = d := by
    rintro q hq he ⟨w, hw, rfl⟩
    obtain ⟨x, hx, e1, e2, _⟩ := h.prod q hq w hw d (by rw [he]; exact hd') hD
    exact ⟨x, hx, e1, e2⟩
  have hidx : ∀ q ∈ rfr np t p, a ∈ V.L q → (V.L q).idxOf a < (V.stg q).sizeS := by
    intro q hq hm
    obtain ⟨r1, r2, r3, r4⟩ := rfr_spec hp ha hq
    obtain ⟨w, hw, e1, e2⟩ := hrow q r1 r4 ((hmemL q r1 r2).1 hm)
    rw [← e1]
    exact (hs.act q r1 r2).goes w hw ((outg_true ha hp hq (e2 ▸ hd')).2 (e2 ▸ hd))
  rw [List.perm_ext_iff_of_nodup (slots_nodup _ _)]
  · intro s
    rw [mem_slots]
    unfold newSlots
    rw [List.mem_append, List.mem_flatMap]
    constructor
    · rintro ⟨w, hw, e1, e2⟩
      rcases (hl.next w).1 hw with ⟨x, hx, hg, rfl⟩ | ⟨q, off, hq, x, hx, hg, rfl⟩
      · left
        have e1 : x.id = a := e1
        have e2 : (V.L p).idxOf x.id + _ = s := e2
        rw [if_pos ((hmemL p hp ha).2 ⟨x, hx, e1⟩), List.mem_singleton, ← e2, e1]
      · right
        have e1 : x.id = a := e1
        have e2 : (V.L q).idxOf x.id + _ = s := e2
        obtain ⟨r1, r2, r3, r4⟩ := rfr_spec hp ha (List.of_mem_zip hq).1
        refine ⟨(q, off), hq, ?_⟩
        rw [if_pos ((hmemL q r1 r2).2 ⟨x, hx, e1⟩), List.mem_singleton, ← e2, e1]
    · rintro (hs' | ⟨⟨q, off⟩, hq, hs'⟩)
      · split at hs'
        · rename_i hm
          rw [List.mem_singleton] at hs'
          obtain ⟨w, hw, e1, e2⟩ := hrow p hp rfl ((hmemL p hp ha).1 hm)
          refine ⟨_, (hl.next _).2 (Or.inl ⟨w, hw, (outg_false ha (e2 ▸ hd') hp).2 (e2 ▸ hd), rfl⟩), e1, ?_⟩
          show (V.L p).idxOf w.id + _ = s
          rw [hs', e1]
        · simp at hs'
      · have hq' := (List.of_mem_zip hq).1
        obtain ⟨r1, r2, r3, r4⟩ := rfr_spec hp ha hq'
        simp only at hs'
        split at hs'
        · rename_i hm
          rw [List.mem_singleton] at hs'
          obtain ⟨w, hw, e1, e2⟩ := hrow q r1 r4 ((hmemL q r1 r2).1 hm)
          refine ⟨_, (hl.next _).2 (Or.inr ⟨q, off, hq, w, hw, (outg_true ha hp hq' (e2 ▸ hd')).2 (e2 ▸ hd), rfl⟩), e1, ?_⟩
          show (V.L q).idxOf w.id + _ = s
          rw [hs', e1]
        · simp at hs'
  · unfold newSlots
    have h1 := hl.r1
    have h2 := hl.r2
    have h3 := hl.r
    have hlen := rfr_len np t p
    revert h1 h2 hidx hlen
    generalize rfr np t p = l
    intro hidx h1 h2 hlen
    match l, hlen with
    | [], _ => split <;> simp
    | [x], _ =>
      have := hidx x (by simp)
      simp only [List.map_cons, List.map_nil, List.getD_cons_zero, List.getD_cons_succ, List.getD_nil] at h1 h2
      simp only [List.zip_cons_cons, List.zip_nil_left, List.flatMap_cons, List.flatMap_nil, List.append_nil]
      by_cases c : a ∈ V.L x
      · have := this c
        by_cases c0 : a ∈ V.L p <;> simp [c, c0] <;> omega
      · by_cases c0 : a ∈ V.L p <;> simp [c, c0]
    | [x, y], _ =>
      have hx := hidx x (by simp)
      have hy := hidx y (by simp)
      simp only [List.map_cons, List.map_nil, List.getD_cons_zero, List.getD_cons_succ, List.getD_nil] at h1 h2
      simp only [List.zip_cons_cons, List.zip_nil_left, List.flatMap_cons, List.flatMap_nil, List.append_nil]
      by_cases cx : a ∈ V.L x
      · have hx := hx cx
        by_cases cy : a ∈ V.L y
        · have hy := hy cy
          by_cases c0 : a ∈ V.L p <;> simp [cx, cy, c0] <;> omega
        · by_cases c0 : a ∈ V.L p <;> simp [cx, cy, c0] <;> omega
      · by_cases cy : a ∈ V.L y
        · have hy := hy cy
          by_cases c0 : a ∈ V.L p <;> simp [cx, cy, c0] <;> omega
        · by_cases c0 : a ∈ V.L p <;> simp [cx, cy, c0]

/-- what the exchange of a round does with the values -/
structure Moved (f : V' → V' → V') (e : V') (np t : Nat) (V : Lvl) (R : Nat → List CrlId) (c c' : Nat → Nat → V') : Prop where
  own : ∀ p, p < np → Act np t p → ∀ a ∈ V.L p, c' p ((V.L p).idxOf a + (V.stg p).sizeR) = cval f e R c p a
  got : ∀ p, p < np → Act np t p → ∀ x ∈ (rfr np t p).zip [0, (V.stg p).sizeR1], ∀ a ∈ V.L x.1, (V.L x.1).idxOf a < (V.stg x.1).sizeS →
    c' p ((V.L x.1).idxOf a + x.2) = cval f e R c x.1 a
  same : ∀ p, p < np → ¬ Act np t p → c' p = c p

theorem cval_next {ok : V' → Prop} (M : CommMonoidOn ok f e) {t p a d : Nat} {V : Lvl} {R R' : Nat → List CrlId} {c c' : Nat → Nat → V'} (h : RowsOk tr np ids t R)
    (hs : Step1 np t V R R') (hp : p < np) (ha : Act np t p) (hd : InG (Crystal.grp np p (t + 1)) d) (hD : Dest tr np ids a d) (hm : Moved f e np t V R c c')
    (hok : ∀ q, q < np → ∀ a, ∀ s ∈ slots (R q) a, ok (c q s)) :
    (∀ s ∈ slots (R' p) a, ok (c' p s)) ∧ cval f e R' c' p a = reduce f e ((p :: rfr np t p).map fun q => cval f e R c q a) := by
  have hl := hs.act p hp ha
  have hd' : InG (Crystal.grp np p t) d := by rw [Crystal.grp_succ] at hd; exact half_sub hd
  have hmemL : ∀ q, q < np → Act np t q → (a ∈ V.L q ↔ ∃ w ∈ R q, w.id = a) := fun q hq haq => (hs.act q hq haq).mem a
  have hokv : ∀ q, q < np → ok (cval f e R c q a) := by
    intro q hq
    apply M.reduce_ok
    intro v hv
    obtain ⟨s, hs, rfl⟩ := List.mem_map.1 hv
    exact hok q hq a s hs
  have hz : ∀ q, q < np → Act np t q → a ∉ V.L q → cval f e R c q a = e := by
    intro q hq haq hn
    unfold cval
    rw [slots_eq_nil]
    · rfl
    · intro w hw he
      exact hn ((hmemL q hq haq).2 ⟨w, hw, he⟩)
  have hidx : ∀ q ∈ rfr np t p, a ∈ V.L q → (V.L q).idxOf a < (V.stg q).sizeS := by
    intro q hq hm
    obtain ⟨r1, r2, r3, r4⟩ := rfr_spec hp ha hq
    obtain ⟨w, hw, e1⟩ := (hmemL q r1 r2).1 hm
    obtain ⟨x, hx, e3, e4, _⟩ := h.prod q r1 w hw d (by rw [r4]; exact hd') (e1 ▸ hD)
    rw [← e1, ← e3]
    exact (hs.act q r1 r2).goes x hx ((outg_true ha hp hq (e4 ▸ hd')).2 (e4 ▸ hd))
  have hperm := slots_next h hs hp ha hd hD
  -- the new values
  have hvals : (newSlots np t V p a).map (c' p) = ((p :: rfr np t p).filter fun q => a ∈ V.L q).map fun q => cval f e R c q a := by
    unfold newSlots
    rw [List.map_append, List.filter_cons]
    have hz2 : ∀ (l : List Nat) (u : List Nat), l.length ≤ u.length → (∀ x ∈ l.zip u, ∀ h : a ∈ V.L x.1, c' p ((V.L x.1).idxOf a + x.2) = cval f e R c x.1 a) →
        ((l.zip u).flatMap fun x => if a ∈ V.L x.1 then [(V.L x.1).idxOf a + x.2] else []).map (c' p) = (l.filter fun q => a ∈ V.L q).map fun q => cval f e R c q a := by
      intro l
      induction l with
      | nil => intro u _ _; rfl
      | cons q l ih =>
        intro u hu hx
        cases u with
        | nil => simp at hu
        | cons o u =>
          rw [List.zip_cons_cons, List.flatMap_cons, List.map_append, ih u (by simpa using hu) (fun x hx' => hx x (by simp [hx'])), List.filter_cons]
          by_cases c : a ∈ V.L q
          · have := hx (q, o) (by simp) c
            simp only at this
            simp [c, this]
          · simp [c]
    rw [hz2 (rfr np t p) _ (by simpa using rfr_len np t p) (fun x hx hm' => hm.got p hp ha x hx a hm' (hidx x.1 (List.of_mem_zip hx).1 hm'))]
    by_cases c : a ∈ V.L p
    · simp [c, hm.own p hp ha a c]
    · simp [c]
  have hlt : ∀ q ∈ p :: rfr np t p, q < np ∧ Act np t q := by
    intro q hq
    rcases List.mem_cons.1 hq with rfl | hq
    · exact ⟨hp, ha⟩
    · exact ⟨(rfr_spec hp ha hq).1, (rfr_spec hp ha hq).2.1⟩
  have hokn : ∀ v ∈ (newSlots np t V p a).map (c' p), ok v := by
    rw [hvals]
    intro v hv
    obtain ⟨q, hq, rfl⟩ := List.mem_map.1 hv
    exact hokv q (hlt q (List.mem_filter.1 hq).1).1
  constructor
  · intro s hs'
    exact hokn _ (List.mem_map_of_mem (hperm.mem_iff.1 hs'))
  · unfold cval
    rw [M.reduce_perm (hperm.map (c' p)) (fun v hv => hokn v ((hperm.map _).mem_iff.1 hv)), hvals]
    have : ∀ l : List Nat, (∀ q ∈ l, q < np ∧ Act np t q) → reduce f e ((l.filter fun q => a ∈ V.L q).map fun q => cval f e R c q a) = reduce f e (l.map fun q => cval f e R c q a) := by
      intro l
      induction l with
      | nil => intro _; rfl
      | cons q l ih =>
        intro hl'
        have hq := hl' q (by simp)
        have ih := ih (fun x hx => hl' x (by simp [hx]))
        have hok2 : ∀ u ∈ l.map (fun q => cval f e R c q a), ok u := by
          intro u hu
          obtain ⟨x, hx, rfl⟩ := List.mem_map.1 hu
          exact hokv x (hl' x (by simp [hx])).1
        have hok3 : ∀ u ∈ (l.filter fun q => a ∈ V.L q).map (fun q => cval f e R c q a), ok u := by
          intro u hu
          obtain ⟨x, hx, rfl⟩ := List.mem_map.1 hu
          exact hokv x (hl' x (by simp [(List.mem_filter.1 hx).1])).1
        rw [List.filter_cons, List.map_cons, M.reduce_cons _ _ (hokv q hq.1) hok2]
        by_cases c : a ∈ V.L q
        · rw [if_pos (by simpa using c), List.map_cons, M.reduce_cons _ _ (hokv q hq.1) hok3, ih]
        · rw [if_neg (by simpa using c), ih, hz q hq.1 hq.2 c, M.idLeft _ (M.reduce_ok _ hok2)]
    exact this _ hlt

/-! ### sums over groups -/

/-- the members of a group -/
def glist (g : Nat × Nat) : List Nat := List.range' g.1 g.2

theorem mem_glist {g : Nat × Nat} {q : Nat} : q ∈ glist g ↔ InG g q := by
  unfold glist InG
  rw [List.mem_range'_1]

theorem halves {t d : Nat} (hd : d < np) (ha : Act np t d) :
    ((glist (Crystal.grp np d (t + 1))).flatMap fun p => p :: rfr np t p).Perm (glist (Crystal.grp np d t)) := by
  have hmem : ∀ p, InG (Crystal.grp np d (t + 1)) p → p < np ∧ Crystal.grp np p t = Crystal.grp np d t ∧ Crystal.grp np p (t + 1) = Crystal.grp np d (t + 1) ∧ Act np t p := by
    intro p hp
    obtain ⟨h1, h2⟩ := grp_same np d hd (t + 1) p hp
    have hp' : InG (Crystal.grp np d t) p := by rw [Crystal.grp_succ] at hp; exact half_sub hp
    have h3 := (grp_same np d hd t p hp').2
    exact ⟨h1, h3, h2, by unfold Act; rw [h3]; exact ha⟩
  have hno : ∀ p, InG (Crystal.grp np d (t + 1)) p → ∀ q ∈ rfr np t p, ¬ InG (Crystal.grp np d (t + 1)) q := by
    intro p hp q hq hc
    obtain ⟨p1, p2, p3, p4⟩ := hmem p hp
    obtain ⟨q1, q2, q3, q4⟩ := hmem q hc
    have h1 : InG (Crystal.grp np p t) q := by rw [p2, ← q2]; exact grp_in np q q1 t
    -- a row for `q` itself goes and stays
    have h2 := outg_true (w := ⟨0, q, 0, 0, 0, 0⟩) p4 p1 hq h1
    have h3 := outg_false (w := ⟨0, q, 0, 0, 0, 0⟩) q4 (grp_in np q q1 t) q1
    have h4 := h2.2 (by rw [p3]; exact hc)
    have h5 := h3.2 (by rw [q3]; exact hc)
    rw [h4] at h5
    exact absurd h5 (by simp)
  rw [List.perm_ext_iff_of_nodup]
  · intro q
    rw [List.mem_flatMap, mem_glist]
    constructor
    · rintro ⟨p, hp, hq⟩
      rw [mem_glist] at hp
      obtain ⟨p1, p2, p3, p4⟩ := hmem p hp
      rcases List.mem_cons.1 hq with rfl | hq
      · rw [Crystal.grp_succ] at hp; exact half_sub hp
      · obtain ⟨r1, r2, r3, r4⟩ := rfr_spec p1 p4 hq
        rw [← p2, ← r4]; exact grp_in np q r1 t
    · intro hq
      by_cases c : InG (Crystal.grp np d (t + 1)) q
      · exact ⟨q, mem_glist.2 c, by simp⟩
      · obtain ⟨h1, h2, h3, h4, _⟩ := other_half hd ha hq c
        exact ⟨_, mem_glist.2 h2, by simp [h3]⟩
  · rw [List.nodup_flatMap]
    constructor
    · intro p hp
      rw [mem_glist] at hp
      obtain ⟨p1, p2, p3, p4⟩ := hmem p hp
      rw [List.nodup_cons]
      exact ⟨fun hq => hno p hp p hq hp, rfr_nodup p1 p4⟩
    · have hnd : (glist (Crystal.grp np d (t + 1))).Nodup := List.nodup_range'
      refine hnd.imp_of_mem ?_
      intro p p' hp hp' hne q hq hq'
      rw [mem_glist] at hp hp'
      obtain ⟨p1, p2, p3, p4⟩ := hmem p hp
      obtain ⟨p1', p2', p3', p4'⟩ := hmem p' hp'
      rcases List.mem_cons.1 hq with rfl | hq
      · rcases List.mem_cons.1 hq' with e1 | hq'
        · exact hne e1
        · exact hno p' hp' _ hq' hp
      · rcases List.mem_cons.1 hq' with rfl | hq'
        · exact hno p hp _ hq hp'
        · exact hne ((rfr_spec p1 p4 hq).2.2.1.symm.trans (rfr_spec p1' p4' hq').2.2.1)
  · exact List.nodup_range'

/-- the sum over the group of `d` is kept -/
theorem group_sum {ok : V' → Prop} (M : CommMonoidOn ok f e) {t a d : Nat} {V : Lvl} {R R' : Nat → List CrlId} {c c' : Nat → Nat → V'} (h : RowsOk tr np ids t R)
    (hs : Step1 np t V R R') (hD : Dest tr np ids a d) (hm : Moved f e np t V R c c') (hok : ∀ q, q < np → ∀ a, ∀ s ∈ slots (R q) a, ok (c q s)) :
    reduce f e ((glist (Crystal.grp np d (t + 1))).map fun q => cval f e R' c' q a) = reduce f e ((glist (Crystal.grp np d t)).map fun q => cval f e R c q a) := by
  have hd := hD.1
  have hokv : ∀ q, q < np → ok (cval f e R c q a) := by
    intro q hq
    apply M.reduce_ok
    intro v hv
    obtain ⟨s, hs, rfl⟩ := List.mem_map.1 hv
    exact hok q hq a s hs
  by_cases ha : Act np t d
  · have hmem : ∀ p, InG (Crystal.grp np d (t + 1)) p → p < np ∧ Crystal.grp np p (t + 1) = Crystal.grp np d (t + 1) ∧ Act np t p := by
      intro p hp
      obtain ⟨h1, h2⟩ := grp_same np d hd (t + 1) p hp
      have hp' : InG (Crystal.grp np d t) p := by rw [Crystal.grp_succ] at hp; exact half_sub hp
      have h3 := (grp_same np d hd t p hp').2
      exact ⟨h1, h2, by unfold Act; rw [h3]; exact ha⟩
    have e1 : ((glist (Crystal.grp np d (t + 1))).map fun q => cval f e R' c' q a) =
        (glist (Crystal.grp np d (t + 1))).map fun p => reduce f e ((p :: rfr np t p).map fun q => cval f e R c q a) := by
      apply List.map_congr_left
      intro p hp
      rw [mem_glist] at hp
      obtain ⟨h1, h2, h3⟩ := hmem p hp
      exact (cval_next M h hs h1 h3 (by rw [h2]; exact grp_in np d hd (t + 1)) hD hm hok).2
    have hlt : ∀ p ∈ glist (Crystal.grp np d t), p < np := fun p hp => (grp_same np d hd t p (mem_glist.1 hp)).1
    have hp := halves hd ha
    rw [e1, ← M.reduce_flatMap, ← List.map_flatMap, M.reduce_perm (hp.map _)]
    · intro v hv
      obtain ⟨q, hq, rfl⟩ := List.mem_map.1 hv
      exact hokv q (hlt q (hp.mem_iff.1 hq))
    · intro p hp' u hu
      obtain ⟨q, hq, rfl⟩ := List.mem_map.1 hu
      exact hokv q (hlt q (hp.mem_iff.1 (List.mem_flatMap.2 ⟨p, hp', hq⟩)))
  · rw [grp_inactive ha]
    congr 1
    apply List.map_congr_left
    intro q hq
    rw [mem_glist] at hq
    obtain ⟨hq1, he⟩ := grp_same np d hd t q hq
    have haq : ¬ Act np t q := by unfold Act; rw [he]; exact ha
    unfold cval
    rw [hs.inact q hq1 haq, hm.same q hq1 haq]

/-- the values stay in the domain -/
theorem moved_ok {ok : V' → Prop} (M : CommMonoidOn ok f e) {t : Nat} {V : Lvl} {R R' : Nat → List CrlId} {c c' : Nat → Nat → V'} (h : RowsOk tr np ids t R)
    (hs : Step1 np t V R R') (hm : Moved f e np t V R c c') (hok : ∀ q, q < np → ∀ a, ∀ s ∈ slots (R q) a, ok (c q s)) :
    ∀ q, q < np → ∀ a, ∀ s ∈ slots (R' q) a, ok (c' q s) := by
  intro q hq a s hs'
  by_cases ha : Act np t q
  · have h' := h.step hs
    obtain ⟨w, hw, rfl, e2⟩ := mem_slots.1 hs'
    obtain ⟨h1, h2, _⟩ := h'.row q hq w hw
    exact (cval_next M h hs hq ha h1 h2 hm hok).1 s hs'
  · rw [hs.inact q hq ha] at hs'
    rw [hm.same q hq ha]
    exact hok q hq a s hs'

end Gslib.Gs
