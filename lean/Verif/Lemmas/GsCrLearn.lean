import Verif.Lemmas.GsCrLabel
import Verif.Lemmas.Halving

/-! # cr_learn: one level -/

namespace Gslib.Gs
open Gslib Gslib.Mpi Gslib.Sarray Gslib.Spec Gslib.Props Gslib.Crystal

/-- process `p` takes part in round `t` -/
def Act (np t p : Nat) : Prop := 1 < (Crystal.grp np p t).2

instance (np t : Nat) : DecidablePred (Act np t) := fun p => by unfold Act; infer_instance

/-- first rank of the upper half -/
def cut (np t p : Nat) : Nat := bhOf (Crystal.grp np p t).1 (Crystal.grp np p t).2

/-- the upper half is the other half -/
def up (np t p : Nat) : Bool := decide (p < cut np t p)

/-- the row is sent -/
def outg (np t p : Nat) (w : CrlId) : Bool := w.goes (cut np t p) (up np t p)

/-- the processes received from -/
def rfr (np t p : Nat) : List Nat := recvFrom p (Crystal.grp np p t).1 (Crystal.grp np p t).2

/-- the process sent to -/
def tgt (np t p : Nat) : Nat := targOf p (Crystal.grp np p t).1 (Crystal.grp np p t).2

theorem rfr_spec {np t p q : Nat} (hp : p < np) (ha : Act np t p) (hq : q ∈ rfr np t p) : q < np ∧ Act np t q ∧ tgt np t q = p ∧ Crystal.grp np q t = Crystal.grp np p t := by
  obtain ⟨h1, h2⟩ := recv_spec ha (grp_in np p hp t) hq
  obtain ⟨h3, h4⟩ := grp_same np p hp t q h1
  refine ⟨h3, ?_, ?_, h4⟩
  · unfold Act; rw [h4]; exact ha
  · unfold tgt; rw [h4]; exact h2

theorem tgt_spec {np t p : Nat} (hp : p < np) (ha : Act np t p) : tgt np t p < np ∧ Act np t (tgt np t p) ∧ p ∈ rfr np t (tgt np t p) ∧ Crystal.grp np (tgt np t p) t = Crystal.grp np p t := by
  obtain ⟨h1, h2⟩ := targ_spec ha (grp_in np p hp t)
  obtain ⟨h3, h4⟩ := grp_same np p hp t _ h1
  have h4' : Crystal.grp np (tgt np t p) t = Crystal.grp np p t := h4
  refine ⟨h3, ?_, ?_, h4'⟩
  · unfold Act; rw [h4']; exact ha
  · unfold rfr; rw [h4']; exact h2

theorem rfr_nodup {np t p : Nat} (hp : p < np) (ha : Act np t p) : (rfr np t p).Nodup := recv_nodup ha (grp_in np p hp t)

/-- labels, maps and stages of a level -/
structure Lvl where
  L : Nat → List Nat
  gl : Nat → List CrGroup
  stg : Nat → CrStage

/-- the labelled row -/
def labA (np t : Nat) (V : Lvl) (p : Nat) (w : CrlId) : CrlId := lab (V.L p) (cut np t p) (up np t p) w

/-- what a level of cr_learn does on process `p`: rows `R` before, `R'` after -/
structure LvlOk (np t : Nat) (V : Lvl) (R : Nat → List CrlId) (p : Nat) (R' : List CrlId) : Prop where
  nodup : (V.L p).Nodup
  mem : ∀ a, a ∈ V.L p ↔ ∃ w ∈ R p, w.id = a
  scat : (V.stg p).scatterMap = encGroups ((V.gl p).map fun g => (g.2.1, [g.1]))
  gath : (V.stg p).gatherMap = encGroups (((V.gl p).filter fun g => g.2.2 ≠ []).map fun g => (g.1, g.2.2))
  maps : MapsOk ((R p).map (labA np t V p)) (V.gl p)
  back : ∀ g ∈ V.gl p, ∃ w ∈ (R p).map (labA np t V p), w.bi = g.1
  sk : (V.stg p).sizeSk = (V.L p).length
  sS : (V.stg p).sizeS ≤ (V.L p).length
  goes : ∀ w ∈ R p, outg np t p w → (V.L p).idxOf w.id < (V.stg p).sizeS
  r1 : (V.stg p).sizeR1 = ((rfr np t p).map fun q => (V.stg q).sizeS).getD 0 0
  r2 : (V.stg p).sizeR2 = ((rfr np t p).map fun q => (V.stg q).sizeS).getD 1 0
  r : (V.stg p).sizeR = (V.stg p).sizeR1 + (V.stg p).sizeR2
  tot : (V.stg p).sizeTotal = (V.stg p).sizeR + (V.stg p).sizeSk
  p1 : (V.stg p).p1 = tgt np t p
  p2 : (V.stg p).p2 = p - 1
  nrecvn : (V.stg p).nrecvn = recvnOf p (Crystal.grp np p t).1 (Crystal.grp np p t).2
  next : ∀ w, w ∈ R' ↔ (∃ x ∈ R p, outg np t p x = false ∧ w = { labA np t V p x with si := (V.L p).idxOf x.id + (V.stg p).sizeR }) ∨
    ∃ q off, (q, off) ∈ (rfr np t p).zip [0, (V.stg p).sizeR1] ∧ ∃ x ∈ R q, outg np t q x = true ∧ w = { labA np t V q x with si := (V.L q).idxOf x.id + off }

/-- a level of cr_learn -/
def learnLv (np t : Nat) : Coll LearnSt CrMsg :=
  (Coll.one (Act np t) fun p => learnCount np p t (Crystal.grp np p t).1 (Crystal.grp np p t).2).seq
    (Coll.one (Act np t) fun p => { learnRows np p t (Crystal.grp np p t).1 (Crystal.grp np p t).2 with label := 0 })

theorem learnLv_T (np t : Nat) : (learnLv np t).T = 2 := rfl

theorem learnLv_prog (np t p : Nat) : (learnLv np t).prog p = if 1 < (Crystal.grp np p t).2 then [learnCount np p t (Crystal.grp np p t).1 (Crystal.grp np p t).2, learnRows np p t (Crystal.grp np p t).1 (Crystal.grp np p t).2] else [] := by
  show (Coll.one _ _).prog p ++ ((Coll.one _ _).prog p).map (Step.shift _) = _
  rw [Coll.one_prog, Coll.one_prog]
  by_cases c : Act np t p
  · rw [if_pos c, if_pos c, if_pos (show 1 < _ from c)]; rfl
  · rw [if_neg c, if_neg c, if_neg (show ¬ 1 < _ from c)]; rfl

theorem one_act_ok {S W : Type} {np t tag : Nat} {st : Nat → Step S W} (hl : ∀ p, (st p).label = 0) (hs : ∀ p, Act np t p → (st p).sends = [(tgt np t p, tag)])
    (hr : ∀ p, Act np t p → (st p).recvs = (rfr np t p).map fun q => (q, tag)) : (Coll.one (Act np t) st).Ok np := by
  refine Coll.one_ok hl ?_ ?_
  · intro p hp ha
    rw [hs p ha]
    refine ⟨by simp, ?_⟩
    intro x hx
    rw [List.mem_singleton] at hx
    subst hx
    obtain ⟨h1, h2, h3, _⟩ := tgt_spec hp ha
    refine ⟨h1, h2, ?_⟩
    rw [hr _ h2]
    exact List.mem_map.2 ⟨p, h3, rfl⟩
  · intro p hp ha
    rw [hr p ha]
    refine ⟨(rfr_nodup hp ha).map (fun a b h => (Prod.mk.inj h).1), ?_⟩
    intro x hx
    obtain ⟨q, hq, rfl⟩ := List.mem_map.1 hx
    obtain ⟨h1, h2, h3, _⟩ := rfr_spec hp ha hq
    refine ⟨h1, h2, ?_⟩
    rw [hs q h2]
    simp [h3]

theorem learnLv_ok (np t : Nat) : (learnLv np t).Ok np :=
  Coll.seq_ok (one_act_ok (tag := np + 2 * t) (fun _ => rfl) (fun _ _ => rfl) (fun _ _ => rfl))
    (one_act_ok (tag := np + 2 * t + 1) (fun _ => rfl) (fun _ _ => rfl) (fun _ _ => rfl))

theorem mapM_map_some {A B C : Type} {get : B → Option C} {f : A → B} {g : A → C} (h : ∀ x, get (f x) = some (g x)) : ∀ l : List A, (l.map f).mapM get = some (l.map g)
  | [] => rfl
  | a :: l => by rw [List.map_cons, List.mapM_cons, h, mapM_map_some h l]; rfl

theorem rfr_len (np t p : Nat) : (rfr np t p).length ≤ 2 := by
  unfold rfr recvFrom
  split
  · simp
  · split <;> simp

/-- rows received -/
theorem learnNext_mem (nkeep : Nat) (st : CrStage) (cw : List CrlId) (l : List Nat) (hl : l.length ≤ 2) (got : Nat → List CrlId) (w : CrlId) :
    w ∈ learnNext nkeep st cw (l.map got) ↔ (∃ x ∈ cw.take nkeep, w = { x with si := x.bi + st.sizeR }) ∨
      ∃ q off, (q, off) ∈ l.zip [0, st.sizeR1] ∧ ∃ x ∈ got q, w = { x with si := x.bi + off } := by
  have hm : ∀ v (l : List CrlId), w ∈ biToSi v l ↔ ∃ x ∈ l, w = { x with si := x.bi + v } := by
    intro v l
    unfold biToSi
    rw [List.mem_map]
    exact exists_congr fun x => and_congr_right fun _ => eq_comm
  unfold learnNext
  rw [List.mem_append, List.mem_append, hm, hm, hm, or_assoc]
  apply or_congr Iff.rfl
  match l, hl with
  | [], _ => simp
  | [a], _ => simp
  | [a, b], _ =>
    simp only [List.map_cons, List.map_nil, List.getD_cons_zero, List.getD_cons_succ, List.zip_cons_cons, List.zip_nil_right,
      List.mem_cons, List.not_mem_nil, or_false, Prod.mk.injEq]
    constructor
    · rintro (⟨x, hx, rfl⟩ | ⟨x, hx, rfl⟩)
      · exact ⟨a, 0, Or.inl ⟨rfl, rfl⟩, x, hx, rfl⟩
      · exact ⟨b, _, Or.inr ⟨rfl, rfl⟩, x, hx, rfl⟩
    · rintro ⟨q, off, ⟨rfl, rfl⟩ | ⟨rfl, rfl⟩, x, hx, rfl⟩
      · exact Or.inl ⟨x, hx, rfl⟩
      · exact Or.inr ⟨x, hx, rfl⟩

/-- the rows in the order in which they are sent -/
theorem sendSort (cw : List CrlId) (s : ScratchF Nat) (hb : ∀ w ∈ cw, w.bi < 4294967296) (hs : ∀ w ∈ cw, w.send ≤ 1) :
    ∃ out, sarraySort [.int 4 CrlId.send, .int 4 CrlId.bi] cw s = .ok out ∧ out.Perm cw ∧ out = (out.filter fun w => w.send = 0) ++ out.filter fun w => w.send = 1 := by
  obtain ⟨out, e, h⟩ := sarray_sort_lexicographic (κ := Nat) [.int 4 CrlId.send, .int 4 CrlId.bi] cw s (by
    intro f hf
    simp only [List.mem_cons, List.not_mem_nil, or_false] at hf
    rcases hf with rfl | rfl
    · intro r hr; have := hs r hr; norm_num; omega
    · intro r hr; have := hb r hr; norm_num; omega)
  refine ⟨out, e, h.perm, split_by_send ?_ fun w hw => hs w (h.perm.mem_iff.1 hw)⟩
  exact h.sorted.imp (by
    intro a b hab
    simp only [List.map_cons, List.map_nil, Field.key, LexLe, Key.Lt, Key.Same, and_true] at hab
    omega)

/-- one level of cr_learn -/
theorem learn_level (np t : Nat) (s : Nat → LearnSt) (hid : ∀ p, p < np → ∀ w ∈ (s p).cw, w.id < 18446744073709551616)
    (hsi : ∀ p, p < np → ∀ w ∈ (s p).cw, w.si < 4294967296)
    (hN : ∀ p, p < np → ∀ L : List Nat, L.Nodup → (∀ a ∈ L, ∃ w ∈ (s p).cw, w.id = a) → L.length ≤ 4294967296) :
    ∃ (V : Lvl) (s' : Nat → LearnSt), (learnLv np t).run np s = .ok s' ∧ ∀ p, p < np →
      (Act np t p → LvlOk np t V (fun q => (s q).cw) p (s' p).cw ∧ (s' p).stages = (s p).stages ++ [V.stg p]) ∧ (¬ Act np t p → s' p = s p) := by
  have hlab : ∀ p, ∃ x : List CrlId × List Nat × Nat × List CrGroup, p < np →
      crlWorkLabel (s p).cw (cut np t p) (up np t p) (s p).scratch = .ok ⟨x.1, ((s p).cw.filter (outg np t p)).length, x.2.2.1, x.2.1.length,
        encGroups (x.2.2.2.map fun g => (g.2.1, [g.1])), encGroups ((x.2.2.2.filter fun g => g.2.2 ≠ []).map fun g => (g.1, g.2.2))⟩ ∧
      x.2.1.Nodup ∧ (∀ a, a ∈ x.2.1 ↔ ∃ w ∈ (s p).cw, w.id = a) ∧ x.2.2.1 ≤ x.2.1.length ∧ (∀ w ∈ (s p).cw, outg np t p w → x.2.1.idxOf w.id < x.2.2.1) ∧
      x.1.Perm ((s p).cw.map (lab x.2.1 (cut np t p) (up np t p))) ∧ MapsOk ((s p).cw.map (lab x.2.1 (cut np t p) (up np t p))) x.2.2.2 ∧
      ∀ g ∈ x.2.2.2, ∃ w ∈ (s p).cw.map (lab x.2.1 (cut np t p) (up np t p)), w.bi = g.1 := by
    intro p
    by_cases hp : p < np
    · obtain ⟨out, L, nS, gl, h⟩ := crlWorkLabel_spec (s p).cw (cut np t p) (up np t p) (s p).scratch (hid p hp) (hsi p hp) (hN p hp)
      exact ⟨(out, L, nS, gl), fun _ => h⟩
    · exact ⟨([], [], 0, []), fun h => absurd h hp⟩
  choose X hX using hlab
  -- after the labels
  let cur0 : Nat → CrStage := fun p => ⟨encGroups ((X p).2.2.2.map fun g => (g.2.1, [g.1])), encGroups (((X p).2.2.2.filter fun g => g.2.2 ≠ []).map fun g => (g.1, g.2.2)),
    0, 0, 0, (X p).2.1.length, (X p).2.2.1, 0, tgt np t p, p - 1, recvnOf p (Crystal.grp np p t).1 (Crystal.grp np p t).2⟩
  let ns : Nat → Nat := fun p => ((s p).cw.filter (outg np t p)).length
  let e1 : Nat → LearnSt := fun p => { s p with cw := (X p).1, nsend := ns p, nrecv := [], cur := cur0 p }
  let nrecv : Nat → List (Nat × Nat) := fun p => (rfr np t p).map fun q => (ns q, (X q).2.2.1)
  let V : Lvl := ⟨fun p => (X p).2.1, fun p => (X p).2.2.2, fun p => learnSizes { e1 p with nrecv := nrecv p }⟩
  let g1 : Nat → LearnSt := fun p => { e1 p with nrecv := nrecv p, cur := V.stg p }
  have run1 : (Coll.one (Act np t) fun p => learnCount np p t (Crystal.grp np p t).1 (Crystal.grp np p t).2).run np s = .ok (fun p => if p < np ∧ Act np t p then g1 p else s p) := by
    refine Coll.one_run' (fun _ => rfl) (e := e1) ?_ ?_ ?_
    · intro p hp _
      show learnLabel p (Crystal.grp np p t).1 (Crystal.grp np p t).2 (s p) = _
      unfold learnLabel
      have : crlWorkLabel (s p).cw (bhOf (Crystal.grp np p t).1 (Crystal.grp np p t).2) (decide (p < bhOf (Crystal.grp np p t).1 (Crystal.grp np p t).2)) (s p).scratch = _ := (hX p hp).1
      rw [this]
      rfl
    · intro p hp ha x hx
      obtain ⟨q, hq, rfl⟩ := List.mem_map.1 (show x ∈ (rfr np t p).map fun q => (q, np + 2 * t) from hx)
      obtain ⟨h1, h2, h3, _⟩ := rfr_spec hp ha hq
      refine ⟨h1, h2, ?_⟩
      show (p, np + 2 * t) ∈ [(tgt np t q, np + 2 * t)]
      rw [h3]; simp
    · intro p hp ha
      show (Outcome.ofOption ((((rfr np t p).map fun q => (q, np + 2 * t)).map fun x => CrMsg.nums (ns x.1) (X x.1).2.2.1).mapM CrMsg.getNums)).bind _ = _
      rw [List.map_map, mapM_map_some (f := (fun x : Nat × Nat => CrMsg.nums (ns x.1) (X x.1).2.2.1) ∘ fun q => (q, np + 2 * t)) (g := fun q => (ns q, (X q).2.2.1)) (fun _ => rfl)]
      rfl
  -- rows in the order of sending
  have hlb : ∀ p, p < np → ∀ w ∈ (X p).1, w.bi < 4294967296 ∧ w.send ≤ 1 := by
    intro p hp w hw
    obtain ⟨_, h1, h2, _, _, h5, _⟩ := hX p hp
    obtain ⟨x, hx, rfl⟩ := List.mem_map.1 (h5.mem_iff.1 hw)
    have h3 : (X p).2.1.idxOf x.id < (X p).2.1.length := List.idxOf_lt_length_iff.2 ((h2 _).2 ⟨x, hx, rfl⟩)
    have h4 := hN p hp _ h1 (fun a ha => (h2 a).1 ha)
    refine ⟨by show (X p).2.1.idxOf x.id < _; omega, ?_⟩
    show (if _ then 1 else 0) ≤ 1
    split <;> omega
  have hsort : ∀ p, ∃ out : List CrlId, p < np → sarraySort [.int 4 CrlId.send, .int 4 CrlId.bi] (X p).1 (s p).scratch = .ok out ∧ out.Perm (X p).1 ∧
      out = (out.filter fun w => w.send = 0) ++ out.filter fun w => w.send = 1 := by
    intro p
    by_cases hp : p < np
    · obtain ⟨out, h⟩ := sendSort (X p).1 (s p).scratch (fun w hw => (hlb p hp w hw).1) (fun w hw => (hlb p hp w hw).2)
      exact ⟨out, fun _ => h⟩
    · exact ⟨[], fun h => absurd h hp⟩
  choose Y hY using hsort
  have hYmem : ∀ p, p < np → ∀ w, w ∈ Y p ↔ ∃ x ∈ (s p).cw, w = labA np t V p x := by
    intro p hp w
    rw [(hY p hp).2.1.mem_iff, ((hX p hp).2.2.2.2.2.1).mem_iff, List.mem_map]
    constructor
    · rintro ⟨x, hx, rfl⟩; exact ⟨x, hx, rfl⟩
    · rintro ⟨x, hx, rfl⟩; exact ⟨x, hx, rfl⟩
  have hlen1 : ∀ p, p < np → ((Y p).filter fun w => w.send = 1).length = ns p := by
    intro p hp
    rw [((hY p hp).2.1.filter _).length_eq, ((hX p hp).2.2.2.2.2.1.filter _).length_eq, List.filter_map, List.length_map]
    show _ = ((s p).cw.filter (outg np t p)).length
    congr 1
    apply List.filter_congr
    intro w _
    have hb : ∀ b : Bool, decide ((if b = true then 1 else 0) = 1) = b := by decide
    exact hb (w.goes (cut np t p) (up np t p))
  have hkeep : ∀ p, p < np → (Y p).length - ns p = ((Y p).filter fun w => w.send = 0).length := by
    intro p hp
    have h := congrArg List.length (hY p hp).2.2
    rw [List.length_append, hlen1 p hp] at h
    omega
  have htake : ∀ p, p < np → (Y p).take ((Y p).length - ns p) = (Y p).filter fun w => w.send = 0 := by
    intro p hp
    rw [hkeep p hp]
    conv_lhs => rw [(hY p hp).2.2]
    rw [List.take_left' (by rw [← (hY p hp).2.2])]
  have hdrop : ∀ p, p < np → (Y p).drop ((Y p).length - ns p) = (Y p).filter fun w => w.send = 1 := by
    intro p hp
    rw [hkeep p hp]
    conv_lhs => rw [(hY p hp).2.2]
    rw [List.drop_left' (by rw [← (hY p hp).2.2])]
  let e2 : Nat → LearnSt := fun p => { g1 p with cw := Y p }
  let g2 : Nat → LearnSt := fun p => { g1 p with cw := learnNext ((Y p).length - ns p) (V.stg p) (Y p) ((rfr np t p).map fun q => (Y q).filter fun w => w.send = 1), stages := (s p).stages ++ [V.stg p] }
  have run2 : (Coll.one (Act np t) fun p => { learnRows np p t (Crystal.grp np p t).1 (Crystal.grp np p t).2 with label := 0 }).run np (fun p => if p < np ∧ Act np t p then g1 p else s p) =
      .ok (fun p => if p < np ∧ Act np t p then g2 p else if p < np ∧ Act np t p then g1 p else s p) := by
    refine Coll.one_run' (fun _ => rfl) (e := e2) ?_ ?_ ?_
    · intro p hp ha
      beta_reduce
      rw [if_pos ⟨hp, ha⟩]
      show (sarraySort [.int 4 CrlId.send, .int 4 CrlId.bi] (X p).1 (s p).scratch).bind _ = _
      rw [(hY p hp).1]
      rfl
    · intro p hp ha x hx
      obtain ⟨q, hq, rfl⟩ := List.mem_map.1 (show x ∈ (rfr np t p).map fun q => (q, np + 2 * t + 1) from hx)
      obtain ⟨h1, h2, h3, _⟩ := rfr_spec hp ha hq
      refine ⟨h1, h2, ?_⟩
      show (p, np + 2 * t + 1) ∈ [(tgt np t q, np + 2 * t + 1)]
      rw [h3]; simp
    · intro p hp ha
      show (Outcome.ofOption ((((rfr np t p).map fun q => (q, np + 2 * t + 1)).map fun x => CrMsg.rows ((Y x.1).drop ((Y x.1).length - ns x.1))).mapM CrMsg.getRows)).bind _ = _
      rw [List.map_map, mapM_map_some (f := (fun x : Nat × Nat => CrMsg.rows ((Y x.1).drop ((Y x.1).length - ns x.1))) ∘ fun q => (q, np + 2 * t + 1)) (g := fun q => (Y q).drop ((Y q).length - ns q)) (fun _ => rfl)]
      have hmap : ((rfr np t p).map fun q => (Y q).drop ((Y q).length - ns q)) = (rfr np t p).map fun q => (Y q).filter fun w => w.send = 1 := by
        apply List.map_congr_left
        intro q hq
        exact hdrop q (rfr_spec hp ha hq).1
      rw [hmap]
      show (if _ then _ else _) = _
      refine (if_pos ?_).trans ?_
      · show _ = (nrecv p).map Prod.fst
        rw [List.map_map, List.map_map]
        apply List.map_congr_left
        intro q hq
        exact hlen1 q (rfr_spec hp ha hq).1
      · rfl
  refine ⟨V, _, (Coll.seq_run_ok (one_act_ok (tag := np + 2 * t) (fun _ => rfl) (fun _ _ => rfl) (fun _ _ => rfl)) run1) run2, ?_⟩
  intro p hp
  constructor
  · intro ha
    beta_reduce
    rw [if_pos ⟨hp, ha⟩]
    obtain ⟨_, h1, h2, h3, h4, h5, h6, h7⟩ := hX p hp
    refine ⟨?_, rfl⟩
    refine { nodup := h1, mem := h2, scat := rfl, gath := rfl, maps := h6, back := h7, sk := rfl, sS := h3, goes := h4, r1 := ?_, r2 := ?_, r := rfl, tot := rfl, p1 := rfl, p2 := rfl, nrecvn := rfl, next := ?_ }
    · show ((nrecv p).map Prod.snd).getD 0 0 = _
      rw [List.map_map]; rfl
    · show ((nrecv p).map Prod.snd).getD 1 0 = _
      rw [List.map_map]; rfl
    · intro w
      show w ∈ learnNext _ _ _ _ ↔ _
      rw [learnNext_mem _ _ _ _ (rfr_len np t p), htake p hp]
      apply or_congr
      · constructor
        · rintro ⟨x, hx, rfl⟩
          rw [List.mem_filter] at hx
          obtain ⟨z, hz, rfl⟩ := (hYmem p hp x).1 hx.1
          refine ⟨z, hz, ?_, rfl⟩
          have : (if z.goes (cut np t p) (up np t p) = true then 1 else 0) = 0 := by simpa [labA, lab] using hx.2
          unfold outg
          cases c : z.goes (cut np t p) (up np t p) with
          | true => rw [c] at this; simp at this
          | false => rfl
        · rintro ⟨z, hz, hg, rfl⟩
          refine ⟨labA np t V p z, List.mem_filter.2 ⟨(hYmem p hp _).2 ⟨z, hz, rfl⟩, ?_⟩, rfl⟩
          unfold outg at hg
          simp [labA, lab, hg]
      · constructor
        · rintro ⟨q, off, hq, x, hx, rfl⟩
          have hq' := (rfr_spec hp ha (List.of_mem_zip hq).1).1
          rw [List.mem_filter] at hx
          obtain ⟨z, hz, rfl⟩ := (hYmem q hq' x).1 hx.1
          refine ⟨q, off, hq, z, hz, ?_, rfl⟩
          have : (if z.goes (cut np t q) (up np t q) = true then 1 else 0) = 1 := by simpa [labA, lab] using hx.2
          unfold outg
          cases c : z.goes (cut np t q) (up np t q) with
          | true => rfl
          | false => rw [c] at this; simp at this
        · rintro ⟨q, off, hq, z, hz, hg, rfl⟩
          have hq' := (rfr_spec hp ha (List.of_mem_zip hq).1).1
          refine ⟨q, off, hq, labA np t V q z, List.mem_filter.2 ⟨(hYmem q hq' _).2 ⟨z, hz, rfl⟩, ?_⟩, rfl⟩
          unfold outg at hg
          simp [labA, lab, hg]
  · intro ha
    beta_reduce
    rw [if_neg (fun h => ha h.2), if_neg (fun h => ha h.2)]

end Gslib.Gs
