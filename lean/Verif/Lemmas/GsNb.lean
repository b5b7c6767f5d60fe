import Verif.Spec.GsNb
import Verif.Lemmas.NbAll
import Verif.Lemmas.GsFinal

/-! # Nonblocking gather-scatter: an operation computes what gs computes -/

namespace Gslib.Nb
open Gslib Gslib.Mpi Gslib.Gs

variable {S W : Type}

/-- one step of all processes -/
theorem opRun_of_run {np : Nat} {st : Nat → Step S W} (hl : ∀ p, (st p).label = 0) {s s' : Nat → S}
    (h : (⟨1, fun p => [st p]⟩ : Coll S W).run np s = .ok s') : OpRun np st s s' := by
  have hst : ∀ p, stepAt [st p] 0 = some (st p) := by
    intro p
    unfold stepAt
    rw [List.find?_cons_of_pos]
    simp [hl p]
  have h : (lockRun (fun p => [st p]) np 0 s).bind (lockStep (fun p => [st p]) np 0) = .ok s' := h
  obtain ⟨d, hd, h⟩ := Outcome.bind_eq_ok h
  cases hd
  obtain ⟨e, he, h⟩ := Outcome.bind_eq_ok h
  obtain ⟨a1, -⟩ := seqAll_ok he
  obtain ⟨b1, -⟩ := seqAll_ok h
  refine ⟨e, fun p hp => ⟨?_, ?_⟩⟩
  · have := a1 p hp
    simp only [preOf, hst] at this
    exact this
  · have := b1 p hp
    simp only [postOf, hst] at this
    obtain ⟨vals, e1, e2⟩ := Outcome.bind_eq_ok this
    have hg : gather (fun p => [st p]) np 0 e p (st p).recvs = some vals := by
      cases hg : gather (fun p => [st p]) np 0 e p (st p).recvs with
      | none => rw [hg] at e1; cases e1
      | some v => rw [hg] at e1; cases e1; rfl
    rw [← e2]
    congr 1
    clear e1 e2 this
    unfold gather at hg
    generalize (st p).recvs = l at hg
    induction l generalizing vals with
    | nil =>
      rw [List.mapM_nil] at hg
      exact Option.some.inj hg
    | cons x l ih =>
      rw [List.mapM_cons] at hg
      simp only [hst] at hg
      by_cases hx : x.1 < np
      · rw [if_pos hx] at hg
        by_cases hm : (p, x.2) ∈ (st x.1).sends
        · rw [if_pos hm] at hg
          simp only [Option.bind_eq_bind, Option.bind_some] at hg
          obtain ⟨vs, h1, h2⟩ := Option.bind_eq_some_iff.mp hg
          cases h2
          rw [List.map_cons, ih vs (by simpa only [hst] using h1)]
        · rw [if_neg hm] at hg; cases hg
      · rw [if_neg hx] at hg; cases hg

theorem OpRun.around {np : Nat} {st : Nat → Step S W} {f g : Nat → S → Outcome S} {s s1 s2 s' : Nat → S} (h : OpRun np st s1 s2)
    (hf : ∀ p, p < np → f p (s p) = .ok (s1 p)) (hg : ∀ p, p < np → g p (s2 p) = .ok (s' p)) :
    OpRun np (fun p => Gs.around (f p) (st p) (g p)) s s' := by
  obtain ⟨e, he⟩ := h
  refine ⟨e, fun p hp => ⟨?_, ?_⟩⟩
  · show (f p (s p)).bind (st p).pre = _
    rw [hf p hp]; exact (he p hp).1
  · show ((st p).post (e p) _).bind (g p) = _
    have := (he p hp).2
    show ((st p).post (e p) ((st p).recvs.map fun y => (st y.1).payload (e y.1) (p, y.2))).bind (g p) = _
    rw [this]; exact hg p hp

theorem OpMatched.around {np : Nat} {st : Nat → Step S W} {f g : Nat → S → Outcome S} (h : OpMatched np st) : OpMatched np fun p => Gs.around (f p) (st p) (g p) :=
  ⟨h.send, h.recv⟩

theorem OpMatched.lift {A : Type} {np : Nat} {st : Nat → Step A W} (get : S → A) (set : S → A → S) (h : OpMatched np st) : OpMatched np fun p => (st p).lift get set :=
  ⟨h.send, h.recv⟩

/-- matched programs of one step -/
theorem opMatched_of_ok {np : Nat} {st : Nat → Step S W} (h : (⟨1, fun p => [st p]⟩ : Coll S W).Ok np) : OpMatched np st where
  send p hp y hy := by
    obtain ⟨h1, s, h2, -, h3⟩ := h.send p hp (st p) (List.mem_singleton.2 rfl) y hy
    rw [List.mem_singleton.1 h2] at h3
    exact ⟨h1, h3⟩
  recv p hp y hy := by
    obtain ⟨h1, s, h2, -, h3⟩ := h.recv p hp (st p) (List.mem_singleton.2 rfl) y hy
    rw [List.mem_singleton.1 h2] at h3
    exact ⟨h1, h3⟩

theorem OpMatched.congr {np : Nat} {st st' : Nat → Step S W} (he : ∀ p, p < np → st p = st' p) (h : OpMatched np st) : OpMatched np st' where
  send p hp y hy := by
    rw [← he p hp] at hy
    obtain ⟨h1, h2⟩ := h.send p hp y hy
    rw [he _ h1] at h2; exact ⟨h1, h2⟩
  recv p hp y hy := by
    rw [← he p hp] at hy
    obtain ⟨h1, h2⟩ := h.recv p hp y hy
    rw [he _ h1] at h2; exact ⟨h1, h2⟩

theorem OpRun.congr {np : Nat} {st st' : Nat → Step S W} (he : ∀ p, p < np → st p = st' p) (hm : OpMatched np st) {s s' : Nat → S} (h : OpRun np st s s') : OpRun np st' s s' := by
  obtain ⟨e, h⟩ := h
  refine ⟨e, fun p hp => ?_⟩
  rw [← he p hp]
  refine ⟨(h p hp).1, ?_⟩
  rw [← (h p hp).2]
  congr 1
  apply List.map_congr_left
  intro y hy
  rw [he y.1 (hm.recv p hp y hy).1]

end Gslib.Nb

namespace Gslib.Gs
open Gslib Gslib.Mpi Gslib.Spec Gslib.Comm Gslib.Nb

variable {V T U : Type} {D : Dom T} {op : Op} {K : Kernels U T} {f : V → V → V} {e : V}
variable {np : Nat} {ids : Nat → List Int}

theorem loc_of_run {S W : Type} {F : Nat → S → Outcome S} {w : W} {s s' : Nat → S} (h : (Coll.loc F w).run np s = .ok s') : ∀ p, p < np → F p (s p) = .ok (s' p) := by
  rw [Coll.loc_run] at h
  exact (seqAll_ok h).1

/-- local parts around an exchange that is one step -/
theorem opRun_around {S W : Type} {F G : Nat → S → Outcome S} {w : W} {ex : Coll S W} {st : Nat → Step S W} (hex : ex.Ok np)
    (hst : ∀ s s', ex.run np s = .ok s' → OpRun np st s s') {s s' : Nat → S} (h : (((Coll.loc F w).seq ex).seq (Coll.loc G w)).run np s = .ok s') :
    OpRun np (fun p => around (F p) (st p) (G p)) s s' := by
  rw [Coll.seq_run (Coll.seq_ok (Coll.loc_ok _ _ _) hex), Coll.seq_run (Coll.loc_ok _ _ _)] at h
  obtain ⟨s2, h1, h⟩ := Outcome.bind_eq_ok h
  obtain ⟨s1, h0, h1⟩ := Outcome.bind_eq_ok h1
  exact (hst _ _ h1).around (loc_of_run h0) (loc_of_run h)

/-- MPI_Iallreduce as a collective operation -/
def iallColl (D : Dom T) (op : Op) (np : Nat) : Coll (List T) (List T) := ⟨1, fun id => [iallStep D op np id]⟩

theorem nodup_pairs {B : Type} (l : List Nat) (hl : l.Nodup) (g : Nat → B) : (l.map fun q => (q, g q)).Nodup :=
  hl.map fun _ _ h => (Prod.mk.inj h).1

theorem iallColl_ok (D : Dom T) (op : Op) (np : Nat) : (iallColl D op np).Ok np where
  labels p _ := List.pairwise_singleton _ _
  bound p _ s hs := by rw [List.mem_singleton.1 hs]; exact Nat.zero_lt_one
  recvNodup p _ s hs := by rw [List.mem_singleton.1 hs]; exact nodup_pairs _ List.nodup_range _
  sendNodup p _ s hs := by rw [List.mem_singleton.1 hs]; exact nodup_pairs _ List.nodup_range _
  send p hp s hs x hx := by
    rw [List.mem_singleton.1 hs] at hx ⊢
    obtain ⟨q, hq, rfl⟩ := List.mem_map.1 hx
    exact ⟨List.mem_range.1 hq, _, List.mem_singleton.2 rfl, rfl, List.mem_map.2 ⟨p, List.mem_range.2 hp, rfl⟩⟩
  recv p hp s hs x hx := by
    rw [List.mem_singleton.1 hs] at hx ⊢
    obtain ⟨q, hq, rfl⟩ := List.mem_map.1 hx
    exact ⟨List.mem_range.1 hq, _, List.mem_singleton.2 rfl, rfl, List.mem_map.2 ⟨p, List.mem_range.2 hp, rfl⟩⟩

theorem mapM_eq_map {A B : Type} {f : A → Option B} {g : A → B} : ∀ l : List A, (∀ x ∈ l, f x = some (g x)) → l.mapM f = some (l.map g)
  | [], _ => rfl
  | a :: l, h => by rw [List.mapM_cons, h a (by simp), mapM_eq_map l (fun x hx => h x (by simp [hx]))]; rfl

theorem foldRanks_foldl {A : Type} (g : A → A → A) (v : Nat → A) : ∀ k, foldRanks g v 0 k = ((List.range k).map fun i => v (i + 1)).foldl g (v 0)
  | 0 => rfl
  | k + 1 => by
    rw [foldRanks, foldRanks_foldl g v k, List.range_succ, List.map_append, List.foldl_append, Nat.zero_add]; rfl

theorem iallColl_reduces (D : Dom T) (op : Op) (np : Nat) : Reduces D op np (iallColl D op np) := by
  intro okL _ s0 _
  have hst : ∀ p, stepAt ((iallColl D op np).prog p) 0 = some (iallStep D op np p) := fun p => rfl
  refine lockRun_of_isRun (D := fun l p => if l = 0 then s0 p else if p < np then reduceAll (gatherArray D op) s0 np else s0 p) (E := fun _ p => s0 p) ?_
  refine ⟨?_, ?_, ?_⟩
  · intro l hl p hp s hs
    obtain rfl : l = 0 := Nat.lt_one_iff.1 hl
    rw [hst] at hs; cases hs; rfl
  · intro l hl p hp s hs
    obtain rfl : l = 0 := Nat.lt_one_iff.1 hl
    rw [hst] at hs; cases hs
    refine ⟨(List.range np).map s0, ?_, ?_⟩
    · unfold gather
      show ((List.range np).map fun q => (q, q)).mapM _ = _
      rw [mapM_eq_map (g := fun x => s0 x.1)]
      · rw [List.map_map]; rfl
      · intro x hx
        obtain ⟨q, hq, rfl⟩ := List.mem_map.1 hx
        simp only [hst]
        rw [if_pos (List.mem_range.1 hq), if_pos]
        · rfl
        · exact List.mem_map.2 ⟨p, List.mem_range.2 hp, rfl⟩
    · have hnp : np = (np - 1) + 1 := by omega
      show (iallStep D op np p).post (s0 p) ((List.range np).map s0) = .ok (if (0 + 1 : Nat) = 0 then s0 p else if p < np then _ else _)
      rw [if_neg (by omega), if_pos hp]
      have hr : (List.range np).map s0 = s0 0 :: ((List.range (np - 1)).map fun i => s0 (i + 1)) := by
        conv_lhs => rw [hnp, List.range_succ_eq_map, List.map_cons, List.map_map]
        rfl
      rw [hr]
      show Outcome.ok _ = _
      unfold reduceAll
      rw [foldRanks_foldl]
  · intro l hl p hp
    obtain rfl : l = 0 := Nat.lt_one_iff.1 hl
    rcases hp with hp | hp
    · show (if (0 + 1 : Nat) = 0 then _ else _) = _
      rw [if_neg (by omega), if_neg (by omega)]; rfl
    · rw [hst] at hp; cases hp

theorem noColl_ok (np : Nat) : (⟨0, fun _ => []⟩ : Coll (List T) (List T)).Ok np where
  labels _ _ := List.Pairwise.nil
  bound _ _ s hs := by cases hs
  recvNodup _ _ s hs := by cases hs
  sendNodup _ _ s hs := by cases hs
  send _ _ s hs := by cases hs
  recv _ _ s hs := by cases hs

theorem opRun_idle {S : Type} (s : Nat → S) : OpRun np (fun _ => (idleStep : Step S (List T))) s s := ⟨s, fun _ _ => ⟨rfl, rfl⟩⟩

theorem opMatched_idle {S : Type} : OpMatched np (fun _ => (idleStep : Step S (List T))) := ⟨fun _ _ _ hy => absurd hy List.not_mem_nil, fun _ _ _ hy => absurd hy List.not_mem_nil⟩

/-- an operation computes the result of gs -/
theorem igs_run (R : Rep D op K f e) {ok : V → Prop} (M : CommMonoidOn ok f e) (hok : ∀ v, ok v → R.shp v) (hvn : K.vn ≠ 0) {h : Nat → GsData} (hh : Handles np ids h) (nbc : Bool)
    (hu : ∀ q, q < np → Usable nbc np (h q).r) (t : Bool) :
    OpMatched np (fun p => igsStep K D op nbc np t (h p) p) ∧
    ∀ (v : Nat → List V), (∀ q, q < np → (v q).length = (ids q).length) → (∀ q, q < np → ∀ x ∈ v q, ok x) → ∀ (s : Nat → GsSt U T), (∀ q, q < np → (s q).u = R.repU (v q)) →
      ∃ s', OpRun np (fun p => igsStep K D op nbc np t (h p) p) s s' ∧ ∀ q, q < np → (s' q).u = R.repU (gsResult t f e np ids v q) := by
  have key : ∀ (r : Nat → Remote) (ex : Coll (GsSt U T) (List T)) (st : Nat → Step (GsSt U T) (List T)), (∀ q, q < np → (h q).r = r q) → Exch R ok np ids t (fun q => (r q).bufferSize) ex →
      OpMatched np st → (∀ s s', ex.run np s = .ok s' → OpRun np st s s') →
      (∀ q, q < np → igsStep K D op nbc np t (h q) q = around (gsPre K (h q) t) (st q) (gsPost K (h q) t)) →
      OpMatched np (fun p => igsStep K D op nbc np t (h p) p) ∧
      ∀ (v : Nat → List V), (∀ q, q < np → (v q).length = (ids q).length) → (∀ q, q < np → ∀ x ∈ v q, ok x) → ∀ (s : Nat → GsSt U T), (∀ q, q < np → (s q).u = R.repU (v q)) →
        ∃ s', OpRun np (fun p => igsStep K D op nbc np t (h p) p) s s' ∧ ∀ q, q < np → (s' q).u = R.repU (gsResult t f e np ids v q) := by
    intro r ex st hr hex hm hst heq
    have hm1 : OpMatched np fun p => around (gsPre K (h p) t) (st p) (gsPost K (h p) t) := hm.around
    refine ⟨hm1.congr fun p hp => (heq p hp).symm, ?_⟩
    intro v hlen hv s hs
    let w : Nat → Nat → V := fun q k => (v q).getD k e
    have htab : ∀ q, q < np → tab (ids q).length (w q) = v q := by
      intro q hq
      rw [← hlen q hq]
      unfold tab
      apply List.ext_getElem
      · simp
      · intro k h1 h2
        simp [w, List.getD_eq_getElem?_getD, h2]
    have hw : ∀ q, q < np → ∀ k, ok (w q k) := by
      intro q hq k
      show ok ((v q).getD k e)
      rw [List.getD_eq_getElem?_getD]
      cases hk : (v q)[k]? with
      | none => exact M.okId
      | some x => exact hv q hq x (List.mem_of_getElem? hk)
    obtain ⟨s', e1, h1⟩ := gsAux_run R M hok hh.ids_ok t r hex w (fun q hq k => hok _ (hw q hq k)) (fun q hq k _ => hw q hq k) s (fun q hq => by rw [hs q hq, htab q hq])
    refine ⟨s', ?_, ?_⟩
    · have h2 := opRun_around hex.okc hst e1
      have hloc : ∀ p, p < np → localSetup (nzSpec (ids p)) (r p) = h p := by
        intro p hp
        rw [← hr p hp]; exact (hh.ok.loc p hp).symm
      have hm2 : OpMatched np fun p => around (gsPre K (localSetup (nzSpec (ids p)) (r p)) t) (st p) (gsPost K (localSetup (nzSpec (ids p)) (r p)) t) := hm.around
      refine h2.congr (fun p hp => ?_) hm2
      rw [heq p hp, hloc p hp]
    · intro q hq
      rw [h1 q hq]
      congr 1
      rw [← gsResult_congr (t := t) (f := f) (e := e) (ids := ids) htab hq]
      cases t with
      | false => exact tab_gsOut M w (fun q hq k _ => hw q hq k) q
      | true => exact tab_gsOutT M w (fun q hq k _ => hw q hq k) hq
  cases hh.ok.remote with
  | pairwise hr =>
    refine key (fun q => .pairwise (pwSpec np ids q)) (pwExec K (pwSpec np ids) t) (fun p => pwExecStep K (pwSpec np ids p) t p) hr (pwExec_exch R M hok hh.ids_ok hh.small t)
      (opMatched_of_ok (pwExec_ok K t)) (fun s s' h => opRun_of_run (fun _ => rfl) h) ?_
    intro q hq
    have : (h q).r = .pairwise (pwSpec np ids q) := hr q hq
    unfold igsStep
    rw [this]
  | crystal d hd hr =>
    refine ⟨⟨?_, ?_⟩, ?_⟩
    · intro p hp; exact absurd (hu p hp) (by rw [show (h p).r = _ from hr p hp]; exact id)
    · intro p hp; exact absurd (hu p hp) (by rw [show (h p).r = _ from hr p hp]; exact id)
    · intro v _ _ s _
      exact ⟨s, ⟨s, fun p hp => absurd (hu p hp) (by rw [show (h p).r = _ from hr p hp]; exact id)⟩, fun p hp => absurd (hu p hp) (by rw [show (h p).r = _ from hr p hp]; exact id)⟩
  | allreduce st ord total ho htot hst hr =>
    have htot' : ∀ q, q < np → (allreduceSetup (st q).pr (st q).total).total = total := fun q hq => (hst q hq).total_eq
    by_cases h0 : total = 0
    · -- nothing to reduce
      have hex := arExecWith_exch R M hok hh.ids_ok ho htot st hst t (fun q => (Remote.allreduce (allreduceSetup (st q).pr (st q).total)).bufferSize) (ac := ⟨0, fun _ => []⟩) (noColl_ok np) (by
        have := ar_comm (np := np) (total := total) R M hok
        unfold commAllreduce at this
        rw [if_pos (by rw [h0, Nat.mul_zero])] at this
        exact this)
      refine key (fun q => .allreduce (allreduceSetup (st q).pr (st q).total)) _ (fun p => around (arPre K D op (allreduceSetup (st p).pr (st p).total) t) idleStep (arPost K (allreduceSetup (st p).pr (st p).total) t)) hr hex
        opMatched_idle.around ?_ ?_
      · intro s s' hs
        refine opRun_around (F := fun p => arPre K D op (allreduceSetup (st p).pr (st p).total) t) (G := fun p => arPost K (allreduceSetup (st p).pr (st p).total) t) (Coll.lift_ok GsSt.arr GsSt.setArr (noColl_ok np)) ?_ hs
        intro s s' hs
        have hs : Outcome.ok s = Outcome.ok s' := hs
        cases hs
        exact opRun_idle s
      · intro q hq
        have h1 : (h q).r = .allreduce (allreduceSetup (st q).pr (st q).total) := hr q hq
        have h2 := hu q hq
        rw [h1] at h2
        have h2 : np ≤ 1 := by
          rcases h2 with h2 | h2
          · exact h2.1
          · exact absurd ((htot' q hq).trans h0) h2.2.2
        unfold igsStep
        rw [h1]
        show (if K.vn * (allreduceSetup (st q).pr (st q).total).total = 0 then _ else _) = _
        rw [if_pos (by rw [htot' q hq, h0, Nat.mul_zero]), if_pos h2]
    · have hex := arExecWith_exch R M hok hh.ids_ok ho htot st hst t (fun q => (Remote.allreduce (allreduceSetup (st q).pr (st q).total)).bufferSize) (iallColl_ok D op np) (by
        intro c hc s hs
        exact ar_comm_of R M hok (iallColl_reduces D op np) c hc s hs)
      refine key (fun q => .allreduce (allreduceSetup (st q).pr (st q).total)) _
        (fun p => around (arPre K D op (allreduceSetup (st p).pr (st p).total) t) ((iallStep D op np p).lift GsSt.arr GsSt.setArr) (arPost K (allreduceSetup (st p).pr (st p).total) t)) hr hex
        ((opMatched_of_ok (iallColl_ok D op np)).lift GsSt.arr GsSt.setArr).around ?_ ?_
      · intro s s' hs
        refine opRun_around (F := fun p => arPre K D op (allreduceSetup (st p).pr (st p).total) t) (G := fun p => arPost K (allreduceSetup (st p).pr (st p).total) t) (Coll.lift_ok GsSt.arr GsSt.setArr (iallColl_ok D op np)) ?_ hs
        intro s s' hs
        exact opRun_of_run (fun _ => rfl) hs
      · intro q hq
        have h1 : (h q).r = .allreduce (allreduceSetup (st q).pr (st q).total) := hr q hq
        have h2 := hu q hq
        rw [h1] at h2
        have h2 : nbc = true ∧ ¬ np ≤ 1 := by
          rcases h2 with h2 | h2
          · exact absurd ((htot' q hq).symm.trans h2.2) h0
          · exact ⟨h2.1, by have := h2.2.1; omega⟩
        unfold igsStep
        rw [h1]
        show (if K.vn * (allreduceSetup (st q).pr (st q).total).total = 0 then _ else _) = _
        rw [if_neg (by rw [htot' q hq]; exact Nat.mul_ne_zero hvn h0), if_pos h2.1, if_neg h2.2]

end Gslib.Gs
