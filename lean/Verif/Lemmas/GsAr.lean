import Verif.Lemmas.GsAux
import Verif.Props.Comm

/-! # The all-reduce exchange -/

namespace Gslib.Gs
open Gslib Gslib.Mpi Gslib.Spec Gslib.Props Gslib.Comm

variable {V T U : Type} {D : Dom T} {op : Op} {K : Kernels U T} {f : V → V → V} {e : V}
variable {np : Nat} {ids : Nat → List Int} {ord : Nat → Nat} {total : Nat}

theorem _root_.Gslib.Spec.CommMonoidOn.reduce_filter {ok : V → Prop} (M : CommMonoidOn ok f e) {A : Type} (P : A → Prop) [DecidablePred P] (g : A → V) : ∀ (l : List A), (∀ a ∈ l, P a → ok (g a)) →
    reduce f e (l.map fun a => if P a then g a else e) = reduce f e ((l.filter fun a => P a).map g)
  | [], _ => rfl
  | a :: l, h => by
    have ha := h a (by simp)
    have hl := fun b hb => h b (List.mem_cons_of_mem _ hb)
    have h1 : ∀ u ∈ l.map (fun a => if P a then g a else e), ok u := by
      intro u hu
      obtain ⟨b, hb, rfl⟩ := List.mem_map.1 hu
      split
      · rename_i hb'
        exact hl b hb hb'
      · exact M.okId
    have h2 : ∀ u ∈ (l.filter fun a => P a).map g, ok u := by
      intro u hu
      obtain ⟨b, hb, rfl⟩ := List.mem_map.1 hu
      exact hl b (List.mem_filter.1 hb).1 (of_decide_eq_true (List.mem_filter.1 hb).2)
    rw [List.map_cons, List.filter_cons]
    by_cases hp : P a
    · rw [if_pos hp, if_pos (by simpa using hp), List.map_cons, M.reduce_cons _ _ (ha hp) h1, M.reduce_cons _ _ (ha hp) h2, M.reduce_filter P g l hl]
    · rw [if_neg hp, if_neg (by simpa using hp), M.reduce_cons _ _ M.okId h1, M.idLeft _ (M.reduce_ok _ h1), M.reduce_filter P g l hl]

/-- a row is selected -/
def Sel (np : Nat) (ids : Nat → List Int) (b : Bool) (q a : Nat) : Prop := (∃ p, p < np ∧ Shared2 ids q p a) ∧ (b = true ∨ hasU (ids q) a)

/-- the ids selected, in the order of the rows -/
def selIds (b : Bool) (ids : List Int) (pr : List PrimaryShared) : List Nat := (pr.map PrimaryShared.id).filter fun a => b = true ∨ hasU ids a

theorem mem_selIds {q : Nat} {st : TopoSt} (h : TopoCore np ids ord total q st) (b : Bool) {a : Nat} : a ∈ selIds b (ids q) st.pr ↔ Sel np ids b q a := by
  unfold selIds Sel
  rw [List.mem_filter, List.mem_map, decide_eq_true_eq]
  constructor
  · rintro ⟨⟨x, hx, rfl⟩, h2⟩
    obtain ⟨a, ha, rfl⟩ := (h.mem_pr x).1 hx
    exact ⟨ha, h2⟩
  · rintro ⟨h1, h2⟩
    exact ⟨⟨_, (h.mem_pr _).2 ⟨a, h1, rfl⟩, rfl⟩, h2⟩

theorem selIds_nodup {q : Nat} {st : TopoSt} (h : TopoCore np ids ord total q st) (b : Bool) : (selIds b (ids q) st.pr).Nodup := by
  unfold selIds
  apply List.Nodup.filter
  show (st.pr.map PrimaryShared.id).Pairwise _
  rw [List.pairwise_map]
  refine h.pr_ne.imp_of_mem ?_
  intro x y hx hy hlt e1
  obtain ⟨a, _, rfl⟩ := (h.mem_pr x).1 hx
  obtain ⟨c, _, rfl⟩ := (h.mem_pr y).1 hy
  have : a = c := e1
  subst this
  exact hlt rfl

theorem allreduceMap_eq {q : Nat} {st : TopoSt} (h : TopoCore np ids ord total q st) (b toBuf : Bool) :
    allreduceMap st.pr (if b then 0 else 1) toBuf = encGroups ((selIds b (ids q) st.pr).map fun a => if toBuf then (prim (ids q) a, [ord a]) else (ord a, [prim (ids q) a])) := by
  unfold allreduceMap encGroups selIds
  congr 1
  have hm : ∀ x ∈ st.pr, ∃ a, x = ⟨a, ord a, prim (ids q) a, pflag (ids q) a⟩ := fun x hx => by
    obtain ⟨a, _, hx⟩ := (h.mem_pr x).1 hx
    exact ⟨a, hx⟩
  have hc : ∀ a, decide (pflag (ids q) a &&& (if b = true then 0 else 1) = 0) = decide (b = true ∨ hasU (ids q) a) := by
    intro a
    unfold pflag
    cases b <;> by_cases hu : hasU (ids q) a <;> simp [hu]
  generalize (if b = true then 0 else 1) = mk at hc ⊢
  generalize st.pr = l at hm
  induction l with
  | nil => rfl
  | cons x l ih =>
    obtain ⟨a, rfl⟩ := hm x (by simp)
    have ih := ih (fun y hy => hm y (by simp [hy]))
    rw [List.filter_cons, List.map_cons, List.filter_cons]
    simp only [hc]
    by_cases hs : b = true ∨ hasU (ids q) a
    · rw [if_pos (by simpa using hs), if_pos (by simpa using hs), List.flatMap_cons, List.map_cons, List.flatMap_cons, ih]
      cases toBuf <;> rfl
    · rw [if_neg (by simpa using hs), if_neg (by simpa using hs), ih]

theorem Sel.isShared {b : Bool} {q a : Nat} (hq : q < np) (h : Sel np ids b q a) : IsShared np ids a := by
  obtain ⟨⟨p, hp, hs⟩, _⟩ := h
  exact ⟨q, p, hq, hp, hs⟩

theorem Sel.has {b : Bool} {q a : Nat} (h : Sel np ids b q a) : has (ids q) a := by
  obtain ⟨⟨p, hp, hs⟩, _⟩ := h
  exact hs.2.1

theorem ar_groups_ok {q : Nat} {st : TopoSt} (hq : q < np) (hi : ∀ q, q < np → IdsOk (ids q)) (ho : OrdOk np ids ord total) (ht : total ≤ 4294967295) (h : TopoCore np ids ord total q st) (b toBuf : Bool) :
    ∀ g ∈ (selIds b (ids q) st.pr).map fun a => if toBuf then (prim (ids q) a, [ord a]) else (ord a, [prim (ids q) a]), GroupOk g := by
  intro g hg
  obtain ⟨a, ha, rfl⟩ := List.mem_map.1 hg
  have hs := (mem_selIds h b).1 ha
  have h1 := ho.lt a (hs.isShared hq)
  have h2 := prim_lt_length hs.has
  have h3 := (hi q hq).len
  cases toBuf <;> constructor <;> simp [uintMax] <;> omega

/-- filling the array -/
theorem ar_fill {q : Nat} {st : TopoSt} (hq : q < np) (ho : OrdOk np ids ord total) (h : TopoCore np ids ord total q st) (b : Bool) (w : Nat → V) (x : V) :
    ∃ c : Nat → V, ((selIds b (ids q) st.pr).map fun a => if true then (prim (ids q) a, [ord a]) else (ord a, [prim (ids q) a])).foldlM (sstep (fun _ k => ldAt (tab (ids q).length w) k) stAt) (List.replicate total x) = some (tab total c) ∧
      (∀ a, Sel np ids b q a → c (ord a) = w (prim (ids q) a)) ∧ ∀ o, (∀ a, Sel np ids b q a → ord a ≠ o) → c o = x := by
  have hrep : List.replicate total x = tab total (fun _ => x) := by
    unfold tab
    rw [List.map_const', List.length_range]
  rw [hrep]
  obtain ⟨c, e1, h1, h2⟩ := scatter_run total (fun _ k => ldAt (tab (ids q).length w) k) w (fun _ => True) ((selIds b (ids q) st.pr).map fun a => if true then (prim (ids q) a, [ord a]) else (ord a, [prim (ids q) a])) (fun _ => x) (by
      rw [List.pairwise_map]
      refine (selIds_nodup h b).imp_of_mem ?_
      intro a a' ha ha' hne j hj hj'
      simp only [if_true, List.mem_singleton] at hj hj'
      exact hne (ho.inj a a' (((mem_selIds h b).1 ha).isShared hq) (((mem_selIds h b).1 ha').isShared hq) (hj ▸ hj'))) (by
      intro g hg j hj
      obtain ⟨a, ha, rfl⟩ := List.mem_map.1 hg
      simp only [if_true, List.mem_singleton] at hj
      subst hj
      exact ⟨ho.lt a (((mem_selIds h b).1 ha).isShared hq), trivial⟩) (by
      intro w' _ g hg
      obtain ⟨a, ha, rfl⟩ := List.mem_map.1 hg
      exact ld_tab (prim_lt_length ((mem_selIds h b).1 ha).has))
  refine ⟨c, e1, ?_, ?_⟩
  · intro a ha
    exact h1 (prim (ids q) a, [ord a]) (List.mem_map.2 ⟨a, (mem_selIds h b).2 ha, rfl⟩) (ord a) (by simp)
  · intro o hall
    apply h2
    intro g hg hm
    obtain ⟨a, ha, rfl⟩ := List.mem_map.1 hg
    simp only [if_true, List.mem_singleton] at hm
    exact hall a ((mem_selIds h b).1 ha) hm.symm

/-- reading the array -/
theorem ar_read {q : Nat} {st : TopoSt} (hq : q < np) (ho : OrdOk np ids ord total) (h : TopoCore np ids ord total q st) (b : Bool) (w c : Nat → V) :
    ∃ w' : Nat → V, ((selIds b (ids q) st.pr).map fun a => if false then (prim (ids q) a, [ord a]) else (ord a, [prim (ids q) a])).foldlM (sstep (fun _ k => ldAt (tab total c) k) stAt) (tab (ids q).length w) = some (tab (ids q).length w') ∧
      (∀ a, Sel np ids b q a → w' (prim (ids q) a) = c (ord a)) ∧ ∀ k, (∀ a, Sel np ids b q a → k ≠ prim (ids q) a) → w' k = w k := by
  obtain ⟨w', e1, h1, h2⟩ := scatter_run (ids q).length (fun _ k => ldAt (tab total c) k) c (fun _ => True) ((selIds b (ids q) st.pr).map fun a => if false then (prim (ids q) a, [ord a]) else (ord a, [prim (ids q) a])) w (by
      rw [List.pairwise_map]
      refine (selIds_nodup h b).imp_of_mem ?_
      intro a a' ha ha' hne j hj hj'
      simp only [Bool.false_eq_true, if_false, List.mem_singleton] at hj hj'
      exact hne (prim_inj ((mem_selIds h b).1 ha).has ((mem_selIds h b).1 ha').has (hj ▸ hj'))) (by
      intro g hg j hj
      obtain ⟨a, ha, rfl⟩ := List.mem_map.1 hg
      simp only [Bool.false_eq_true, if_false, List.mem_singleton] at hj
      subst hj
      exact ⟨prim_lt_length ((mem_selIds h b).1 ha).has, trivial⟩) (by
      intro w' _ g hg
      obtain ⟨a, ha, rfl⟩ := List.mem_map.1 hg
      exact ld_tab (ho.lt a (((mem_selIds h b).1 ha).isShared hq)))
  refine ⟨w', e1, ?_, ?_⟩
  · intro a ha
    exact h1 (ord a, [prim (ids q) a]) (List.mem_map.2 ⟨a, (mem_selIds h b).2 ha, rfl⟩) (prim (ids q) a) (by simp)
  · intro k hall
    apply h2
    intro g hg hm
    obtain ⟨a, ha, rfl⟩ := List.mem_map.1 hg
    simp only [Bool.false_eq_true, if_false, List.mem_singleton] at hm
    exact hall a ((mem_selIds h b).1 ha) hm

theorem zipWith_tab (g : V → V → V) (n : Nat) (x y : Nat → V) : List.zipWith g (tab n x) (tab n y) = tab n fun k => g (x k) (y k) := by
  unfold tab
  rw [List.zipWith_map, List.zipWith_self]

theorem foldRanks_reduce {ok : V → Prop} (M : CommMonoidOn ok f e) (v : Nat → V) : ∀ (k : Nat), (∀ q, q ≤ k → ok (v q)) → foldRanks f v 0 k = reduce f e ((List.range (k + 1)).map v)
  | 0, h => by
    show v 0 = f e (v 0)
    rw [M.idLeft _ (h 0 (le_refl _))]
  | k + 1, h => by
    rw [foldRanks, foldRanks_reduce M v k (fun q hq => h q (by omega)), List.range_succ (n := k + 1), List.map_append, List.map_singleton]
    unfold reduce
    rw [List.foldl_append, Nat.zero_add]; rfl

/-- `ac` leaves the reduction of the arrays on all processes -/
def Reduces (D : Dom T) (op : Op) (np : Nat) (ac : Coll (List T) (List T)) : Prop :=
  ∀ okL : List T → Prop, AssocOn okL (gatherArray D op) → ∀ s0 : Nat → List T, (∀ p, p < np → okL (s0 p)) →
    ac.run np s0 = .ok fun p => if p < np then reduceAll (gatherArray D op) s0 np else s0 p

/-- all processes hold the reduction -/
theorem ar_comm_of (R : Rep D op K f e) {ok : V → Prop} (M : CommMonoidOn ok f e) (hok : ∀ v, ok v → R.shp v) {ac : Coll (List T) (List T)} (hac : Reduces D op np ac)
    (c : Nat → Nat → V) (hc : ∀ q, q < np → ∀ o, o < total → ok (c q o)) (s : Nat → List T) (hs : ∀ q, q < np → s q = (tab total (c q)).flatMap R.repV) :
    ∃ s', ac.run np s = .ok s' ∧ ∀ q, q < np → s' q = (tab total fun o => reduce f e ((List.range np).map fun p => c p o)).flatMap R.repV := by
  have hokt : ∀ x : Nat → V, (∀ o, o < total → ok (x o)) → ∀ v ∈ tab total x, R.shp v := by
    intro x hx v hv
    obtain ⟨o, ho, rfl⟩ := List.mem_map.1 hv
    exact hok _ (hx o (List.mem_range.1 ho))
  let okL : List T → Prop := fun l => ∃ x : Nat → V, (∀ o, o < total → ok (x o)) ∧ l = (tab total x).flatMap R.repV
  have hcomb : ∀ x y : Nat → V, (∀ o, o < total → ok (x o)) → (∀ o, o < total → ok (y o)) →
      gatherArray D op ((tab total x).flatMap R.repV) ((tab total y).flatMap R.repV) = (tab total fun o => f (x o) (y o)).flatMap R.repV := by
    intro x y hx hy
    rw [R.comb _ _ (hokt x hx) (hokt y hy) (by rw [tab_length, tab_length]), zipWith_tab]
  have hassoc : AssocOn okL (gatherArray D op) := by
    constructor
    · rintro a b ⟨x, hx, rfl⟩ ⟨y, hy, rfl⟩
      exact ⟨fun o => f (x o) (y o), fun o ho => M.closed _ _ (hx o ho) (hy o ho), hcomb x y hx hy⟩
    · rintro a b d ⟨x, hx, rfl⟩ ⟨y, hy, rfl⟩ ⟨z, hz, rfl⟩
      rw [hcomb x y hx hy, hcomb y z hy hz, hcomb _ z (fun o ho => M.closed _ _ (hx o ho) (hy o ho)) hz, hcomb x _ hx (fun o ho => M.closed _ _ (hy o ho) (hz o ho))]
      congr 1
      apply tab_congr
      intro o ho
      exact M.assoc _ _ _ (hx o ho) (hy o ho) (hz o ho)
  refine ⟨_, hac okL hassoc s (fun p hp => ⟨c p, hc p hp, hs p hp⟩), ?_⟩
  intro q hq
  beta_reduce
  rw [if_pos hq]
  have key : ∀ k, k < np → foldRanks (gatherArray D op) s 0 k = (tab total fun o => foldRanks f (fun p => c p o) 0 k).flatMap R.repV := by
    intro k
    induction k with
    | zero => intro hk; exact hs 0 hk
    | succ k ih =>
      intro hk
      rw [foldRanks, ih (by omega), Nat.zero_add, hs (k + 1) hk, hcomb]
      · congr 1
        apply tab_congr
        intro o ho
        rw [foldRanks, Nat.zero_add]
      · intro o ho
        rw [foldRanks_reduce M _ k (fun q hq => hc q (by omega) o ho)]
        apply M.reduce_ok
        intro v hv
        obtain ⟨p, hp, rfl⟩ := List.mem_map.1 hv
        exact hc p (by have := List.mem_range.1 hp; omega) o ho
      · exact hc (k + 1) hk
  unfold reduceAll
  rw [key (np - 1) (by omega)]
  congr 1
  apply tab_congr
  intro o ho
  rw [foldRanks_reduce M _ (np - 1) (fun q hq => hc q (by omega) o ho), Nat.sub_add_cancel (by omega)]

/-- what the exchange needs of the reduction -/
def ArComm (R : Rep D op K f e) (ok : V → Prop) (np total : Nat) (ac : Coll (List T) (List T)) : Prop :=
  ∀ (c : Nat → Nat → V), (∀ q, q < np → ∀ o, o < total → ok (c q o)) → ∀ (s : Nat → List T), (∀ q, q < np → s q = (tab total (c q)).flatMap R.repV) →
    ∃ s', ac.run np s = .ok s' ∧ ∀ q, q < np → s' q = (tab total fun o => reduce f e ((List.range np).map fun p => c p o)).flatMap R.repV

/-- comm_allreduce: all processes hold the reduction -/
theorem ar_comm (R : Rep D op K f e) {ok : V → Prop} (M : CommMonoidOn ok f e) (hok : ∀ v, ok v → R.shp v) : ArComm R ok np total (commAllreduce D op (K.vn * total) np) := by
  intro c hc s hs
  have hokt : ∀ x : Nat → V, (∀ o, o < total → ok (x o)) → ∀ v ∈ tab total x, R.shp v := by
    intro x hx v hv
    obtain ⟨o, ho, rfl⟩ := List.mem_map.1 hv
    exact hok _ (hx o (List.mem_range.1 ho))
  have hred : ∀ o, o < total → ok (reduce f e ((List.range np).map fun p => c p o)) := by
    intro o ho
    apply M.reduce_ok
    intro v hv
    obtain ⟨p, hp, rfl⟩ := List.mem_map.1 hv
    exact hc p (List.mem_range.1 hp) o ho
  unfold commAllreduce
  split
  · rename_i h0
    refine ⟨s, rfl, ?_⟩
    intro q hq
    rw [hs q hq]
    have h1 : ((tab total (c q)).flatMap R.repV).length = 0 := by rw [R.flat_len (hokt _ (hc q hq)), tab_length, h0]
    have h2 : ((tab total fun o => reduce f e ((List.range np).map fun p => c p o)).flatMap R.repV).length = 0 := by rw [R.flat_len (hokt _ hred), tab_length, h0]
    rw [List.length_eq_zero_iff.1 h1, List.length_eq_zero_iff.1 h2]
  · exact ar_comm_of R M hok (fun okL ha s0 h => allreduce_run D op ha np s0 h) c hc s hs

theorem setArr_lens : Lens (S := GsSt U T) GsSt.arr GsSt.setArr := ⟨fun _ _ => rfl, fun _ => rfl, fun _ _ _ => rfl⟩

/-- the all-reduce exchange reduces over the processes -/
theorem arExecWith_exch (R : Rep D op K f e) {ok : V → Prop} (M : CommMonoidOn ok f e) (hok : ∀ v, ok v → R.shp v) (hi : ∀ q, q < np → IdsOk (ids q))
    (ho : OrdOk np ids ord total) (htot : total ≤ 4294967295) (st : Nat → TopoSt) (h : ∀ q, q < np → TopoCore np ids ord total q (st q)) (t : Bool) (m : Nat → Nat)
    {ac : Coll (List T) (List T)} (hacok : ac.Ok np) (hac : ArComm R ok np total ac) :
    Exch R ok np ids t m (arExecWith K D op ac (fun q => allreduceSetup (st q).pr (st q).total) t) := by
  have hok1 : (Coll.loc (fun id => arPre K D op (allreduceSetup (st id).pr (st id).total) t) ([] : List T)).Ok np := Coll.loc_ok _ _ _
  have hok2 : (ac.lift GsSt.arr (GsSt.setArr (U := U))).Ok np := Coll.lift_ok _ _ hacok
  refine ⟨Coll.seq_ok (Coll.seq_ok hok1 hok2) (Coll.loc_ok _ _ _), ?_⟩
  intro w s hsw hw he hs
  have htabok : ∀ q, q < np → ∀ v ∈ tab (ids q).length (w q), R.shp v := by
    intro q hq v hv
    obtain ⟨k, _, rfl⟩ := List.mem_map.1 hv
    exact hsw q hq k
  haveI : Nonempty V := ⟨e⟩
  have hfill := fun q (hq : q < np) => ar_fill hq ho (h q hq) t (w q) e
  choose! c hc1 hc2 hc3 using hfill
  have hcok : ∀ q, q < np → ∀ o, ok (c q o) := by
    intro q hq o
    by_cases hex : ∃ a, Sel np ids t q a ∧ ord a = o
    · obtain ⟨a, ha, rfl⟩ := hex
      rw [hc2 q hq a ha]; exact hw q hq a ha.has
    · rw [hc3 q hq o (fun a ha e1 => hex ⟨a, ha, e1⟩)]; exact M.okId
  have hpre : ∀ q, q < np → arPre K D op (allreduceSetup (st q).pr (st q).total) t (s q) = .ok ((s q).setArr ((tab total (c q)).flatMap R.repV)) := by
    intro q hq
    have h1 := R.toBuf _ _ (List.replicate total e) _ [] (htabok q hq) (by
      intro v hv
      rw [(List.mem_replicate.1 hv).2]; exact R.shpE) (ar_groups_ok hq hi ho htot (h q hq) t true) (hc1 q hq)
    rw [← allreduceMap_eq (h q hq) t true, List.append_nil, List.append_nil, ← R.initBuf, ← (hs q hq).u] at h1
    have h2 : (allreduceSetup (st q).pr (st q).total).mapTo t = allreduceMap (st q).pr (if t then 0 else 1) true := by cases t <;> rfl
    unfold arPre
    rw [h2]
    show Outcome.ofOption ((K.toBuf _ (s q).u (initArray D op (K.vn * (st q).total))).bind _) = _
    rw [(h q hq).total_eq, h1]; rfl
  let s1 : Nat → GsSt U T := fun q => if q < np then (s q).setArr ((tab total (c q)).flatMap R.repV) else s q
  obtain ⟨s2, hrun2, hs2⟩ := hac c (fun q hq o _ => hcok q hq o) (fun q => (s1 q).arr) (fun q hq => by simp only [s1, if_pos hq, GsSt.setArr])
  have hread := fun q (hq : q < np) => ar_read hq ho (h q hq) (!t) (w q) (fun o => reduce f e ((List.range np).map fun p => c p o))
  choose! w' hr1 hr2 hr3 using hread
  let s3 : Nat → GsSt U T := putAll GsSt.setArr np s1 s2
  have hs3 : ∀ q, q < np → s3 q = (s q).setArr (s2 q) := by
    intro q hq
    simp only [s3, putAll, if_pos hq, s1]; rfl
  refine ⟨w', fun q => if q < np then { s3 q with u := R.repU (tab (ids q).length (w' q)) } else s3 q, ?_, ?_⟩
  · unfold arExecWith
    rw [Coll.seq_run (Coll.seq_ok hok1 hok2), Coll.seq_run hok1, Coll.loc_run_ok (g := fun q => (s q).setArr ((tab total (c q)).flatMap R.repV)) hpre]
    show ((Coll.run _ np s1).bind _) = _
    rw [Coll.lift_run setArr_lens _ np s1 (fun q => (s1 q).arr) (fun _ _ => rfl), hrun2]
    show Coll.run _ np s3 = _
    rw [Coll.loc_run_ok (g := fun q => { s3 q with u := R.repU (tab (ids q).length (w' q)) })]
    intro q hq
    have h1 := R.fromBuf _ _ (tab total fun o => reduce f e ((List.range np).map fun p => c p o)) _ [] (htabok q hq) (by
      intro v hv
      obtain ⟨o, _, rfl⟩ := List.mem_map.1 hv
      refine hok _ (M.reduce_ok _ ?_)
      intro v hv
      obtain ⟨p, hp, rfl⟩ := List.mem_map.1 hv
      exact hcok p (List.mem_range.1 hp) o) (ar_groups_ok hq hi ho htot (h q hq) (!t) false) (hr1 q hq)
    rw [← allreduceMap_eq (h q hq) (!t) false, List.append_nil, ← (hs q hq).u] at h1
    have h2 : (allreduceSetup (st q).pr (st q).total).mapFrom t = allreduceMap (st q).pr (if (!t) then 0 else 1) false := by cases t <;> rfl
    unfold arPost
    rw [h2, hs3 q hq]
    show Outcome.ofOption ((K.fromBuf _ (s2 q) (s q).u).bind _) = _
    rw [hs2 q hq, h1]; rfl
  · intro q hq
    beta_reduce
    rw [if_pos hq]
    refine ⟨rfl, ?_, ?_⟩
    · intro a ha
      by_cases hcase : t = true ∧ ¬ hasU (ids q) a
      · rw [if_pos hcase]
        apply hr3 q hq
        intro b hb hkb
        have := prim_inj ha hb.has hkb
        subst this
        rcases hb.2 with h5 | h5
        · rw [hcase.1] at h5; cases h5
        · exact hcase.2 h5
      · rw [if_neg hcase]
        have hsel : (!t) = true ∨ hasU (ids q) a := by
          cases t
          · exact Or.inl rfl
          · right
            by_contra hn
            exact hcase ⟨rfl, hn⟩
        by_cases hsh : ∃ p, p < np ∧ Shared2 ids q p a
        · have hS : Sel np ids (!t) q a := ⟨hsh, hsel⟩
          have hIs := hS.isShared hq
          rw [hr2 q hq a hS]
          have hco : ∀ p, p < np → c p (ord a) = if Contrib t (ids p) a then w p (prim (ids p) a) else e := by
            intro p hp
            by_cases hcp : Contrib t (ids p) a
            · rw [if_pos hcp]
              apply hc2 p hp
              refine ⟨?_, ?_⟩
              · by_cases hpq : p = q
                · subst hpq; exact hsh
                · refine ⟨q, hq, fun h => hpq h.symm, hcp.has, ha, ?_⟩
                  cases t
                  · exact Or.inl hcp
                  · rcases hsel with h6 | h6
                    · cases h6
                    · exact Or.inr h6
              · cases t
                · exact Or.inr hcp
                · exact Or.inl rfl
            · rw [if_neg hcp]
              apply hc3 p hp
              intro b hb hab
              have := ho.inj b a (hb.isShared hp) hIs hab
              subst this
              apply hcp
              cases t
              · rcases hb.2 with h6 | h6
                · cases h6
                · exact h6
              · exact hb.has
          rw [List.map_congr_left (g := fun p => if Contrib t (ids p) a then w p (prim (ids p) a) else e) (fun p hp => hco p (List.mem_range.1 hp)),
            M.reduce_filter (fun p => Contrib t (ids p) a) (fun p => w p (prim (ids p) a)) _ (fun p hp hcp => hw p (List.mem_range.1 hp) a hcp.has)]
          rfl
        · have hun : w' q (prim (ids q) a) = w q (prim (ids q) a) := by
            apply hr3 q hq
            intro b hb hkb
            have := prim_inj ha hb.has hkb
            subst this
            exact hsh hb.1
          rw [hun]
          have hsub : ∀ p, p < np → Contrib t (ids p) a → p = q := by
            intro p hp hcp
            by_contra hpq
            refine hsh ⟨p, hp, hpq, ha, hcp.has, ?_⟩
            cases t
            · exact Or.inr hcp
            · rcases hsel with h6 | h6
              · cases h6
              · exact Or.inl h6
          by_cases hcq : Contrib t (ids q) a
          · have : contrib t np ids a = [q] := by
              apply List.perm_singleton.1
              rw [List.perm_ext_iff_of_nodup (show (contrib t np ids a).Nodup from List.nodup_range.filter _) (List.nodup_singleton q)]
              intro p
              rw [List.mem_singleton]
              constructor
              · intro hp
                have := mem_contrib.1 hp
                exact hsub p this.1 this.2
              · rintro rfl
                exact mem_contrib.2 ⟨hq, hcq⟩
            rw [this]
            show _ = f e _
            rw [M.idLeft _ (hw q hq a ha)]
          · have : contrib t np ids a = [] := by
              rw [List.eq_nil_iff_forall_not_mem]
              intro p hp
              have := mem_contrib.1 hp
              have h7 := hsub p this.1 this.2
              rw [h7] at this
              exact hcq this.2
            rw [this]
            cases t
            · exact he rfl q hq a ha hcq
            · exact absurd ha hcq
    · intro k hk
      apply hr3 q hq
      intro a ha hka
      exact hk ⟨a, ha.has, hka⟩

/-- allreduce_exec reduces over the processes -/
theorem arExec_exch (R : Rep D op K f e) {ok : V → Prop} (M : CommMonoidOn ok f e) (hok : ∀ v, ok v → R.shp v) (hi : ∀ q, q < np → IdsOk (ids q))
    (ho : OrdOk np ids ord total) (htot : total ≤ 4294967295) (st : Nat → TopoSt) (h : ∀ q, q < np → TopoCore np ids ord total q (st q)) (t : Bool) (m : Nat → Nat) :
    Exch R ok np ids t m (arExec K D op np total (fun q => allreduceSetup (st q).pr (st q).total) t) :=
  arExecWith_exch R M hok hi ho htot st h t m (comm_tree_matching D op _ np).1 (ar_comm R M hok)

end Gslib.Gs
