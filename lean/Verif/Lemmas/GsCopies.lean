import Verif.Lemmas.GsIndep
import Verif.Spec.GsCopies
import Verif.Lemmas.CommBits

/-!
# Copies of one value: equal on one process, and on all processes with the all-reduce method
-/

namespace Gslib.Gs
open Gslib Gslib.Mpi Gslib.Spec Gslib.Comm

variable {V T U : Type} {D : Dom T} {op : Op} {K : Kernels U T} {f : V → V → V} {e : V}
variable {np : Nat} {ids : Nat → List Int}

/-- user data of the right size can be decoded; `scatter` and `fromBuf` do not change the size -/
structure DecU (R : Rep D op K f e) (P : Nat → U → Prop) : Prop where
  dec : ∀ n u, P n u → ∃ x : List V, x.length = n ∧ (∀ v ∈ x, R.shp v) ∧ u = R.repU x
  scatter : ∀ n m u u', K.scatter m u = some u' → P n u' → P n u
  fromBuf : ∀ n m b u u', K.fromBuf m b u = some u' → P n u' → P n u

theorem list_tab (x : List V) (e : V) : x = tab x.length fun k => x.getD k e := by
  unfold tab
  apply List.ext_getElem
  · simp
  · intro k h1 h2
    simp [List.getD_eq_getElem?_getD, h1]

theorem DecU.tab {R : Rep D op K f e} {P : Nat → U → Prop} (h : DecU R P) {n : Nat} {u : U} (hu : P n u) : ∃ w : Nat → V, (∀ k, R.shp (w k)) ∧ u = R.repU (tab n w) := by
  obtain ⟨x, hl, hs, rfl⟩ := h.dec n u hu
  refine ⟨fun k => x.getD k e, fun k => ?_, by rw [← hl, ← list_tab x e]⟩
  beta_reduce
  rw [List.getD_eq_getElem?_getD]
  cases hk : x[k]? with
  | none => exact R.shpE
  | some y => exact hs y (List.mem_of_getElem? hk)

theorem plain_decU (D : Dom T) (op : Op) : DecU (plainRep D op) fun n u => u.length = n where
  dec n u h := ⟨u, h, fun _ _ => trivial, rfl⟩
  scatter n m u u' h hu := (scatterLoop_len (fun _ _ _ _ => stAt_len) h).symm.trans hu
  fromBuf n m b u u' h hu := (scatterLoop_len (fun _ _ _ _ => stAt_len) h).symm.trans hu

theorem units_dec (vn : Nat) : ∀ (n : Nat) (u : List T), u.length = n * vn → ∃ x : List (List T), x.length = n ∧ Units vn x ∧ u = x.flatten
  | 0, u, h => ⟨[], rfl, by rintro v ⟨⟩, by
      have : u.length = 0 := by simpa using h
      rw [List.length_eq_zero_iff.1 this]; rfl⟩
  | n + 1, u, h => by
    rw [Nat.add_mul, Nat.one_mul] at h
    obtain ⟨x, hl, hu, he⟩ := units_dec vn n (u.drop vn) (by rw [List.length_drop]; omega)
    refine ⟨u.take vn :: x, by simp [hl], ?_, by rw [List.flatten_cons, ← he, List.take_append_drop]⟩
    intro v hv
    rcases List.mem_cons.1 hv with rfl | hv
    · rw [List.length_take]; omega
    · exact hu v hv

theorem vec_decU (D : Dom T) (op : Op) (vn : Nat) : DecU (vecRep D op vn) fun n u => u.length = n * vn where
  dec n u h := units_dec vn n u h
  scatter n m u u' h hu := (scatterLoop_len (fun _ _ _ _ => stVec_len) h).symm.trans hu
  fromBuf n m b u u' h hu := (scatterLoop_len (fun _ _ _ _ => stVec_len) h).symm.trans hu

theorem mapM_lens {g : List T → Option (List T)} (hg : ∀ x y, g x = some y → y.length = x.length) : ∀ (u u' : List (List T)), u.mapM g = some u' → u'.map List.length = u.map List.length
  | [], u', h => by
    obtain rfl := Option.some.inj h; rfl
  | a :: u, u', h => by
    rw [List.mapM_cons] at h
    obtain ⟨y, hy, h⟩ := Option.bind_eq_some_iff.1 h
    obtain ⟨ys, hys, h⟩ := Option.bind_eq_some_iff.1 h
    obtain rfl := Option.some.inj h
    rw [List.map_cons, List.map_cons, mapM_lens hg u ys hys, hg _ _ hy]

theorem vecToMany_lens {vn : Nat} {m : List Nat} {b : List T} : ∀ (u : List (List T)) (k : Nat) (u' : List (List T)), vecToMany vn m b k u = some u' → u'.map List.length = u.map List.length
  | [], _, u', h => by
    obtain rfl := Option.some.inj h; rfl
  | a :: u, k, u', h => by
    rw [vecToMany] at h
    obtain ⟨y, hy, h⟩ := Option.bind_eq_some_iff.1 h
    obtain ⟨ys, hys, h⟩ := Option.bind_eq_some_iff.1 h
    obtain rfl := Option.some.inj h
    rw [List.map_cons, List.map_cons, vecToMany_lens u _ ys hys, scatterLoop_len (fun _ _ _ _ => stAt_len) hy]

theorem many_decU (D : Dom T) (op : Op) (vn : Nat) : DecU (manyRep D op vn) fun n u => u.map List.length = List.replicate vn n where
  dec n u h := by
    have hl : u.length = vn := by simpa using congrArg List.length h
    have ha : ∀ k, (hk : k < u.length) → u[k].length = n := by
      intro k hk
      have : (u.map List.length)[k]'(by simpa using hk) = n := by
        simp only [h, List.getElem_replicate]
      simpa using this
    refine ⟨(List.range n).map fun i => (List.range vn).map fun k => (u.getD k []).getD i (D.identity op), by simp, ?_, ?_⟩
    · intro v hv
      obtain ⟨i, -, rfl⟩ := List.mem_map.1 hv
      show List.length _ = vn
      simp
    · show u = (List.range vn).map fun k => compK (D.identity op) k _
      apply List.ext_getElem
      · simp [hl]
      · intro k h1 h2
        rw [List.getElem_map, List.getElem_range]
        unfold compK
        apply List.ext_getElem
        · rw [ha k h1]; simp
        · intro i h3 h4
          have : k < vn := by omega
          simp [this, h1, List.getD_eq_getElem?_getD, h3]
  scatter n m u u' h hu := (mapM_lens (fun x y hxy => scatterLoop_len (fun _ _ _ _ => stAt_len) hxy) _ _ h).symm.trans hu
  fromBuf n m b u u' h hu := (vecToMany_lens _ _ _ h).symm.trans hu

theorem mem_mem' {t : Bool} {ids : List Int} {a k : Nat} : k ∈ mem' t ids a ∧ a ≠ 0 ↔ Receives t ids a k := by
  unfold mem' Receives
  cases t with
  | true =>
    simp only [if_true]
    rw [mem_unflIdx, and_comm]
    refine and_congr_right fun h0 => ?_
    unfold idAt
    constructor
    · rintro ⟨hk, hx⟩
      exact ⟨ids[k], List.getElem?_eq_getElem hk, by rw [List.getD_eq_getElem _ _ hk] at hx; exact hx⟩
    · rintro ⟨x, hx, rfl⟩
      obtain ⟨hk, hx⟩ := List.getElem?_eq_some_iff.1 hx
      exact ⟨hk, by rw [List.getD_eq_getElem _ _ hk]; exact hx⟩
  | false =>
    simp only [Bool.false_eq_true, if_false]
    rw [mem_grp', and_comm]
    refine and_congr_right fun h0 => ?_
    unfold absAt idAt
    constructor
    · rintro ⟨h1, h2⟩
      have hk : k < ids.length := by
        by_contra hk
        rw [List.getD_eq_default _ _ (by omega)] at h2
        exact h1 h2.symm
      exact ⟨ids[k], List.getElem?_eq_getElem hk, by rw [List.getD_eq_getElem _ _ hk] at h2; exact h2⟩
    · rintro ⟨x, hx, hxa⟩
      rw [List.getD_eq_getElem?_getD, hx]
      exact ⟨h0, hxa⟩

/-- the last step of gs copies the value of the first entry with an id to the other ones -/
theorem gsPost_copies (R : Rep D op K f e) {i : List Int} (hi : IdsOk i) {r : Remote} {t : Bool} {s s' : GsSt U T} {w : Nat → V} (hw : ∀ k, R.shp (w k)) (hs : s.u = R.repU (tab i.length w))
    (h : gsPost K (localSetup (nzSpec i) r) t s = .ok s') :
    ∃ w4 : Nat → V, s'.u = R.repU (tab i.length w4) ∧ (∀ k, k < i.length → R.shp (w4 k)) ∧ ∀ a, ∀ k, Receives t i a k → k < i.length ∧ w4 k = w (prim i a) := by
  obtain ⟨w4, h4, h5, h6⟩ := local_scatter_run t i w
  have hsc := R.scatter _ (tab i.length w) _ (by
    intro v hv
    obtain ⟨k, hk, rfl⟩ := List.mem_map.1 hv
    exact hw k) (fun g hg => (localGroups_ok t hi g hg).1) h4
  rw [← localMap_spec, ← hs] at hsc
  unfold gsPost at h
  have h' : Outcome.ofOption ((K.scatter (localMap (!!t) (nzSpec i)) s.u).bind fun u => some { s with u := u }) = .ok s' := h
  rw [Bool.not_not, hsc] at h'
  obtain rfl := Outcome.ok.inj h'
  have hval : ∀ k, ∃ j, w4 k = w j := by
    intro k
    by_cases hk : ∃ a, has i a ∧ k ∈ (mem' t i a).tail
    · obtain ⟨a, ha, hk⟩ := hk
      exact ⟨_, h5 a ha k (List.mem_of_mem_tail hk)⟩
    · exact ⟨k, h6 k fun a ha hm => hk ⟨a, ha, hm⟩⟩
  refine ⟨w4, rfl, fun k _ => by obtain ⟨j, hj⟩ := hval k; rw [hj]; exact hw j, ?_⟩
  intro a k hk
  obtain ⟨hm, h0⟩ := mem_mem'.2 hk
  have hg := mem_grp'.1 (mem'_sub h0 hm)
  have ha : has i a := by rw [← hg.2]; exact has_absAt (by rw [hg.2]; exact h0)
  obtain ⟨-, x, hx, -⟩ := hk
  exact ⟨(List.getElem?_eq_some_iff.1 hx).1, h5 a ha k hm⟩

theorem ofOption_ok {A : Type} {x : Option A} {a : A} (h : Outcome.ofOption x = .ok a) : x = some a := by
  cases x with
  | none => cases h
  | some y => rw [Outcome.ok.inj h]

/-- gs ends with `gsPost` -/
theorem gsAux_last {h : Nat → GsData} {t : Bool} {ex : Coll (GsSt U T) (List T)} (hok : ex.Ok np) {s s' : Nat → GsSt U T} (hr : (gsAux K h t ex).run np s = .ok s') :
    ∃ s1 s2 : Nat → GsSt U T, (Coll.loc (fun id => gsPre K (h id) t) ([] : List T)).run np s = .ok s1 ∧ ex.run np s1 = .ok s2 ∧ ∀ q, q < np → gsPost K (h q) t (s2 q) = .ok (s' q) := by
  unfold gsAux at hr
  rw [Coll.seq_run (Coll.seq_ok (Coll.loc_ok _ _ _) hok), Coll.seq_run (Coll.loc_ok _ _ _)] at hr
  obtain ⟨s2, h1, h2⟩ := Outcome.bind_eq_ok hr
  obtain ⟨s1, h3, h4⟩ := Outcome.bind_eq_ok h1
  rw [Coll.loc_run] at h2
  exact ⟨s1, s2, h3, h4, (seqAll_ok h2).1⟩

/-- copies on one process -/
theorem gsAux_local (R : Rep D op K f e) {P : Nat → U → Prop} (hP : DecU R P) (hi : ∀ q, q < np → IdsOk (ids q)) {h : Nat → GsData} (hh : ∀ q, q < np → h q = localSetup (nzSpec (ids q)) (h q).r) {t : Bool}
    {ex : Coll (GsSt U T) (List T)} (hok : ex.Ok np) {s s' : Nat → GsSt U T} (hr : (gsAux K h t ex).run np s = .ok s') (hp : ∀ q, q < np → P (ids q).length (s' q).u) :
    ∃ w : Nat → Nat → V, (∀ q, q < np → (s' q).u = R.repU (tab (ids q).length (w q)) ∧ ∀ k, k < (ids q).length → R.shp (w q k)) ∧
      ∀ q, q < np → ∀ a i j, Receives t (ids q) a i → Receives t (ids q) a j → w q i = w q j := by
  obtain ⟨s1, s2, -, -, h3⟩ := gsAux_last hok hr
  haveI : Nonempty V := ⟨e⟩
  have key : ∀ q, q < np → ∃ w : Nat → V, ((s' q).u = R.repU (tab (ids q).length w) ∧ ∀ k, k < (ids q).length → R.shp (w k)) ∧ ∀ a i j, Receives t (ids q) a i → Receives t (ids q) a j → w i = w j := by
    intro q hq
    have h4 := h3 q hq
    have hp2 : P (ids q).length (s2 q).u := by
      unfold gsPost at h4
      obtain ⟨u, hu, h5⟩ := Option.bind_eq_some_iff.1 (ofOption_ok h4)
      obtain h5 := Option.some.inj h5
      refine hP.scatter _ _ _ _ hu ?_
      have := hp q hq
      rw [← h5] at this
      exact this
    obtain ⟨w, hw, hs⟩ := hP.tab hp2
    rw [hh q hq] at h4
    obtain ⟨w4, e1, e2, e3⟩ := gsPost_copies R (hi q hq) hw hs h4
    exact ⟨w4, ⟨e1, e2⟩, fun a i j hi hj => by rw [(e3 a i hi).2, (e3 a j hj).2]⟩
  choose! w hw using key
  exact ⟨w, fun q hq => (hw q hq).1, fun q hq => (hw q hq).2⟩

theorem treeRed_length (D : Dom T) (op : Op) (s : Nat → List T) (np : Nat) : ∀ fuel id k, (treeRed (gatherArray D op) s np fuel id k).length = (s id).length
  | 0, _, _ => rfl
  | fuel + 1, id, k => by
    rw [treeRed]
    split
    · rw [gatherArray_len, treeRed_length D op s np fuel]
    · rfl

/-- the reduction leaves the same array everywhere -/
theorem allreduce_same (D : Dom T) (op : Op) {m : Nat} {s s' : Nat → List T} (hl : ∀ q, q < np → (s q).length = m) (h : (commAllreduce D op m np).run np s = .ok s') :
    ∃ A : List T, A.length = m ∧ ∀ q, q < np → s' q = A := by
  rcases Nat.eq_zero_or_pos np with h0 | h0
  · exact ⟨List.replicate m (D.identity op), by simp, fun q hq => by omega⟩
  unfold commAllreduce at h
  split at h
  · rename_i h0
    refine ⟨[], by rw [h0]; rfl, fun q hq => ?_⟩
    have : s = s' := Outcome.ok.inj h
    rw [← this]
    exact List.length_eq_zero_iff.1 ((hl q hq).trans h0)
  · rw [allreduce_run_any] at h
    have h := Outcome.ok.inj h
    refine ⟨tval (gatherArray D op) s np 0 0, ?_, fun q hq => by rw [← h]; exact if_pos hq⟩
    exact (treeRed_length D op s np _ _ _).trans (hl 0 h0)

/-- copies on all processes, with the all-reduce method -/
theorem gsAux_copies (R : Rep D op K f e) (hL : KLen K) {P : Nat → U → Prop} (hP : DecU R P) (hi : ∀ q, q < np → IdsOk (ids q)) {h : Nat → GsData} (hh : ∀ q, q < np → h q = localSetup (nzSpec (ids q)) (h q).r)
    {ord : Nat → Nat} {total : Nat} (ho : OrdOk np ids ord total) (htot : total ≤ 4294967295) {st : Nat → TopoSt} (hst : ∀ q, q < np → TopoCore np ids ord total q (st q)) {t : Bool} {s s' : Nat → GsSt U T}
    (hr : (gsAux K h t (arExec K D op np total (fun q => allreduceSetup (st q).pr (st q).total) t)).run np s = .ok s') (hp : ∀ q, q < np → P (ids q).length (s' q).u) :
    ∃ w : Nat → Nat → V, (∀ q, q < np → (s' q).u = R.repU (tab (ids q).length (w q)) ∧ ∀ k, k < (ids q).length → R.shp (w q k)) ∧
      ∀ q p, q < np → p < np → ∀ a i j, Receives t (ids q) a i → Receives t (ids p) a j → ((q = p) ∨ Sel np ids (!t) q a ∧ Sel np ids (!t) p a) → w q i = w p j := by
  have hok := arExec_ok K D op np total (fun q => allreduceSetup (st q).pr (st q).total) t
  obtain ⟨s1, s2, -, h2, h3⟩ := gsAux_last hok hr
  haveI : Nonempty V := ⟨e⟩
  -- the parts of the exchange
  have hok2 : ((commAllreduce D op (K.vn * total) np).lift GsSt.arr (GsSt.setArr (U := U))).Ok np := Coll.lift_ok _ _ (commAllreduce_okay D op _ np)
  unfold arExec arExecWith at h2
  rw [Coll.seq_run (Coll.seq_ok (Coll.loc_ok _ _ _) hok2), Coll.seq_run (Coll.loc_ok _ _ _)] at h2
  obtain ⟨sb, h4, h5⟩ := Outcome.bind_eq_ok h2
  obtain ⟨sa, h6, h7⟩ := Outcome.bind_eq_ok h4
  rw [Coll.loc_run] at h6 h5
  have h6 := (seqAll_ok h6).1
  have h5 := (seqAll_ok h5).1
  have hla : ∀ q, q < np → (sa q).arr.length = K.vn * total := by
    intro q hq
    have := h6 q hq
    unfold arPre at this
    obtain ⟨b, hb, e1⟩ := Option.bind_eq_some_iff.1 (ofOption_ok this)
    obtain e1 := Option.some.inj e1
    rw [← e1]
    have := hL.toBuf _ _ _ _ hb
    rw [initArray_replicate, List.length_replicate] at this
    rw [← (hst q hq).total_eq]
    exact this
  rw [Coll.lift_run setArr_lens _ np sa (fun q => (sa q).arr) (fun _ _ => rfl)] at h7
  obtain ⟨arr, h8, h9⟩ : ∃ arr, (commAllreduce D op (K.vn * total) np).run np (fun q => (sa q).arr) = .ok arr ∧ sb = putAll GsSt.setArr np sa arr := by
    cases hx : (commAllreduce D op (K.vn * total) np).run np (fun q => (sa q).arr) with
    | ok arr => rw [hx] at h7; exact ⟨arr, rfl, (Outcome.ok.inj h7).symm⟩
    | ub => rw [hx] at h7; cases h7
    | abort => rw [hx] at h7; cases h7
  obtain ⟨A, hAl, hA⟩ := allreduce_same D op hla h8
  obtain ⟨b, hbl, hbs, hb⟩ := Rep.decode R total A (le_of_eq hAl.symm)
  rw [List.drop_eq_nil_of_le (by omega), List.append_nil] at hb
  let c : Nat → V := fun k => b.getD k e
  have hbc : b = tab total c := by rw [← hbl]; exact list_tab b e
  have hsb : ∀ q, q < np → (sb q).arr = (tab total c).flatMap R.repV := by
    intro q hq
    rw [h9]
    unfold putAll
    rw [if_pos hq]
    show arr q = _
    rw [hA q hq, hb, ← hbc]
  have key : ∀ q, q < np → ∃ w : Nat → V, ((s' q).u = R.repU (tab (ids q).length w) ∧ ∀ k, k < (ids q).length → R.shp (w k)) ∧ (∀ a i j, Receives t (ids q) a i → Receives t (ids q) a j → w i = w j) ∧
      ∀ a i, Receives t (ids q) a i → Sel np ids (!t) q a → w i = c (ord a) := by
    intro q hq
    have h10 := h5 q hq
    unfold arPost at h10
    obtain ⟨u, hu, e1⟩ := Option.bind_eq_some_iff.1 (ofOption_ok h10)
    obtain e1 := Option.some.inj e1
    have hp2 : P (ids q).length (s2 q).u := by
      have h4 := h3 q hq
      unfold gsPost at h4
      obtain ⟨u, hu, h5⟩ := Option.bind_eq_some_iff.1 (ofOption_ok h4)
      obtain h5 := Option.some.inj h5
      refine hP.scatter _ _ _ _ hu ?_
      have := hp q hq
      rw [← h5] at this
      exact this
    have hu2 : (s2 q).u = u := by rw [← e1]
    obtain ⟨w, hw, hs⟩ := hP.tab (hP.fromBuf _ _ _ _ _ hu (hu2 ▸ hp2))
    obtain ⟨w', hr1, hr2, hr3⟩ := ar_read hq ho (hst q hq) (!t) w c
    have h1 := R.fromBuf _ _ (tab total c) _ [] (by
      intro v hv
      obtain ⟨k, _, rfl⟩ := List.mem_map.1 hv
      exact hw k) (by rw [← hbc]; exact hbs) (ar_groups_ok hq hi ho htot (hst q hq) (!t) false) hr1
    rw [← allreduceMap_eq (hst q hq) (!t) false, List.append_nil, ← hs, ← hsb q hq] at h1
    have h11 : (allreduceSetup (st q).pr (st q).total).mapFrom t = allreduceMap (st q).pr (if (!t) then 0 else 1) false := by cases t <;> rfl
    rw [h11, h1] at hu
    have hu := Option.some.inj hu
    have hw' : ∀ k, R.shp (w' k) := by
      intro k
      by_cases hk : ∃ a, Sel np ids (!t) q a ∧ k = prim (ids q) a
      · obtain ⟨a, ha, rfl⟩ := hk
        rw [hr2 a ha]
        show R.shp (b.getD _ e)
        rw [List.getD_eq_getElem?_getD]
        cases hk : b[ord a]? with
        | none => exact R.shpE
        | some y => exact hbs y (List.mem_of_getElem? hk)
      · rw [hr3 k fun a ha e => hk ⟨a, ha, e⟩]
        exact hw k
    have h4 := h3 q hq
    rw [hh q hq] at h4
    obtain ⟨w4, e2, e3, e4⟩ := gsPost_copies R (hi q hq) hw' (hu2.trans hu.symm) h4
    exact ⟨w4, ⟨e2, e3⟩, fun a i j hi hj => by rw [(e4 a i hi).2, (e4 a j hj).2], fun a i hi hs => by rw [(e4 a i hi).2, hr2 a hs]⟩
  choose! w hw using key
  refine ⟨w, fun q hq => (hw q hq).1, ?_⟩
  intro q p hq hp a i j hi hj hc
  rcases hc with rfl | ⟨h1, h2⟩
  · exact (hw q hq).2.1 a i j hi hj
  · rw [(hw q hq).2.2 a i hi h1, (hw p hp).2.2 a j hj h2]

/-- the copies after gs, for any handles -/
theorem copies_core (R : Rep D op K f e) (hL : KLen K) {P : Nat → U → Prop} (hP : DecU R P) {h : Nat → GsData} (hh : Handles np ids h) {t : Bool} {T2 : Nat} {s s2 : Nat → GsSt U T} (hM : Matched (gsOp K D op np t h) np T2)
    (hr : lockRun (gsOp K D op np t h) np T2 s = .ok s2) (hp : ∀ q, q < np → P (ids q).length (s2 q).u) :
    ∃ w : Nat → Nat → V, (∀ q, q < np → (s2 q).u = R.repU (tab (ids q).length (w q)) ∧ ∀ k, k < (ids q).length → R.shp (w q k)) ∧
      ∀ q p, q < np → p < np → ∀ a i j, Receives t (ids q) a i → Receives t (ids p) a j → q = p ∨ ((∃ d, (h 0).r = .allreduce d) ∧ ∃ r, r < np ∧ (a : Int) ∈ ids r) → w q i = w p j := by
  have hloc := hh.ok.loc
  have hlocal : ∀ {ex : Coll (GsSt U T) (List T)}, ex.Ok np → (∀ q, q < np → (remoteExec K D op np t (h q)).T = ex.T ∧ (remoteExec K D op np t (h q)).prog q = ex.prog q) → (gsAux K h t ex).run np s = .ok s2 := by
    intro ex hok hpr
    obtain ⟨m2, e2⟩ := gsOp_coll (K := K) (D := D) (op := op) (t := t) (h := h) hok hpr
    rw [lockRun_unique hM m2, e2] at hr
    exact hr
  cases hh.ok.remote with
  | pairwise hpw =>
    have hpw : ∀ q, q < np → (h q).r = .pairwise (pwSpec np ids q) := hpw
    have hrun := hlocal (ex := pwExec K (pwSpec np ids) t) (pwExec_ok K t) (by
      intro q hq
      unfold remoteExec
      rw [hpw q hq]
      exact ⟨rfl, rfl⟩)
    obtain ⟨w, h1, h2⟩ := gsAux_local R hP hh.ids_ok hloc (pwExec_ok K t) hrun hp
    refine ⟨w, h1, fun q p hq hp' a i j hi hj hc => ?_⟩
    rcases hc with rfl | ⟨⟨d, hd⟩, -⟩
    · exact h2 q hq a i j hi hj
    · rw [hpw 0 (by omega)] at hd; cases hd
  | crystal d hd hcr =>
    have hcr : ∀ q, q < np → (h q).r = .crystal (d q) := hcr
    have hrun := hlocal (crExec_ok K hd t) (by
      intro q hq
      unfold remoteExec
      rw [hcr q hq]
      exact ⟨rfl, rfl⟩)
    obtain ⟨w, h1, h2⟩ := gsAux_local R hP hh.ids_ok hloc (crExec_ok K hd t) hrun hp
    refine ⟨w, h1, fun q p hq hp' a i j hi hj hc => ?_⟩
    rcases hc with rfl | ⟨⟨d', hd'⟩, -⟩
    · exact h2 q hq a i j hi hj
    · rw [hcr 0 (by omega)] at hd'; cases hd'
  | allreduce st ord total ho htot hst har =>
    have har : ∀ q, q < np → (h q).r = .allreduce (allreduceSetup (st q).pr (st q).total) := har
    have ht : ∀ q, q < np → (allreduceSetup (st q).pr (st q).total).total = total := fun q hq => (hst q hq).total_eq
    have hrun := hlocal (arExec_ok K D op np total (fun q => allreduceSetup (st q).pr (st q).total) t) (by
      intro q hq
      unfold remoteExec
      rw [har q hq]
      simp only [ht q hq]
      exact ⟨rfl, rfl⟩)
    obtain ⟨w, h1, h2⟩ := gsAux_copies R hL hP hh.ids_ok hloc ho htot hst hrun hp
    refine ⟨w, h1, fun q p hq hp' a i j hi hj hc => h2 q p hq hp' a i j hi hj ?_⟩
    by_cases hqp : q = p
    · exact Or.inl hqp
    refine Or.inr ?_
    rcases hc with hc | ⟨-, r, hr, har⟩
    · exact absurd hc hqp
    have hhas : ∀ {q i}, Receives t (ids q) a i → has (ids q) a := by
      intro q i hi
      obtain ⟨hm, h0⟩ := mem_mem'.2 hi
      have hg := mem_grp'.1 (mem'_sub h0 hm)
      rw [← hg.2]; exact has_absAt (by rw [hg.2]; exact h0)
    have hq1 := hhas hi
    have hp1 := hhas hj
    have hru : hasU (ids r) a := ⟨hi.1, har⟩
    have hu : ∀ {q i}, Receives t (ids q) a i → (!t) = true ∨ hasU (ids q) a := by
      intro q i hi
      cases t with
      | false => exact Or.inl rfl
      | true =>
        obtain ⟨h0, x, hx, hxa⟩ := hi
        have hxa : x = (a : Int) := hxa
        exact Or.inr ⟨h0, hxa ▸ List.mem_of_getElem? hx⟩
    refine ⟨⟨?_, hu hi⟩, ⟨?_, hu hj⟩⟩
    · by_cases hrq : r = q
      · exact ⟨p, hp', fun h => hqp h.symm, hq1, hp1, Or.inl (hrq ▸ hru)⟩
      · exact ⟨r, hr, hrq, hq1, hasU.has hru, Or.inr hru⟩
    · by_cases hrp : r = p
      · exact ⟨q, hq, hqp, hp1, hq1, Or.inl (hrp ▸ hru)⟩
      · exact ⟨r, hr, hrp, hp1, hasU.has hru, Or.inr hru⟩

theorem units_get (vn : Nat) : ∀ (x : List (List T)), Units vn x → ∀ i v, x[i]? = some v → ∀ k, k < vn → x.flatten[i * vn + k]? = v[k]?
  | [], _, i, v, h, _, _ => by simp at h
  | y :: x, hu, 0, v, h, k, hk => by
    obtain rfl : y = v := by simpa using h
    rw [List.flatten_cons, Nat.zero_mul, Nat.zero_add, List.getElem?_append_left (by rw [hu y (by simp)]; exact hk)]
  | y :: x, hu, i + 1, v, h, k, hk => by
    have := units_get vn x (fun v hv => hu v (by simp [hv])) i v (by simpa using h) k hk
    have hy := hu y (by simp)
    rw [List.flatten_cons, List.getElem?_append_right (by rw [hy, Nat.add_mul]; omega), hy, ← this]
    congr 1
    rw [Nat.add_mul]; omega

/-- gs gives the same result in every run; the copies of a value in it -/
theorem any_copies [Nonempty T] (D : Dom T) {h : Nat → GsData} (hh : Handles np ids h) (a : GsArgs) (hnp : 0 < np) {v : Nat → UserData T} (hv : ∀ q, q < np → Fits (ids q) a.mode (v q)) {r : Nat → UserData T}
    (hr : GsReturns D np h a v r) :
    ∀ q p, q < np → p < np → ∀ b i j, Receives a.t (ids q) b i → Receives a.t (ids p) b j → q = p ∨ ((∃ d, (h 0).r = .allreduce d) ∧ ∃ r, r < np ∧ (b : Int) ∈ ids r) →
      entryOf a.mode (r q) i = entryOf a.mode (r p) j := by
  obtain ⟨x0⟩ := ‹Nonempty T›
  have hi : ∀ {t q b i}, Receives t (ids q) b i → i < (ids q).length := by
    rintro t q b i ⟨-, x, hx, -⟩
    exact (List.getElem?_eq_some_iff.1 hx).1
  have hone : (∀ q, q < np → ∃ x, v q = .one x) → ∀ q, q < np → v q = .one (arrayOf (v q)) := by
    intro h q hq
    obtain ⟨x, hx⟩ := h q hq
    rw [hx]; rfl
  have tabget : ∀ {A : Type} (n : Nat) (w : Nat → A) i, i < n → (tab n w)[i]? = some (w i) := by
    intro A n w i hi
    unfold tab
    simp [hi]
  rcases a with ⟨mode, op, t⟩
  cases mode with
  | plain =>
    have hx := hone fun q hq => by
      have := hv q hq
      unfold Fits at this
      cases hvq : v q with
      | one x => exact ⟨x, rfl⟩
      | many xs => rw [hvq] at this; exact absurd this id
    have hl : ∀ q, q < np → (arrayOf (v q)).length = (ids q).length := by
      intro q hq
      have := hv q hq
      rw [hx q hq] at this
      exact this.1
    obtain ⟨T2, s2, hM2, hr2, hc⟩ := gsAny_lock D op hh t (fun q => arrayOf (v q)) hl (fun q => ⟨arrayOf (v q), [], fun _ => x0, []⟩) fun _ _ => rfl
    have hall := hr (fun q => ⟨arrayOf (v q), [], fun _ => x0, []⟩) hx
    obtain ⟨c, hc1, hf⟩ := Props.exists_finished hall
    have e1 := (hall.result c hc1 hf).1
    have e2 := ((allSchedules_of_lockRun hM2 hr2 (fun z => ∀ q, q < np → z q = s2 q) fun _ h => h).result c hc1 hf).1
    have hrq : ∀ q, q < np → r q = .one (s2 q).u := fun q hq => (e1 q hq).trans (by rw [e2 q hq])
    obtain ⟨w, h1, h2⟩ := copies_core (plainRep D op) (plain_len D op) (plain_decU D op) hh hM2 hr2 fun q hq => gsCombines_length (hc q hq) (hl q hq)
    intro q p hq hp b i j hbi hbj hcase
    have := h2 q p hq hp b i j hbi hbj hcase
    rw [hrq q hq, hrq p hp]
    show [(s2 q).u[i]?] = [(s2 p).u[j]?]
    rw [(h1 q hq).1, (h1 p hp).1]
    show [(tab _ (w q))[i]?] = [(tab _ (w p))[j]?]
    rw [tabget _ _ _ (hi hbi), tabget _ _ _ (hi hbj), this]
  | vec vn =>
    have hx := hone fun q hq => by
      have := hv q hq
      unfold Fits at this
      cases hvq : v q with
      | one x => exact ⟨x, rfl⟩
      | many xs => rw [hvq] at this; exact absurd this id
    have hl : ∀ q, q < np → (arrayOf (v q)).length = (ids q).length * vn := by
      intro q hq
      have := hv q hq
      rw [hx q hq] at this
      exact this.2.1
    obtain ⟨T2, s2, hM2, hr2, hc⟩ := gsAnyVec_lock D op hh t (vn := vn) (fun q => arrayOf (v q)) hl (fun q => ⟨arrayOf (v q), [], fun _ => x0, []⟩) fun _ _ => rfl
    have hall := hr (fun q => ⟨arrayOf (v q), [], fun _ => x0, []⟩) hx
    obtain ⟨c, hc1, hf⟩ := Props.exists_finished hall
    have e1 := (hall.result c hc1 hf).1
    have e2 := ((allSchedules_of_lockRun hM2 hr2 (fun z => ∀ q, q < np → z q = s2 q) fun _ h => h).result c hc1 hf).1
    have hrq : ∀ q, q < np → r q = .one (s2 q).u := fun q hq => (e1 q hq).trans (by rw [e2 q hq])
    obtain ⟨w, h1, h2⟩ := copies_core (vecRep D op vn) (vec_len D op vn) (vec_decU D op vn) hh hM2 hr2 fun q hq => (hc q hq).1.trans (hl q hq)
    intro q p hq hp b i j hbi hbj hcase
    have := h2 q p hq hp b i j hbi hbj hcase
    rw [hrq q hq, hrq p hp]
    show (List.range vn).map (fun k => (s2 q).u[i * vn + k]?) = (List.range vn).map fun k => (s2 p).u[j * vn + k]?
    apply List.map_congr_left
    intro k hk
    have hk := List.mem_range.1 hk
    have hun : ∀ q, q < np → Units vn (tab (ids q).length (w q)) := by
      intro q hq v hv
      obtain ⟨k, hk, rfl⟩ := List.mem_map.1 hv
      exact (h1 q hq).2 k (List.mem_range.1 hk)
    rw [(h1 q hq).1, (h1 p hp).1]
    show (tab _ (w q)).flatten[_]? = (tab _ (w p)).flatten[_]?
    rw [units_get vn _ (hun q hq) i _ (tabget _ _ _ (hi hbi)) k hk, units_get vn _ (hun p hp) j _ (tabget _ _ _ (hi hbj)) k hk, this]
  | many vn =>
    have hx : ∀ q, q < np → v q = .many ((List.range vn).map fun k => arrayNo k (v q)) ∧ ∀ k, k < vn → (arrayNo k (v q)).length = (ids q).length := by
      intro q hq
      have := hv q hq
      unfold Fits at this
      cases hvq : v q with
      | one x => rw [hvq] at this; exact absurd this id
      | many xs =>
        rw [hvq] at this
        obtain ⟨-, hl, ha⟩ := this
        constructor
        · congr 1
          apply List.ext_getElem
          · simp [hl]
          · intro k h1 h2
            simp [arrayNo, h1]
        · intro k hk
          show (xs.getD k []).length = _
          rw [List.getD_eq_getElem _ _ (by omega)]
          exact (ha _ (List.getElem_mem _)).1
    obtain ⟨T2, s2, hM2, hr2, hc⟩ := gsAnyMany_lock D op hh t (vn := vn) (fun q k => arrayNo k (v q)) (fun q hq => (hx q hq).2) (fun q => ⟨(List.range vn).map fun k => arrayNo k (v q), [], fun _ => x0, []⟩) fun _ _ => rfl
    have hall := hr (fun q => ⟨(List.range vn).map fun k => arrayNo k (v q), [], fun _ => x0, []⟩) fun q hq => (hx q hq).1
    obtain ⟨c, hc1, hf⟩ := Props.exists_finished hall
    have e1 := (hall.result c hc1 hf).1
    have e2 := ((allSchedules_of_lockRun hM2 hr2 (fun z => ∀ q, q < np → z q = s2 q) fun _ h => h).result c hc1 hf).1
    have hrq : ∀ q, q < np → r q = .many (s2 q).u := fun q hq => (e1 q hq).trans (by rw [e2 q hq])
    obtain ⟨w, h1, h2⟩ := copies_core (manyRep D op vn) (many_len D op vn) (many_decU D op vn) hh hM2 hr2 (by
      intro q hq
      have h3 := hc q hq
      have h5 := (hx q hq).2
      have h4 : ∀ k ∈ List.range vn, (arrayNo k (v q)).length = (ids q).length := fun k hk => h5 k (List.mem_range.1 hk)
      have : (List.range vn).length = vn := List.length_range
      rw [← this]
      generalize List.range vn = l at h3 h4
      generalize (s2 q).u = o at h3
      induction h3 with
      | nil => rfl
      | @cons x y xs ys hd _ ih =>
        rw [List.map_cons, List.length_cons, List.replicate_succ, ih fun k hk => h4 k (by simp [hk]), gsCombines_length hd (h4 x (by simp))])
    intro q p hq hp b i j hbi hbj hcase
    have := h2 q p hq hp b i j hbi hbj hcase
    rw [hrq q hq, hrq p hp]
    show (List.range vn).map (fun k => ((s2 q).u.getD k [])[i]?) = (List.range vn).map fun k => ((s2 p).u.getD k [])[j]?
    apply List.map_congr_left
    intro k hk
    have hk := List.mem_range.1 hk
    have hget : ∀ q, q < np → ∀ i, i < (ids q).length → ((s2 q).u.getD k [])[i]? = some ((w q i).getD k (D.identity op)) := by
      intro q hq i hi
      rw [(h1 q hq).1]
      show (((List.range vn).map fun k => compK (D.identity op) k (tab _ (w q))).getD k [])[i]? = _
      rw [List.getD_eq_getElem _ _ (by simpa using hk), List.getElem_map, List.getElem_range]
      unfold compK
      rw [List.getElem?_map, tabget _ _ _ hi]; rfl
    rw [hget q hq i (hi hbi), hget p hp j (hi hbj), this]

end Gslib.Gs
