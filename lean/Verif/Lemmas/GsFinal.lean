import Verif.Lemmas.GsSetup
import Verif.Lemmas.GsRepMany

/-! # gs_setup followed by gs -/

namespace Gslib.Gs
open Gslib Gslib.Mpi Gslib.Spec Gslib.Props Gslib.Comm

variable {V T U : Type} {D : Dom T} {op : Op} {K : Kernels U T} {f : V → V → V} {e : V}
variable {np : Nat} {ids : Nat → List Int}

theorem sharedPairs_eq (np : Nat) (ids : Nat → List Int) : sharedPairs np ids = sharing np ids := by
  have h : ∀ q p, ((uids (ids q)).filter fun a => has (ids p) a).length = (((ids q).map Int.natAbs).dedup.filter fun a => a ≠ 0 ∧ a ∈ (ids p).map Int.natAbs).length := by
    intro q p
    apply List.Perm.length_eq
    rw [List.perm_ext_iff_of_nodup ((uids_nodup _).filter _) ((List.nodup_dedup _).filter _)]
    intro a
    rw [List.mem_filter, List.mem_filter, mem_uids, List.mem_dedup, decide_eq_true_eq, decide_eq_true_eq]
    unfold has
    tauto
  have hs : ∀ (n : Nat) (g : Nat → Nat), ∑ q ∈ Finset.range n, g q = ((List.range n).map g).sum := by
    intro n g
    induction n with
    | zero => rfl
    | succ n ih => rw [Finset.sum_range_succ, List.range_succ, List.map_append, List.sum_append, ih]; simp
  unfold sharedPairs sharing
  rw [hs]
  congr 1
  apply List.map_congr_left
  intro q _
  rw [hs]
  congr 1
  apply List.map_congr_left
  intro p _
  exact h q p

/-- what gs needs to know about the handles -/
structure Handles (np : Nat) (ids : Nat → List Int) (h : Nat → GsData) : Prop where
  ids_ok : ∀ q, q < np → IdsOk (ids q)
  bound : ∃ NB, IdBound np ids NB ∧ 3 * NB < 4294967295
  small : sharedPairs np ids < 4294967295
  ok : HandleOk np ids h

theorem gsSetup_run' (hin : GsInput np ids) (m : Method) (s0 : Nat → SetupSt) (h0 : ∀ q, q < np → (s0 q).topo.ids = ids q) :
    ∃ s' : Nat → SetupSt, (gsSetup false m np).run np s0 = .ok s' ∧ (Handles np ids fun q => (s' q).h) ∧ (m = .pairwise → ∀ q, q < np → (s' q).h.r = .pairwise (pwSpec np ids q)) := by
  have hsm : sharedPairs np ids * 40 < Crystal.intMax := by
    rw [sharedPairs_eq]
    have := hin.small
    have h2 : Crystal.intMax = 2147483647 := rfl
    omega
  have hsm' : sharedPairs np ids < 4294967295 := by
    have h2 : Crystal.intMax = 2147483647 := rfl
    omega
  obtain ⟨ord, total, sf, e1, ho, hto, h1⟩ := getTopology_run hin.np_le hin.ids_ok hsm (fun q => (s0 q).topo) h0
  have r1 : (setupTopo np).run np s0 = .ok (putAll SetupSt.setTopo np s0 sf) := by
    unfold setupTopo
    rw [Coll.lift_run lens_topo _ np s0 (fun q => (s0 q).topo) (fun _ _ => rfl), Coll.mapW_run Sum.inl SetupMsg.topo (fun _ => rfl), e1]; rfl
  let s1 := putAll SetupSt.setTopo np s0 sf
  have hs1 : ∀ q, q < np → s1 q = (s0 q).setTopo (sf q) := by
    intro q hq
    show putAll _ _ _ _ q = _
    unfold putAll
    rw [if_pos hq]
  let s2 : Nat → SetupSt := fun q => if q < np then { s1 q with h := localSetup (s1 q).topo.nz (s1 q).h.r } else s1 q
  have hs2 : ∀ q, q < np → s2 q = { s1 q with h := localSetup (s1 q).topo.nz (s1 q).h.r } := fun q hq => if_pos hq
  have r2 : (setupLoc (setupLocal false)).run np s1 = .ok s2 := Coll.loc_run_ok fun q _ => rfl
  have htot : 3 * total < 4294967295 := by
    have h2 : Crystal.intMax = 2147483647 := rfl
    omega
  obtain ⟨s3, r3, h3, h4⟩ := remoteSetup_run' hin.np_le hin.ids_ok hsm' ho htot m s2 (by
      intro q hq
      rw [hs2 q hq, hs1 q hq]
      exact (h1 q hq).toTopoCore) (by
      intro q hq
      rw [hs2 q hq, hs1 q hq]
      show localSetup (sf q).nz _ = localSetup _ (localSetup _ _).r
      rw [(h1 q hq).nz_eq]; rfl)
  refine ⟨s3, ?_, ⟨hin.ids_ok, ⟨total, ho.idBound, htot⟩, hsm', h3⟩, h4⟩
  have k1 := setupTopo_ok np
  have k2 : (setupLoc (setupLocal false)).Ok np := Coll.loc_ok _ _ _
  exact Coll.seq_run_ok (Coll.seq_ok k1 k2) (Coll.seq_run_ok k1 r1 r2) r3

theorem gsSetup_run (hin : GsInput np ids) (m : Method) (s0 : Nat → SetupSt) (h0 : ∀ q, q < np → (s0 q).topo.ids = ids q) :
    ∃ s' : Nat → SetupSt, (gsSetup false m np).run np s0 = .ok s' ∧ Handles np ids fun q => (s' q).h := by
  obtain ⟨s', e, h, _⟩ := gsSetup_run' hin m s0 h0
  exact ⟨s', e, h⟩

theorem gsResult_congr {t : Bool} {v v' : Nat → List V} (h : ∀ p, p < np → v p = v' p) {q : Nat} (hq : q < np) :
    gsResult t f e np ids v q = gsResult t f e np ids v' q := by
  have hcu : unflagged np ids v = unflagged np ids v' := by
    funext a
    apply List.flatMap_congr
    intro p hp
    rw [h p (List.mem_range.1 hp)]
  have hcm : members np ids v = members np ids v' := by
    funext a
    apply List.flatMap_congr
    intro p hp
    rw [h p (List.mem_range.1 hp)]
  unfold gsResult gsOut gsOutT
  rw [hcu, hcm, h q hq]

/-- gs with such handles: the lockstep execution. The entries with id 0 need not be values on which the operation is a monoid. -/
theorem gsOp_lock' (R : Rep D op K f e) {ok : V → Prop} (M : CommMonoidOn ok f e) (hok : ∀ v, ok v → R.shp v) {h : Nat → GsData} (hh : Handles np ids h) (t : Bool)
    (v : Nat → List V) (hlen : ∀ q, q < np → (v q).length = (ids q).length) (hsv : ∀ q, q < np → ∀ x ∈ v q, R.shp x)
    (hv : ∀ q, q < np → ∀ (i : Nat) (x : V), (ids q)[i]? ≠ some 0 → (v q)[i]? = some x → ok x) (s : Nat → GsSt U T) (hs : ∀ q, q < np → (s q).u = R.repU (v q)) :
    ∃ (T' : Nat) (s' : Nat → GsSt U T), Matched (gsOp K D op np t h) np T' ∧ lockRun (gsOp K D op np t h) np T' s = .ok s' ∧ ∀ q, q < np → (s' q).u = R.repU (gsResult t f e np ids v q) := by
  obtain ⟨NB, hB, hNB⟩ := hh.bound
  let w : Nat → Nat → V := fun q k => (v q).getD k e
  have htab : ∀ q, q < np → tab (ids q).length (w q) = v q := by
    intro q hq
    rw [← hlen q hq]
    unfold tab
    apply List.ext_getElem
    · simp
    · intro k h1 h2
      simp [w, List.getD_eq_getElem?_getD, h2]
  have hsw : ∀ q, q < np → ∀ k, R.shp (w q k) := by
    intro q hq k
    show R.shp ((v q).getD k e)
    rw [List.getD_eq_getElem?_getD]
    cases hk : (v q)[k]? with
    | none => exact R.shpE
    | some x => exact hsv q hq x (List.mem_of_getElem? hk)
  have hw : ∀ q, q < np → ∀ k, absAt (ids q) k ≠ 0 → ok (w q k) := by
    intro q hq k h0
    show ok ((v q).getD k e)
    rw [List.getD_eq_getElem?_getD]
    cases hk : (v q)[k]? with
    | none => exact M.okId
    | some x =>
      refine hv q hq k x (fun h => h0 ?_) hk
      unfold absAt idAt
      rw [List.getD_eq_getElem?_getD, h]; rfl
  obtain ⟨T', s', hm, hr, hq'⟩ := gsOp_run R M hok hh.ids_ok hB hNB hh.small hh.ok t w hsw hw s (fun q hq => by rw [hs q hq, htab q hq])
  refine ⟨T', s', hm, hr, ?_⟩
  intro q hq
  rw [hq' q hq]
  congr 1
  rw [← gsResult_congr (t := t) (f := f) (e := e) (ids := ids) htab hq]
  cases t with
  | false => exact tab_gsOut M w hw q
  | true => exact tab_gsOutT M w hw hq

/-- gs with such handles: the lockstep execution -/
theorem gsOp_lock (R : Rep D op K f e) {ok : V → Prop} (M : CommMonoidOn ok f e) (hok : ∀ v, ok v → R.shp v) {h : Nat → GsData} (hh : Handles np ids h) (t : Bool)
    (v : Nat → List V) (hlen : ∀ q, q < np → (v q).length = (ids q).length) (hv : ∀ q, q < np → ∀ x ∈ v q, ok x) (s : Nat → GsSt U T) (hs : ∀ q, q < np → (s q).u = R.repU (v q)) :
    ∃ (T' : Nat) (s' : Nat → GsSt U T), Matched (gsOp K D op np t h) np T' ∧ lockRun (gsOp K D op np t h) np T' s = .ok s' ∧ ∀ q, q < np → (s' q).u = R.repU (gsResult t f e np ids v q) :=
  gsOp_lock' R M hok hh t v hlen (fun q hq x hx => hok x (hv q hq x hx)) (fun q hq _ x _ hx => hv q hq x (List.mem_of_getElem? hx)) s hs

/-- gs with such handles under every schedule -/
theorem gsOp_all (R : Rep D op K f e) {ok : V → Prop} (M : CommMonoidOn ok f e) (hok : ∀ v, ok v → R.shp v) {h : Nat → GsData} (hh : Handles np ids h) (t : Bool)
    (v : Nat → List V) (hlen : ∀ q, q < np → (v q).length = (ids q).length) (hv : ∀ q, q < np → ∀ x ∈ v q, ok x) (s : Nat → GsSt U T) (hs : ∀ q, q < np → (s q).u = R.repU (v q)) :
    AllSchedules (gsOp K D op np t h) np s fun s' => ∀ q, q < np → (s' q).u = R.repU (gsResult t f e np ids v q) := by
  obtain ⟨T', s', hm, hr, hq'⟩ := gsOp_lock R M hok hh t v hlen hv s hs
  refine allSchedules_of_lockRun hm hr _ ?_
  intro s2 hs2 q hq
  rw [hs2 q hq, hq' q hq]

/-! ### components -/

theorem getD_reduce (D : Dom T) (op : Op) {vn k : Nat} (hk : k < vn) (l : List (List T)) (hl : Units vn l) :
    (reduce (gatherArray D op) (initArray D op vn) l).getD k (D.identity op) = reduce (D.doOp op) (D.identity op) (l.map fun v => v.getD k (D.identity op)) := by
  unfold reduce
  have key : ∀ (l : List (List T)) (a : List T), Units vn l → a.length = vn →
      (l.foldl (gatherArray D op) a).getD k (D.identity op) = (l.map fun v => v.getD k (D.identity op)).foldl (D.doOp op) (a.getD k (D.identity op)) := by
    intro l
    induction l with
    | nil => intro a _ _; rfl
    | cons x l ih =>
      intro a hl ha
      rw [List.foldl_cons, List.map_cons, List.foldl_cons, ih _ (fun v hv => hl v (by simp [hv])) (by rw [gatherArray_len, ha]),
        gatherArray_getD D op hk ha (hl x (by simp))]
  rw [key l _ hl (by rw [initArray_replicate, List.length_replicate])]
  congr 1
  rw [initArray_replicate, List.getD_eq_getElem _ _ (by simpa using hk)]
  simp

theorem zip_map_snd {A B C : Type} (g : B → C) : ∀ (a : List A) (b : List B), a.zip (b.map g) = (a.zip b).map fun x => (x.1, g x.2)
  | [], _ => rfl
  | _ :: _, [] => rfl
  | x :: a, y :: b => by rw [List.map_cons, List.zip_cons_cons, List.zip_cons_cons, List.map_cons, zip_map_snd g a b]

theorem pick_comp (c : Int → Bool) (ids : List Int) (d : T) (k : Nat) (v : List (List T)) : pick c ids (compK d k v) = (pick c ids v).map fun x => x.getD k d := by
  unfold pick compK
  rw [zip_map_snd, List.filter_map, List.map_map, List.map_map]
  rfl

theorem pick_units {vn : Nat} (c : Int → Bool) (ids : List Int) {v : List (List T)} (hv : Units vn v) : Units vn (pick c ids v) := by
  intro x hx
  unfold pick at hx
  obtain ⟨y, hy, rfl⟩ := List.mem_map.1 hx
  exact hv _ (List.of_mem_zip (List.mem_filter.1 hy).1).2

/-- component `k` of the result on vectors is the result on components -/
theorem gsResult_comp (t : Bool) (D : Dom T) (op : Op) {vn k : Nat} (hk : k < vn) {v : Nat → List (List T)} (hv : ∀ q, q < np → Units vn (v q)) {q : Nat} (hq : q < np) :
    compK (D.identity op) k (gsResult t (gatherArray D op) (initArray D op vn) np ids v q) =
      gsResult t (D.doOp op) (D.identity op) np ids (fun p => compK (D.identity op) k (v p)) q := by
  have hred : ∀ (c : Nat → Int → Bool), (reduce (gatherArray D op) (initArray D op vn) ((List.range np).flatMap fun p => pick (c p) (ids p) (v p))).getD k (D.identity op) =
      reduce (D.doOp op) (D.identity op) ((List.range np).flatMap fun p => pick (c p) (ids p) (compK (D.identity op) k (v p))) := by
    intro c
    rw [getD_reduce D op hk _ (by
      intro x hx
      obtain ⟨p, hp, hx⟩ := List.mem_flatMap.1 hx
      exact pick_units _ _ (hv p (List.mem_range.1 hp)) x hx), List.map_flatMap]
    congr 1
    apply List.flatMap_congr
    intro p _
    rw [pick_comp]
  cases t with
  | false =>
    show compK _ k (gsOut _ _ np ids v q) = gsOut _ _ np ids _ q
    unfold gsOut
    show List.map _ (List.map _ _) = List.map _ ((ids q).zip (List.map _ (v q)))
    rw [zip_map_snd, List.map_map, List.map_map]
    apply List.map_congr_left
    intro x _
    simp only [Function.comp]
    split
    · rfl
    · exact hred fun _ y => y = (x.1.natAbs : Int)
  | true =>
    show compK _ k (gsOutT _ _ np ids v q) = gsOutT _ _ np ids _ q
    unfold gsOutT
    show List.map _ (List.map _ _) = List.map _ ((ids q).zip (List.map _ (v q))).zipIdx
    rw [zip_map_snd, List.zipIdx_map, List.map_map, List.map_map]
    apply List.map_congr_left
    intro x _
    simp only [Function.comp, Prod.map, id]
    split
    · exact hred fun _ y => y.natAbs = x.1.1.natAbs
    · split
      · rw [getD_reduce D op hk _ (pick_units _ _ (hv q hq)), pick_comp]
      · rfl

theorem gsResult_units (t : Bool) (D : Dom T) (op : Op) {vn : Nat} {v : Nat → List (List T)} (hv : ∀ q, q < np → Units vn (v q)) {q : Nat} (hq : q < np) :
    Units vn (gsResult t (gatherArray D op) (initArray D op vn) np ids v q) := by
  have hlen : ∀ (l : List (List T)), (reduce (gatherArray D op) (initArray D op vn) l).length = vn := by
    intro l
    unfold reduce
    have : ∀ (l : List (List T)) (a : List T), a.length = vn → (l.foldl (gatherArray D op) a).length = vn := by
      intro l
      induction l with
      | nil => intro a h; exact h
      | cons x l ih => intro a h; exact ih _ (by rw [gatherArray_len, h])
    exact this l _ (by rw [initArray_replicate, List.length_replicate])
  cases t with
  | false =>
    intro x hx
    change x ∈ gsOut _ _ np ids v q at hx
    unfold gsOut at hx
    obtain ⟨y, hy, rfl⟩ := List.mem_map.1 hx
    split
    · exact hv q hq _ (List.of_mem_zip hy).2
    · exact hlen _
  | true =>
    intro x hx
    change x ∈ gsOutT _ _ np ids v q at hx
    unfold gsOutT at hx
    obtain ⟨y, hy, rfl⟩ := List.mem_map.1 hx
    split
    · exact hlen _
    · split
      · exact hlen _
      · exact hv q hq _ (List.of_mem_zip (List.fst_mem_of_mem_zipIdx hy)).2

end Gslib.Gs

namespace Gslib.Gs
open Gslib Gslib.Mpi Gslib.Spec Gslib.Props Gslib.Comm

variable {V T : Type} {f : V → V → V} {e : V} {np : Nat} {ids : Nat → List Int}

/-! ### columns -/

theorem flatten_units_length {vn : Nat} : ∀ {Z : List (List T)}, Units vn Z → Z.flatten.length = Z.length * vn
  | [], _ => by simp
  | v :: Z, h => by
    rw [List.flatten_cons, List.length_append, flatten_units_length (Z := Z) (fun v hv => h v (by simp [hv])), h v (by simp), List.length_cons]
    ring

theorem column_flatten {vn k : Nat} (d : T) (hk : k < vn) {Z : List (List T)} (hZ : Units vn Z) : column vn k Z.flatten = compK d k Z := by
  unfold column compK
  rw [flatten_units_length hZ, Nat.mul_div_cancel _ (by omega)]
  have : ∀ i ∈ List.range Z.length, Z.flatten[i * vn + k]? = some ((Z.getD i []).getD k d) := by
    intro i hi
    have := ld_flat (d := d) hZ [] (List.mem_range.1 hi) hk
    rw [List.append_nil] at this
    exact this
  rw [List.filterMap_congr this, List.filterMap_eq_map']
  apply List.ext_getElem
  · simp
  · intro i h1 h2
    simp at h1
    simp [List.getD_eq_getElem?_getD, h1]

theorem exists_units {vn : Nat} : ∀ (n : Nat) (x : List T), x.length = n * vn → ∃ Z : List (List T), Units vn Z ∧ Z.length = n ∧ Z.flatten = x
  | 0, x, h => ⟨[], fun _ h => by simp at h, rfl, by
      have : x = [] := List.eq_nil_of_length_eq_zero (by omega)
      rw [this]; rfl⟩
  | n + 1, x, h => by
    have h1 : (n + 1) * vn = n * vn + vn := by ring
    obtain ⟨Z, h2, h3, h4⟩ := exists_units (vn := vn) n (x.drop vn) (by rw [List.length_drop]; omega)
    refine ⟨x.take vn :: Z, ?_, by simp [h3], by rw [List.flatten_cons, h4, List.take_append_drop]⟩
    intro v hv
    rcases List.mem_cons.1 hv with rfl | hv
    · rw [List.length_take]; omega
    · exact h2 v hv

theorem exists_units_many {vn n : Nat} (d : T) (x : List (List T)) (hl : x.length = vn) (hn : ∀ a ∈ x, a.length = n) :
    ∃ Z : List (List T), Units vn Z ∧ Z.length = n ∧ ((List.range vn).map fun k => compK d k Z) = x := by
  refine ⟨(List.range n).map fun i => (List.range vn).map fun k => (x.getD k []).getD i d, ?_, by simp, ?_⟩
  · intro v hv
    obtain ⟨i, _, rfl⟩ := List.mem_map.1 hv
    simp
  · apply List.ext_getElem
    · simp [hl]
    · intro k h1 h2
      have hk : k < vn := by simpa using h1
      have hx : x.getD k [] = x[k] := by simp [List.getD_eq_getElem?_getD, h2]
      have hlen := hn x[k] (List.getElem_mem h2)
      unfold compK
      apply List.ext_getElem
      · simp [hlen]
      · intro i h3 h4
        simp [List.getD_eq_getElem?_getD, hk, h2, h4]

/-! ### single entries -/

theorem gsOut_get {v : Nat → List V} {q i : Nat} {x : Int} {y : V} (hx : (ids q)[i]? = some x) (hy : (v q)[i]? = some y) :
    (gsOut f e np ids v q)[i]? = some (if x = 0 then y else reduce f e (unflagged np ids v x.natAbs)) := by
  unfold gsOut
  rw [List.getElem?_map, List.getElem?_zip_eq_some.2 (⟨hx, hy⟩ : (ids q)[i]? = some (x, y).1 ∧ (v q)[i]? = some (x, y).2)]
  rfl

theorem gsOutT_get {v : Nat → List V} {q i : Nat} {x : Int} {y : V} (hx : (ids q)[i]? = some x) (hy : (v q)[i]? = some y) :
    (gsOutT f e np ids v q)[i]? = some (if 0 < x then reduce f e (members np ids v x.natAbs)
      else if x < 0 ∧ loneFlagged (ids q) i x.natAbs then reduce f e (pick (fun y => y.natAbs = x.natAbs) (ids q) (v q)) else y) := by
  unfold gsOutT
  rw [List.getElem?_map, List.getElem?_zipIdx, List.getElem?_zip_eq_some.2 (⟨hx, hy⟩ : (ids q)[i]? = some (x, y).1 ∧ (v q)[i]? = some (x, y).2)]
  simp

theorem pick_congr_zero (c : Int → Bool) (hc : c 0 = false) : ∀ (ids : List Int) (v v' : List V), v.length = ids.length → v'.length = ids.length →
    (∀ i : Nat, ids[i]? ≠ some 0 → v[i]? = v'[i]?) → pick c ids v = pick c ids v'
  | [], _, _, _, _, _ => rfl
  | x :: ids, v, v', h1, h2, h => by
    match v, v', h1, h2 with
    | y :: v, y' :: v', h1, h2 =>
      have ih := pick_congr_zero c hc ids v v' (by simpa using h1) (by simpa using h2) (fun i hi => by simpa using h (i + 1) (by simpa using hi))
      unfold pick at *
      rw [List.zip_cons_cons, List.zip_cons_cons, List.filter_cons, List.filter_cons]
      by_cases hx : x = 0
      · subst hx
        simp only [hc]
        simpa using ih
      · have : y = y' := by simpa using h 0 (by simpa using hx)
        subst this
        by_cases hcx : c x = true
        · simp only [hcx, if_true, List.map_cons, ih]
        · simp only [hcx]
          simpa using ih

theorem gsResult_zero {t : Bool} {v v' : Nat → List V} (hl : ∀ q, q < np → (v q).length = (ids q).length) (hl' : ∀ q, q < np → (v' q).length = (ids q).length)
    (h : ∀ q, q < np → ∀ i : Nat, (ids q)[i]? ≠ some 0 → (v q)[i]? = (v' q)[i]?) {q : Nat} (hq : q < np) {i : Nat} (hi : (ids q)[i]? ≠ some 0) :
    (gsResult t f e np ids v q)[i]? = (gsResult t f e np ids v' q)[i]? := by
  cases hx : (ids q)[i]? with
  | none =>
    have hlt : (ids q).length ≤ i := List.getElem?_eq_none_iff.1 hx
    rw [List.getElem?_eq_none, List.getElem?_eq_none]
    · unfold gsResult gsOutT gsOut
      split <;> simp [List.length_zip, hl' q hq] <;> omega
    · unfold gsResult gsOutT gsOut
      split <;> simp [List.length_zip, hl q hq] <;> omega
  | some x =>
    have hx0 : x ≠ 0 := fun h0 => hi (by rw [hx, h0])
    have hlt : i < (ids q).length := (List.getElem?_eq_some_iff.1 hx).1
    obtain ⟨y, hy⟩ : ∃ y, (v q)[i]? = some y := ⟨_, List.getElem?_eq_getElem (by rw [hl q hq]; exact hlt)⟩
    have hy' : (v' q)[i]? = some y := by rw [← h q hq i hi]; exact hy
    have hnz : x.natAbs ≠ 0 := by omega
    have hu : unflagged np ids v x.natAbs = unflagged np ids v' x.natAbs := by
      apply List.flatMap_congr
      intro p hp
      have hp := List.mem_range.1 hp
      exact pick_congr_zero _ (decide_eq_false (fun h0 => by omega)) _ _ _ (hl p hp) (hl' p hp) (h p hp)
    have hm : members np ids v x.natAbs = members np ids v' x.natAbs := by
      apply List.flatMap_congr
      intro p hp
      have hp := List.mem_range.1 hp
      exact pick_congr_zero _ (by simp; omega) _ _ _ (hl p hp) (hl' p hp) (h p hp)
    cases t with
    | false =>
      show (gsOut f e np ids v q)[i]? = (gsOut f e np ids v' q)[i]?
      rw [gsOut_get hx hy, gsOut_get hx hy', hu]
    | true =>
      show (gsOutT f e np ids v q)[i]? = (gsOutT f e np ids v' q)[i]?
      rw [gsOutT_get hx hy, gsOutT_get hx hy', hm, pick_congr_zero _ (by simp; omega) _ _ _ (hl q hq) (hl' q hq) (h q hq)]

end Gslib.Gs
