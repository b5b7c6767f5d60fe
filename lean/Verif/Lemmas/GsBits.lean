import Verif.Spec.GsBits
import Verif.Lemmas.GsBuf
import Verif.Props.GsNb

/-!
# Nonblocking gather-scatter with the pairwise method: the same bits as the blocking operation
-/

namespace Gslib.Gs
open Gslib Gslib.Mpi Gslib.Spec Gslib.Comm Gslib.Nb

variable {T U U' : Type} {np : Nat} {ids : Nat → List Int} {D : Dom T} {op : Op}

/-- no contents -/
def emptySt (u : U) : GsSt U (Option T) := ⟨u, [], fun _ => none, []⟩

theorem pw_indep {RU : U → U' → Prop} {K : Kernels U (Option T)} {K' : Kernels U' T} (hK : KBuf RU OptRel K K') {h : Nat → GsData} (hpw : PwHandles np ids h) (t : Bool) {T' : Nat}
    (hM : Matched (gsOp K (optDom D) op np t h) np T') {u : Nat → U} {s' : Nat → GsSt U (Option T)} (hr : lockRun (gsOp K (optDom D) op np t h) np T' (fun q => emptySt (u q)) = .ok s')
    (r : Nat → U') (hu : ∀ q, q < np → ∀ x, RU (s' q).u x → x = r q) (s : Nat → GsSt U' T) (hs : ∀ q, q < np → RU (u q) (s q).u) :
    (∀ nbc, ∃ s1, OpRun np (fun p => igsStep K' D op nbc np t (h p) p) s s1 ∧ ∀ q, q < np → (s1 q).u = r q) ∧
    ∀ (T2 : Nat) (s2 : Nat → GsSt U' T), Matched (gsOp K' D op np t h) np T2 → lockRun (gsOp K' D op np t h) np T2 s = .ok s2 → ∀ q, q < np → (s2 q).u = r q := by
  have h1 : ∀ nbc, ∃ s1, OpRun np (fun p => igsStep K' D op nbc np t (h p) p) s s1 ∧ ∀ q, q < np → (s1 q).u = r q := by
    intro nbc
    obtain ⟨s1, h1, h2⟩ := igsPw_buf (D' := D) hK (g := none) (fun y x hx => nomatch hx) hpw nbc t (igsPw_matched hpw K (optDom D) op nbc t) (opRun_of_gsOp hpw K (optDom D) op nbc t hM hr)
      (fun _ _ => rfl) (fun _ _ _ => rfl) (s' := s) hs
    exact ⟨s1, h1, fun q hq => hu q hq _ (h2 q hq)⟩
  refine ⟨h1, ?_⟩
  intro T2 s2 hM2 hr2 q hq
  obtain ⟨s1, h2, h3⟩ := h1 false
  rw [← h3 q hq]
  rw [OpRun.unique (igsPw_matched hpw K' D op false t) (opRun_of_gsOp hpw K' D op false t hM2 hr2) h2 q hq]

/-- gs -/
theorem pwPlain (D : Dom T) (op : Op) {h : Nat → GsData} (hh : Handles np ids h) (hpw : PwHandles np ids h) (t : Bool) (v : Nat → List T) (hl : ∀ q, q < np → (v q).length = (ids q).length) :
    ∃ r : Nat → List T, (∀ q, q < np → GsCombines (D.doOp op) (D.identity op) t np ids v q (r q)) ∧
      ∀ s : Nat → GsSt (List T) T, (∀ q, q < np → (s q).u = v q) →
        (∀ nbc, ∃ s1, OpRun np (fun p => igsStep (plainKernels D op) D op nbc np t (h p) p) s s1 ∧ ∀ q, q < np → (s1 q).u = r q) ∧
        AllSchedules (gsOp (plainKernels D op) D op np t h) np s fun s2 => ∀ q, q < np → (s2 q).u = r q := by
  obtain ⟨T', s', hM, hr, hu⟩ := gsAny_lock (optDom D) op hh t (fun q => (v q).map some) (fun q hq => by rw [List.length_map, hl q hq]) (fun q => emptySt ((v q).map some)) fun _ _ => rfl
  have hex : ∀ q, ∃ r, q < np → (s' q).u = r.map some ∧ GsCombines (D.doOp op) (D.identity op) t np ids v q r := by
    intro q
    by_cases hq : q < np
    · obtain ⟨r, h⟩ := gsCombines_opt (hu q hq)
      exact ⟨r, fun _ => h⟩
    · exact ⟨[], fun h => absurd h hq⟩
  choose r hr' using hex
  refine ⟨r, fun q hq => (hr' q hq).2, ?_⟩
  intro s hs
  obtain ⟨h1, h2⟩ := pw_indep (D := D) (plain_buf (optDom_rel D op)) hpw t hM hr r (fun q hq x hx => by rw [(hr' q hq).1] at hx; exact optRel_eq hx) s (fun q hq => by rw [hs q hq]; exact optRel_some _)
  refine ⟨h1, ?_⟩
  obtain ⟨T2, s2, hM2, hr2, -⟩ := gsAny_lock D op hh t v hl s hs
  exact allSchedules_of_lockRun hM2 hr2 _ fun z hz q hq => by rw [hz q hq]; exact h2 T2 s2 hM2 hr2 q hq

theorem column_map {A B : Type} (g : A → B) (vn k : Nat) (x : List A) : column vn k (x.map g) = (column vn k x).map g := by
  unfold column
  rw [List.length_map, List.map_filterMap]
  apply List.filterMap_congr
  intro i _
  rw [List.getElem?_map]

/-- gs_vec -/
theorem pwVec (D : Dom T) (op : Op) {h : Nat → GsData} (hh : Handles np ids h) (hpw : PwHandles np ids h) (t : Bool) {vn : Nat} (hvn : 1 ≤ vn) (v : Nat → List T)
    (hl : ∀ q, q < np → (v q).length = (ids q).length * vn) :
    ∃ r : Nat → List T, (∀ q, q < np → (r q).length = (v q).length ∧ ∀ k, k < vn → GsCombines (D.doOp op) (D.identity op) t np ids (fun p => column vn k (v p)) q (column vn k (r q))) ∧
      ∀ s : Nat → GsSt (List T) T, (∀ q, q < np → (s q).u = v q) →
        (∀ nbc, ∃ s1, OpRun np (fun p => igsStep (vecKernels D op vn) D op nbc np t (h p) p) s s1 ∧ ∀ q, q < np → (s1 q).u = r q) ∧
        AllSchedules (gsOp (vecKernels D op vn) D op np t h) np s fun s2 => ∀ q, q < np → (s2 q).u = r q := by
  obtain ⟨T', s', hM, hr, hu⟩ := gsAnyVec_lock (optDom D) op hh t (vn := vn) (fun q => (v q).map some) (fun q hq => by rw [List.length_map, hl q hq]) (fun q => emptySt ((v q).map some)) fun _ _ => rfl
  have hex : ∀ q, ∃ r : List T, q < np → (s' q).u = r.map some ∧ (r.length = (v q).length ∧ ∀ k, k < vn → GsCombines (D.doOp op) (D.identity op) t np ids (fun p => column vn k (v p)) q (column vn k r)) := by
    intro q
    by_cases hq : q < np
    · obtain ⟨h1, h2⟩ := hu q hq
      rw [List.length_map] at h1
      have h3 : ∀ k, k < vn → ∃ r, column vn k (s' q).u = r.map some ∧ GsCombines (D.doOp op) (D.identity op) t np ids (fun p => column vn k (v p)) q r := by
        intro k hk
        have := h2 k hk
        simp only [column_map] at this
        exact gsCombines_opt this
      have hl' : (s' q).u.length = (ids q).length * vn := by rw [h1, hl q hq]
      have hall : ∀ x ∈ (s' q).u, ∃ y, x = some y := by
        intro x hx
        obtain ⟨i, hi, hix⟩ := List.getElem_of_mem hx
        have hk : i % vn < vn := Nat.mod_lt _ (by omega)
        obtain ⟨r, hr, -⟩ := h3 (i % vn) hk
        have hd : i / vn < (ids q).length := by
          rw [Nat.div_lt_iff_lt_mul (by omega)]; omega
        have := column_get hk hl' hd
        rw [hr, Nat.div_add_mod' i vn, List.getElem?_eq_getElem hi, hix, List.getElem?_map] at this
        obtain ⟨y, -, hy⟩ := Option.map_eq_some_iff.1 this
        exact ⟨y, hy.symm⟩
      have hmap : (s' q).u = ((s' q).u.filterMap id).map some := by
        generalize (s' q).u = l at hall
        induction l with
        | nil => rfl
        | cons x l ih =>
          obtain ⟨y, rfl⟩ := hall x (by simp)
          show some y :: l = some y :: (l.filterMap id).map some
          rw [← ih fun z hz => hall z (by simp [hz])]
      refine ⟨(s' q).u.filterMap id, fun _ => ⟨hmap, ?_, fun k hk => ?_⟩⟩
      · have := congrArg List.length hmap
        rw [List.length_map] at this
        omega
      · obtain ⟨r, hr, hc⟩ := h3 k hk
        rw [hmap, column_map] at hr
        rw [List.map_injective_iff.2 (Option.some_injective T) hr]
        exact hc
    · exact ⟨[], fun h => absurd h hq⟩
  choose r hr' using hex
  refine ⟨r, fun q hq => (hr' q hq).2, ?_⟩
  intro s hs
  obtain ⟨h1, h2⟩ := pw_indep (D := D) (vec_buf (optDom_rel D op) vn) hpw t hM hr r (fun q hq x hx => by rw [(hr' q hq).1] at hx; exact optRel_eq hx) s (fun q hq => by rw [hs q hq]; exact optRel_some _)
  refine ⟨h1, ?_⟩
  obtain ⟨T2, s2, hM2, hr2, -⟩ := gsAnyVec_lock D op hh t v hl s hs
  exact allSchedules_of_lockRun hM2 hr2 _ fun z hz q hq => by rw [hz q hq]; exact h2 T2 s2 hM2 hr2 q hq

theorem optRel_eqs {l l' : List (List T)} (h : LRel (LRel OptRel) (l.map (List.map some)) l') : l' = l := by
  induction l generalizing l' with
  | nil => cases h; rfl
  | cons x l ih =>
    cases h with
    | cons hd tl => rw [ih tl, optRel_eq hd]

/-- gs_many -/
theorem pwMany (D : Dom T) (op : Op) {h : Nat → GsData} (hh : Handles np ids h) (hpw : PwHandles np ids h) (t : Bool) {vn : Nat} (v : Nat → Nat → List T)
    (hl : ∀ q, q < np → ∀ k, k < vn → (v q k).length = (ids q).length) :
    ∃ r : Nat → List (List T), (∀ q, q < np → List.Forall₂ (fun k u => GsCombines (D.doOp op) (D.identity op) t np ids (fun p => v p k) q u) (List.range vn) (r q)) ∧
      ∀ s : Nat → GsSt (List (List T)) T, (∀ q, q < np → (s q).u = (List.range vn).map (v q)) →
        (∀ nbc, ∃ s1, OpRun np (fun p => igsStep (manyKernels D op vn) D op nbc np t (h p) p) s s1 ∧ ∀ q, q < np → (s1 q).u = r q) ∧
        AllSchedules (gsOp (manyKernels D op vn) D op np t h) np s fun s2 => ∀ q, q < np → (s2 q).u = r q := by
  obtain ⟨T', s', hM, hr, hu⟩ := gsAnyMany_lock (optDom D) op hh t (vn := vn) (fun q k => (v q k).map some) (fun q hq k hk => by rw [List.length_map, hl q hq k hk])
    (fun q => emptySt ((List.range vn).map fun k => (v q k).map some)) fun _ _ => rfl
  have hex : ∀ q, ∃ r, q < np → (s' q).u = r.map (List.map some) ∧ List.Forall₂ (fun k u => GsCombines (D.doOp op) (D.identity op) t np ids (fun p => v p k) q u) (List.range vn) r := by
    intro q
    by_cases hq : q < np
    · have := hu q hq
      generalize List.range vn = l at this
      generalize (s' q).u = o at this
      have key : ∃ r, o = r.map (List.map some) ∧ List.Forall₂ (fun k u => GsCombines (D.doOp op) (D.identity op) t np ids (fun p => v p k) q u) l r := by
        induction this with
        | nil => exact ⟨[], rfl, .nil⟩
        | cons hd _ ih =>
          obtain ⟨r, rfl, hr⟩ := ih
          obtain ⟨x, rfl, hx⟩ := gsCombines_opt hd
          exact ⟨x :: r, rfl, .cons hx hr⟩
      obtain ⟨r, h⟩ := key
      exact ⟨r, fun _ => h⟩
    · exact ⟨[], fun h => absurd h hq⟩
  choose r hr' using hex
  refine ⟨r, fun q hq => (hr' q hq).2, ?_⟩
  intro s hs
  obtain ⟨h1, h2⟩ := pw_indep (D := D) (many_buf (optDom_rel D op) vn) hpw t hM hr r (fun q hq x hx => by rw [(hr' q hq).1] at hx; exact optRel_eqs hx) s (fun q hq => by
    rw [hs q hq]
    exact List.forall₂_map_left_iff.2 (List.forall₂_map_right_iff.2 (List.forall₂_same.2 fun k _ => optRel_some _)))
  refine ⟨h1, ?_⟩
  obtain ⟨T2, s2, hM2, hr2, -⟩ := gsAnyMany_lock D op hh t v hl s hs
  exact allSchedules_of_lockRun hM2 hr2 _ fun z hz q hq => by rw [hz q hq]; exact h2 T2 s2 hM2 hr2 q hq

/-- the same kind and sizes -/
def SameShape : UserData T → UserData T → Prop
  | .one x, .one y => y.length = x.length
  | .many xs, .many ys => ys.map List.length = xs.map List.length
  | _, _ => False

theorem SameShape.fits {i : List Int} {m : Mode} {x y : UserData T} (h : SameShape x y) (hx : Fits i m x) : Fits i m y := by
  unfold Fits DataOk at *
  cases m <;> cases x <;> cases y <;> simp only [SameShape] at h hx ⊢
  · exact ⟨h.trans hx.1, fun _ _ => trivial⟩
  · exact ⟨hx.1, h.trans hx.2.1, fun _ _ => trivial⟩
  · rename_i xs ys
    refine ⟨hx.1, ?_, fun y hy => ⟨?_, fun _ _ => trivial⟩⟩
    · have := congrArg List.length h
      simp only [List.length_map] at this
      exact this.trans hx.2.1
    · have : y.length ∈ xs.map List.length := by rw [← h]; exact List.mem_map.2 ⟨y, hy, rfl⟩
      obtain ⟨x, hx', he⟩ := List.mem_map.1 this
      rw [← he]; exact (hx.2.2 x hx').1

theorem gsCombines_length {f : T → T → T} {e : T} {t : Bool} {v : Nat → List T} {q : Nat} {out : List T} (h : GsCombines f e t np ids v q out) (hl : (v q).length = (ids q).length) : out.length = (ids q).length := by
  rw [← h.terms.length_eq, gsTerms_length t v q hl]

/-- one operation with the pairwise method -/
theorem pw_op (D : Dom T) {h : Nat → Nat → GsData} {g : Nat} (hh : Handles np ids (h g)) (hpw : PwHandles np ids (h g)) (a : GsArgs) (hnp : 0 < np) {v : Nat → UserData T} (hv : ∀ q, q < np → Fits (ids q) a.mode (v q)) :
    ∃ r : Nat → UserData T, GsReturns D np (h g) a v r ∧ (∀ q, q < np → GsMayReturn D np ids a v q (r q) ∧ SameShape (v q) (r q)) ∧
      ∀ nbc (b : Nat → NbBuf T), ∃ d', OpRun np (igsEx D nbc np h a g) (fun q => (v q, b q)) d' ∧ ∀ q, q < np → (d' q).1 = r q := by
  rcases a with ⟨mode, op, t⟩
  cases mode with
  | plain =>
    have hx : ∀ q, q < np → v q = .one (arrayOf (v q)) ∧ (arrayOf (v q)).length = (ids q).length := by
      intro q hq
      have := hv q hq
      unfold Fits at this
      cases hvq : v q with
      | one x => rw [hvq] at this; exact ⟨rfl, this.1⟩
      | many xs => rw [hvq] at this; exact absurd this id
    obtain ⟨r, h1, h2⟩ := pwPlain D op hh hpw t (fun q => arrayOf (v q)) fun q hq => (hx q hq).2
    refine ⟨fun q => .one (r q), ?_, fun q hq => ⟨h1 q hq, ?_⟩, ?_⟩
    · intro s2 hs2
      have h3 := (h2 s2 fun q hq => by rw [hs2 q hq]; rfl).2
      exact ⟨h3.noInfinite, h3.noDeadlock, fun c hc hf => ⟨fun q hq => by rw [(h3.result c hc hf).1 q hq], (h3.result c hc hf).2⟩⟩
    · rw [(hx q hq).1]
      show (r q).length = _
      rw [gsCombines_length (h1 q hq) (hx q hq).2, (hx q hq).2]
    · intro nbc b
      obtain ⟨s', h3, h4⟩ := (h2 (fun q => ⟨arrayOf (v q), (b q).buf, (b q).fill, (b q).arr⟩) fun _ _ => rfl).1 nbc
      refine ⟨_, opRun_onUser (get := UserData.getOne) (put := .one) (x := v) (u := fun q => arrayOf (v q)) (fun _ => rfl) (igsPw_matched hpw _ D op nbc t) (fun p hp => congrArg UserData.getOne (hx p hp).1) h3, ?_⟩
      intro q hq
      show UserData.one (s' q).u = _
      rw [h4 q hq]
  | vec vn =>
    have hx : ∀ q, q < np → v q = .one (arrayOf (v q)) ∧ 1 ≤ vn ∧ (arrayOf (v q)).length = (ids q).length * vn := by
      intro q hq
      have := hv q hq
      unfold Fits at this
      cases hvq : v q with
      | one x => rw [hvq] at this; exact ⟨rfl, this.1, this.2.1⟩
      | many xs => rw [hvq] at this; exact absurd this id
    obtain ⟨r, h1, h2⟩ := pwVec D op hh hpw t (hx 0 hnp).2.1 (fun q => arrayOf (v q)) fun q hq => (hx q hq).2.2
    refine ⟨fun q => .one (r q), ?_, fun q hq => ⟨⟨(h1 q hq).1.trans (hx q hq).2.2, (h1 q hq).2⟩, ?_⟩, ?_⟩
    · intro s2 hs2
      have h3 := (h2 s2 fun q hq => by rw [hs2 q hq]; rfl).2
      exact ⟨h3.noInfinite, h3.noDeadlock, fun c hc hf => ⟨fun q hq => by rw [(h3.result c hc hf).1 q hq], (h3.result c hc hf).2⟩⟩
    · rw [(hx q hq).1]
      exact (h1 q hq).1
    · intro nbc b
      obtain ⟨s', h3, h4⟩ := (h2 (fun q => ⟨arrayOf (v q), (b q).buf, (b q).fill, (b q).arr⟩) fun _ _ => rfl).1 nbc
      refine ⟨_, opRun_onUser (get := UserData.getOne) (put := .one) (x := v) (u := fun q => arrayOf (v q)) (fun _ => rfl) (igsPw_matched hpw _ D op nbc t) (fun p hp => congrArg UserData.getOne (hx p hp).1) h3, ?_⟩
      intro q hq
      show UserData.one (s' q).u = _
      rw [h4 q hq]
  | many vn =>
    have hx : ∀ q, q < np → v q = .many ((List.range vn).map fun k => arrayNo k (v q)) ∧ ∀ k, k < vn → (arrayNo k (v q)).length = (ids q).length := by
      intro q hq
      have := hv q hq
      unfold Fits at this
      cases hvq : v q with
      | one x => rw [hvq] at this; exact absurd this id
      | many xs =>
        rw [hvq] at this
        obtain ⟨-, hl, ha⟩ := this
        constructor
        · congr 1
          apply List.ext_getElem
          · simp [hl]
          · intro k h1 h2
            simp [arrayNo, h1]
        · intro k hk
          show (xs.getD k []).length = _
          rw [List.getD_eq_getElem _ _ (by omega)]
          exact (ha _ (List.getElem_mem _)).1
    obtain ⟨r, h1, h2⟩ := pwMany D op hh hpw t (vn := vn) (fun q k => arrayNo k (v q)) fun q hq => (hx q hq).2
    refine ⟨fun q => .many (r q), ?_, fun q hq => ⟨h1 q hq, ?_⟩, ?_⟩
    · intro s2 hs2
      have h3 := (h2 s2 fun q hq => by
        have e := (hx q hq).1
        rw [hs2 q hq] at e
        have e := UserData.many.inj e
        rw [e, hs2 q hq]).2
      exact ⟨h3.noInfinite, h3.noDeadlock, fun c hc hf => ⟨fun q hq => by rw [(h3.result c hc hf).1 q hq], (h3.result c hc hf).2⟩⟩
    · rw [(hx q hq).1]
      show (r q).map List.length = ((List.range vn).map fun k => arrayNo k (v q)).map List.length
      rw [List.map_map]
      have h3 := h1 q hq
      have h5 := (hx q hq).2
      have h4 : ∀ k ∈ List.range vn, (arrayNo k (v q)).length = (ids q).length := fun k hk => h5 k (List.mem_range.1 hk)
      generalize List.range vn = l at h3 h4
      generalize r q = o at h3
      induction h3 with
      | nil => rfl
      | @cons x y xs ys hd _ ih =>
        rw [List.map_cons, List.map_cons, ih fun k hk => h4 k (by simp [hk])]
        congr 1
        show y.length = (arrayNo x (v q)).length
        rw [h4 x (by simp)]
        exact gsCombines_length hd (h4 x (by simp))
    · intro nbc b
      obtain ⟨s', h3, h4⟩ := (h2 (fun q => ⟨(List.range vn).map fun k => arrayNo k (v q), (b q).buf, (b q).fill, (b q).arr⟩) fun _ _ => rfl).1 nbc
      refine ⟨_, opRun_onUser (get := UserData.getMany) (put := .many) (x := v) (u := fun q => (List.range vn).map fun k => arrayNo k (v q)) (fun _ => rfl) (igsPw_matched hpw _ D op nbc t)
        (fun p hp => congrArg UserData.getMany (hx p hp).1) h3, ?_⟩
      intro q hq
      show UserData.many (s' q).u = _
      rw [h4 q hq]

theorem igsEx_matched {h : Nat → Nat → GsData} {g : Nat} (hpw : PwHandles np ids (h g)) (D : Dom T) (nbc : Bool) (a : GsArgs) : OpMatched np (igsEx D nbc np h a g) := by
  rcases a with ⟨mode, op, t⟩
  cases mode <;> exact opMatched_onUser (igsPw_matched hpw _ D op nbc t)

/-- some schedule of gs ends -/
theorem GsReturns.unique {D : Dom T} {h : Nat → GsData} {a : GsArgs} {v r r' : Nat → UserData T} (hv : ∀ q, q < np → Fits (ids q) a.mode (v q)) [Nonempty T] (h1 : GsReturns D np h a v r) (h2 : GsReturns D np h a v r') :
    ∀ q, q < np → r q = r' q := by
  obtain ⟨x0⟩ := ‹Nonempty T›
  have key : ∀ {U : Type} {prog : Nat → Prog (GsSt U T) (List T)} {s0 : Nat → GsSt U T} {put : U → UserData T}, AllSchedules prog np s0 (fun s3 => ∀ q, q < np → r q = put (s3 q).u) →
      AllSchedules prog np s0 (fun s3 => ∀ q, q < np → r' q = put (s3 q).u) → ∀ q, q < np → r q = r' q := by
    intro U prog s0 put a1 a2 q hq
    obtain ⟨c, hc, hf⟩ := Props.exists_finished a1
    rw [(a1.result c hc hf).1 q hq, (a2.result c hc hf).1 q hq]
  rcases a with ⟨mode, op, t⟩
  have hone : (∀ q, q < np → ∃ x, v q = .one x) → ∀ q, q < np → v q = .one (arrayOf (v q)) := by
    intro h q hq
    obtain ⟨x, hx⟩ := h q hq
    rw [hx]; rfl
  cases mode with
  | plain =>
    have hx := hone fun q hq => by
      have := hv q hq
      unfold Fits at this
      cases hvq : v q with
      | one x => exact ⟨x, rfl⟩
      | many xs => rw [hvq] at this; exact absurd this id
    exact key (h1 (fun q => ⟨arrayOf (v q), [], fun _ => x0, []⟩) hx) (h2 (fun q => ⟨arrayOf (v q), [], fun _ => x0, []⟩) hx)
  | vec vn =>
    have hx := hone fun q hq => by
      have := hv q hq
      unfold Fits at this
      cases hvq : v q with
      | one x => exact ⟨x, rfl⟩
      | many xs => rw [hvq] at this; exact absurd this id
    exact key (h1 (fun q => ⟨arrayOf (v q), [], fun _ => x0, []⟩) hx) (h2 (fun q => ⟨arrayOf (v q), [], fun _ => x0, []⟩) hx)
  | many vn =>
    have hx : ∀ q, q < np → v q = .many ((v q).getMany.getD []) := by
      intro q hq
      have := hv q hq
      unfold Fits at this
      cases hvq : v q with
      | one x => rw [hvq] at this; exact absurd this id
      | many xs => rfl
    exact key (h1 (fun q => ⟨(v q).getMany.getD [], [], fun _ => x0, []⟩) hx) (h2 (fun q => ⟨(v q).getMany.getD [], [], fun _ => x0, []⟩) hx)

theorem fromSetup_pw {h : Nat → GsData} (hs : FromSetup .pairwise np ids h) : PwHandles np ids h := by
  obtain ⟨hin, s0, c, h0, hr, hf, hh⟩ := hs
  obtain ⟨s', e, -, hpw⟩ := gsSetup_run' hin .pairwise s0 h0
  have := ((allSchedules_of_lockRun (gsSetup_ok false .pairwise np) e (fun s => ∀ q, q < np → s q = s' q) fun _ h => h).result c hr hf).1
  intro q hq
  have := this q hq
  beta_reduce at this
  rw [hh q hq, this]
  exact hpw rfl q hq

end Gslib.Gs
