import Verif.Lemmas.Transfer
import Verif.Lemmas.Crystal
import Mathlib.Algebra.BigOperators.Ring.Finset

namespace Gslib.Transfer
open Gslib Gslib.Crystal Gslib.Spec Gslib.Mpi Gslib.Sorting

/-! ## unpacking all arrays -/

theorem readOk_more {rs size off : Nat} (h : off + size ≤ 4 * rs) (data : List Nat) :
    ReadOk rs data (fun _ pos => peek data (4 * pos + off) size) (fun _ s => ((bytesOf s).drop off).take size) := by
  intro A g B _ A' s B' hd hs
  simp only [hd]
  rw [peek_mid A' s B' off size (by omega)]

theorem readOk_int {rs size pOff : Nat} (setSrc : Bool) (h : size - 4 ≤ 4 * rs) (hf : pOff + 4 ≤ size) (data : List Nat) :
    ReadOk rs data (rdInt size pOff setSrc data)
      (fun g s => (bytesOf s).take pOff ++ le4 (if setSrc then g.src else g.tgt) ++ ((bytesOf s).drop pOff).take (size - (pOff + 4))) := by
  intro A g B hd0 A' s B' hd hs
  unfold rdInt
  have h1 : data[A.length + if setSrc = true then 1 else 0]? = some (if setSrc = true then g.src else g.tgt) := by
    rw [hd0, words_eq, List.append_assoc, List.getElem?_append_right (by omega)]
    cases setSrc <;> simp
  have h2 := peek_mid A' s B' 0 pOff (by omega)
  have h3 := peek_mid A' s B' pOff (size - (pOff + 4)) (by omega)
  rw [← hd] at h2 h3
  rw [h1]
  simp only [Nat.add_zero, List.drop_zero] at h2
  simp only [bind, Option.bind, h2, h3]

/-- the decoded rows of the messages -/
def decAll (P : Params) (gs : List G) : List Row := gs.flatMap fun g => g.slots.map (decRow P g.src g.tgt)

theorem decAll_length (P : Params) (gs : List G) : (decAll P gs).length = nRows gs := by
  simp [decAll, nRows, List.length_flatMap]

theorem unpackMore_spec {rs size off cap : Nat} (hrs : 0 < rs) (h : off + size ≤ 4 * rs) (gs : List G) (data post : List Nat)
    (hd : data = flat (gs.map G.msg) ++ post) (hs : ∀ g ∈ gs, ∀ s ∈ g.slots, s.length = rs) (hc : nRows gs ≤ cap) :
    unpackMore size off rs data (flat (gs.map G.msg)).length cap =
      some (gs.flatMap fun g => g.slots.map fun s => ((bytesOf s).drop off).take size) := by
  unfold unpackMore
  exact unpackLoop_all (readOk_more h data) hrs gs post hd hs hc

theorem unpackRest_spec {rs cap nr : Nat} (hrs : 0 < rs) (gs : List G) (data post : List Nat)
    (hd : data = flat (gs.map G.msg) ++ post) (hs : ∀ g ∈ gs, ∀ s ∈ g.slots, s.length = rs) (hc : nRows gs ≤ cap) (hnr : nr = nRows gs) :
    ∀ (As : List (List (List Nat))) (sizes : List Nat) (off : Nat), As.length = sizes.length → off + sizes.sum ≤ 4 * rs →
      unpackRest rs data (flat (gs.map G.msg)).length cap nr off As sizes =
        some (colsOf sizes.length (gs.flatMap fun g => g.slots.map fun s => splits off sizes (bytesOf s)))
  | [], [], off, _, _ => by simp [unpackRest, colsOf]
  | A :: As, z :: zs, off, hl, h => by
    simp only [List.length_cons, Nat.add_right_cancel_iff] at hl
    simp only [List.sum_cons] at h
    have ih := unpackRest_spec hrs gs data post hd hs hc hnr As zs (off + z) hl (by omega)
    unfold unpackRest
    have e1 : (gs.flatMap fun g => g.slots.map fun s => splits off (z :: zs) (bytesOf s)).map (fun r => r.getD 0 []) =
        gs.flatMap fun g => g.slots.map fun s => ((bytesOf s).drop off).take z := by
      simp [List.map_flatMap, splits, Function.comp_def]
    have e2 : (gs.flatMap fun g => g.slots.map fun s => splits off (z :: zs) (bytesOf s)).map List.tail =
        gs.flatMap fun g => g.slots.map fun s => splits (off + z) zs (bytesOf s) := by
      simp [List.map_flatMap, splits, Function.comp_def]
    rw [List.length_cons, colsOf_succ, e1, e2]
    by_cases c : z = 0
    · rw [if_neg (by simp [c])]
      subst c
      rw [Nat.add_zero] at ih
      rw [ih]
      simp only [bind, Option.bind, List.take_zero, Nat.add_zero]
      congr 2
      rw [hnr]
      symm
      rw [List.eq_replicate_iff]
      constructor
      · simp [nRows, List.length_flatMap]
      · intro b hb
        simp only [List.mem_flatMap, List.mem_map] at hb
        obtain ⟨_, _, _, _, hb⟩ := hb
        exact hb.symm
    · rw [if_pos c, unpackMore_spec hrs (by omega) gs data post hd hs hc]
      simp only [bind, Option.bind, ih]

theorem unpackAll_spec {P : Params} (hw : Wf P) (s : TrState) (hcl : s.cols.length = P.sizes.length) (gs : List G) (data post : List Nat)
    (hd : data = flat (gs.map G.msg) ++ post) (hs : ∀ g ∈ gs, ∀ s ∈ g.slots, s.length = P.rowSize) {cap ret : Nat} (hc : nRows gs ≤ cap)
    (hr : min ret cap = nRows gs) :
    unpackAll P s data (flat (gs.map G.msg)).length cap ret =
      some { s with cols := colsOf P.sizes.length (decAll P gs), ret := ret } := by
  obtain ⟨z, zs, hz⟩ : ∃ z zs, P.sizes = z :: zs := by
    cases h : P.sizes with
    | nil => exact absurd h hw.ne
    | cons z zs => exact ⟨z, zs, rfl⟩
  have hhd : P.sizes.headD 0 = z := by rw [hz]; rfl
  have htl : P.sizes.tail = zs := by rw [hz]; rfl
  have hrb := row_bytes P
  rw [htl] at hrb
  have hoff : P.off1 = if P.ext then z else z - 4 := by unfold Params.off1; rw [hhd]
  unfold unpackAll
  split
  · rename_i A As z' zs' q1 q2
    rw [hz] at q2
    cases q2
    have hl : As.length = zs.length := by rw [q1, hz] at hcl; simpa using hcl
    have h1 : (if P.ext then unpackMore z 0 P.rowSize data (flat (gs.map G.msg)).length cap
        else unpackInt z P.pOff P.setSrc P.rowSize data (flat (gs.map G.msg)).length cap) =
        some ((decAll P gs).map fun r => r.getD 0 []) := by
      by_cases hx : P.ext = true
      · rw [if_pos hx] at hoff ⊢
        rw [unpackMore_spec hw.row (by omega) gs data post hd hs hc]
        congr 1
        simp only [decAll, decRow, List.map_flatMap, List.map_map, Function.comp_def, hx, if_true, hhd, List.drop_zero, List.getD_cons_zero]
      · rw [if_neg hx] at hoff ⊢
        have hx' : P.ext = false := by simpa using hx
        have hf := hw.field hx'
        rw [hhd] at hf
        unfold unpackInt
        rw [unpackLoop_all (readOk_int P.setSrc (by omega) hf data) hw.row gs post hd hs hc]
        congr 1
        simp only [decAll, decRow, List.map_flatMap, List.map_map, Function.comp_def, hx', Bool.false_eq_true, if_false, hhd, List.getD_cons_zero]
    have h2 := unpackRest_spec hw.row gs data post hd hs hc hr As zs P.off1 hl hrb
    rw [h1]
    simp only [bind, Option.bind, h2]
    congr 2
    rw [hz, List.length_cons, colsOf_succ]
    congr 2
    simp only [decAll, decRow, List.map_flatMap, List.map_map, Function.comp_def, List.tail_cons, htl]
  · rename_i q
    match hcs : s.cols with
    | [] => rw [hcs, hz] at hcl; simp at hcl
    | A :: As => exact (q _ _ _ _ hcs hz).elim

/-! ## from groups to rows -/

theorem perm_map_inv {α β : Type} (f : α → β) {l : List α} {o : List β} (h : o.Perm (l.map f)) : ∃ l' : List α, l'.Perm l ∧ o = l'.map f := by
  generalize hm : l.map f = m at h
  induction h generalizing l with
  | nil => exact ⟨l, List.Perm.refl _, hm.symm⟩
  | cons x h ih =>
    match l, hm with
    | a :: l, hm =>
      simp only [List.map_cons, List.cons.injEq] at hm
      obtain ⟨l', h1, h2⟩ := ih hm.2
      exact ⟨a :: l', h1.cons a, by rw [List.map_cons, hm.1, h2]⟩
  | swap x y t =>
    match l, hm with
    | a :: b :: l, hm =>
      simp only [List.map_cons, List.cons.injEq] at hm
      exact ⟨b :: a :: l, List.Perm.swap _ _ _, by simp [hm.1, hm.2.1, hm.2.2]⟩
  | trans h1 h2 ih1 ih2 =>
    obtain ⟨l1, a1, a2⟩ := ih2 hm
    obtain ⟨l2, b1, b2⟩ := ih1 a2.symm
    exact ⟨l2, b1.trans a1, b2⟩

theorem decAll_filter (P : Params) (q p : Nat) : ∀ (gs : List G), (∀ g ∈ gs, g.src = q) →
    decAll P (gs.filter fun g => g.tgt = p) = ((recs gs).filter fun r => r.1 = p).map fun r => decRow P q p r.2
  | [], _ => rfl
  | g :: gs, h => by
    have ih := decAll_filter P q p gs (fun g hg => h g (by simp [hg]))
    have hg := h g (by simp)
    have e : recs (g :: gs) = g.slots.map (g.tgt, ·) ++ recs gs := rfl
    rw [e, List.filter_append, List.map_append, ← ih]
    by_cases c : g.tgt = p
    · rw [List.filter_cons_of_pos (by simpa using c)]
      have : decAll P (g :: gs.filter fun g => g.tgt = p) = g.slots.map (decRow P g.src g.tgt) ++ decAll P (gs.filter fun g => g.tgt = p) := rfl
      rw [this]
      congr 1
      rw [List.filter_eq_self.2 (by simp [c]), List.map_map, hg, c]
      rfl
    · rw [List.filter_cons_of_neg (by simpa using c)]
      have e0 : ((g.slots.map (g.tgt, ·)).filter fun r => r.1 = p) = [] := List.filter_eq_nil_iff.2 (by simp [c])
      rw [e0]
      rfl

theorem zip_filter_map (R : List Row) (D : List Nat) (h : D.length = R.length) (p : Nat) (f : Row → Row) :
    ((List.range R.length).filter fun i => D.getD i 0 = p).map (fun i => f (R.getD i [])) =
      ((R.zip D).filter fun x => x.2 = p).map fun x => f x.1 := by
  have e : R.zip D = (List.range R.length).map fun i => (R.getD i [], D.getD i 0) := by
    apply List.ext_getElem
    · simp [h]
    · intro i h1 h2
      simp only [List.length_zip] at h1
      simp only [List.getElem_zip, List.getElem_map, List.getElem_range, List.getD_eq_getElem?_getD]
      rw [List.getElem?_eq_getElem (by omega), List.getElem?_eq_getElem (by omega)]
      rfl
  rw [e, List.filter_map, List.map_map]
  rfl

theorem recs_rows {P : Params} (hw : Wf P) {R : List Row} {D : List Nat} (hR : ∀ r ∈ R, r.map List.length = P.sizes) (q p : Nat) :
    ∀ (perm : List Nat) (rc : List (Nat × List Nat)), (∀ i ∈ perm, i < R.length) →
    List.Forall₂ (fun i (r : Nat × List Nat) => r.1 = D.getD i 0 ∧
        (bytesOf r.2).take (P.off1 + P.sizes.tail.sum) = packedRow P (R.getD i [])) perm rc →
    (rc.filter fun r => r.1 = p).map (fun r => decRow P q p r.2) =
      (perm.filter fun i => D.getD i 0 = p).map fun i => outRow P q p (R.getD i [])
  | _, _, _, .nil => rfl
  | i :: perm, r :: rc, hi, .cons h t => by
    have ih := recs_rows hw hR q p perm rc (fun i h => hi i (by simp [h])) t
    have hri : R.getD i [] ∈ R := by
      rw [List.getD_eq_getElem?_getD, List.getElem?_eq_getElem (hi i (by simp))]; exact List.getElem_mem _
    by_cases c : r.1 = p
    · rw [List.filter_cons_of_pos (by simpa using c), List.filter_cons_of_pos (by rw [← h.1]; simpa using c), List.map_cons, List.map_cons, ih,
        decRow_eq hw q p _ (hR _ hri) _ h.2]
    · rw [List.filter_cons_of_neg (by simpa using c), List.filter_cons_of_neg (by rw [← h.1]; simpa using c), ih]

/-- the messages for `p` -/
def groupsFor (np : Nat) (gs : Nat → List G) (p : Nat) : List G := (List.range np).flatMap fun q => (gs q).filter fun g => g.tgt = p

theorem addressedTo_groups (np : Nat) (gs : Nat → List G) (p : Nat) :
    addressedTo np (fun q => (gs q).map G.msg) p = (groupsFor np gs p).map G.msg := by
  unfold addressedTo groupsFor
  rw [List.map_flatMap]
  congr 1
  funext q
  rw [List.filter_map]
  rfl

theorem lens_cr : Lens TrState.cr setCr := ⟨fun _ _ => rfl, fun _ => rfl, fun _ _ _ => rfl⟩

theorem router_ok (np : Nat) : (routerColl np).Ok np := router_matched np

theorem transferMany_ok (np : Nat) (P : Params) : (transferMany np P).Ok np :=
  Coll.seq_ok (Coll.seq_ok (Coll.loc_ok _ _ _) (Coll.lift_ok _ _ (router_ok np))) (Coll.loc_ok _ _ _)

theorem nRows_perm {a b : List G} (h : a.Perm b) : nRows a = nRows b := (h.map _).sum_eq

theorem nRows_flat_le {rs : Nat} : ∀ (gs : List G), (∀ g ∈ gs, ∀ s ∈ g.slots, s.length = rs) → nRows gs * rs ≤ (flat (gs.map G.msg)).length
  | [], _ => by simp [nRows, flat]
  | g :: gs, h => by
    have ih := nRows_flat_le gs (fun g hg => h g (by simp [hg]))
    have h1 := flatten_len g.slots (h g (by simp))
    have : nRows (g :: gs) = g.slots.length + nRows gs := by simp [nRows]
    rw [List.map_cons, flat_cons, words_eq, this, Nat.add_mul]
    simp only [List.length_append, List.length_cons]
    omega

theorem perm_flatMap {α β : Type} {f g : α → List β} : ∀ (l : List α), (∀ x ∈ l, (f x).Perm (g x)) → (l.flatMap f).Perm (l.flatMap g)
  | [], _ => List.Perm.refl _
  | x :: l, h => by
    rw [List.flatMap_cons, List.flatMap_cons]
    exact (h x (by simp)).append (perm_flatMap l fun y hy => h y (by simp [hy]))

theorem mid_spec {np : Nat} {P : Params} {s0 : Nat → TrState} {R : Nat → List Row} {D : Nat → List Nat} (h : Inp np P s0 R D) :
    ∃ (s1 : Nat → TrState) (gl : Nat → List G),
      ((Coll.loc (fun id => packAll P id) []).seq ((routerColl np).lift TrState.cr setCr)).run np s0 = .ok s1 ∧
      ∀ p, p < np → s1 p = setCr (s0 p) (s1 p).cr ∧ (s1 p).cr.data = flat ((gl p).map G.msg) ∧ (∀ g ∈ gl p, ∀ s ∈ g.slots, s.length = P.rowSize) ∧
        (decAll P (gl p)).Perm (received np R D (fun q => outRow P q p) p) ∧ nRows (gl p) * P.rowSize * 4 < intMax := by
  have hlen : ∀ q, q < np → (R q).length ≤ ∑ q ∈ Finset.range np, (R q).length :=
    fun q hq => Finset.single_le_sum (f := fun q => (R q).length) (fun _ _ => Nat.zero_le _) (Finset.mem_range.2 hq)
  have hone : ∀ q, q < np → (R q).length * (P.rowSize + 3) * 4 < intMax := by
    intro q hq
    refine lt_of_le_of_lt ?_ h.small
    exact Nat.mul_le_mul_right _ (Nat.mul_le_mul_right _ (hlen q hq))
  have hpk : ∀ q, ∃ (gs : List G) (perm : List Nat), q < np → packAll P q (s0 q) = .ok { s0 q with cr := { (s0 q).cr with data := flat (gs.map G.msg) } } ∧
      perm.Perm (List.range (R q).length) ∧ (∀ g ∈ gs, (g.src = q ∧ g.tgt < np) ∧ g.Ok P.rowSize) ∧
      (flat (gs.map G.msg)).length ≤ (R q).length * (P.rowSize + 3) ∧
      List.Forall₂ (fun i (r : Nat × List Nat) => r.1 = (D q).getD i 0 ∧
        (bytesOf r.2).take (P.off1 + P.sizes.tail.sum) = packedRow P ((R q).getD i [])) perm (recs gs) := by
    intro q
    by_cases hq : q < np
    · obtain ⟨gs, perm, hh⟩ := packAll_spec h.wf (h.st q hq) q hq h.np32 (hone q hq)
      exact ⟨gs, perm, fun _ => hh⟩
    · exact ⟨[], [], fun hq' => absurd hq' hq⟩
  choose gs perm hgs using hpk
  set M : Nat → List Msg := fun q => (gs q).map G.msg with hM
  set sa : Nat → TrState := fun q => { s0 q with cr := { (s0 q).cr with data := flat (M q) } } with hsa
  have hT : ∀ p, p < np → ∀ m ∈ M p, m.target < np := by
    intro p hp m hm
    obtain ⟨g, hg, rfl⟩ := List.mem_map.1 hm
    exact ((hgs p hp).2.2.1 g hg).1.2
  have hsum : (∑ p ∈ Finset.range np, (flat (M p)).length) * 4 < intMax := by
    refine lt_of_le_of_lt ?_ h.small
    apply Nat.mul_le_mul_right
    rw [Finset.sum_mul]
    exact Finset.sum_le_sum fun q hq => (hgs q (Finset.mem_range.1 hq)).2.2.2.1
  obtain ⟨d', e1, e2⟩ := run_ok np M (fun q => (sa q).cr) (fun q hq => rfl) (Nat.clog 2 np) (fun t _ => fits_of_total np M hT hsum t)
    (fun t p hp => by have := stage_le_total np M hT t p hp; unfold intMax at hsum; unfold uintRange; omega)
  have hfin : ∀ p, ∃ gl : List G, p < np → gl.Perm (groupsFor np gs p) ∧ stageM np M (Nat.clog 2 np) p = gl.map G.msg := by
    intro p
    by_cases hp : p < np
    · have := stageM_final np M hT p hp
      rw [addressedTo_groups] at this
      obtain ⟨l', h1, h2⟩ := perm_map_inv G.msg this
      exact ⟨l', fun _ => ⟨h1, h2⟩⟩
    · exact ⟨[], fun hp' => absurd hp' hp⟩
  choose gl hgl using hfin
  have hrun0 : (Coll.loc (fun id => packAll P id) ([] : List Nat)).run np s0 = .ok (fun p => if p < np then sa p else s0 p) :=
    Coll.loc_run_ok (fun p hp => (hgs p hp).1)
  have hrun1 : ((routerColl np).lift TrState.cr setCr).run np (fun p => if p < np then sa p else s0 p) =
      .ok (putAll setCr np (fun p => if p < np then sa p else s0 p) d') := by
    rw [Coll.lift_run lens_cr (routerColl np) np _ (fun q => (sa q).cr) (by intro p hp; simp [hp])]
    have : (routerColl np).run np (fun q => (sa q).cr) = .ok d' := e1
    rw [this]; rfl
  refine ⟨putAll setCr np (fun p => if p < np then sa p else s0 p) d', gl, ?_, ?_⟩
  · rw [Coll.seq_run (Coll.loc_ok _ _ _), hrun0]
    exact hrun1
  · intro p hp
    have hst : putAll setCr np (fun p => if p < np then sa p else s0 p) d' p = setCr (s0 p) (d' p) := by
      simp only [putAll, if_pos hp]; rfl
    rw [hst]
    obtain ⟨k1, k2⟩ := hgl p hp
    have hmem : ∀ g ∈ gl p, ∃ q, q < np ∧ g ∈ gs q := by
      intro g hg
      have := k1.mem_iff.1 hg
      obtain ⟨q, hq, hg⟩ := List.mem_flatMap.1 this
      exact ⟨q, List.mem_range.1 hq, (List.mem_filter.1 hg).1⟩
    have hsl : ∀ g ∈ gl p, ∀ s ∈ g.slots, s.length = P.rowSize := by
      intro g hg s hs
      obtain ⟨q, hq, hg⟩ := hmem g hg
      exact (((hgs q hq).2.2.1 g hg).2 s hs).1
    refine ⟨rfl, ?_, hsl, ?_, ?_⟩
    · change (d' p).data = _
      rw [e2 p hp, k2]
    · have h1 : (decAll P (gl p)).Perm (decAll P (groupsFor np gs p)) := k1.flatMap_right _
      refine h1.trans ?_
      have h2 : decAll P (groupsFor np gs p) = (List.range np).flatMap fun q => decAll P ((gs q).filter fun g => g.tgt = p) := by
        unfold decAll groupsFor
        rw [List.flatMap_assoc]
      rw [h2]
      unfold received
      apply perm_flatMap
      intro q hq
      have hq := List.mem_range.1 hq
      obtain ⟨_, b1, b2, _, b3⟩ := hgs q hq
      have hR : ∀ r ∈ R q, r.map List.length = P.sizes := fun r hr => ((h.st q hq).rows r hr).1
      rw [decAll_filter P q p (gs q) (fun g hg => (b2 g hg).1.1),
        recs_rows h.wf hR q p (perm q) _ (fun i hi => List.mem_range.1 (b1.mem_iff.1 hi)) b3,
        ← zip_filter_map (R q) (D q) (h.st q hq).dlen p (outRow P q p)]
      exact (b1.filter _).map _
    · have h1 := nRows_flat_le (gl p) hsl
      have h2 := stage_le_total np M hT (Nat.clog 2 np) p hp
      rw [k2] at h2
      omega


/-! ## the whole transfer -/

theorem decAll_append (P : Params) (a b : List G) : decAll P (a ++ b) = decAll P a ++ decAll P b := by simp [decAll]

theorem nRows_append (a b : List G) : nRows (a ++ b) = nRows a + nRows b := by simp [nRows]

theorem split_at {max : Nat} : ∀ (gs : List G), gs ≠ [] → max ≤ nRows gs →
    ∃ gs1 g gs2, gs = gs1 ++ g :: gs2 ∧ (nRows gs1 < max ∨ gs1 = []) ∧ max ≤ nRows gs1 + g.slots.length := by
  intro gs
  induction gs using List.reverseRecOn with
  | nil => intro h; exact absurd rfl h
  | append_singleton gs g ih =>
    intro _ hm
    rw [nRows_append] at hm
    have hg : nRows [g] = g.slots.length := by simp [nRows]
    rw [hg] at hm
    by_cases c : nRows gs < max ∨ gs = []
    · exact ⟨gs, g, [], rfl, c, hm⟩
    · have hne : gs ≠ [] := fun h => c (.inr h)
      obtain ⟨a, b, d, e, f1, f2⟩ := ih hne (by omega)
      exact ⟨a, b, d ++ [g], by rw [e]; simp, f1, f2⟩

/-- unpacking when there is room for all rows -/
theorem unpackPart_ok {P : Params} (hw : Wf P) (s : TrState) (hcl : s.cols.length = P.sizes.length) (gl : List G)
    (hd : s.cr.data = flat (gl.map G.msg)) (hs : ∀ g ∈ gl, ∀ s ∈ g.slots, s.length = P.rowSize) (hn : nRows gl * P.rowSize * 4 < intMax)
    (hfix : P.fixed = true → nRows gl ≤ s.max ∧ s.max * P.rowSize < uintRange) :
    unpackPart P s = .ok { s with cols := colsOf P.sizes.length (decAll P gl), ret := nRows gl } := by
  have hn' : 2 * (nRows gl * P.rowSize) < uintRange := by unfold intMax at hn; unfold uintRange; omega
  unfold unpackPart
  by_cases hf : P.fixed = true
  · obtain ⟨h1, h2⟩ := hfix hf
    simp only [hf, Bool.not_true, Bool.false_eq_true, if_false]
    by_cases c : nRows gl < s.max
    · rw [hd, capRows_lt hw.row gl hs c h2]
      simp only [bind, Option.bind]
      rw [unpackAll_spec hw s hcl gl _ [] (by simp) hs h1 (by omega)]
      rfl
    · by_cases ce : gl = []
      · subst ce
        have e0 : capRows s.cr.data P.rowSize s.max = some ([], 0, 0) := by
          rw [hd]
          unfold capRows
          have := hw.row
          simp [flat, capLoop]; omega
        rw [e0]
        simp only [bind, Option.bind]
        have := unpackAll_spec (cap := s.max) (ret := 0) hw s hcl [] [] [] (by simp [flat]) hs h1 (by simp [nRows])
        simp only [List.map_nil, flat, List.flatMap_nil, List.length_nil] at this
        rw [this]
        rfl
      · obtain ⟨gs1, g, gs2, e, f1, f2⟩ := split_at gl ce (max := s.max) (by omega)
        have hr : nRows gl = nRows gs1 + g.slots.length + nRows gs2 := by rw [e, nRows_append]; simp [nRows]; omega
        have hg2 : nRows gs2 = 0 := by omega
        have hmax : nRows gs1 + g.slots.length = s.max := by omega
        have hge := capRows_ge hw.row gs1 g gs2 (by rw [← e]; exact hs) f1 f2 h2 (by rw [← e]; exact hn')
        rw [← e] at hge
        have hfl := flatten_len g.slots (hs g (by rw [e]; simp))
        have hset : (flat (gl.map G.msg)).set ((flat (gs1.map G.msg)).length + 2) ((g.slots.length + (nRows gs1 + g.slots.length - s.max)) * P.rowSize) =
            flat (gl.map G.msg) := by
          rw [hmax, Nat.sub_self, Nat.add_zero g.slots.length, ← hfl, e]
          have : flat ((gs1 ++ g :: gs2).map G.msg) = flat (gs1.map G.msg) ++ ([g.tgt, g.src] ++ g.slots.flatten.length :: (g.slots.flatten ++ flat (gs2.map G.msg))) := by
            simp [flat, G.msg, Msg.words]
          rw [this, List.set_append_right _ _ (by omega)]
          simp
        rw [hd, hge, hset]
        simp only [bind, Option.bind]
        have hdn : (flat (gs1.map G.msg)).length + 3 + (g.slots.length + (nRows gs1 + g.slots.length - s.max)) * P.rowSize =
            (flat ((gs1 ++ [g]).map G.msg)).length := by
          rw [hmax, Nat.sub_self, Nat.add_zero g.slots.length, ← hfl]
          simp [flat, G.msg, Msg.words]; omega
        rw [hdn]
        have hnr : nRows (gs1 ++ [g]) = nRows gl := by rw [nRows_append, hr]; simp [nRows] at *; omega
        rw [unpackAll_spec hw s hcl (gs1 ++ [g]) _ (flat (gs2.map G.msg)) (by rw [e]; simp [flat]) (by
          intro g' hg'
          apply hs
          rw [e]
          rcases List.mem_append.1 hg' with h | h
          · simp [h]
          · simp at h; simp [h]) (by omega) (by omega)]
        have hdec : decAll P (gs1 ++ [g]) = decAll P gl := by
          have : decAll P gs2 = [] := List.length_eq_zero_iff.1 (by rw [decAll_length, hg2])
          rw [e, show gs1 ++ g :: gs2 = (gs1 ++ [g]) ++ gs2 by simp, decAll_append _ _ gs2, this, List.append_nil]
        rw [hdec]
        rfl
  · have hf' : P.fixed = false := by simpa using hf
    simp only [hf', Bool.not_false, if_true]
    rw [hd, numRows_spec hw.row gl hs (by omega)]
    simp only [bind, Option.bind]
    rw [unpackAll_spec hw s hcl gl _ [] (by simp) hs (le_refl _) (by omega)]
    rfl

/-- a message strictly crosses the capacity: rows are written behind the array -/
theorem unpackPart_overflow {P : Params} (hw : Wf P) (s : TrState) (gs1 : List G) (g : G) (gs2 : List G)
    (hd : s.cr.data = flat ((gs1 ++ g :: gs2).map G.msg)) (hs : ∀ g' ∈ gs1 ++ g :: gs2, ∀ s ∈ g'.slots, s.length = P.rowSize)
    (hn : nRows (gs1 ++ g :: gs2) * P.rowSize * 4 < intMax) (hf : P.fixed = true) (hm : s.max * P.rowSize < uintRange)
    (h1 : nRows gs1 < s.max ∨ gs1 = []) (h2 : s.max < nRows gs1 + g.slots.length) :
    unpackPart P s = .ub := by
  have hn' : 2 * (nRows (gs1 ++ g :: gs2) * P.rowSize) < uintRange := by unfold intMax at hn; unfold uintRange; omega
  unfold unpackPart
  simp only [hf, Bool.not_true, Bool.false_eq_true, if_false]
  rw [hd, capRows_ge hw.row gs1 g gs2 hs h1 (by omega) hm hn']
  simp only [bind, Option.bind]
  set data := flat ((gs1 ++ g :: gs2).map G.msg) with hdata
  set nl := (g.slots.length + (nRows gs1 + g.slots.length - s.max)) * P.rowSize with hnl
  set data' := data.set ((flat (gs1.map G.msg)).length + 2) nl with hdata'
  have hdd : data' = flat (gs1.map G.msg) ++ ([g.tgt, g.src, nl] ++ (g.slots.flatten ++ flat (gs2.map G.msg))) := by
    have : data = flat (gs1.map G.msg) ++ ([g.tgt, g.src] ++ g.slots.flatten.length :: (g.slots.flatten ++ flat (gs2.map G.msg))) := by
      simp [hdata, flat, G.msg, Msg.words]
    rw [hdata', this, List.set_append_right _ _ (by omega)]
    simp
  have hgl : g.slots.length * P.rowSize ≤ nl := by rw [hnl]; exact Nat.mul_le_mul_right _ (by omega)
  -- the first column overflows
  have key : ∀ (rdMsg : Nat → Nat → Option (List Nat)) (dec : G → List Nat → List Nat), ReadOk P.rowSize data' rdMsg dec →
      unpackLoop P.rowSize data' ((flat (gs1.map G.msg)).length + 3 + nl) rdMsg s.max (data'.length + ((flat (gs1.map G.msg)).length + 3 + nl) + 1) 0 [] = none := by
    intro rdMsg dec hrd
    have hl := gs_len_le gs1
    have hr1 : nRows gs1 ≤ s.max := by
      rcases h1 with h | h
      · omega
      · subst h; simp [nRows]
    have hdl : (flat (gs1.map G.msg)).length ≤ data'.length := by rw [hdd]; simp
    have hp := unpackLoop_prefix (n := (flat (gs1.map G.msg)).length + 3 + nl) (cap := s.max) hrd hw.row gs1
      (data'.length + ((flat (gs1.map G.msg)).length + 3 + nl) + 1 - gs1.length) [] _ [] (by rw [List.nil_append]; exact hdd)
      (fun g hg => hs g (by simp [hg])) (by simp; omega) (by omega) (by simpa using hr1)
    rw [show gs1.length + (data'.length + ((flat (gs1.map G.msg)).length + 3 + nl) + 1 - gs1.length) = data'.length + ((flat (gs1.map G.msg)).length + 3 + nl) + 1 by omega] at hp
    simp only [List.length_nil, Nat.zero_add, List.nil_append] at hp
    rw [hp]
    rw [show data'.length + ((flat (gs1.map G.msg)).length + 3 + nl) + 1 - gs1.length = (data'.length + ((flat (gs1.map G.msg)).length + 3 + nl) - gs1.length) + 1 by omega,
      unpackLoop, if_neg (by omega)]
    have h3 : data'[(flat (gs1.map G.msg)).length + 2]? = some nl := by
      rw [hdd, List.getElem?_append_right (by omega)]; simp
    simp only [h3, bind, Option.bind]
    rw [unpackMsg_overflow hw.row]
    · simp only [List.length_flatMap, List.length_map]; exact hr1
    · simp only [List.length_flatMap, List.length_map]
      have : (gs1.map fun g => g.slots.length).sum = nRows gs1 := rfl
      rw [this]
      have : (s.max - nRows gs1) * P.rowSize < g.slots.length * P.rowSize := Nat.mul_lt_mul_of_pos_right (by omega) hw.row
      omega
  unfold unpackAll
  split
  · rename_i A As z zs q1 q2
    have hhd : P.sizes.headD 0 = z := by rw [q2]; rfl
    have hrb := row_bytes P
    have hoff : P.off1 = if P.ext then z else z - 4 := by unfold Params.off1; rw [hhd]
    by_cases hx : P.ext = true
    · rw [if_pos hx] at hoff ⊢
      unfold unpackMore
      rw [key _ _ (readOk_more (by omega) data')]
      rfl
    · rw [if_neg hx] at hoff ⊢
      have hf := hw.field (by simpa using hx)
      rw [hhd] at hf
      unfold unpackInt
      rw [key _ _ (readOk_int P.setSrc (by omega) hf data')]
      rfl
  · rfl

theorem transferMany_run {np : Nat} {P : Params} {s0 : Nat → TrState} {R : Nat → List Row} {D : Nat → List Nat} (h : Inp np P s0 R D)
    (hfix : P.fixed = true → ∀ p, p < np → receivedCount np R D p ≤ (s0 p).max ∧ (s0 p).max * P.rowSize < uintRange) :
    ∃ sf, (transferMany np P).run np s0 = .ok sf ∧ ∀ p, p < np → ∃ out : List Row,
      out.Perm (received np R D (fun q => outRow P q p) p) ∧
      sf p = { s0 p with cols := colsOf P.sizes.length out, ret := out.length, cr := (sf p).cr } := by
  obtain ⟨s1, gl, e1, h1⟩ := mid_spec h
  have hun : ∀ p, p < np → unpackPart P (s1 p) = .ok { s1 p with cols := colsOf P.sizes.length (decAll P (gl p)), ret := nRows (gl p) } := by
    intro p hp
    obtain ⟨a1, a2, a3, a4, a5⟩ := h1 p hp
    apply unpackPart_ok h.wf _ _ _ a2 a3 a5
    · intro hf
      obtain ⟨b1, b2⟩ := hfix hf p hp
      have e : (s1 p).max = (s0 p).max := by rw [a1]; rfl
      rw [e]
      refine ⟨?_, b2⟩
      have := a4.length_eq
      rw [decAll_length] at this
      rw [this]
      refine le_of_eq_of_le ?_ b1
      unfold receivedCount received
      simp [List.length_flatMap]
    · rw [a1]
      change (s0 p).cols.length = _
      rw [(h.st p hp).cols]; simp [colsOf]
  refine ⟨fun p => if p < np then { s1 p with cols := colsOf P.sizes.length (decAll P (gl p)), ret := nRows (gl p) } else s1 p, ?_, ?_⟩
  · unfold transferMany
    rw [Coll.seq_run (Coll.seq_ok (Coll.loc_ok _ _ _) (Coll.lift_ok _ _ (router_ok np))), e1]
    exact Coll.loc_run_ok hun
  · intro p hp
    obtain ⟨a1, a2, a3, a4, a5⟩ := h1 p hp
    refine ⟨decAll P (gl p), a4, ?_⟩
    simp only [if_pos hp, decAll_length]
    generalize hc : (s1 p).cr = c at a1 ⊢
    rw [a1]
    rfl

end Gslib.Transfer
