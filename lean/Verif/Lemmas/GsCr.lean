import Verif.Lemmas.GsCrExec
import Verif.Lemmas.GsAr

/-! # The crystal-router exchange reduces over the processes -/

namespace Gslib.Gs
open Gslib Gslib.Mpi Gslib.Spec Gslib.Props Gslib.Crystal

variable {V T U : Type} {D : Dom T} {op : Op} {K : Kernels U T} {f : V → V → V} {e : V}
variable {tr : Bool} {np : Nat} {ids : Nat → List Int}

theorem le_foldl_max : ∀ (l : List Nat) (m x : Nat), x ∈ l ∨ x ≤ m → x ≤ l.foldl max m
  | [], m, x, h => by rcases h with h | h; simp at h; exact h
  | y :: l, m, x, h => by
    rw [List.foldl_cons]
    apply le_foldl_max
    rcases h with h | h
    · rcases List.mem_cons.1 h with rfl | h
      · right; omega
      · left; exact h
    · right; omega

theorem le_sizeMax {l : List CrStage} {x : CrStage} (h : x ∈ l) : x.sizeTotal ≤ sizeMax l := by
  unfold sizeMax
  exact le_foldl_max _ _ _ (Or.inl (List.mem_map_of_mem h))

/-- the initial rows -/
def Rows0 (tr : Bool) (np : Nat) (ids : Nat → List Int) (R0 : Nat → List CrlId) : Prop :=
  ∀ q, q < np → ∀ w, w ∈ R0 q ↔ ∃ a p, Contrib tr (ids q) a ∧ Dest tr np ids a p ∧ w = ⟨a, p, prim (ids p) a, prim (ids q) a, 0, 0⟩

theorem Rows0.slots {R0 : Nat → List CrlId} (h : Rows0 tr np ids R0) {q a d : Nat} (hq : q < np) (hD : Dest tr np ids a d) :
    Gs.slots (R0 q) a = if Contrib tr (ids q) a then [prim (ids q) a] else [] := by
  split
  · rename_i hc
    apply List.perm_singleton.1
    rw [List.perm_ext_iff_of_nodup (slots_nodup _ _) (by simp)]
    intro x
    rw [mem_slots, List.mem_singleton]
    constructor
    · rintro ⟨w, hw, h1, h2⟩
      obtain ⟨a', p, _, _, rfl⟩ := (h q hq w).1 hw
      have h1 : a' = a := h1
      subst h1
      exact h2.symm
    · rintro rfl
      exact ⟨_, (h q hq _).2 ⟨a, d, hc, hD, rfl⟩, rfl, rfl⟩
  · rename_i hc
    apply slots_eq_nil
    intro w hw he
    obtain ⟨a', p, h1, _, rfl⟩ := (h q hq w).1 hw
    have he : a' = a := he
    subst he
    exact hc h1

theorem crExec_prog (K : Kernels U T) {d : Nat → CrData} {t : Bool} {Vl : Nat → Lvl} {last : Nat → CrStage} {p : Nat} (hp : p < np)
    (h : (d p).stages t = ((List.range (dep np p)).map fun t => (Vl t).stg p) ++ [last p]) :
    ((((d p).stages t).dropLast.zipIdx).map fun x => Step.shift x.2 (crExecStep K np (d p).sbs x.2 x.1)) =
      (Coll.rounds (fun t => crLv K np (fun q => (d q).sbs) t (Vl t).stg) (Nat.clog 2 np)).prog p := by
  rw [(Coll.rounds_prog (B := 1) (lv := fun t => crLv K np (fun q => (d q).sbs) t (Vl t).stg) (fun t => rfl) p _).2, h, List.dropLast_concat]
  have h1 : ((List.range (dep np p)).map fun t => (Vl t).stg p).zipIdx = (List.range (dep np p)).map fun t => ((Vl t).stg p, t) := by
    apply List.ext_getElem?
    intro i
    rw [List.getElem?_zipIdx, List.getElem?_map, List.getElem?_map]
    cases hi : (List.range (dep np p))[i]? with
    | none => rfl
    | some x =>
      obtain ⟨h2, h3⟩ := List.getElem?_eq_some_iff.1 hi
      rw [List.getElem_range] at h3
      subst h3
      simp
  rw [h1, List.map_map, ← act_filter]
  have h2 : ∀ l : List Nat, ((l.filter fun t => decide (Act np t p)).map ((fun x : CrStage × Nat => Step.shift x.2 (crExecStep K np (d p).sbs x.2 x.1)) ∘ fun t => ((Vl t).stg p, t))) =
      l.flatMap fun t => ((crLv K np (fun q => (d q).sbs) t (Vl t).stg).prog p).map (Step.shift (1 * t)) := by
    intro l
    induction l with
    | nil => rfl
    | cons t l ih =>
      rw [List.flatMap_cons, ← ih]
      show _ = (((Coll.one (Act np t) fun p => crExecStep K np (d p).sbs t ((Vl t).stg p)).prog p).map _) ++ _
      rw [Coll.one_prog, List.filter_cons]
      by_cases ha : Act np t p
      · rw [if_pos (by simpa using ha), if_pos ha, List.map_cons, Nat.one_mul]; rfl
      · rw [if_neg (by simpa using ha), if_neg ha]; rfl
  exact h2 _

/-- the state of the exchange after `t` rounds -/
structure CrInv (R : Rep D op K f e) (ok : V → Prop) (tr : Bool) (np : Nat) (ids : Nat → List Int) (w : Nat → Nat → V) (sbs : Nat → Nat) (t : Nat) (Rw : Nat → List CrlId)
    (c : Nat → Nat → V) (s : Nat → GsSt U T) : Prop where
  st : ∀ p, p < np → ExSt R (ids p).length (w p) (sbs p) (min t (dep np p)) (c p) (s p)
  okc : ∀ p, p < np → ∀ a, ∀ x ∈ slots (Rw p) a, ok (c p x)
  sum : ∀ a d, Dest tr np ids a d → reduce f e ((glist (Crystal.grp np d t)).map fun q => cval f e Rw c q a) = reduce f e ((contrib tr np ids a).map fun p => w p (prim (ids p) a))

theorem cr_start (R : Rep D op K f e) {ok : V → Prop} (M : CommMonoidOn ok f e) {w : Nat → Nat → V} (hw : ∀ q, q < np → ∀ a, has (ids q) a → ok (w q (prim (ids q) a))) {sbs : Nat → Nat} {R0 : Nat → List CrlId}
    (h0 : Rows0 tr np ids R0) {s : Nat → GsSt U T} (hs : ∀ q, q < np → HasU R (ids q).length (w q) (2 * sbs q) (s q)) : CrInv R ok tr np ids w sbs 0 R0 w s where
  st p hp := by
    obtain ⟨old, new, hB⟩ := bufs_of_len R (sbs p) (s p).buf (hs p hp).buf
    rw [Nat.zero_min]
    exact ⟨(hs p hp).u, ⟨old, new, hB, by omega⟩, fun _ => rfl⟩
  okc p hp a x hx := by
    obtain ⟨v, hv, _, rfl⟩ := mem_slots.1 hx
    obtain ⟨b, _, hc, _, rfl⟩ := (h0 p hp v).1 hv
    exact hw p hp b hc.has
  sum a d hD := by
    show reduce f e ((List.range' 0 np).map fun q => cval f e R0 w q a) = _
    unfold contrib
    rw [← M.reduce_filter (fun p => Contrib tr (ids p) a) (fun p => w p (prim (ids p) a)) (List.range np) (fun p hp hc => hw p (List.mem_range.1 hp) a hc.has), ← List.range_eq_range']
    congr 1
    apply List.map_congr_left
    intro q hq
    have hq := List.mem_range.1 hq
    unfold cval
    rw [h0.slots hq hD]
    split
    · rename_i hc
      show f e (w q _) = _
      exact M.idLeft _ (hw q hq a hc.has)
    · rfl

theorem act_lt_dep {t p : Nat} (hp : p < np) (ha : Act np t p) : t < dep np p := (act_iff (stages_bound np p hp t ha)).1 ha

theorem cr_rounds (R : Rep D op K f e) {ok : V → Prop} (M : CommMonoidOn ok f e) (hok : ∀ v, ok v → R.shp v) (hi : ∀ q, q < np → IdsOk (ids q)) {NB : Nat} (hB : IdBound np ids NB)
    (hNB : 3 * NB < 4294967295) {Rw : Nat → Nat → List CrlId} {Vl : Nat → Lvl} (hH : Hist tr np ids (Nat.clog 2 np) Rw Vl) (h0 : Rows0 tr np ids (Rw 0)) {sbs : Nat → Nat}
    (hsbs : ∀ p, p < np → ∀ t, t < dep np p → ((Vl t).stg p).sizeTotal ≤ sbs p) {w : Nat → Nat → V} (hsw : ∀ q, q < np → ∀ k, R.shp (w q k)) (hw : ∀ q, q < np → ∀ a, has (ids q) a → ok (w q (prim (ids q) a)))
    {s : Nat → GsSt U T} (hs : ∀ q, q < np → HasU R (ids q).length (w q) (2 * sbs q) (s q)) :
    ∃ s', (Coll.rounds (fun t => crLv K np sbs t (Vl t).stg) (Nat.clog 2 np)).run np s = .ok s' ∧ ∃ c, CrInv R ok tr np ids w sbs (Nat.clog 2 np) (Rw (Nat.clog 2 np)) c s' := by
  have hsi0 : ∀ p, p < np → ∀ x ∈ Rw 0 p, x.si < (ids p).length := by
    intro p hp x hx
    obtain ⟨a, q, hc, _, rfl⟩ := (h0 p hp x).1 hx
    exact prim_lt_length hc.has
  have hsi := hH.si_lt hB hNB (fun p hp x hx => by
    have h1 := hsi0 p hp x hx
    have h2 := (hi p hp).len
    omega)
  refine Coll.rounds_run (fun t s => ∃ c, CrInv R ok tr np ids w sbs t (Rw t) c s) ⟨w, cr_start R M hw h0 hs⟩ _ ?_ ?_
  · intro t ht
    apply crLv_ok
    intro p hp ha
    have := (hH.step t ht).act p hp ha
    exact ⟨this.p1, (stg_from this).1⟩
  · rintro t ht s1 ⟨c, hI⟩
    have hst := hH.step t ht
    have hrow := hH.rows t (by omega)
    obtain ⟨s2, c2, e2, hm, h2⟩ := cr_level R M hok (n := fun p => (ids p).length) (sbs := sbs) (s := s1) hst (by
        intro p hp ha
        exact hsbs p hp t (act_lt_dep hp ha)) (by
        intro p hp ha
        have := hst.len hrow hB hp ha
        omega) (by
        intro p hp ha x hx
        refine ⟨hsi t (by omega) p hp x hx, ?_⟩
        split
        · rename_i h; subst h; exact hsi0 p hp x hx
        · obtain ⟨t', rfl⟩ : ∃ t', t = t' + 1 := ⟨t - 1, by omega⟩
          have ha' := act_mono ha
          have h3 := ((hH.step t' (by omega)).slot_lt (hH.rows t' (by omega)) hB hp ha').2 x hx
          have h4 := hsbs p hp t' (act_lt_dep hp ha')
          omega) (by
        intro h p hp a x y hx hy
        subst h
        obtain ⟨v, hv, h3, h4⟩ := mem_slots.1 hx
        obtain ⟨v', hv', h5, h6⟩ := mem_slots.1 hy
        obtain ⟨b, _, _, _, rfl⟩ := (h0 p hp v).1 hv
        obtain ⟨b', _, _, _, rfl⟩ := (h0 p hp v').1 hv'
        have h3 : b = a := h3
        have h5 : b' = a := h5
        rw [← h4, ← h6, h3, h5]) hsw hI.okc (by
        intro p hp ha
        have := hI.st p hp
        rw [Nat.min_eq_left (Nat.le_of_lt (act_lt_dep hp ha))] at this
        exact this)
    refine ⟨s2, e2, c2, ?_, moved_ok M hrow hst hm hI.okc, ?_⟩
    · intro p hp
      by_cases ha : Act np t p
      · have := (h2 p hp).1 ha
        have h3 := act_lt_dep hp ha
        rw [Nat.min_eq_left (by omega)]
        exact this
      · have h3 : dep np p ≤ t := by
          by_contra hc
          exact ha ((act_iff ht).2 (by omega))
        have := hI.st p hp
        rw [Nat.min_eq_right h3] at this
        rw [Nat.min_eq_right (by omega), (h2 p hp).2 ha, hm.same p hp ha]
        exact this
    · intro a d hD
      rw [group_sum M hrow hst hD hm hI.okc]
      exact hI.sum a d hD

/-- the values written at the end -/
theorem cr_end (R : Rep D op K f e) {ok : V → Prop} (M : CommMonoidOn ok f e) (hok : ∀ v, ok v → R.shp v) (hi : ∀ q, q < np → IdsOk (ids q)) {Rw : Nat → List CrlId} {gl : List CrGroup} {w c : Nat → Nat → V}
    {sbs : Nat → Nat} {s : Nat → GsSt U T} (hI : CrInv R ok tr np ids w sbs (Nat.clog 2 np) Rw c s) (hrow : RowsOk tr np ids (Nat.clog 2 np) Rw) (hsw : ∀ q, q < np → ∀ k, R.shp (w q k))
    {p : Nat} (hp : p < np) (hm : MapsOk ((Rw p).map fun w => { w with bi := w.ri }) gl) (hb : ∀ g ∈ gl, ∃ w ∈ Rw p, w.ri = g.1) (hsi : ∀ x ∈ Rw p, x.si < 4294967295 ∧ x.si < sbs p) :
    ∃ w' : Nat → V, crExecEnd K (sbs p) (dep np p) ⟨encGroups (gl.map fun g => (g.2.1, [g.1])), encGroups ((gl.filter fun g => g.2.2 ≠ []).map fun g => (g.1, g.2.2)), 0, 0, 0, 0, 0, 0, 0, 0, 0⟩ (s p) =
        .ok { s p with u := R.repU (tab (ids p).length w') } ∧
      (∀ a, Dest tr np ids a p → w' (prim (ids p) a) = reduce f e ((contrib tr np ids a).map fun p => w p (prim (ids p) a))) ∧
      ∀ k, (∀ a, Dest tr np ids a p → k ≠ prim (ids p) a) → w' k = w p k := by
  have hgrp : Crystal.grp np p (Nat.clog 2 np) = (p, 1) := grp_size np p hp _ (le_refl _)
  have hIn : ∀ q, InG (Crystal.grp np p (Nat.clog 2 np)) q ↔ q = p := by
    intro q
    rw [hgrp]
    unfold InG
    simp only
    omega
  have hst := hI.st p hp
  rw [Nat.min_eq_right (dep_le np p)] at hst
  obtain ⟨old, new, hB, hold⟩ := hst.bufs
  have hdest : ∀ x ∈ Rw p, Dest tr np ids x.id p ∧ x.ri = prim (ids p) x.id := by
    intro x hx
    obtain ⟨h1, h2, h3⟩ := hrow.row p hp x hx
    rw [hIn] at h1
    rw [h1] at h2 h3
    exact ⟨h2, h3⟩
  have hdep : ∀ x ∈ Rw p, 0 < dep np p := by
    intro x hx
    apply act_lt_dep hp
    show 1 < np
    obtain ⟨_, h1⟩ := (hdest x hx).1
    cases tr
    · obtain ⟨_, r, hr, hne, _⟩ := h1; omega
    · obtain ⟨_, r, hr, hne, _⟩ := h1; omega
  have holdt : tab (sbs p) (fun k => old.getD k e) = old := by
    conv_rhs => rw [eq_tab old e]
    rw [hB.lo]
  have hy : ∀ x ∈ Rw p, old.getD x.si e = c p x.si := by
    intro x hx
    rw [hold (hdep x hx), List.getD_eq_getElem?_getD, tab_get, if_pos (hsi x hx).2]; rfl
  have hgl : ∀ g ∈ gl, ∃ a, Dest tr np ids a p ∧ g.1 = prim (ids p) a ∧ (g.2.1 :: g.2.2).Perm (slots (Rw p) a) := by
    intro g hg
    obtain ⟨x, hx, e1⟩ := hb g hg
    obtain ⟨h1, h2⟩ := hdest x hx
    refine ⟨x.id, h1, by rw [← e1, h2], ?_⟩
    obtain ⟨h3, h4⟩ := hm.slots g hg
    rw [List.perm_ext_iff_of_nodup h3 (slots_nodup _ _)]
    intro z
    rw [h4 z, mem_slots]
    constructor
    · rintro ⟨v, hv, h5, h6⟩
      obtain ⟨y, hy, rfl⟩ := List.mem_map.1 hv
      have h5 : y.ri = g.1 := h5
      obtain ⟨h7, h8⟩ := hdest y hy
      exact ⟨y, hy, prim_inj h7.has h1.has (by rw [← h8, h5, ← e1, h2]), h6⟩
    · rintro ⟨y, hy, h5, h6⟩
      refine ⟨_, List.mem_map.2 ⟨y, hy, rfl⟩, ?_, h6⟩
      show y.ri = g.1
      rw [(hdest y hy).2, h5, ← h2, e1]
  have hg2 : ∀ g ∈ gl, ∀ x ∈ g.2.1 :: g.2.2, ∃ y ∈ Rw p, y.si = x := by
    intro g hg x hx
    obtain ⟨a, _, _, hp⟩ := hgl g hg
    obtain ⟨v, hv, _, h⟩ := mem_slots.1 (hp.mem_iff.1 hx)
    exact ⟨v, hv, h⟩
  have hg1 : ∀ g ∈ gl, g.1 < (ids p).length := by
    intro g hg
    obtain ⟨a, h1, h2, _⟩ := hgl g hg
    rw [h2]; exact prim_lt_length h1.has
  have hlen := (hi p hp).len
  obtain ⟨b1, b2, e1, e2, h3, h4, h5, h6⟩ := cr_pack M hm (fun k => old.getD k e) (by
      intro x hx
      obtain ⟨v, hv, rfl⟩ := List.mem_map.1 hx
      show ok (old.getD v.si e)
      rw [hy v hv]
      exact hI.okc p hp v.id _ (mem_slots.2 ⟨v, hv, rfl, rfl⟩)) (sbs p) (ids p).length (by
      intro x hx
      obtain ⟨v, hv, rfl⟩ := List.mem_map.1 hx
      exact (hsi v hv).2) hg1 (w p)
  rw [holdt] at e1 e2
  have hgo1 : ∀ g ∈ gl.map (fun g => (g.2.1, [g.1])), GroupOk g := by
    intro g hg
    obtain ⟨x, hx, rfl⟩ := List.mem_map.1 hg
    have a1 := hg1 x hx
    obtain ⟨y, hy, a2⟩ := hg2 x hx x.2.1 (by simp)
    have a3 := (hsi y hy).1
    constructor
    · simp
    · simp only [uintMax]; omega
    · intro j hj
      simp only [List.mem_singleton] at hj
      subst hj
      simp only [uintMax]; omega
  have hgo2 : ∀ g ∈ (gl.filter fun g => g.2.2 ≠ []).map (fun g => (g.1, g.2.2)), GroupOk g := by
    intro g hg
    obtain ⟨x, hx, rfl⟩ := List.mem_map.1 hg
    rw [List.mem_filter] at hx
    have a1 := hg1 x hx.1
    constructor
    · simpa using hx.2
    · simp only [uintMax]; omega
    · intro j hj
      obtain ⟨y, hy, a2⟩ := hg2 x hx.1 j (List.mem_cons_of_mem _ hj)
      have a3 := (hsi y hy).1
      simp only [uintMax]; omega
  have hshw : ∀ v ∈ tab (ids p).length (w p), R.shp v := by
    intro v hv
    obtain ⟨k, _, rfl⟩ := List.mem_map.1 hv
    exact hsw p hp k
  have hsh1 : ∀ v ∈ tab (ids p).length b1, R.shp v := by
    intro v hv
    obtain ⟨k, _, rfl⟩ := List.mem_map.1 hv
    rcases h5 k with h | h
    · rw [h]; exact hsw p hp k
    · exact hok _ h
  have hval : ∀ a, Dest tr np ids a p → b2 (prim (ids p) a) = reduce f e ((contrib tr np ids a).map fun p => w p (prim (ids p) a)) := by
    intro a hD
    obtain ⟨q, hq, h7, x, hx, h8⟩ := hrow.ne a p hD
    rw [hIn] at h7
    subst h7
    obtain ⟨g, hg, h9⟩ := hm.cover _ (List.mem_map.2 ⟨x, hx, rfl⟩)
    have h9 : g.1 = x.ri := h9
    rw [(hdest x hx).2, h8] at h9
    obtain ⟨a', hD', h10, hperm⟩ := hgl g hg
    have : a' = a := prim_inj hD'.has hD.has (h10.symm.trans h9)
    subst this
    rw [← h9, h3 g hg]
    have hok' : ∀ v ∈ (slots (Rw q) a').map (c q), ok v := by
      intro v hv
      obtain ⟨z, hz, rfl⟩ := List.mem_map.1 hv
      exact hI.okc q hp a' z hz
    have hmapeq : (g.2.1 :: g.2.2).map (fun k => old.getD k e) = (g.2.1 :: g.2.2).map (c q) := by
      apply List.map_congr_left
      intro z hz
      obtain ⟨y, hy', rfl⟩ := hg2 g hg z hz
      exact hy y hy'
    rw [hmapeq, M.reduce_perm (hperm.map (c q)) (fun v hv => hok' v ((hperm.map (c q)).mem_iff.1 hv))]
    have h11 := hI.sum a' q hD
    rw [hgrp] at h11
    have h12 : reduce f e ((glist (q, 1)).map fun q => cval f e Rw c q a') = cval f e Rw c q a' := by
      show f e (cval f e Rw c q a') = _
      exact M.idLeft _ (M.reduce_ok _ hok')
    rw [h12] at h11
    exact h11
  refine ⟨b2, ?_, hval, ?_⟩
  · apply outcome_some
    show (K.fromBuf _ (crHalf K (sbs p) (dep np p) (s p).buf) (s p).u).bind (fun u => (K.gatherBuf _ (crHalf K (sbs p) (dep np p) (s p).buf) u).bind fun u => some { s p with u := u }) = _
    rw [hB.half, hst.u]
    have h7 := R.fromBuf _ _ old _ [] hshw hB.so hgo1 e1
    have h8 := R.gatherBuf _ _ old _ [] hsh1 hB.so hgo2 e2
    rw [List.append_nil] at h7 h8
    rw [h7, Option.bind_some, h8, Option.bind_some]
  · intro k hk
    apply h4
    intro hmem
    obtain ⟨g, hg, e3⟩ := List.mem_map.1 hmem
    obtain ⟨a, h1, h2, _⟩ := hgl g hg
    exact hk a h1 (by rw [← e3, h2])

theorem contrib_alone {t : Bool} {p a : Nat} (hp : p < np) (h : ∀ r, r < np → r ≠ p → ¬ Contrib t (ids r) a) : contrib t np ids a = if Contrib t (ids p) a then [p] else [] := by
  split
  · rename_i hc
    apply List.perm_singleton.1
    rw [List.perm_ext_iff_of_nodup (show (contrib t np ids a).Nodup from List.nodup_range.filter _) (List.nodup_singleton p)]
    intro r
    rw [mem_contrib, List.mem_singleton]
    constructor
    · rintro ⟨h1, h2⟩
      by_contra hne
      exact h r h1 hne h2
    · rintro rfl; exact ⟨hp, hc⟩
  · rename_i hc
    rw [List.eq_nil_iff_forall_not_mem]
    intro r hr
    rw [mem_contrib] at hr
    by_cases hne : r = p
    · subst hne; exact hc hr.2
    · exact h r hr.1 hne hr.2

/-- the crystal-router exchange reduces over the processes -/
theorem crExec_exch (R : Rep D op K f e) {ok : V → Prop} (M : CommMonoidOn ok f e) (hok : ∀ v, ok v → R.shp v) (hi : ∀ q, q < np → IdsOk (ids q)) {NB : Nat} (hB : IdBound np ids NB)
    (hNB : 3 * NB < 4294967295) (t : Bool) {d : Nat → CrData} {R0 : Nat → List CrlId} {Rw : Nat → Nat → List CrlId} {Vl : Nat → Lvl} {gl : Nat → List CrGroup}
    (hl : Learned t np ids R0 Rw Vl gl (fun p => (d p).stages t)) (h0 : Rows0 t np ids R0) (hsbs : ∀ p, p < np → sizeMax ((d p).stages t) ≤ (d p).sbs) :
    Exch R ok np ids t (fun q => 2 * (d q).sbs) (crExec K np d t) := by
  have h0' : Rows0 t np ids (Rw 0) := by
    intro q hq w
    rw [hl.start q hq]; exact h0 q hq w
  have hsbs' : ∀ p, p < np → ∀ τ, τ < dep np p → ((Vl τ).stg p).sizeTotal ≤ (d p).sbs := by
    intro p hp τ hτ
    refine le_trans (le_sizeMax ?_) (hsbs p hp)
    rw [hl.stages p hp]
    exact List.mem_append_left _ (List.mem_map.2 ⟨τ, List.mem_range.2 hτ, rfl⟩)
  have hprog : ∀ p, p < np → ((((d p).stages t).dropLast.zipIdx).map fun x => Step.shift x.2 (crExecStep K np (d p).sbs x.2 x.1)) =
      (Coll.rounds (fun t => crLv K np (fun q => (d q).sbs) t (Vl t).stg) (Nat.clog 2 np)).prog p := fun p hp =>
    crExec_prog (last := fun p => ⟨encGroups ((gl p).map fun g => (g.2.1, [g.1])), encGroups (((gl p).filter fun g => g.2.2 ≠ []).map fun g => (g.1, g.2.2)), 0, 0, 0, 0, 0, 0, 0, 0, 0⟩) K hp (hl.stages p hp)
  have hT : Nat.clog 2 np = (Coll.rounds (fun t => crLv K np (fun q => (d q).sbs) t (Vl t).stg) (Nat.clog 2 np)).T := by
    rw [(Coll.rounds_prog (B := 1) (lv := fun t => crLv K np (fun q => (d q).sbs) t (Vl t).stg) (fun t => rfl) 0 _).1, Nat.one_mul]
  have hokr : (Coll.rounds (fun t => crLv K np (fun q => (d q).sbs) t (Vl t).stg) (Nat.clog 2 np)).Ok np := by
    apply Coll.rounds_ok
    intro τ hτ
    apply crLv_ok
    intro p hp ha
    have := (hl.hist.step τ hτ).act p hp ha
    exact ⟨this.p1, (stg_from this).1⟩
  have hok1 := Coll.ok_congr (a := (⟨Nat.clog 2 np, fun id => (((d id).stages t).dropLast.zipIdx).map fun x => Step.shift x.2 (crExecStep K np (d id).sbs x.2 x.1)⟩ : Coll (GsSt U T) (List T))) hT hprog hokr
  refine ⟨Coll.seq_ok hok1 (Coll.loc_ok _ _ _), ?_⟩
  intro w s hsw hw he hs
  obtain ⟨s1, e1, c, hI⟩ := cr_rounds R M hok hi hB hNB hl.hist h0' hsbs' hsw hw hs
  have hrow := hl.hist.rows _ (le_refl _)
  have hsi0 : ∀ p, p < np → ∀ x ∈ Rw 0 p, x.si < (ids p).length := by
    intro p hp x hx
    obtain ⟨a, q, hc, _, rfl⟩ := (h0' p hp x).1 hx
    exact prim_lt_length hc.has
  have hsi := hl.hist.si_lt hB hNB (fun p hp x hx => by
    have h1 := hsi0 p hp x hx
    have h2 := (hi p hp).len
    omega) _ (le_refl _)
  have hslot : ∀ p, p < np → ∀ T, T ≤ Nat.clog 2 np → 0 < T → 0 < dep np p → ∀ x ∈ Rw T p, x.si < (d p).sbs := by
    intro p hp T
    induction T with
    | zero => intro _ h; omega
    | succ T ih =>
      intro hT _ hd x hx
      by_cases ha : Act np T p
      · have h3 := ((hl.hist.step T (by omega)).slot_lt (hl.hist.rows T (by omega)) hB hp ha).2 x hx
        have h4 := hsbs' p hp T (act_lt_dep hp ha)
        omega
      · rw [(hl.hist.step T (by omega)).inact p hp ha] at hx
        have hT0 : 0 < T := by
          by_contra hc
          have : T = 0 := by omega
          subst this
          exact ha ((act_iff (by omega)).2 hd)
        exact ih (by omega) hT0 hd x hx
  have hend : ∀ p, p < np → ∃ w' : Nat → V, crExecEnd K (d p).sbs (dep np p) ⟨encGroups ((gl p).map fun g => (g.2.1, [g.1])), encGroups (((gl p).filter fun g => g.2.2 ≠ []).map fun g => (g.1, g.2.2)), 0, 0, 0, 0, 0, 0, 0, 0, 0⟩ (s1 p) =
        .ok { s1 p with u := R.repU (tab (ids p).length w') } ∧
      (∀ a, Dest t np ids a p → w' (prim (ids p) a) = reduce f e ((contrib t np ids a).map fun p => w p (prim (ids p) a))) ∧
      ∀ k, (∀ a, Dest t np ids a p → k ≠ prim (ids p) a) → w' k = w p k := by
    intro p hp
    refine cr_end R M hok hi hI hrow hsw hp (hl.maps p hp) (hl.back p hp) ?_
    intro x hx
    refine ⟨hsi p hp x hx, ?_⟩
    have hnp : 1 < np := by
      obtain ⟨_, ⟨h1, h2⟩, _⟩ := hrow.row p hp x hx
      cases t
      · obtain ⟨_, r, hr, hne, _⟩ := h2; omega
      · obtain ⟨_, r, hr, hne, _⟩ := h2; omega
    have hd : 0 < dep np p := act_lt_dep hp (show 1 < np from hnp)
    have := dep_le np p
    exact hslot p hp _ (le_refl _) (by omega) hd x hx
  haveI : Nonempty V := ⟨e⟩
  choose! w' hw1 hw2 hw3 using hend
  refine ⟨w', fun p => if p < np then { s1 p with u := R.repU (tab (ids p).length (w' p)) } else s1 p, ?_, ?_⟩
  · unfold crExec
    rw [Coll.seq_run hok1, Coll.run_congr hT hprog, e1]
    show Coll.run _ np s1 = _
    refine Coll.loc_run_ok (g := fun p => ({ s1 p with u := R.repU (tab (ids p).length (w' p)) } : GsSt U T)) ?_
    intro p hp
    beta_reduce
    have hst := hl.stages p hp
    rw [hst, List.getLast?_concat, List.length_append, List.length_map, List.length_range]
    exact hw1 p hp
  · intro q hq
    beta_reduce
    rw [if_pos hq]
    refine ⟨rfl, ?_, ?_⟩
    · intro a ha
      by_cases hD : Dest t np ids a q
      · rw [hw2 q hq a hD, if_neg]
        rintro ⟨rfl, hn⟩
        exact hn hD.2.1
      · rw [hw3 q hq _ (fun a' hD' he' => hD (prim_inj ha hD'.has he' ▸ hD'))]
        split
        · rfl
        · rename_i hc
          have hal : ∀ r, r < np → r ≠ q → ¬ Contrib t (ids r) a := by
            intro r hr hne hcr
            apply hD
            refine ⟨hq, ?_⟩
            cases t
            · exact ⟨ha, r, hr, hne, hcr⟩
            · refine ⟨?_, r, hr, hne, hcr⟩
              by_contra hn
              exact hc ⟨rfl, hn⟩
          rw [contrib_alone hq hal]
          split
          · exact (M.idLeft _ (hw q hq a ha)).symm
          · rename_i hn
            cases t
            · rw [he rfl q hq a ha hn]; rfl
            · exact absurd ha hn
    · intro k hk
      apply hw3 q hq
      intro a hD hka
      exact hk ⟨a, hD.has, hka⟩

end Gslib.Gs
