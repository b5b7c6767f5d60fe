import Verif.Lemmas.GsCrHist
import Verif.Lemmas.GsAux
import Verif.Lemmas.GsPwExec

/-! # The crystal-router exchange -/

namespace Gslib.Gs
open Gslib Gslib.Mpi Gslib.Spec Gslib.Props Gslib.Crystal

variable {V T U : Type} {D : Dom T} {op : Op} {K : Kernels U T} {f : V → V → V} {e : V}
variable {tr : Bool} {np : Nat} {ids : Nat → List Int}

/-! ### the maps -/

/-- scatter, then gather, from `y` -/
theorem cr_pack {ok : V → Prop} (M : CommMonoidOn ok f e) {rows : List CrlId} {gl : List CrGroup} (h : MapsOk rows gl) (y : Nat → V) (hy : ∀ w ∈ rows, ok (y w.si))
    (N m : Nat) (hN : ∀ w ∈ rows, w.si < N) (hm : ∀ g ∈ gl, g.1 < m) (b0 : Nat → V) :
    ∃ b1 b2 : Nat → V, (gl.map fun g => (g.2.1, [g.1])).foldlM (sstep (fun _ k => ldAt (tab N y) k) stAt) (tab m b0) = some (tab m b1) ∧
      ((gl.filter fun g => g.2.2 ≠ []).map fun g => (g.1, g.2.2)).foldlM (gstep f ldAt stAt (fun _ k => ldAt (tab N y) k)) (tab m b1) = some (tab m b2) ∧
      (∀ g ∈ gl, b2 g.1 = reduce f e ((g.2.1 :: g.2.2).map y)) ∧ (∀ k, k ∉ gl.map (·.1) → b2 k = b0 k) ∧
      (∀ k, b1 k = b0 k ∨ ok (b1 k)) ∧ ((∀ g ∈ gl, g.2.2 = []) → tab m b1 = tab m b2) := by
  have hslot : ∀ g ∈ gl, ∀ x ∈ g.2.1 :: g.2.2, x < N ∧ ok (y x) := by
    intro g hg x hx
    obtain ⟨w, hw, _, rfl⟩ := ((h.slots g hg).2 x).1 hx
    exact ⟨hN w hw, hy w hw⟩
  have hinj : ∀ g ∈ gl, ∀ g' ∈ gl, g.1 = g'.1 → g = g' := fun g hg g' hg' he => List.inj_on_of_nodup_map h.nodup hg hg' he
  obtain ⟨b1, e1, h1, h2⟩ := scatter_run m (fun _ k => ldAt (tab N y) k) y (fun _ => True) (gl.map fun g => (g.2.1, [g.1])) b0 (by
      rw [List.pairwise_map]
      have := h.nodup
      unfold List.Nodup at this
      rw [List.pairwise_map] at this
      refine this.imp ?_
      intro g g' hne j hj hj'
      simp only [List.mem_singleton] at hj hj'
      exact hne (hj ▸ hj')) (by
      intro g hg j hj
      obtain ⟨x, hx, rfl⟩ := List.mem_map.1 hg
      simp only [List.mem_singleton] at hj
      subst hj
      exact ⟨hm x hx, trivial⟩) (by
      intro w' _ g hg
      obtain ⟨x, hx, rfl⟩ := List.mem_map.1 hg
      exact ld_tab (hslot x hx x.2.1 (by simp)).1)
  have hb1 : ∀ g ∈ gl, b1 g.1 = y g.2.1 := fun g hg => h1 (g.2.1, [g.1]) (List.mem_map.2 ⟨g, hg, rfl⟩) g.1 (by simp)
  have hb1' : ∀ k, k ∉ gl.map (·.1) → b1 k = b0 k := by
    intro k hk
    apply h2
    intro g hg hj
    obtain ⟨x, hx, rfl⟩ := List.mem_map.1 hg
    simp only [List.mem_singleton] at hj
    subst hj
    exact hk (List.mem_map.2 ⟨x, hx, rfl⟩)
  have hfst : ((gl.filter fun g => g.2.2 ≠ []).map fun g => (g.1, g.2.2)).map (·.1) = (gl.filter fun g => g.2.2 ≠ []).map (·.1) := by
    rw [List.map_map]; rfl
  obtain ⟨b2, e2, h3, h4⟩ := gather_run f m (fun _ k => ldAt (tab N y) k) y (fun _ => True) ((gl.filter fun g => g.2.2 ≠ []).map fun g => (g.1, g.2.2)) b1 (by
      rw [hfst]
      exact h.nodup.sublist (List.filter_sublist.map _)) (by
      intro g hg
      obtain ⟨x, hx, rfl⟩ := List.mem_map.1 hg
      exact ⟨hm x (List.mem_filter.1 hx).1, trivial⟩) (by
      intro w' _ g hg j hj
      obtain ⟨x, hx, rfl⟩ := List.mem_map.1 hg
      exact ld_tab (hslot x (List.mem_filter.1 hx).1 j (List.mem_cons_of_mem _ hj)).1)
  have hsame : ∀ g ∈ gl, g.2.2 = [] → b2 g.1 = b1 g.1 := by
    intro g hg hnil
    apply h4
    rw [hfst]
    intro hmem
    obtain ⟨g', hg', he⟩ := List.mem_map.1 hmem
    rw [List.mem_filter] at hg'
    have := hinj g' hg'.1 g hg he
    subst this
    simp [hnil] at hg'
  refine ⟨b1, b2, e1, e2, ?_, ?_, ?_, ?_⟩
  · intro g hg
    have hs := hslot g hg
    have hrest : ∀ v ∈ g.2.2.map y, ok v := by
      intro v hv
      obtain ⟨x, hx, rfl⟩ := List.mem_map.1 hv
      exact (hs x (List.mem_cons_of_mem _ hx)).2
    have hfirst := (hs g.2.1 (by simp)).2
    rw [List.map_cons, M.reduce_cons _ _ hfirst hrest]
    by_cases hnil : g.2.2 = []
    · rw [hsame g hg hnil, hb1 g hg, hnil]
      exact (M.idRight _ hfirst).symm
    · rw [h3 (g.1, g.2.2) (List.mem_map.2 ⟨g, List.mem_filter.2 ⟨hg, by simpa using hnil⟩, rfl⟩), hb1 g hg, M.foldl _ _ hfirst hrest]
  · intro k hk
    rw [h4, hb1' k hk]
    rw [hfst]
    intro hmem
    exact hk ((List.filter_sublist.map _).subset hmem)
  · intro k
    by_cases hk : k ∈ gl.map (·.1)
    · obtain ⟨g, hg, rfl⟩ := List.mem_map.1 hk
      right
      rw [hb1 g hg]
      exact (hslot g hg _ (by simp)).2
    · exact Or.inl (hb1' k hk)
  · intro hall
    have : (gl.filter fun g => g.2.2 ≠ []) = [] := by
      rw [List.filter_eq_nil_iff]
      intro g hg
      simp [hall g hg]
    rw [this] at e2
    exact Option.some.inj e2

/-! ### the two halves of the buffer -/

theorem Rep.flat_take (R : Rep D op K f e) {l : List V} (h : ∀ v ∈ l, R.shp v) (m : Nat) (hm : m ≤ l.length) : (l.flatMap R.repV).take (K.vn * m) = (l.take m).flatMap R.repV ∧
    (l.flatMap R.repV).drop (K.vn * m) = (l.drop m).flatMap R.repV := by
  have h1 : ((l.take m).flatMap R.repV).length = K.vn * m := by
    rw [R.flat_len (fun v hv => h v (List.mem_of_mem_take hv)), List.length_take, Nat.min_eq_left hm]
  have h2 : l.flatMap R.repV = (l.take m).flatMap R.repV ++ (l.drop m).flatMap R.repV := by
    rw [← List.flatMap_append, List.take_append_drop]
  rw [h2]
  exact ⟨List.take_left' h1, List.drop_left' h1⟩

/-- the two halves hold `old` and `new` -/
structure Bufs (R : Rep D op K f e) (sbs k : Nat) (old new : List V) (buf : List T) : Prop where
  lo : old.length = sbs
  ln : new.length = sbs
  so : ∀ v ∈ old, R.shp v
  sn : ∀ v ∈ new, R.shp v
  eq : ∃ rest, buf = if k % 2 = 0 then old.flatMap R.repV ++ (new.flatMap R.repV ++ rest) else new.flatMap R.repV ++ (old.flatMap R.repV ++ rest)

theorem Bufs.flip {R : Rep D op K f e} {sbs k : Nat} {old new : List V} {buf : List T} (h : Bufs R sbs k old new buf) : Bufs R sbs (k + 1) new old buf := by
  obtain ⟨h1, h2, h3, h4, rest, h5⟩ := h
  refine ⟨h2, h1, h4, h3, rest, ?_⟩
  rw [h5]
  by_cases c : k % 2 = 0
  · rw [if_pos c, if_neg (by omega)]
  · rw [if_neg c, if_pos (by omega)]

theorem Bufs.half {R : Rep D op K f e} {sbs k : Nat} {old new : List V} {buf : List T} (h : Bufs R sbs k old new buf) : crHalf K sbs k buf = old.flatMap R.repV := by
  obtain ⟨h1, h2, h3, h4, rest, h5⟩ := h
  have l1 := R.flat_len h3
  have l2 := R.flat_len h4
  rw [h1] at l1
  rw [h2] at l2
  unfold crHalf
  by_cases c : k % 2 = 0
  · rw [if_pos c, h5, if_pos c]
    exact List.take_left' l1
  · rw [if_neg c, h5, if_neg c, List.drop_left' l2]
    exact List.take_left' l1

theorem Bufs.put {R : Rep D op K f e} {sbs k : Nat} {old new new' : List V} {buf : List T} (h : Bufs R sbs k old new buf) (hl : new'.length = sbs) (hs : ∀ v ∈ new', R.shp v) :
    Bufs R sbs k old new' (crPutNew K sbs k buf (new'.flatMap R.repV)) := by
  obtain ⟨h1, h2, h3, h4, rest, h5⟩ := h
  have l1 := R.flat_len h3
  have l2 := R.flat_len h4
  rw [h1] at l1
  rw [h2] at l2
  refine ⟨h1, hl, h3, hs, rest, ?_⟩
  unfold crPutNew
  by_cases c : k % 2 = 0
  · rw [if_pos c, if_pos c, h5, if_pos c, List.take_left' l1, ← List.drop_drop, List.drop_left' l1, List.drop_left' l2, List.append_assoc]
  · rw [if_neg c, if_neg c, h5, if_neg c, List.drop_left' l2]

theorem bufs_of_len (R : Rep D op K f e) (sbs : Nat) (buf : List T) (h : K.vn * (2 * sbs) ≤ buf.length) : ∃ old new, Bufs R sbs 0 old new buf := by
  have h' : K.vn * (2 * sbs) = K.vn * sbs + K.vn * sbs := by ring
  rw [h'] at h
  obtain ⟨old, h1, h2, h3⟩ := R.decode sbs buf (by omega)
  obtain ⟨new, h4, h5, h6⟩ := R.decode sbs (buf.drop (K.vn * sbs)) (by rw [List.length_drop]; omega)
  refine ⟨old, new, h1, h4, h2, h5, (buf.drop (K.vn * sbs)).drop (K.vn * sbs), ?_⟩
  rw [if_pos rfl, ← h6]
  exact h3

/-! ### one level -/

/-- a process after `k` stages: user data `w`, values `c` in the buffer -/
structure ExSt (R : Rep D op K f e) (n : Nat) (w : Nat → V) (sbs k : Nat) (c : Nat → V) (s : GsSt U T) : Prop where
  u : s.u = R.repU (tab n w)
  bufs : ∃ old new, Bufs R sbs k old new s.buf ∧ (0 < k → old = tab sbs c)
  zero : k = 0 → c = w

theorem stg_from {t p : Nat} {V : Lvl} {R : Nat → List CrlId} {R' : List CrlId} (hl : LvlOk np t V R p R') :
    (V.stg p).from = rfr np t p ∧ (V.stg p).sizes = (rfr np t p).map fun q => (V.stg q).sizeS := by
  have h1 := hl.r1
  have h2 := hl.r2
  have hr : rfr np t p = if recvnOf p (Crystal.grp np p t).1 (Crystal.grp np p t).2 = 0 then [] else
    if recvnOf p (Crystal.grp np p t).1 (Crystal.grp np p t).2 = 1 then [tgt np t p] else [tgt np t p, p - 1] := rfl
  have hv : recvnOf p (Crystal.grp np p t).1 (Crystal.grp np p t).2 = 0 ∨ recvnOf p (Crystal.grp np p t).1 (Crystal.grp np p t).2 = 1 ∨
      recvnOf p (Crystal.grp np p t).1 (Crystal.grp np p t).2 = 2 := by
    unfold recvnOf
    split
    · simp
    · split <;> simp
  unfold CrStage.from CrStage.sizes
  rw [hl.nrecvn, hl.p1, hl.p2]
  rcases hv with hv | hv | hv
  · rw [hv] at hr ⊢
    rw [hr]; exact ⟨rfl, rfl⟩
  · rw [hv] at hr ⊢
    rw [hr] at h1 ⊢
    refine ⟨rfl, ?_⟩
    rw [h1]; rfl
  · rw [hv] at hr ⊢
    rw [hr] at h1 h2 ⊢
    refine ⟨rfl, ?_⟩
    rw [h1, h2]; rfl

/-- the groups of a level -/
theorem lvl_group {t p : Nat} {V : Lvl} {R : Nat → List CrlId} {R' : List CrlId} (hl : LvlOk np t V R p R') :
    (∀ g ∈ V.gl p, ∃ a ∈ V.L p, g.1 = (V.L p).idxOf a ∧ (g.2.1 :: g.2.2).Perm (slots (R p) a)) ∧ ∀ a ∈ V.L p, ∃ g ∈ V.gl p, g.1 = (V.L p).idxOf a := by
  constructor
  · intro g hg
    obtain ⟨w, hw, e1⟩ := hl.back g hg
    obtain ⟨x, hx, rfl⟩ := List.mem_map.1 hw
    have e1 : (V.L p).idxOf x.id = g.1 := e1
    have hxL : x.id ∈ V.L p := (hl.mem _).2 ⟨x, hx, rfl⟩
    refine ⟨x.id, hxL, e1.symm, ?_⟩
    obtain ⟨h1, h2⟩ := hl.maps.slots g hg
    rw [List.perm_ext_iff_of_nodup h1 (slots_nodup _ _)]
    intro z
    rw [h2 z, mem_slots]
    constructor
    · rintro ⟨w, hw, h3, h4⟩
      obtain ⟨v, hv, rfl⟩ := List.mem_map.1 hw
      refine ⟨v, hv, ?_, h4⟩
      have h3 : (V.L p).idxOf v.id = g.1 := h3
      exact (List.idxOf_inj ((hl.mem _).2 ⟨v, hv, rfl⟩)).1 (h3.trans e1.symm)
    · rintro ⟨v, hv, h3, h4⟩
      refine ⟨_, List.mem_map.2 ⟨v, hv, rfl⟩, ?_, h4⟩
      show (V.L p).idxOf v.id = g.1
      rw [h3, e1]
  · intro a ha
    obtain ⟨w, hw, rfl⟩ := (hl.mem a).1 ha
    obtain ⟨g, hg, e1⟩ := hl.maps.cover _ (List.mem_map.2 ⟨w, hw, rfl⟩)
    exact ⟨g, hg, e1⟩

theorem outcome_some {A : Type} {x : Option A} {a : A} (h : x = some a) : Outcome.ofOption x = .ok a := by rw [h]; rfl

/-- filling the send buffer of a stage -/
theorem cr_pre (R : Rep D op K f e) {ok : V → Prop} (M : CommMonoidOn ok f e) (hok : ∀ v, ok v → R.shp v) {t p n sbs : Nat} {Vl : Lvl} {Rw : Nat → List CrlId} {R' : List CrlId}
    (hl : LvlOk np t Vl Rw p R') (hsbs : (Vl.stg p).sizeTotal ≤ sbs) (hL : (Vl.L p).length < 4294967295) (hsi : ∀ x ∈ Rw p, x.si < 4294967295 ∧ x.si < if t = 0 then n else sbs)
    (h1 : t = 0 → ∀ a x y, x ∈ slots (Rw p) a → y ∈ slots (Rw p) a → x = y) {w c : Nat → V} (hw : ∀ k, R.shp (w k)) (hc : ∀ a, ∀ x ∈ slots (Rw p) a, ok (c x))
    {s : GsSt U T} (h : ExSt R n w sbs t c s) :
    ∃ (old pad : List V) (b : Nat → V) (buf : List T), (crExecStep K np sbs t (Vl.stg p)).pre s = .ok { s with buf := buf } ∧ pad.length = (Vl.stg p).sizeR ∧
      Bufs R sbs t old (pad ++ tab (sbs - (Vl.stg p).sizeR) b) buf ∧ ∀ a ∈ Vl.L p, b ((Vl.L p).idxOf a) = reduce f e ((slots (Rw p) a).map c) := by
  obtain ⟨old, new, hB, hold⟩ := h.bufs
  have htot := hl.tot
  have hsk := hl.sk
  have hR : (Vl.stg p).sizeR ≤ sbs := by omega
  obtain ⟨hgl, hcov⟩ := lvl_group hl
  have hg1 : ∀ g ∈ Vl.gl p, g.1 < (Vl.L p).length := by
    intro g hg
    obtain ⟨a, ha, e1, _⟩ := hgl g hg
    rw [e1]; exact List.idxOf_lt_length_of_mem ha
  have hg2 : ∀ g ∈ Vl.gl p, ∀ x ∈ g.2.1 :: g.2.2, x < 4294967295 := by
    intro g hg x hx
    obtain ⟨a, ha, _, hp⟩ := hgl g hg
    obtain ⟨v, hv, _, rfl⟩ := mem_slots.1 (hp.mem_iff.1 hx)
    exact (hsi v hv).1
  -- the part of the new half that is filled
  have hdl : (new.drop (Vl.stg p).sizeR).length = sbs - (Vl.stg p).sizeR := by rw [List.length_drop, hB.ln]
  have hdrop := (R.flat_take hB.sn (Vl.stg p).sizeR (by rw [hB.ln]; exact hR)).2
  have htake := (R.flat_take hB.sn (Vl.stg p).sizeR (by rw [hB.ln]; exact hR)).1
  obtain ⟨b1, b2, e1, e2, h3, h4, h5, h6⟩ := cr_pack M hl.maps c (by
      intro x hx
      obtain ⟨v, hv, rfl⟩ := List.mem_map.1 hx
      exact hc v.id _ (mem_slots.2 ⟨v, hv, rfl, rfl⟩)) (if t = 0 then n else sbs) (sbs - (Vl.stg p).sizeR) (by
      intro x hx
      obtain ⟨v, hv, rfl⟩ := List.mem_map.1 hx
      exact (hsi v hv).2) (by
      intro g hg
      have := hg1 g hg
      omega) (fun k => (new.drop (Vl.stg p).sizeR).getD k e)
  have htab0 : tab (sbs - (Vl.stg p).sizeR) (fun k => (new.drop (Vl.stg p).sizeR).getD k e) = new.drop (Vl.stg p).sizeR := by
    conv_rhs => rw [eq_tab (new.drop (Vl.stg p).sizeR) e]
    rw [hdl]
  have hsh0 : ∀ k, R.shp ((new.drop (Vl.stg p).sizeR).getD k e) := by
    intro k
    by_cases hk : k < (new.drop (Vl.stg p).sizeR).length
    · rw [List.getD_eq_getElem _ _ hk]
      exact hB.sn _ (List.mem_of_mem_drop (List.getElem_mem hk))
    · rw [List.getD_eq_default _ _ (by omega)]; exact R.shpE
  have hsh1 : ∀ v ∈ tab (sbs - (Vl.stg p).sizeR) b1, R.shp v := by
    intro v hv
    obtain ⟨k, _, rfl⟩ := List.mem_map.1 hv
    rcases h5 k with h | h
    · rw [h]; exact hsh0 k
    · exact hok _ h
  have hokslot : ∀ a, ∀ v ∈ (slots (Rw p) a).map c, ok v := by
    intro a v hv
    obtain ⟨x, hx, rfl⟩ := List.mem_map.1 hv
    exact hc a x hx
  have hred : ∀ g ∈ Vl.gl p, ∀ a, (g.2.1 :: g.2.2).Perm (slots (Rw p) a) → reduce f e ((g.2.1 :: g.2.2).map c) = reduce f e ((slots (Rw p) a).map c) := by
    intro g hg a hp
    refine M.reduce_perm (hp.map c) ?_
    intro v hv
    exact hokslot a v ((hp.map c).mem_iff.1 hv)
  have hsh2 : ∀ v ∈ tab (sbs - (Vl.stg p).sizeR) b2, R.shp v := by
    intro v hv
    obtain ⟨k, _, rfl⟩ := List.mem_map.1 hv
    by_cases hk : k ∈ (Vl.gl p).map (·.1)
    · obtain ⟨g, hg, rfl⟩ := List.mem_map.1 hk
      obtain ⟨a, ha, _, hp⟩ := hgl g hg
      rw [h3 g hg, hred g hg a hp]
      exact hok _ (M.reduce_ok _ (hokslot a))
    · rw [h4 k hk]; exact hsh0 k
  have hval : ∀ a ∈ Vl.L p, b2 ((Vl.L p).idxOf a) = reduce f e ((slots (Rw p) a).map c) := by
    intro a ha
    obtain ⟨g, hg, e3⟩ := hcov a ha
    obtain ⟨a', ha', e4, hp⟩ := hgl g hg
    have : a = a' := (List.idxOf_inj ha).1 (e3.symm.trans e4)
    subst this
    rw [← e3, h3 g hg, hred g hg a hp]
  have hgo1 : ∀ g ∈ (Vl.gl p).map (fun g => (g.2.1, [g.1])), GroupOk g := by
    intro g hg
    obtain ⟨x, hx, rfl⟩ := List.mem_map.1 hg
    have a1 := hg1 x hx
    have a2 := hg2 x hx x.2.1 (by simp)
    constructor
    · simp
    · simp only [uintMax]; omega
    · intro j hj
      simp only [List.mem_singleton] at hj
      subst hj
      simp only [uintMax]; omega
  have hgo2 : ∀ g ∈ ((Vl.gl p).filter fun g => g.2.2 ≠ []).map (fun g => (g.1, g.2.2)), GroupOk g := by
    intro g hg
    obtain ⟨x, hx, rfl⟩ := List.mem_map.1 hg
    rw [List.mem_filter] at hx
    have a1 := hg1 x hx.1
    constructor
    · simpa using hx.2
    · simp only [uintMax]; omega
    · intro j hj
      have a2 := hg2 x hx.1 j (List.mem_cons_of_mem _ hj)
      simp only [uintMax]; omega
  have hnew : (new.take (Vl.stg p).sizeR ++ tab (sbs - (Vl.stg p).sizeR) b2).length = sbs := by
    rw [List.length_append, List.length_take, hB.ln, tab_length]; omega
  have hshn : ∀ v ∈ new.take (Vl.stg p).sizeR ++ tab (sbs - (Vl.stg p).sizeR) b2, R.shp v := by
    intro v hv
    rcases List.mem_append.1 hv with h | h
    · exact hB.sn _ (List.mem_of_mem_take h)
    · exact hsh2 v h
  refine ⟨old, new.take (Vl.stg p).sizeR, b2, crPutNew K sbs t s.buf ((new.take (Vl.stg p).sizeR ++ tab (sbs - (Vl.stg p).sizeR) b2).flatMap R.repV), ?_, ?_, hB.put hnew hshn, hval⟩
  · apply outcome_some
    show ((if t = 0 then K.toBuf (Vl.stg p).scatterMap s.u ((crHalf K sbs (t + 1) s.buf).drop (K.vn * (Vl.stg p).sizeR))
        else (K.bufScatter (Vl.stg p).scatterMap (crHalf K sbs t s.buf) ((crHalf K sbs (t + 1) s.buf).drop (K.vn * (Vl.stg p).sizeR))).bind fun sb =>
          K.bufGather (Vl.stg p).gatherMap (crHalf K sbs t s.buf) sb).bind fun sb =>
      some { s with buf := crPutNew K sbs t s.buf ((crHalf K sbs (t + 1) s.buf).take (K.vn * (Vl.stg p).sizeR) ++ sb) }) = _
    rw [hB.half, hB.flip.half, hdrop, htake, hl.scat, hl.gath]
    have hX : (if t = 0 then K.toBuf (encGroups ((Vl.gl p).map fun g => (g.2.1, [g.1]))) s.u ((new.drop (Vl.stg p).sizeR).flatMap R.repV)
        else (K.bufScatter (encGroups ((Vl.gl p).map fun g => (g.2.1, [g.1]))) (old.flatMap R.repV) ((new.drop (Vl.stg p).sizeR).flatMap R.repV)).bind fun sb =>
          K.bufGather (encGroups (((Vl.gl p).filter fun g => g.2.2 ≠ []).map fun g => (g.1, g.2.2))) (old.flatMap R.repV) sb) =
        some ((tab (sbs - (Vl.stg p).sizeR) b2).flatMap R.repV) := by
      by_cases ht : t = 0
      · rw [if_pos ht]
        rw [if_pos ht] at e1
        have hcw := h.zero ht
        subst hcw
        have := R.toBuf _ (tab n c) _ _ [] (by
          intro v hv
          obtain ⟨k, _, rfl⟩ := List.mem_map.1 hv
          exact hw k) (fun v hv => hB.sn v (List.mem_of_mem_drop hv)) hgo1 (by rw [← htab0]; exact e1)
        rw [List.append_nil, List.append_nil] at this
        rw [h.u, this, h6]
        intro g hg
        obtain ⟨a, ha, _, hp⟩ := hgl g hg
        have hnd := (hl.maps.slots g hg).1
        rw [List.eq_nil_iff_forall_not_mem]
        intro x hx
        have := h1 ht a x g.2.1 (hp.mem_iff.1 (List.mem_cons_of_mem _ hx)) (hp.mem_iff.1 (by simp))
        rw [List.nodup_cons] at hnd
        exact hnd.1 (this ▸ hx)
      · rw [if_neg ht]
        rw [if_neg ht] at e1 e2
        have ho := hold (by omega)
        rw [← ho] at e1 e2
        have h7 := R.bufScatter _ old _ _ [] [] hB.so (fun v hv => hB.sn v (List.mem_of_mem_drop hv)) hgo1 (by rw [← htab0]; exact e1)
        have h8 := R.bufGather _ old _ _ [] [] hB.so hsh1 hgo2 e2
        simp only [List.append_nil] at h7 h8
        rw [h7, Option.bind_some, h8]
    rw [hX, Option.bind_some, List.flatMap_append]
  · rw [List.length_take, hB.ln]; omega

/-- one stage of the exchange -/
def crLv (K : Kernels U T) (np : Nat) (sbs : Nat → Nat) (t : Nat) (stg : Nat → CrStage) : Coll (GsSt U T) (List T) :=
  Coll.one (Act np t) fun p => crExecStep K np (sbs p) t (stg p)

theorem crLv_ok (K : Kernels U T) {sbs : Nat → Nat} {t : Nat} {stg : Nat → CrStage} (h : ∀ p, p < np → Act np t p → (stg p).p1 = tgt np t p ∧ (stg p).from = rfr np t p) :
    (crLv K np sbs t stg).Ok np := by
  refine Coll.one_ok (fun p => rfl) ?_ ?_
  · intro p hp ha
    refine ⟨List.nodup_singleton _, ?_⟩
    intro x hx
    have hx : x = ((stg p).p1, np + t) := List.mem_singleton.1 hx
    rw [(h p hp ha).1] at hx
    subst hx
    obtain ⟨h1, h2, h3, _⟩ := tgt_spec hp ha
    refine ⟨h1, h2, ?_⟩
    show _ ∈ (stg _).from.map _
    rw [(h _ h1 h2).2]
    exact List.mem_map.2 ⟨p, h3, rfl⟩
  · intro p hp ha
    show ((stg p).from.map fun q => (q, np + t)).Nodup ∧ ∀ x ∈ (stg p).from.map fun q => (q, np + t), _
    rw [(h p hp ha).2]
    refine ⟨(rfr_nodup hp ha).map (fun a b h => (Prod.mk.inj h).1), ?_⟩
    intro x hx
    obtain ⟨q, hq, rfl⟩ := List.mem_map.1 hx
    obtain ⟨h1, h2, h3, _⟩ := rfr_spec hp ha hq
    refine ⟨h1, h2, ?_⟩
    show _ ∈ [((stg q).p1, np + t)]
    rw [(h q h1 h2).1, h3]
    exact List.mem_singleton.2 rfl

theorem tab_take {n m : Nat} (h : m ≤ n) (w : Nat → V) : (tab n w).take m = tab m w := by
  unfold tab
  rw [← List.map_take, List.take_range, Nat.min_eq_left h]

theorem getD_tab_append {n j : Nat} (hj : j < n) (w : Nat → V) (rest : List V) (d : V) : (tab n w ++ rest).getD j d = w j := by
  rw [List.getD_append _ _ _ _ (by rw [tab_length]; exact hj), List.getD_eq_getElem?_getD, tab_get, if_pos hj]; rfl

/-- reading the received part of the buffer -/
theorem got_get {l : List Nat} (hlen : l.length ≤ 2) (sz : Nat → Nat) (b : Nat → Nat → V) (rest : List V) (d : V) {q off j : Nat}
    (h : (q, off) ∈ l.zip [0, (l.map sz).getD 0 0]) (hj : j < sz q) : ((l.flatMap fun q => tab (sz q) (b q)) ++ rest).getD (j + off) d = b q j := by
  match l, hlen with
  | [], _ => simp at h
  | [x], _ =>
    simp at h
    obtain ⟨rfl, rfl⟩ := h
    simp only [List.flatMap_cons, List.flatMap_nil, List.append_nil]
    exact getD_tab_append hj _ _ _
  | [x, y], _ =>
    simp at h
    simp only [List.flatMap_cons, List.flatMap_nil, List.append_nil, List.append_assoc]
    rcases h with ⟨rfl, rfl⟩ | ⟨rfl, rfl⟩
    · exact getD_tab_append hj _ _ _
    · rw [List.getD_append_right _ _ _ _ (by rw [tab_length]; omega), tab_length, Nat.add_sub_cancel]
      exact getD_tab_append hj _ _ _

theorem got_len {l : List Nat} (hlen : l.length ≤ 2) (sz : Nat → Nat) (b : Nat → Nat → V) : (l.flatMap fun q => tab (sz q) (b q)).length = (l.map sz).getD 0 0 + (l.map sz).getD 1 0 := by
  match l, hlen with
  | [], _ => rfl
  | [x], _ => simp [tab_length]
  | [x, y], _ => simp [tab_length]

/-- one stage on all processes -/
theorem cr_level (R : Rep D op K f e) {ok : V → Prop} (M : CommMonoidOn ok f e) (hok : ∀ v, ok v → R.shp v) {t : Nat} {n sbs : Nat → Nat} {Vl : Lvl} {Rw R' : Nat → List CrlId}
    (hs : Step1 np t Vl Rw R') (hsbs : ∀ p, p < np → Act np t p → (Vl.stg p).sizeTotal ≤ sbs p) (hL : ∀ p, p < np → Act np t p → (Vl.L p).length < 4294967295)
    (hsi : ∀ p, p < np → Act np t p → ∀ x ∈ Rw p, x.si < 4294967295 ∧ x.si < if t = 0 then n p else sbs p)
    (h1 : t = 0 → ∀ p, p < np → ∀ a x y, x ∈ slots (Rw p) a → y ∈ slots (Rw p) a → x = y) {w c : Nat → Nat → V} (hw : ∀ p, p < np → ∀ k, R.shp (w p k))
    (hc : ∀ p, p < np → ∀ a, ∀ x ∈ slots (Rw p) a, ok (c p x)) {s : Nat → GsSt U T} (h : ∀ p, p < np → Act np t p → ExSt R (n p) (w p) (sbs p) t (c p) (s p)) :
    ∃ s' c', (crLv K np sbs t Vl.stg).run np s = .ok s' ∧ Moved f e np t Vl Rw c c' ∧ ∀ p, p < np →
      (Act np t p → ExSt R (n p) (w p) (sbs p) (t + 1) (c' p) (s' p)) ∧ (¬ Act np t p → s' p = s p) := by
  have hpre : ∀ p, ∃ x : List V × List V × (Nat → V) × List T, p < np → Act np t p → (crExecStep K np (sbs p) t (Vl.stg p)).pre (s p) = .ok { s p with buf := x.2.2.2 } ∧
      x.2.1.length = (Vl.stg p).sizeR ∧ Bufs R (sbs p) t x.1 (x.2.1 ++ tab (sbs p - (Vl.stg p).sizeR) x.2.2.1) x.2.2.2 ∧
      ∀ a ∈ Vl.L p, x.2.2.1 ((Vl.L p).idxOf a) = reduce f e ((slots (Rw p) a).map (c p)) := by
    intro p
    by_cases hp : p < np ∧ Act np t p
    · obtain ⟨hp, ha⟩ := hp
      obtain ⟨old, pad, b, buf, h2⟩ := cr_pre R M hok (hs.act p hp ha) (hsbs p hp ha) (hL p hp ha) (hsi p hp ha) (fun ht => h1 ht p hp) (hw p hp) (hc p hp) (h p hp ha)
      exact ⟨(old, pad, b, buf), fun _ _ => h2⟩
    · exact ⟨([], [], fun _ => e, []), fun a b => absurd ⟨a, b⟩ hp⟩
  choose X hX using hpre
  -- sizes
  have hR : ∀ p, p < np → Act np t p → (Vl.stg p).sizeR + (Vl.L p).length ≤ sbs p := by
    intro p hp ha
    have := hsbs p hp ha
    have h2 := (hs.act p hp ha).tot
    have h3 := (hs.act p hp ha).sk
    omega
  have hpay : ∀ p, p < np → Act np t p → ((crHalf K (sbs p) (t + 1) (X p).2.2.2).drop (K.vn * (Vl.stg p).sizeR)) = (tab (sbs p - (Vl.stg p).sizeR) (X p).2.2.1).flatMap R.repV := by
    intro p hp ha
    obtain ⟨_, h3, h4, _⟩ := hX p hp ha
    rw [h4.flip.half, (R.flat_take h4.sn (Vl.stg p).sizeR (by rw [h4.ln]; have := hR p hp ha; omega)).2, List.drop_left' h3]
  have hshp : ∀ p, p < np → Act np t p → ∀ v ∈ tab (sbs p - (Vl.stg p).sizeR) (X p).2.2.1, R.shp v := by
    intro p hp ha v hv
    exact (hX p hp ha).2.2.1.sn v (List.mem_append_right _ hv)
  have hpay2 : ∀ p, p < np → Act np t p → ((crHalf K (sbs p) (t + 1) (X p).2.2.2).drop (K.vn * (Vl.stg p).sizeR)).take (K.vn * (Vl.stg p).sizeS) =
      (tab (Vl.stg p).sizeS (X p).2.2.1).flatMap R.repV := by
    intro p hp ha
    have h5 := (hs.act p hp ha).sS
    have h6 := hR p hp ha
    rw [hpay p hp ha, (R.flat_take (hshp p hp ha) (Vl.stg p).sizeS (by rw [tab_length]; omega)).1, tab_take (by omega)]
  have hshp2 : ∀ p, p < np → Act np t p → ∀ v ∈ tab (Vl.stg p).sizeS (X p).2.2.1, R.shp v := by
    intro p hp ha v hv
    apply hshp p hp ha
    obtain ⟨k, hk, rfl⟩ := List.mem_map.1 hv
    have h5 := (hs.act p hp ha).sS
    have h6 := hR p hp ha
    have := List.mem_range.1 hk
    exact List.mem_map.2 ⟨k, List.mem_range.2 (by omega), rfl⟩
  -- the new half
  let Y : Nat → List V := fun p => ((rfr np t p).flatMap fun q => tab (Vl.stg q).sizeS (X q).2.2.1) ++ tab (sbs p - (Vl.stg p).sizeR) (X p).2.2.1
  have hgl : ∀ p, p < np → Act np t p → ((rfr np t p).flatMap fun q => tab (Vl.stg q).sizeS (X q).2.2.1).length = (Vl.stg p).sizeR := by
    intro p hp ha
    have hl := hs.act p hp ha
    rw [got_len (rfr_len np t p), ← hl.r1, ← hl.r2, hl.r]
  have hYl : ∀ p, p < np → Act np t p → (Y p).length = sbs p := by
    intro p hp ha
    have h6 := hR p hp ha
    simp only [Y, List.length_append]
    rw [hgl p hp ha, tab_length]
    omega
  have hYs : ∀ p, p < np → Act np t p → ∀ v ∈ Y p, R.shp v := by
    intro p hp ha v hv
    rcases List.mem_append.1 hv with hv | hv
    · obtain ⟨q, hq, hv⟩ := List.mem_flatMap.1 hv
      obtain ⟨r1, r2, _⟩ := rfr_spec hp ha hq
      exact hshp2 q r1 r2 v hv
    · exact hshp p hp ha v hv
  let g : Nat → GsSt U T := fun p => { s p with buf := crPutNew K (sbs p) t (X p).2.2.2 ((Y p).flatMap R.repV) }
  have hrun : (crLv K np sbs t Vl.stg).run np s = .ok (fun p => if p < np ∧ Act np t p then g p else s p) := by
    refine Coll.one_run' (e := fun p => { s p with buf := (X p).2.2.2 }) (fun p => rfl) ?_ ?_ ?_
    · intro p hp ha
      exact (hX p hp ha).1
    · intro p hp ha x hx
      have hx : x ∈ (Vl.stg p).from.map fun q => (q, np + t) := hx
      rw [(stg_from (hs.act p hp ha)).1] at hx
      obtain ⟨q, hq, rfl⟩ := List.mem_map.1 hx
      obtain ⟨r1, r2, r3, _⟩ := rfr_spec hp ha hq
      refine ⟨r1, r2, ?_⟩
      show _ ∈ [((Vl.stg q).p1, np + t)]
      rw [(hs.act q r1 r2).p1, r3]
      exact List.mem_singleton.2 rfl
    · intro p hp ha
      have hl := hs.act p hp ha
      have hvals : ((crExecStep K np (sbs p) t (Vl.stg p)).recvs.map fun x => (crExecStep K np (sbs x.1) t (Vl.stg x.1)).payload { s x.1 with buf := (X x.1).2.2.2 } (p, x.2)) =
          (rfr np t p).map fun q => (tab (Vl.stg q).sizeS (X q).2.2.1).flatMap R.repV := by
        show ((Vl.stg p).from.map fun q => (q, np + t)).map _ = _
        rw [(stg_from hl).1, List.map_map]
        apply List.map_congr_left
        intro q hq
        obtain ⟨r1, r2, _⟩ := rfr_spec hp ha hq
        exact hpay2 q r1 r2
      beta_reduce
      rw [hvals]
      show (if _ = _ then Outcome.ok _ else Outcome.ub) = _
      rw [if_pos]
      · congr 1
        show ({ s p with buf := crPutNew K (sbs p) t (X p).2.2.2 (((rfr np t p).map fun q => (tab (Vl.stg q).sizeS (X q).2.2.1).flatMap R.repV).flatten ++
          (crHalf K (sbs p) (t + 1) (X p).2.2.2).drop (K.vn * (Vl.stg p).sizeR)) } : GsSt U T) = { s p with buf := crPutNew K (sbs p) t (X p).2.2.2 ((Y p).flatMap R.repV) }
        rw [hpay p hp ha]
        congr 2
        simp only [Y]
        rw [List.flatMap_append, ← List.flatMap_def, List.flatMap_assoc]
      · rw [(stg_from hl).2, List.map_map, List.map_map]
        apply List.map_congr_left
        intro q hq
        obtain ⟨r1, r2, _⟩ := rfr_spec hp ha hq
        show ((tab (Vl.stg q).sizeS (X q).2.2.1).flatMap R.repV).length = K.vn * (Vl.stg q).sizeS
        rw [R.flat_len (hshp2 q r1 r2), tab_length]
  refine ⟨_, fun p => if Act np t p then fun k => (Y p).getD k e else c p, hrun, ⟨?_, ?_, ?_⟩, ?_⟩
  · intro p hp ha a haL
    beta_reduce
    rw [if_pos ha]
    have h6 := hR p hp ha
    have h7 := List.idxOf_lt_length_of_mem haL
    show (Y p).getD _ e = _
    simp only [Y]
    rw [List.getD_append_right _ _ _ _ (by rw [hgl p hp ha]; omega), hgl p hp ha, Nat.add_sub_cancel, List.getD_eq_getElem?_getD, tab_get, if_pos (by omega)]
    exact (hX p hp ha).2.2.2 a haL
  · intro p hp ha x hx a haL hlt
    beta_reduce
    rw [if_pos ha]
    obtain ⟨q, off⟩ := x
    obtain ⟨r1, r2, _⟩ := rfr_spec hp ha (List.of_mem_zip hx).1
    show (Y p).getD _ e = _
    rw [(hs.act p hp ha).r1] at hx
    simp only [Y]
    rw [got_get (rfr_len np t p) (fun q => (Vl.stg q).sizeS) (fun q => (X q).2.2.1) _ e hx hlt]
    exact (hX q r1 r2).2.2.2 a haL
  · intro p hp ha
    beta_reduce
    rw [if_neg ha]
  · intro p hp
    constructor
    · intro ha
      beta_reduce
      rw [if_pos ha, if_pos ⟨hp, ha⟩]
      refine ⟨(h p hp ha).u, ⟨Y p, (X p).1, ((hX p hp ha).2.2.1.put (hYl p hp ha) (hYs p hp ha)).flip, fun _ => ?_⟩, by omega⟩
      rw [← hYl p hp ha]
      exact eq_tab _ _
    · intro ha
      beta_reduce
      rw [if_neg (fun h => ha h.2)]

end Gslib.Gs
