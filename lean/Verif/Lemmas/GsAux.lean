import Verif.Lemmas.GsPwExec
import Verif.Spec.Gs

/-! # gs_aux with an exchange that reduces over the processes -/

namespace Gslib.Spec

variable {V : Type} {ok : V → Prop} {f : V → V → V} {e : V}

theorem CommMonoidOn.foldl_ok (M : CommMonoidOn ok f e) : ∀ (l : List V) (x : V), ok x → (∀ v ∈ l, ok v) → ok (l.foldl f x)
  | [], _, hx, _ => hx
  | v :: l, x, hx, h => M.foldl_ok l (f x v) (M.closed _ _ hx (h v (by simp))) (fun u hu => h u (List.mem_cons_of_mem _ hu))

theorem CommMonoidOn.foldl (M : CommMonoidOn ok f e) : ∀ (l : List V) (x : V), ok x → (∀ v ∈ l, ok v) → l.foldl f x = f x (reduce f e l)
  | [], x, hx, _ => (M.idRight x hx).symm
  | v :: l, x, hx, h => by
    have hv := h v (by simp)
    have hl := fun u hu => h u (List.mem_cons_of_mem _ hu)
    unfold reduce
    rw [List.foldl_cons, List.foldl_cons, M.foldl l _ (M.closed _ _ hx hv) hl, M.foldl l _ (M.closed _ _ M.okId hv) hl, M.idLeft v hv]
    exact M.assoc _ _ _ hx hv (M.foldl_ok l e M.okId hl)

theorem CommMonoidOn.reduce_ok (M : CommMonoidOn ok f e) (l : List V) (h : ∀ v ∈ l, ok v) : ok (reduce f e l) := M.foldl_ok l e M.okId h

theorem CommMonoidOn.reduce_cons (M : CommMonoidOn ok f e) (v : V) (l : List V) (hv : ok v) (h : ∀ u ∈ l, ok u) : reduce f e (v :: l) = f v (reduce f e l) := by
  conv_lhs => unfold reduce
  rw [List.foldl_cons, M.foldl l _ (M.closed _ _ M.okId hv) h, M.idLeft v hv]

theorem CommMonoidOn.reduce_append (M : CommMonoidOn ok f e) : ∀ (l l' : List V), (∀ u ∈ l, ok u) → (∀ u ∈ l', ok u) → reduce f e (l ++ l') = f (reduce f e l) (reduce f e l')
  | [], l', _, h' => (M.idLeft _ (M.reduce_ok l' h')).symm
  | v :: l, l', h, h' => by
    have hv := h v (by simp)
    have hl := fun u hu => h u (List.mem_cons_of_mem _ hu)
    rw [List.cons_append, M.reduce_cons v _ hv, M.reduce_cons v _ hv hl, M.reduce_append l l' hl h', M.assoc _ _ _ hv (M.reduce_ok l hl) (M.reduce_ok l' h')]
    intro u hu
    rcases List.mem_append.1 hu with hu | hu
    · exact hl u hu
    · exact h' u hu

theorem CommMonoidOn.reduce_perm (M : CommMonoidOn ok f e) {l l' : List V} (hp : l.Perm l') : (∀ u ∈ l, ok u) → reduce f e l = reduce f e l' := by
  induction hp with
  | nil => intro _; rfl
  | cons a hp ih =>
    intro h
    have hl := fun u hu => h u (List.mem_cons_of_mem _ hu)
    rw [M.reduce_cons a _ (h a (by simp)) hl, M.reduce_cons a _ (h a (by simp)) (fun u hu => hl u (hp.mem_iff.2 hu)), ih hl]
  | swap a b l =>
    intro h
    have hb := h b (by simp)
    have ha := h a (by simp)
    have hl : ∀ u ∈ l, ok u := fun u hu => h u (by simp [hu])
    have hc : ∀ c, ok c → ∀ u ∈ c :: l, ok u := by
      intro c hc u hu
      rcases List.mem_cons.1 hu with rfl | hu
      · exact hc
      · exact hl u hu
    rw [M.reduce_cons b _ hb (hc a ha), M.reduce_cons a _ ha hl, M.reduce_cons a _ ha (hc b hb), M.reduce_cons b _ hb hl]
    have hr := M.reduce_ok l hl
    rw [← M.assoc _ _ _ hb ha hr, ← M.assoc _ _ _ ha hb hr, M.comm _ _ hb ha]
  | trans h1 _ ih1 ih2 =>
    intro h
    rw [ih1 h, ih2 (fun u hu => h u (h1.mem_iff.2 hu))]

theorem CommMonoidOn.reduce_flatMap (M : CommMonoidOn ok f e) {A : Type} (g : A → List V) : ∀ (l : List A), (∀ a ∈ l, ∀ u ∈ g a, ok u) →
    reduce f e (l.flatMap g) = reduce f e (l.map fun a => reduce f e (g a))
  | [], _ => rfl
  | a :: l, h => by
    have hl := fun b hb => h b (List.mem_cons_of_mem _ hb)
    rw [List.flatMap_cons, List.map_cons, M.reduce_append _ _ (h a (by simp)), M.reduce_cons _ _ (M.reduce_ok _ (h a (by simp))), M.reduce_flatMap g l hl]
    · intro u hu
      obtain ⟨b, hb, rfl⟩ := List.mem_map.1 hu
      exact M.reduce_ok _ (hl b hb)
    · intro u hu
      obtain ⟨b, hb, hu⟩ := List.mem_flatMap.1 hu
      exact hl b hb u hu

end Gslib.Spec

namespace Gslib.Gs
open Gslib Gslib.Mpi Gslib.Spec Gslib.Props

variable {V T U : Type} {D : Dom T} {op : Op} {K : Kernels U T} {f : V → V → V} {e : V}
variable {np : Nat} {ids : Nat → List Int}

/-- a process contributes to id `a` -/
def Contrib (t : Bool) (ids : List Int) (a : Nat) : Prop := if t then has ids a else hasU ids a

instance (t : Bool) (ids : List Int) (a : Nat) : Decidable (Contrib t ids a) := by unfold Contrib; infer_instance

theorem Contrib.has {t : Bool} {ids : List Int} {a : Nat} (h : Contrib t ids a) : has ids a := by
  cases t
  · exact hasU.has h
  · exact h

/-- the processes that contribute to id `a` -/
def contrib (t : Bool) (np : Nat) (ids : Nat → List Int) (a : Nat) : List Nat := (List.range np).filter fun p => Contrib t (ids p) a

theorem mem_contrib {t : Bool} {a p : Nat} : p ∈ contrib t np ids a ↔ p < np ∧ Contrib t (ids p) a := by
  unfold contrib
  rw [List.mem_filter, List.mem_range, decide_eq_true_eq]

/-- an exchange that reduces over the processes; `m q` units of buffer are needed on `q` -/
structure Exch (R : Rep D op K f e) (ok : V → Prop) (np : Nat) (ids : Nat → List Int) (t : Bool) (m : Nat → Nat) (ex : Coll (GsSt U T) (List T)) : Prop where
  okc : ex.Ok np
  run : ∀ (w : Nat → Nat → V) (s : Nat → GsSt U T), (∀ q, q < np → ∀ k, R.shp (w q k)) → (∀ q, q < np → ∀ a, has (ids q) a → ok (w q (prim (ids q) a))) →
    (t = false → ∀ q, q < np → ∀ a, has (ids q) a → ¬ hasU (ids q) a → w q (prim (ids q) a) = e) →
    (∀ q, q < np → HasU R (ids q).length (w q) (m q) (s q)) →
    ∃ (w' : Nat → Nat → V) (s' : Nat → GsSt U T), ex.run np s = .ok s' ∧ ∀ q, q < np →
      (s' q).u = R.repU (tab (ids q).length (w' q)) ∧
      (∀ a, has (ids q) a → w' q (prim (ids q) a) = if t = true ∧ ¬ hasU (ids q) a then w q (prim (ids q) a)
        else reduce f e ((contrib t np ids a).map fun p => w p (prim (ids p) a))) ∧
      ∀ k, ¬ IsPrim (ids q) k → w' q k = w q k

/-- the pairwise exchange reduces over the processes -/
theorem pwExec_exch (R : Rep D op K f e) {ok : V → Prop} (M : CommMonoidOn ok f e) (hok : ∀ v, ok v → R.shp v) (hi : ∀ q, q < np → IdsOk (ids q))
    (hsmall : sharedPairs np ids < 4294967295) (t : Bool) :
    Exch R ok np ids t (fun q => (rpairs false np ids q).length + (rpairs true np ids q).length) (pwExec K (pwSpec np ids) t) := by
  refine ⟨pwExec_ok K t, ?_⟩
  intro w s hsw hw he hs
  obtain ⟨w', s', e1, h⟩ := pwExec_run R hi hsmall t w hsw s hs
  refine ⟨w', s', e1, fun q hq => ⟨(h q hq).1, ?_, (h q hq).2.2⟩⟩
  intro a ha
  rw [(h q hq).2.1 a ha]
  split
  · rename_i hc
    have : ((List.range np).filter fun p => RecvG t ids q p a) = [] := by
      rw [List.filter_eq_nil_iff]
      intro p _ hr
      rw [decide_eq_true_eq] at hr
      have := hr.2
      rw [hc.1, if_pos rfl] at this
      exact hc.2 this
    rw [this]; rfl
  · rename_i hc
    have hokl : ∀ v ∈ (((List.range np).filter fun p => RecvG t ids q p a).map fun p => w p (prim (ids p) a)), ok v := by
      intro v hv
      obtain ⟨p, hp, rfl⟩ := List.mem_map.1 hv
      exact hw p (List.mem_range.1 (List.mem_filter.1 hp).1) a (of_decide_eq_true (List.mem_filter.1 hp).2).1.2.2.1
    rw [M.foldl _ _ (hw q hq a ha) hokl]
    by_cases hq' : q ∈ contrib t np ids a
    · rw [← M.reduce_cons _ _ (hw q hq a ha) hokl]
      refine M.reduce_perm ?_ ?_
      · have := List.Perm.map (fun p => w p (prim (ids p) a)) (l₁ := q :: ((List.range np).filter fun p => RecvG t ids q p a)) (l₂ := contrib t np ids a) ?_
        · exact this
        · rw [List.perm_ext_iff_of_nodup]
          · intro p
            rw [List.mem_cons, List.mem_filter, mem_contrib, decide_eq_true_eq, List.mem_range]
            rw [mem_contrib] at hq'
            constructor
            · rintro (rfl | h2)
              · exact ⟨hq, hq'.2⟩
              · refine ⟨h2.1, ?_⟩
                cases t
                · exact h2.2.2
                · exact h2.2.1.2.2.1
            · rintro ⟨h1, h2⟩
              by_cases hpq : p = q
              · exact Or.inl hpq
              · refine Or.inr ⟨h1, ?_⟩
                cases t
                · exact ⟨⟨hpq, ha, h2.has, Or.inr h2⟩, h2⟩
                · have h2 : has (ids p) a := h2
                  have hu : hasU (ids q) a := by
                    by_contra hn
                    exact hc ⟨rfl, hn⟩
                  exact ⟨⟨hpq, ha, h2, Or.inl hu⟩, hu⟩
          · rw [List.nodup_cons]
            refine ⟨?_, List.nodup_range.filter _⟩
            rw [List.mem_filter, decide_eq_true_eq]
            intro h2
            exact h2.2.1.1 rfl
          · exact List.nodup_range.filter _
      · intro u hu
        rcases List.mem_cons.1 hu with rfl | hu
        · exact hw q hq a ha
        · exact hokl u hu
    · have ht : t = false := by
        cases t
        · rfl
        · exfalso
          apply hq'
          rw [mem_contrib]
          exact ⟨hq, ha⟩
      have hnu : ¬ hasU (ids q) a := by
        intro hu
        apply hq'
        rw [mem_contrib, ht]
        exact ⟨hq, hu⟩
      rw [he ht q hq a ha hnu, M.idLeft _ (M.reduce_ok _ hokl)]
      congr 2
      unfold contrib
      apply List.filter_congr
      intro p hp
      rw [decide_eq_decide, ht]
      constructor
      · intro h2; exact h2.2
      · intro h2
        have h2 : hasU (ids p) a := h2
        refine ⟨⟨?_, ha, h2.has, Or.inr h2⟩, h2⟩
        rintro rfl
        exact hnu h2

/-- what gs computes: the value at `k` on process `q` -/
def gsVal (f : V → V → V) (e : V) (t : Bool) (np : Nat) (ids : Nat → List Int) (w : Nat → Nat → V) (q k : Nat) : V :=
  if idAt (ids q) k = 0 then w q k
  else if t then
    (if 0 < idAt (ids q) k then reduce f e ((contrib true np ids (absAt (ids q) k)).map fun p => reduce f e ((grp (ids p) (absAt (ids q) k)).map (w p)))
     else if k = prim (ids q) (absAt (ids q) k) then reduce f e ((grp (ids q) (absAt (ids q) k)).map (w q)) else w q k)
  else reduce f e ((contrib false np ids (absAt (ids q) k)).map fun p => reduce f e ((unflIdx (ids p) (absAt (ids q) k)).map (w p)))

theorem gsAux_run (R : Rep D op K f e) {ok : V → Prop} (M : CommMonoidOn ok f e) (hok : ∀ v, ok v → R.shp v) (hi : ∀ q, q < np → IdsOk (ids q)) (t : Bool)
    (r : Nat → Remote) {ex : Coll (GsSt U T) (List T)} (hex : Exch R ok np ids t (fun q => (r q).bufferSize) ex)
    (w : Nat → Nat → V) (hsw : ∀ q, q < np → ∀ k, R.shp (w q k)) (hw : ∀ q, q < np → ∀ k, absAt (ids q) k ≠ 0 → ok (w q k)) (s : Nat → GsSt U T) (hs : ∀ q, q < np → (s q).u = R.repU (tab (ids q).length (w q))) :
    ∃ s' : Nat → GsSt U T, (gsAux K (fun q => localSetup (nzSpec (ids q)) (r q)) t ex).run np s = .ok s' ∧
      ∀ q, q < np → (s' q).u = R.repU (tab (ids q).length (gsVal f e t np ids w q)) := by
  have hbuf : ∀ q, K.vn * (r q).bufferSize ≤ (reserve (K.vn * (r q).bufferSize) (s q)).buf.length := by
    intro q
    unfold reserve
    simp only [List.length_append, List.length_map, List.length_range]
    omega
  have hmemok : ∀ q, q < np → ∀ l : List Nat, (∀ k ∈ l, absAt (ids q) k ≠ 0) → ∀ v ∈ l.map (w q), ok v := by
    intro q hq l hl v hv
    obtain ⟨k, hk, rfl⟩ := List.mem_map.1 hv
    exact hw q hq k (hl k hk)
  have hwp : ∀ q, q < np → ∀ a, has (ids q) a → ok (w q (prim (ids q) a)) := by
    intro q hq a ha
    exact hw q hq _ (by rw [absAt_prim ha]; exact ha.1)
  have hm' : ∀ q a, has (ids q) a → ∀ ig, ∀ k ∈ mem' ig (ids q) a, absAt (ids q) k ≠ 0 := by
    intro q a ha ig k hk
    have := mem_grp'.1 (mem'_sub ha.1 hk)
    rw [this.2]; exact this.1
  have hmt : ∀ q a, has (ids q) a → ∀ ig, ∀ k ∈ (mem' ig (ids q) a).tail, absAt (ids q) k ≠ 0 := fun q a ha ig k hk => hm' q a ha ig k (List.mem_of_mem_tail hk)
  have htabok : ∀ q, q < np → ∀ v ∈ tab (ids q).length (w q), R.shp v := by
    intro q hq v hv
    obtain ⟨k, _, rfl⟩ := List.mem_map.1 hv
    exact hsw q hq k
  -- before the exchange
  have hpre : ∀ q, q < np → ∃ w2 : Nat → V, gsPre K (localSetup (nzSpec (ids q)) (r q)) t (s q) = .ok { reserve (K.vn * (r q).bufferSize) (s q) with u := R.repU (tab (ids q).length w2) } ∧
      (∀ a, has (ids q) a → w2 (prim (ids q) a) = reduce f e ((mem' (!t) (ids q) a).map (w q))) ∧ ∀ k, ¬ IsPrim (ids q) k → w2 k = w q k := by
    intro q hq
    obtain ⟨w1, e1, h1, h2⟩ := local_gather_run (!t) (ids q) f (w q)
    have hg := R.gather _ _ _ (htabok q hq) (localGroups_ok (!t) (hi q hq)) e1
    rw [← localMap_spec, ← hs q hq] at hg
    have hw1 : ∀ a, has (ids q) a → mem' (!t) (ids q) a ≠ [] → w1 (prim (ids q) a) = reduce f e ((mem' (!t) (ids q) a).map (w q)) := by
      intro a ha hne
      rw [h1 a ha]
      rcases mem'_cons (!t) ha with h3 | h3
      · exact absurd h3 hne
      · conv_rhs => rw [h3]
        rw [List.map_cons, M.foldl _ _ (hwp q hq a ha) (hmemok q hq _ (hmt q a ha _)), M.reduce_cons _ _ (hwp q hq a ha) (hmemok q hq _ (hmt q a ha _))]
    cases t with
    | true =>
      refine ⟨w1, ?_, ?_, h2⟩
      · show Outcome.ofOption ((K.gather (localMap (!true) (nzSpec (ids q))) (s q).u).bind _) = _
        rw [hg]; rfl
      · intro a ha
        exact hw1 a ha (has_iff_grp.1 ha)
    | false =>
      obtain ⟨w2, e2, h3, h4⟩ := flagged_init_run (hi q hq) e w1
      have hi2 := R.init _ (tab (ids q).length w1) _ (by
        intro v hv
        obtain ⟨k, hk, rfl⟩ := List.mem_map.1 hv
        by_cases hp : IsPrim (ids q) k
        · obtain ⟨a, ha, rfl⟩ := hp
          rw [h1 a ha]
          exact hok _ (M.foldl_ok _ _ (hwp q hq a ha) (hmemok q hq _ (hmt q a ha _)))
        · rw [h2 k hp]; exact hsw q hq k) e2
      rw [← flaggedPrimaries_spec] at hi2
      refine ⟨w2, ?_, ?_, fun k hk => by rw [h4 k hk, h2 k hk]⟩
      · show Outcome.ofOption ((K.gather (localMap (!false) (nzSpec (ids q))) (s q).u).bind fun u => (K.init (flaggedPrimariesMap (nzSpec (ids q))) u).bind _) = _
        rw [hg, Option.bind_some, hi2]; rfl
      · intro a ha
        rw [h3 a ha]
        have h0 : a ≠ 0 := ha.1
        split
        · rename_i hu
          exact hw1 a ha ((hasU_iff_unfl h0).1 hu)
        · rename_i hu
          have : mem' (!false) (ids q) a = [] := by
            by_contra hne
            exact hu ((hasU_iff_unfl h0).2 hne)
          rw [this]; rfl
  haveI : Nonempty V := ⟨e⟩
  choose! w2 hp1 hp2 hp3 using hpre
  have hok2 : ∀ q, q < np → ∀ a, has (ids q) a → ok (w2 q (prim (ids q) a)) := by
    intro q hq a ha
    rw [hp2 q hq a ha]
    exact M.reduce_ok _ (hmemok q hq _ (hm' q a ha _))
  have hshp2 : ∀ q, q < np → ∀ k, R.shp (w2 q k) := by
    intro q hq k
    by_cases hp : IsPrim (ids q) k
    · obtain ⟨a, ha, rfl⟩ := hp
      exact hok _ (hok2 q hq a ha)
    · rw [hp3 q hq k hp]; exact hsw q hq k
  let s1 : Nat → GsSt U T := fun q => if q < np then { reserve (K.vn * (r q).bufferSize) (s q) with u := R.repU (tab (ids q).length (w2 q)) } else s q
  have hs1 : ∀ q, q < np → s1 q = { reserve (K.vn * (r q).bufferSize) (s q) with u := R.repU (tab (ids q).length (w2 q)) } := fun q hq => if_pos hq
  obtain ⟨w3, s3, e3, h3⟩ := hex.run w2 s1 hshp2 hok2 (by
      intro ht q hq a ha hu
      rw [hp2 q hq a ha, ht]
      have : mem' (!false) (ids q) a = [] := by
        by_contra hne
        exact hu ((hasU_iff_unfl ha.1).2 hne)
      rw [this]; rfl) (by
      intro q hq
      rw [hs1 q hq]
      exact ⟨rfl, hbuf q⟩)
  have hshp3 : ∀ q, q < np → ∀ k, R.shp (w3 q k) := by
    intro q hq k
    by_cases hp : IsPrim (ids q) k
    · obtain ⟨a, ha, rfl⟩ := hp
      rw [(h3 q hq).2.1 a ha]
      split
      · exact hshp2 q hq _
      · apply hok
        apply M.reduce_ok
        intro v hv
        obtain ⟨p, hp, rfl⟩ := List.mem_map.1 hv
        exact hok2 p (mem_contrib.1 hp).1 a (mem_contrib.1 hp).2.has
    · rw [(h3 q hq).2.2 k hp]; exact hshp2 q hq k
  -- after the exchange
  choose w4 hp4 hp5 hp6 using fun q => local_scatter_run t (ids q) (w3 q)
  refine ⟨fun q => if q < np then { s3 q with u := R.repU (tab (ids q).length (w4 q)) } else s3 q, ?_, ?_⟩
  · unfold gsAux
    rw [Coll.seq_run (Coll.seq_ok (Coll.loc_ok _ _ _) hex.okc), Coll.seq_run (Coll.loc_ok _ _ _), Coll.loc_run_ok (g := fun q => { reserve (K.vn * (r q).bufferSize) (s q) with u := R.repU (tab (ids q).length (w2 q)) }) hp1]
    show ((ex.run np s1).bind _) = _
    rw [e3]
    show Coll.run _ np s3 = _
    rw [Coll.loc_run_ok (g := fun q => { s3 q with u := R.repU (tab (ids q).length (w4 q)) })]
    intro q hq
    have hsc := R.scatter _ (tab (ids q).length (w3 q)) _ (by
        intro v hv
        obtain ⟨k, hk, rfl⟩ := List.mem_map.1 hv
        exact hshp3 q hq k) (fun g hg => (localGroups_ok t (hi q hq) g hg).1) (hp4 q)
    rw [← localMap_spec, ← (h3 q hq).1] at hsc
    show Outcome.ofOption ((K.scatter (localMap (!!t) (nzSpec (ids q))) (s3 q).u).bind _) = _
    rw [Bool.not_not, hsc]; rfl
  · intro q hq
    beta_reduce
    rw [if_pos hq]
    show R.repU (tab (ids q).length (w4 q)) = _
    congr 1
    apply tab_congr
    intro k hk
    have htail : ∀ a, has (ids q) a → k ∈ (mem' t (ids q) a).tail → a = absAt (ids q) k ∧ k ≠ prim (ids q) a := by
      intro a ha hm
      have h5 := mem'_tail ha hm
      exact ⟨h5.2.1.symm, h5.2.2⟩
    have hisprim : IsPrim (ids q) k → k = prim (ids q) (absAt (ids q) k) := by
      rintro ⟨a, ha, hk⟩
      conv_rhs => rw [hk, absAt_prim ha]
      exact hk
    unfold gsVal
    split
    · rename_i h0
      have ha0 : absAt (ids q) k = 0 := by unfold absAt; rw [h0]; rfl
      have hnp : ¬ IsPrim (ids q) k := by
        rintro ⟨a, ha, hk⟩
        rw [hk, absAt_prim ha] at ha0
        exact ha.1 ha0
      rw [hp6 q k, (h3 q hq).2.2 k hnp, hp3 q hq k hnp]
      intro a ha hm
      have := (htail a ha hm).1
      rw [ha0] at this
      exact ha.1 this
    · rename_i h0
      have ha0 : absAt (ids q) k ≠ 0 := by unfold absAt; omega
      have ha := has_absAt ha0
      cases t with
      | false =>
        rw [if_neg (by simp), hp5 q _ ha k (mem_grp'.2 ⟨ha0, rfl⟩), (h3 q hq).2.1 _ ha, if_neg (by simp)]
        congr 1
        apply List.map_congr_left
        intro p hp
        have hp := mem_contrib.1 hp
        rw [hp2 p hp.1 _ hp.2.has]; rfl
      | true =>
        rw [if_pos rfl]
        split
        · rename_i hpos
          have hun : k ∈ unflIdx (ids q) (absAt (ids q) k) := by
            rw [mem_unflIdx]
            refine ⟨hk, ?_⟩
            unfold absAt
            omega
          have hu : hasU (ids q) (absAt (ids q) k) := (hasU_iff_unfl ha0).2 (List.ne_nil_of_mem hun)
          rw [hp5 q _ ha k hun, (h3 q hq).2.1 _ ha, if_neg (by simp [hu])]
          congr 1
          apply List.map_congr_left
          intro p hp
          have hp := mem_contrib.1 hp
          rw [hp2 p hp.1 _ hp.2.has]; rfl
        · rename_i hpos
          rw [hp6 q k]
          · split
            · rename_i hkp
              have hnu : ¬ hasU (ids q) (absAt (ids q) k) := by
                intro hu
                rcases idAt_prim ha with h5 | h5
                · rw [← hkp] at h5; omega
                · exact h5.1 hu
              have h6 := (h3 q hq).2.1 _ ha
              rw [if_pos ⟨rfl, hnu⟩, hp2 q hq _ ha, ← hkp] at h6
              exact h6
            · rename_i hkp
              have hnp : ¬ IsPrim (ids q) k := fun h => hkp (hisprim h)
              rw [(h3 q hq).2.2 k hnp, hp3 q hq k hnp]
          · intro a ha' hm
            have h7 : k ∈ unflIdx (ids q) a := List.mem_of_mem_tail hm
            rw [mem_unflIdx] at h7
            omega

end Gslib.Gs
