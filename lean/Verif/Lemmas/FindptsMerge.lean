import Verif.Lemmas.Findpts

/-! # `findpts`: merging the remote results -/

namespace Gslib.Fp
open Gslib Gslib.Mpi Gslib.Transfer Gslib.Gs Gslib.Hash Gslib.Num Gslib.Spec

variable {D : Nat} {K : Type} [Field K] [LinearOrder K] [FloorRing K]

theorem merge_run (val : Nat → K) (F : Nat → Nat → Nat → FRes D) (n : Nat) (B : OutPt D → Nat → Nat → Prop) : ∀ (l : List (OutPt D)) (outs : List (LRes D)) (procs : List Nat) (C : Nat → Nat → Nat → Prop),
    outs.length = n → procs.length = n → (∀ r ∈ l, r.u 0 < n ∧ r.u 1 ≠ 2 ∧ IsBest val (F (r.u 0)) (B r) ((outRes r).toPt (r.u 3))) →
    (∀ (i : Nat) o q, outs[i]? = some o → procs[i]? = some q → IsBest val (F i) (C i) (o.toPt q)) →
    ∃ outs' procs', forList (mergeRow val) l (outs, procs) = some (outs', procs') ∧ outs'.length = n ∧ procs'.length = n ∧
      (∀ (i : Nat) o q, outs'[i]? = some o → procs'[i]? = some q → IsBest val (F i) (fun q el => C i q el ∨ ∃ r ∈ l, r.u 0 = i ∧ B r q el) (o.toPt q)) ∧
      (∀ (i : Nat) o, outs[i]? = some o → (o.code = 0 ∨ ∀ r ∈ l, r.u 0 ≠ i) → outs'[i]? = some o ∧ procs'[i]? = procs[i]?)
  | [], outs, procs, C, h1, h2, _, h4 => ⟨outs, procs, rfl, h1, h2, by simpa using h4, fun i o h _ => ⟨h, rfl⟩⟩
  | r :: l, outs, procs, C, h1, h2, h3, h4 => by
    obtain ⟨hr1, hr2, hr3⟩ := h3 r (by simp)
    obtain ⟨o, ho⟩ : ∃ o, outs[r.u 0]? = some o := ⟨_, List.getElem?_eq_getElem (by omega)⟩
    obtain ⟨q, hq⟩ : ∃ q, procs[r.u 0]? = some q := ⟨_, List.getElem?_eq_getElem (by omega)⟩
    let C' : Nat → Nat → Nat → Prop := fun i q el => C i q el ∨ (r.u 0 = i ∧ B r q el)
    have hm := IsBest.merge (h4 _ o q ho hq) hr3 hr2
    have key : ∃ outs1 procs1, mergeRow val r (outs, procs) = some (outs1, procs1) ∧ outs1.length = n ∧ procs1.length = n ∧
        (∀ (i : Nat) o q, outs1[i]? = some o → procs1[i]? = some q → IsBest val (F i) (C' i) (o.toPt q)) ∧
        (∀ (i : Nat) o, outs[i]? = some o → (o.code = 0 ∨ r.u 0 ≠ i) → outs1[i]? = some o ∧ procs1[i]? = procs[i]?) := by
      have hother : ∀ i, r.u 0 ≠ i → C' i = C i := by
        intro i hi
        funext q el
        simp [C', hi]
      have hself : C' (r.u 0) = fun q el => C (r.u 0) q el ∨ B r q el := by
        funext q el
        simp [C']
      unfold mergeRow
      simp only
      rw [ho, Option.bind_some]
      by_cases hc : o.code = codeInternal
      · rw [if_pos hc]
        refine ⟨outs, procs, rfl, h1, h2, ?_, fun i o h _ => ⟨h, rfl⟩⟩
        intro i o' q' ho' hq'
        by_cases hi : r.u 0 = i
        · subst hi
          rw [ho] at ho'; rw [hq] at hq'
          obtain rfl := Option.some.inj ho'
          obtain rfl := Option.some.inj hq'
          rw [hself]
          rw [if_pos (show (o.toPt q).code = 0 from hc)] at hm
          exact hm
        · rw [hother i hi]; exact h4 i o' q' ho' hq'
      · rw [if_neg hc]
        rw [if_neg (show ¬ (o.toPt q).code = 0 from hc)] at hm
        by_cases hu : o.code = codeNotFound ∨ r.u 1 = codeInternal ∨ val (outRes r).dist2 < val o.dist2
        · rw [if_pos hu, if_pos (by omega)]
          rw [if_pos (by exact hu)] at hm
          refine ⟨_, _, rfl, by simpa using h1, by simpa using h2, ?_, ?_⟩
          · intro i o' q' ho' hq'
            rw [List.getElem?_set] at ho' hq'
            by_cases hi : r.u 0 = i
            · subst hi
              rw [if_pos rfl, if_pos (by omega)] at ho' hq'
              obtain rfl := Option.some.inj ho'
              obtain rfl := Option.some.inj hq'
              rw [hself]
              exact hm
            · rw [if_neg hi] at ho' hq'
              rw [hother i hi]; exact h4 i o' q' ho' hq'
          · intro i o' ho' hi
            rcases hi with hi | hi
            · have : r.u 0 ≠ i := by
                rintro rfl
                rw [ho] at ho'
                obtain rfl := Option.some.inj ho'
                exact hc hi
              rw [List.getElem?_set_ne this, List.getElem?_set_ne this]
              exact ⟨ho', rfl⟩
            · rw [List.getElem?_set_ne hi, List.getElem?_set_ne hi]
              exact ⟨ho', rfl⟩
        · rw [if_neg hu]
          rw [if_neg (by exact hu)] at hm
          refine ⟨outs, procs, rfl, h1, h2, ?_, fun i o h _ => ⟨h, rfl⟩⟩
          intro i o' q' ho' hq'
          by_cases hi : r.u 0 = i
          · subst hi
            rw [ho] at ho'; rw [hq] at hq'
            obtain rfl := Option.some.inj ho'
            obtain rfl := Option.some.inj hq'
            rw [hself]
            exact hm
          · rw [hother i hi]; exact h4 i o' q' ho' hq'
    obtain ⟨outs1, procs1, e1, l1, l2, b1, k1⟩ := key
    obtain ⟨outs2, procs2, e2, l3, l4, b2, k2⟩ := merge_run val F n B l outs1 procs1 C' l1 l2 (fun r hr => h3 r (by simp [hr])) b1
    refine ⟨outs2, procs2, ?_, l3, l4, ?_, ?_⟩
    · rw [forList, e1, Option.bind_some, e2]
    · intro i o q ho hq
      have := b2 i o q ho hq
      have e : (fun q el => C i q el ∨ ∃ r' ∈ r :: l, r'.u 0 = i ∧ B r' q el) = fun q el => C' i q el ∨ ∃ r ∈ l, r.u 0 = i ∧ B r q el := by
        funext q el
        simp only [C', List.mem_cons, exists_eq_or_imp, or_assoc]
      rw [e]
      exact this
    · intro i o ho hi
      have := k1 i o ho (hi.imp id fun h => h r (by simp))
      have h2 := k2 i o this.1 (hi.imp id fun h r' hr' => h r' (by simp [hr']))
      exact ⟨h2.1, h2.2.trans this.2⟩

theorem _root_.Gslib.Spec.IsBest.congr_find {val : Nat → K} {f g : Nat → Nat → FRes D} {C : Nat → Nat → Prop} {r : PtRes D} (h : ∀ q el, C q el → f q el = g q el) (hb : IsBest val f C r) : IsBest val g C r := by
  rcases hb with a | ⟨a, q, el, b, c, d1, d2, d3, d4⟩ | ⟨a, b, q, el, c, ⟨d1, d2, d3, d4⟩, e⟩
  · exact Or.inl a
  · refine Or.inr (Or.inl ⟨a, q, el, b, ?_, d1, d2, ?_, ?_⟩)
    all_goals rw [← h q el b]; assumption
  · refine Or.inr (Or.inr ⟨a, fun q' el' hc => ?_, q, el, c, ⟨d1, d2, ?_, ?_⟩, fun q' el' hc => ?_⟩)
    · rw [← h q' el' hc]; exact b q' el' hc
    · rw [← h q el c]; exact d3
    · rw [← h q el c]; exact d4
    · rw [← h q' el' hc, ← h q el c]; exact e q' el' hc

/-- the candidates of a point asked by process `p` -/
def CandOf (env : Nat → FEnv D K) (lst : Nat → Pt D → List Nat) (glst : Pt D → List Nat) (p : Nat) (x : Pt D) (q el : Nat) : Prop :=
  el ∈ lst q x ∧ (env q).loc.test el x = true ∧ (q = p ∨ q ∈ glst x)

theorem mem_cands0 {env : LEnv D K} (h : env.ims = false) {lst : Pt D → List Nat} {x : Pt D × Nat} {el : Nat} : el ∈ cands env 0 lst x ↔ el ∈ lst x.1 ∧ env.test el x.1 = true := by
  unfold cands skipSession
  simp [h]

theorem locFrom_best {val : Nat → K} (env : Nat → FEnv D K) (lst : Nat → Pt D → List Nat) (find : Nat → Nat → Pt D → FRes D) (q sessm : Nat) (x : Pt D × Nat) (o : LRes D) :
    IsBest val (fun q el => find q el x.1) (fun q' el => q' = q ∧ el ∈ cands (env q).loc sessm (lst q) x) ((locFrom val (env q) (lst q) (find q) sessm x o).toPt q) := by
  have := foldl_best (val := val) (env q).loc find q x.1 (cands (env q).loc sessm (lst q) x) (fun _ _ => False) { o with code := codeNotFound } (Or.inl ⟨rfl, fun _ _ h => h⟩)
  unfold locFrom
  simpa using this

/-- `findpts`: every point gets a best result among its candidates -/
theorem findpts_run {val : Nat → K} {np : Nat} {env : Nat → FEnv D K} {lst : Nat → Pt D → List Nat} {find : Nat → Nat → Pt D → FRes D} {h : Pt D → Nat} {glst : Pt D → List Nat}
    (H : FpOk val np env lst find h glst false) (s0 : Nat → FpSt D) (hlen : ∀ p, p < np → (s0 p).outs.length = (s0 p).xs.length)
    (hxs : ∀ p, p < np → ∀ x ∈ (s0 p).xs, (∀ d, x.1 d < 18446744073709551616) ∧ x.2 < 4294967296) (hnpt : ∀ p, p < np → (s0 p).xs.length ≤ 4294967296)
    (hT : (∑ p ∈ Finset.range np, (s0 p).xs.length) * (8 * D + 24) < Crystal.intMax)
    (hG : (∑ p ∈ Finset.range np, ((s0 p).xs.map fun x => (glst x.1).length).sum) * (8 * D + 48) < Crystal.intMax) :
    ∃ sf, (findpts val np env).run np s0 = .ok sf ∧ ∀ p, p < np → (sf p).xs = (s0 p).xs ∧ (sf p).outs.length = (s0 p).xs.length ∧ (sf p).procs.length = (s0 p).xs.length ∧
      ∀ (i : Nat) x o0, (s0 p).xs[i]? = some x → (s0 p).outs[i]? = some o0 → ∃ o q, (sf p).outs[i]? = some o ∧ (sf p).procs[i]? = some q ∧
        IsBest val (fun q el => find q el x.1) (CandOf env lst glst p x.1) (o.toPt q) ∧
        ((locFrom val (env p) (lst p) (find p) 0 x o0).code = 0 → o = locFrom val (env p) (lst p) (find p) 0 x o0 ∧ q = p) := by
  obtain ⟨s1, e1, hs1⟩ := findptsSearch_run H 0 s0 hlen hxs hnpt hT hG
  have key : ∀ p, ∃ t : List (LRes D) × List Nat, p < np → forList (mergeRow val) (getRows (outLayout D) (s1 p).tr) ((s1 p).outs, (s1 p).procs) = some t ∧ t.1.length = (s0 p).xs.length ∧ t.2.length = (s0 p).xs.length ∧
      ∀ (i : Nat) x o0, (s0 p).xs[i]? = some x → (s0 p).outs[i]? = some o0 → ∃ o q, t.1[i]? = some o ∧ t.2[i]? = some q ∧
        IsBest val (fun q el => find q el x.1) (CandOf env lst glst p x.1) (o.toPt q) ∧
        ((locFrom val (env p) (lst p) (find p) 0 x o0).code = 0 → o = locFrom val (env p) (lst p) (find p) 0 x o0 ∧ q = p) := by
    intro p
    by_cases hp : p < np
    swap
    · exact ⟨([], []), fun h => absurd h hp⟩
    obtain ⟨ex, ep, el, eo, er⟩ := hs1 p hp
    let xs := (s0 p).xs
    let F : Nat → Nat → Nat → FRes D := fun i q el => find q el ((xs[i]?.map Prod.fst).getD fun _ => 0)
    have hF : ∀ (i : Nat) x, xs[i]? = some x → F i = fun q el => find q el x.1 := by
      intro i x hx
      funext q el
      simp only [F, hx, Option.map_some, Option.getD_some]
    let B : OutPt D → Nat → Nat → Prop := fun r q el => q = r.u 3 ∧ ∃ x, xs[r.u 0]? = some x ∧ el ∈ cands (env (r.u 3)).loc 0 (lst (r.u 3)) x
    let C : Nat → Nat → Nat → Prop := fun i q el => q = p ∧ ∃ x, xs[i]? = some x ∧ el ∈ cands (env p).loc 0 (lst p) x
    obtain ⟨outs', procs', m1, m2, m3, m4, m5⟩ := merge_run val F xs.length B (getRows (outLayout D) (s1 p).tr) (s1 p).outs (s1 p).procs C el (by rw [ep, List.length_map]) (by
        intro r hr
        obtain ⟨i, x, o, q, b1, b2, b3, b4, b5, b6, rfl⟩ := (er r).1 hr
        refine ⟨(List.getElem?_eq_some_iff.1 b1).1, b6, ?_⟩
        have hb := locFrom_best (val := val) env lst find q 0 x junkRes
        rw [outRes_outRow]
        show IsBest val (F i) _ (LRes.toPt q _)
        rw [hF i x b1]
        refine (congrArg (fun C => IsBest val (fun q el => find q el x.1) C _) ?_).mp hb
        funext q' el
        refine propext (and_congr_right fun _ => ?_)
        constructor
        · intro h; exact ⟨x, b1, h⟩
        · rintro ⟨x', hx', h⟩
          have : some x = some x' := b1.symm.trans hx'
          obtain rfl := Option.some.inj this
          exact h)
      (by
        intro i o q ho hq
        have hi : i < xs.length := by rw [← el]; exact (List.getElem?_eq_some_iff.1 ho).1
        have hx : xs[i]? = some xs[i] := List.getElem?_eq_getElem hi
        have ho0 : (s0 p).outs[i]? = some ((s0 p).outs[i]'(by rw [hlen p hp]; exact hi)) := List.getElem?_eq_getElem _
        have := eo i _ _ hx ho0
        rw [ho] at this
        obtain rfl := Option.some.inj this
        have hqp : q = p := by
          rw [ep, List.getElem?_map, hx] at hq
          exact (Option.some.inj hq).symm
        subst hqp
        rw [hF i _ hx]
        have hb := locFrom_best (val := val) env lst find q 0 xs[i] ((s0 q).outs[i]'(by rw [hlen q hp]; exact hi))
        refine (congrArg (fun C => IsBest val (fun q el => find q el xs[i].1) C _) ?_).mp hb
        funext q' el
        refine propext (and_congr_right fun _ => ?_)
        constructor
        · intro h; exact ⟨_, hx, h⟩
        · rintro ⟨x', hx', h⟩
          rw [hx] at hx'
          obtain rfl := Option.some.inj hx'
          exact h)
    refine ⟨(outs', procs'), fun _ => ⟨m1, m2, m3, ?_⟩⟩
    intro i x o0 hx ho0
    have hi : i < xs.length := (List.getElem?_eq_some_iff.1 hx).1
    have hl := eo i x o0 hx ho0
    obtain ⟨o, ho⟩ : ∃ o, outs'[i]? = some o := ⟨_, List.getElem?_eq_getElem (by omega)⟩
    obtain ⟨q, hq⟩ : ∃ q, procs'[i]? = some q := ⟨_, List.getElem?_eq_getElem (by omega)⟩
    have hb := m4 i o q ho hq
    rw [hF i x hx] at hb
    have hkeep : (locFrom val (env p) (lst p) (find p) 0 x o0).code = 0 → o = locFrom val (env p) (lst p) (find p) 0 x o0 ∧ q = p := by
      intro h0
      obtain ⟨k1, k2⟩ := m5 i _ hl (Or.inl h0)
      rw [ho] at k1
      rw [hq, ep, List.getElem?_map, show (s0 p).xs[i]? = some x from hx] at k2
      exact ⟨Option.some.inj k1, Option.some.inj k2⟩
    refine ⟨o, q, ho, hq, ?_, hkeep⟩
    have hCp : ∀ q el, C i q el → CandOf env lst glst p x.1 q el := by
      rintro q el ⟨rfl, x', hx', hel⟩
      rw [show xs[i]? = some x from hx] at hx'
      obtain rfl := Option.some.inj hx'
      have := (mem_cands0 (H.ims q hp)).1 hel
      exact ⟨this.1, this.2, Or.inl rfl⟩
    by_cases h0 : (locFrom val (env p) (lst p) (find p) 0 x o0).code = 0
    · obtain ⟨rfl, rfl⟩ := hkeep h0
      have hb := locFrom_best (val := val) env lst find q 0 x o0
      rcases hb with ⟨a, _⟩ | ⟨a, q', el', ⟨rfl, b⟩, c⟩ | ⟨a, _⟩
      · have : (locFrom val (env q) (lst q) (find q) 0 x o0).code = 2 := a
        omega
      · have := (mem_cands0 (H.ims q' hp)).1 b
        exact Or.inr (Or.inl ⟨a, q', el', ⟨this.1, this.2, Or.inl rfl⟩, c⟩)
      · have : (locFrom val (env q) (lst q) (find q) 0 x o0).code = 1 := a
        omega
    · refine (congrArg (fun C => IsBest val (fun q el => find q el x.1) C _) ?_).mp hb
      funext q el
      refine propext ⟨?_, ?_⟩
      · rintro (hc | ⟨r, hr, rfl, rfl, x', hx', hel⟩)
        · exact hCp q el hc
        · obtain ⟨i, x'', o, q, b1, b2, b3, b4, b5, b6, rfl⟩ := (er r).1 hr
          have e1 : some x' = some x := hx'.symm.trans hx
          have e2 : some x'' = some x := b1.symm.trans hx
          obtain rfl := Option.some.inj e1
          obtain rfl := Option.some.inj e2
          have := (mem_cands0 (H.ims _ (H.glt _ _ b4))).1 hel
          exact ⟨this.1, this.2, Or.inr b4⟩
      · rintro ⟨c1, c2, c3⟩
        by_cases hqp : q = p
        · subst hqp
          exact Or.inl ⟨rfl, x, hx, (mem_cands0 (H.ims q hp)).2 ⟨c1, c2⟩⟩
        · have hg := c3.resolve_left hqp
          have hel := (mem_cands0 (x := x) (H.ims q (H.glt _ _ hg))).2 ⟨c1, c2⟩
          refine Or.inr ⟨outRow i q (locFrom val (env q) (lst q) (find q) 0 x junkRes), (er _).2 ⟨i, x, _, q, hx, hl, Or.inr h0, hg, hqp, ?_, rfl⟩, rfl, rfl, x, hx, hel⟩
          intro h2
          rcases locFrom_best (val := val) env lst find q 0 x junkRes with ⟨_, b⟩ | ⟨a, _⟩ | ⟨a, _⟩
          · exact b q el ⟨rfl, hel⟩
          · have : (locFrom val (env q) (lst q) (find q) 0 x junkRes).code = 0 := a
            omega
          · have : (locFrom val (env q) (lst q) (find q) 0 x junkRes).code = 1 := a
            omega
  choose t ht using key
  refine ⟨fun p => if p < np then { s1 p with outs := (t p).1, procs := (t p).2 } else s1 p, Coll.seq_run_ok (findptsSearch_ok _ _ _ _) e1 (Coll.loc_run_ok ?_), ?_⟩
  · intro p hp
    unfold fp4
    rw [(ht p hp).1]
    rfl
  · intro p hp
    simp only [if_pos hp]
    exact ⟨(hs1 p hp).1, (ht p hp).2⟩

end Gslib.Fp
