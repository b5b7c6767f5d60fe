import Verif.Lemmas.StridedEval
import Verif.Props.Strided
import Verif.Props.FindptsEval

/-!
# C60: `findpts_eval` with strides; `findpts` followed by `findpts_eval`
-/

namespace Gslib.Props
open Gslib Gslib.Mpi Gslib.Transfer Gslib.Gs Gslib.Hash Gslib.Num Gslib.Spec Gslib.Fp Gslib.GHash

variable {D : Nat} {K : Type} [Field K] [LinearOrder K] [IsStrictOrderedRing K] [FloorRing K]

theorem evalS_run {np : Nat} (hnp' : np ≤ 4294967295) {eenv : Nat → EvEnv D} {ev : Nat → (Nat → Nat) → (Fin D → Nat) → Nat} (he : EvEnvOk np eenv ev) {args : Nat → List (EvArg D)} (ha : ArgsOk np eenv args)
    (a : Nat → EArgs) (npt : Nat → Nat) (hnpt : ∀ p, p < np → npt p = (args p).length) (t0 : Nat → ESt D)
    (hm : ∀ p, p < np → (a p).Ok (args p).length (t0 p).ss.mem ∧ ∀ (i : Nat) x, (args p)[i]? = some x → (a p).PointIs (t0 p).ss.mem i x.code x.proc x.el x.r) :
    ∃ tf, (findptsEvalS np eenv a npt false).run np t0 = .ok tf ∧ ∀ p, p < np →
      (∀ (i : Nat) x, (args p)[i]? = some x → x.code ≠ 2 → HoldsAt (tf p).ss.mem 8 ((a p).outAddr i) (evAt eenv ev (fun q => (t0 q).inp) x.proc x.el x.r)) ∧
      ∀ b, (∀ (i : Nat) x, (args p)[i]? = some x → x.code ≠ 2 → b < (a p).outAddr i ∨ (a p).outAddr i + 8 ≤ b) → (tf p).ss.mem b = (t0 p).ss.mem b := by
  have key : ∀ J : Nat, ∃ tf, (findptsEvalS np eenv a npt false).run np t0 = .ok tf ∧ ∀ p, p < np → ∃ out, EOut (a p) (args p).length J (t0 p).ss.mem (tf p).ss.mem out ∧
      EvalResult (evAt eenv ev fun q => (t0 q).inp) (args p) (List.replicate (args p).length J) out := by
    intro J
    let s0 : Nat → FdSt D := fun p => ⟨⟨[], [], [], (t0 p).ss.tr, (t0 p).ss.scratch⟩, args p, (t0 p).inp, List.replicate (args p).length J, (t0 p).savpt⟩
    obtain ⟨s2, e2, h2, h3⟩ := evSetup_run hnp' ha s0 (fun p hp => rfl)
    obtain ⟨sf, e3, h4⟩ := evRun_run hnp' he ha s2 h3 (fun p hp => by rw [(h2 p hp).2]; show _ ≤ (List.replicate _ _).length; rw [List.length_replicate])
    have e : (findptsEval np eenv false).run np s0 = .ok sf := by
      unfold findptsEval
      simp only [Bool.false_eq_true, if_false]
      exact Coll.seq_run_ok (evSetup_ok D np) e2 e3
    obtain ⟨tf, f, hR⟩ := findptsEval_sim np eenv a npt (fun p => (args p).length) J (fun p => (t0 p).ss.mem) hnpt s0 t0 sf (by
      intro p hp
      refine ⟨⟨rfl, rfl, rfl, rfl, List.length_replicate, (hm p hp).1, fun _ _ => rfl, ?_⟩, rfl, (hm p hp).2⟩
      intro i o ho
      have := List.mem_of_getElem? ho
      exact Or.inl ⟨List.eq_of_mem_replicate this, fun _ _ => rfl⟩) e
    refine ⟨tf, f, fun p hp => ⟨(sf p).out, (hR p hp).2.2.2.2, ?_⟩⟩
    obtain ⟨q1, q2, q3⟩ := (h4 p hp).2
    rw [(h2 p hp).2] at q1 q3
    refine ⟨q1, fun i x hx hc => ?_, q3⟩
    rw [q2 i x hx hc]
    have hq := (ha.found p hp x (List.mem_of_getElem? hx) hc).1
    unfold evAt
    beta_reduce
    rw [(h2 _ hq).1]
  obtain ⟨tf, f, h1⟩ := key 18446744073709551616
  obtain ⟨tf', f', h2⟩ := key 18446744073709551617
  rw [f] at f'
  obtain rfl := Outcome.ok.inj f'
  refine ⟨tf, f, fun p hp => ⟨?_, ?_⟩⟩
  · intro i x hx hc
    obtain ⟨out, ho, hr⟩ := h1 p hp
    rcases ho.slots i _ (hr.2.1 i x hx hc) with ⟨q, _⟩ | q
    · have hq := (ha.found p hp x (List.mem_of_getElem? hx) hc).1
      have := he.fit _ hq (fun j => (t0 x.proc).inp (x.el * (eenv x.proc).ntot + j)) x.r
      unfold evAt at q
      beta_reduce at q
      omega
    · exact q
  · intro b hb
    obtain ⟨out, ho, hr⟩ := h1 p hp
    obtain ⟨out', ho', hr'⟩ := h2 p hp
    by_cases hin : ∀ i, i < (args p).length → b < (a p).outAddr i ∨ (a p).outAddr i + 8 ≤ b
    · exact ho.frame b hin
    · push Not at hin
      obtain ⟨i, hi, hi1, hi2⟩ := hin
      have hc : ∀ x, (args p)[i]? = some x → x.code = 2 := by
        intro x hx
        by_contra hc
        have := hb i x hx hc
        omega
      have g1 := hr.2.2 i hc
      have g2 := hr'.2.2 i hc
      rw [List.getElem?_replicate, if_pos hi] at g1 g2
      have hcell : ∀ k, k < 8 → (tf p).ss.mem ((a p).outAddr i + k) = (t0 p).ss.mem ((a p).outAddr i + k) := by
        rcases ho.slots i _ g1 with ⟨_, q⟩ | q
        · exact q
        · rcases ho'.slots i _ g2 with ⟨_, q'⟩ | q'
          · exact q'
          · have z1 := q 0 (by omega)
            have z2 := q' 0 (by omega)
            rw [z1] at z2
            simp at z2
      have := hcell (b - (a p).outAddr i) (by omega)
      rwa [show (a p).outAddr i + (b - (a p).outAddr i) = b by omega] at this

/-- **C60 (`findpts_eval`)**. The first `findpts_eval` after `findpts`, with arrays of arbitrary byte strides on each process (the entries of the output array do not overlap, the last one begins less than 4 GB behind the first; the output
may overlap the arguments): on every schedule the call ends without abort or undefined behaviour, `out_base + i*out_stride` holds the value at point `i` for every point with `code` other than 2, computed by the owner of the element, and no
other byte of the caller's memory has changed. -/
theorem findpts_eval_strided {np : Nat} (hnp' : np ≤ 4294967295) {eenv : Nat → EvEnv D} {ev : Nat → (Nat → Nat) → (Fin D → Nat) → Nat} (he : EvEnvOk np eenv ev) {args : Nat → List (EvArg D)} (ha : ArgsOk np eenv args)
    (a : Nat → EArgs) (t0 : Nat → ESt D)
    (hm : ∀ p, p < np → (a p).Ok (args p).length (t0 p).ss.mem ∧ ∀ (i : Nat) x, (args p)[i]? = some x → (a p).PointIs (t0 p).ss.mem i x.code x.proc x.el x.r) :
    AllSchedules (findptsEvalS np eenv a (fun p => (args p).length) false).prog np t0 fun tf => ∀ p, p < np →
      (∀ (i : Nat) x, (args p)[i]? = some x → x.code ≠ 2 → HoldsAt (tf p).ss.mem 8 ((a p).outAddr i) (evAt eenv ev (fun q => (t0 q).inp) x.proc x.el x.r)) ∧
      ∀ b, (∀ (i : Nat) x, (args p)[i]? = some x → x.code ≠ 2 → b < (a p).outAddr i ∨ (a p).outAddr i + 8 ≤ b) → (tf p).ss.mem b = (t0 p).ss.mem b := by
  obtain ⟨tf, f, h⟩ := evalS_run hnp' he ha a _ (fun _ _ => rfl) t0 hm
  refine allSchedules_of_lockRun (findptsEvalS_ok np eenv a _ false) f _ ?_
  intro tf' htf p hp
  rw [htf p hp]
  exact h p hp

/-- the arguments of `findpts_eval` that are the results of `findpts` -/
def evalArgs (a : SArgs D) (out : SArr) : EArgs := ⟨out, a.code, a.proc, a.el, a.r⟩

/-- **C60 (interpolation)**. `findpts` followed by `findpts_eval` of its results, in the memory of the caller: on every schedule both calls end without abort or undefined behaviour; `out_base + i*out_stride` holds the value of the field at
the best result of point `i` if it is found; no byte has changed but those of the results of `findpts` and of the output of the points found. -/
theorem findpts_interpolate {np hn : Nat} (hhn : 0 < hn) (hnp : 0 < np) (hnp' : np ≤ 4294967295) {obb : Nat → List (List (Range K))} (h : ∀ q, q < np → ProperBoxes D (obb q))
    (hcell : hn ^ D ≤ 2 ^ 32 ∨ (np ∣ 2 ^ 32 ∧ hn ^ D ≤ 2 ^ 32 * np)) (hsmall : (∑ q ∈ Finset.range np, hashCount hn (globalBnd D np obb) (obb q)) * 16 < Crystal.intMax)
    (s0 : Nat → HbSt K) (h0 : ∀ q, q < np → (s0 q).obb = obb q) (val : Nat → K) (find : Nat → Nat → Fp.Pt D → FRes D)
    {eenv : Nat → EvEnv D} {ev : Nat → (Nat → Nat) → (Fin D → Nat) → Nat} (he : EvEnvOk np eenv ev) (hnt : ∀ q, q < np → (obb q).length * (eenv q).ntot ≤ 2 ^ 32 ∧ (obb q).length ≤ 2 ^ 32) :
    AllSchedules (GHash.hashBuild D hn np (globalBnd D np obb)).prog np s0 fun sf =>
      ∀ env : Nat → FEnv D K, SetupDone val np hn obb find sf env →
      ∃ C : Nat → Fp.Pt D → Nat → Nat → Prop,
        (∀ p x q el, p < np → C p x q el → q < np ∧ el < (obb q).length ∧ (env q).loc.test el x = true) ∧
        (∀ p x q el box, q < np → (obb q)[el]? = some box → InHalfOpenBox box (coords val x) → (env q).loc.test el x = true → C p x q el) ∧
        ∀ (a : Nat → SArgs D) (out : Nat → SArr) (xs : Nat → List (Fp.Pt D × Nat)) (t0 : Nat → ESt D), CallOk np xs (fun p => (xs p).map fun _ => junkRes) →
          (∀ p, p < np → (a p).Ok .std (xs p).length ∧ Writable (a p) (xs p).length (t0 p).ss.mem ∧
            (∀ (i : Nat) x, (xs p)[i]? = some x → (∀ d, SlotIs (a p) (t0 p).ss.mem (.x i d) (x.1 d)) ∧ SlotIs (a p) (t0 p).ss.mem (.sess i) x.2) ∧
            (evalArgs (a p) (out p)).Ok (xs p).length (t0 p).ss.mem ∧
            ∀ i, i < (xs p).length → ∀ s : Slot D, s.idx < (xs p).length → s.written → (out p).base + i * (out p).stride + 8 ≤ s.addr (a p) ∨ s.addr (a p) + s.size ≤ (out p).base + i * (out p).stride) →
          AllSchedules (((findptsS val np env a fun p => (xs p).length).lift ESt.ss ESt.setSs).seq (findptsEvalS np eenv (fun p => evalArgs (a p) (out p)) (fun p => (xs p).length) false)).prog np t0 fun tf =>
            ∀ p, p < np → ∃ res : Nat → PtRes D,
              (∀ (i : Nat) x, (xs p)[i]? = some x → IsBest val (fun q el => find q el x.1) (C p x.1) (res i) ∧ SlotIs (a p) (tf p).ss.mem (.code i) (res i).code ∧ SlotIs (a p) (tf p).ss.mem (.proc i) (res i).proc ∧
                ((res i).code ≠ 2 → SlotIs (a p) (tf p).ss.mem (.el i) (res i).el ∧ (∀ d, SlotIs (a p) (tf p).ss.mem (.r i d) ((res i).r d)) ∧ SlotIs (a p) (tf p).ss.mem (.dist2 i) (res i).dist2 ∧
                  HoldsAt (tf p).ss.mem 8 ((out p).base + i * (out p).stride) (evAt eenv ev (fun q => (t0 q).inp) (res i).proc (res i).el (res i).r))) ∧
              ∀ b, (∀ s : Slot D, s.idx < (xs p).length → s.written → b < s.addr (a p) ∨ s.addr (a p) + s.size ≤ b) →
                (∀ i, i < (xs p).length → (res i).code ≠ 2 → b < (out p).base + i * (out p).stride ∨ (out p).base + i * (out p).stride + 8 ≤ b) → (tf p).ss.mem b = (t0 p).ss.mem b := by
  have G := setup_ready hhn hnp hnp' h hcell hsmall s0 h0 val find
  refine ⟨G.noInfinite, G.noDeadlock, fun c hr hf => ⟨?_, (G.result c hr hf).2⟩⟩
  intro env henv
  obtain ⟨lst, hx, glst, H, hglen, hl, hgin⟩ := (G.result c hr hf).1 env henv
  have hC : ∀ p x q el, p < np → CandOf env lst glst p x q el → q < np ∧ el < (obb q).length ∧ (env q).loc.test el x = true := by
    rintro p x q el hp ⟨c1, c2, c3⟩
    have hq : q < np := by
      rcases c3 with rfl | c3
      · exact hp
      · exact H.glt x q c3
    exact ⟨hq, (hl q hq).1 x el c1, c2⟩
  refine ⟨CandOf env lst glst, hC, ?_, ?_⟩
  · intro p x q el box hq hb hin ht
    exact ⟨(hl q hq).2 x el box hb hin, ht, Or.inr (hgin x q hq ⟨box, List.mem_of_getElem? hb, hin⟩)⟩
  · intro a out xs t0 ht hm
    have hn1 : (∑ p ∈ Finset.range np, ((xs p).map fun x => (glst x.1).length).sum) ≤ (∑ p ∈ Finset.range np, (xs p).length) * np := by
      rw [Finset.sum_mul]
      exact Finset.sum_le_sum fun p _ => sum_map_le np _ glst hglen
    have hn2 : (∑ p ∈ Finset.range np, (xs p).length) ≤ (∑ p ∈ Finset.range np, (xs p).length) * np := Nat.le_mul_of_pos_right _ hnp
    obtain ⟨sf', e, hsf⟩ := findpts_run H (fun p => ⟨xs p, (xs p).map fun _ => junkRes, [], (t0 p).ss.tr, (t0 p).ss.scratch⟩) ht.room ht.double ht.npt
      (lt_of_le_of_lt (Nat.mul_le_mul hn2 (by omega)) ht.small) (lt_of_le_of_lt (Nat.mul_le_mul_right _ hn1) ht.small)
    obtain ⟨tf', e', hR⟩ := findpts_sim val np env (fun p hp => H.ims p hp) a (fun p => (xs p).length) (fun p => (t0 p).ss.mem) (fun p hp => (hm p hp).1) _ (fun p => (t0 p).ss) sf' (by
      intro p hp
      obtain ⟨m1, m2, m3, _⟩ := hm p hp
      exact ⟨rfl, rfl, ⟨m2, fun _ _ => rfl⟩, rfl, fun i x hi => ⟨fun d => get_iff.2 ((m3 i x hi).1 d), get_iff.2 (m3 i x hi).2⟩, by simp⟩) e
    -- the results as arguments of `findpts_eval`
    let args : Nat → List (EvArg D) := fun p => ((sf' p).outs.zip (sf' p).procs).map fun z => ⟨z.1.code, z.2, z.1.el, z.1.r⟩
    have hlen : ∀ p, p < np → (args p).length = (xs p).length := by
      intro p hp
      obtain ⟨_, a2, a3, _⟩ := hsf p hp
      simp only [args, List.length_map, List.length_zip]
      rw [a2, a3, Nat.min_self]
    have hargs : ∀ p, p < np → ∀ (i : Nat) y, (args p)[i]? = some y → ∃ x o q, (xs p)[i]? = some x ∧ (sf' p).outs[i]? = some o ∧ (sf' p).procs[i]? = some q ∧ y = ⟨o.code, q, o.el, o.r⟩ ∧
        IsBest val (fun q el => find q el x.1) (CandOf env lst glst p x.1) (o.toPt q) := by
      intro p hp i y hy
      have hi : i < (xs p).length := by rw [← hlen p hp]; exact (List.getElem?_eq_some_iff.1 hy).1
      obtain ⟨o, q, c1, c2, c3, _⟩ := (hsf p hp).2.2.2 i _ junkRes (List.getElem?_eq_getElem hi) (by show ((xs p).map fun _ => junkRes)[i]? = _; rw [List.getElem?_map, List.getElem?_eq_getElem hi]; rfl)
      refine ⟨_, o, q, List.getElem?_eq_getElem hi, c1, c2, ?_, c3⟩
      have : (args p)[i]? = some ⟨o.code, q, o.el, o.r⟩ := by
        simp only [args]
        rw [List.getElem?_map, (List.getElem?_zip_eq_some (z := (o, q))).2 ⟨c1, c2⟩]
        rfl
      rw [hy] at this
      exact Option.some.inj this
    have hao : ArgsOk np eenv args := by
      refine ⟨?_, ?_, ?_⟩
      · intro p hp y hy hc
        obtain ⟨i, hi⟩ := List.getElem?_of_mem hy
        obtain ⟨x, o, q, _, _, _, rfl, hb⟩ := hargs p hp i y hi
        have hof : ∃ q' el', CandOf env lst glst p x.1 q' el' ∧ Of (fun q el => find q el x.1) (o.toPt q) q' el' := by
          rcases hb with ⟨b1, _⟩ | ⟨_, q', el', b1, _, b2⟩ | ⟨_, _, q', el', b1, b2, _⟩
          · exact absurd b1 hc
          · exact ⟨q', el', b1, b2⟩
          · exact ⟨q', el', b1, b2⟩
        obtain ⟨q', el', b1, b2, b3, b4, _⟩ := hof
        obtain ⟨d1, d2, _⟩ := hC p x.1 q' el' hp b1
        simp only [LRes.toPt] at b2 b3 b4
        subst b2
        obtain ⟨n1, n2⟩ := hnt q d1
        refine ⟨d1, ?_, ?_, ?_⟩
        · show o.el < _
          rw [b3]; omega
        · show o.el * _ < _
          rw [b3]
          rcases Nat.eq_zero_or_pos (eenv q).ntot with hz | hz
          · rw [hz]; omega
          · have := Nat.mul_le_mul_right (eenv q).ntot (show el' + 1 ≤ (obb q).length by omega)
            rw [Nat.add_mul] at this
            show el' * (eenv q).ntot < _
            omega
        · intro d
          show o.r d < _
          rw [b4]
          exact (H.fit q d1 el' x.1).1 d
      · intro p hp
        rw [hlen p hp]
        exact ht.npt p hp
      · rw [Finset.sum_congr rfl fun p hp => hlen p (Finset.mem_range.1 hp)]
        exact lt_of_le_of_lt (Nat.mul_le_mul hn2 (by omega)) ht.small
    let t1 : Nat → ESt D := putAll ESt.setSs np t0 tf'
    have r1 : ((findptsS val np env a fun p => (xs p).length).lift ESt.ss ESt.setSs).run np t0 = .ok t1 := by
      rw [Coll.lift_run lens_ess _ np t0 (fun p => (t0 p).ss) (fun _ _ => rfl), e']
      rfl
    have ht1 : ∀ p, p < np → (t1 p).ss = tf' p ∧ (t1 p).inp = (t0 p).inp := by
      intro p hp
      simp only [t1, putAll, hp, if_true]
      exact ⟨rfl, rfl⟩
    obtain ⟨tf, f, hfin⟩ := evalS_run hnp' he hao (fun p => evalArgs (a p) (out p)) (fun p => (xs p).length) (fun p hp => (hlen p hp).symm) t1 (by
      intro p hp
      obtain ⟨m1, m2, m3, m4, m5⟩ := hm p hp
      obtain ⟨_, _, b3, b4⟩ := hR p hp
      rw [(ht1 p hp).1, hlen p hp]
      refine ⟨⟨m4.disj, m4.small, ?_⟩, ?_⟩
      · intro i hi k hk
        have hw := m4.writable i hi k hk
        rw [b3.inv.only _ (fun s hs hsw => by
          have := m5 i hi s hs hsw
          simp only [EArgs.outAddr, evalArgs]
          omega)]
        exact hw
      · intro i y hy
        obtain ⟨x, o, q, _, c1, c2, rfl, _⟩ := hargs p hp i y hy
        obtain ⟨d1, d2⟩ := b3.orep.2 i o c1
        refine ⟨get_iff.1 d1, fun hc => ?_⟩
        obtain ⟨d3, d4, d5, _⟩ := d2 hc
        exact ⟨get_iff.1 (b4.2 i q c2), get_iff.1 d3, fun d => get_iff.1 (d4 d)⟩)
    refine allSchedules_of_lockRun (Coll.seq_ok (Coll.lift_ok _ _ (findptsS_ok val np env a _)) (findptsEvalS_ok np eenv _ _ false)) (Coll.seq_run_ok (Coll.lift_ok _ _ (findptsS_ok val np env a _)) r1 f) _ ?_
    intro tf2 htf p hp
    rw [htf p hp]
    obtain ⟨m1, m2, m3, m4, m5⟩ := hm p hp
    obtain ⟨_, _, b3, b4⟩ := hR p hp
    obtain ⟨f1, f2⟩ := hfin p hp
    rw [(ht1 p hp).1] at f2
    have hinp : ∀ q el r, q < np → evAt eenv ev (fun q => (t1 q).inp) q el r = evAt eenv ev (fun q => (t0 q).inp) q el r := by
      intro q el r hq
      unfold evAt
      beta_reduce
      rw [(ht1 q hq).2]
    have hkeep : ∀ s : Slot D, s.idx < (xs p).length → s.written → ∀ v, get (a p) (tf' p).mem s = some v → SlotIs (a p) (tf p).ss.mem s v := by
      intro s hs hsw v hv k hk
      rw [f2 _ (fun i y hy _ => by
        have hi : i < (xs p).length := by rw [← hlen p hp]; exact (List.getElem?_eq_some_iff.1 hy).1
        have := m5 i hi s hs hsw
        simp only [EArgs.outAddr, evalArgs]
        omega)]
      exact get_iff.1 hv k hk
    refine ⟨fun i => ((sf' p).outs[i]?.getD junkRes).toPt ((sf' p).procs[i]?.getD 0), ?_, ?_⟩
    · intro i x hxi
      have hi := (List.getElem?_eq_some_iff.1 hxi).1
      obtain ⟨y, hy⟩ : ∃ y, (args p)[i]? = some y := ⟨_, List.getElem?_eq_getElem (by rw [hlen p hp]; exact hi)⟩
      obtain ⟨x', o, q, hx', c1, c2, rfl, c3⟩ := hargs p hp i y hy
      rw [hxi] at hx'
      obtain rfl := Option.some.inj hx'
      beta_reduce
      rw [c1, c2]
      simp only [Option.getD_some]
      obtain ⟨d1, d2⟩ := b3.orep.2 i o c1
      refine ⟨c3, hkeep (.code i) hi trivial _ d1, hkeep (.proc i) hi trivial _ (b4.2 i q c2), fun hc => ?_⟩
      obtain ⟨d3, d4, d5, _⟩ := d2 hc
      refine ⟨hkeep (.el i) hi trivial _ d3, fun d => hkeep (.r i d) hi trivial _ (d4 d), hkeep (.dist2 i) hi trivial _ d5, ?_⟩
      have := f1 i _ hy hc
      rw [hinp _ _ _ (hao.found p hp _ (List.mem_of_getElem? hy) hc).1] at this
      exact this
    · intro b hb1 hb2
      rw [f2 b (fun i y hy hc => ?_), b3.inv.only b hb1]
      obtain ⟨x', o, q, hx', c1, c2, rfl, c3⟩ := hargs p hp i y hy
      have hi := (List.getElem?_eq_some_iff.1 hx').1
      have := hb2 i hi (by beta_reduce; rw [c1]; exact hc)
      exact this

/-! ### Example: the points of `exPts` in arrays of structs, on 3 processes -/

/-- the memory of process `p` -/
def exMemP (p : Nat) : Spec.Bytes := exMem fun i => ((exPts p)[i]?.getD (![0, 0], 0)).1

theorem exPts_len (p : Nat) : (exPts p).length ≤ 3 := by
  unfold exPts
  split
  · decide
  · split <;> decide

theorem exMemP_ok (fn : Fn) (p : Nat) : exArgs.Ok fn (exPts p).length ∧ Writable exArgs (exPts p).length (exMemP p) ∧
    ∀ (i : Nat) x, (exPts p)[i]? = some x → (∀ d, SlotIs exArgs (exMemP p) (.x i d) (x.1 d)) ∧ SlotIs exArgs (exMemP p) (.sess i) x.2 := by
  have hl := exPts_len p
  obtain ⟨h1, h2⟩ := exMem_ok fun i => ((exPts p)[i]?.getD (![0, 0], 0)).1
  refine ⟨exArgs_ok _ _ (by omega), fun s hs => h1 s (by omega), fun i x hx => ?_⟩
  have hi := (List.getElem?_eq_some_iff.1 hx).1
  obtain ⟨h3, h4⟩ := h2 i (by omega)
  have h0 : x.2 = 0 := by
    have hm := List.mem_of_getElem? hx
    unfold exPts at hm
    split at hm
    · simp only [List.mem_cons, List.not_mem_nil, or_false] at hm
      rcases hm with rfl | rfl | rfl <;> rfl
    · split at hm
      · simp only [List.mem_cons, List.not_mem_nil, or_false] at hm
        rw [hm]
      · simp at hm
  refine ⟨fun d => ?_, by rw [h0]; exact h4⟩
  have := h3 d
  beta_reduce at this
  rw [hx] at this
  exact this

/-- the output array of the example -/
def exOut : SArr := ⟨2 ^ 39, 8⟩

/-- the hypotheses of `findpts_interpolate` about the memory are met on every process -/
theorem exInterp_ok (fn : Fn) (p : Nat) : exArgs.Ok fn (exPts p).length ∧ Writable exArgs (exPts p).length (exMemP p) ∧
    (∀ (i : Nat) x, (exPts p)[i]? = some x → (∀ d, SlotIs exArgs (exMemP p) (.x i d) (x.1 d)) ∧ SlotIs exArgs (exMemP p) (.sess i) x.2) ∧
    (evalArgs exArgs exOut).Ok (exPts p).length (exMemP p) ∧
    ∀ i, i < (exPts p).length → ∀ s : Slot 2, s.idx < (exPts p).length → s.written → exOut.base + i * exOut.stride + 8 ≤ s.addr exArgs ∨ s.addr exArgs + s.size ≤ exOut.base + i * exOut.stride := by
  obtain ⟨h1, h2, h3⟩ := exMemP_ok _ p
  have hl := exPts_len p
  refine ⟨h1, h2, h3, ⟨by decide, fun i hi => ?_, fun i _ k _ => ?_⟩, ?_⟩
  · simp only [evalArgs, exOut]; omega
  · unfold exMemP exMem
    split
    · rfl
    · split <;> rfl
  · intro i hi s hs hw
    cases s <;> simp only [Slot.idx] at hs <;> simp only [Slot.written] at hw <;> simp only [Slot.addr, Slot.size, exArgs, exOut] <;> omega

theorem exCallS (tr : TrState) (scratch : Sarray.ScratchF Nat) : CallOk 3 exPts fun p => (exPts p).map fun _ => junkRes :=
  exCall (fun p => ⟨exPts p, (exPts p).map fun _ => junkRes, [], tr, scratch⟩) (fun _ => rfl) (fun _ => List.length_map _)

/-- `findpts_strided` applied: all its hypotheses are met -/
example (s0 : Nat → HbSt Rat) (h0 : ∀ q, q < 3 → (s0 q).obb = exGObb q) (scratch) (tr) :
    AllSchedules (GHash.hashBuild 2 2 3 (globalBnd 2 3 exGObb)).prog 3 s0 fun sf => ∃ env : Nat → FEnv 2 Rat, SetupDone exVal 3 2 exGObb exFind sf env ∧
      AllSchedules (findptsS exVal 3 env (fun _ => exArgs) fun p => (exPts p).length).prog 3 (fun p => ⟨exMemP p, tr, scratch⟩) fun tf => ∀ p, p < 3 → OnlyResults exArgs (exPts p).length (exMemP p) (tf p).mem := by
  have G := findpts_strided (np := 3) (hn := 2) (by decide) (by decide) (by decide) exGObb_proper (Or.inl (by decide)) (by decide +kernel) s0 h0 exVal exFind
  refine ⟨G.noInfinite, G.noDeadlock, fun c hr hf => ⟨?_, (G.result c hr hf).2⟩⟩
  obtain ⟨env, henv⟩ := exFp_env fun q => (c.proc q).st
  obtain ⟨C, _, _, G2⟩ := (G.result c hr hf).1 env henv
  have G3 := G2 (fun _ => exArgs) exPts (fun p => ⟨exMemP p, tr, scratch⟩) (exCallS tr scratch) (fun p _ => exMemP_ok _ p)
  refine ⟨env, henv, G3.noInfinite, G3.noDeadlock, fun c hr hf => ⟨fun p hp => ((G3.result c hr hf).1 p hp).1, (G3.result c hr hf).2⟩⟩

/-- `findpts_interpolate` applied: all its hypotheses are met -/
example (s0 : Nat → HbSt Rat) (h0 : ∀ q, q < 3 → (s0 q).obb = exGObb q) (t0 : Nat → ESt 2) (ht0 : ∀ p, (t0 p).ss.mem = exMemP p) :
    AllSchedules (GHash.hashBuild 2 2 3 (globalBnd 2 3 exGObb)).prog 3 s0 fun sf => ∃ env : Nat → FEnv 2 Rat, SetupDone exVal 3 2 exGObb exFind sf env ∧
      AllSchedules (((findptsS exVal 3 env (fun _ => exArgs) fun p => (exPts p).length).lift ESt.ss ESt.setSs).seq (findptsEvalS 3 exEenv (fun _ => evalArgs exArgs exOut) (fun p => (exPts p).length) false)).prog 3 t0 fun tf =>
        ∀ p, p < 3 → ∀ i, i < (exPts p).length → ∃ code, SlotIs exArgs (tf p).ss.mem (.code i) code ∧ (code ≠ 2 → ∃ v, HoldsAt (tf p).ss.mem 8 (2 ^ 39 + i * 8) v) := by
  have G := findpts_interpolate (np := 3) (hn := 2) (by decide) (by decide) (by decide) exGObb_proper (Or.inl (by decide)) (by decide +kernel) s0 h0 exVal exFind exEenv_ok (by decide +kernel)
  refine ⟨G.noInfinite, G.noDeadlock, fun c hr hf => ⟨?_, (G.result c hr hf).2⟩⟩
  obtain ⟨env, henv⟩ := exFp_env fun q => (c.proc q).st
  obtain ⟨C, _, _, G2⟩ := (G.result c hr hf).1 env henv
  have G3 := G2 (fun _ => exArgs) (fun _ => exOut) exPts t0 (exCallS (t0 0).ss.tr (t0 0).ss.scratch) (fun p _ => by rw [ht0]; exact exInterp_ok _ p)
  refine ⟨env, henv, G3.noInfinite, G3.noDeadlock, fun c hr hf => ⟨fun p hp i hi => ?_, (G3.result c hr hf).2⟩⟩
  obtain ⟨res, h1, _⟩ := (G3.result c hr hf).1 p hp
  obtain ⟨_, h2, _, h3⟩ := h1 i _ (List.getElem?_eq_getElem hi)
  exact ⟨_, h2, fun hc => ⟨_, (h3 hc).2.2.2⟩⟩

end Gslib.Props
