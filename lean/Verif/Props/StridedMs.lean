import Verif.Lemmas.StridedMs
import Verif.Props.StridedEval
import Verif.Props.FindptsMs

/-!
# C60: `findptsms` with strides
-/

namespace Gslib.Props
open Gslib Gslib.Mpi Gslib.Transfer Gslib.Gs Gslib.Hash Gslib.Num Gslib.Spec Gslib.Fp Gslib.GHash

variable {D : Nat} {K : Type} [Field K] [LinearOrder K] [IsStrictOrderedRing K] [FloorRing K]

/-- **C60 (`findptsms`)**. As `findpts_strided`, for overlapping meshes: the session ids are an array with a stride, too (stride 0: one session for all points), results of other points and processes never overlap the arguments. On every
schedule the call ends without abort or undefined behaviour; no variable that has not been written is read; the variables at `base + i*stride` hold the best result of point `i` (C55); no other byte of the memory has changed. -/
theorem findptsms_strided {np hn : Nat} (hhn : 0 < hn) (hnp : 0 < np) (hnp' : np ≤ 4294967295) {obb : Nat → List (List (Range K))} (h : ∀ q, q < np → ProperBoxes D (obb q))
    (hcell : hn ^ D ≤ 2 ^ 32 ∨ (np ∣ 2 ^ 32 ∧ hn ^ D ≤ 2 ^ 32 * np)) (hsmall : (∑ q ∈ Finset.range np, hashCount hn (globalBnd D np obb) (obb q)) * 16 < Crystal.intMax)
    (s0 : Nat → HbSt K) (h0 : ∀ q, q < np → (s0 q).obb = obb q) (val : Nat → K) (find : Nat → Nat → Fp.Pt D → FRes D) (low : Nat) (hlow : ∀ q el x, val low ≤ val (find q el x).disti) (junk : LRes D × Nat) :
    AllSchedules (GHash.hashBuild D hn np (globalBnd D np obb)).prog np s0 fun sf =>
      ∀ env : Nat → FEnv D K, SetupDone val np hn obb find sf env true → ∀ sessm : Nat,
      ∃ C : Nat → Fp.Pt D × Nat → Nat → Nat → Prop,
        (∀ p x q el, p < np → C p x q el → q < np ∧ el < (obb q).length ∧ (env q).loc.test el x.1 = true ∧ (sessm = 1 ↔ (env q).loc.nsid = x.2)) ∧
        (∀ p x q el box, q < np → (obb q)[el]? = some box → InHalfOpenBox box (coords val x.1) → (env q).loc.test el x.1 = true → (sessm = 1 ↔ (env q).loc.nsid = x.2) → C p x q el) ∧
        ∀ (a : Nat → SArgs D) (xs : Nat → List (Fp.Pt D × Nat)) (t0 : Nat → SSt), CallOk np xs (fun p => (xs p).map fun _ => junkRes) →
          (∀ p, p < np → (a p).Ok .ms (xs p).length ∧ Writable (a p) (xs p).length (t0 p).mem ∧
            ∀ (i : Nat) x, (xs p)[i]? = some x → (∀ d, SlotIs (a p) (t0 p).mem (.x i d) (x.1 d)) ∧ SlotIs (a p) (t0 p).mem (.sess i) x.2) →
          AllSchedules (findptsMsS val low junk np sessm env a fun p => (xs p).length).prog np t0 fun tf =>
            ∀ p, p < np → OnlyResults (a p) (xs p).length (t0 p).mem (tf p).mem ∧
              ∀ (i : Nat) x, (xs p)[i]? = some x → ∃ res : PtRes D, IsBestMs val (fun q el => find q el x.1) (fun q => (env q).loc.nsid) (C p x) res ∧
                SlotIs (a p) (tf p).mem (.code i) res.code ∧ SlotIs (a p) (tf p).mem (.proc i) res.proc ∧
                (res.code ≠ 2 → SlotIs (a p) (tf p).mem (.el i) res.el ∧ (∀ d, SlotIs (a p) (tf p).mem (.r i d) (res.r d)) ∧ SlotIs (a p) (tf p).mem (.dist2 i) res.dist2) := by
  have G := setup_ready hhn hnp hnp' h hcell hsmall s0 h0 val find true
  refine ⟨G.noInfinite, G.noDeadlock, fun c hr hf => ⟨?_, (G.result c hr hf).2⟩⟩
  intro env henv sessm
  obtain ⟨lst, hx, glst, H, hglen, hl, hgin⟩ := (G.result c hr hf).1 env henv
  have hskip : ∀ q, q < np → ∀ sid, (!skipSession (env q).loc sessm sid) = true ↔ (sessm = 1 ↔ (env q).loc.nsid = sid) := by
    intro q hq sid
    unfold skipSession
    rw [H.ims q hq]
    by_cases h1 : sessm = 1 <;> by_cases h2 : (env q).loc.nsid = sid <;> simp [h1, h2]
  have hcand : ∀ q, q < np → ∀ (x : Fp.Pt D × Nat) el, el ∈ cands (env q).loc sessm (lst q) x ↔ el ∈ lst q x.1 ∧ (sessm = 1 ↔ (env q).loc.nsid = x.2) ∧ (env q).loc.test el x.1 = true := by
    intro q hq x el
    unfold cands
    rw [List.mem_filter, Bool.and_eq_true, hskip q hq]
  refine ⟨CandMs env lst glst sessm, ?_, ?_, ?_⟩
  · rintro p x q el hp ⟨c1, c2⟩
    have hq : q < np := by
      rcases c2 with rfl | c2
      · exact hp
      · exact H.glt x.1 q c2
    obtain ⟨d1, d2, d3⟩ := (hcand q hq x el).1 c1
    exact ⟨hq, (hl q hq).1 x.1 el d1, d3, d2⟩
  · intro p x q el box hq hb hin ht hs
    exact ⟨(hcand q hq x el).2 ⟨(hl q hq).2 x.1 el box hb hin, hs, ht⟩, Or.inr (hgin x.1 q hq ⟨box, List.mem_of_getElem? hb, hin⟩)⟩
  · intro a xs t0 ht hm
    have hn1 : (∑ p ∈ Finset.range np, ((xs p).map fun x => (glst x.1).length).sum) ≤ (∑ p ∈ Finset.range np, (xs p).length) * np := by
      rw [Finset.sum_mul]
      exact Finset.sum_le_sum fun p _ => sum_map_le np _ glst hglen
    have hn2 : (∑ p ∈ Finset.range np, (xs p).length) ≤ (∑ p ∈ Finset.range np, (xs p).length) * np := Nat.le_mul_of_pos_right _ hnp
    obtain ⟨sf', e, hsf⟩ := findptsMs_run H low hlow junk sessm (fun p => ⟨xs p, (xs p).map fun _ => junkRes, [], (t0 p).tr, (t0 p).scratch⟩) ht.room ht.double ht.npt
      (lt_of_le_of_lt (Nat.mul_le_mul hn2 (by omega)) ht.small) (lt_of_le_of_lt (Nat.mul_le_mul_right _ hn1) ht.small)
    obtain ⟨tf', e', hR⟩ := findptsMs_sim val low junk np sessm env (fun p hp => H.ims p hp) a (fun p => (xs p).length) (fun p => (t0 p).mem) (fun p hp => (hm p hp).1) _ t0 sf' (by
      intro p hp
      obtain ⟨m1, m2, m3⟩ := hm p hp
      exact ⟨rfl, rfl, ⟨m2, fun _ _ => rfl⟩, rfl, fun i x hi => ⟨fun d => get_iff.2 ((m3 i x hi).1 d), get_iff.2 (m3 i x hi).2⟩, by simp⟩) e
    refine allSchedules_of_lockRun (findptsMsS_ok val low junk np sessm env a _) e' _ ?_
    intro tf htf p hp
    rw [htf p hp]
    obtain ⟨a1, a2, a3, a4⟩ := hsf p hp
    obtain ⟨_, _, b3, b4⟩ := hR p hp
    refine ⟨b3.inv.only, fun i x hxi => ?_⟩
    obtain ⟨o, q, c1, c2, c3⟩ := a4 i x hxi
    obtain ⟨d1, d2⟩ := b3.orep.2 i o c1
    refine ⟨_, c3, get_iff.1 d1, get_iff.1 (b4.2 i q c2), fun hc => ?_⟩
    obtain ⟨d3, d4, d5, _⟩ := d2 hc
    exact ⟨get_iff.1 d3, fun d => get_iff.1 (d4 d), get_iff.1 d5⟩

/-- `findptsms_strided` applied to the example with 2 sessions: all hypotheses are met -/
example (s0 : Nat → HbSt Rat) (h0 : ∀ q, q < 3 → (s0 q).obb = exGObb q) (scratch) (tr) :
    AllSchedules (GHash.hashBuild 2 2 3 (globalBnd 2 3 exGObb)).prog 3 s0 fun sf => ∃ env : Nat → FEnv 2 Rat, SetupDone exVal 3 2 exGObb exFindMs sf env true ∧
      AllSchedules (findptsMsS exVal 0 (junkRes, 7) 3 0 env (fun _ => exArgs) fun p => (exPts p).length).prog 3 (fun p => ⟨exMemP p, tr, scratch⟩) fun tf => ∀ p, p < 3 → OnlyResults exArgs (exPts p).length (exMemP p) (tf p).mem := by
  have G := findptsms_strided (np := 3) (hn := 2) (by decide) (by decide) (by decide) exGObb_proper (Or.inl (by decide)) (by decide +kernel) s0 h0 exVal exFindMs 0 exFindMs_low (junkRes, 7)
  refine ⟨G.noInfinite, G.noDeadlock, fun c hr hf => ⟨?_, (G.result c hr hf).2⟩⟩
  obtain ⟨env, henv, _⟩ := exMs_env fun q => (c.proc q).st
  obtain ⟨C, _, _, G2⟩ := (G.result c hr hf).1 env henv 0
  have G3 := G2 (fun _ => exArgs) exPts (fun p => ⟨exMemP p, tr, scratch⟩) (exCallS tr scratch) (fun p _ => exMemP_ok _ p)
  refine ⟨env, henv, G3.noInfinite, G3.noDeadlock, fun c hr hf => ⟨fun p hp => ((G3.result c hr hf).1 p hp).1, (G3.result c hr hf).2⟩⟩

end Gslib.Props
