import Verif.Lemmas.StridedFp
import Verif.Lemmas.FindptsMs
import Verif.Model.StridedMs

/-!
# `findptsms` on strided arrays simulates `findptsms` on lists
-/

namespace Gslib.Fp
open Gslib Gslib.Mpi Gslib.Transfer Gslib.Gs Gslib.Hash Gslib.Num Gslib.Spec

variable {D : Nat} {K : Type} [Field K] [LinearOrder K] [FloorRing K] {a : SArgs D} {n : Nat}

/-- the local variables -/
def strip (s : MsSt D) : MsSt D := { s with outs := [], procs := [] }

theorem strip_msBetter (val : Nat → K) (r : OutPt D) (s : MsSt D) : msBetter val r (strip s) = strip (msBetter val r s) := by
  unfold msBetter strip
  simp only
  split
  · split <;> rfl
  · rfl

theorem strip_msAll (val : Nat → K) (s : MsSt D) : msAll val (strip s) = strip (msAll val s) := by
  unfold msAll strip
  simp only
  split <;> rfl

theorem stRes_sim (h : a.Ok .ms n) {m0 m : Bytes} {xs : List (Pt D × Nat)} {outs : List (LRes D)} {procs : List Nat} (hr : LRep a n true m0 m xs outs) (hp : PRep a n m procs) {i : Nat} (hi : i < n) (w : LRes D × Nat) :
    ∃ m', stRes a i w m = some m' ∧ LRep a n true m0 m' xs (outs.set i w.1) ∧ PRep a n m' (procs.set i w.2) := by
  obtain ⟨b1, b2, b3, b4, b5, b6, b7, b8⟩ := h.small i hi
  obtain ⟨m1, s1, i1, g1, o1⟩ := st_slot h hr.inv (.disti i) hi trivial w.1.disti
  obtain ⟨m2, s2, i2, g2, o2⟩ := st_slot h i1 (.dist2 i) hi trivial w.1.dist2
  obtain ⟨m3, s3, i3, g3, o3⟩ := st_slot h i2 (.code i) hi trivial w.1.code
  obtain ⟨m4, s4, i4, g4, o4⟩ := st_slot h i3 (.elsid i) hi trivial w.1.elsid
  obtain ⟨m5, s5, i5, g5, o5⟩ := st_slot h i4 (.proc i) hi trivial w.2
  obtain ⟨m6, s6, i6, g6, o6⟩ := st_slot h i5 (.el i) hi trivial w.1.el
  obtain ⟨m7, s7, i7, g7, o7⟩ := stVec_slot h hi w.1.r i6
  have keep : ∀ t : Slot D, t.idx < n → (t.idx ≠ i ∨ ¬ t.written) → get a m7 t = get a m t := by
    intro t ht hne
    have q : ∀ s : Slot D, s.idx = i → s.written → t ≠ s := fun s hs hw e => by
      subst e
      rcases hne with h | h
      · exact h hs
      · exact h hw
    rw [o7 t ht (fun d => q _ rfl trivial) vis_ms, o6 t ht (q _ rfl trivial) vis_ms, o5 t ht (q _ rfl trivial) vis_ms, o4 t ht (q _ rfl trivial) vis_ms, o3 t ht (q _ rfl trivial) vis_ms,
      o2 t ht (q _ rfl trivial) vis_ms, o1 t ht (q _ rfl trivial) vis_ms]
  refine ⟨m7, ?_, ⟨i7, hr.len, hr.xrep.congr hr.len.le (fun t ht hw => keep t ht (Or.inr hw)), by rw [List.length_set]; exact hr.orep.1, ?_⟩, by rw [List.length_set]; exact hp.1, ?_⟩
  · unfold stRes
    rw [at_eq b7, show st 8 m (a.disti.base + i * a.disti.stride) _ = some m1 from s1, Option.bind_some, at_eq b5, show st 8 m1 (a.dist2.base + i * a.dist2.stride) _ = some m2 from s2, Option.bind_some,
      at_eq b1, show st 4 m2 (a.code.base + i * a.code.stride) _ = some m3 from s3, Option.bind_some, at_eq b8, show st 4 m3 (a.elsid.base + i * a.elsid.stride) _ = some m4 from s4, Option.bind_some,
      at_eq b2, show st 4 m4 (a.proc.base + i * a.proc.stride) _ = some m5 from s5, Option.bind_some, at_eq b3, show st 4 m5 (a.el.base + i * a.el.stride) _ = some m6 from s6, Option.bind_some]
    exact s7
  · intro j o hj
    rw [List.getElem?_set] at hj
    split at hj
    · rename_i e
      subst e
      split at hj
      · obtain rfl := Option.some.inj hj
        refine ⟨?_, fun _ => ⟨?_, g7, ?_, fun _ => ⟨?_, ?_⟩⟩⟩
        · rw [o7 (.code i) hi (by simp), o6 (.code i) hi (by simp), o5 (.code i) hi (by simp), o4 (.code i) hi (by simp)]; exact g3
        · rw [o7 (.el i) hi (by simp)]; exact g6
        · rw [o7 (.dist2 i) hi (by simp), o6 (.dist2 i) hi (by simp), o5 (.dist2 i) hi (by simp), o4 (.dist2 i) hi (by simp), o3 (.dist2 i) hi (by simp)]; exact g2
        · rw [o7 (.disti i) hi (by simp) vis_ms, o6 (.disti i) hi (by simp) vis_ms, o5 (.disti i) hi (by simp) vis_ms, o4 (.disti i) hi (by simp) vis_ms, o3 (.disti i) hi (by simp) vis_ms, o2 (.disti i) hi (by simp) vis_ms]; exact g1
        · rw [o7 (.elsid i) hi (by simp) vis_ms, o6 (.elsid i) hi (by simp) vis_ms, o5 (.elsid i) hi (by simp) vis_ms]; exact g4
      · cases hj
    · rename_i hne
      have hjn : j < n := by rw [← hr.orep.1]; exact (List.getElem?_eq_some_iff.1 hj).1
      have k : ∀ t : Slot D, t.idx = j → get a m7 t = get a m t := fun t ht => keep t (by omega) (Or.inl (by omega))
      exact (hr.orep.2 j o hj).congr (k _ rfl) (k _ rfl) (fun d => k _ rfl) (k _ rfl) (fun _ => ⟨k _ rfl, k _ rfl⟩)
  · intro j q hj
    rw [List.getElem?_set] at hj
    split at hj
    · rename_i e
      subst e
      split at hj
      · obtain rfl := Option.some.inj hj
        rw [o7 (.proc i) hi (by simp) vis_ms, o6 (.proc i) hi (by simp) vis_ms]; exact g5
      · cases hj
    · rename_i hne
      have hjn : j < n := by rw [← hp.1]; exact (List.getElem?_eq_some_iff.1 hj).1
      rw [keep (.proc j) hjn (Or.inl (show j ≠ i by omega))]
      exact hp.2 j q hj

theorem msRow_sim (h : a.Ok .ms n) (val : Nat → K) (low : Nat) {m0 m : Bytes} {xs : List (Pt D × Nat)} {s t : MsSt D} (hr : LRep a n true m0 m xs s.outs) (hp : PRep a n m s.procs) (first : Bool) (next : Option (OutPt D)) (r : OutPt D)
    (hinv : r.u 0 = s.oldindex → first = false → s.ioriginator = true → ∃ o, s.outs[r.u 0]? = some o ∧ o.code ≠ codeNotFound) (e : msRow val low first next r s = some t) :
    ∃ m', msRowS val low a first next r (strip s, m) = some (strip t, m') ∧ LRep a n true m0 m' xs t.outs ∧ PRep a n m' t.procs ∧
      ∀ r', next = some r' → r'.u 0 = t.oldindex → t.ioriginator = true → ∃ o, t.outs[r'.u 0]? = some o ∧ o.code ≠ codeNotFound := by
  unfold msRow at e
  obtain ⟨o, ho, e⟩ := Option.bind_eq_some_iff.1 e
  obtain ⟨q, hq, e⟩ := Option.map_eq_some_iff.1 e
  obtain ⟨hi, hc⟩ := hr.code h ho
  obtain ⟨b1, b2, b3, b4, b5, b6, b7, b8⟩ := h.small _ hi
  -- the variables of the point
  have hp1 : msPointS low a first r (strip s) m = some (strip (msPoint low first r o s)) := by
    unfold msPointS msPoint
    by_cases h1 : r.u 0 ≠ s.oldindex ∨ first = true
    · rw [if_pos h1, if_pos (show r.u 0 ≠ (strip s).oldindex ∨ first = true from h1), hc]
      rfl
    · rw [if_neg h1, if_neg (show ¬ (r.u 0 ≠ (strip s).oldindex ∨ first = true) from h1)]
  have hi1 : (msPoint low first r o s).ioriginator = true → o.code ≠ codeNotFound := by
    unfold msPoint
    by_cases h1 : r.u 0 ≠ s.oldindex ∨ first = true
    · rw [if_pos h1]
      simp
    · rw [if_neg h1]
      intro hh
      push Not at h1
      obtain ⟨o', ho', hne⟩ := hinv h1.1 (by simpa using h1.2) hh
      rw [ho] at ho'
      obtain rfl := Option.some.inj ho'
      exact hne
  have hout : (msPoint low first r o s).outs = s.outs ∧ (msPoint low first r o s).procs = s.procs := by
    unfold msPoint; split <;> exact ⟨rfl, rfl⟩
  have hx1 : (msPoint low first r o s).oldindex = r.u 0 := by
    unfold msPoint
    split
    · rfl
    · rename_i hh; push Not at hh; exact hh.1.symm
  generalize msPoint low first r o s = v1 at hp1 hi1 hout hx1 e
  -- the session
  have hp2 : msSessionS a r (strip v1) m = some (strip (msSession r o q v1)) := by
    unfold msSessionS msSession
    by_cases h1 : r.u 4 ≠ v1.oldelsid ∨ v1.istart = false
    · rw [if_pos h1, if_pos (show r.u 4 ≠ (strip v1).oldelsid ∨ (strip v1).istart = false from h1)]
      by_cases h2 : v1.ioriginator = true
      · rw [if_pos (show (strip v1).ioriginator = true from h2)]
        obtain ⟨f1, f2, f3, f4⟩ := (hr.orep.2 _ o ho).2 (hi1 h2)
        obtain ⟨f4, f5⟩ := f4 rfl
        rw [at_eq b8, show ld 4 m (a.elsid.base + r.u 0 * a.elsid.stride) = some o.elsid from f5, Option.bind_some]
        by_cases h3 : o.elsid = r.u 4
        · rw [if_pos h3, if_pos ⟨h2, h3⟩]
          have : ldRes a (r.u 0) o.elsid m = some (o, q) := by
            unfold ldRes
            rw [at_eq b7, show ld 8 m (a.disti.base + r.u 0 * a.disti.stride) = some o.disti from f4, Option.bind_some, at_eq b5, show ld 8 m (a.dist2.base + r.u 0 * a.dist2.stride) = some o.dist2 from f3, Option.bind_some,
              hc, Option.bind_some, at_eq b2, show ld 4 m (a.proc.base + r.u 0 * a.proc.stride) = some q from hp.2 _ q hq, Option.bind_some, at_eq b3,
              show ld 4 m (a.el.base + r.u 0 * a.el.stride) = some o.el from f1, Option.bind_some, at_eq b4, ldVec, seqFin_some (g := o.r) (fun d => show ld 8 m (a.r.base + r.u 0 * a.r.stride + 8 * d.val) = some (o.r d) from f2 d)]
            rfl
          rw [this]
          rfl
        · rw [if_neg h3, if_neg (fun hh => h3 hh.2)]
          rfl
      · rw [if_neg (show ¬ (strip v1).ioriginator = true from h2), if_neg (fun hh => h2 hh.1)]
        rfl
    · rw [if_neg h1, if_neg (show ¬ (r.u 4 ≠ (strip v1).oldelsid ∨ (strip v1).istart = false) from h1)]
  have hi2 : (msSession r o q v1).ioriginator = true → o.code ≠ codeNotFound := by
    intro hh
    refine hi1 ?_
    unfold msSession at hh
    split at hh
    · split at hh
      · simp at hh
      · exact hh
    · exact hh
  have hout2 : (msSession r o q v1).outs = s.outs ∧ (msSession r o q v1).procs = s.procs := by
    rw [← hout.1, ← hout.2]
    unfold msSession
    split
    · split <;> exact ⟨rfl, rfl⟩
    · exact ⟨rfl, rfl⟩
  have hx2 : (msSession r o q v1).oldindex = r.u 0 := by
    rw [← hx1]
    unfold msSession
    split
    · split <;> rfl
    · rfl
  generalize msSession r o q v1 = v2 at hp2 hi2 hout2 hx2 e
  have hx3 : (msBetter val r v2).oldindex = r.u 0 := by rw [(msBetter_fields val r v2).1]; exact hx2
  have hi3 : (msBetter val r v2).ioriginator = true → o.code ≠ codeNotFound := by
    rw [show (msBetter val r v2).ioriginator = v2.ioriginator from by unfold msBetter; split; (split <;> rfl); rfl]
    exact hi2
  have hout3 : (msBetter val r v2).outs = s.outs ∧ (msBetter val r v2).procs = s.procs := by
    rw [← hout2.1, ← hout2.2]
    unfold msBetter
    split
    · split <;> exact ⟨rfl, rfl⟩
    · exact ⟨rfl, rfl⟩
  unfold msRowS
  simp only
  rw [hp1, Option.bind_some, hp2, Option.bind_some, strip_msBetter]
  simp only at e
  generalize msBetter val r v2 = v3 at hi3 hout3 hx3 e
  have hi4 : (msAll val v3).ioriginator = true → o.code ≠ codeNotFound := by
    rw [show (msAll val v3).ioriginator = v3.ioriginator from by unfold msAll; split <;> rfl]
    exact hi3
  have hout4 : (msAll val v3).outs = s.outs ∧ (msAll val v3).procs = s.procs := by
    rw [← hout3.1, ← hout3.2]
    unfold msAll
    split <;> exact ⟨rfl, rfl⟩
  have hx4 : (msAll val v3).oldindex = r.u 0 := by
    rw [← hx3]
    unfold msAll
    split <;> rfl
  rw [strip_msAll]
  generalize msAll val v3 = v4 at hi4 hout4 hx4 e
  have store : ∀ t, msStore val r o v4 = t → ∃ m', msStoreS val a r (strip v4) m = some m' ∧ strip v4 = strip t ∧ LRep a n true m0 m' xs t.outs ∧ PRep a n m' t.procs ∧ t.oldindex = v4.oldindex := by
    intro t et
    obtain ⟨m', f, g1, g2⟩ := stRes_sim h hr hp hi v4.as
    have yes : ∃ m', stRes a (r.u 0) (strip v4).as m = some m' ∧ strip v4 = strip ({ v4 with outs := v4.outs.set (r.u 0) v4.as.1, procs := v4.procs.set (r.u 0) v4.as.2 } : MsSt D) ∧
        LRep a n true m0 m' xs (v4.outs.set (r.u 0) v4.as.1) ∧ PRep a n m' (v4.procs.set (r.u 0) v4.as.2) := ⟨m', f, rfl, by rw [hout4.1]; exact g1, by rw [hout4.2]; exact g2⟩
    unfold msStore at et
    unfold msStoreS
    by_cases h1 : v4.ioriginator = true
    · rw [if_pos (show (strip v4).ioriginator = true from h1)]
      obtain ⟨f1, f2, f3, f4⟩ := (hr.orep.2 _ o ho).2 (hi4 h1)
      obtain ⟨f4, f5⟩ := f4 rfl
      rw [at_eq b7, show ld 8 m (a.disti.base + r.u 0 * a.disti.stride) = some o.disti from f4, Option.bind_some]
      by_cases h2 : val v4.as.1.disti < val o.disti
      · rw [if_pos (show val (strip v4).as.1.disti < val o.disti from h2)]
        rw [if_neg (by simp [h1, h2])] at et
        subst et
        exact ⟨m, rfl, rfl, by rw [hout4.1]; exact hr, by rw [hout4.2]; exact hp, rfl⟩
      · rw [if_neg (show ¬ val (strip v4).as.1.disti < val o.disti from h2)]
        rw [if_pos (fun hh => h2 hh.2)] at et
        subst et
        obtain ⟨m', y1, y2, y3, y4⟩ := yes
        exact ⟨m', y1, y2, y3, y4, rfl⟩
    · rw [if_neg (show ¬ (strip v4).ioriginator = true from h1)]
      rw [if_pos (fun hh => h1 hh.1)] at et
      subst et
      obtain ⟨m', y1, y2, y3, y4⟩ := yes
      exact ⟨m', y1, y2, y3, y4, rfl⟩
  cases next with
  | none =>
    obtain ⟨m', f, g1, g2, g3, _⟩ := store t e
    exact ⟨m', by simp only; rw [f, g1]; rfl, g2, g3, fun r' hh => by cases hh⟩
  | some r' =>
    simp only at e ⊢
    by_cases h1 : r.u 4 ≠ r'.u 4 ∨ r.u 0 ≠ r'.u 0
    · rw [if_pos h1] at e ⊢
      by_cases h2 : r.u 0 ≠ r'.u 0
      · rw [if_pos h2] at e ⊢
        obtain ⟨m', f, g1, g2, g3, g4⟩ := store t e
        refine ⟨m', by rw [f, g1]; rfl, g2, g3, fun r'' hh hx => ?_⟩
        obtain rfl := Option.some.inj hh
        rw [g4, hx4] at hx
        exact absurd hx.symm h2
      · rw [if_neg h2] at e ⊢
        subst e
        refine ⟨m, rfl, by rw [hout4.1]; exact hr, by rw [hout4.2]; exact hp, fun r'' hh hx hio => ?_⟩
        obtain rfl := Option.some.inj hh
        rw [hx, hx4, hout4.1]
        exact ⟨o, ho, hi4 hio⟩
    · rw [if_neg h1] at e ⊢
      subst e
      refine ⟨m, rfl, by rw [hout3.1]; exact hr, by rw [hout3.2]; exact hp, fun r'' hh hx hio => ?_⟩
      obtain rfl := Option.some.inj hh
      rw [hx, hx3, hout3.1]
      exact ⟨o, ho, hi3 hio⟩

theorem msLoop_sim (h : a.Ok .ms n) (val : Nat → K) (low : Nat) {m0 : Bytes} {xs : List (Pt D × Nat)} : ∀ (l : List (OutPt D)) (first : Bool) (m : Bytes) (s t : MsSt D), LRep a n true m0 m xs s.outs → PRep a n m s.procs →
    (∀ r, l.head? = some r → r.u 0 = s.oldindex → first = false → s.ioriginator = true → ∃ o, s.outs[r.u 0]? = some o ∧ o.code ≠ codeNotFound) → msLoop val low first l s = some t →
    ∃ m', msLoopS val low a first l (strip s, m) = some (strip t, m') ∧ LRep a n true m0 m' xs t.outs ∧ PRep a n m' t.procs
  | [], first, m, s, t, hr, hp, _, e => by
    obtain rfl := Option.some.inj e
    exact ⟨m, rfl, hr, hp⟩
  | r :: l, first, m, s, t, hr, hp, hinv, e => by
    rw [msLoop] at e
    obtain ⟨u, e1, e⟩ := Option.bind_eq_some_iff.1 e
    obtain ⟨m1, f1, hr1, hp1, i1⟩ := msRow_sim h val low hr hp first l.head? r (hinv r rfl) e1
    obtain ⟨m2, f2, hr2, hp2⟩ := msLoop_sim h val low l false m1 u t hr1 hp1 (fun r' h1 h2 _ h3 => i1 r' h1 h2 h3) e
    exact ⟨m2, by rw [msLoopS, f1]; exact f2, hr2, hp2⟩

theorem findptsMsS_ok (val : Nat → K) (low : Nat) (junk : LRes D × Nat) (np sessm : Nat) (env : Nat → FEnv D K) (a : Nat → SArgs D) (npt : Nat → Nat) : (findptsMsS val low junk np sessm env a npt).Ok np :=
  Coll.seq_ok (findptsSearchS_ok val np sessm env a npt) (Coll.loc_ok _ _ _)

theorem findptsMs_sim (val : Nat → K) (low : Nat) (junk : LRes D × Nat) (np sessm : Nat) (env : Nat → FEnv D K) (hims : ∀ p, p < np → (env p).loc.ims = true) (a : Nat → SArgs D) (npt : Nat → Nat) (m0 : Nat → Bytes)
    (h : ∀ p, p < np → (a p).Ok .ms (npt p)) : Sim np (Rel0 a npt m0) (Rel1 a npt true m0) (findptsMs val low junk np sessm env) (findptsMsS val low junk np sessm env a npt) := by
  refine Sim.seq (findptsSearch_sim val np sessm env true hims a npt m0 h) ?_ (findptsSearch_ok val np sessm env) (findptsSearchS_ok val np sessm env a npt)
  refine Sim.loc _ fun p hp s s' t hR e => ?_
  unfold fp4ms at e
  obtain ⟨rows, e0, e⟩ := Outcome.bind_eq_ok e
  obtain ⟨u, e1, e⟩ := Outcome.bind_eq_ok e
  obtain rfl := Outcome.ok.inj e
  cases e2 : msLoop val low true rows ⟨0, 0, false, false, junk, junk, s.outs, s.procs⟩ with
  | none => rw [e2] at e1; cases e1
  | some u' =>
    rw [e2] at e1
    obtain rfl := Outcome.ok.inj e1
    obtain ⟨m', f, q1, q2⟩ := msLoop_sim (h p hp) val low rows true s'.mem _ u' hR.2.2.1 hR.2.2.2 (fun _ _ _ hh => by cases hh) e2
    rw [hR.1, hR.2.1] at e0
    refine ⟨{ s' with mem := m' }, ?_, hR.1, hR.2.1, q1, q2⟩
    unfold fp4msS
    rw [e0]
    simp only [Outcome.bind]
    rw [show msLoopS val low (a p) true rows (⟨0, 0, false, false, junk, junk, [], []⟩, s'.mem) = some (strip u', m') from f]
    rfl

end Gslib.Fp
