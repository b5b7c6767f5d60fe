import Verif.Lemmas.StridedLocal
import Verif.Lemmas.CollSim
import Verif.Lemmas.FindptsMerge

/-!
# `findpts` on strided arrays simulates `findpts` on lists
-/

namespace Gslib.Fp
open Gslib Gslib.Mpi Gslib.Transfer Gslib.Gs Gslib.Hash Gslib.Num Gslib.Spec

variable {D : Nat} {K : Type} [Field K] [LinearOrder K] [FloorRing K] {a : SArgs D} {n : Nat}

/-- whether a point is sent -/
def sent (env : FEnv D K) (c : Nat) : Bool := (c != codeInternal && !env.loc.ims) || env.loc.ims

theorem sendLoop_sim {fn : Fn} (h : a.Ok fn n) (hfn : fn ≠ .loc) (val : Nat → K) (np id : Nat) (env : FEnv D K) {m0 : Bytes} : ∀ (l : List ((Pt D × Nat) × LRes D)) (k : Nat) (m : Bytes), k + l.length = n → MInv a n m0 m →
    (∀ (j : Nat) z, l[j]? = some z → (∀ d, get a m (.x (k + j) d) = some (z.1.1 d)) ∧ get a m (.sess (k + j)) = some z.1.2 ∧ get a m (.code (k + j)) = some z.2.code) →
    ∃ m', sendLoopS val np id env a l.length k (fun d => (a.x d).base + k * (a.x d).stride) (a.code.base + k * a.code.stride) (a.proc.base + k * a.proc.stride) (a.sess.base + k * a.sess.stride) m =
        some (((l.zipIdx k).filter fun p => sent env p.1.2.code).map (fun p => srcRow val np env p.2 p.1.1), m') ∧ MInv a n m0 m' ∧
      (∀ i, k ≤ i → i < n → get a m' (.proc i) = some id) ∧ ∀ t : Slot D, t.idx < n → (∀ i, k ≤ i → t ≠ .proc i) → (_ : Vis fn t := by vis) → get a m' t = get a m t := by
  intro l
  induction l with
  | nil =>
    intro k m hk hm _
    exact ⟨m, rfl, hm, fun i h1 h2 => by simp only [List.length_nil] at hk; omega, fun _ _ _ _ => rfl⟩
  | cons z l ih =>
    intro k m hk hm hx
    simp only [List.length_cons] at hk
    have hkn : k < n := by omega
    obtain ⟨m1, s1, i1, g1, o1⟩ := st_slot h hm (.proc k) hkn trivial id
    have hx0 := hx 0 z rfl
    rw [Nat.add_zero] at hx0
    obtain ⟨m2, s2, i2, g2, o2⟩ := ih (k + 1) m1 (by omega) i1 (by
      intro j y hj
      have := hx (j + 1) y hj
      rw [show k + 1 + j = k + (j + 1) by omega]
      have hj' : j < l.length := (List.getElem?_eq_some_iff.1 hj).1
      refine ⟨fun d => ?_, ?_, ?_⟩
      · rw [o1 (.x (k + (j + 1)) d) (by simp only [Slot.idx]; omega) (by simp)]; exact this.1 d
      · rw [o1 (.sess (k + (j + 1))) (by simp only [Slot.idx]; omega) (by simp)]; exact this.2.1
      · rw [o1 (.code (k + (j + 1))) (by simp only [Slot.idx]; omega) (by simp)]; exact this.2.2)
    refine ⟨m2, ?_, i2, ?_, ?_⟩
    · have hc : get a m1 (.code k) = some z.2.code := by rw [o1 (.code k) hkn (by simp)]; exact hx0.2.2
      rw [List.length_cons, sendLoopS, ldVec, seqFin_some (g := z.1.1) (fun d => show ld 8 m ((a.x d).base + k * (a.x d).stride) = _ from hx0.1 d), Option.bind_some, show ld 4 m (a.sess.base + k * a.sess.stride) = some z.1.2 from hx0.2.1, Option.bind_some,
        show st 4 m (a.proc.base + k * a.proc.stride) id = some m1 from s1, Option.bind_some, show ld 4 m1 (a.code.base + k * a.code.stride) = some z.2.code from hc, Option.bind_some]
      have q : ∀ s : SArr, s.base + k * s.stride + s.stride = s.base + (k + 1) * s.stride := by intro s; ring
      simp only [q]
      rw [s2, Option.map_some, List.zipIdx_cons, List.filter_cons]
      change some (if sent env z.2.code = true then _ else _, _) = some (List.map _ (if sent env z.2.code = true then _ else _), _)
      by_cases hs : sent env z.2.code = true
      · rw [if_pos hs, if_pos hs]; rfl
      · rw [if_neg hs, if_neg hs]
    · intro i hi1 hi2
      by_cases hik : i = k
      · subst hik
        rw [o2 (.proc i) hi2 (by intro j hj; simp; omega) (vis_proc hfn)]
        exact g1
      · exact g2 i (by omega) hi2
    · intro t ht hne hv
      rw [o2 t ht (fun i hi => hne i (by omega)) hv, o1 t ht (hne k le_rfl) hv]

theorem fp2_tr (val : Nat → K) (np : Nat) (env : Nat → FEnv D K) (id : Nat) (s t : FpSt D) (e : fp2 val np env id s = .ok t) :
    t.xs = s.xs ∧ t.outs = s.outs ∧ t.procs = s.procs ∧ ∃ t', fp2 val np env id ⟨[], [], [], s.tr, s.scratch⟩ = .ok t' ∧ t'.tr = t.tr ∧ t'.scratch = t.scratch := by
  unfold fp2 at e ⊢
  simp only
  obtain ⟨l, e1, e⟩ := Outcome.bind_eq_ok e
  rw [e1]
  obtain rfl := Outcome.ok.inj e
  exact ⟨rfl, rfl, rfl, _, rfl, rfl, rfl⟩

theorem fp3_tr (val : Nat → K) (sessm : Nat) (env : Nat → FEnv D K) (id : Nat) (s t : FpSt D) (e : fp3 val sessm env id s = .ok t) :
    t.xs = s.xs ∧ t.outs = s.outs ∧ t.procs = s.procs ∧ ∃ t', fp3 val sessm env id ⟨[], [], [], s.tr, s.scratch⟩ = .ok t' ∧ t'.tr = t.tr ∧ t'.scratch = t.scratch := by
  unfold fp3 at e ⊢
  simp only at e ⊢
  obtain ⟨l, e1, e⟩ := Outcome.bind_eq_ok e
  rw [e1]
  obtain ⟨l2, e2, e⟩ := Outcome.bind_eq_ok e
  simp only [Outcome.bind]
  rw [e2]
  obtain rfl := Outcome.ok.inj e
  exact ⟨rfl, rfl, rfl, _, rfl, rfl, rfl⟩

/-- storing a remote result -/
theorem storeR_sim {fn : Fn} (h : a.Ok fn n) (hfn : fn ≠ .loc) {m0 m : Bytes} (hm : MInv a n m0 m) (r : OutPt D) (hi : r.u 0 < n) (o : LRes D) :
    ∃ m', storeR a r m = some m' ∧ MInv a n m0 m' ∧ ORep a false m' (r.u 0) { o with code := r.u 1, el := r.u 2, r := (outRes r).r, dist2 := (outRes r).dist2 } ∧ get a m' (.proc (r.u 0)) = some (r.u 3) ∧
      (∀ t : Slot D, t.idx < n → t.idx ≠ r.u 0 → (_ : Vis fn t := by vis) → get a m' t = get a m t) ∧ ∀ t : Slot D, t.idx < n → ¬ t.written → get a m' t = get a m t := by
  obtain ⟨b1, b2, b3, b4, b5, b6, b7, b8⟩ := h.small _ hi
  obtain ⟨m1, s1, i1, g1, o1⟩ := stVec_slot h hi (outRes r).r hm
  obtain ⟨m2, s2, i2, g2, o2⟩ := st_slot h i1 (.dist2 (r.u 0)) hi trivial (outRes r).dist2
  obtain ⟨m3, s3, i3, g3, o3⟩ := st_slot h i2 (.proc (r.u 0)) hi trivial (r.u 3)
  obtain ⟨m4, s4, i4, g4, o4⟩ := st_slot h i3 (.el (r.u 0)) hi trivial (r.u 2)
  obtain ⟨m5, s5, i5, g5, o5⟩ := st_slot h i4 (.code (r.u 0)) hi trivial (r.u 1)
  refine ⟨m5, ?_, i5, ⟨g5, fun _ => ⟨?_, ?_, ?_, fun hh => by cases hh⟩⟩, ?_, ?_, ?_⟩
  · unfold storeR
    rw [s1, Option.bind_some, at_eq b5, show st 8 m1 (a.dist2.base + r.u 0 * a.dist2.stride) _ = some m2 from s2, Option.bind_some, at_eq b2,
      show st 4 m2 (a.proc.base + r.u 0 * a.proc.stride) _ = some m3 from s3, Option.bind_some, at_eq b3, show st 4 m3 (a.el.base + r.u 0 * a.el.stride) _ = some m4 from s4, Option.bind_some, at_eq b1]
    exact s5
  · rw [o5 (.el (r.u 0)) hi (by simp)]; exact g4
  · intro d
    rw [o5 (.r (r.u 0) d) hi (by simp), o4 (.r (r.u 0) d) hi (by simp), o3 (.r (r.u 0) d) hi (by simp), o2 (.r (r.u 0) d) hi (by simp)]; exact g1 d
  · rw [o5 (.dist2 (r.u 0)) hi (by simp), o4 (.dist2 (r.u 0)) hi (by simp), o3 (.dist2 (r.u 0)) hi (by simp)]; exact g2
  · have hv : Vis fn (.proc (r.u 0) : Slot D) := vis_proc hfn
    rw [o5 (.proc (r.u 0)) hi (by simp), o4 (.proc (r.u 0)) hi (by simp)]; exact g3
  · intro t ht hne hv
    have q : ∀ s : Slot D, s.idx = r.u 0 → t ≠ s := fun s hs e => hne (e ▸ hs)
    rw [o5 t ht (q _ rfl) hv, o4 t ht (q _ rfl) hv, o3 t ht (q _ rfl) hv, o2 t ht (q _ rfl) hv, o1 t ht (fun d => q _ rfl) hv]
  · intro t ht hw
    have q : ∀ s : Slot D, s.written → t ≠ s := fun s hs e => hw (e ▸ hs)
    have hv : Vis fn t := vis_of_not_written hw
    rw [o5 t ht (q _ trivial) hv, o4 t ht (q _ trivial) hv, o3 t ht (q _ trivial) hv, o2 t ht (q _ trivial) hv, o1 t ht (fun d => q _ trivial) hv]

theorem mergeRow_sim (h : a.Ok .std n) (val : Nat → K) {m0 m : Bytes} {xs : List (Pt D × Nat)} {s t : List (LRes D) × List Nat} (hr : LRep a n false m0 m xs s.1) (hp : PRep a n m s.2) (r : OutPt D)
    (e : mergeRow val r s = some t) : ∃ m', mergeRowS val a r m = some m' ∧ LRep a n false m0 m' xs t.1 ∧ PRep a n m' t.2 := by
  unfold mergeRow at e
  obtain ⟨o, ho, e⟩ := Option.bind_eq_some_iff.1 e
  obtain ⟨hi, hc⟩ := hr.code h ho
  unfold mergeRowS
  rw [hc, Option.bind_some]
  by_cases h0 : o.code = codeInternal
  · rw [if_pos h0] at e ⊢
    obtain rfl := Option.some.inj e
    exact ⟨m, rfl, hr, hp⟩
  · rw [if_neg h0] at e ⊢
    have hst : ∀ (t : List (LRes D) × List Nat), (if r.u 0 < s.2.length then some (s.1.set (r.u 0) { o with code := r.u 1, el := r.u 2, r := (outRes r).r, dist2 := (outRes r).dist2 }, s.2.set (r.u 0) (r.u 3)) else none) = some t →
        ∃ m', storeR a r m = some m' ∧ LRep a n false m0 m' xs t.1 ∧ PRep a n m' t.2 := by
      intro t et
      rw [if_pos (by rw [hp.1]; exact hi)] at et
      obtain rfl := Option.some.inj et
      obtain ⟨m', s1, i1, or1, p1, k1, k2⟩ := storeR_sim h (by simp) hr.inv r hi o
      refine ⟨m', s1, ⟨i1, hr.len, hr.xrep.congr hr.len.le k2, by rw [List.length_set]; exact hr.orep.1, ?_⟩, by rw [List.length_set]; exact hp.1, ?_⟩
      · intro j o' hj
        rw [List.getElem?_set] at hj
        split at hj
        · rename_i ej
          split at hj
          · obtain rfl := Option.some.inj hj
            rw [← ej]
            exact or1
          · cases hj
        · rename_i hne
          have hjn : j < n := by rw [← hr.orep.1]; exact (List.getElem?_eq_some_iff.1 hj).1
          exact (hr.orep.2 j o' hj).congr (k1 (.code j) hjn (Ne.symm hne)) (k1 (.el j) hjn (Ne.symm hne)) (fun d => k1 (.r j d) hjn (Ne.symm hne)) (k1 (.dist2 j) hjn (Ne.symm hne)) (fun hh => by cases hh)
      · intro j q hj
        rw [List.getElem?_set] at hj
        split at hj
        · rename_i ej
          split at hj
          · obtain rfl := Option.some.inj hj
            rw [← ej]
            exact p1
          · cases hj
        · rename_i hne
          have hjn : j < n := by rw [← hp.1]; exact (List.getElem?_eq_some_iff.1 hj).1
          rw [k1 (.proc j) hjn (Ne.symm hne) (vis_proc (by simp))]
          exact hp.2 j q hj
    by_cases h1 : o.code = codeNotFound ∨ r.u 1 = codeInternal
    · rw [if_pos (by tauto)] at e
      rw [if_pos h1]
      exact hst t e
    · rw [if_neg h1, hr.dist2 h ho (by tauto), Option.bind_some]
      by_cases h2 : val (outRes r).dist2 < val o.dist2
      · rw [if_pos (by tauto)] at e
        rw [if_pos h2]
        exact hst t e
      · rw [if_neg (by tauto)] at e
        rw [if_neg h2]
        obtain rfl := Option.some.inj e
        exact ⟨m, rfl, hr, hp⟩

theorem mergeAll_sim (h : a.Ok .std n) (val : Nat → K) {m0 : Bytes} {xs : List (Pt D × Nat)} : ∀ (l : List (OutPt D)) (m : Bytes) (s t : List (LRes D) × List Nat), LRep a n false m0 m xs s.1 → PRep a n m s.2 →
    forList (mergeRow val) l s = some t → ∃ m', forList (mergeRowS val a) l m = some m' ∧ LRep a n false m0 m' xs t.1 ∧ PRep a n m' t.2
  | [], m, s, t, hr, hp, e => by
    obtain rfl := Option.some.inj e
    exact ⟨m, rfl, hr, hp⟩
  | r :: l, m, s, t, hr, hp, e => by
    rw [forList] at e
    obtain ⟨u, e1, e⟩ := Option.bind_eq_some_iff.1 e
    obtain ⟨m1, f1, hr1, hp1⟩ := mergeRow_sim h val hr hp r e1
    obtain ⟨m2, f2, hr2, hp2⟩ := mergeAll_sim h val l m1 u t hr1 hp1 e
    exact ⟨m2, by rw [forList, f1]; exact f2, hr2, hp2⟩

/-- before the call -/
def Rel0 (a : Nat → SArgs D) (npt : Nat → Nat) (m0 : Nat → Bytes) (p : Nat) (s : FpSt D) (s' : SSt) : Prop :=
  s.tr = s'.tr ∧ s.scratch = s'.scratch ∧ MInv (a p) (npt p) (m0 p) s'.mem ∧ s.xs.length = npt p ∧ XRep (a p) s'.mem s.xs ∧ s.outs.length = npt p

/-- after the local search -/
def Rel1 (a : Nat → SArgs D) (npt : Nat → Nat) (ims : Bool) (m0 : Nat → Bytes) (p : Nat) (s : FpSt D) (s' : SSt) : Prop :=
  s.tr = s'.tr ∧ s.scratch = s'.scratch ∧ LRep (a p) (npt p) ims (m0 p) s'.mem s.xs s.outs ∧ PRep (a p) (npt p) s'.mem s.procs

theorem fp1_sim (val : Nat → K) (np sessm : Nat) (env : Nat → FEnv D K) (a : Nat → SArgs D) (npt : Nat → Nat) (m0 : Nat → Bytes) (p : Nat) {fn : Fn} (h : (a p).Ok fn (npt p)) (hfn : (env p).loc.ims = true ↔ fn = .ms) (hfn' : fn ≠ .loc) (s : FpSt D) (s' : SSt) (t : FpSt D) (hR : Rel0 a npt m0 p s s')
    (e : fp1 val np sessm env p s = .ok t) : ∃ t', fp1S val np sessm env a npt p s' = .ok t' ∧ Rel1 a npt (env p).loc.ims m0 p t t' := by
  obtain ⟨r1, r2, r3, r4, r5, r6⟩ := hR
  unfold fp1 at e
  obtain ⟨outs, e1, e⟩ := Outcome.bind_eq_ok e
  obtain rfl := Outcome.ok.inj e
  have hloc : ∃ m', (if npt p = 0 then Outcome.ok s'.mem else findptsLocalS val (env p).loc sessm (a p) (npt p) s'.mem s'.scratch) = .ok m' ∧ LRep (a p) (npt p) (env p).loc.ims (m0 p) m' s.xs outs := by
    by_cases hn : npt p = 0
    · have hx : s.xs = [] := List.eq_nil_of_length_eq_zero (by omega)
      rw [hx] at e1
      simp only [List.isEmpty_nil, if_true] at e1
      obtain rfl := Outcome.ok.inj e1
      refine ⟨s'.mem, if_pos hn, r3, r4, r5, r6, ?_⟩
      intro i o hi
      have := (List.getElem?_eq_some_iff.1 hi).1
      omega
    · have hx : s.xs.isEmpty = false := by
        cases hh : s.xs with
        | nil => rw [hh] at r4; simp at r4; omega
        | cons _ _ => rfl
      rw [hx, if_neg (by simp)] at e1
      obtain ⟨m', f, hr⟩ := findptsLocal_sim val (env p).loc h hfn sessm r3 r4 r5 r6 s.scratch e1
      exact ⟨m', by rw [if_neg hn, ← r2]; exact f, hr⟩
  obtain ⟨m', f, hr⟩ := hloc
  have hzl : (s.xs.zip outs).length = npt p := by rw [List.length_zip, r4, hr.orep.1, Nat.min_self]
  obtain ⟨m2, f2, i2, g2, o2⟩ := sendLoop_sim h hfn' val np p (env p) (s.xs.zip outs) 0 m' (by omega) hr.inv (by
    intro j z hz
    rw [Nat.zero_add]
    obtain ⟨hz1, hz2⟩ := List.getElem?_zip_eq_some.1 hz
    exact ⟨(hr.xrep j z.1 hz1).1, (hr.xrep j z.1 hz1).2, (hr.orep.2 j z.2 hz2).1⟩)
  unfold fp1S
  rw [f]
  simp only [Outcome.bind]
  rw [hzl] at f2
  simp only [Nat.zero_mul, Nat.add_zero] at f2
  rw [f2]
  refine ⟨_, rfl, ?_, r2, ⟨i2, hr.len, hr.xrep.congr hr.len.le ?_, hr.orep.1, ?_⟩, by rw [List.length_map]; exact r4, ?_⟩
  · rw [r1]; rfl
  · intro t ht hw
    exact o2 t ht (fun i _ e => hw (e ▸ trivial)) (vis_of_not_written hw)
  · intro i o hi
    have hin : i < npt p := by rw [← hr.orep.1]; exact (List.getElem?_eq_some_iff.1 hi).1
    exact (hr.orep.2 i o hi).congr (o2 (.code i) hin (by simp)) (o2 (.el i) hin (by simp)) (fun d => o2 (.r i d) hin (by simp)) (o2 (.dist2 i) hin (by simp)) (fun hs => ⟨o2 (.disti i) hin (by simp) (hfn.1 hs ▸ vis_ms), o2 (.elsid i) hin (by simp) (hfn.1 hs ▸ vis_ms)⟩)
  · intro i q hi
    rw [List.getElem?_map] at hi
    obtain ⟨x, hx, rfl⟩ := Option.map_eq_some_iff.1 hi
    have hin : i < npt p := by rw [← r4]; exact (List.getElem?_eq_some_iff.1 hx).1
    exact g2 i (Nat.zero_le _) hin

theorem lens_str : Lens SSt.tr SSt.setTr := ⟨fun _ _ => rfl, fun _ => rfl, fun _ _ _ => rfl⟩

theorem findptsSearchS_ok (val : Nat → K) (np sessm : Nat) (env : Nat → FEnv D K) (a : Nat → SArgs D) (npt : Nat → Nat) : (findptsSearchS val np sessm env a npt).Ok np := by
  unfold findptsSearchS
  exact Coll.seq_ok (Coll.seq_ok (Coll.seq_ok (Coll.seq_ok (Coll.seq_ok (Coll.loc_ok _ _ _) (recTransfer_ok _ _ _ _ _ _)) (Coll.loc_ok _ _ _)) (recTransferExt_ok _ _ _ _ _)) (Coll.loc_ok _ _ _)) (recTransfer_ok _ _ _ _ _ _)

theorem findptsS_ok (val : Nat → K) (np : Nat) (env : Nat → FEnv D K) (a : Nat → SArgs D) (npt : Nat → Nat) : (findptsS val np env a npt).Ok np :=
  Coll.seq_ok (findptsSearchS_ok val np 0 env a npt) (Coll.loc_ok _ _ _)

theorem findptsSearch_sim (val : Nat → K) (np sessm : Nat) (env : Nat → FEnv D K) (ims : Bool) (hims : ∀ p, p < np → (env p).loc.ims = ims) (a : Nat → SArgs D) (npt : Nat → Nat) (m0 : Nat → Bytes) (h : ∀ p, p < np → (a p).Ok (if ims then .ms else .std) (npt p)) :
    Sim np (Rel0 a npt m0) (Rel1 a npt ims m0) (findptsSearch val np sessm env) (findptsSearchS val np sessm env a npt) := by
  have tr : ∀ p, p < np → ∀ (s : FpSt D) (s' : SSt), Rel1 a npt ims m0 p s s' → FpSt.tr s = SSt.tr s' := fun _ _ _ _ hR => hR.1
  have setr : ∀ p, p < np → ∀ (s : FpSt D) (s' : SSt) x, Rel1 a npt ims m0 p s s' → Rel1 a npt ims m0 p (FpSt.setTr s x) (SSt.setTr s' x) := fun _ _ _ _ _ hR => ⟨rfl, hR.2.1, hR.2.2.1, hR.2.2.2⟩
  unfold findptsSearch findptsSearchS
  have k1 : Sim np (Rel0 a npt m0) (Rel1 a npt ims m0) (Coll.loc (fp1 val np sessm env) ([] : List Nat)) (Coll.loc (fp1S val np sessm env a npt) []) :=
    Sim.loc _ fun p hp s s' t hR e => by rw [← hims p hp]; exact fp1_sim val np sessm env a npt m0 p (h p hp) (by rw [hims p hp]; cases ims <;> simp) (by cases ims <;> simp) s s' t hR e
  have k3 : Sim np (Rel1 a npt ims m0) (Rel1 a npt ims m0) (Coll.loc (fp2 val np env) ([] : List Nat)) (Coll.loc (fun id => onTr (fp2 val np env id)) []) := by
    refine Sim.loc _ fun p hp s s' t hR e => ?_
    obtain ⟨e1, e2, e3, t', f, q1, q2⟩ := fp2_tr val np env p s t e
    rw [hR.1, hR.2.1] at f
    refine ⟨_, by unfold onTr; rw [f]; rfl, q1.symm, q2.symm, ?_, ?_⟩
    · rw [e1, e2]; exact hR.2.2.1
    · rw [e3]; exact hR.2.2.2
  have k5 : Sim np (Rel1 a npt ims m0) (Rel1 a npt ims m0) (Coll.loc (fp3 val sessm env) ([] : List Nat)) (Coll.loc (fun id => onTr (fp3 val sessm env id)) []) := by
    refine Sim.loc _ fun p hp s s' t hR e => ?_
    obtain ⟨e1, e2, e3, t', f, q1, q2⟩ := fp3_tr val sessm env p s t e
    rw [hR.1, hR.2.1] at f
    refine ⟨_, by unfold onTr; rw [f]; rfl, q1.symm, q2.symm, ?_, ?_⟩
    · rw [e1, e2]; exact hR.2.2.1
    · rw [e3]; exact hR.2.2.2
  have ok1 := fun (f : Nat → FpSt D → Outcome (FpSt D)) => Coll.loc_ok f ([] : List Nat) np
  have l2 := Sim.lift (R := Rel1 a npt ims m0) (Q := Rel1 a npt ims m0) (lens_tr (D := D)) lens_str (sarrayTransfer np (recLayout D 3 (1 : Fin 3) 4).size (recLayout D 3 (1 : Fin 3) 4).pOff true) tr setr
  have l4 := Sim.lift (R := Rel1 a npt ims m0) (Q := Rel1 a npt ims m0) (lens_tr (D := D)) lens_str (sarrayTransferExt np (recLayout D 3 (1 : Fin 3) 4).size 4) tr setr
  have l6 := Sim.lift (R := Rel1 a npt ims m0) (Q := Rel1 a npt ims m0) (lens_tr (D := D)) lens_str (sarrayTransfer np (recLayout (D + 2) 5 (3 : Fin 5) 4).size (recLayout (D + 2) 5 (3 : Fin 5) 4).pOff true) tr setr
  refine Sim.seq (Sim.seq (Sim.seq (Sim.seq (Sim.seq k1 l2 ?_ ?_) k3 ?_ ?_) l4 ?_ ?_) k5 ?_ ?_) l6 ?_ ?_
  · exact Coll.loc_ok _ _ _
  · exact Coll.loc_ok _ _ _
  · exact Coll.seq_ok (Coll.loc_ok _ _ _) (recTransfer_ok _ _ _ _ _ _)
  · exact Coll.seq_ok (Coll.loc_ok _ _ _) (recTransfer_ok _ _ _ _ _ _)
  · exact Coll.seq_ok (Coll.seq_ok (Coll.loc_ok _ _ _) (recTransfer_ok _ _ _ _ _ _)) (Coll.loc_ok _ _ _)
  · exact Coll.seq_ok (Coll.seq_ok (Coll.loc_ok _ _ _) (recTransfer_ok _ _ _ _ _ _)) (Coll.loc_ok _ _ _)
  · exact Coll.seq_ok (Coll.seq_ok (Coll.seq_ok (Coll.loc_ok _ _ _) (recTransfer_ok _ _ _ _ _ _)) (Coll.loc_ok _ _ _)) (recTransferExt_ok _ _ _ _ _)
  · exact Coll.seq_ok (Coll.seq_ok (Coll.seq_ok (Coll.loc_ok _ _ _) (recTransfer_ok _ _ _ _ _ _)) (Coll.loc_ok _ _ _)) (recTransferExt_ok _ _ _ _ _)
  · exact Coll.seq_ok (Coll.seq_ok (Coll.seq_ok (Coll.seq_ok (Coll.loc_ok _ _ _) (recTransfer_ok _ _ _ _ _ _)) (Coll.loc_ok _ _ _)) (recTransferExt_ok _ _ _ _ _)) (Coll.loc_ok _ _ _)
  · exact Coll.seq_ok (Coll.seq_ok (Coll.seq_ok (Coll.seq_ok (Coll.loc_ok _ _ _) (recTransfer_ok _ _ _ _ _ _)) (Coll.loc_ok _ _ _)) (recTransferExt_ok _ _ _ _ _)) (Coll.loc_ok _ _ _)

theorem findpts_sim (val : Nat → K) (np : Nat) (env : Nat → FEnv D K) (hims : ∀ p, p < np → (env p).loc.ims = false) (a : Nat → SArgs D) (npt : Nat → Nat) (m0 : Nat → Bytes) (h : ∀ p, p < np → (a p).Ok .std (npt p)) :
    Sim np (Rel0 a npt m0) (Rel1 a npt false m0) (findpts val np env) (findptsS val np env a npt) := by
  refine Sim.seq (findptsSearch_sim val np 0 env false hims a npt m0 h) ?_ (findptsSearch_ok val np 0 env) (findptsSearchS_ok val np 0 env a npt)
  refine Sim.loc _ fun p hp s s' t hR e => ?_
  unfold fp4 at e
  obtain ⟨u, e1, e⟩ := Outcome.bind_eq_ok e
  obtain rfl := Outcome.ok.inj e
  cases e2 : forList (mergeRow val) (getRows (outLayout D) s.tr) (s.outs, s.procs) with
  | none => rw [e2] at e1; cases e1
  | some u' =>
    rw [e2] at e1
    obtain rfl := Outcome.ok.inj e1
    obtain ⟨m', f, q1, q2⟩ := mergeAll_sim (h p hp) val _ s'.mem (s.outs, s.procs) u' hR.2.2.1 hR.2.2.2 e2
    rw [hR.1] at f
    exact ⟨{ s' with mem := m' }, by unfold fp4S; rw [f]; rfl, hR.1, hR.2.1, q1, q2⟩

end Gslib.Fp
