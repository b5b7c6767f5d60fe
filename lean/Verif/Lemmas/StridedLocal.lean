import Verif.Lemmas.Strided

/-!
# The local search on strided arrays
-/

namespace Gslib.Fp
open Gslib Gslib.Mpi Gslib.Transfer Gslib.Gs Gslib.Hash Gslib.Num Gslib.Spec

variable {D : Nat} {K : Type} [Field K] [LinearOrder K] [FloorRing K] {a : SArgs D} {n : Nat}

theorem mapLoop_sim {fn : Fn} (h : a.Ok fn n) (val : Nat → K) (env : LEnv D K) (sessm : Nat) {m0 : Bytes} : ∀ (l : List (Pt D × Nat)) (k : Nat) (m : Bytes) (ls : List (List IndexEl)), k + l.length = n → MInv a n m0 m →
    (∀ (j : Nat) x, l[j]? = some x → (∀ d, get a m (.x (k + j) d) = some (x.1 d)) ∧ get a m (.sess (k + j)) = some x.2) →
    (l.zipIdx k).mapM (fun p => mapPoint val env sessm p.2 p.1.1 p.1.2) = some ls →
    ∃ m', mapLoopS val env sessm a l.length k (fun d => (a.x d).base + k * (a.x d).stride) (a.code.base + k * a.code.stride) (a.sess.base + k * a.sess.stride) m = some (ls.flatten, m') ∧ MInv a n m0 m' ∧
      (∀ i, k ≤ i → i < n → get a m' (.code i) = some codeNotFound) ∧ ∀ t : Slot D, t.idx < n → (∀ i, k ≤ i → t ≠ .code i) → (_ : Vis fn t := by vis) → get a m' t = get a m t := by
  intro l
  induction l with
  | nil =>
    intro k m ls hk hm _ e
    rw [List.zipIdx_nil, List.mapM_nil] at e
    obtain rfl := Option.some.inj e
    exact ⟨m, rfl, hm, fun i h1 h2 => by simp only [List.length_nil] at hk; omega, fun _ _ _ _ => rfl⟩
  | cons x l ih =>
    intro k m ls hk hm hx e
    simp only [List.length_cons] at hk
    have hkn : k < n := by omega
    rw [List.zipIdx_cons, List.mapM_cons] at e
    obtain ⟨l1, e1, e⟩ := Option.bind_eq_some_iff.1 e
    obtain ⟨l2, e2, e⟩ := Option.bind_eq_some_iff.1 e
    obtain rfl := Option.some.inj e
    obtain ⟨m1, s1, i1, g1, o1⟩ := st_slot h hm (.code k) hkn trivial codeNotFound
    have hx0 := hx 0 x rfl
    obtain ⟨m2, s2, i2, g2, o2⟩ := ih (k + 1) m1 l2 (by omega) i1 (by
      intro j y hj
      have := hx (j + 1) y hj
      rw [show k + 1 + j = k + (j + 1) by omega]
      have hj' : j < l.length := (List.getElem?_eq_some_iff.1 hj).1
      refine ⟨fun d => ?_, ?_⟩
      · rw [o1 (.x (k + (j + 1)) d) (by simp only [Slot.idx]; omega) (by simp)]; exact this.1 d
      · rw [o1 (.sess (k + (j + 1))) (by simp only [Slot.idx]; omega) (by simp)]; exact this.2) e2
    refine ⟨m2, ?_, i2, ?_, ?_⟩
    · rw [List.length_cons, mapLoopS, ldVec, seqFin_some (g := x.1) (fun d => by have := hx0.1 d; rwa [Nat.add_zero] at this), Option.bind_some,
        show st 4 m (a.code.base + k * a.code.stride) codeNotFound = some m1 from s1, Option.bind_some]
      have hs : get a m1 (.sess k) = some x.2 := by rw [o1 (.sess k) hkn (by simp)]; have := hx0.2; rwa [Nat.add_zero] at this
      rw [show ld 4 m1 (a.sess.base + k * a.sess.stride) = some x.2 from hs, Option.bind_some, e1, Option.bind_some]
      have q : ∀ s : SArr, s.base + k * s.stride + s.stride = s.base + (k + 1) * s.stride := by intro s; ring
      simp only [q]
      rw [s2]
      rfl
    · intro i hi1 hi2
      by_cases hik : i = k
      · subst hik
        rw [o2 (.code i) hi2 (by intro j hj; simp; omega)]
        exact g1
      · exact g2 i (by omega) hi2
    · intro t ht hne hv
      rw [o2 t ht (fun i hi => hne i (by omega)) hv, o1 t ht (hne k le_rfl) hv]

/-- what a stored result leaves unchanged -/
def Kept (a : SArgs D) (n : Nat) (fn : Fn) (i : Nat) (m m' : Bytes) : Prop :=
  (∀ t : Slot D, t.idx < n → t.idx ≠ i → Vis fn t → get a m' t = get a m t) ∧ (∀ t : Slot D, t.idx < n → ¬ t.written → get a m' t = get a m t) ∧
    ∀ j, j < n → Vis fn (.proc j : Slot D) → get a m' (.proc j) = get a m (.proc j)

/-- the record stored by `storeL` -/
def resL (env : LEnv D K) (el : Nat) (f : FRes D) : LRes D :=
  { code := if f.internal then codeInternal else codeBorder, el := el, r := f.r, dist2 := f.dist2, disti := if env.ims then f.disti else 0, elsid := if env.ims then env.nsid else 0 }

theorem storeL_sim (env : LEnv D K) {fn : Fn} (h : a.Ok fn n) (hfn : env.ims = true ↔ fn = .ms) {m0 m : Bytes} (hm : MInv a n m0 m) {i : Nat} (hi : i < n) (el : Nat) (f : FRes D) :
    ∃ m', storeL env a el i f m = some m' ∧ MInv a n m0 m' ∧ ORep a env.ims m' i (resL env el f) ∧ Kept a n fn i m m' := by
  obtain ⟨b1, b2, b3, b4, b5, b6, b7, b8⟩ := h.small i hi
  obtain ⟨m1, s1, i1, g1, o1⟩ := st_slot h hm (.el i) hi trivial el
  obtain ⟨m2, s2, i2, g2, o2⟩ := st_slot h i1 (.code i) hi trivial (if f.internal then codeInternal else codeBorder)
  obtain ⟨m3, s3, i3, g3, o3⟩ := st_slot h i2 (.dist2 i) hi trivial f.dist2
  obtain ⟨m4, s4, i4, g4, o4⟩ := st_slot h i3 (.disti (if env.ims then i else 0)) (show (if env.ims then i else 0) < n by split <;> omega) trivial (if env.ims then f.disti else 0)
  obtain ⟨m5, s5, i5, g5, o5⟩ := st_slot h i4 (.elsid i) hi trivial (if env.ims then env.nsid else 0)
  obtain ⟨m6, s6, i6, g6, o6⟩ := stVec_slot h hi f.r i5
  refine ⟨m6, ?_, i6, ?_, ?_, ?_, ?_⟩
  · unfold storeL
    rw [at_eq b3, show st 4 m (a.el.base + i * a.el.stride) el = some m1 from s1, Option.bind_some, at_eq b1, show st 4 m1 (a.code.base + i * a.code.stride) _ = some m2 from s2, Option.bind_some,
      at_eq b5, show st 8 m2 (a.dist2.base + i * a.dist2.stride) _ = some m3 from s3, Option.bind_some]
    have e4 : (if env.ims = true then SArr.at a.disti i else a.disti.base) = (Slot.disti (if env.ims = true then i else 0) : Slot D).addr a := by
      split
      · rw [at_eq b7]; rfl
      · simp [Slot.addr]
    rw [e4, show st 8 m3 ((Slot.disti (if env.ims = true then i else 0) : Slot D).addr a) _ = some m4 from s4, Option.bind_some, at_eq b8, show st 4 m4 (a.elsid.base + i * a.elsid.stride) _ = some m5 from s5, Option.bind_some]
    exact s6
  · have n6 : ∀ t : Slot D, t.idx < n → (∀ d, t ≠ .r i d) → t ≠ .elsid i → (∀ j, t ≠ .disti j) → Vis fn t → get a m6 t = get a m3 t := fun t ht q1 q2 q3 hv => by rw [o6 t ht q1 hv, o5 t ht q2 hv, o4 t ht (q3 _) hv]
    refine ⟨?_, fun _ => ⟨?_, g6, ?_, ?_⟩⟩
    · rw [n6 (.code i) hi (by simp) (by simp) (by simp) (by vis), o3 (.code i) hi (by simp)]; exact g2
    · rw [n6 (.el i) hi (by simp) (by simp) (by simp) (by vis), o3 (.el i) hi (by simp), o2 (.el i) hi (by simp)]; exact g1
    · rw [n6 (.dist2 i) hi (by simp) (by simp) (by simp) (by vis)]; exact g3
    · intro ht
      simp only [resL, ht, if_true] at g4 g5 ⊢
      refine ⟨?_, ?_⟩
      · rw [o6 (.disti i) hi (by simp) (hfn.1 ht ▸ vis_ms), o5 (.disti i) hi (by simp) (hfn.1 ht ▸ vis_ms)]; exact g4
      · rw [o6 (.elsid i) hi (by simp) (hfn.1 ht ▸ vis_ms)]; exact g5
  · intro t ht hne hd
    have q : ∀ s : Slot D, s.idx = i → t ≠ s := fun s hs e => hne (e ▸ hs)
    rw [o6 t ht (fun d => q _ rfl) hd, o5 t ht (q _ rfl) hd, o4 t ht ?_ hd, o3 t ht (q _ rfl) hd, o2 t ht (q _ rfl) hd, o1 t ht (q _ rfl) hd]
    by_cases hs : env.ims = true
    · rw [if_pos hs]; exact q _ rfl
    · rw [if_neg hs]
      rintro rfl
      cases fn
      · exact hs (hfn.2 rfl)
      · exact hd trivial
      · exact hd trivial
  · intro t ht hw
    have q : ∀ s : Slot D, s.written → t ≠ s := fun s hs e => hw (e ▸ hs)
    have hv : Vis fn t := vis_of_not_written hw
    rw [o6 t ht (fun d => q _ trivial) hv, o5 t ht (q _ trivial) hv, o4 t ht (q _ trivial) hv, o3 t ht (q _ trivial) hv, o2 t ht (q _ trivial) hv, o1 t ht (q _ trivial) hv]
  · intro j hj hv
    rw [o6 (.proc j) hj (by simp), o5 (.proc j) hj (by simp), o4 (.proc j) hj (by simp), o3 (.proc j) hj (by simp), o2 (.proc j) hj (by simp), o1 (.proc j) hj (by simp)]

/-- the caller's memory represents the points and the results -/
structure LRep (a : SArgs D) (n : Nat) (ims : Bool) (m0 m : Bytes) (xs : List (Pt D × Nat)) (outs : List (LRes D)) : Prop where
  inv : MInv a n m0 m
  len : xs.length = n
  xrep : XRep a m xs
  orep : OsRep a n ims m outs

theorem LRep.set {ims : Bool} {fn : Fn} (hfn : ims = true ↔ fn = .ms) {m0 m m' : Bytes} {xs : List (Pt D × Nat)} {outs : List (LRes D)} (h : LRep a n ims m0 m xs outs) {i : Nat} {o : LRes D} (hi : MInv a n m0 m') (ho : ORep a ims m' i o)
    (hk : Kept a n fn i m m') : LRep a n ims m0 m' xs (outs.set i o) := by
  refine ⟨hi, h.len, h.xrep.congr h.len.le hk.2.1, by rw [List.length_set]; exact h.orep.1, ?_⟩
  intro j o' hj
  rw [List.getElem?_set] at hj
  split at hj
  · rename_i e
    subst e
    split at hj
    · obtain rfl := Option.some.inj hj; exact ho
    · cases hj
  · rename_i hne
    have hjn : j < n := by rw [← h.orep.1]; exact (List.getElem?_eq_some_iff.1 hj).1
    refine (h.orep.2 j o' hj).congr ?_ ?_ ?_ ?_ ?_
    · exact hk.1 (.code j) hjn (Ne.symm hne) (by vis)
    · exact hk.1 (.el j) hjn (Ne.symm hne) (by vis)
    · intro d; exact hk.1 (.r j d) hjn (Ne.symm hne) (by vis)
    · exact hk.1 (.dist2 j) hjn (Ne.symm hne) (by vis)
    · intro hs
      exact ⟨hk.1 (.disti j) hjn (Ne.symm hne) (hfn.1 hs ▸ vis_ms), hk.1 (.elsid j) hjn (Ne.symm hne) (hfn.1 hs ▸ vis_ms)⟩

/-- `proc` is unchanged -/
def PKept (a : SArgs D) (n : Nat) (fn : Fn) (m m' : Bytes) : Prop := ∀ j, j < n → Vis fn (.proc j : Slot D) → get a m' (.proc j) = get a m (.proc j)

theorem LRep.code {ims : Bool} {m0 m : Bytes} {xs : List (Pt D × Nat)} {outs : List (LRes D)} {fn : Fn} (ha : a.Ok fn n) (h : LRep a n ims m0 m xs outs) {i : Nat} {o : LRes D} (ho : outs[i]? = some o) :
    i < n ∧ ld 4 m (SArr.at a.code i) = some o.code := by
  have hi : i < n := by rw [← h.orep.1]; exact (List.getElem?_eq_some_iff.1 ho).1
  exact ⟨hi, by rw [at_eq (ha.small i hi).1]; exact (h.orep.2 i o ho).1⟩

theorem LRep.dist2 {ims : Bool} {m0 m : Bytes} {xs : List (Pt D × Nat)} {outs : List (LRes D)} {fn : Fn} (ha : a.Ok fn n) (h : LRep a n ims m0 m xs outs) {i : Nat} {o : LRes D} (ho : outs[i]? = some o) (hc : o.code ≠ codeNotFound) :
    ld 8 m (SArr.at a.dist2 i) = some o.dist2 := by
  have hi : i < n := by rw [← h.orep.1]; exact (List.getElem?_eq_some_iff.1 ho).1
  rw [at_eq (ha.small i hi).2.2.2.2.1]
  exact ((h.orep.2 i o ho).2 hc).2.2.1

theorem scan1_sim {ims : Bool} {fn : Fn} (ha : a.Ok fn n) {m0 m : Bytes} {xs : List (Pt D × Nat)} {outs : List (LRes D)} (h : LRep a n ims m0 m xs outs) (nptMax el : Nat) : ∀ (l : List IndexEl) (acc r : List (Pt D)),
    scan1 nptMax el xs outs l acc = some r → scan1S nptMax el a m l acc = some r
  | [], _, _, e => e
  | q :: qs, acc, r, e => by
    rw [scan1] at e
    rw [scan1S]
    split at e
    · rename_i hc
      rw [if_pos hc]
      obtain ⟨o, ho, e⟩ := Option.bind_eq_some_iff.1 e
      obtain ⟨hi, hcode⟩ := h.code ha ho
      rw [hcode, Option.bind_some]
      split at e
      · rename_i h0
        rw [if_pos h0]
        exact scan1_sim ha h nptMax el qs acc r e
      · rename_i h0
        rw [if_neg h0]
        obtain ⟨x, hx, e⟩ := Option.bind_eq_some_iff.1 e
        have hxr := h.xrep q.index x hx
        rw [ldVec, seqFin_some (g := x.1) (fun d => by rw [at_eq ((ha.small _ hi).2.2.2.2.2.1 d)]; exact hxr.1 d), Option.bind_some]
        exact scan1_sim ha h nptMax el qs _ r e
    · rename_i hc
      rw [if_neg hc]
      exact e

theorem updS_sim (val : Nat → K) (env : LEnv D K) {fn : Fn} (ha : a.Ok fn n) (hfn : env.ims = true ↔ fn = .ms) {m0 m : Bytes} {xs : List (Pt D × Nat)} {outs : List (LRes D)} (h : LRep a n env.ims m0 m xs outs) {i : Nat} {o : LRes D} (ho : outs[i]? = some o) (el : Nat) (f : FRes D) :
    ∃ m', updS val env a el i o.code f m = some m' ∧ LRep a n env.ims m0 m' xs (outs.set i (updL val env el f o)) ∧ PKept a n fn m m' := by
  have hi := (h.code ha ho).1
  obtain ⟨m', s, hm', hor, hk⟩ := storeL_sim env ha hfn h.inv hi el f
  have hst := h.set hfn hm' hor hk
  unfold updS updL
  by_cases h1 : o.code = codeNotFound ∨ f.internal = true
  · rw [if_pos h1, if_pos (by tauto)]
    exact ⟨m', s, hst, hk.2.2⟩
  · rw [if_neg h1, h.dist2 ha ho (by tauto), Option.bind_some]
    by_cases h2 : val f.dist2 < val o.dist2
    · rw [if_pos h2, if_pos (by tauto)]
      exact ⟨m', s, hst, hk.2.2⟩
    · rw [if_neg h2, if_neg (by tauto), set_same outs i o ho]
      exact ⟨m, rfl, h, fun _ _ _ => rfl⟩

theorem scan2_sim (val : Nat → K) (env : LEnv D K) {fn : Fn} (ha : a.Ok fn n) (hfn : env.ims = true ↔ fn = .ms) {m0 : Bytes} {xs : List (Pt D × Nat)} (el : Nat) (res : List (FRes D)) : ∀ (l : List IndexEl) (i : Nat) (m : Bytes) (outs : List (LRes D)) (r : List (LRes D) × List IndexEl),
    LRep a n env.ims m0 m xs outs → scan2 val env el res l i outs = some r → ∃ m', scan2S val env a el res l i m = some (m', r.2) ∧ LRep a n env.ims m0 m' xs r.1 ∧ PKept a n fn m m'
  | [], _, m, outs, r, h, e => by
    rw [scan2] at e
    obtain rfl := Option.some.inj e
    exact ⟨m, rfl, h, fun _ _ _ => rfl⟩
  | q :: qs, i, m, outs, r, h, e => by
    rw [scan2] at e
    rw [scan2S]
    split at e
    · rename_i hc
      rw [if_pos hc]
      obtain ⟨o, ho, e⟩ := Option.bind_eq_some_iff.1 e
      obtain ⟨hi, hcode⟩ := h.code ha ho
      rw [hcode, Option.bind_some]
      split at e
      · rename_i h0
        rw [if_pos h0]
        exact scan2_sim val env ha hfn el res qs i m outs r h e
      · rename_i h0
        rw [if_neg h0]
        obtain ⟨f, hf, e⟩ := Option.bind_eq_some_iff.1 e
        rw [hf, Option.bind_some]
        obtain ⟨m1, e1, h1, p1⟩ := updS_sim val env ha hfn h ho el f
        rw [e1, Option.bind_some]
        obtain ⟨m2, e2, h2, p2⟩ := scan2_sim val env ha hfn el res qs (i + 1) m1 _ r h1 e
        exact ⟨m2, e2, h2, fun j hj hv => (p2 j hj hv).trans (p1 j hj hv)⟩
    · rename_i hc
      rw [if_neg hc]
      obtain rfl := Option.some.inj e
      exact ⟨m, rfl, h, fun _ _ _ => rfl⟩

theorem elLoop_sim (val : Nat → K) (env : LEnv D K) {fn : Fn} (ha : a.Ok fn n) (hfn : env.ims = true ↔ fn = .ms) {m0 : Bytes} {xs : List (Pt D × Nat)} (el : Nat) : ∀ (k : Nat) (l : List IndexEl) (m : Bytes) (outs : List (LRes D)) (r : List (LRes D) × List IndexEl),
    LRep a n env.ims m0 m xs outs → elLoop val env xs el k l outs = some r → ∃ m', elLoopS val env a el k l m = some (m', r.2) ∧ LRep a n env.ims m0 m' xs r.1 ∧ PKept a n fn m m'
  | 0, _, _, _, _, _, e => by cases e
  | k + 1, l, m, outs, r, h, e => by
    rw [elLoop] at e
    obtain ⟨pts, e1, e⟩ := Option.bind_eq_some_iff.1 e
    obtain ⟨s, e2, e⟩ := Option.bind_eq_some_iff.1 e
    rw [elLoopS, scan1_sim ha h env.nptMax el l [] pts e1, Option.bind_some]
    obtain ⟨m1, f1, h1, p1⟩ := scan2_sim val env ha hfn el _ l 0 m outs s h e2
    rw [f1, Option.bind_some]
    simp only
    split at e
    · rename_i hc
      rw [if_pos hc]
      obtain ⟨m2, f2, h2, p2⟩ := elLoop_sim val env ha hfn el k s.2 m1 s.1 r h1 e
      exact ⟨m2, f2, h2, fun j hj hv => (p2 j hj hv).trans (p1 j hj hv)⟩
    · rename_i hc
      rw [if_neg hc]
      obtain rfl := Option.some.inj e
      exact ⟨m1, rfl, h1, p1⟩

theorem elsLoop_sim (val : Nat → K) (env : LEnv D K) {fn : Fn} (ha : a.Ok fn n) (hfn : env.ims = true ↔ fn = .ms) {m0 : Bytes} {xs : List (Pt D × Nat)} : ∀ (k : Nat) (l : List IndexEl) (m : Bytes) (outs : List (LRes D)) (r : List (LRes D)),
    LRep a n env.ims m0 m xs outs → elsLoop val env xs k l outs = some r → ∃ m', elsLoopS val env a k l m = some m' ∧ LRep a n env.ims m0 m' xs r ∧ PKept a n fn m m'
  | k, [], m, outs, r, h, e => by
    have e' : some outs = some r := by rw [← e]; cases k <;> rfl
    obtain rfl := Option.some.inj e'
    exact ⟨m, by cases k <;> rfl, h, fun _ _ _ => rfl⟩
  | 0, _ :: _, _, _, _, _, e => by cases e
  | k + 1, p :: ps, m, outs, r, h, e => by
    rw [elsLoop] at e
    obtain ⟨s, e1, e⟩ := Option.bind_eq_some_iff.1 e
    obtain ⟨m1, f1, h1, p1⟩ := elLoop_sim val env ha hfn p.el _ _ m outs s h e1
    obtain ⟨m2, f2, h2, p2⟩ := elsLoop_sim val env ha hfn k s.2 m1 s.1 r h1 e
    exact ⟨m2, by rw [elsLoopS, f1, Option.bind_some]; exact f2, h2, fun j hj hv => (p2 j hj hv).trans (p1 j hj hv)⟩

/-- the local search on strided arrays ends with the results of the search on lists -/
theorem findptsLocal_sim (val : Nat → K) (env : LEnv D K) {fn : Fn} (ha : a.Ok fn n) (hfn : env.ims = true ↔ fn = .ms) (sessm : Nat) {m0 m : Bytes} {xs : List (Pt D × Nat)} {outs : List (LRes D)} (hm : MInv a n m0 m) (hl : xs.length = n) (hx : XRep a m xs)
    (ho : outs.length = n) (s : Sarray.ScratchF Nat) {r : List (LRes D)} (e : findptsLocal val env sessm xs outs s = .ok r) :
    ∃ m', findptsLocalS val env sessm a n m s = .ok m' ∧ LRep a n env.ims m0 m' xs r := by
  unfold findptsLocal mapPointsToEls at e
  cases e1 : (xs.zipIdx.mapM fun p => mapPoint val env sessm p.2 p.1.1 p.1.2) with
  | none => rw [e1] at e; simp [Outcome.ofOption, Outcome.bind] at e
  | some ls =>
    rw [e1] at e
    simp only [Option.map_some, Outcome.ofOption, Outcome.bind] at e
    obtain ⟨m1, f1, i1, c1, o1⟩ := mapLoop_sim ha val env sessm xs 0 m ls (by omega) hm (by intro j x hj; rw [Nat.zero_add]; exact hx j x hj) e1
    unfold findptsLocalS
    have f1' : mapLoopS val env sessm a n 0 (fun d => (a.x d).base) a.code.base a.sess.base m = some (ls.flatten, m1) := by
      rw [← f1, hl]
      simp
    rw [f1']
    simp only [Outcome.ofOption, Outcome.bind]
    cases e2 : Sarray.sarraySort [.int 4 IndexEl.el] ls.flatten s with
    | ok map =>
      rw [e2] at e
      simp only at e ⊢
      cases e3 : elsLoop val env xs (map.length + 1) map (outs.map fun o => { o with code := codeNotFound }) with
      | none => rw [e3] at e; cases e
      | some r' =>
        rw [e3] at e
        obtain rfl := Outcome.ok.inj e
        have hrep : LRep a n env.ims m0 m1 xs (outs.map fun o => { o with code := codeNotFound }) := by
          refine ⟨i1, hl, hx.congr hl.le ?_, by rw [List.length_map]; exact ho, ?_⟩
          · intro t ht hw
            exact o1 t ht (fun i _ e => hw (e ▸ trivial)) (vis_of_not_written hw)
          · intro i o hi
            rw [List.getElem?_map] at hi
            obtain ⟨o', ho', rfl⟩ := Option.map_eq_some_iff.1 hi
            have hin : i < n := by rw [← ho]; exact (List.getElem?_eq_some_iff.1 ho').1
            exact ⟨c1 i (Nat.zero_le _) hin, fun hc => absurd rfl hc⟩
        obtain ⟨m2, f2, h2, _⟩ := elsLoop_sim val env ha hfn _ map m1 _ r' hrep e3
        exact ⟨m2, by rw [f2], h2⟩
    | abort => rw [e2] at e; cases e
    | ub => rw [e2] at e; cases e

end Gslib.Fp
