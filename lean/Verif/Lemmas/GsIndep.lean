import Verif.Lemmas.GsBits

/-!
# The result of gs does not depend on what is in the buffers, nor on their length: all methods
-/

namespace Gslib.Mpi
open Gslib Gslib.Spec

variable {S S' W W' : Type} {RS RS' RQ : Nat → S → S' → Prop} {RW : W → W' → Prop}

theorem seqAll_relP {P : Nat} {d : Nat → S} {d' : Nat → S'} {o : Nat → Outcome S} {o' : Nat → Outcome S'} {f : Nat → S} (e : seqAll d o P = .ok f)
    (h : ∀ p, p < P → ∀ t, o p = .ok t → ∃ t', o' p = .ok t' ∧ RS p t t') : ∃ f', seqAll d' o' P = .ok f' ∧ ∀ p, p < P → RS p (f p) (f' p) := by
  obtain ⟨e1, _⟩ := seqAll_ok e
  have k : ∀ p, ∃ t', p < P → o' p = .ok t' ∧ RS p (f p) t' := by
    intro p
    by_cases hp : p < P
    · obtain ⟨t', q⟩ := h p hp (f p) (e1 p hp)
      exact ⟨t', fun _ => q⟩
    · exact ⟨d' p, fun h => absurd h hp⟩
  choose t' ht' using k
  refine ⟨fun p => if p < P then t' p else d' p, seqAll_of_ok _ P (fun p hp => by rw [if_pos hp]; exact (ht' p hp).1) (fun p hp => by rw [if_neg (by omega)]), fun p hp => ?_⟩
  beta_reduce
  rw [if_pos hp]
  exact (ht' p hp).2

/-- as `lockStep_rel`, with a relation for each process -/
theorem lockStep_relP {P l : Nat} {prog : Nat → Prog S W} {prog' : Nat → Prog S' W'} (h : ∀ p, p < P → ProgRel (RS p) RW (prog p) (prog' p)) {d : Nat → S} {d' : Nat → S'}
    (hd : ∀ p, p < P → RS p (d p) (d' p)) {t : Nat → S} (e : lockStep prog P l d = .ok t) : ∃ t', lockStep prog' P l d' = .ok t' ∧ ∀ p, p < P → RS p (t p) (t' p) := by
  unfold lockStep at e ⊢
  obtain ⟨u, e1, e2⟩ := Outcome.bind_eq_ok e
  obtain ⟨u', f1, hu⟩ := seqAll_relP (RS := RS) (d' := d') (o' := preOf prog' l d') e1 (by
    intro p hp v ev
    unfold preOf at ev ⊢
    rcases stepAt_rel (h p hp) l with ⟨a, b⟩ | ⟨s, s', a, b, c⟩
    · rw [a] at ev
      rw [b]
      obtain rfl := Outcome.ok.inj ev
      exact ⟨_, rfl, hd p hp⟩
    · rw [a] at ev
      rw [b]
      exact c.pre _ _ _ (hd p hp) ev)
  rw [f1]
  show ∃ t', seqAll d' (postOf prog' P l u') P = .ok t' ∧ _
  refine seqAll_relP e2 ?_
  intro p hp v ev
  unfold postOf at ev ⊢
  rcases stepAt_rel (h p hp) l with ⟨a, b⟩ | ⟨s, s', a, b, c⟩
  · rw [a] at ev
    rw [b]
    obtain rfl := Outcome.ok.inj ev
    exact ⟨_, rfl, hu p hp⟩
  · rw [a] at ev
    rw [b]
    obtain ⟨vals, g1, g2⟩ := Outcome.bind_eq_ok ev
    have g1' : gather prog P l u p s.recvs = some vals := by
      cases hg : gather prog P l u p s.recvs with
      | none => rw [hg] at g1; cases g1
      | some x => rw [hg] at g1; rw [Outcome.ok.inj g1]
    obtain ⟨vals', k1, k2⟩ := mapM_rel (R := RW) (g' := fun x => if x.1 < P then
        match stepAt (prog' x.1) l with
        | none => none
        | some s => if (p, x.2) ∈ s.sends then some (s.payload (u' x.1) (p, x.2)) else none
      else none) s.recvs vals (by
      intro x _ y hy
      beta_reduce at hy ⊢
      by_cases hx : x.1 < P
      · rw [if_pos hx] at hy ⊢
        rcases stepAt_rel (h x.1 hx) l with ⟨a, b⟩ | ⟨z, z', a, b, c⟩
        · rw [a] at hy; cases hy
        · rw [a] at hy
          rw [b]
          simp only at hy ⊢
          rw [c.sends]
          by_cases hm : (p, x.2) ∈ z.sends
          · rw [if_pos hm] at hy ⊢
            obtain rfl := Option.some.inj hy
            exact ⟨_, rfl, c.payload _ _ _ (hu x.1 hx)⟩
          · rw [if_neg hm] at hy; cases hy
      · rw [if_neg hx] at hy; cases hy) g1'
    have k1' : gather prog' P l u' p s'.recvs = some vals' := by rw [c.recvs]; exact k1
    simp only [k1']
    exact c.post _ _ _ _ _ (hu p hp) k2 g2

theorem lockRun_relP {P : Nat} {prog : Nat → Prog S W} {prog' : Nat → Prog S' W'} (h : ∀ p, p < P → ProgRel (RS p) RW (prog p) (prog' p)) {d : Nat → S} {d' : Nat → S'}
    (hd : ∀ p, p < P → RS p (d p) (d' p)) : ∀ (T : Nat) {t : Nat → S}, lockRun prog P T d = .ok t → ∃ t', lockRun prog' P T d' = .ok t' ∧ ∀ p, p < P → RS p (t p) (t' p)
  | 0, t, e => by
    obtain rfl := Outcome.ok.inj e
    exact ⟨d', rfl, hd⟩
  | T + 1, t, e => by
    rw [lockRun] at e
    obtain ⟨u, e1, e2⟩ := Outcome.bind_eq_ok e
    obtain ⟨u', f1, hu⟩ := lockRun_relP h hd T e1
    obtain ⟨t', f2, ht⟩ := lockStep_relP h hu e2
    exact ⟨t', by rw [lockRun, f1]; exact f2, ht⟩

/-- collective operations: related memories before give related memories after -/
def RunRel (np : Nat) (RS RS' : Nat → S → S' → Prop) (c : Coll S W) (c' : Coll S' W') : Prop :=
  ∀ s s', (∀ p, p < np → RS p (s p) (s' p)) → ∀ t, c.run np s = .ok t → ∃ t', c'.run np s' = .ok t' ∧ ∀ p, p < np → RS' p (t p) (t' p)

theorem RunRel.seq {np : Nat} {a b : Coll S W} {a' b' : Coll S' W'} (ha : a.Ok np) (ha' : a'.Ok np) (h1 : RunRel np RS RS' a a') (h2 : RunRel np RS' RQ b b') : RunRel np RS RQ (a.seq b) (a'.seq b') := by
  intro s s' hs t e
  rw [Coll.seq_run ha] at e
  obtain ⟨m, e1, e2⟩ := Outcome.bind_eq_ok e
  obtain ⟨m', f1, hm⟩ := h1 s s' hs m e1
  obtain ⟨t', f2, ht⟩ := h2 m m' hm t e2
  exact ⟨t', by rw [Coll.seq_run ha', f1]; exact f2, ht⟩

theorem RunRel.loc {np : Nat} {f : Nat → S → Outcome S} {g : Nat → S' → Outcome S'} {w : W} {w' : W'}
    (h : ∀ p, p < np → ∀ s s' t, RS p s s' → f p s = .ok t → ∃ t', g p s' = .ok t' ∧ RS' p t t') : RunRel np RS RS' (Coll.loc f w) (Coll.loc g w') := by
  intro s s' hs t e
  rw [Coll.loc_run] at e ⊢
  exact seqAll_relP e fun p hp t et => h p hp _ _ t (hs p hp) et

theorem RunRel.prog {np : Nat} {a : Coll S W} {b : Coll S' W'} (hT : b.T = a.T) (h : ∀ p, p < np → ProgRel (RS p) RW (a.prog p) (b.prog p)) : RunRel np RS RS a b := by
  intro s s' hs t e
  unfold Coll.run at e ⊢
  rw [hT]
  exact lockRun_relP h hs _ e

/-- the number of rounds does not matter -/
theorem lockRun_unique {np T1 T2 : Nat} {prog : Nat → Prog S W} (h1 : Matched prog np T1) (h2 : Matched prog np T2) (d : Nat → S) : lockRun prog np T1 d = lockRun prog np T2 d := by
  rw [← Gs.lockRun_more (fun p hp s hs => h1.bound p hp s hs) d T2, Nat.add_comm, Gs.lockRun_more (fun p hp s hs => h2.bound p hp s hs) d T1]

end Gslib.Mpi

namespace Gslib.Gs
open Gslib Gslib.Mpi Gslib.Spec Gslib.Comm

variable {T T' U U' : Type}

/-! ### the kernels do not change the length of the buffer -/

structure KLen (K : Kernels U T) : Prop where
  toBuf : ∀ m u b b', K.toBuf m u b = some b' → b'.length = b.length
  bufScatter : ∀ m c b b', K.bufScatter m c b = some b' → b'.length = b.length
  bufGather : ∀ m c b b', K.bufGather m c b = some b' → b'.length = b.length

theorem stAt_len {a b : List T} {k : Nat} {t : T} (h : stAt a k t = some b) : b.length = a.length := by
  unfold stAt at h
  split at h
  · obtain rfl := Option.some.inj h; simp
  · cases h

theorem stVec_len {vn k : Nat} {a b t : List T} (h : stVec vn a k t = some b) : b.length = a.length := by
  unfold stVec at h
  split at h
  · rename_i hc
    obtain rfl := Option.some.inj h
    simp only [List.length_append, List.length_take, List.length_drop]
    omega
  · cases h

theorem scatterLoop_len {V : Type} {rd : List T → Nat → Option V} {st : List T → Nat → V → Option (List T)} (hst : ∀ o k t o', st o k t = some o' → o'.length = o.length) {m : List Nat} {o o' : List T}
    (h : scatterLoop rd st m .outer o = some o') : o'.length = o.length := by
  obtain ⟨x, e, r⟩ := scatterLoop_rel (RO := fun a b => b = a ∧ b.length = o.length) (RV := Eq) (rd := rd) (rd' := rd) (st := st) (st' := st) (by
      rintro a _ k ⟨rfl, -⟩ v hv
      exact ⟨v, hv, rfl⟩) (by
      rintro a _ k v _ ⟨rfl, hl⟩ rfl x hx
      exact ⟨x, hx, rfl, (hst _ _ _ _ hx).trans hl⟩) m .outer .outer o o trivial ⟨rfl, rfl⟩ o' h
  rw [h] at e
  obtain rfl := Option.some.inj e
  exact r.2

theorem gatherLoop_len {f : T → T → T} {rd : List T → Nat → Option T} {m : List Nat} {o o' : List T} (h : gatherLoop f ldAt stAt rd m .outer o = some o') : o'.length = o.length := by
  obtain ⟨x, e, r⟩ := gatherLoop_rel (RO := fun a b => b = a ∧ b.length = o.length) (RV := Eq) (f := f) (f' := f) (ld := ldAt) (ld' := ldAt) (rd := rd) (rd' := rd) (st := stAt) (st' := stAt)
      (by rintro a _ b _ rfl rfl; rfl) (by
      rintro a _ k ⟨rfl, -⟩ v hv
      exact ⟨v, hv, rfl⟩) (by
      rintro a _ k ⟨rfl, -⟩ v hv
      exact ⟨v, hv, rfl⟩) (by
      rintro a _ k v _ ⟨rfl, hl⟩ rfl x hx
      exact ⟨x, hx, rfl, (stAt_len hx).trans hl⟩) m .outer .outer o o trivial ⟨rfl, rfl⟩ o' h
  rw [h] at e
  obtain rfl := Option.some.inj e
  exact r.2

theorem gatherVecLoop_len {D : Dom T} {op : Op} {vn : Nat} {rd : List T → Nat → Option (List T)} : ∀ (m : List Nat) (p : Pos Nat) (o o' : List T), gatherVecLoop D op vn rd m p o = some o' → o'.length = o.length
  | [], _, _, _, h => by cases h
  | x :: m, .outer, o, o', h => by
    rw [gatherVecLoop] at h
    split at h
    · obtain rfl := Option.some.inj h; rfl
    · exact gatherVecLoop_len m _ o o' h
  | x :: m, .first i, o, o', h => by
    rw [gatherVecLoop] at h
    obtain ⟨t, -, h⟩ := Option.bind_eq_some_iff.1 h
    obtain ⟨y, -, h⟩ := Option.bind_eq_some_iff.1 h
    obtain ⟨u, hu, h⟩ := Option.bind_eq_some_iff.1 h
    exact (gatherVecLoop_len m _ u o' h).trans (stVec_len hu)
  | x :: m, .more i, o, o', h => by
    rw [gatherVecLoop] at h
    split at h
    · exact gatherVecLoop_len m _ o o' h
    · obtain ⟨t, -, h⟩ := Option.bind_eq_some_iff.1 h
      obtain ⟨y, -, h⟩ := Option.bind_eq_some_iff.1 h
      obtain ⟨u, hu, h⟩ := Option.bind_eq_some_iff.1 h
      exact (gatherVecLoop_len m _ u o' h).trans (stVec_len hu)

theorem plain_len (D : Dom T) (op : Op) : KLen (plainKernels D op) where
  toBuf _ _ _ _ h := scatterLoop_len (fun _ _ _ _ => stAt_len) h
  bufScatter _ _ _ _ h := scatterLoop_len (fun _ _ _ _ => stAt_len) h
  bufGather _ _ _ _ h := gatherLoop_len h

theorem vec_len (D : Dom T) (op : Op) (vn : Nat) : KLen (vecKernels D op vn) where
  toBuf _ _ _ _ h := scatterLoop_len (fun _ _ _ _ => stVec_len) h
  bufScatter _ _ _ _ h := scatterLoop_len (fun _ _ _ _ => stVec_len) h
  bufGather _ _ _ _ h := gatherVecLoop_len _ _ _ _ h

theorem manyToVec_len (vn : Nat) (m : List Nat) : ∀ (u : List (List T)) (k : Nat) (b b' : List T), manyToVec vn m k u b = some b' → b'.length = b.length
  | [], _, b, b', h => by
    obtain rfl := Option.some.inj h; rfl
  | a :: as, k, b, b', h => by
    rw [manyToVec] at h
    obtain ⟨x, hx, h⟩ := Option.bind_eq_some_iff.1 h
    exact (manyToVec_len vn m as _ x b' h).trans (scatterLoop_len (st := fun b j t => stAt b (j * vn + k) t) (fun _ _ _ _ => stAt_len) hx)

theorem many_len (D : Dom T) (op : Op) (vn : Nat) : KLen (manyKernels D op vn) where
  toBuf _ _ _ _ h := manyToVec_len vn _ _ 0 _ _ h
  bufScatter _ _ _ _ h := scatterLoop_len (fun _ _ _ _ => stVec_len) h
  bufGather _ _ _ _ h := gatherVecLoop_len _ _ _ _ h

/-! ### the crystal router -/

variable {R : T → T' → Prop} {RU : U → U' → Prop} {K : Kernels U T} {K' : Kernels U' T'}

theorem crHalf_buf (hK : KRel RU R K K') {sbs : Nat} (k : Nat) {b : List T} {b' : List T'} (h : PRel R (K.vn * (2 * sbs)) b b') :
    LRel R (crHalf K sbs k b) (crHalf K' sbs k b') ∧ (crHalf K sbs k b).length = K.vn * sbs := by
  have e : K.vn * (2 * sbs) = K.vn * sbs + K.vn * sbs := by ring
  rw [e] at h
  have hl := h.1
  unfold crHalf
  rw [hK.vn]
  split
  · exact ⟨h.take (by omega), by rw [List.length_take]; omega⟩
  · exact ⟨(h.drop (n := K.vn * sbs) (by omega)).take (by omega), by rw [List.length_take, List.length_drop]; omega⟩

theorem crPutNew_buf (hK : KRel RU R K K') {sbs : Nat} (k : Nat) {b c : List T} {b' c' : List T'} (h : PRel R (K.vn * (2 * sbs)) b b') (hc : LRel R c c') (hl : c.length = K.vn * sbs) :
    PRel R (K.vn * (2 * sbs)) (crPutNew K sbs k b c) (crPutNew K' sbs k b' c') := by
  have e : K.vn * (2 * sbs) = K.vn * sbs + K.vn * sbs := by ring
  rw [e] at h ⊢
  have hbl := h.1
  unfold crPutNew
  rw [hK.vn]
  split
  · have h1 := List.rel_append (h.take (n := K.vn * sbs) (by omega)) hc
    have h2 := LRel.append_p h1 (h.drop (n := K.vn * sbs + K.vn * sbs) (le_refl _))
    have : (b.take (K.vn * sbs) ++ c).length + (K.vn * sbs + K.vn * sbs - (K.vn * sbs + K.vn * sbs)) = K.vn * sbs + K.vn * sbs := by
      rw [List.length_append, List.length_take, hl]; omega
    rw [this] at h2
    exact h2
  · have h2 := LRel.append_p hc (h.drop (n := K.vn * sbs) (by omega))
    have : c.length + (K.vn * sbs + K.vn * sbs - K.vn * sbs) = K.vn * sbs + K.vn * sbs := by omega
    rw [this] at h2
    exact h2

/-- the sizes of a stage fit -/
def StageFits (sbs : Nat) (st : CrStage) : Prop := st.sizes.sum = st.sizeR ∧ st.sizeR ≤ sbs

theorem crExecStep_buf (hK : KBuf RU R K K') (hL : KLen K) (np sbs k : Nat) {st : CrStage} (hst : StageFits sbs st) :
    StepRel (BRel RU R (K.vn * (2 * sbs))) (LRel R) (crExecStep K np sbs k st) (crExecStep K' np sbs k st) where
  label := rfl
  sends := rfl
  recvs := rfl
  pre s s' r h e := by
    unfold crExecStep at *
    simp only at *
    obtain ⟨h1, l1⟩ := crHalf_buf hK.toKRel k h.buf
    obtain ⟨h2, l2⟩ := crHalf_buf hK.toKRel (k + 1) h.buf
    rw [hK.vn]
    -- the new send buffer has the length of the old one
    have key : ORel (fun (x : List T) (y : List T') => LRel R x y ∧ x.length = ((crHalf K sbs (k + 1) s.buf).drop (K.vn * st.sizeR)).length)
        (if k = 0 then K.toBuf st.scatterMap s.u ((crHalf K sbs (k + 1) s.buf).drop (K.vn * st.sizeR))
          else (K.bufScatter st.scatterMap (crHalf K sbs k s.buf) ((crHalf K sbs (k + 1) s.buf).drop (K.vn * st.sizeR))).bind fun sb => K.bufGather st.gatherMap (crHalf K sbs k s.buf) sb)
        (if k = 0 then K'.toBuf st.scatterMap s'.u ((crHalf K' sbs (k + 1) s'.buf).drop (K.vn * st.sizeR))
          else (K'.bufScatter st.scatterMap (crHalf K' sbs k s'.buf) ((crHalf K' sbs (k + 1) s'.buf).drop (K.vn * st.sizeR))).bind fun sb => K'.bufGather st.gatherMap (crHalf K' sbs k s'.buf) sb) := by
      intro x hx
      obtain ⟨y, hy, hxy⟩ := (ORel.ite (c := k = 0) (fun _ => hK.toBuf _ _ _ _ _ h.u (List.forall₂_drop _ h2)) fun _ => (hK.bufScatter _ _ _ _ _ h1 (List.forall₂_drop (K.vn * st.sizeR) h2)).bind fun x x' hx =>
        hK.bufGather _ _ _ _ _ h1 hx : ORel (LRel R) _ _) x hx
      refine ⟨y, hy, hxy, ?_⟩
      split at hx
      · exact hL.toBuf _ _ _ _ hx
      · obtain ⟨z, hz, hx⟩ := Option.bind_eq_some_iff.1 hx
        exact (hL.bufGather _ _ _ _ hx).trans (hL.bufScatter _ _ _ _ hz)
    refine outRel ?_ r e
    refine key.bind fun x y hxy => ORel.some ⟨h.u, crPutNew_buf hK.toKRel k h.buf (List.rel_append (List.forall₂_take _ h2) hxy.1) ?_⟩
    rw [List.length_append, hxy.2, ← List.length_append, List.take_append_drop, l2]
  payload s s' x h := by
    unfold crExecStep
    simp only
    rw [hK.vn]
    exact List.forall₂_take _ (List.forall₂_drop _ (crHalf_buf hK.toKRel (k + 1) h.buf).1)
  post s s' v v' r h hv e := by
    unfold crExecStep at *
    simp only at *
    obtain ⟨h2, l2⟩ := crHalf_buf hK.toKRel (k + 1) h.buf
    rw [hK.vn, lens_rel hv]
    by_cases c : v.map List.length = st.sizes.map (fun x => K.vn * x)
    · rw [if_pos c] at e ⊢
      obtain rfl := Outcome.ok.inj e
      refine ⟨_, rfl, h.u, crPutNew_buf hK.toKRel k h.buf (List.rel_append (List.rel_flatten hv) (List.forall₂_drop _ h2)) ?_⟩
      have hs : (st.sizes.map fun x => K.vn * x).sum = K.vn * st.sizeR := by rw [List.sum_map_mul_left, List.map_id', hst.1]
      rw [List.length_append, List.length_flatten, c, hs, List.length_drop, l2]
      have := Nat.mul_le_mul_left K.vn hst.2
      omega
    · rw [if_neg c] at e; cases e

theorem crExec_buf (hK : KBuf RU R K K') (hL : KLen K) {np : Nat} {d : Nat → CrData} {t : Bool} (hst : ∀ p, p < np → ∀ st ∈ ((d p).stages t).dropLast, StageFits (d p).sbs st)
    (hok : (crExec K np d t).Ok np) :
    RunRel np (fun p => BRel RU R (K.vn * (2 * (d p).sbs))) (fun p => BRel RU R (K.vn * (2 * (d p).sbs))) (crExec K np d t) (crExec K' np d t) := by
  refine RunRel.prog (RW := LRel R) rfl ?_
  intro p hp
  have hst := hst p hp
  unfold crExec Coll.seq Coll.loc
  simp only
  refine List.rel_append ?_ ?_
  · have : ∀ x ∈ ((d p).stages t).dropLast.zipIdx, StageFits (d p).sbs x.1 := fun x hx => hst _ (List.fst_mem_of_mem_zipIdx hx)
    generalize ((d p).stages t).dropLast.zipIdx = l at this
    induction l with
    | nil => exact .nil
    | cons x l ih => exact .cons ((crExecStep_buf hK hL np _ x.2 (this x (by simp))).shift _) (ih fun y hy => this y (by simp [hy]))
  · refine .cons ⟨rfl, rfl, rfl, ?_, fun _ _ _ _ => List.Forall₂.nil, fun s s' v v' t r _ e => by obtain rfl := Outcome.ok.inj e; exact ⟨s', rfl, r⟩⟩ .nil
    intro s s' r h e
    simp only [Step.shift] at e ⊢
    cases c : ((d p).stages t).getLast? with
    | none => rw [c] at e; cases e
    | some st =>
      rw [c] at e
      simp only at e ⊢
      unfold crExecEnd at *
      refine outRel ?_ r e
      have h1 := (crHalf_buf hK.toKRel (((d p).stages t).length - 1) h.buf).1
      exact (hK.fromBuf _ _ _ _ _ h1 h.u).bind fun u u' hu => (hK.gatherBuf _ _ _ _ _ h1 hu).bind fun w w' hw => ORel.some ⟨hw, h.buf⟩

theorem crOk_fits {np : Nat} {ids : Nat → List Int} {d : Nat → CrData} (hd : CrOk np ids d) (t : Bool) : ∀ p, p < np → ∀ st ∈ ((d p).stages t).dropLast, StageFits (d p).sbs st := by
  obtain ⟨R0, Rw, Vl, gl, h0, hl⟩ := hd.learned t
  intro p hp st hst
  have hs := hd.sbs t p hp
  rw [hl.stages p hp] at hst hs
  rw [List.dropLast_concat] at hst
  obtain ⟨k, hk, rfl⟩ := List.mem_map.1 hst
  have hk := List.mem_range.1 hk
  have htot : ((Vl k).stg p).sizeTotal ≤ (d p).sbs := le_trans (le_sizeMax (List.mem_append_left _ hst)) hs
  have hkl : k < Nat.clog 2 np := Nat.lt_of_lt_of_le hk (by
    unfold dep
    exact (List.length_filter_le _ _).trans (by rw [List.length_range]))
  have ha : Act np k p := (act_iff hkl).2 hk
  have hlv := (hl.hist.step k hkl).act p hp ha
  refine ⟨?_, by have := hlv.tot; omega⟩
  have h2 : ((Vl k).stg p).sizes.length ≤ 2 := by
    unfold CrStage.sizes
    split
    · simp
    · split <;> simp
  have h1 := (stg_from hlv).2
  have e : ∀ l : List Nat, l.length ≤ 2 → l.sum = l.getD 0 0 + l.getD 1 0 := by
    intro l hl
    match l, hl with
    | [], _ => rfl
    | [a], _ => simp
    | [a, b], _ => simp
  rw [e _ h2, hlv.r, hlv.r1, hlv.r2, h1]

theorem crExec_ok {np : Nat} {ids : Nat → List Int} {d : Nat → CrData} (K : Kernels U T) (hd : CrOk np ids d) (t : Bool) : (crExec K np d t).Ok np := by
  obtain ⟨R0, Rw, Vl, gl, h0, hl⟩ := hd.learned t
  have hprog : ∀ p, p < np → ((((d p).stages t).dropLast.zipIdx).map fun x => Step.shift x.2 (crExecStep K np (d p).sbs x.2 x.1)) =
      (Coll.rounds (fun t => crLv K np (fun q => (d q).sbs) t (Vl t).stg) (Nat.clog 2 np)).prog p := fun p hp =>
    crExec_prog (last := fun p => ⟨encGroups ((gl p).map fun g => (g.2.1, [g.1])), encGroups (((gl p).filter fun g => g.2.2 ≠ []).map fun g => (g.1, g.2.2)), 0, 0, 0, 0, 0, 0, 0, 0, 0⟩) K hp (hl.stages p hp)
  have hT : Nat.clog 2 np = (Coll.rounds (fun t => crLv K np (fun q => (d q).sbs) t (Vl t).stg) (Nat.clog 2 np)).T := by
    rw [(Coll.rounds_prog (B := 1) (lv := fun t => crLv K np (fun q => (d q).sbs) t (Vl t).stg) (fun t => rfl) 0 _).1, Nat.one_mul]
  have hokr : (Coll.rounds (fun t => crLv K np (fun q => (d q).sbs) t (Vl t).stg) (Nat.clog 2 np)).Ok np := by
    apply Coll.rounds_ok
    intro τ hτ
    apply crLv_ok
    intro p hp ha
    have := (hl.hist.step τ hτ).act p hp ha
    exact ⟨this.p1, (stg_from this).1⟩
  have hok1 := Coll.ok_congr (a := (⟨Nat.clog 2 np, fun id => (((d id).stages t).dropLast.zipIdx).map fun x => Step.shift x.2 (crExecStep K np (d id).sbs x.2 x.1)⟩ : Coll (GsSt U T) (List T))) hT hprog hokr
  exact Coll.seq_ok hok1 (Coll.loc_ok _ _ _)

/-! ### all-reduce -/

theorem commAllreduce_okay {T : Type} (dom : Dom T) (op : Op) (vn np : Nat) : (commAllreduce dom op vn np).Ok np :=
  (Props.comm_tree_matching dom op vn np).1

variable {D : Dom T} {D' : Dom T'} {op : Op}

theorem arExec_ok (K : Kernels U T) (D : Dom T) (op : Op) (np total : Nat) (d : Nat → ArData) (t : Bool) : (arExec K D op np total d t).Ok np :=
  Coll.seq_ok (Coll.seq_ok (Coll.loc_ok _ _ _) (Coll.lift_ok _ _ (commAllreduce_okay D op _ np))) (Coll.loc_ok _ _ _)

theorem arExec_buf (h : DomRel R D D' op) (hK : KRel RU R K K') (np total : Nat) (d : Nat → ArData) (t : Bool) :
    RunRel np (fun _ (s : GsSt U T) (s' : GsSt U' T') => RU s.u s'.u) (fun _ s s' => RU s.u s'.u) (arExec K D op np total d t) (arExec K' D' op np total d t) := by
  have hl : RunRel np (fun _ (s : GsSt U T) (s' : GsSt U' T') => RU s.u s'.u ∧ LRel R s.arr s'.arr) (fun _ s s' => RU s.u s'.u ∧ LRel R s.arr s'.arr)
      ((commAllreduce D op (K.vn * total) np).lift GsSt.arr GsSt.setArr) ((commAllreduce D' op (K'.vn * total) np).lift GsSt.arr GsSt.setArr) := by
    rw [hK.vn]
    have := CollRel.lift (RS := fun (s : GsSt U T) (s' : GsSt U' T') => RU s.u s'.u ∧ LRel R s.arr s'.arr) (get := GsSt.arr) (set := GsSt.setArr) (get' := GsSt.arr) (set' := GsSt.setArr)
      (fun s s' hs => hs.2) (fun s s' x x' hs hx => ⟨hs.1, hx⟩) (commAllreduce_rel h (K.vn * total) np)
    exact RunRel.prog this.T fun p _ => this.prog p
  unfold arExec arExecWith
  refine RunRel.seq (Coll.seq_ok (Coll.loc_ok _ _ _) (Coll.lift_ok _ _ (commAllreduce_okay D op _ np))) (Coll.seq_ok (Coll.loc_ok _ _ _) (Coll.lift_ok _ _ (commAllreduce_okay D' op _ np)))
    (RunRel.seq (Coll.loc_ok _ _ _) (Coll.loc_ok _ _ _) (RunRel.loc ?_) hl) (RunRel.loc ?_)
  · intro p _ s s' r hs e
    unfold arPre at *
    refine outRel (RS := fun (a : GsSt U T) (b : GsSt U' T') => RU a.u b.u ∧ LRel R a.arr b.arr) ?_ r e
    rw [hK.vn]
    exact (hK.toBuf _ _ _ _ _ hs (initArray_rel h _)).bind fun b b' hb => ORel.some ⟨hs, hb⟩
  · intro p _ s s' r hs e
    unfold arPost at *
    refine outRel (RS := fun (a : GsSt U T) (b : GsSt U' T') => RU a.u b.u) ?_ r e
    exact (hK.fromBuf _ _ _ _ _ hs.2 hs.1).bind fun b b' hb => ORel.some hb

/-! ### gs -/

theorem RunRel.mono {S S' W W' : Type} {np : Nat} {A A' B B' : Nat → S → S' → Prop} {c : Coll S W} {c' : Coll S' W'} (h : RunRel np A B c c') (ha : ∀ p, p < np → ∀ s s', A' p s s' → A p s s') (hb : ∀ p, p < np → ∀ s s', B p s s' → B' p s s') :
    RunRel np A' B' c c' := by
  intro s s' hs t e
  obtain ⟨t', e', ht⟩ := h s s' (fun p hp => ha p hp _ _ (hs p hp)) t e
  exact ⟨t', e', fun p hp => hb p hp _ _ (ht p hp)⟩

theorem gsAux_buf (hK : KBuf RU R K K') {g : T} (hg : ∀ y, R g y) {np : Nat} (h : Nat → GsData) (t : Bool) {ex : Coll (GsSt U T) (List T)} {ex' : Coll (GsSt U' T') (List T')} (hok : ex.Ok np) (hok' : ex'.Ok np)
    (hex : RunRel np (fun p => BRel RU R (K.vn * (h p).r.bufferSize)) (fun _ s s' => RU s.u s'.u) ex ex') :
    RunRel np (fun _ s s' => RU s.u s'.u ∧ s.buf = [] ∧ ∀ i, s.fill i = g) (fun _ s s' => RU s.u s'.u) (gsAux K h t ex) (gsAux K' h t ex') := by
  unfold gsAux
  refine RunRel.seq (Coll.seq_ok (Coll.loc_ok _ _ _) hok) (Coll.seq_ok (Coll.loc_ok _ _ _) hok') (RunRel.seq (Coll.loc_ok _ _ _) (Coll.loc_ok _ _ _) (RunRel.loc ?_) hex) (RunRel.loc ?_)
  · intro p _ s s' r hs e
    exact gsPre_buf hK hg (h p) t hs.1 hs.2.1 hs.2.2 e
  · intro p _ s s' r hs e
    unfold gsPost at e ⊢
    refine outRel (RS := fun (a : GsSt U T) (b : GsSt U' T') => RU a.u b.u) ?_ r e
    exact (hK.scatter _ _ _ hs).bind fun u u' hu => ORel.some hu

/-- gs as one collective operation -/
theorem gsOp_coll {np : Nat} {K : Kernels U T} {D : Dom T} {op : Op} {t : Bool} {h : Nat → GsData} {ex : Coll (GsSt U T) (List T)} (hok : ex.Ok np)
    (hp : ∀ q, q < np → (remoteExec K D op np t (h q)).T = ex.T ∧ (remoteExec K D op np t (h q)).prog q = ex.prog q) :
    Matched (gsOp K D op np t h) np (gsAux K h t ex).T ∧ ∀ s, lockRun (gsOp K D op np t h) np (gsAux K h t ex).T s = (gsAux K h t ex).run np s := by
  let c := gsAux K h t ex
  have hc : c.Ok np := Coll.seq_ok (Coll.seq_ok (Coll.loc_ok _ _ _) hok) (Coll.loc_ok _ _ _)
  let c' : Coll (GsSt U T) (List T) := ⟨c.T, gsOp K D op np t h⟩
  have hpr : ∀ p, p < np → c'.prog p = c.prog p := fun p hp' => gsAux_prog_congr t rfl (hp p hp').1 (hp p hp').2
  exact ⟨Coll.ok_congr (a := c') (b := c) rfl hpr hc, fun s => Coll.run_congr (a := c') (b := c) rfl hpr s⟩

/-- the result of gs on values that may be unknown, with nothing known about the buffers, is the result of gs with any buffers -/
theorem gs_indep {T : Type} {RU : U → U' → Prop} {D : Dom T} {op : Op} {K : Kernels U (Option T)} {K' : Kernels U' T} (hK : KBuf RU OptRel K K') (hL : KLen K) {np : Nat} {ids : Nat → List Int} {h : Nat → GsData}
    (hh : Handles np ids h) (t : Bool) {T' : Nat} (hM : Matched (gsOp K (optDom D) op np t h) np T') {u : Nat → U} {s' : Nat → GsSt U (Option T)}
    (hr : lockRun (gsOp K (optDom D) op np t h) np T' (fun q => emptySt (u q)) = .ok s') (r : Nat → U') (hu : ∀ q, q < np → ∀ x, RU (s' q).u x → x = r q) (s : Nat → GsSt U' T) (hs : ∀ q, q < np → RU (u q) (s q).u)
    {T2 : Nat} {s2 : Nat → GsSt U' T} (hM2 : Matched (gsOp K' D op np t h) np T2) (hr2 : lockRun (gsOp K' D op np t h) np T2 s = .ok s2) : ∀ q, q < np → (s2 q).u = r q := by
  have key : ∀ {ex : Coll (GsSt U (Option T)) (List (Option T))} {ex' : Coll (GsSt U' T) (List T)}, ex.Ok np → ex'.Ok np →
      (∀ q, q < np → (remoteExec K (optDom D) op np t (h q)).T = ex.T ∧ (remoteExec K (optDom D) op np t (h q)).prog q = ex.prog q) →
      (∀ q, q < np → (remoteExec K' D op np t (h q)).T = ex'.T ∧ (remoteExec K' D op np t (h q)).prog q = ex'.prog q) →
      RunRel np (fun p => BRel RU OptRel (K.vn * (h p).r.bufferSize)) (fun _ s s' => RU s.u s'.u) ex ex' → ∀ q, q < np → (s2 q).u = r q := by
    intro ex ex' hok hok' hp hp' hex
    obtain ⟨m1, e1⟩ := gsOp_coll hok hp
    obtain ⟨m2, e2⟩ := gsOp_coll hok' hp'
    rw [lockRun_unique hM m1, e1] at hr
    rw [lockRun_unique hM2 m2, e2] at hr2
    obtain ⟨t', f, ht⟩ := gsAux_buf hK (g := none) (fun y x hx => nomatch hx) h t hok hok' hex (fun q => emptySt (u q)) s (fun q hq => ⟨hs q hq, rfl, fun _ => rfl⟩) s' hr
    rw [f] at hr2
    obtain rfl := Outcome.ok.inj hr2
    exact fun q hq => hu q hq _ (ht q hq)
  cases hh.ok.remote with
  | pairwise hp => exact (pw_indep hK hp t hM hr r hu s hs).2 T2 s2 hM2 hr2
  | crystal d hd hr =>
    have hr : ∀ q, q < np → (h q).r = .crystal (d q) := hr
    refine key (crExec_ok K hd t) (crExec_ok K' hd t) ?_ ?_ (RunRel.mono (crExec_buf hK hL (crOk_fits hd t) (crExec_ok K hd t)) ?_ fun _ _ _ _ h => h.u)
    · intro q hq
      unfold remoteExec
      rw [hr q hq]
      exact ⟨rfl, rfl⟩
    · intro q hq
      unfold remoteExec
      rw [hr q hq]
      exact ⟨rfl, rfl⟩
    · intro p hp s s' hb
      rw [hr p hp] at hb
      exact hb
  | allreduce st ord total ho htot hst hr =>
    have hr : ∀ q, q < np → (h q).r = .allreduce (allreduceSetup (st q).pr (st q).total) := hr
    have ht : ∀ q, q < np → (allreduceSetup (st q).pr (st q).total).total = total := fun q hq => (hst q hq).total_eq
    refine key (arExec_ok K (optDom D) op np total (fun q => allreduceSetup (st q).pr (st q).total) t) (arExec_ok K' D op np total (fun q => allreduceSetup (st q).pr (st q).total) t) ?_ ?_
      (RunRel.mono (arExec_buf (optDom_rel D op) hK.toKRel np total _ t) (fun _ _ _ _ h => h.u) fun _ _ _ _ h => h)
    · intro q hq
      unfold remoteExec
      rw [hr q hq]
      simp only [ht q hq]
      exact ⟨rfl, rfl⟩
    · intro q hq
      unfold remoteExec
      rw [hr q hq]
      simp only [ht q hq]
      exact ⟨rfl, rfl⟩

/-! ### the result of each kind of call, for every method -/

variable {np : Nat} {ids : Nat → List Int}

theorem anyPlain (D : Dom T) (op : Op) {h : Nat → GsData} (hh : Handles np ids h) (t : Bool) (v : Nat → List T) (hl : ∀ q, q < np → (v q).length = (ids q).length) :
    ∃ r : Nat → List T, (∀ q, q < np → GsCombines (D.doOp op) (D.identity op) t np ids v q (r q)) ∧
      ∀ s : Nat → GsSt (List T) T, (∀ q, q < np → (s q).u = v q) →
        AllSchedules (gsOp (plainKernels D op) D op np t h) np s fun s2 => ∀ q, q < np → (s2 q).u = r q := by
  obtain ⟨T', s', hM, hr, hu⟩ := gsAny_lock (optDom D) op hh t (fun q => (v q).map some) (fun q hq => by rw [List.length_map, hl q hq]) (fun q => emptySt ((v q).map some)) fun _ _ => rfl
  have hex : ∀ q, ∃ r, q < np → (s' q).u = r.map some ∧ GsCombines (D.doOp op) (D.identity op) t np ids v q r := by
    intro q
    by_cases hq : q < np
    · obtain ⟨r, h⟩ := gsCombines_opt (hu q hq)
      exact ⟨r, fun _ => h⟩
    · exact ⟨[], fun h => absurd h hq⟩
  choose r hr' using hex
  refine ⟨r, fun q hq => (hr' q hq).2, ?_⟩
  intro s hs
  have h2 := fun {T2} {s2} => gs_indep (D := D) (T2 := T2) (s2 := s2) (plain_buf (optDom_rel D op)) (plain_len (optDom D) op) hh t hM hr r (fun q hq x hx => by rw [(hr' q hq).1] at hx; exact optRel_eq hx) s (fun q hq => by rw [hs q hq]; exact optRel_some _)
  obtain ⟨T2, s2, hM2, hr2, -⟩ := gsAny_lock D op hh t v hl s hs
  exact allSchedules_of_lockRun hM2 hr2 _ fun z hz q hq => by rw [hz q hq]; exact h2 hM2 hr2 q hq

theorem anyVec (D : Dom T) (op : Op) {h : Nat → GsData} (hh : Handles np ids h) (t : Bool) {vn : Nat} (hvn : 1 ≤ vn) (v : Nat → List T)
    (hl : ∀ q, q < np → (v q).length = (ids q).length * vn) :
    ∃ r : Nat → List T, (∀ q, q < np → (r q).length = (v q).length ∧ ∀ k, k < vn → GsCombines (D.doOp op) (D.identity op) t np ids (fun p => column vn k (v p)) q (column vn k (r q))) ∧
      ∀ s : Nat → GsSt (List T) T, (∀ q, q < np → (s q).u = v q) →
        AllSchedules (gsOp (vecKernels D op vn) D op np t h) np s fun s2 => ∀ q, q < np → (s2 q).u = r q := by
  obtain ⟨T', s', hM, hr, hu⟩ := gsAnyVec_lock (optDom D) op hh t (vn := vn) (fun q => (v q).map some) (fun q hq => by rw [List.length_map, hl q hq]) (fun q => emptySt ((v q).map some)) fun _ _ => rfl
  have hex : ∀ q, ∃ r : List T, q < np → (s' q).u = r.map some ∧ (r.length = (v q).length ∧ ∀ k, k < vn → GsCombines (D.doOp op) (D.identity op) t np ids (fun p => column vn k (v p)) q (column vn k r)) := by
    intro q
    by_cases hq : q < np
    · obtain ⟨h1, h2⟩ := hu q hq
      rw [List.length_map] at h1
      have h3 : ∀ k, k < vn → ∃ r, column vn k (s' q).u = r.map some ∧ GsCombines (D.doOp op) (D.identity op) t np ids (fun p => column vn k (v p)) q r := by
        intro k hk
        have := h2 k hk
        simp only [column_map] at this
        exact gsCombines_opt this
      have hl' : (s' q).u.length = (ids q).length * vn := by rw [h1, hl q hq]
      have hall : ∀ x ∈ (s' q).u, ∃ y, x = some y := by
        intro x hx
        obtain ⟨i, hi, hix⟩ := List.getElem_of_mem hx
        have hk : i % vn < vn := Nat.mod_lt _ (by omega)
        obtain ⟨r, hr, -⟩ := h3 (i % vn) hk
        have hd : i / vn < (ids q).length := by
          rw [Nat.div_lt_iff_lt_mul (by omega)]; omega
        have := column_get hk hl' hd
        rw [hr, Nat.div_add_mod' i vn, List.getElem?_eq_getElem hi, hix, List.getElem?_map] at this
        obtain ⟨y, -, hy⟩ := Option.map_eq_some_iff.1 this
        exact ⟨y, hy.symm⟩
      have hmap : (s' q).u = ((s' q).u.filterMap id).map some := by
        generalize (s' q).u = l at hall
        induction l with
        | nil => rfl
        | cons x l ih =>
          obtain ⟨y, rfl⟩ := hall x (by simp)
          show some y :: l = some y :: (l.filterMap id).map some
          rw [← ih fun z hz => hall z (by simp [hz])]
      refine ⟨(s' q).u.filterMap id, fun _ => ⟨hmap, ?_, fun k hk => ?_⟩⟩
      · have := congrArg List.length hmap
        rw [List.length_map] at this
        omega
      · obtain ⟨r, hr, hc⟩ := h3 k hk
        rw [hmap, column_map] at hr
        rw [List.map_injective_iff.2 (Option.some_injective T) hr]
        exact hc
    · exact ⟨[], fun h => absurd h hq⟩
  choose r hr' using hex
  refine ⟨r, fun q hq => (hr' q hq).2, ?_⟩
  intro s hs
  have h2 := fun {T2} {s2} => gs_indep (D := D) (T2 := T2) (s2 := s2) (vec_buf (optDom_rel D op) vn) (vec_len (optDom D) op vn) hh t hM hr r (fun q hq x hx => by rw [(hr' q hq).1] at hx; exact optRel_eq hx) s (fun q hq => by rw [hs q hq]; exact optRel_some _)
  obtain ⟨T2, s2, hM2, hr2, -⟩ := gsAnyVec_lock D op hh t v hl s hs
  exact allSchedules_of_lockRun hM2 hr2 _ fun z hz q hq => by rw [hz q hq]; exact h2 hM2 hr2 q hq

theorem anyMany (D : Dom T) (op : Op) {h : Nat → GsData} (hh : Handles np ids h) (t : Bool) {vn : Nat} (v : Nat → Nat → List T)
    (hl : ∀ q, q < np → ∀ k, k < vn → (v q k).length = (ids q).length) :
    ∃ r : Nat → List (List T), (∀ q, q < np → List.Forall₂ (fun k u => GsCombines (D.doOp op) (D.identity op) t np ids (fun p => v p k) q u) (List.range vn) (r q)) ∧
      ∀ s : Nat → GsSt (List (List T)) T, (∀ q, q < np → (s q).u = (List.range vn).map (v q)) →
        AllSchedules (gsOp (manyKernels D op vn) D op np t h) np s fun s2 => ∀ q, q < np → (s2 q).u = r q := by
  obtain ⟨T', s', hM, hr, hu⟩ := gsAnyMany_lock (optDom D) op hh t (vn := vn) (fun q k => (v q k).map some) (fun q hq k hk => by rw [List.length_map, hl q hq k hk])
    (fun q => emptySt ((List.range vn).map fun k => (v q k).map some)) fun _ _ => rfl
  have hex : ∀ q, ∃ r, q < np → (s' q).u = r.map (List.map some) ∧ List.Forall₂ (fun k u => GsCombines (D.doOp op) (D.identity op) t np ids (fun p => v p k) q u) (List.range vn) r := by
    intro q
    by_cases hq : q < np
    · have := hu q hq
      generalize List.range vn = l at this
      generalize (s' q).u = o at this
      have key : ∃ r, o = r.map (List.map some) ∧ List.Forall₂ (fun k u => GsCombines (D.doOp op) (D.identity op) t np ids (fun p => v p k) q u) l r := by
        induction this with
        | nil => exact ⟨[], rfl, .nil⟩
        | cons hd _ ih =>
          obtain ⟨r, rfl, hr⟩ := ih
          obtain ⟨x, rfl, hx⟩ := gsCombines_opt hd
          exact ⟨x :: r, rfl, .cons hx hr⟩
      obtain ⟨r, h⟩ := key
      exact ⟨r, fun _ => h⟩
    · exact ⟨[], fun h => absurd h hq⟩
  choose r hr' using hex
  refine ⟨r, fun q hq => (hr' q hq).2, ?_⟩
  intro s hs
  have h2 := fun {T2} {s2} => gs_indep (D := D) (T2 := T2) (s2 := s2) (many_buf (optDom_rel D op) vn) (many_len (optDom D) op vn) hh t hM hr r (fun q hq x hx => by rw [(hr' q hq).1] at hx; exact optRel_eqs hx) s (fun q hq => by
    rw [hs q hq]
    exact List.forall₂_map_left_iff.2 (List.forall₂_map_right_iff.2 (List.forall₂_same.2 fun k _ => optRel_some _)))
  obtain ⟨T2, s2, hM2, hr2, -⟩ := gsAnyMany_lock D op hh t v hl s hs
  exact allSchedules_of_lockRun hM2 hr2 _ fun z hz q hq => by rw [hz q hq]; exact h2 hM2 hr2 q hq

/-- one operation, every method -/
theorem any_op (D : Dom T) {h : Nat → GsData} (hh : Handles np ids h) (a : GsArgs) (hnp : 0 < np) {v : Nat → UserData T} (hv : ∀ q, q < np → Fits (ids q) a.mode (v q)) :
    ∃ r : Nat → UserData T, GsReturns D np h a v r ∧ (∀ q, q < np → GsMayReturn D np ids a v q (r q) ∧ SameShape (v q) (r q)) := by
  rcases a with ⟨mode, op, t⟩
  cases mode with
  | plain =>
    have hx : ∀ q, q < np → v q = .one (arrayOf (v q)) ∧ (arrayOf (v q)).length = (ids q).length := by
      intro q hq
      have := hv q hq
      unfold Fits at this
      cases hvq : v q with
      | one x => rw [hvq] at this; exact ⟨rfl, this.1⟩
      | many xs => rw [hvq] at this; exact absurd this id
    obtain ⟨r, h1, h2⟩ := anyPlain D op hh t (fun q => arrayOf (v q)) fun q hq => (hx q hq).2
    refine ⟨fun q => .one (r q), ?_, fun q hq => ⟨h1 q hq, ?_⟩⟩
    · intro s2 hs2
      have h3 := h2 s2 fun q hq => by rw [hs2 q hq]; rfl
      exact ⟨h3.noInfinite, h3.noDeadlock, fun c hc hf => ⟨fun q hq => by rw [(h3.result c hc hf).1 q hq], (h3.result c hc hf).2⟩⟩
    · rw [(hx q hq).1]
      show (r q).length = _
      rw [gsCombines_length (h1 q hq) (hx q hq).2, (hx q hq).2]
  | vec vn =>
    have hx : ∀ q, q < np → v q = .one (arrayOf (v q)) ∧ 1 ≤ vn ∧ (arrayOf (v q)).length = (ids q).length * vn := by
      intro q hq
      have := hv q hq
      unfold Fits at this
      cases hvq : v q with
      | one x => rw [hvq] at this; exact ⟨rfl, this.1, this.2.1⟩
      | many xs => rw [hvq] at this; exact absurd this id
    obtain ⟨r, h1, h2⟩ := anyVec D op hh t (hx 0 hnp).2.1 (fun q => arrayOf (v q)) fun q hq => (hx q hq).2.2
    refine ⟨fun q => .one (r q), ?_, fun q hq => ⟨⟨(h1 q hq).1.trans (hx q hq).2.2, (h1 q hq).2⟩, ?_⟩⟩
    · intro s2 hs2
      have h3 := h2 s2 fun q hq => by rw [hs2 q hq]; rfl
      exact ⟨h3.noInfinite, h3.noDeadlock, fun c hc hf => ⟨fun q hq => by rw [(h3.result c hc hf).1 q hq], (h3.result c hc hf).2⟩⟩
    · rw [(hx q hq).1]
      exact (h1 q hq).1
  | many vn =>
    have hx : ∀ q, q < np → v q = .many ((List.range vn).map fun k => arrayNo k (v q)) ∧ ∀ k, k < vn → (arrayNo k (v q)).length = (ids q).length := by
      intro q hq
      have := hv q hq
      unfold Fits at this
      cases hvq : v q with
      | one x => rw [hvq] at this; exact absurd this id
      | many xs =>
        rw [hvq] at this
        obtain ⟨-, hl, ha⟩ := this
        constructor
        · congr 1
          apply List.ext_getElem
          · simp [hl]
          · intro k h1 h2
            simp [arrayNo, h1]
        · intro k hk
          show (xs.getD k []).length = _
          rw [List.getD_eq_getElem _ _ (by omega)]
          exact (ha _ (List.getElem_mem _)).1
    obtain ⟨r, h1, h2⟩ := anyMany D op hh t (vn := vn) (fun q k => arrayNo k (v q)) fun q hq => (hx q hq).2
    refine ⟨fun q => .many (r q), ?_, fun q hq => ⟨h1 q hq, ?_⟩⟩
    · intro s2 hs2
      have h3 := (h2 s2 fun q hq => by
        have e := (hx q hq).1
        rw [hs2 q hq] at e
        have e := UserData.many.inj e
        rw [e, hs2 q hq])
      exact ⟨h3.noInfinite, h3.noDeadlock, fun c hc hf => ⟨fun q hq => by rw [(h3.result c hc hf).1 q hq], (h3.result c hc hf).2⟩⟩
    · rw [(hx q hq).1]
      show (r q).map List.length = ((List.range vn).map fun k => arrayNo k (v q)).map List.length
      rw [List.map_map]
      have h3 := h1 q hq
      have h5 := (hx q hq).2
      have h4 : ∀ k ∈ List.range vn, (arrayNo k (v q)).length = (ids q).length := fun k hk => h5 k (List.mem_range.1 hk)
      generalize List.range vn = l at h3 h4
      generalize r q = o at h3
      induction h3 with
      | nil => rfl
      | @cons x y xs ys hd _ ih =>
        rw [List.map_cons, List.map_cons, ih fun k hk => h4 k (by simp [hk])]
        congr 1
        show y.length = (arrayNo x (v q)).length
        rw [h4 x (by simp)]
        exact gsCombines_length hd (h4 x (by simp))

end Gslib.Gs
