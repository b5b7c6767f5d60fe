import Verif.Model.FindptsLocal
import Verif.Spec.Findpts
import Verif.Lemmas.LexSort

/-! # The local point search: lemmas -/

namespace Gslib.Fp
open Gslib Gslib.Hash Gslib.Num Gslib.Spec

variable {D : Nat} {K : Type} [Field K] [LinearOrder K] [FloorRing K]

/-- one entry of the map processed for one output record -/
def updC (val : Nat → K) (env : LEnv D K) (find : Nat → Pt D → FRes D) (x : Pt D) (o : LRes D) (el : Nat) : LRes D :=
  if o.code = codeInternal then o else updL val env el (find el x) o

/-- one entry of the map processed -/
def applyE (val : Nat → K) (env : LEnv D K) (find : Nat → Pt D → FRes D) (xs : List (Pt D × Nat)) (outs : List (LRes D)) (q : IndexEl) : List (LRes D) :=
  match outs[q.index]?, xs[q.index]? with
  | some o, some x => outs.set q.index (updC val env find x.1 o q.el)
  | _, _ => outs

theorem applyE_length (val : Nat → K) (env : LEnv D K) (find : Nat → Pt D → FRes D) (xs : List (Pt D × Nat)) (outs : List (LRes D)) (q : IndexEl) :
    (applyE val env find xs outs q).length = outs.length := by
  unfold applyE; split <;> simp

theorem set_same {A : Type} (l : List A) (i : Nat) (a : A) (h : l[i]? = some a) : l.set i a = l := by
  apply List.ext_getElem?
  intro j
  rw [List.getElem?_set]
  split
  · rename_i hij; subst hij
    rw [h]; simp [(List.getElem?_eq_some_iff.1 h).1]
  · rfl

/-- both scans of a batch -/
theorem scan_run (val : Nat → K) (env : LEnv D K) (find : Nat → Pt D → FRes D) (xs : List (Pt D × Nat)) (el : Nat) (outs : List (LRes D)) (hlen : outs.length = xs.length) :
    ∀ (rest : List IndexEl) (acc : List (Pt D)) (outs' : List (LRes D)), outs'.length = outs.length → (∀ q ∈ rest, q.index < xs.length) → rest.Nodup →
      (∀ q ∈ rest, q.el = el → outs'[q.index]? = outs[q.index]?) →
      ∃ pts pre post, scan1 env.nptMax el xs outs rest acc = some (acc ++ pts) ∧ (acc.length ≤ env.nptMax → (acc ++ pts).length ≤ env.nptMax) ∧ rest = pre ++ post ∧ (∀ q ∈ pre, q.el = el) ∧
        scan2 val env el ((acc ++ pts).map (find el)) rest acc.length outs' = some (pre.foldl (applyE val env find xs) outs', post) ∧
        (acc.length < env.nptMax → (rest.head?.map IndexEl.el) = some el → pre ≠ [])
  | [], acc, outs', _, _, _, _ => ⟨[], [], [], by simp [scan1], by simp, rfl, by simp, by simp [scan2], by simp⟩
  | q :: qs, acc, outs', hl, hi, hnd, hag => by
    rw [List.nodup_cons] at hnd
    by_cases hc : acc.length < env.nptMax ∧ q.el = el
    · have hq : q.index < outs.length := by rw [hlen]; exact hi q (by simp)
      have ho := List.getElem?_eq_getElem hq
      have hx := List.getElem?_eq_getElem (hi q (by simp))
      have ho' : outs'[q.index]? = some outs[q.index] := by rw [hag q (by simp) hc.2, ho]
      have hs1 : scan1 env.nptMax el xs outs (q :: qs) acc = if outs[q.index].code = codeInternal then scan1 env.nptMax el xs outs qs acc else scan1 env.nptMax el xs outs qs (acc ++ [(xs[q.index]'(hi q (by simp))).1]) := by
        rw [scan1, if_pos hc, ho, Option.bind_some, hx, Option.bind_some]
      have hs2 : ∀ res, scan2 val env el res (q :: qs) acc.length outs' = if outs[q.index].code = codeInternal then scan2 val env el res qs acc.length outs' else
          (res[acc.length]?).bind fun f => scan2 val env el res qs (acc.length + 1) (outs'.set q.index (updL val env el f outs[q.index])) := by
        intro res
        rw [scan2, if_pos hc, ho', Option.bind_some]
      simp only [hs1, hs2]
      have happ : applyE val env find xs outs' q = outs'.set q.index (updC val env find (xs[q.index]'(hi q (by simp))).1 outs[q.index] q.el) := by
        unfold applyE; rw [ho', hx]
      by_cases h0 : outs[q.index].code = codeInternal
      · simp only [if_pos h0]
        obtain ⟨pts, pre, post, e1, e0, e2, e3, e4, e5⟩ := scan_run val env find xs el outs hlen qs acc outs' hl (fun q' h => hi q' (by simp [h])) hnd.2 (fun q' h => hag q' (by simp [h]))
        refine ⟨pts, q :: pre, post, e1, e0, by rw [e2]; rfl, ?_, ?_, by simp⟩
        · intro q' h'
          rcases List.mem_cons.1 h' with rfl | h'
          · exact hc.2
          · exact e3 _ h'
        · rw [e4, List.foldl_cons, happ, updC, if_pos h0, set_same _ _ _ ho']
      · simp only [if_neg h0]
        have hne : ∀ q' ∈ qs, q'.el = el → q'.index ≠ q.index := by
          intro q' h' he hidx
          apply hnd.1
          have : q = q' := by
            cases q; cases q'
            simp only [IndexEl.mk.injEq] at *
            exact ⟨hidx.symm, hc.2.trans he.symm⟩
          rw [this]; exact h'
        obtain ⟨pts, pre, post, e1, e0, e2, e3, e4, e5⟩ := scan_run val env find xs el outs hlen qs (acc ++ [(xs[q.index]'(hi q (by simp))).1])
          (outs'.set q.index (updL val env el (find el (xs[q.index]'(hi q (by simp))).1) outs[q.index])) (by rw [List.length_set, hl]) (fun q' h => hi q' (by simp [h])) hnd.2 (by
            intro q' h' he
            rw [List.getElem?_set_ne (hne q' h' he).symm, hag q' (by simp [h']) he])
        rw [List.append_assoc, List.singleton_append] at e1 e0 e4
        refine ⟨_ :: pts, q :: pre, post, e1, fun _ => e0 (by rw [List.length_append, List.length_singleton]; omega), by rw [e2]; rfl, ?_, ?_, by simp⟩
        · intro q' h'
          rcases List.mem_cons.1 h' with rfl | h'
          · exact hc.2
          · exact e3 _ h'
        · have : ((acc ++ (xs[q.index]'(hi q (by simp))).1 :: pts).map (find el))[acc.length]? = some (find el (xs[q.index]'(hi q (by simp))).1) := by
            simp
          rw [this, Option.bind_some, List.foldl_cons, happ, updC, if_neg h0, hc.2]
          rw [List.length_append, List.length_singleton] at e4
          exact e4
    · refine ⟨[], [], q :: qs, by rw [scan1, if_neg hc, List.append_nil], by simp, rfl, by simp, by rw [scan2, if_neg hc]; rfl, ?_⟩
      intro h1 h2
      simp only [List.head?_cons, Option.map_some, Option.some.injEq] at h2
      exact absurd ⟨h1, h2⟩ hc

/-- `findpts_el` treats each point on its own -/
def Pointwise (env : LEnv D K) (find : Nat → Pt D → FRes D) : Prop := ∀ el pts, pts.length ≤ env.nptMax → env.findEl el pts = pts.map (find el)

theorem foldl_applyE_length (val : Nat → K) (env : LEnv D K) (find : Nat → Pt D → FRes D) (xs : List (Pt D × Nat)) (l : List IndexEl) (outs : List (LRes D)) :
    (l.foldl (applyE val env find xs) outs).length = outs.length := by
  induction l generalizing outs with
  | nil => rfl
  | cons q l ih => rw [List.foldl_cons, ih, applyE_length]

theorem elLoop_run (val : Nat → K) (env : LEnv D K) (find : Nat → Pt D → FRes D) (hp : Pointwise env find) (hm : 0 < env.nptMax) (xs : List (Pt D × Nat)) (el : Nat) :
    ∀ (n : Nat) (rest : List IndexEl) (outs : List (LRes D)), rest.length < n → outs.length = xs.length → (∀ q ∈ rest, q.index < xs.length) → rest.Nodup →
      ∃ pre post, elLoop val env xs el n rest outs = some (pre.foldl (applyE val env find xs) outs, post) ∧ rest = pre ++ post ∧ ((rest.head?.map IndexEl.el) = some el → pre ≠ [])
  | 0, rest, outs, hn, _, _, _ => by omega
  | n + 1, rest, outs, hn, hl, hi, hnd => by
    obtain ⟨pts, pre, post, e1, e0, e2, _, e4, e5⟩ := scan_run val env find xs el outs hl rest [] outs rfl hi hnd (fun _ _ _ => rfl)
    rw [List.nil_append] at e1 e0 e4
    have hpts := hp el pts (e0 (Nat.zero_le _))
    rw [elLoop, e1, Option.bind_some, hpts]
    rw [List.length_nil] at e4 e5
    rw [e4, Option.bind_some]
    by_cases hh : (post.head?.map IndexEl.el) = some el
    · rw [if_pos hh]
      have hne : pre ≠ [] := by
        intro h0
        rw [h0, List.nil_append] at e2
        exact e5 hm (by rw [e2]; exact hh) h0
      have hlt : post.length < rest.length := by
        rw [e2, List.length_append]
        have := List.length_pos_iff.2 hne
        omega
      obtain ⟨pre', post', f1, f2, _⟩ := elLoop_run val env find hp hm xs el n post (pre.foldl (applyE val env find xs) outs) (by omega) (by rw [foldl_applyE_length, hl])
        (fun q hq => hi q (by rw [e2]; simp [hq])) (by rw [e2] at hnd; exact (List.nodup_append.1 hnd).2.1)
      exact ⟨pre ++ pre', post', by rw [List.foldl_append]; exact f1, by rw [e2, f2, List.append_assoc], fun _ => by simp [hne]⟩
    · rw [if_neg hh]
      exact ⟨pre, post, rfl, e2, e5 hm⟩

theorem elsLoop_run (val : Nat → K) (env : LEnv D K) (find : Nat → Pt D → FRes D) (hp : Pointwise env find) (hm : 0 < env.nptMax) (xs : List (Pt D × Nat)) :
    ∀ (n : Nat) (rest : List IndexEl) (outs : List (LRes D)), rest.length < n → outs.length = xs.length → (∀ q ∈ rest, q.index < xs.length) → rest.Nodup →
      elsLoop val env xs n rest outs = some (rest.foldl (applyE val env find xs) outs)
  | 0, rest, outs, hn, _, _, _ => by omega
  | n + 1, [], outs, _, _, _, _ => by rw [elsLoop]; rfl
  | n + 1, p :: ps, outs, hn, hl, hi, hnd => by
    obtain ⟨pre, post, f1, f2, f3⟩ := elLoop_run val env find hp hm xs p.el (ps.length + 2) (p :: ps) outs (by simp) hl hi hnd
    have hne := f3 rfl
    have hlt : post.length < (p :: ps).length := by
      rw [f2, List.length_append]
      have := List.length_pos_iff.2 hne
      omega
    rw [elsLoop, f1, Option.bind_some]
    rw [f2] at hi hnd ⊢
    rw [List.foldl_append]
    exact elsLoop_run val env find hp hm xs n post _ (by omega) (by rw [foldl_applyE_length, hl]) (fun q hq => hi q (by simp [hq])) (List.nodup_append.1 hnd).2.1

/-- the entries of one point, in order, determine its output -/
theorem foldl_applyE_at (val : Nat → K) (env : LEnv D K) (find : Nat → Pt D → FRes D) (xs : List (Pt D × Nat)) (i : Nat) (x : Pt D × Nat) (hx : xs[i]? = some x) (l : List IndexEl) :
    ∀ (outs : List (LRes D)) (o : LRes D), outs[i]? = some o →
      (l.foldl (applyE val env find xs) outs)[i]? = some (((l.filter fun q => q.index = i).map IndexEl.el).foldl (updC val env find x.1) o) := by
  induction l with
  | nil => intro outs o ho; exact ho
  | cons q l ih =>
    intro outs o ho
    rw [List.foldl_cons, List.filter_cons]
    by_cases hq : q.index = i
    · rw [if_pos (by simpa using hq), List.map_cons, List.foldl_cons]
      apply ih
      unfold applyE
      rw [hq, ho, hx]
      simp only
      rw [List.getElem?_set_self (List.getElem?_eq_some_iff.1 ho).1]
    · rw [if_neg (by simpa using hq)]
      apply ih
      unfold applyE
      split
      · rw [List.getElem?_set_ne hq, ho]
      · exact ho

/-- the candidates of a process for a point: the elements listed in its cell whose box contains it, unless its session is excluded -/
def cands (env : LEnv D K) (sessm : Nat) (lst : Pt D → List Nat) (x : Pt D × Nat) : List Nat :=
  (lst x.1).filter fun el => !skipSession env sessm x.2 && env.test el x.1

/-- the cells can be read, and list elements in increasing order -/
structure ListsOk (val : Nat → K) (env : LEnv D K) (lst : Pt D → List Nat) : Prop where
  read : ∀ x, readBucket env.size env.off (hashIndex env.hn env.bnd (coords val x)) = some (lst x)
  sorted : ∀ x, (lst x).Pairwise (· < ·)
  small : ∀ x, ∀ el ∈ lst x, el < 4294967295

/-- the map before sorting -/
def mapRows (env : LEnv D K) (sessm : Nat) (lst : Pt D → List Nat) (xs : List (Pt D × Nat)) : List IndexEl :=
  xs.zipIdx.flatMap fun p => (cands env sessm lst p.1).map fun el => ⟨p.2, el⟩

theorem mem_mapRows {env : LEnv D K} {sessm : Nat} {lst : Pt D → List Nat} {xs : List (Pt D × Nat)} {q : IndexEl} :
    q ∈ mapRows env sessm lst xs ↔ ∃ x, xs[q.index]? = some x ∧ q.el ∈ cands env sessm lst x := by
  unfold mapRows
  simp only [List.mem_flatMap, List.mem_map, Prod.exists, List.mem_zipIdx_iff_getElem?]
  constructor
  · rintro ⟨x, s, i, h, el, hel, rfl⟩; exact ⟨x, s, h, hel⟩
  · rintro ⟨x, s, h, hel⟩; exact ⟨x, s, q.index, h, q.el, hel, rfl⟩

theorem mapRows_nodup {val : Nat → K} {env : LEnv D K} {sessm : Nat} {lst : Pt D → List Nat} (h : ListsOk val env lst) (xs : List (Pt D × Nat)) : (mapRows env sessm lst xs).Nodup := by
  unfold mapRows
  rw [List.nodup_flatMap]
  refine ⟨fun p _ => ?_, ?_⟩
  · refine List.Nodup.map (fun a b hab => by simpa using hab) ?_
    exact (((h.sorted p.1.1).imp fun h => Nat.ne_of_lt h).filter _)
  · have : (xs.zipIdx).Pairwise fun a b => a.2 ≠ b.2 := by
      have h2 : ((xs.zipIdx).map Prod.snd).Pairwise (· ≠ ·) := by
        rw [List.zipIdx_map_snd]; exact (List.pairwise_lt_range' (s := 0)).imp fun h => Nat.ne_of_lt h
      exact List.pairwise_map.1 h2
    refine this.imp ?_
    intro a b hab q hq hq'
    obtain ⟨_, _, rfl⟩ := List.mem_map.1 hq
    obtain ⟨_, _, h'⟩ := List.mem_map.1 hq'
    simp only [IndexEl.mk.injEq] at h'
    exact hab h'.1.symm

theorem mapPoints_run {val : Nat → K} {env : LEnv D K} {lst : Pt D → List Nat} (h : ListsOk val env lst) (sessm : Nat) (xs : List (Pt D × Nat)) :
    (xs.zipIdx.mapM fun p => mapPoint val env sessm p.2 p.1.1 p.1.2).map List.flatten = some (mapRows env sessm lst xs) := by
  have : ∀ l : List ((Pt D × Nat) × Nat), l.mapM (fun p => mapPoint val env sessm p.2 p.1.1 p.1.2) = some (l.map fun p => (cands env sessm lst p.1).map fun el => ⟨p.2, el⟩) := by
    intro l
    induction l with
    | nil => rfl
    | cons p l ih =>
      rw [List.mapM_cons, ih]
      unfold mapPoint
      rw [h.read]
      rfl
  rw [this]
  rfl

theorem mapPointsToEls_run {val : Nat → K} {env : LEnv D K} {lst : Pt D → List Nat} (h : ListsOk val env lst) (sessm : Nat) (xs : List (Pt D × Nat)) (s : Sarray.ScratchF Nat) :
    ∃ map, mapPointsToEls val env sessm xs s = .ok map ∧ map.Nodup ∧ (∀ q ∈ map, q.index < xs.length) ∧
      ∀ (i : Nat) x, xs[i]? = some x → (map.filter fun q => q.index = i).map IndexEl.el = cands env sessm lst x := by
  obtain ⟨out, e, ho⟩ := Props.sarray_sort_lexicographic (κ := Nat) [.int 4 IndexEl.el] (mapRows env sessm lst xs) s (by
    intro f hf
    rw [List.mem_singleton] at hf
    subst hf
    intro q hq
    obtain ⟨x, _, hel⟩ := mem_mapRows.1 hq
    have := h.small x.1 q.el (List.mem_of_mem_filter hel)
    norm_num; omega)
  have hnd : out.Nodup := (ho.perm.nodup_iff).2 (mapRows_nodup h xs)
  refine ⟨out, ?_, hnd, ?_, ?_⟩
  · unfold mapPointsToEls
    rw [mapPoints_run h]
    exact e
  · intro q hq
    obtain ⟨x, hx, _⟩ := mem_mapRows.1 (ho.perm.mem_iff.1 hq)
    exact (List.getElem?_eq_some_iff.1 hx).1
  · intro i x hx
    have hs : (cands env sessm lst x).Pairwise (· < ·) := (h.sorted x.1).filter _
    have hs' : ((out.filter fun q => q.index = i).map IndexEl.el).Pairwise (· ≤ ·) := by
      rw [List.pairwise_map]
      refine (ho.sorted.imp ?_).filter _
      rintro a b (h | ⟨h, _⟩)
      · exact Nat.le_of_lt h
      · exact Nat.le_of_eq h
    have hnd' : ((out.filter fun q => q.index = i).map IndexEl.el).Nodup := by
      refine List.Nodup.map_on ?_ (hnd.filter _)
      intro a ha b hb hab
      simp only [List.mem_filter, decide_eq_true_eq] at ha hb
      cases a; cases b
      simp only [IndexEl.mk.injEq] at *
      exact ⟨ha.2.trans hb.2.symm, hab⟩
    have hperm : ((out.filter fun q => q.index = i).map IndexEl.el).Perm (cands env sessm lst x) := by
      rw [List.perm_ext_iff_of_nodup hnd' (hs.imp fun h => Nat.ne_of_lt h)]
      intro el
      simp only [List.mem_map, List.mem_filter, decide_eq_true_eq]
      constructor
      · rintro ⟨q, ⟨hq, rfl⟩, rfl⟩
        obtain ⟨x', hx', hel⟩ := mem_mapRows.1 (ho.perm.mem_iff.1 hq)
        rw [hx] at hx'
        rw [Option.some.inj hx']; exact hel
      · intro hel
        exact ⟨⟨i, el⟩, ⟨ho.perm.mem_iff.2 (mem_mapRows.2 ⟨x, hx, hel⟩), rfl⟩, rfl⟩
    exact hperm.eq_of_pairwise (fun a b _ _ h1 h2 => Nat.le_antisymm h1 h2) hs' (hs.imp fun h => Nat.le_of_lt h)

/-- the local search -/
theorem findptsLocal_run {val : Nat → K} {env : LEnv D K} {lst : Pt D → List Nat} (h : ListsOk val env lst) {find : Nat → Pt D → FRes D} (hp : Pointwise env find) (hm : 0 < env.nptMax) (sessm : Nat)
    (xs : List (Pt D × Nat)) (outs : List (LRes D)) (hlen : outs.length = xs.length) (s : Sarray.ScratchF Nat) :
    ∃ outs', findptsLocal val env sessm xs outs s = .ok outs' ∧ outs'.length = xs.length ∧
      ∀ (i : Nat) x o, xs[i]? = some x → outs[i]? = some o → outs'[i]? = some ((cands env sessm lst x).foldl (updC val env find x.1) { o with code := codeNotFound }) := by
  obtain ⟨map, e, hnd, hi, hc⟩ := mapPointsToEls_run h sessm xs s
  refine ⟨map.foldl (applyE val env find xs) (outs.map fun o => { o with code := codeNotFound }), ?_, ?_, ?_⟩
  · unfold findptsLocal
    rw [e]
    simp only [Outcome.bind]
    rw [elsLoop_run val env find hp hm xs (map.length + 1) map _ (by omega) (by rw [List.length_map, hlen]) hi hnd]
    rfl
  · rw [foldl_applyE_length, List.length_map, hlen]
  · intro i x o hx ho
    rw [foldl_applyE_at val env find xs i x hx map _ { o with code := codeNotFound } (by rw [List.getElem?_map, ho]; rfl), hc i x hx]

/-! ### the best candidate -/

section
variable {val : Nat → K} {find : Nat → Nat → FRes D}

omit [Field K] [FloorRing K] in
/-- two best results combine -/
theorem IsBest.merge {C1 C2 : Nat → Nat → Prop} {a b : PtRes D} (ha : IsBest val find C1 a) (hb : IsBest val find C2 b) (hb2 : b.code ≠ 2) :
    IsBest val find (fun q el => C1 q el ∨ C2 q el) (if a.code = 0 then a else if a.code = 2 ∨ b.code = 0 ∨ val b.dist2 < val a.dist2 then b else a) := by
  rcases ha with ⟨a1, a2⟩ | ⟨a1, q, el, a2, a3, a4⟩ | ⟨a1, a2, q, el, a3, a4, a5⟩
  · rw [if_neg (by omega), if_pos (Or.inl a1)]
    have : (fun q el => C1 q el ∨ C2 q el) = C2 := by
      funext q el; exact propext ⟨fun h => h.resolve_left (a2 q el), Or.inr⟩
    rw [this]; exact hb
  · rw [if_pos a1]
    exact Or.inr (Or.inl ⟨a1, q, el, Or.inl a2, a3, a4⟩)
  · rw [if_neg (by omega)]
    rcases hb with ⟨b1, _⟩ | ⟨b1, q', el', b2, b3, b4⟩ | ⟨b1, b2, q', el', b3, b4, b5⟩
    · exact absurd b1 hb2
    · rw [if_pos (Or.inr (Or.inl b1))]
      exact Or.inr (Or.inl ⟨b1, q', el', Or.inr b2, b3, b4⟩)
    · have hn : ∀ q el, C1 q el ∨ C2 q el → (find q el).internal = false := fun q el h => h.elim (a2 q el) (b2 q el)
      have ea := a4.2.2.2
      have eb := b4.2.2.2
      by_cases hlt : val b.dist2 < val a.dist2
      · rw [if_pos (Or.inr (Or.inr hlt))]
        rw [ea, eb] at hlt
        refine Or.inr (Or.inr ⟨b1, hn, q', el', Or.inr b3, b4, fun x y h => ?_⟩)
        rcases h with h | h
        · exact hlt.le.trans (a5 x y h)
        · exact b5 x y h
      · rw [if_neg (by rintro (h | h | h); omega; omega; exact hlt h)]
        rw [ea, eb] at hlt
        refine Or.inr (Or.inr ⟨a1, hn, q, el, Or.inl a3, a4, fun x y h => ?_⟩)
        rcases h with h | h
        · exact a5 x y h
        · exact (not_lt.1 hlt).trans (b5 x y h)

/-- the result of the search on process `q` -/
def LRes.toPt (q : Nat) (o : LRes D) : PtRes D := ⟨o.code, q, o.el, o.r, o.dist2⟩

/-- a fold over candidates of one process -/
theorem foldl_best (env : LEnv D K) (find : Nat → Nat → Pt D → FRes D) (p : Nat) (x : Pt D) : ∀ (l : List Nat) (C : Nat → Nat → Prop) (o : LRes D), IsBest val (fun q el => find q el x) C (o.toPt p) →
    IsBest val (fun q el => find q el x) (fun q el => C q el ∨ (q = p ∧ el ∈ l)) ((l.foldl (updC val env (find p) x) o).toPt p)
  | [], C, o, h => by simpa using h
  | a :: l, C, o, h => by
    rw [List.foldl_cons]
    let b : PtRes D := ⟨if (find p a x).internal then 0 else 1, p, a, (find p a x).r, (find p a x).dist2⟩
    have hb : IsBest val (fun q el => find q el x) (fun q el => q = p ∧ el = a) b := by
      by_cases hi : (find p a x).internal = true
      · exact Or.inr (Or.inl ⟨by simp [b, hi], p, a, ⟨rfl, rfl⟩, hi, rfl, rfl, rfl, rfl⟩)
      · refine Or.inr (Or.inr ⟨by simp [b, hi], ?_, p, a, ⟨rfl, rfl⟩, ⟨rfl, rfl, rfl, rfl⟩, ?_⟩)
        · rintro q el ⟨rfl, rfl⟩; simpa using hi
        · rintro q el ⟨rfl, rfl⟩; exact le_refl _
    have hm := IsBest.merge h hb (by simp only [b]; split <;> decide)
    have : (updC val env (find p) x o a).toPt p = if (o.toPt p).code = 0 then o.toPt p else if (o.toPt p).code = 2 ∨ b.code = 0 ∨ val b.dist2 < val (o.toPt p).dist2 then b else o.toPt p := by
      have hc : (b.code = 0) ↔ (find p a x).internal = true := by simp only [b]; split <;> simp_all
      rw [updC]
      by_cases h0 : o.code = codeInternal
      · rw [if_pos h0, if_pos (show (o.toPt p).code = 0 from h0)]
      · rw [if_neg h0, if_neg (show ¬ (o.toPt p).code = 0 from h0), updL]
        have hiff : ((o.toPt p).code = 2 ∨ b.code = 0 ∨ val b.dist2 < val (o.toPt p).dist2) ↔ (o.code = codeNotFound ∨ (find p a x).internal = true ∨ val (find p a x).dist2 < val o.dist2) := by
          rw [hc]; exact Iff.rfl
        rw [if_congr hiff rfl rfl]
        by_cases h1 : o.code = codeNotFound ∨ (find p a x).internal = true ∨ val (find p a x).dist2 < val o.dist2
        · rw [if_pos h1, if_pos h1]; rfl
        · rw [if_neg h1, if_neg h1]
    rw [← this] at hm
    have ih := foldl_best env find p x l _ _ hm
    refine (congrArg (fun C => IsBest val (fun q el => find q el x) C _) ?_).mp ih
    funext q el
    simp only [List.mem_cons, eq_iff_iff]
    tauto

end

end Gslib.Fp
