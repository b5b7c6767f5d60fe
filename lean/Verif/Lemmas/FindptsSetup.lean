import Verif.Model.FindptsSetup
import Verif.Lemmas.CollSim
import Verif.Lemmas.MapW
import Verif.Props.FindptsMesh

/-!
# `findpts_setup` runs
-/

namespace Gslib.Fp
open Gslib Gslib.Mpi Gslib.Transfer Gslib.Gs Gslib.Hash Gslib.Num Gslib.GHash Gslib.Obb Gslib.Comm Gslib.Spec Gslib.Props

variable {K : Type} [Field K] [LinearOrder K] [IsStrictOrderedRing K] [FloorRing K]

/-! ### the local table -/

/-- the table of `hash_build` for boxes inside the bound; also without boxes -/
theorem hashBuild_table {D : Nat} {bnd : List (Range K)} {obb : List (List (Range K))} (hl : bnd.length = D) (hf : ∀ b ∈ obb, FitBox bnd b) (maxSize nu0 : Nat) :
    ∃ hn size off mx, Hash.hashBuild bnd obb maxSize nu0 = some (hn, size, off, mx) ∧ 0 < hn ∧ ∀ c < hn ^ D, readBucket size off c = some (vals (events hn bnd obb) c) := by
  obtain ⟨hn, size, eo, h1, hsz, hlim, _⟩ := hash_opt_size_spec hf maxSize nu0
  have hnd : 0 < hn ^ D := Nat.pow_pos h1
  have hev : ∀ e ∈ events hn bnd obb, e.1 < hn ^ D := by
    intro e he
    unfold events at he
    simp only [List.mem_flatMap, List.mem_map, List.mem_range] at he
    obtain ⟨el, hel, c, hc, rfl⟩ := he
    have hfit : FitBox bnd (obb.getD el []) := by
      apply hf
      rw [List.getD_eq_getElem?_getD, List.getElem?_eq_getElem hel]
      exact List.getElem_mem hel
    have := cells_lt _ (hashRanges_ok h1 hfit) c hc
    rwa [hashRanges_length hfit, hl] at this
  have hlen := events_length hn bnd obb
  rw [hl] at hsz
  obtain ⟨cnt, e1, hc⟩ := countAll_run (hn ^ D) (events hn bnd obb) hev
  obtain ⟨o, sum, mx, e2, ho, hmx, cm, hcm, hcm'⟩ := offsets_run size (hn ^ D) (events hn bnd obb) hnd (by omega) cnt (fun _ => none) hc
  obtain ⟨o', cnt', e3, ho', hb⟩ := fillAll_run size (hn ^ D) (events hn bnd obb) hev (by omega) cnt o hc ho
  refine ⟨hn, size, o', mx, ?_, h1, ?_⟩
  · unfold Hash.hashBuild
    simp only [eo, hl]
    rw [e1, Option.bind_some, e2, Option.bind_some, e3]
    rfl
  · intro c hc
    unfold readBucket
    have r1 := ho'.rd c (by omega) (cap := size) (by omega)
    have r2 := ho'.rd (c + 1) (by omega) (cap := size) (by omega)
    rw [Nat.zero_add] at r1 r2
    rw [r1, r2, Option.bind_some, Option.bind_some, pos, Nat.add_sub_cancel_left, mapM_some _ (fun i => (vals (events hn bnd obb) c).getD i 0)]
    · congr 1
      apply List.ext_getElem
      · simp
      · intro i hi1 hi2
        simp [List.getD_eq_getElem?_getD, List.getElem?_eq_getElem hi2]
    · intro i hi
      rw [List.mem_range] at hi
      have hle := pos_mono (hn ^ D) (events hn bnd obb) (show c + 1 ≤ hn ^ D by omega)
      rw [pos_total _ _ hev, pos] at hle
      rw [Num.rd, if_pos (by omega), hb c hc i hi]
      simp [List.getD_eq_getElem?_getD, List.getElem?_eq_getElem hi]

/-- `findptsms_local_setup` -/
theorem suLocal_run {D : Nat} {root : K → K} {a : SuArgs K} {box : Nat → Box K} {out : Nat → Option (Box K)} (ho : a.obbox = some out) (hb : ∀ e < a.nel, out e = some (box e))
    (hp : ProperBoxes D (((List.range a.nel).map box).map (boxRanges D))) (hnu : nu0Of root a.localSize a.nel ≠ 0) (s : SuSt K) :
    ∃ lhn lsize loff, suLocal D root a s = .ok { s with boxes := (List.range a.nel).map box, lbnd := localBnd D (((List.range a.nel).map box).map (boxRanges D)), lhn := lhn, lsize := lsize, loff := loff, hb := { s.hb with obb := ((List.range a.nel).map box).map (boxRanges D) } } ∧
      ((∃ maxSize nu0 mx, ((List.range a.nel).map box).map (boxRanges D) ≠ [] ∧ hashBuildAll (((List.range a.nel).map box).map (boxRanges D)) maxSize nu0 =
          some (localBnd D (((List.range a.nel).map box).map (boxRanges D)), lhn, lsize, loff, mx)) ∨
        (((List.range a.nel).map box).map (boxRanges D) = [] ∧ ∀ x : List K, readBucket lsize loff (hashIndex lhn (localBnd D (((List.range a.nel).map box).map (boxRanges D))) x) = some [])) := by
  have hm : (a.obbox.bind fun out => (List.range a.nel).mapM out) = some ((List.range a.nel).map box) := by
    rw [ho, Option.bind_some]
    exact mapM_some _ _ _ fun e he => hb e (List.mem_range.1 he)
  generalize hB : ((List.range a.nel).map box).map (boxRanges D) = obb at hp
  have hlen : (localBnd D obb).length = D := localBnd_length hp
  obtain ⟨hn, size, off, mx, e, hpos, hread⟩ := hashBuild_table (D := D) hlen (localBnd_fit hp) a.localSize (nu0Of root a.localSize a.nel)
  refine ⟨hn, size, off, ?_, ?_⟩
  · unfold suLocal
    rw [hm]
    show (if nu0Of root a.localSize a.nel = 0 then Outcome.ub else _) = _
    rw [if_neg hnu, hB, e]
    rfl
  · by_cases hne : obb = []
    · refine Or.inr ⟨hne, fun x => ?_⟩
      rw [hread _ (by have := hashIndex_lt hpos (localBnd D obb) x; rwa [hlen] at this)]
      rw [hne]; rfl
    · refine Or.inl ⟨a.localSize, nu0Of root a.localSize a.nel, mx, hne, ?_⟩
      obtain ⟨bnd, eb, -⟩ := hashBb_fit hne hp
      have hlb : localBnd D obb = bnd := by unfold localBnd; rw [eb]; rfl
      unfold hashBuildAll
      rw [eb, Option.bind_some, ← hlb, e]
      rfl

/-! ### the reductions -/

theorem lens_x : Lens (SuSt.x (K := K)) SuSt.setX := ⟨fun _ _ => rfl, fun _ => rfl, fun _ _ _ => rfl⟩

theorem commAllreduce_ok {T : Type} (dom : Dom T) (op : Op) (vn np : Nat) : (commAllreduce dom op vn np).Ok np := by
  unfold commAllreduce
  split
  · exact nil_matched np
  · exact tree_matched (allreduce_good dom op) np

theorem suReduce_ok (dom : Dom K) (op : Op) (vn np : Nat) : (suReduce dom op vn np).Ok np := Coll.mapW_ok _ _ (Coll.lift_ok _ _ (commAllreduce_ok _ _ _ _))

theorem suReduce_run {dom : Dom K} {op : Op} (hg : AssocOn (fun _ => True) (dom.doOp op)) {vn : Nat} (hvn : vn ≠ 0) {np : Nat} {s : Nat → SuSt K} {w : Nat → List K} (hw : ∀ p, p < np → (s p).x = w p)
    (hl : ∀ p, p < np → (w p).length = vn) :
    (suReduce dom op vn np).run np s = .ok fun p => if p < np then (s p).setX (reduceAll (gatherArray dom op) w np) else s p := by
  unfold suReduce
  rw [Coll.mapW_run _ _ (fun _ => rfl), Coll.lift_run lens_x _ _ _ w hw]
  unfold commAllreduce
  rw [if_neg hvn, allreduce_run dom op (gatherArray_assocOn dom op hg vn) np w fun p hp => ⟨hl p hp, fun _ _ => trivial⟩]
  show Outcome.ok _ = _
  congr 1
  funext p
  unfold putAll
  by_cases hp : p < np
  · simp only [if_pos hp]
  · simp only [if_neg hp]

/-- minima and maxima together are the merged ranges -/
theorem merge_gather (big : K) (toU : K → Nat) (ofU : Nat → K) : ∀ a b : List (Range K), a.length = b.length →
    List.zipWith Range.mk (gatherArray (realDom big toU ofU) .min (a.map Range.min) (b.map Range.min)) (gatherArray (realDom big toU ofU) .max (a.map Range.max) (b.map Range.max)) = List.zipWith rangeMerge a b ∧
    gatherArray (realDom big toU ofU) .min (a.map Range.min) (b.map Range.min) = (List.zipWith rangeMerge a b).map Range.min ∧
    gatherArray (realDom big toU ofU) .max (a.map Range.max) (b.map Range.max) = (List.zipWith rangeMerge a b).map Range.max
  | [], [], _ => ⟨rfl, rfl, rfl⟩
  | x :: a, y :: b, h => by
    obtain ⟨h1, h2, h3⟩ := merge_gather big toU ofU a b (by simpa using h)
    have hmax : (if y.max > x.max then y.max else x.max) = if x.max > y.max then x.max else y.max := by
      rcases lt_trichotomy x.max y.max with h | h | h
      · rw [if_pos h, if_neg (not_lt.2 h.le)]
      · rw [h]
      · rw [if_neg (not_lt.2 h.le), if_pos h]
    refine ⟨?_, ?_, ?_⟩
    · simp only [List.map_cons, gatherArray, List.zipWith_cons_cons, h1]
      congr 1
      unfold rangeMerge realDom
      simp only [hmax]
    · simp only [List.map_cons, gatherArray, List.zipWith_cons_cons, h2]
      rfl
    · simp only [List.map_cons, gatherArray, List.zipWith_cons_cons, h3]
      congr 1

/-- the merged ranges of all processes -/
theorem reduce_bounds (big : K) (toU : K → Nat) (ofU : Nat → K) (D : Nat) (b : Nat → List (Range K)) : ∀ k, (∀ q, q ≤ k → (b q).length = D) →
    foldRanks (gatherArray (realDom big toU ofU) .min) (fun q => (b q).map Range.min) 0 k = ((hashBb ((List.range (k + 1)).map b)).getD []).map Range.min ∧
    foldRanks (gatherArray (realDom big toU ofU) .max) (fun q => (b q).map Range.max) 0 k = ((hashBb ((List.range (k + 1)).map b)).getD []).map Range.max ∧
    ((hashBb ((List.range (k + 1)).map b)).getD []).length = D
  | 0, h => ⟨rfl, rfl, h 0 (le_refl 0)⟩
  | k + 1, h => by
    obtain ⟨h1, h2, h3⟩ := reduce_bounds big toU ofU D b k fun q hq => h q (by omega)
    have e : (hashBb ((List.range (k + 1 + 1)).map b)).getD [] = List.zipWith rangeMerge ((hashBb ((List.range (k + 1)).map b)).getD []) (b (k + 1)) := by
      rw [List.range_succ, List.map_append]
      cases hl : (List.range (k + 1)).map b with
      | nil => simp at hl
      | cons x l =>
        show (l ++ [b (k + 1)]).foldl _ x = _
        rw [List.foldl_append]
        rfl
    have hk : ((hashBb ((List.range (k + 1)).map b)).getD []).length = (b (k + 1)).length := by rw [h3, h (k + 1) (le_refl _)]
    obtain ⟨-, g2, g3⟩ := merge_gather big toU ofU _ _ hk
    refine ⟨?_, ?_, ?_⟩
    · rw [e, ← g2, ← h1]
      show gatherArray _ _ _ ((b (0 + k + 1)).map Range.min) = _
      rw [Nat.zero_add]
    · rw [e, ← g3, ← h2]
      show gatherArray _ _ _ ((b (0 + k + 1)).map Range.max) = _
      rw [Nat.zero_add]
    · rw [e, List.length_zipWith, h3, h (k + 1) (le_refl _), Nat.min_self]

/-- the sum of the sizes -/
theorem reduce_sizes (big : K) (toU : K → Nat) (ofU : Nat → K) (g : Nat → Nat) : ∀ k, foldRanks (gatherArray (realDom big toU ofU) .add) (fun q => [(g q : K)]) 0 k = [((∑ q ∈ Finset.range (k + 1), g q : Nat) : K)]
  | 0 => by simp [foldRanks]
  | k + 1 => by
    show gatherArray _ _ (foldRanks _ _ 0 k) [(g (0 + k + 1) : K)] = _
    rw [reduce_sizes big toU ofU g k, Nat.zero_add, Finset.sum_range_succ _ (k + 1)]
    show [((∑ q ∈ Finset.range (k + 1), g q : Nat) : K) + (g (k + 1) : K)] = _
    rw [Nat.cast_add]

theorem assoc_min (big : K) (toU : K → Nat) (ofU : Nat → K) : AssocOn (fun _ => True) ((realDom big toU ofU).doOp .min) := by
  have e : ∀ a b : K, (realDom big toU ofU).doOp .min a b = min a b := by
    intro a b
    show (if b < a then b else a) = _
    split
    · rw [min_eq_right]; exact le_of_lt ‹_›
    · rw [min_eq_left]; exact not_lt.1 ‹_›
  refine ⟨fun _ _ _ _ => trivial, fun a b c _ _ _ => ?_⟩
  simp only [e]
  rw [min_assoc]

theorem assoc_max (big : K) (toU : K → Nat) (ofU : Nat → K) : AssocOn (fun _ => True) ((realDom big toU ofU).doOp .max) := by
  have e : ∀ a b : K, (realDom big toU ofU).doOp .max a b = max a b := by
    intro a b
    show (if b > a then b else a) = _
    split
    · rw [max_eq_right]; exact le_of_lt ‹_›
    · rw [max_eq_left]; exact not_lt.1 ‹_›
  refine ⟨fun _ _ _ _ => trivial, fun a b c _ _ _ => ?_⟩
  simp only [e]
  rw [max_assoc]

theorem assoc_add (big : K) (toU : K → Nat) (ofU : Nat → K) : AssocOn (fun _ => True) ((realDom big toU ofU).doOp .add) :=
  ⟨fun _ _ _ _ => trivial, fun a b c _ _ _ => by show a + b + c = a + (b + c); rw [add_assoc]⟩

/-- the number of cells per coordinate: `lceil(pow(ghs,1./D))` for the sum of the sizes given by the processes -/
def hnOf (root : K → K) (np : Nat) (g : Nat → Nat) : Nat := ⌈root ((∑ q ∈ Finset.range np, g q : Nat) : K)⌉.toNat

theorem suBb_ok (D : Nat) (root : K → K) (dom : Dom K) (np : Nat) (g : Nat → Nat) : (suBb D root dom np g).Ok np :=
  Coll.seq_ok (Coll.seq_ok (Coll.seq_ok (Coll.seq_ok (Coll.seq_ok (Coll.seq_ok (Coll.loc_ok _ _ _) (suReduce_ok _ _ _ _)) (Coll.loc_ok _ _ _)) (suReduce_ok _ _ _ _)) (Coll.loc_ok _ _ _)) (suReduce_ok _ _ _ _)) (Coll.loc_ok _ _ _)

theorem suBb_run {D : Nat} (hD : D ≠ 0) (root : K → K) (big : K) (toU : K → Nat) (ofU : Nat → K) {np : Nat} (hnp : 0 < np) (g : Nat → Nat) {b : Nat → List (Range K)} (hl : ∀ p, p < np → (b p).length = D) {s : Nat → SuSt K}
    (hs : ∀ p, p < np → (s p).lbnd = b p) :
    ∃ t, (suBb D root (realDom big toU ofU) np g).run np s = .ok t ∧ ∀ p, p < np → ∃ x low, t p = { s p with x := x, low := low, bnd := (hashBb ((List.range np).map b)).getD [], hn := hnOf root np g } := by
  let B := (hashBb ((List.range np).map b)).getD []
  have hnp1 : np - 1 + 1 = np := by omega
  obtain ⟨hmin, hmax, -⟩ := reduce_bounds big toU ofU D b (np - 1) fun q hq => hl q (by omega)
  rw [hnp1] at hmin hmax
  let s1 : Nat → SuSt K := fun p => if p < np then { s p with x := (s p).lbnd.map Range.min } else s p
  let s2 : Nat → SuSt K := fun p => if p < np then (s1 p).setX (B.map Range.min) else s1 p
  let s3 : Nat → SuSt K := fun p => if p < np then { s2 p with low := (s2 p).x, x := (s2 p).lbnd.map Range.max } else s2 p
  let s4 : Nat → SuSt K := fun p => if p < np then (s3 p).setX (B.map Range.max) else s3 p
  let s5 : Nat → SuSt K := fun p => if p < np then { s4 p with bnd := List.zipWith Range.mk (s4 p).low (s4 p).x, x := [(g p : K)] } else s4 p
  let s6 : Nat → SuSt K := fun p => if p < np then (s5 p).setX [((∑ q ∈ Finset.range np, g q : Nat) : K)] else s5 p
  let s7 : Nat → SuSt K := fun p => if p < np then { s6 p with hn := hnOf root np g } else s6 p
  have r1 : (suLoc fun _ (s : SuSt K) => .ok { s with x := s.lbnd.map Range.min }).run np s = .ok s1 := Coll.loc_run_ok fun _ _ => rfl
  have r2 : (suReduce (realDom big toU ofU) .min D np).run np s1 = .ok s2 := by
    rw [suReduce_run (assoc_min big toU ofU) hD (w := fun q => (b q).map Range.min) (fun p hp => by simp only [s1, if_pos hp, hs p hp]) fun p hp => by rw [List.length_map, hl p hp]]
    unfold reduceAll
    rw [hmin]
  have r3 : (suLoc fun _ (s : SuSt K) => .ok { s with low := s.x, x := s.lbnd.map Range.max }).run np s2 = .ok s3 := Coll.loc_run_ok fun _ _ => rfl
  have r4 : (suReduce (realDom big toU ofU) .max D np).run np s3 = .ok s4 := by
    rw [suReduce_run (assoc_max big toU ofU) hD (w := fun q => (b q).map Range.max) (fun p hp => by simp only [s3, s2, s1, if_pos hp]; exact congrArg _ (hs p hp)) fun p hp => by rw [List.length_map, hl p hp]]
    unfold reduceAll
    rw [hmax]
  have r5 : (suLoc fun p (s : SuSt K) => .ok { s with bnd := List.zipWith Range.mk s.low s.x, x := [(g p : K)] }).run np s4 = .ok s5 := Coll.loc_run_ok fun _ _ => rfl
  have r6 : (suReduce (realDom big toU ofU) .add 1 np).run np s5 = .ok s6 := by
    rw [suReduce_run (vn := 1) (assoc_add big toU ofU) (by omega) (w := fun q => [(g q : K)]) (fun p hp => by simp only [s5, if_pos hp]) fun p hp => rfl]
    unfold reduceAll
    rw [reduce_sizes, hnp1]
  have r7 : (suLoc fun _ (s : SuSt K) => match s.x with
      | [ghs] => .ok { s with hn := ⌈root ghs⌉.toNat }
      | _ => .ub).run np s6 = .ok s7 := by
    refine Coll.loc_run_ok fun p hp => ?_
    have : (s6 p).x = [((∑ q ∈ Finset.range np, g q : Nat) : K)] := by simp only [s6, if_pos hp]; rfl
    simp only [this]
    rfl
  refine ⟨s7, ?_, fun p hp => ⟨[((∑ q ∈ Finset.range np, g q : Nat) : K)], B.map Range.min, ?_⟩⟩
  · have k1 : (suLoc fun _ (s : SuSt K) => .ok { s with x := s.lbnd.map Range.min }).Ok np := Coll.loc_ok _ _ _
    have k2 := Coll.seq_ok k1 (suReduce_ok (realDom big toU ofU) .min D np)
    have k3 := Coll.seq_ok k2 (b := suLoc fun _ (s : SuSt K) => .ok { s with low := s.x, x := s.lbnd.map Range.max }) (Coll.loc_ok _ _ _)
    have k4 := Coll.seq_ok k3 (suReduce_ok (realDom big toU ofU) .max D np)
    have k5 := Coll.seq_ok k4 (b := suLoc fun p (s : SuSt K) => .ok { s with bnd := List.zipWith Range.mk s.low s.x, x := [(g p : K)] }) (Coll.loc_ok _ _ _)
    have k6 := Coll.seq_ok k5 (suReduce_ok (realDom big toU ofU) .add 1 np)
    exact Coll.seq_run_ok k6 (Coll.seq_run_ok k5 (Coll.seq_run_ok k4 (Coll.seq_run_ok k3 (Coll.seq_run_ok k2 (Coll.seq_run_ok k1 r1 r2) r3) r4) r5) r6) r7
  · have hz : List.zipWith Range.mk (B.map Range.min) (B.map Range.max) = B := by
      rw [List.zipWith_map]
      generalize B = l
      induction l with
      | nil => rfl
      | cons x l ih => rw [List.zipWith_cons_cons, ih]
    simp only [s7, s6, s5, s4, s3, s2, s1, if_pos hp, SuSt.setX, hz]
    rfl

/-! ### the distributed table -/

theorem lens_suTr : Lens (SuSt.tr (K := K)) SuSt.setTr := ⟨fun _ _ => rfl, fun _ => rfl, fun _ _ _ => rfl⟩

theorem suBuild_ok (D np : Nat) : (suBuild (K := K) D np).Ok np :=
  Coll.seq_ok (Coll.seq_ok (Coll.loc_ok _ _ _) (Coll.mapW_ok _ _ (recTransfer_ok _ _ _ _ _ _))) (Coll.loc_ok _ _ _)

/-- `hash_build` with the bound and the number of cells in memory -/
theorem suBuild_run {D hn np : Nat} {bnd : List (Range K)} {h0 hf : Nat → HbSt K} (e : (GHash.hashBuild D hn np bnd).run np h0 = .ok hf) {s : Nat → SuSt K}
    (hs : ∀ p, p < np → (s p).hb = h0 p ∧ (s p).hn = hn ∧ (s p).bnd = bnd) : ∃ t, (suBuild D np).run np s = .ok t ∧ ∀ p, p < np → t p = (s p).setHb (hf p) := by
  have k1 : (Coll.loc (fun _ => hb1 D hn np bnd) ([] : List Nat)).Ok np := Coll.loc_ok _ _ _
  unfold GHash.hashBuild at e
  rw [Coll.seq_run (Coll.seq_ok k1 (recTransfer_ok _ _ _ _ _ _)), Coll.seq_run k1] at e
  obtain ⟨u2, e', e3⟩ := Outcome.bind_eq_ok e
  obtain ⟨u1, e1, e2⟩ := Outcome.bind_eq_ok e'
  rw [Coll.loc_run] at e1 e3
  have f1 := (seqAll_ok e1).1
  have f3 := (seqAll_ok e3).1
  unfold recTransfer at e2
  rw [Coll.lift_run GHash.lens_tr _ _ _ (fun p => (u1 p).tr) (fun _ _ => rfl)] at e2
  obtain ⟨f, ef, e2⟩ := Outcome.bind_eq_ok e2
  have e2 := Outcome.ok.inj e2
  let t1 : Nat → SuSt K := fun p => if p < np then (s p).setHb (u1 p) else s p
  let t2 : Nat → SuSt K := fun p => if p < np then (t1 p).setTr (f p) else t1 p
  let t3 : Nat → SuSt K := fun p => if p < np then (t2 p).setHb (hf p) else t2 p
  have r1 : (suLoc fun _ (s : SuSt K) => (hb1 D s.hn np s.bnd s.hb).bind fun h => .ok (s.setHb h)).run np s = .ok t1 := by
    refine Coll.loc_run_ok fun p hp => ?_
    obtain ⟨a1, a2, a3⟩ := hs p hp
    rw [a1, a2, a3, f1 p hp]
    rfl
  have r2 : ((recTransfer (k := 0) SuSt.tr SuSt.setTr np (0 : Fin 2) 0 true).mapW (Sum.inl : List Nat → SuMsg K) fun m => match m with | .inl l => l | .inr _ => []).run np t1 = .ok t2 := by
    rw [Coll.mapW_run _ _ (fun _ => rfl)]
    unfold recTransfer
    rw [Coll.lift_run lens_suTr _ _ _ (fun p => (u1 p).tr) (fun p hp => by simp only [t1, if_pos hp]; rfl), ef]
    rfl
  have r3 : (suLoc fun _ (s : SuSt K) => (hb2 D s.hn np s.hb).bind fun h => .ok (s.setHb h)).run np t2 = .ok t3 := by
    refine Coll.loc_run_ok fun p hp => ?_
    have a1 : (t2 p).hb = u2 p := by
      rw [← e2]
      simp only [t2, t1, if_pos hp, putAll]
      rfl
    have a2 : (t2 p).hn = hn := by
      simp only [t2, t1, if_pos hp]
      exact (hs p hp).2.1
    rw [a1, a2, f3 p hp]
    rfl
  refine ⟨t3, Coll.seq_run_ok (Coll.seq_ok (Coll.loc_ok _ _ _) (Coll.mapW_ok _ _ (recTransfer_ok _ _ _ _ _ _))) (Coll.seq_run_ok (Coll.loc_ok _ _ _) r1 r2) r3, fun p hp => ?_⟩
  simp only [t3, t2, t1, if_pos hp]
  rfl

end Gslib.Fp
