import Verif.Lemmas.FindptsSetup
import Verif.Props.GsNb

/-!
# C63: `findpts_setup`, then `findpts`: the whole program

Model: `Model/FindptsSetup`. The data of `findpts` are those in the memory that `findpts_setup` leaves on each process (`SuSt.env`).
-/

namespace Gslib.Props
open Gslib Gslib.Mpi Gslib.Transfer Gslib.Gs Gslib.Hash Gslib.Num Gslib.Spec Gslib.GHash Gslib.Fp Gslib.Poly Gslib.Lob Gslib.Obb

/-- `findEl q el` searches points in element `el` of process `q`, each point by itself (C46), in batches of at most `nptMax` points; `find q el x` is the result for the point `x`, made of doubles -/
structure Searches {D : Nat} (np nptMax : Nat) (findEl : Nat → Nat → List (Fp.Pt D) → List (FRes D)) (find : Nat → Nat → Fp.Pt D → FRes D) : Prop where
  pointwise : ∀ q < np, ∀ el pts, pts.length ≤ nptMax → findEl q el pts = pts.map (find q el)
  npt : 0 < nptMax
  double : ∀ q el x, (∀ i, (find q el x).r i < 2 ^ 64) ∧ (find q el x).dist2 < 2 ^ 64 ∧ (find q el x).disti < 2 ^ 64

/-- the axis-aligned boxes of the elements of process `q` -/
def obbOf {K : Type} [Field K] [LinearOrder K] [FloorRing K] (D : Nat) (nel : Nat → Nat) (box : Nat → Nat → Box K) (q : Nat) : List (List (Range K)) := ((List.range (nel q)).map (box q)).map (boxRanges D)

section gen
variable {K : Type} [Field K] [LinearOrder K] [IsStrictOrderedRing K] [FloorRing K]
  {D np : Nat} (hD : D ≠ 0) (hnp : 0 < np) (hnp' : np ≤ 4294967295) {root : K → K} (big : K) (toU : K → Nat) (ofU : Nat → K) {a : Nat → SuArgs K} {box : Nat → Nat → Box K}
  (hbox : ∀ q < np, ∃ out, (a q).obbox = some out ∧ ∀ e < (a q).nel, out e = some (box q e)) (hnel : ∀ q < np, (a q).nel ≤ 4294967295)
  (hprop : ∀ q < np, ∀ e < (a q).nel, ∀ d < D, ((box q e).x d).1 < ((box q e).x d).2) (hnu : ∀ q < np, nu0Of root (a q).localSize (a q).nel ≠ 0)
include hD hnp hbox hprop hnu

omit [IsStrictOrderedRing K] hD hnp hbox hnu in
theorem obbOf_proper : ∀ q, q < np → ProperBoxes D (obbOf D (fun q => (a q).nel) box q) := by
  intro q hq b hb
  unfold obbOf at hb
  obtain ⟨b', hb', rfl⟩ := List.mem_map.1 hb
  obtain ⟨e, he, rfl⟩ := List.mem_map.1 hb'
  refine ⟨by simp [boxRanges], fun r hr => ?_⟩
  unfold boxRanges at hr
  obtain ⟨d, rfl⟩ := (List.mem_ofFn' _ r).1 hr
  exact hprop q hq e (List.mem_range.1 he) d d.2

/-- what `findpts_setup` leaves on process `q` -/
structure SetupFacts (D np : Nat) (root : K → K) (a : Nat → SuArgs K) (box : Nat → Nat → Box K) (q : Nat) (s : SuSt K) : Prop where
  boxes : s.boxes = (List.range (a q).nel).map (box q)
  hn : s.hn = hnOf root np fun p => (a p).globalSize
  bnd : s.bnd = globalBnd D np (obbOf D (fun q => (a q).nel) box)
  table : (∃ maxSize nu0 mx, obbOf D (fun q => (a q).nel) box q ≠ [] ∧ hashBuildAll (obbOf D (fun q => (a q).nel) box q) maxSize nu0 = some (s.lbnd, s.lhn, s.lsize, s.loff, mx)) ∨
    (obbOf D (fun q => (a q).nel) box q = [] ∧ ∀ x : List K, readBucket s.lsize s.loff (hashIndex s.lhn s.lbnd x) = some [])

/-- `findpts_setup` up to the reductions -/
theorem findptsSetup_bb (s0 : Nat → SuSt K) : ∃ t, ((suLoc fun p => suLocal D root (a p)).seq (suBb D root (realDom big toU ofU) np fun p => (a p).globalSize)).run np s0 = .ok t ∧
    ∀ q, q < np → SetupFacts D np root a box q (t q) ∧ (t q).hb = { (s0 q).hb with obb := obbOf D (fun q => (a q).nel) box q } := by
  have hp := obbOf_proper (a := a) (box := box) hprop
  have hloc : ∀ q, ∃ s : SuSt K, q < np → suLocal D root (a q) (s0 q) = .ok s ∧ s.boxes = (List.range (a q).nel).map (box q) ∧ s.lbnd = localBnd D (obbOf D (fun q => (a q).nel) box q) ∧
      s.hb = { (s0 q).hb with obb := obbOf D (fun q => (a q).nel) box q } ∧
      ((∃ maxSize nu0 mx, obbOf D (fun q => (a q).nel) box q ≠ [] ∧ hashBuildAll (obbOf D (fun q => (a q).nel) box q) maxSize nu0 = some (s.lbnd, s.lhn, s.lsize, s.loff, mx)) ∨
        (obbOf D (fun q => (a q).nel) box q = [] ∧ ∀ x : List K, readBucket s.lsize s.loff (hashIndex s.lhn s.lbnd x) = some [])) := by
    intro q
    by_cases hq : q < np
    · obtain ⟨out, ho, hb⟩ := hbox q hq
      obtain ⟨lhn, lsize, loff, e, ht⟩ := suLocal_run ho hb (hp q hq) (hnu q hq) (s0 q)
      exact ⟨_, fun _ => ⟨e, rfl, rfl, rfl, ht⟩⟩
    · exact ⟨s0 q, fun h => absurd h hq⟩
  choose s1 hs1 using hloc
  have r1 : (suLoc fun p => suLocal D root (a p)).run np s0 = .ok fun p => if p < np then s1 p else s0 p := Coll.loc_run_ok fun p hq => (hs1 p hq).1
  obtain ⟨t, r2, ht⟩ := suBb_run hD root big toU ofU hnp (fun p => (a p).globalSize) (b := fun q => localBnd D (obbOf D (fun q => (a q).nel) box q)) (fun q hq => localBnd_length (hp q hq))
    (s := fun p => if p < np then s1 p else s0 p) fun q hq => by simp only [if_pos hq]; exact (hs1 q hq).2.2.1
  refine ⟨t, Coll.seq_run_ok (Coll.loc_ok _ _ _) r1 r2, fun q hq => ?_⟩
  obtain ⟨x, low, e⟩ := ht q hq
  rw [if_pos hq] at e
  obtain ⟨-, h1, h2, h3, h4⟩ := hs1 q hq
  rw [e]
  exact ⟨⟨h1, rfl, rfl, h4⟩, h3⟩

include hnp' in
/-- what holds after the construction of the distributed table holds after `findpts_setup` -/
theorem findptsSetup_all (hhn : 0 < hnOf root np fun p => (a p).globalSize) (hcell : (hnOf root np fun p => (a p).globalSize) ^ D ≤ 4294967296 * np)
    (hsmall : (∑ q ∈ Finset.range np, hashCount (hnOf root np fun p => (a p).globalSize) (globalBnd D np (obbOf D (fun q => (a q).nel) box)) (obbOf D (fun q => (a q).nel) box q)) * 16 < Crystal.intMax)
    (s0 : Nat → SuSt K) (Q : (Nat → HbSt K) → Prop) (hQ : ∀ s s', (∀ q, q < np → s q = s' q) → Q s → Q s')
    (G : AllSchedules (GHash.hashBuild D (hnOf root np fun p => (a p).globalSize) np (globalBnd D np (obbOf D (fun q => (a q).nel) box))).prog np
      (fun q => { (s0 q).hb with obb := obbOf D (fun q => (a q).nel) box q }) Q) :
    AllSchedules (findptsSetup D root (realDom big toU ofU) np a).prog np s0 fun sf => Q (fun q => (sf q).hb) ∧ ∀ q, q < np → SetupFacts D np root a box q (sf q) := by
  obtain ⟨t, r1, ht⟩ := findptsSetup_bb hD hnp big toU ofU hbox hprop hnu s0
  obtain ⟨hf, e, -⟩ := hashBuild_run hhn hnp hnp' (obbOf_proper (a := a) (box := box) hprop) hcell hsmall (fun q => { (s0 q).hb with obb := obbOf D (fun q => (a q).nel) box q }) fun _ _ => rfl
  obtain ⟨u, r2, hu⟩ := suBuild_run e (s := t) fun p hp => ⟨(ht p hp).2, (ht p hp).1.hn, (ht p hp).1.bnd⟩
  have hq : Q hf := by
    obtain ⟨c, hc, hfin⟩ := exists_finished G
    have h1 := ((allSchedules_of_lockRun (hashBuild_ok _ _ _ _) e (fun s => ∀ q, q < np → s q = hf q) fun _ h => h).result c hc hfin).1
    exact hQ _ _ h1 (G.result c hc hfin).1
  refine allSchedules_of_lockRun (Coll.seq_ok (Coll.seq_ok (Coll.loc_ok _ _ _) (suBb_ok _ _ _ _ _)) (suBuild_ok _ _))
    (show (findptsSetup D root (realDom big toU ofU) np a).run np s0 = .ok u from Coll.seq_run_ok (Coll.seq_ok (Coll.loc_ok _ _ _) (suBb_ok _ _ _ _ _)) r1 r2) _ ?_
  intro z hz
  refine ⟨hQ hf _ (fun q hq => ?_) hq, fun q hq => ?_⟩
  · rw [hz q hq, hu q hq]; rfl
  · rw [hz q hq, hu q hq]
    have := (ht q hq).1
    exact ⟨this.boxes, this.hn, this.bnd, this.table⟩

omit [IsStrictOrderedRing K] hD hnp hbox hprop hnu in
include hnel in
/-- the data in memory are data of `findpts` -/
theorem setupDone_of_facts {sf : Nat → SuSt K} (hsf : ∀ q, q < np → SetupFacts D np root a box q (sf q)) (val : Nat → K) (test : Box K → (Nat → K) → K) {nptMax : Nat}
    {findEl : Nat → Nat → List (Fp.Pt D) → List (FRes D)} {find : Nat → Nat → Fp.Pt D → FRes D} (hS : Searches np nptMax findEl find) (ms : Bool) {nsid : Nat → Nat} (hsid : ∀ q < np, nsid q < 4294967296) :
    SetupDone val np (hnOf root np fun p => (a p).globalSize) (obbOf D (fun q => (a q).nel) box) find (fun q => (sf q).hb) (fun q => (sf q).env val test (findEl q) nptMax ms (nsid q)) ms := by
  intro q hq
  have F := hsf q hq
  refine ⟨⟨?_, ?_, hS.pointwise q hq, hS.npt, rfl, hsid q hq, hS.double q⟩, F.hn, F.bnd, rfl, rfl⟩
  · rcases F.table with h | ⟨h1, h2⟩
    · exact Or.inl h
    · exact Or.inr ⟨h1, fun x => h2 _⟩
  · show (((List.range (a q).nel).map (box q)).map (boxRanges D)).length ≤ _
    rw [List.length_map, List.length_map, List.length_range]
    exact hnel q hq

include hnp' hnel in
/-- **C63**: `findpts_setup` followed by `findpts`. On every schedule `findpts_setup` ends on all processes; afterwards all processes have the same bound, the least box that contains the boxes of all elements (and 0 for a process without
elements), and the same number `⌈root(Σ global_hash_size)⌉` of cells per coordinate. With the data it leaves in memory `findpts` has the properties C42, C43: see `findpts_best`. -/
theorem findpts_after_setup (hhn : 0 < hnOf root np fun p => (a p).globalSize)
    (hcell : (hnOf root np fun p => (a p).globalSize) ^ D ≤ 2 ^ 32 ∨ (np ∣ 2 ^ 32 ∧ (hnOf root np fun p => (a p).globalSize) ^ D ≤ 2 ^ 32 * np))
    (hsmall : (∑ q ∈ Finset.range np, hashCount (hnOf root np fun p => (a p).globalSize) (globalBnd D np (obbOf D (fun q => (a q).nel) box)) (obbOf D (fun q => (a q).nel) box q)) * 16 < Crystal.intMax)
    (val : Nat → K) (test : Box K → (Nat → K) → K) {nptMax : Nat} {findEl : Nat → Nat → List (Fp.Pt D) → List (FRes D)} {find : Nat → Nat → Fp.Pt D → FRes D} (hS : Searches np nptMax findEl find) (s0 : Nat → SuSt K) :
    AllSchedules (findptsSetup D root (realDom big toU ofU) np a).prog np s0 fun sf => (∀ q, q < np → SetupFacts D np root a box q (sf q)) ∧
      ∀ nsid : Nat → Nat, (∀ q < np, nsid q < 4294967296) →
      ∃ C : Nat → Fp.Pt D → Nat → Nat → Prop,
        (∀ p x q el, p < np → C p x q el → q < np ∧ el < (a q).nel ∧ 0 ≤ test (box q el) fun c => if h : c < D then val (x ⟨c, h⟩) else 0) ∧
        (∀ p x q el, q < np → el < (a q).nel → InHalfOpenBox (boxRanges D (box q el)) (coords val x) → (0 ≤ test (box q el) fun c => if h : c < D then val (x ⟨c, h⟩) else 0) → C p x q el) ∧
        ∀ t0 : Nat → FpSt D, CallOk np (fun p => (t0 p).xs) (fun p => (t0 p).outs) → AllSchedules (findpts val np fun q => (sf q).env val test (findEl q) nptMax false (nsid q)).prog np t0 fun tf =>
          ∀ p, p < np → (tf p).xs = (t0 p).xs ∧ (tf p).outs.length = (t0 p).xs.length ∧ (tf p).procs.length = (t0 p).xs.length ∧
            ∀ (i : Nat) x, (t0 p).xs[i]? = some x → ∃ o q, (tf p).outs[i]? = some o ∧ (tf p).procs[i]? = some q ∧
              IsBest val (fun q el => find q el x.1) (C p x.1) ⟨o.code, q, o.el, o.r, o.dist2⟩ := by
  have G := findpts_best hhn hnp hnp' (obbOf_proper (a := a) (box := box) hprop) hcell hsmall (fun q => { (s0 q).hb with obb := obbOf D (fun q => (a q).nel) box q }) (fun _ _ => rfl) val find
  have hc : (hnOf root np fun p => (a p).globalSize) ^ D ≤ 4294967296 * np := by
    have := Nat.mul_le_mul_left (2 ^ 32) hnp
    have e : (2 : Nat) ^ 32 = 4294967296 := by norm_num
    rw [← e]
    rcases hcell with hc | ⟨_, hc⟩
    · omega
    · exact hc
  have H := findptsSetup_all hD hnp hnp' big toU ofU hbox hprop hnu hhn hc hsmall s0 _ (by
    intro s s' hs h env he
    refine h env fun q hq => ?_
    have := he q hq
    rw [← hs q hq] at this
    exact this) G
  refine ⟨H.noInfinite, H.noDeadlock, fun c hr hf => ⟨⟨((H.result c hr hf).1).2, ?_⟩, (H.result c hr hf).2⟩⟩
  intro nsid hsid
  obtain ⟨h1, h2⟩ := (H.result c hr hf).1
  obtain ⟨C, hC1, hC2, hC3⟩ := h1 _ (setupDone_of_facts (val := val) (test := test) hnel h2 hS false hsid)
  have htest : ∀ q, q < np → ∀ el x, ((c.proc q).st.env val test (findEl q) nptMax false (nsid q)).loc.test el x = true ↔ el < (a q).nel ∧ 0 ≤ test (box q el) fun c => if h : c < D then val (x ⟨c, h⟩) else 0 := by
    intro q hq el x
    have hb : (c.proc q).st.boxes = (List.range (a q).nel).map (box q) := (h2 q hq).boxes
    show (match (c.proc q).st.boxes[el]? with
      | some b => decide (0 ≤ test b fun c => if h : c < D then val (x ⟨c, h⟩) else 0)
      | none => false) = true ↔ _
    rw [hb, List.getElem?_map]
    by_cases he : el < (a q).nel
    · rw [List.getElem?_range he]
      simp [he]
    · rw [List.getElem?_eq_none (by simpa using he)]
      simp [he]
  refine ⟨C, ?_, ?_, ?_⟩
  · intro p x q el hp hc
    obtain ⟨a1, -, a3⟩ := hC1 p x q el hp hc
    exact ⟨a1, ((htest q a1 el x).1 a3)⟩
  · intro p x q el hq hel hin ht
    refine hC2 p x q el _ hq ?_ hin ((htest q hq el x).2 ⟨hel, ht⟩)
    show (((List.range (a q).nel).map (box q)).map (boxRanges D))[el]? = _
    rw [List.getElem?_map, List.getElem?_map, List.getElem?_range hel]
    rfl
  · intro t0 ht
    have T := hC3 t0 ht
    refine ⟨T.noInfinite, T.noDeadlock, fun c' hr' hf' => ⟨fun p hp => ?_, (T.result c' hr' hf').2⟩⟩
    obtain ⟨b1, b2, b3, b4, -⟩ := (T.result c' hr' hf').1 p hp
    exact ⟨b1, b2, b3, b4⟩

end gen

end Gslib.Props
