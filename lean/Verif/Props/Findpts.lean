import Verif.Lemmas.FindptsMerge
import Verif.Props.GlobalHash
import Verif.Props.Hash

/-!
# C42, C43: `findpts`
-/

namespace Gslib.Props
open Gslib Gslib.Mpi Gslib.Transfer Gslib.Gs Gslib.Hash Gslib.Num Gslib.Spec Gslib.GHash Gslib.Fp

variable {D : Nat} {K : Type} [Field K] [LinearOrder K] [IsStrictOrderedRing K] [FloorRing K]

/-- the local part of `findpts_data` of a process with the boxes `obb` (findpts_local_imp.h:213-239 `findptsms_local_setup`), in which `find` is the search of a point in an element, whatever the batch it is searched in:
the table is the one `hash_build` makes; a process without elements has an empty table; `ms`: overlapping meshes (several sessions) -/
structure LocalSetup (val : Nat → K) (obb : List (List (Range K))) (loc : LEnv D K) (find : Nat → Fp.Pt D → FRes D) (ms : Bool := false) : Prop where
  table : (∃ maxSize nu0 mx, obb ≠ [] ∧ hashBuildAll obb maxSize nu0 = some (loc.bnd, loc.hn, loc.size, loc.off, mx)) ∨
    (obb = [] ∧ ∀ x : Fp.Pt D, readBucket loc.size loc.off (hashIndex loc.hn loc.bnd (coords val x)) = some [])
  count : obb.length ≤ 4294967295
  pointwise : ∀ el pts, pts.length ≤ loc.nptMax → loc.findEl el pts = pts.map (find el)
  npt : 0 < loc.nptMax
  one : loc.ims = ms
  sid : loc.nsid < 4294967296
  double : ∀ el x, (∀ i, (find el x).r i < 2 ^ 64) ∧ (find el x).dist2 < 2 ^ 64 ∧ (find el x).disti < 2 ^ 64

/-- the local lists of a process -/
theorem LocalSetup.lists {val : Nat → K} {obb : List (List (Range K))} {loc : LEnv D K} {find : Nat → Fp.Pt D → FRes D} {ms : Bool} (h : LocalSetup val obb loc find ms) (hp : ProperBoxes D obb) :
    ∃ lst : Fp.Pt D → List Nat, ListsOk val loc lst ∧ (∀ x, ∀ el ∈ lst x, el < obb.length) ∧ ∀ x el box, obb[el]? = some box → InHalfOpenBox box (coords val x) → el ∈ lst x := by
  rcases h.table with ⟨ms, nu, mx, hne, e⟩ | ⟨rfl, e⟩
  · obtain ⟨bnd, hn, size, off, mx', e', _, a1, a2, _, a3⟩ := local_hash_table hne hp ms nu
    rw [e'] at e
    simp only [Option.some.injEq, Prod.mk.injEq] at e
    obtain ⟨rfl, rfl, rfl, rfl, rfl⟩ := e
    choose l l1 l2 l3 l4 using fun x : Fp.Pt D => a2 _ (a1 (coords val x))
    refine ⟨l, ⟨l1, l2, fun x el hel => lt_of_lt_of_le (l3 x el hel) h.count⟩, l3, ?_⟩
    intro x el box hb hx
    obtain ⟨l', e1, e2⟩ := a3 _ el box hb hx
    rw [l1 x] at e1
    obtain rfl := Option.some.inj e1
    exact e2
  · exact ⟨fun _ => [], ⟨e, fun _ => List.Pairwise.nil, by simp⟩, by simp, by simp⟩

theorem sum_map_le (np : Nat) (l : List (Fp.Pt D × Nat)) (g : Fp.Pt D → List Nat) (h : ∀ x, (g x).length ≤ np) : (l.map fun x => (g x.1).length).sum ≤ l.length * np := by
  induction l with
  | nil => simp
  | cons a l ih =>
    rw [List.map_cons, List.sum_cons, List.length_cons, Nat.add_mul, Nat.one_mul]
    have := h a.1
    omega

/-- the data of `findpts` after `findpts_setup`: on every process the local data and the distributed table left in the memory `sf` by `hash_build` -/
def SetupDone (val : Nat → K) (np hn : Nat) (obb : Nat → List (List (Range K))) (find : Nat → Nat → Fp.Pt D → FRes D) (sf : Nat → HbSt K) (env : Nat → FEnv D K) (ms : Bool := false) : Prop :=
  ∀ q, q < np → LocalSetup val (obb q) (env q).loc (find q) ms ∧ (env q).hn = hn ∧ (env q).bnd = globalBnd D np obb ∧ (env q).size = (sf q).size ∧ (env q).off = (sf q).off

/-- after the construction the tables can be read -/
theorem setup_ready {np hn : Nat} (hhn : 0 < hn) (hnp : 0 < np) (hnp' : np ≤ 4294967295) {obb : Nat → List (List (Range K))} (h : ∀ q, q < np → ProperBoxes D (obb q))
    (hcell : hn ^ D ≤ 2 ^ 32 ∨ (np ∣ 2 ^ 32 ∧ hn ^ D ≤ 2 ^ 32 * np)) (hsmall : (∑ q ∈ Finset.range np, hashCount hn (globalBnd D np obb) (obb q)) * 16 < Crystal.intMax)
    (s0 : Nat → HbSt K) (h0 : ∀ q, q < np → (s0 q).obb = obb q) (val : Nat → K) (find : Nat → Nat → Fp.Pt D → FRes D) (ms : Bool := false) :
    AllSchedules (GHash.hashBuild D hn np (globalBnd D np obb)).prog np s0 fun sf => ∀ env : Nat → FEnv D K, SetupDone val np hn obb find sf env ms →
      ∃ (lst : Nat → Fp.Pt D → List Nat) (h : Fp.Pt D → Nat) (glst : Fp.Pt D → List Nat), FpOk val np env lst find h glst ms ∧ (∀ x, (glst x).length ≤ np) ∧
        (∀ q, q < np → (∀ x, ∀ el ∈ lst q x, el < (obb q).length) ∧ ∀ x el box, (obb q)[el]? = some box → InHalfOpenBox box (coords val x) → el ∈ lst q x) ∧
        ∀ x q, q < np → (∃ box ∈ obb q, InHalfOpenBox box (coords val x)) → q ∈ glst x := by
  have G := global_hash_table hhn hnp hnp' h (by
    have := Nat.mul_le_mul_left (2 ^ 32) hnp
    have e : (2 : Nat) ^ 32 = 4294967296 := by norm_num
    rw [← e]
    rcases hcell with hc | ⟨_, hc⟩
    · omega
    · exact hc) hsmall s0 h0
  refine ⟨G.noInfinite, G.noDeadlock, fun c hr hf => ⟨?_, (G.result c hr hf).2⟩⟩
  obtain ⟨g1, g2⟩ := (G.result c hr hf).1
  generalize (fun p => (c.proc p).st) = sf at g1 g2
  intro env henv
  obtain ⟨w1, w2⟩ := globalBnd_within h hnp
  choose lst hl using fun q : Nat => (show ∃ lst : Fp.Pt D → List Nat, q < np → (ListsOk val (env q).loc lst ∧ (∀ x, ∀ el ∈ lst x, el < (obb q).length) ∧
      ∀ x el box, (obb q)[el]? = some box → InHalfOpenBox box (coords val x) → el ∈ lst x) by
    by_cases hq : q < np
    · obtain ⟨l, a, b, c⟩ := (henv q hq).1.lists (h q hq)
      exact ⟨l, fun _ => ⟨a, b, c⟩⟩
    · exact ⟨fun _ => [], fun h => absurd h hq⟩)
  let hx : Fp.Pt D → Nat := fun x => hashIndex hn (globalBnd D np obb) (coords val x)
  have hm : ∀ x, hx x % np < np := fun x => (g2 (coords val x)).1
  have hxlt : ∀ x, hx x < hn ^ D := by
    intro x
    have := hashIndex_lt hhn (globalBnd D np obb) (coords val x)
    rwa [w1] at this
  have e32 : (2 : Nat) ^ 32 = 4294967296 := by norm_num
  rw [e32] at hcell
  choose glst hg1 hg2 hg3 using fun x => g1 _ (hm x) _ (g2 (coords val x)).2.1
  have hglt : ∀ x, ∀ q ∈ glst x, q < np := fun x q hq => ((hg3 x q).1 hq).1
  have hgin : ∀ x q, q < np → (∃ box ∈ obb q, InHalfOpenBox box (coords val x)) → q ∈ glst x := by
    intro x q hq hb
    obtain ⟨l, e1, e2⟩ := (g2 (coords val x)).2.2 q hq hb
    rw [show readBucket _ _ _ = _ from hg1 x] at e1
    obtain rfl := Option.some.inj e1
    exact e2
  have hglen : ∀ x, (glst x).length ≤ np := by
    intro x
    have hs : glst x ⊆ List.range np := fun q hq => List.mem_range.2 (hglt x q hq)
    have := ((hg2 x).subperm hs).length_le
    rwa [List.length_range] at this
  have H : FpOk val np env lst find hx glst ms := {
    np0 := hnp
    np1 := hnp'
    lists := fun q hq => (hl q hq).1
    pw := fun q hq => (henv q hq).1.pointwise
    max := fun q hq => (henv q hq).1.npt
    ims := fun q hq => (henv q hq).1.one
    sid := fun q hq => (henv q hq).1.sid
    hash := fun q hq x => by rw [(henv q hq).2.1, (henv q hq).2.2.1]
    hmod := fun x => by
      have := hxlt x
      rcases hcell with hc | ⟨hd, _⟩
      · rw [Nat.mod_eq_of_lt (show hx x < 4294967296 by omega)]
      · exact Nat.mod_mod_of_dvd _ hd
    hdiv := fun x => by
      have := hxlt x
      rcases hcell with hc | ⟨_, hc⟩
      · exact (Nat.div_le_self _ _).trans_lt (by omega)
      · exact Nat.div_lt_of_lt_mul (by rw [Nat.mul_comm]; omega)
    gread := fun x => by
      rw [(henv _ (hm x)).2.2.2.1, (henv _ (hm x)).2.2.2.2]
      exact hg1 x
    glt := hglt
    fit := fun q hq el x => (henv q hq).1.double el x }
  exact ⟨lst, hx, glst, H, hglen, fun q hq => (hl q hq).2, hgin⟩

/-- **C42, C43 (`findpts`)**. `np` processes with proper element boxes `obb q`, some possibly without elements, build the distributed hash table; then any number of points is searched on each process. On every schedule of the
construction and every schedule of the search, the search ends without abort or undefined behaviour. There is a set `C p x` of candidates (process, element) for a point `x` asked by process `p`, not depending on the schedule of
the search, such that

* a candidate is an element of the mesh whose oriented box test the point passes;
* every element of any process with a box containing the point (upper faces excluded) and whose oriented box test it passes, is a candidate;
* for each point, the result `code`, `proc`, `el`, `r`, `dist2` stored at its index on the asking process is the best among the candidates: an "internal" one if there is any, else one with the least distance, "not found" exactly
  if there is no candidate. `r` and `dist2` are what the element search yields for this very point.
* The points found inside an element of the asking process keep the result of the local search.

The number of cells is at most `2^32`, or `2^32` per process if the number of processes divides `2^32`: else points get lost, see `findpts_route_truncated`. -/
theorem findpts_best {np hn : Nat} (hhn : 0 < hn) (hnp : 0 < np) (hnp' : np ≤ 4294967295) {obb : Nat → List (List (Range K))} (h : ∀ q, q < np → ProperBoxes D (obb q))
    (hcell : hn ^ D ≤ 2 ^ 32 ∨ (np ∣ 2 ^ 32 ∧ hn ^ D ≤ 2 ^ 32 * np)) (hsmall : (∑ q ∈ Finset.range np, hashCount hn (globalBnd D np obb) (obb q)) * 16 < Crystal.intMax)
    (s0 : Nat → HbSt K) (h0 : ∀ q, q < np → (s0 q).obb = obb q) (val : Nat → K) (find : Nat → Nat → Fp.Pt D → FRes D) :
    AllSchedules (GHash.hashBuild D hn np (globalBnd D np obb)).prog np s0 fun sf =>
      ∀ env : Nat → FEnv D K, SetupDone val np hn obb find sf env →
      ∃ C : Nat → Fp.Pt D → Nat → Nat → Prop,
        (∀ p x q el, p < np → C p x q el → q < np ∧ el < (obb q).length ∧ (env q).loc.test el x = true) ∧
        (∀ p x q el box, q < np → (obb q)[el]? = some box → InHalfOpenBox box (coords val x) → (env q).loc.test el x = true → C p x q el) ∧
        ∀ t0 : Nat → FpSt D, CallOk np (fun p => (t0 p).xs) (fun p => (t0 p).outs) → AllSchedules (findpts val np env).prog np t0 fun tf =>
          ∀ p, p < np → (tf p).xs = (t0 p).xs ∧ (tf p).outs.length = (t0 p).xs.length ∧ (tf p).procs.length = (t0 p).xs.length ∧
            (∀ (i : Nat) x, (t0 p).xs[i]? = some x → ∃ o q, (tf p).outs[i]? = some o ∧ (tf p).procs[i]? = some q ∧
              IsBest val (fun q el => find q el x.1) (C p x.1) ⟨o.code, q, o.el, o.r, o.dist2⟩) ∧
            ∀ l, findptsLocal val (env p).loc 0 (t0 p).xs (t0 p).outs (t0 p).scratch = .ok l →
              ∀ (i : Nat) o, l[i]? = some o → o.code = 0 → (tf p).outs[i]? = some o ∧ (tf p).procs[i]? = some p := by
  have G := setup_ready hhn hnp hnp' h hcell hsmall s0 h0 val find
  refine ⟨G.noInfinite, G.noDeadlock, fun c hr hf => ⟨?_, (G.result c hr hf).2⟩⟩
  intro env henv
  obtain ⟨lst, hx, glst, H, hglen, hl, hgin⟩ := (G.result c hr hf).1 env henv
  refine ⟨CandOf env lst glst, ?_, ?_, ?_⟩
  · rintro p x q el hp ⟨c1, c2, c3⟩
    have hq : q < np := by
      rcases c3 with rfl | c3
      · exact hp
      · exact H.glt x q c3
    exact ⟨hq, (hl q hq).1 x el c1, c2⟩
  · intro p x q el box hq hb hin ht
    exact ⟨(hl q hq).2 x el box hb hin, ht, Or.inr (hgin x q hq ⟨box, List.mem_of_getElem? hb, hin⟩)⟩
  · intro t0 ht
    have hn1 : (∑ p ∈ Finset.range np, ((t0 p).xs.map fun x => (glst x.1).length).sum) ≤ (∑ p ∈ Finset.range np, (t0 p).xs.length) * np := by
      rw [Finset.sum_mul]
      exact Finset.sum_le_sum fun p _ => sum_map_le np _ glst hglen
    have hn2 : (∑ p ∈ Finset.range np, (t0 p).xs.length) ≤ (∑ p ∈ Finset.range np, (t0 p).xs.length) * np := Nat.le_mul_of_pos_right _ hnp
    obtain ⟨sf', e, hsf⟩ := findpts_run H t0 ht.room ht.double ht.npt
      (lt_of_le_of_lt (Nat.mul_le_mul hn2 (by omega)) ht.small) (lt_of_le_of_lt (Nat.mul_le_mul_right _ hn1) ht.small)
    refine allSchedules_of_lockRun (findpts_ok val np env) e _ ?_
    intro tf htf p hp
    rw [htf p hp]
    obtain ⟨a1, a2, a3, a4⟩ := hsf p hp
    refine ⟨a1, a2, a3, ?_, ?_⟩
    · intro i x hxi
      have hi : i < (t0 p).outs.length := by rw [ht.room p hp]; exact (List.getElem?_eq_some_iff.1 hxi).1
      obtain ⟨o, q, b1, b2, b3, _⟩ := a4 i x _ hxi (List.getElem?_eq_getElem hi)
      exact ⟨o, q, b1, b2, b3⟩
    · intro l hloc i o hlo ho
      obtain ⟨l', e1, e2, e3⟩ := findptsLocal_run (H.lists p hp) (H.pw p hp) (H.max p hp) 0 (t0 p).xs (t0 p).outs (ht.room p hp) (t0 p).scratch
      rw [hloc] at e1
      obtain rfl := Outcome.ok.inj e1
      have hi : i < (t0 p).xs.length := by rw [← e2]; exact (List.getElem?_eq_some_iff.1 hlo).1
      have hi' : i < (t0 p).outs.length := by rw [ht.room p hp]; exact hi
      have hx' := List.getElem?_eq_getElem hi
      have ho' := List.getElem?_eq_getElem hi'
      have := e3 i _ _ hx' ho'
      rw [hlo] at this
      obtain rfl := Option.some.inj this
      obtain ⟨o, q, b1, b2, _, b4⟩ := a4 i _ _ hx' ho'
      obtain ⟨rfl, rfl⟩ := b4 ho
      exact ⟨b1, b2⟩

/-- **finding**: the cell number is converted to `uint` before it is reduced modulo the number of processes (findpts_imp.h:319, 323), but not where the table is built (findpts_imp.h:139). With more than `2^32` cells and a number of
processes that does not divide `2^32` the points of the cells from `2^32` on are sent to a process that does not keep the cell. Here: 3 processes, `65537^2` cells, the point at the upper corner. -/
theorem findpts_route_truncated :
    ∃ (bnd : List (Range Rat)) (x : Fp.Pt 2), ∀ env : FEnv 2 Rat, env.hn = 65537 → env.bnd = bnd →
      (srcRow (fun n => (n : Rat)) 3 env 0 (x, 0)).u 1 ≠ hashIndex 65537 bnd (coords (fun n => (n : Rat)) x) % 3 ∧ hashIndex 65537 bnd (coords (fun n => (n : Rat)) x) / 3 < 4294967296 := by
  refine ⟨[⟨0, 1⟩, ⟨0, 1⟩], fun _ => 1, ?_⟩
  intro env h1 h2
  have e : hashIndex 65537 [⟨0, 1⟩, ⟨0, (1 : Rat)⟩] (coords (fun n => (n : Rat)) (fun _ : Fin 2 => 1)) = 4295098368 := by decide +kernel
  unfold srcRow
  rw [h1, h2, e]
  decide

/-! ### example: the mesh of `exGObb` on 3 processes, the third without elements -/

/-- a point `(a/4, b/4)`, coded by `a`, `b` -/
def exVal (n : Nat) : Rat := (n : Rat) / 4

/-- an element search: `r` is the point, `dist2` is the element number, nothing is internal unless the first coordinate is even -/
def exFind (q el : Nat) (x : Fp.Pt 2) : FRes 2 := ⟨fun i => x i % 1000, (q + el) % 1000, x 0 % 2 == 0, 0⟩

/-- the local data of a process can be set up -/
theorem exFp_local (q : Nat) (hq : q < 3) : ∃ loc : LEnv 2 Rat, LocalSetup exVal (exGObb q) loc (exFind q) ∧ loc.test = fun el x => decide (el + x 1 < 100) := by
  have hd : ∀ el (x : Fp.Pt 2), (∀ i, (exFind q el x).r i < 2 ^ 64) ∧ (exFind q el x).dist2 < 2 ^ 64 ∧ (exFind q el x).disti < 2 ^ 64 := by
    intro el x
    refine ⟨fun i => ?_, ?_, show 0 < 2 ^ 64 by norm_num⟩
    · show x i % 1000 < _
      have := Nat.mod_lt (x i) (show 0 < 1000 by decide)
      omega
    · show (q + el) % 1000 < _
      have := Nat.mod_lt (q + el) (show 0 < 1000 by decide)
      omega
  by_cases h2 : q = 2
  · refine ⟨⟨[], 1, 2, fun _ => some 2, fun el x => decide (el + x 1 < 100), fun el pts => pts.map (exFind q el), 5, false, 0⟩, ⟨Or.inr ?_, ?_, fun _ _ _ => rfl, show 0 < 5 by omega, rfl, show 0 < 4294967296 by omega, hd⟩, rfl⟩
    · subst h2
      refine ⟨rfl, fun x => ?_⟩
      show readBucket 2 (fun _ => some 2) 0 = some []
      decide
    · subst h2; decide
  · have hne : exGObb q ≠ [] := by
      rcases (show q = 0 ∨ q = 1 by omega) with rfl | rfl
      · decide
      · decide
    obtain ⟨bnd, hn, size, off, mx, e, _⟩ := local_hash_table hne (exGObb_proper q hq) 100 3
    refine ⟨⟨bnd, hn, size, off, fun el x => decide (el + x 1 < 100), fun el pts => pts.map (exFind q el), 5, false, 0⟩, ⟨Or.inl ⟨100, 3, mx, hne, e⟩, ?_, fun _ _ _ => rfl, show 0 < 5 by omega, rfl, show 0 < 4294967296 by omega, hd⟩, rfl⟩
    match q, hq with
    | 0, _ => decide
    | 1, _ => decide
    | 2, _ => decide

/-- whatever the tables of the distributed hash, the data can be completed to that of `findpts` -/
theorem exFp_env (sf : Nat → HbSt Rat) : ∃ env : Nat → FEnv 2 Rat, SetupDone exVal 3 2 exGObb exFind sf env := by
  choose loc hloc using fun q : Nat => (show ∃ loc : LEnv 2 Rat, q < 3 → LocalSetup exVal (exGObb q) loc (exFind q) by
    by_cases hq : q < 3
    · obtain ⟨loc, h, _⟩ := exFp_local q hq
      exact ⟨loc, fun _ => h⟩
    · exact ⟨⟨[], 1, 2, fun _ => some 2, fun _ _ => true, fun el pts => pts.map (exFind q el), 5, false, 0⟩, fun h => absurd h hq⟩)
  exact ⟨fun q => ⟨loc q, globalBnd 2 3 exGObb, 2, (sf q).size, (sf q).off⟩, fun q hq => ⟨hloc q hq, rfl, rfl, rfl, rfl⟩⟩

/-- points asked: three on process 0, none on process 1, one on process 2 -/
def exPts (q : Nat) : List (Fp.Pt 2 × Nat) := if q = 0 then [(![1, 5], 0), (![3, 3], 0), (![9, 9], 0)] else if q = 2 then [(![7, 2], 0)] else []

theorem exCall (t0 : Nat → FpSt 2) (hx : ∀ q, (t0 q).xs = exPts q) (ho : ∀ q, (t0 q).outs.length = (exPts q).length) : CallOk 3 (fun p => (t0 p).xs) (fun p => (t0 p).outs) where
  room := fun p _ => by rw [hx, ho]
  double := by
    intro p hp x hxm
    rw [hx] at hxm
    match p, hp with
    | 0, _ =>
      simp only [exPts, if_true, List.mem_cons, List.not_mem_nil, or_false] at hxm
      rcases hxm with rfl | rfl | rfl
      all_goals exact ⟨by decide, by decide⟩
    | 1, _ => simp [exPts] at hxm
    | 2, _ =>
      simp [exPts] at hxm
      subst hxm
      exact ⟨by decide, by decide⟩
  npt := by
    intro p hp
    rw [hx]
    match p, hp with
    | 0, _ => decide
    | 1, _ => decide
    | 2, _ => decide
  small := by
    simp only [hx]
    decide

example (s0 : Nat → HbSt Rat) (h0 : ∀ q, q < 3 → (s0 q).obb = exGObb q) :=
  findpts_best (np := 3) (hn := 2) (by decide) (by decide) (by decide) exGObb_proper (Or.inl (by decide)) (by decide +kernel) s0 h0 exVal exFind

end Gslib.Props
