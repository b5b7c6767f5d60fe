import Verif.Lemmas.FindptsMs
import Verif.Props.Findpts

/-!
# C55: `findptsms` in overlapping meshes
-/

namespace Gslib.Props
open Gslib Gslib.Mpi Gslib.Transfer Gslib.Gs Gslib.Hash Gslib.Num Gslib.Spec Gslib.GHash Gslib.Fp

variable {D : Nat} {K : Type} [Field K] [LinearOrder K] [IsStrictOrderedRing K] [FloorRing K]

/-- **C55 (`findptsms`)**. `np` processes with proper element boxes `obb q`, each belonging to a session `(env q).loc.nsid`, build the distributed hash table; then any number of points, each with a session id, is searched. On every
schedule of the construction and every schedule of the search, the search ends without abort or undefined behaviour. There is a set `C p x` of candidates (process, element) for a point with session id `x` asked by process `p`, not
depending on the schedule of the search, such that

* a candidate is an element of the mesh whose oriented box test the point passes, and its session is the one of the point if `sessm` is 1, else another one;
* every such element with a box containing the point (upper faces excluded) is a candidate;
* for each point the result stored at its index is the best one of its session (as in `findpts`), and no session has only better results: each session with a candidate has a best result with `disti` not larger. The result is "not
  found" exactly if there is no candidate.

`low` is `-DBL_MAX`. The old contents `junk` of the local variables do not matter. -/
theorem findptsms_best {np hn : Nat} (hhn : 0 < hn) (hnp : 0 < np) (hnp' : np ≤ 4294967295) {obb : Nat → List (List (Range K))} (h : ∀ q, q < np → ProperBoxes D (obb q))
    (hcell : hn ^ D ≤ 2 ^ 32 ∨ (np ∣ 2 ^ 32 ∧ hn ^ D ≤ 2 ^ 32 * np)) (hsmall : (∑ q ∈ Finset.range np, hashCount hn (globalBnd D np obb) (obb q)) * 16 < Crystal.intMax)
    (s0 : Nat → HbSt K) (h0 : ∀ q, q < np → (s0 q).obb = obb q) (val : Nat → K) (find : Nat → Nat → Fp.Pt D → FRes D) (low : Nat) (hlow : ∀ q el x, val low ≤ val (find q el x).disti) (junk : LRes D × Nat) :
    AllSchedules (GHash.hashBuild D hn np (globalBnd D np obb)).prog np s0 fun sf =>
      ∀ env : Nat → FEnv D K, SetupDone val np hn obb find sf env true → ∀ sessm : Nat,
      ∃ C : Nat → Fp.Pt D × Nat → Nat → Nat → Prop,
        (∀ p x q el, p < np → C p x q el → q < np ∧ el < (obb q).length ∧ (env q).loc.test el x.1 = true ∧ (sessm = 1 ↔ (env q).loc.nsid = x.2)) ∧
        (∀ p x q el box, q < np → (obb q)[el]? = some box → InHalfOpenBox box (coords val x.1) → (env q).loc.test el x.1 = true → (sessm = 1 ↔ (env q).loc.nsid = x.2) → C p x q el) ∧
        ∀ t0 : Nat → FpSt D, CallOk np (fun p => (t0 p).xs) (fun p => (t0 p).outs) → AllSchedules (findptsMs val low junk np sessm env).prog np t0 fun tf =>
          ∀ p, p < np → (tf p).xs = (t0 p).xs ∧ (tf p).outs.length = (t0 p).xs.length ∧ (tf p).procs.length = (t0 p).xs.length ∧
            ∀ (i : Nat) x, (t0 p).xs[i]? = some x → ∃ o q, (tf p).outs[i]? = some o ∧ (tf p).procs[i]? = some q ∧
              IsBestMs val (fun q el => find q el x.1) (fun q => (env q).loc.nsid) (C p x) ⟨o.code, q, o.el, o.r, o.dist2⟩ := by
  have G := setup_ready hhn hnp hnp' h hcell hsmall s0 h0 val find true
  refine ⟨G.noInfinite, G.noDeadlock, fun c hr hf => ⟨?_, (G.result c hr hf).2⟩⟩
  intro env henv sessm
  obtain ⟨lst, hx, glst, H, hglen, hl, hgin⟩ := (G.result c hr hf).1 env henv
  have hskip : ∀ q, q < np → ∀ sid, (!skipSession (env q).loc sessm sid) = true ↔ (sessm = 1 ↔ (env q).loc.nsid = sid) := by
    intro q hq sid
    unfold skipSession
    rw [H.ims q hq]
    by_cases h1 : sessm = 1 <;> by_cases h2 : (env q).loc.nsid = sid <;> simp [h1, h2]
  have hcand : ∀ q, q < np → ∀ (x : Fp.Pt D × Nat) el, el ∈ cands (env q).loc sessm (lst q) x ↔ el ∈ lst q x.1 ∧ (sessm = 1 ↔ (env q).loc.nsid = x.2) ∧ (env q).loc.test el x.1 = true := by
    intro q hq x el
    unfold cands
    rw [List.mem_filter, Bool.and_eq_true, hskip q hq]
  refine ⟨CandMs env lst glst sessm, ?_, ?_, ?_⟩
  · rintro p x q el hp ⟨c1, c2⟩
    have hq : q < np := by
      rcases c2 with rfl | c2
      · exact hp
      · exact H.glt x.1 q c2
    obtain ⟨d1, d2, d3⟩ := (hcand q hq x el).1 c1
    exact ⟨hq, (hl q hq).1 x.1 el d1, d3, d2⟩
  · intro p x q el box hq hb hin ht hs
    exact ⟨(hcand q hq x el).2 ⟨(hl q hq).2 x.1 el box hb hin, hs, ht⟩, Or.inr (hgin x.1 q hq ⟨box, List.mem_of_getElem? hb, hin⟩)⟩
  · intro t0 ht
    have hn1 : (∑ p ∈ Finset.range np, ((t0 p).xs.map fun x => (glst x.1).length).sum) ≤ (∑ p ∈ Finset.range np, (t0 p).xs.length) * np := by
      rw [Finset.sum_mul]
      exact Finset.sum_le_sum fun p _ => sum_map_le np _ glst hglen
    have hn2 : (∑ p ∈ Finset.range np, (t0 p).xs.length) ≤ (∑ p ∈ Finset.range np, (t0 p).xs.length) * np := Nat.le_mul_of_pos_right _ hnp
    obtain ⟨sf', e, hsf⟩ := findptsMs_run H low hlow junk sessm t0 ht.room ht.double ht.npt
      (lt_of_le_of_lt (Nat.mul_le_mul hn2 (by omega)) ht.small) (lt_of_le_of_lt (Nat.mul_le_mul_right _ hn1) ht.small)
    refine allSchedules_of_lockRun (findptsMs_ok val low junk np sessm env) e _ ?_
    intro tf htf p hp
    rw [htf p hp]
    exact hsf p hp

/-! ### example: the mesh of `exGObb` on 3 processes in 2 sessions -/

/-- an element search with a distance function -/
def exFindMs (q el : Nat) (x : Fp.Pt 2) : FRes 2 := ⟨fun i => x i % 1000, (q + el) % 1000, x 0 % 2 == 0, (3 * q + el) % 1000⟩

theorem exFindMs_low (q el : Nat) (x : Fp.Pt 2) : exVal 0 ≤ exVal (exFindMs q el x).disti := by
  unfold exVal
  have : (0 : Rat) ≤ ((exFindMs q el x).disti : Rat) := Nat.cast_nonneg _
  linarith

/-- the local data of a process of session `q % 2` can be set up -/
theorem exMs_local (q : Nat) (hq : q < 3) : ∃ loc : LEnv 2 Rat, LocalSetup exVal (exGObb q) loc (exFindMs q) true ∧ loc.nsid = q % 2 := by
  have hd : ∀ el (x : Fp.Pt 2), (∀ i, (exFindMs q el x).r i < 2 ^ 64) ∧ (exFindMs q el x).dist2 < 2 ^ 64 ∧ (exFindMs q el x).disti < 2 ^ 64 := by
    intro el x
    have hm : ∀ n, n % 1000 < 2 ^ 64 := fun n => by
      have := Nat.mod_lt n (show 0 < 1000 by decide)
      omega
    exact ⟨fun i => hm _, hm _, hm _⟩
  have hs : q % 2 < 4294967296 := by omega
  by_cases h2 : q = 2
  · refine ⟨⟨[], 1, 2, fun _ => some 2, fun el x => decide (el + x 1 < 100), fun el pts => pts.map (exFindMs q el), 5, true, q % 2⟩, ⟨Or.inr ?_, ?_, fun _ _ _ => rfl, show 0 < 5 by omega, rfl, hs, hd⟩, rfl⟩
    · subst h2
      refine ⟨rfl, fun x => ?_⟩
      show readBucket 2 (fun _ => some 2) 0 = some []
      decide
    · subst h2; decide
  · have hne : exGObb q ≠ [] := by
      rcases (show q = 0 ∨ q = 1 by omega) with rfl | rfl
      · decide
      · decide
    obtain ⟨bnd, hn, size, off, mx, e, _⟩ := local_hash_table hne (exGObb_proper q hq) 100 3
    refine ⟨⟨bnd, hn, size, off, fun el x => decide (el + x 1 < 100), fun el pts => pts.map (exFindMs q el), 5, true, q % 2⟩, ⟨Or.inl ⟨100, 3, mx, hne, e⟩, ?_, fun _ _ _ => rfl, show 0 < 5 by omega, rfl, hs, hd⟩, rfl⟩
    match q, hq with
    | 0, _ => decide
    | 1, _ => decide
    | 2, _ => decide

/-- whatever the tables of the distributed hash, the data can be completed to that of `findptsms` -/
theorem exMs_env (sf : Nat → HbSt Rat) : ∃ env : Nat → FEnv 2 Rat, SetupDone exVal 3 2 exGObb exFindMs sf env true ∧ ∀ q, q < 3 → (env q).loc.nsid = q % 2 := by
  choose loc hloc using fun q : Nat => (show ∃ loc : LEnv 2 Rat, q < 3 → LocalSetup exVal (exGObb q) loc (exFindMs q) true ∧ loc.nsid = q % 2 by
    by_cases hq : q < 3
    · obtain ⟨loc, h⟩ := exMs_local q hq
      exact ⟨loc, fun _ => h⟩
    · exact ⟨⟨[], 1, 2, fun _ => some 2, fun _ _ => true, fun el pts => pts.map (exFindMs q el), 5, true, 0⟩, fun h => absurd h hq⟩)
  exact ⟨fun q => ⟨loc q, globalBnd 2 3 exGObb, 2, (sf q).size, (sf q).off⟩, fun q hq => ⟨(hloc q hq).1, rfl, rfl, rfl, rfl⟩, fun q hq => (hloc q hq).2⟩

example (s0 : Nat → HbSt Rat) (h0 : ∀ q, q < 3 → (s0 q).obb = exGObb q) :=
  findptsms_best (np := 3) (hn := 2) (by decide) (by decide) (by decide) exGObb_proper (Or.inl (by decide)) (by decide +kernel) s0 h0 exVal exFindMs 0 exFindMs_low (junkRes, 7)

/-- **finding**: between sessions only `disti` is compared (findpts_imp.h:478, 488), not the code: here the process of the caller (session 0) found the point inside its element 3 (`dist2` 0, `disti` 1); process 1 of session 1 finds it not
inside, but at the border of its element 4, at distance 10 (`dist2` 100), with `disti` 5. The caller gets the border result. -/
theorem findptsms_border_beats_internal (junk : LRes 2 × Nat) :
    (msLoop (fun n => (n : Rat)) 0 true [outRow 0 1 ⟨1, 4, fun _ => 9, 100, 5, 1⟩] ⟨0, 0, false, false, junk, junk, [⟨0, 3, fun _ => 2, 0, 1, 0⟩], [0]⟩).map
      (fun s => (s.outs.map fun o => (o.code, o.el, o.dist2), s.procs)) = some ([(1, 4, 100)], [1]) := by
  have e : outRes (outRow (D := 2) 0 1 ⟨1, 4, fun _ => 9, 100, 5, 1⟩) = ⟨1, 4, fun _ => 9, 100, 5, 1⟩ := outRes_outRow _ _ _
  unfold msLoop msRow msPoint msSession msBetter msAll msStore
  rw [e]
  have u0 : (outRow (D := 2) 0 1 ⟨1, 4, fun _ => 9, 100, 5, 1⟩).u 0 = 0 := rfl
  have u1 : (outRow (D := 2) 0 1 ⟨1, 4, fun _ => 9, 100, 5, 1⟩).u 1 = 1 := rfl
  have u3 : (outRow (D := 2) 0 1 ⟨1, 4, fun _ => 9, 100, 5, 1⟩).u 3 = 1 := rfl
  have u4 : (outRow (D := 2) 0 1 ⟨1, 4, fun _ => 9, 100, 5, 1⟩).u 4 = 1 := rfl
  simp [u0, u1, u3, u4, msLoop, codeInternal, codeNotFound]

end Gslib.Props
