import Verif.Spec.FindptsEval
import Verif.Lemmas.FindptsMerge

/-! # `findpts_eval`: lemmas -/

namespace Gslib.Fp
open Gslib Gslib.Mpi Gslib.Transfer Gslib.Gs Gslib.Hash Gslib.Num Gslib.Spec

variable {D : Nat} {K : Type} [Field K] [LinearOrder K] [FloorRing K]

theorem lens_fdtr : Lens (FdSt.tr (D := D)) FdSt.setTr := ⟨fun _ _ => rfl, fun _ => rfl, fun _ _ _ => rfl⟩
theorem lens_fdfp : Lens (FdSt.fp (D := D)) FdSt.setFp := ⟨fun _ _ => rfl, fun _ => rfl, fun _ _ _ => rfl⟩

theorem localEval_run {env : EvEnv D} {ev : (Nat → Nat) → (Fin D → Nat) → Nat} (hp : ∀ f pts, pts.length ≤ env.nptMax → env.evalEl f pts = pts.map (ev f)) (hm : 0 < env.nptMax) (inp : Nat → Nat) :
    ∀ (n : Nat) (rows : List (EvSrc D)), rows.length < n → localEval env inp n rows = some (rows.map fun r => ev (fun j => inp (r.u 2 * env.ntot % 4294967296 + j)) r.d)
  | 0, rows, h => by omega
  | n + 1, [], _ => by rw [localEval]; rfl
  | n + 1, p :: ps, h => by
    rw [localEval]
    generalize hb : ((p :: ps).take env.nptMax).takeWhile (fun q => q.u 2 == p.u 2) = batch
    have hpre : batch <+: p :: ps := by
      rw [← hb]
      exact (List.takeWhile_prefix _).trans (List.take_prefix _ _)
    obtain ⟨rest, hr⟩ := hpre
    have hdrop : (p :: ps).drop batch.length = rest := by rw [← hr, List.drop_left]
    have hpos : 0 < batch.length := by
      rw [← hb]
      obtain ⟨m, hm'⟩ : ∃ m, env.nptMax = m + 1 := ⟨env.nptMax - 1, by omega⟩
      rw [hm', List.take_succ_cons, List.takeWhile_cons_of_pos (by simp)]
      simp
    have hle : batch.length ≤ env.nptMax := by
      rw [← hb]
      refine (List.takeWhile_prefix _).length_le.trans ?_
      rw [List.length_take]; omega
    have hel : ∀ r ∈ batch, r.u 2 = p.u 2 := by
      intro r hr
      rw [← hb] at hr
      simpa using List.all_eq_true.1 (List.all_takeWhile (p := fun q : EvSrc D => q.u 2 == p.u 2) (l := (p :: ps).take env.nptMax)) r hr
    have hlen : rest.length < n := by
      have := congrArg List.length hr
      rw [List.length_append] at this
      omega
    rw [hdrop, localEval_run hp hm inp n rest hlen, Option.map_some, hp _ _ (by rw [List.length_map]; exact hle), ← hr, List.map_append, List.map_map]
    congr 2
    apply List.map_congr_left
    intro r hrb
    rw [hel r hrb]
    rfl

/-- the row of a point -/
def evRow (p i : Nat) (a : EvArg D) : EvSrc D := ⟨a.r, ![i, p, a.el]⟩

/-- the saved pattern is the one of the points `args` -/
def Saved (np : Nat) (args : Nat → List (EvArg D)) (sav : Nat → List (EvSrc D)) : Prop :=
  (∀ q, q < np → ∀ r, r ∈ sav q ↔ ∃ p, p < np ∧ ∃ (i : Nat) (a : EvArg D), (args p)[i]? = some a ∧ a.code ≠ 2 ∧ a.proc = q ∧ r = evRow p i a) ∧
    (∑ q ∈ Finset.range np, (sav q).length) ≤ ∑ p ∈ Finset.range np, (args p).length

theorem mem_evRows {args : List (EvArg D)} {r : EvSrc D} : r ∈ evRows args ↔ ∃ (i : Nat) (a : EvArg D), args[i]? = some a ∧ a.code ≠ 2 ∧ r = ⟨a.r, ![i, a.proc, a.el]⟩ := by
  unfold evRows
  simp only [List.mem_map, List.mem_filter, Prod.exists, List.mem_zipIdx_iff_getElem?]
  constructor
  · rintro ⟨a, i, ⟨h1, h2⟩, rfl⟩
    exact ⟨i, a, h1, by simpa using h2, rfl⟩
  · rintro ⟨i, a, h1, h2, rfl⟩
    exact ⟨a, i, ⟨h1, by simpa using h2⟩, rfl⟩

theorem evRows_length (args : List (EvArg D)) : (evRows args).length ≤ args.length := by
  unfold evRows
  rw [List.length_map]
  refine (List.length_filter_le _ _).trans ?_
  rw [List.length_zipIdx]

theorem evSetup_ok (D np : Nat) : (evSetup D np).Ok np := Coll.seq_ok (Coll.seq_ok (Coll.loc_ok _ _ _) (recTransfer_ok _ _ _ _ _ _)) (Coll.loc_ok _ _ _)

theorem evRun_ok (np : Nat) (env : Nat → EvEnv D) : (evRun np env).Ok np := Coll.seq_ok (Coll.seq_ok (Coll.loc_ok _ _ _) (recTransfer_ok _ _ _ _ _ _)) (Coll.loc_ok _ _ _)

theorem findptsEval_ok (np : Nat) (env : Nat → EvEnv D) (fev : Bool) : (findptsEval np env fev).Ok np := by
  unfold findptsEval
  split
  · exact evRun_ok np env
  · exact Coll.seq_ok (evSetup_ok D np) (evRun_ok np env)

theorem evSetup_run {np : Nat} (hnp' : np ≤ 4294967295) {eenv : Nat → EvEnv D} {args : Nat → List (EvArg D)} (ha : ArgsOk np eenv args) (s0 : Nat → FdSt D) (h0 : ∀ p, p < np → (s0 p).args = args p) :
    ∃ sf, (evSetup D np).run np s0 = .ok sf ∧ (∀ p, p < np → (sf p).inp = (s0 p).inp ∧ (sf p).out = (s0 p).out) ∧ Saved np args fun p => (sf p).savpt := by
  let s1 : Nat → FdSt D := fun p => if p < np then { s0 p with fp := { (s0 p).fp with tr := putRows (evSrcLayout D) (s0 p).fp.tr (evRows (s0 p).args) } } else s0 p
  have r1 : (Coll.loc (fun _ => ev1 (D := D)) ([] : List Nat)).run np s0 = .ok s1 := Coll.loc_run_ok fun p hp => rfl
  have hfit : ∀ q, q < np → ∀ r ∈ evRows (args q), r.Fit ∧ r.u 1 < np := by
    intro q hq r hr
    obtain ⟨i, a, h1, h2, rfl⟩ := mem_evRows.1 hr
    obtain ⟨f1, f2, _, f3⟩ := ha.found q hq a (List.mem_of_getElem? h1) h2
    have hi := (List.getElem?_eq_some_iff.1 h1).1
    have := ha.len q hq
    refine ⟨⟨f3, fun j => ?_⟩, f1⟩
    match j with
    | 0 => show i < _; omega
    | 1 => show a.proc < _; omega
    | 2 => exact f2
  obtain ⟨t, r2, ht⟩ := recTransfer_run lens_fdtr (np := np) (k := D) (1 : Fin 3) 4 (Or.inr (Or.inl (by omega))) true (fun q => evRows (args q)) s1 hnp' hfit
    (by intro q hq; simp only [s1, if_pos hq]; rw [← h0 q hq]; rfl)
    (by
      have h1 : (∑ q ∈ Finset.range np, (evRows (args q)).length) ≤ ∑ p ∈ Finset.range np, (args p).length := Finset.sum_le_sum fun q _ => evRows_length _
      have e : ((8 * D + 4 * 3 + 4 - 4 + 3) / 4 + 3) * 4 = 8 * D + 24 := by omega
      rw [Nat.mul_assoc, e]
      exact lt_of_le_of_lt (Nat.mul_le_mul_right _ h1) ha.small)
  have hsort : ∀ q, ∃ out : List (EvSrc D), q < np → Sarray.sarraySort [.int 4 fun r => r.u 2] (getRows (evSrcLayout D) (t q)) (s0 q).fp.scratch = .ok out ∧
      out.Perm (arrived np (fun r => r.u 1) (Rec.set 1) true (fun q => evRows (args q)) q) := by
    intro q
    by_cases hq : q < np
    · obtain ⟨out, e, ho⟩ := Props.sarray_sort_lexicographic (κ := Nat) [.int 4 fun r : EvSrc D => r.u 2] (getRows (evSrcLayout D) (t q)) (s0 q).fp.scratch (by
        intro f hf
        rw [List.mem_singleton] at hf
        subst hf
        intro r hr
        have := (List.Perm.mem_iff (ht q hq)).1 hr
        unfold arrived at this
        obtain ⟨w, hw, hm⟩ := List.mem_flatMap.1 this
        obtain ⟨z, hz, rfl⟩ := List.mem_map.1 hm
        have := ((hfit w (List.mem_range.1 hw) z (List.mem_of_mem_filter hz)).1).2 2
        show z.u 2 < _
        norm_num
        exact this)
      exact ⟨out, fun _ => ⟨e, ho.perm.trans (ht q hq)⟩⟩
    · exact ⟨[], fun h => absurd h hq⟩
  choose out hout using hsort
  refine ⟨_, Coll.seq_run_ok (Coll.seq_ok (Coll.loc_ok _ _ _) (recTransfer_ok _ _ _ _ _ _)) (Coll.seq_run_ok (Coll.loc_ok _ _ _) r1 r2)
    (Coll.loc_run_ok (g := fun p => { (s1 p).setTr (t p) with savpt := out p }) ?_), ?_, ?_, ?_⟩
  · intro p hp
    unfold ev2
    have e1 : ((if p < np then (s1 p).setTr (t p) else s1 p) : FdSt D) = (s1 p).setTr (t p) := if_pos hp
    have e2 : ((s1 p).setTr (t p)).fp.scratch = (s0 p).fp.scratch := by simp only [s1, if_pos hp]; rfl
    rw [e1, e2, show ((s1 p).setTr (t p)).fp.tr = t p from rfl, (hout p hp).1]
    rfl
  · intro p hp
    simp only [if_pos hp]
    simp only [s1, if_pos hp]
    exact ⟨rfl, rfl⟩
  · intro q hq r
    simp only [if_pos hq]
    rw [(hout q hq).2.mem_iff]
    unfold arrived
    simp only [List.mem_flatMap, List.mem_range, List.mem_map, List.mem_filter, if_true, decide_eq_true_eq]
    have hset : ∀ p i (a : EvArg D), Rec.set 1 p (⟨a.r, ![i, a.proc, a.el]⟩ : EvSrc D) = evRow p i a := by
      intro p i a
      ext j
      · rfl
      · match j with
        | 0 => rfl
        | 1 => rfl
        | 2 => rfl
    constructor
    · rintro ⟨p, hp, z, ⟨hz, hzq⟩, rfl⟩
      obtain ⟨i, a, h1, h2, rfl⟩ := mem_evRows.1 hz
      exact ⟨p, hp, i, a, h1, h2, hzq, hset p i a⟩
    · rintro ⟨p, hp, i, a, h1, h2, h3, rfl⟩
      exact ⟨p, hp, _, ⟨mem_evRows.2 ⟨i, a, h1, h2, rfl⟩, h3⟩, hset p i a⟩
  · have e : ∀ q ∈ Finset.range np, ((if q < np then ({ (s1 q).setTr (t q) with savpt := out q } : FdSt D) else (if q < np then (s1 q).setTr (t q) else s1 q)).savpt).length =
        ((arrived np (fun r => r.u 1) (Rec.set 1) true (fun q => evRows (args q)) q).map fun _ => 1).sum := by
      intro q hq
      have hq' := Finset.mem_range.1 hq
      simp only [if_pos hq']
      rw [(hout q hq').2.length_eq]
      simp
    rw [Finset.sum_congr rfl e, sum_arrived np _ _ true _ (fun _ => 1) (fun _ _ => rfl) (fun q hq r hr => (hfit q hq r hr).2)]
    refine Finset.sum_le_sum fun q _ => ?_
    simp
    exact evRows_length _

theorem evStore_run (v : Nat → Option Nat) : ∀ (l : List EvOut) (out : List Nat), (∀ r ∈ l, r.u 0 < out.length ∧ v (r.u 0) = some (r.d 0)) →
    ∃ out', forList evStore l out = some out' ∧ out'.length = out.length ∧ ∀ i : Nat, ((∃ r ∈ l, r.u 0 = i) → out'[i]? = v i) ∧ ((∀ r ∈ l, r.u 0 ≠ i) → out'[i]? = out[i]?)
  | [], out, _ => ⟨out, rfl, rfl, fun i => ⟨by simp, fun _ => rfl⟩⟩
  | a :: l, out, h => by
    obtain ⟨h1, h2⟩ := h a (by simp)
    obtain ⟨out', e, hl, ho⟩ := evStore_run v l (out.set (a.u 0) (a.d 0)) (by
      intro r hr
      rw [List.length_set]
      exact h r (by simp [hr]))
    refine ⟨out', ?_, by rw [hl, List.length_set], fun i => ⟨?_, ?_⟩⟩
    · rw [forList, evStore, if_pos h1, Option.bind_some, e]
    · rintro ⟨r, hr, rfl⟩
      by_cases hin : ∃ r' ∈ l, r'.u 0 = r.u 0
      · exact (ho _).1 hin
      · have : r = a := by
          rcases List.mem_cons.1 hr with h | h
          · exact h
          · exact absurd ⟨r, h, rfl⟩ hin
        subst this
        rw [(ho _).2 (fun r' hr' he => hin ⟨r', hr', he⟩), List.getElem?_set_self h1, h2]
    · intro hn
      rw [(ho i).2 (fun r hr => hn r (by simp [hr])), List.getElem?_set_ne (hn a (by simp))]

theorem evRun_run {np : Nat} (hnp' : np ≤ 4294967295) {eenv : Nat → EvEnv D} {ev : Nat → (Nat → Nat) → (Fin D → Nat) → Nat} (he : EvEnvOk np eenv ev) {args : Nat → List (EvArg D)} (ha : ArgsOk np eenv args)
    (s0 : Nat → FdSt D) (hs : Saved np args fun p => (s0 p).savpt) (hout : ∀ p, p < np → (args p).length ≤ (s0 p).out.length) :
    ∃ sf, (evRun np eenv).run np s0 = .ok sf ∧ (∀ p, p < np → (sf p).savpt = (s0 p).savpt ∧
      EvalResult (evAt eenv ev fun q => (s0 q).inp) (args p) (s0 p).out (sf p).out) := by
  let rows : Nat → List EvOut := fun q => (s0 q).savpt.map fun r => ⟨![ev q (fun j => (s0 q).inp (r.u 2 * (eenv q).ntot % 4294967296 + j)) r.d], ![r.u 0, r.u 1]⟩
  let s1 : Nat → FdSt D := fun p => if p < np then { s0 p with fp := { (s0 p).fp with tr := putRows evOutLayout (s0 p).fp.tr (rows p) } } else s0 p
  have r1 : (Coll.loc (ev3 eenv) ([] : List Nat)).run np s0 = .ok s1 := by
    apply Coll.loc_run_ok
    intro p hp
    unfold ev3
    rw [localEval_run (he.pw p hp) (he.npt p hp) (s0 p).inp _ _ (Nat.lt_succ_self _)]
    simp only [Outcome.ofOption, Outcome.bind]
    have : ∀ l : List (EvSrc D), ((l.zip (l.map fun r => ev p (fun j => (s0 p).inp (r.u 2 * (eenv p).ntot % 4294967296 + j)) r.d)).map fun z => (⟨![z.2], ![z.1.u 0, z.1.u 1]⟩ : EvOut)) =
        l.map fun r => ⟨![ev p (fun j => (s0 p).inp (r.u 2 * (eenv p).ntot % 4294967296 + j)) r.d], ![r.u 0, r.u 1]⟩ := by
      intro l
      induction l with
      | nil => rfl
      | cons a l ih => rw [List.map_cons, List.zip_cons_cons, List.map_cons, ih, List.map_cons]
    rw [this]
  have hrow : ∀ q, q < np → ∀ r, r ∈ rows q ↔ ∃ p, p < np ∧ ∃ (i : Nat) (a : EvArg D), (args p)[i]? = some a ∧ a.code ≠ 2 ∧ a.proc = q ∧ r = ⟨![evAt eenv ev (fun q => (s0 q).inp) q a.el a.r], ![i, p]⟩ := by
    intro q hq r
    have hv : ∀ p, p < np → ∀ (i : Nat) (a : EvArg D), (args p)[i]? = some a → a.code ≠ 2 → a.proc = q →
        (⟨![ev q (fun j => (s0 q).inp ((evRow p i a).u 2 * (eenv q).ntot % 4294967296 + j)) (evRow p i a).d], ![(evRow p i a).u 0, (evRow p i a).u 1]⟩ : EvOut) =
          ⟨![evAt eenv ev (fun q => (s0 q).inp) q a.el a.r], ![i, p]⟩ := by
      intro p hp i a h1 h2 h3
      obtain ⟨_, _, f3, _⟩ := ha.found p hp a (List.mem_of_getElem? h1) h2
      rw [h3] at f3
      have : (evRow p i a).u 2 * (eenv q).ntot % 4294967296 = a.el * (eenv q).ntot := Nat.mod_eq_of_lt f3
      rw [this]
      rfl
    simp only [rows, List.mem_map]
    constructor
    · rintro ⟨z, hz, rfl⟩
      obtain ⟨p, hp, i, a, h1, h2, h3, rfl⟩ := (hs.1 q hq z).1 hz
      exact ⟨p, hp, i, a, h1, h2, h3, hv p hp i a h1 h2 h3⟩
    · rintro ⟨p, hp, i, a, h1, h2, h3, rfl⟩
      exact ⟨_, (hs.1 q hq _).2 ⟨p, hp, i, a, h1, h2, h3, rfl⟩, hv p hp i a h1 h2 h3⟩
  have hfit : ∀ q, q < np → ∀ r ∈ rows q, r.Fit ∧ r.u 1 < np := by
    intro q hq r hr
    obtain ⟨p, hp, i, a, h1, h2, h3, rfl⟩ := (hrow q hq r).1 hr
    have hi := (List.getElem?_eq_some_iff.1 h1).1
    have := ha.len p hp
    refine ⟨⟨fun j => ?_, fun j => ?_⟩, hp⟩
    · match j with
      | 0 => exact he.fit q hq _ _
    · match j with
      | 0 => show i < _; omega
      | 1 => show p < _; omega
  obtain ⟨t, r2, ht⟩ := recTransfer_run lens_fdtr (np := np) (k := 1) (1 : Fin 2) 0 (Or.inl (by omega)) true rows s1 hnp' hfit
    (by intro q hq; simp only [s1, if_pos hq]; rfl)
    (by
      have h1 : (∑ q ∈ Finset.range np, (rows q).length) ≤ ∑ p ∈ Finset.range np, (args p).length := by
        simp only [rows, List.length_map]
        exact hs.2
      rw [Nat.mul_assoc]
      refine lt_of_le_of_lt (Nat.mul_le_mul h1 ?_) ha.small
      omega)
  have hm : ∀ p, p < np → ∀ r, r ∈ getRows evOutLayout (t p) ↔ ∃ (i : Nat) (a : EvArg D), (args p)[i]? = some a ∧ a.code ≠ 2 ∧ r = ⟨![evAt eenv ev (fun q => (s0 q).inp) a.proc a.el a.r], ![i, a.proc]⟩ := by
    intro p hp r
    refine (List.Perm.mem_iff (ht p hp)).trans ?_
    unfold arrived
    simp only [List.mem_flatMap, List.mem_range, List.mem_map, List.mem_filter, if_true, decide_eq_true_eq]
    have hset : ∀ x (i p q : Nat), Rec.set 1 q (⟨![x], ![i, p]⟩ : EvOut) = ⟨![x], ![i, q]⟩ := by
      intro x i p q
      ext j
      · rfl
      · match j with
        | 0 => rfl
        | 1 => rfl
    constructor
    · rintro ⟨q, hq, z, ⟨hz, hzp⟩, rfl⟩
      obtain ⟨p', hp', i, a, h1, h2, rfl, rfl⟩ := (hrow q hq z).1 hz
      have : p' = p := hzp
      subst this
      exact ⟨i, a, h1, h2, hset _ _ _ _⟩
    · rintro ⟨i, a, h1, h2, rfl⟩
      have hq := (ha.found p hp a (List.mem_of_getElem? h1) h2).1
      exact ⟨a.proc, hq, _, ⟨(hrow _ hq _).2 ⟨p, hp, i, a, h1, h2, rfl, rfl⟩, rfl⟩, hset _ _ _ _⟩
  have key : ∀ p, ∃ out', p < np → forList evStore (getRows evOutLayout (t p)) (s0 p).out = some out' ∧ EvalResult (evAt eenv ev fun q => (s0 q).inp) (args p) (s0 p).out out' := by
    intro p
    by_cases hp : p < np
    swap
    · exact ⟨[], fun h => absurd h hp⟩
    obtain ⟨out', e, hl, ho⟩ := evStore_run (fun i => ((args p)[i]?).map fun a => evAt eenv ev (fun q => (s0 q).inp) a.proc a.el a.r) (getRows evOutLayout (t p)) (s0 p).out (by
      intro r hr
      obtain ⟨i, a, h1, h2, rfl⟩ := (hm p hp r).1 hr
      have hi := (List.getElem?_eq_some_iff.1 h1).1
      have := hout p hp
      refine ⟨show i < _ by omega, ?_⟩
      show Option.map _ (args p)[i]? = some _
      rw [h1]; rfl)
    refine ⟨out', fun _ => ⟨e, hl, ?_, ?_⟩⟩
    · intro i a h1 h2
      rw [(ho i).1 ⟨_, (hm p hp _).2 ⟨i, a, h1, h2, rfl⟩, rfl⟩, h1]
      rfl
    · intro i hi
      refine (ho i).2 ?_
      rintro r hr hri
      obtain ⟨i', a, h1, h2, rfl⟩ := (hm p hp r).1 hr
      have : i' = i := hri
      subst this
      exact h2 (hi a h1)
  choose out' hk using key
  refine ⟨_, Coll.seq_run_ok (Coll.seq_ok (Coll.loc_ok _ _ _) (recTransfer_ok _ _ _ _ _ _)) (Coll.seq_run_ok (Coll.loc_ok _ _ _) r1 r2)
    (Coll.loc_run_ok (g := fun p => { (s1 p).setTr (t p) with out := out' p }) ?_), ?_⟩
  · intro p hp
    unfold ev4
    have e1 : ((if p < np then (s1 p).setTr (t p) else s1 p) : FdSt D) = (s1 p).setTr (t p) := if_pos hp
    have e2 : ((s1 p).setTr (t p)).out = (s0 p).out := by simp only [s1, if_pos hp]; rfl
    rw [e1, e2, show ((s1 p).setTr (t p)).fp.tr = t p from rfl, (hk p hp).1]
    rfl
  · intro p hp
    simp only [if_pos hp]
    refine ⟨?_, (hk p hp).2⟩
    simp only [s1, if_pos hp]
    rfl

end Gslib.Fp
