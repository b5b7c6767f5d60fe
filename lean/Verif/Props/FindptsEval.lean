import Verif.Lemmas.FindptsEval
import Verif.Props.Findpts

/-!
# C49: `findpts_eval` in every history of calls
-/

namespace Gslib.Props
open Gslib Gslib.Mpi Gslib.Transfer Gslib.Gs Gslib.Hash Gslib.Num Gslib.Spec Gslib.GHash Gslib.Fp

variable {D : Nat} {K : Type} [Field K] [LinearOrder K] [IsStrictOrderedRing K] [FloorRing K]

theorem findCall_run {val : Nat → K} {np : Nat} {env : Nat → FEnv D K} {lst : Nat → Fp.Pt D → List Nat} {find : Nat → Nat → Fp.Pt D → FRes D} {h : Fp.Pt D → Nat} {glst : Fp.Pt D → List Nat}
    (H : FpOk val np env lst find h glst false) (hglen : ∀ x, (glst x).length ≤ np) (eenv : Nat → EvEnv D) (fev : Bool) {xs : Nat → List (Fp.Pt D × Nat)} {outs : Nat → List (LRes D)} (hc : CallOk np xs outs) (s0 : Nat → FdSt D) :
    ∃ sf, ((FCall.find xs outs).run val np env eenv fev).run np s0 = .ok sf := by
  let s1 : Nat → FdSt D := fun p => if p < np then { s0 p with fp := { (s0 p).fp with xs := xs p, outs := outs p }, savpt := [] } else s0 p
  have r1 : (Coll.loc (fun id s => .ok { s with fp := { s.fp with xs := xs id, outs := outs id }, savpt := [] }) ([] : List Nat)).run np s0 = .ok s1 := Coll.loc_run_ok fun p hp => rfl
  have hx : ∀ p, p < np → (s1 p).fp.xs = xs p ∧ (s1 p).fp.outs = outs p := by
    intro p hp
    simp [s1, hp]
  have hsum : ∀ f : List (Fp.Pt D × Nat) → Nat, (∑ p ∈ Finset.range np, f (s1 p).fp.xs) = ∑ p ∈ Finset.range np, f (xs p) := by
    intro f
    refine Finset.sum_congr rfl fun p hp => ?_
    rw [(hx p (Finset.mem_range.1 hp)).1]
  have hn1 : (∑ p ∈ Finset.range np, ((xs p).map fun x => (glst x.1).length).sum) ≤ (∑ p ∈ Finset.range np, (xs p).length) * np := by
    rw [Finset.sum_mul]
    exact Finset.sum_le_sum fun p _ => sum_map_le np _ glst hglen
  have hn2 : (∑ p ∈ Finset.range np, (xs p).length) ≤ (∑ p ∈ Finset.range np, (xs p).length) * np := Nat.le_mul_of_pos_right _ H.np0
  obtain ⟨sf', e, _⟩ := findpts_run H (fun p => (s1 p).fp) (fun p hp => by rw [(hx p hp).1, (hx p hp).2]; exact hc.room p hp)
    (fun p hp => by rw [(hx p hp).1]; exact hc.double p hp) (fun p hp => by rw [(hx p hp).1]; exact hc.npt p hp)
    (by
      rw [hsum List.length]
      exact lt_of_le_of_lt (Nat.mul_le_mul hn2 (by omega)) hc.small)
    (by
      rw [hsum fun l => (l.map fun x => (glst x.1).length).sum]
      exact lt_of_le_of_lt (Nat.mul_le_mul_right _ hn1) hc.small)
  refine ⟨putAll FdSt.setFp np s1 sf', Coll.seq_run_ok (Coll.loc_ok _ _ _) r1 ?_⟩
  · rw [Coll.lift_run lens_fdfp _ np s1 (fun p => (s1 p).fp) (fun _ _ => rfl), e]
    rfl

theorem evalCall_run (val : Nat → K) {np : Nat} (hnp' : np ≤ 4294967295) (env : Nat → FEnv D K) {eenv : Nat → EvEnv D} {ev : Nat → (Nat → Nat) → (Fin D → Nat) → Nat} (he : EvEnvOk np eenv ev)
    (g : Option (Nat → List (EvArg D))) (a : Nat → List (EvArg D)) (inp : Nat → Nat → Nat) (out : Nat → List Nat) (hv : ValidCall np eenv g (.eval a inp out)) (s0 : Nat → FdSt D)
    (hg : ∀ b, g = some b → Saved np b fun p => (s0 p).savpt) :
    ∃ sf, ((FCall.eval a inp out).run val np env eenv g.isSome).run np s0 = .ok sf ∧ Saved np (g.getD a) (fun p => (sf p).savpt) ∧
      ∀ p, p < np → EvalResult (evAt eenv ev inp) (g.getD a p) (out p) (sf p).out := by
  obtain ⟨ha, hl⟩ := hv
  let s1 : Nat → FdSt D := fun p => if p < np then { s0 p with args := a p, inp := inp p, out := out p } else s0 p
  have r1 : (Coll.loc (fun id s => .ok { s with args := a id, inp := inp id, out := out id }) ([] : List Nat)).run np s0 = .ok s1 := Coll.loc_run_ok fun p hp => rfl
  have hx : ∀ p, p < np → (s1 p).args = a p ∧ (s1 p).inp = inp p ∧ (s1 p).out = out p ∧ (s1 p).savpt = (s0 p).savpt := by
    intro p hp
    simp [s1, hp]
  have hsv : ∀ (b : Nat → List (EvArg D)) (f f' : Nat → List (EvSrc D)), (∀ p, p < np → f p = f' p) → Saved np b f → Saved np b f' := by
    rintro b f f' hf ⟨q1, q2⟩
    refine ⟨fun q hq r => by rw [← hf q hq]; exact q1 q hq r, ?_⟩
    rw [← Finset.sum_congr rfl fun q hq => congrArg List.length (hf q (Finset.mem_range.1 hq))]
    exact q2
  have hev : ∀ (s : Nat → FdSt D), (∀ p, p < np → (s p).inp = inp p ∧ (s p).out = out p) → Saved np (g.getD a) (fun p => (s p).savpt) → ∃ sf, (evRun np eenv).run np s = .ok sf ∧ Saved np (g.getD a) (fun p => (sf p).savpt) ∧
      ∀ p, p < np → EvalResult (evAt eenv ev inp) (g.getD a p) (out p) (sf p).out := by
    intro s hs1 hs2
    obtain ⟨sf, e, h2⟩ := evRun_run hnp' he ha s hs2 (fun p hp => by rw [(hs1 p hp).2]; exact hl p hp)
    refine ⟨sf, e, hsv _ _ _ (fun p hp => ((h2 p hp).1).symm) hs2, fun p hp => ?_⟩
    obtain ⟨h3, h4, h5⟩ := (h2 p hp).2
    rw [(hs1 p hp).2] at h3 h5
    refine ⟨h3, fun i x hx hc => ?_, h5⟩
    rw [h4 i x hx hc]
    have hq := (ha.found p hp x (List.mem_of_getElem? hx) hc).1
    unfold evAt
    beta_reduce
    rw [(hs1 _ hq).1]
  cases g with
  | none =>
    obtain ⟨s2, e2, h2, h3⟩ := evSetup_run hnp' ha s1 (fun p hp => (hx p hp).1)
    obtain ⟨sf, e3, h4⟩ := hev s2 (fun p hp => by rw [(h2 p hp).1, (h2 p hp).2]; exact ⟨(hx p hp).2.1, (hx p hp).2.2.1⟩) h3
    exact ⟨sf, Coll.seq_run_ok (Coll.loc_ok _ _ _) r1 (Coll.seq_run_ok (evSetup_ok D np) e2 e3), h4⟩
  | some b =>
    obtain ⟨sf, e3, h4⟩ := hev s1 (fun p hp => ⟨(hx p hp).2.1, (hx p hp).2.2.1⟩) (hsv _ _ _ (fun p hp => ((hx p hp).2.2.2).symm) (hg b rfl))
    exact ⟨sf, Coll.seq_run_ok (Coll.loc_ok _ _ _) r1 e3, h4⟩

theorem call_ok (val : Nat → K) (np : Nat) (env : Nat → FEnv D K) (eenv : Nat → EvEnv D) (fev : Bool) (c : FCall D) : (c.run val np env eenv fev).Ok np := by
  cases c with
  | find xs outs => exact Coll.seq_ok (Coll.loc_ok _ _ _) (Coll.lift_ok _ _ (findpts_ok _ _ _))
  | eval a inp out => exact Coll.seq_ok (Coll.loc_ok _ _ _) (findptsEval_ok _ _ _)

theorem history_ok (val : Nat → K) (np : Nat) (env : Nat → FEnv D K) (eenv : Nat → EvEnv D) : ∀ (fev : Bool) (h : List (FCall D)), (history val np env eenv fev h).Ok np
  | _, [] => Coll.loc_ok _ _ _
  | _, c :: cs => Coll.seq_ok (call_ok _ _ _ _ _ c) (history_ok val np env eenv c.fev cs)

theorem saveCall_isSome (g : Option (Nat → List (EvArg D))) (c : FCall D) : (saveCall g c).isSome = c.fev := by
  cases c <;> rfl

theorem history_run {val : Nat → K} {np : Nat} {env : Nat → FEnv D K} {lst : Nat → Fp.Pt D → List Nat} {find : Nat → Nat → Fp.Pt D → FRes D} {h : Fp.Pt D → Nat} {glst : Fp.Pt D → List Nat}
    (H : FpOk val np env lst find h glst false) (hglen : ∀ x, (glst x).length ≤ np) {eenv : Nat → EvEnv D} {ev : Nat → (Nat → Nat) → (Fin D → Nat) → Nat} (he : EvEnvOk np eenv ev)
    (a : Nat → List (EvArg D)) (inp : Nat → Nat → Nat) (out : Nat → List Nat) : ∀ (hist : List (FCall D)) (g : Option (Nat → List (EvArg D))) (s0 : Nat → FdSt D),
      (∀ h1 c h2, hist ++ [.eval a inp out] = h1 ++ c :: h2 → ValidCall np eenv (h1.foldl saveCall g) c) → (∀ b, g = some b → Saved np b fun p => (s0 p).savpt) →
      ∃ sf, (history val np env eenv g.isSome (hist ++ [.eval a inp out])).run np s0 = .ok sf ∧ ∀ p, p < np → EvalResult (evAt eenv ev inp) ((hist.foldl saveCall g).getD a p) (out p) (sf p).out
  | [], g, s0, hv, hg => by
    obtain ⟨sf, e, _, h2⟩ := evalCall_run val H.np1 env he g a inp out (hv [] _ [] rfl) s0 hg
    refine ⟨fun p => if p < np then sf p else sf p, Coll.seq_run_ok (call_ok _ _ _ _ _ _) e (Coll.loc_run_ok fun _ _ => rfl), ?_⟩
    intro p hp
    simp only [if_pos hp]
    exact h2 p hp
  | .find xs outs :: cs, g, s0, hv, hg => by
    obtain ⟨s1, e1⟩ := findCall_run H hglen eenv g.isSome (hv [] _ _ rfl) s0
    obtain ⟨sf, e2, h2⟩ := history_run H hglen he a inp out cs none s1 (fun h1 c h2 e => hv (.find xs outs :: h1) c h2 (by rw [List.cons_append, e]; rfl)) (fun b hb => by cases hb)
    exact ⟨sf, Coll.seq_run_ok (call_ok _ _ _ _ _ _) e1 e2, h2⟩
  | .eval a' inp' out' :: cs, g, s0, hv, hg => by
    obtain ⟨s1, e1, hs, _⟩ := evalCall_run val H.np1 env he g a' inp' out' (hv [] _ _ rfl) s0 hg
    obtain ⟨sf, e2, h2⟩ := history_run H hglen he a inp out cs (some (g.getD a')) s1 (fun h1 c h2 e => hv (.eval a' inp' out' :: h1) c h2 (by rw [List.cons_append, e]; rfl))
      (fun b hb => by rw [← Option.some.inj hb]; exact hs)
    exact ⟨sf, Coll.seq_run_ok (call_ok _ _ _ _ _ _) e1 e2, h2⟩

/-- **C49 (`findpts_eval` in every history)**. After `hash_build` on any schedule, for every history of calls of `findpts` and `findpts_eval`, each made by all processes with valid arguments, followed by a call of `findpts_eval`:
on every schedule the whole history ends without abort or undefined behaviour, and the last call stores at the index of each point that was found the value computed by the owner `proc` from its field in element `el` at `r`, and leaves
the other entries of the output as they were. The points are those of the first `findpts_eval` since the last `findpts`: those of the last call itself if there was none. -/
theorem findpts_eval_history {np hn : Nat} (hhn : 0 < hn) (hnp : 0 < np) (hnp' : np ≤ 4294967295) {obb : Nat → List (List (Range K))} (h : ∀ q, q < np → ProperBoxes D (obb q))
    (hcell : hn ^ D ≤ 2 ^ 32 ∨ (np ∣ 2 ^ 32 ∧ hn ^ D ≤ 2 ^ 32 * np)) (hsmall : (∑ q ∈ Finset.range np, hashCount hn (globalBnd D np obb) (obb q)) * 16 < Crystal.intMax)
    (s0 : Nat → HbSt K) (h0 : ∀ q, q < np → (s0 q).obb = obb q) (val : Nat → K) (find : Nat → Nat → Fp.Pt D → FRes D)
    {eenv : Nat → EvEnv D} {ev : Nat → (Nat → Nat) → (Fin D → Nat) → Nat} (he : EvEnvOk np eenv ev) :
    AllSchedules (GHash.hashBuild D hn np (globalBnd D np obb)).prog np s0 fun sf => ∀ env : Nat → FEnv D K, SetupDone val np hn obb find sf env →
      ∀ (hist : List (FCall D)) (args : Nat → List (EvArg D)) (inp : Nat → Nat → Nat) (out : Nat → List Nat), ValidHist np eenv (hist ++ [.eval args inp out]) →
        ∀ t0 : Nat → FdSt D, AllSchedules (history val np env eenv false (hist ++ [.eval args inp out])).prog np t0 fun tf =>
          ∀ p, p < np → EvalResult (evAt eenv ev inp) ((savedArgs hist).getD args p) (out p) (tf p).out := by
  have G := setup_ready hhn hnp hnp' h hcell hsmall s0 h0 val find
  refine ⟨G.noInfinite, G.noDeadlock, fun c hr hf => ⟨?_, (G.result c hr hf).2⟩⟩
  intro env henv hist args inp out hv t0
  obtain ⟨lst, hx, glst, H, hglen, _⟩ := (G.result c hr hf).1 env henv
  obtain ⟨sf, e, h2⟩ := history_run H hglen he args inp out hist none t0 hv (fun b hb => by cases hb)
  refine allSchedules_of_lockRun (history_ok val np env eenv false _) e _ ?_
  intro tf htf p hp
  rw [htf p hp]
  exact h2 p hp

/-- the points used are those of the call itself if all calls of `findpts_eval` since the last `findpts` were made for the same points -/
theorem saved_same (h evs : List (FCall D)) (args : Nat → List (EvArg D)) (h1 : h = [] ∨ ∃ h' xs outs, h = h' ++ [.find xs outs]) (h2 : ∀ c ∈ evs, ∃ inp out, c = .eval args inp out) :
    (savedArgs (h ++ evs)).getD args = args := by
  have e0 : savedArgs h = none := by
    rcases h1 with rfl | ⟨h', xs, outs, rfl⟩
    · rfl
    · unfold savedArgs
      rw [List.foldl_append]
      rfl
  have key : ∀ (evs : List (FCall D)) (g : Option (Nat → List (EvArg D))), (∀ c ∈ evs, ∃ inp out, c = .eval args inp out) → g.getD args = args → (evs.foldl saveCall g).getD args = args := by
    intro evs
    induction evs with
    | nil => intro g _ hg; exact hg
    | cons c cs ih =>
      intro g hc hg
      rw [List.foldl_cons]
      obtain ⟨inp, out, rfl⟩ := hc c (by simp)
      exact ih _ (fun c' hc' => hc c' (by simp [hc'])) hg
  unfold savedArgs
  rw [List.foldl_append]
  exact key evs _ h2 (by rw [show List.foldl saveCall none h = none from e0]; rfl)

/-! ### example, and the stale pattern -/

/-- an evaluation: the value of the field at the node given by the first coordinate -/
def exEv (_ : Nat) (f : Nat → Nat) (r : Fin 2 → Nat) : Nat := f (r 0) % 1000

/-- elements with 4 values -/
def exEenv (_ : Nat) : EvEnv 2 := ⟨4, 5, fun f pts => pts.map (exEv 0 f)⟩

theorem exEenv_ok : EvEnvOk 3 exEenv exEv where
  pw := fun _ _ _ _ _ => rfl
  npt := fun _ _ => show 0 < 5 by decide
  fit := fun _ _ f r => by
    show f (r 0) % 1000 < _
    have := Nat.mod_lt (f (r 0)) (show 0 < 1000 by decide)
    omega

/-- points of process 0: in element 0 of process 1 at node 1, not found, in element 1 of process 0 at node 2 -/
def exA (p : Nat) : List (EvArg 2) := if p = 0 then [⟨0, 1, 0, ![1, 0]⟩, ⟨2, 0, 0, ![0, 0]⟩, ⟨1, 0, 1, ![2, 0]⟩] else []
/-- the same points, the first at node 3 -/
def exB (p : Nat) : List (EvArg 2) := if p = 0 then [⟨0, 1, 0, ![3, 0]⟩, ⟨2, 0, 0, ![0, 0]⟩, ⟨1, 0, 1, ![2, 0]⟩] else []
/-- a field -/
def exInp (q j : Nat) : Nat := 100 * q + j
/-- output arrays -/
def exOutA (p : Nat) : List Nat := if p = 0 then [7, 7, 7, 7] else []

theorem exA_ok : ArgsOk 3 exEenv exA where
  found := by
    intro p hp x hx
    match p, hp with
    | 0, _ =>
      simp only [exA, if_true, List.mem_cons, List.not_mem_nil, or_false] at hx
      rcases hx with rfl | rfl | rfl
      · intro _; exact ⟨by decide, by decide, by decide, by decide⟩
      · intro h; exact absurd rfl h
      · intro _; exact ⟨by decide, by decide, by decide, by decide⟩
    | 1, _ => simp [exA] at hx
    | 2, _ => simp [exA] at hx
  len := by
    intro p hp
    match p, hp with
    | 0, _ => decide
    | 1, _ => decide
    | 2, _ => decide
  small := by decide

theorem exA_room : ∀ p, p < 3 → (exA p).length ≤ (exOutA p).length := by decide

theorem exHist_valid : ValidHist 3 exEenv ([.eval exA exInp exOutA] ++ [.eval exB exInp exOutA]) := by
  intro h1 c h2 e
  match h1, e with
  | [], e =>
    simp only [List.cons_append, List.nil_append, List.cons.injEq] at e
    rw [← e.1]
    exact ⟨exA_ok, exA_room⟩
  | [a], e =>
    simp only [List.cons_append, List.nil_append, List.cons.injEq] at e
    rw [← e.1, ← e.2.1]
    exact ⟨exA_ok, exA_room⟩
  | a :: b :: l, e =>
    exfalso
    have := congrArg List.length e
    simp only [List.cons_append, List.nil_append, List.length_cons, List.length_nil, List.length_append] at this
    omega

/-- **finding**: `findpts_eval` does not notice that its arguments are not those of the saved pattern: after an evaluation at `exA`, the evaluation at `exB` does not give the values at `exB`, on any schedule. -/
theorem findpts_eval_stale (s0 : Nat → HbSt Rat) (h0 : ∀ q, q < 3 → (s0 q).obb = exGObb q) :
    AllSchedules (GHash.hashBuild 2 2 3 (globalBnd 2 3 exGObb)).prog 3 s0 fun sf => ∀ env : Nat → FEnv 2 Rat, SetupDone exVal 3 2 exGObb exFind sf env →
      ∀ t0 : Nat → FdSt 2, AllSchedules (history exVal 3 env exEenv false ([.eval exA exInp exOutA] ++ [.eval exB exInp exOutA])).prog 3 t0 fun tf =>
        EvalResult (evAt exEenv exEv exInp) (exA 0) (exOutA 0) (tf 0).out ∧ ¬ EvalResult (evAt exEenv exEv exInp) (exB 0) (exOutA 0) (tf 0).out := by
  have G := findpts_eval_history (np := 3) (hn := 2) (by decide) (by decide) (by decide) exGObb_proper (Or.inl (by decide)) (by decide +kernel) s0 h0 exVal exFind exEenv_ok
  refine ⟨G.noInfinite, G.noDeadlock, fun c hr hf => ⟨?_, (G.result c hr hf).2⟩⟩
  intro env henv t0
  have G2 := (G.result c hr hf).1 env henv [.eval exA exInp exOutA] exB exInp exOutA exHist_valid t0
  refine ⟨G2.noInfinite, G2.noDeadlock, fun c hr hf => ⟨?_, (G2.result c hr hf).2⟩⟩
  have h1 : EvalResult (evAt exEenv exEv exInp) (exA 0) (exOutA 0) (c.proc 0).st.out := (G2.result c hr hf).1 0 (by decide)
  refine ⟨h1, fun h2 => ?_⟩
  have e1 := h1.2.1 0 _ rfl (by decide)
  have e2 := h2.2.1 0 _ rfl (by decide)
  rw [e1] at e2
  revert e2
  decide

end Gslib.Props
