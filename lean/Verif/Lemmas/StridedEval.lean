import Verif.Model.StridedEval
import Verif.Lemmas.StridedFp
import Verif.Lemmas.FindptsEval

/-!
# `findpts_eval` on strided arrays simulates `findpts_eval` on lists
-/

namespace Gslib.Fp
open Gslib Gslib.Mpi Gslib.Transfer Gslib.Gs Gslib.Hash Gslib.Num Gslib.Spec

variable {D : Nat} {K : Type} [Field K] [LinearOrder K] [FloorRing K]

theorem evLoop_sim (a : EArgs) (m : Bytes) : ∀ (l : List (EvArg D)) (k : Nat), (∀ (j : Nat) x, l[j]? = some x → a.PointIs m (k + j) x.code x.proc x.el x.r) →
    evLoopS D a l.length k (a.code.base + k * a.code.stride) (a.proc.base + k * a.proc.stride) (a.el.base + k * a.el.stride) (a.r.base + k * a.r.stride) m =
      some (((l.zipIdx k).filter fun x => x.1.code != codeNotFound).map fun x => ⟨x.1.r, ![x.2, x.1.proc, x.1.el]⟩) := by
  intro l
  induction l with
  | nil => intro k _; rfl
  | cons x l ih =>
    intro k hx
    obtain ⟨h1, h2⟩ := hx 0 x rfl
    rw [Nat.add_zero] at h1 h2
    have hrec := ih (k + 1) (fun j y hj => by have := hx (j + 1) y hj; rwa [show k + 1 + j = k + (j + 1) by omega])
    have q : ∀ s : SArr, s.base + k * s.stride + s.stride = s.base + (k + 1) * s.stride := by intro s; ring
    rw [List.length_cons, evLoopS, (ld_iff (by omega)).2 h1, Option.bind_some]
    simp only [q]
    rw [hrec, List.zipIdx_cons, List.filter_cons]
    by_cases hc : x.code = codeNotFound
    · rw [if_neg (by simpa using hc), if_neg (by simpa using hc)]
      rfl
    · obtain ⟨g1, g2, g3⟩ := h2 hc
      rw [if_pos hc, if_pos (by simpa using hc), ldVec, seqFin_some (g := x.r) (fun d => (ld_iff (by omega)).2 (g3 d)), Option.bind_some, (ld_iff (by omega)).2 g1, Option.bind_some, (ld_iff (by omega)).2 g2]
      rfl

/-- the output: an entry is untouched, then the list has the mark `J` there, or it holds the value in the list -/
structure EOut (a : EArgs) (n J : Nat) (m0 m : Bytes) (out : List Nat) : Prop where
  len : out.length = n
  ok : a.Ok n m
  frame : ∀ b, (∀ i, i < n → b < a.outAddr i ∨ a.outAddr i + 8 ≤ b) → m b = m0 b
  slots : ∀ (i : Nat) o, out[i]? = some o → (o = J ∧ ∀ k, k < 8 → m (a.outAddr i + k) = m0 (a.outAddr i + k)) ∨ HoldsAt m 8 (a.outAddr i) o

theorem outAddr_disj {a : EArgs} (h : 8 ≤ a.out.stride) {i j : Nat} (hij : i ≠ j) : a.outAddr i + 8 ≤ a.outAddr j ∨ a.outAddr j + 8 ≤ a.outAddr i := by
  unfold EArgs.outAddr
  rcases Nat.lt_or_gt_of_ne hij with hlt | hlt
  · left
    have := Nat.mul_le_mul_right a.out.stride (show i + 1 ≤ j by omega)
    rw [Nat.add_mul] at this
    omega
  · right
    have := Nat.mul_le_mul_right a.out.stride (show j + 1 ≤ i by omega)
    rw [Nat.add_mul] at this
    omega

theorem evStore_sim {a : EArgs} {n J : Nat} {m0 m : Bytes} {out out' : List Nat} (h : EOut a n J m0 m out) (r : EvOut) (e : evStore r out = some out') :
    ∃ m', st 8 m (SArr.at a.out (r.u 0)) (r.d 0) = some m' ∧ EOut a n J m0 m' out' := by
  unfold evStore at e
  split at e
  swap
  · cases e
  rename_i hi
  obtain rfl := Option.some.inj e
  rw [h.len] at hi
  have hat : SArr.at a.out (r.u 0) = a.outAddr (r.u 0) := at_eq (h.ok.small _ hi)
  rw [hat]
  refine ⟨_, if_pos (h.ok.writable _ hi), by rw [List.length_set]; exact h.len, ⟨h.ok.disj, h.ok.small, ?_⟩, ?_, ?_⟩
  · intro i hi' k hk
    have := h.ok.writable i hi' k hk
    split
    · rfl
    · exact this
  · intro b hb
    have := hb _ hi
    rw [if_neg (by omega)]
    exact h.frame b hb
  · intro j o hj
    rw [List.getElem?_set] at hj
    split at hj
    · rename_i ej
      rw [if_pos (by rw [h.len]; omega)] at hj
      obtain rfl := Option.some.inj hj
      right
      intro k hk
      rw [← ej]
      simp only
      rw [if_pos ⟨by omega, by omega⟩, Nat.add_sub_cancel_left]
    · rename_i hne
      have hd := outAddr_disj h.ok.disj hne
      have hsame : ∀ k, k < 8 → (if a.outAddr (r.u 0) ≤ a.outAddr j + k ∧ a.outAddr j + k < a.outAddr (r.u 0) + 8 then some (r.d 0, a.outAddr j + k - a.outAddr (r.u 0)) else m (a.outAddr j + k)) = m (a.outAddr j + k) := by
        intro k hk
        rw [if_neg (by omega)]
      rcases h.slots j o hj with ⟨q1, q2⟩ | q
      · exact Or.inl ⟨q1, fun k hk => (hsame k hk).trans (q2 k hk)⟩
      · exact Or.inr fun k hk => (hsame k hk).trans (q k hk)

theorem evStoreAll_sim {a : EArgs} {n J : Nat} {m0 : Bytes} : ∀ (l : List EvOut) (m : Bytes) (out out' : List Nat), EOut a n J m0 m out → forList evStore l out = some out' →
    ∃ m', forList (fun (r : EvOut) m => st 8 m (SArr.at a.out (r.u 0)) (r.d 0)) l m = some m' ∧ EOut a n J m0 m' out'
  | [], m, out, out', h, e => by
    obtain rfl := Option.some.inj e
    exact ⟨m, rfl, h⟩
  | r :: l, m, out, out', h, e => by
    rw [forList] at e
    obtain ⟨o1, e1, e⟩ := Option.bind_eq_some_iff.1 e
    obtain ⟨m1, f1, h1⟩ := evStore_sim h r e1
    obtain ⟨m2, f2, h2⟩ := evStoreAll_sim l m1 o1 out' h1 e
    exact ⟨m2, by rw [forList, f1]; exact f2, h2⟩

/-- related states -/
def RelE (a : Nat → EArgs) (n : Nat → Nat) (J : Nat) (m0 : Nat → Bytes) (p : Nat) (s : FdSt D) (s' : ESt D) : Prop :=
  s.fp.tr = s'.ss.tr ∧ s.fp.scratch = s'.ss.scratch ∧ s.savpt = s'.savpt ∧ s.inp = s'.inp ∧ EOut (a p) (n p) J (m0 p) s'.ss.mem s.out

/-- related states before the setup -/
def RelE0 (a : Nat → EArgs) (n : Nat → Nat) (J : Nat) (m0 : Nat → Bytes) (p : Nat) (s : FdSt D) (s' : ESt D) : Prop :=
  RelE a n J m0 p s s' ∧ s.args.length = n p ∧ ∀ (i : Nat) x, s.args[i]? = some x → (a p).PointIs s'.ss.mem i x.code x.proc x.el x.r

theorem lens_etr : Lens (ESt.tr (D := D)) ESt.setTr := ⟨fun _ _ => rfl, fun _ => rfl, fun _ _ _ => rfl⟩
theorem lens_ess : Lens (ESt.ss (D := D)) ESt.setSs := ⟨fun _ _ => rfl, fun _ => rfl, fun _ _ _ => rfl⟩

theorem evSetupS_ok (D np : Nat) (a : Nat → EArgs) (npt : Nat → Nat) : (evSetupS D np a npt).Ok np := Coll.seq_ok (Coll.seq_ok (Coll.loc_ok _ _ _) (recTransfer_ok _ _ _ _ _ _)) (Coll.loc_ok _ _ _)

theorem evRunS_ok (np : Nat) (env : Nat → EvEnv D) (a : Nat → EArgs) : (evRunS np env a).Ok np := Coll.seq_ok (Coll.seq_ok (Coll.loc_ok _ _ _) (recTransfer_ok _ _ _ _ _ _)) (Coll.loc_ok _ _ _)

theorem findptsEvalS_ok (np : Nat) (env : Nat → EvEnv D) (a : Nat → EArgs) (npt : Nat → Nat) (fev : Bool) : (findptsEvalS np env a npt fev).Ok np := by
  unfold findptsEvalS
  split
  · exact evRunS_ok np env a
  · exact Coll.seq_ok (evSetupS_ok D np a npt) (evRunS_ok np env a)

theorem relE_tr {a : Nat → EArgs} {n : Nat → Nat} {J np : Nat} {m0 : Nat → Bytes} : ∀ p, p < np → ∀ (s : FdSt D) (s' : ESt D), RelE a n J m0 p s s' → FdSt.tr s = ESt.tr s' := fun _ _ _ _ h => h.1

theorem relE_set {a : Nat → EArgs} {n : Nat → Nat} {J np : Nat} {m0 : Nat → Bytes} : ∀ p, p < np → ∀ (s : FdSt D) (s' : ESt D) x, RelE a n J m0 p s s' → RelE a n J m0 p (FdSt.setTr s x) (ESt.setTr s' x) :=
  fun _ _ _ _ _ h => ⟨rfl, h.2.1, h.2.2.1, h.2.2.2.1, h.2.2.2.2⟩

theorem evSetup_sim (np : Nat) (a : Nat → EArgs) (npt n : Nat → Nat) (J : Nat) (m0 : Nat → Bytes) (hn : ∀ p, p < np → npt p = n p) : Sim np (RelE0 a n J m0) (RelE a n J m0) (evSetup D np) (evSetupS D np a npt) := by
  refine Sim.seq (Sim.seq (Q := RelE a n J m0) ?_ (Sim.lift lens_fdtr lens_etr _ relE_tr relE_set) (Coll.loc_ok _ _ _) (Coll.loc_ok _ _ _)) ?_ (Coll.seq_ok (Coll.loc_ok _ _ _) (recTransfer_ok _ _ _ _ _ _))
    (Coll.seq_ok (Coll.loc_ok _ _ _) (recTransfer_ok _ _ _ _ _ _))
  · refine Sim.loc _ fun p hp s s' t hR e => ?_
    obtain ⟨⟨r1, r2, r3, r4, r5⟩, r6, r7⟩ := hR
    unfold ev1 at e
    obtain rfl := Outcome.ok.inj e
    have := evLoop_sim (a p) s'.ss.mem s.args 0 (fun j x hj => by rw [Nat.zero_add]; exact r7 j x hj)
    simp only [Nat.zero_mul, Nat.add_zero] at this
    refine ⟨s'.setTr (putRows (evSrcLayout D) s'.ss.tr (evRows s.args)), ?_, ?_, r2, r3, r4, r5⟩
    · unfold ev1S
      rw [hn p hp, ← r6, this]
      rfl
    · show putRows (evSrcLayout D) s.fp.tr _ = putRows (evSrcLayout D) s'.ss.tr _
      rw [r1]
  · refine Sim.loc _ fun p hp s s' t hR e => ?_
    obtain ⟨r1, r2, r3, r4, r5⟩ := hR
    unfold ev2 at e
    obtain ⟨rows, e1, e⟩ := Outcome.bind_eq_ok e
    obtain rfl := Outcome.ok.inj e
    rw [r1, r2] at e1
    exact ⟨{ s' with savpt := rows }, by unfold ev2S; rw [e1]; rfl, r1, r2, rfl, r4, r5⟩

theorem evRun_sim (np : Nat) (env : Nat → EvEnv D) (a : Nat → EArgs) (n : Nat → Nat) (J : Nat) (m0 : Nat → Bytes) : Sim np (RelE a n J m0) (RelE a n J m0) (evRun np env) (evRunS np env a) := by
  refine Sim.seq (Sim.seq (Q := RelE a n J m0) ?_ (Sim.lift lens_fdtr lens_etr _ relE_tr relE_set) (Coll.loc_ok _ _ _) (Coll.loc_ok _ _ _)) ?_ (Coll.seq_ok (Coll.loc_ok _ _ _) (recTransfer_ok _ _ _ _ _ _))
    (Coll.seq_ok (Coll.loc_ok _ _ _) (recTransfer_ok _ _ _ _ _ _))
  · refine Sim.loc _ fun p hp s s' t hR e => ?_
    obtain ⟨r1, r2, r3, r4, r5⟩ := hR
    unfold ev3 at e
    obtain ⟨l, e1, e⟩ := Outcome.bind_eq_ok e
    obtain rfl := Outcome.ok.inj e
    rw [r3, r4] at e1
    refine ⟨s'.setTr (putRows evOutLayout s'.ss.tr ((s'.savpt.zip l).map fun z => ⟨![z.2], ![z.1.u 0, z.1.u 1]⟩)), by unfold ev3S; rw [e1]; rfl, ?_, r2, r3, r4, r5⟩
    show putRows evOutLayout s.fp.tr _ = putRows evOutLayout s'.ss.tr _
    rw [r1, r3]
  · refine Sim.loc _ fun p hp s s' t hR e => ?_
    obtain ⟨r1, r2, r3, r4, r5⟩ := hR
    unfold ev4 at e
    obtain ⟨o, e1, e⟩ := Outcome.bind_eq_ok e
    obtain rfl := Outcome.ok.inj e
    cases e2 : forList evStore (getRows evOutLayout s.fp.tr) s.out with
    | none => rw [e2] at e1; cases e1
    | some o' =>
      rw [e2] at e1
      obtain rfl := Outcome.ok.inj e1
      obtain ⟨m', f, q⟩ := evStoreAll_sim _ s'.ss.mem s.out o' r5 e2
      rw [r1] at f
      exact ⟨{ s' with ss := { s'.ss with mem := m' } }, by unfold ev4S; rw [f]; rfl, r1, r2, r3, r4, q⟩

theorem findptsEval_sim (np : Nat) (env : Nat → EvEnv D) (a : Nat → EArgs) (npt n : Nat → Nat) (J : Nat) (m0 : Nat → Bytes) (hn : ∀ p, p < np → npt p = n p) :
    Sim np (RelE0 a n J m0) (RelE a n J m0) (findptsEval np env false) (findptsEvalS np env a npt false) := by
  unfold findptsEval findptsEvalS
  simp only [Bool.false_eq_true, if_false]
  exact Sim.seq (evSetup_sim np a npt n J m0 hn) (evRun_sim np env a n J m0) (evSetup_ok D np) (evSetupS_ok D np a npt)

end Gslib.Fp
