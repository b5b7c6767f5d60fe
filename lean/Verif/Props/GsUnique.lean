import Verif.Lemmas.GsUniqTopo
import Verif.Props.Gs

/-!
# Property C23: gs_unique, and gs_setup with `unique = 1`

Specification: `Verif/Spec/GsUnique.lean`. Model: `Verif/Model/GsUnique.lean` (make_topology_unique, gs_unique), `Verif/Model/Gs.lean` (gs_setup).
-/

namespace Gslib.Props
open Gslib Gslib.Spec Gslib.Mpi Gslib.Gs Gslib.Comm

variable {T : Type}

/-- **C23**: for every number of processes and all ids, under every schedule, gs_unique ends on all processes, and afterwards every id with an unflagged entry has exactly
one, at one index on one process; zero and flagged entries and absolute values are unchanged. The memory before the call is arbitrary except for the ids. -/
theorem gs_unique_spec {np : Nat} {ids : Nat → List Int} (hin : GsInput np ids) (s0 : Nat → TopoSt) (h0 : ∀ q, q < np → (s0 q).ids = ids q) :
    AllSchedules (gsUnique np).prog np s0 fun s => UniqueOf np ids fun q => (s q).ids := by
  obtain ⟨s', e, h⟩ := gsUnique_run hin s0 h0
  refine allSchedules_of_lockRun (gsUnique_ok np) e _ ?_
  intro s hs
  have heq : ∀ q, q < np → (s q).ids = uniqIds np ids q := fun q hq => by rw [hs q hq]; exact h q hq
  have hu := uniqueOf_uniqIds np ids
  refine ⟨?_, ?_, ?_, ?_⟩
  · intro q hq
    rw [heq q hq]; exact hu.length q hq
  · intro q hq
    rw [heq q hq]; exact hu.abs q hq
  · intro q hq
    rw [heq q hq]; exact hu.flagged q hq
  · intro a ha hex
    obtain ⟨x, ⟨h1, h2⟩, h3⟩ := hu.one a ha hex
    refine ⟨x, ⟨h1, by rw [heq _ h1]; exact h2⟩, ?_⟩
    rintro y ⟨h4, h5⟩
    rw [heq _ h4] at h5
    exact h3 y ⟨h4, h5⟩

/-- gs_setup with `unique = 1`: gs then works with the ids that gs_unique would give (one unflagged entry for every id). Hypothesis: on no process is a flagged entry of
an id followed by the first unflagged one (see `gs_setup_unique_flagged_first`). -/
theorem gs_setup_unique (D : Dom T) (op : Op) (okT : T → Prop) (hD : CommMonoidOn okT (D.doOp op) (D.identity op)) {np : Nat} {ids : Nat → List Int} (hin : GsInput np ids)
    (hf : ∀ q, q < np → FlaggedLater (ids q)) (m : Method) (s0 : Nat → SetupSt) (h0 : ∀ q, q < np → (s0 q).topo.ids = ids q)
    (u0 : Nat → TopoSt) (hu0 : ∀ q, q < np → (u0 q).ids = ids q) :
    ∃ ids' : Nat → List Int, UniqueOf np ids ids' ∧ (AllSchedules (gsUnique np).prog np u0 fun u => ∀ q, q < np → (u q).ids = ids' q) ∧
      AllSchedules (gsSetup true m np).prog np s0 fun s1 =>
        ∀ (t : Bool) (v : Nat → List T), (∀ q, q < np → (v q).length = (ids q).length) → (∀ q, q < np → ∀ x ∈ v q, okT x) →
        ∀ s2 : Nat → GsSt (List T) T, (∀ q, q < np → (s2 q).u = v q) →
          AllSchedules (gsOp (plainKernels D op) D op np t fun q => (s1 q).h) np s2 fun s3 =>
            ∀ q, q < np → (s3 q).u = gsResult t (D.doOp op) (D.identity op) np ids' v q := by
  refine ⟨uniqIds np ids, uniqueOf_uniqIds np ids, ?_, ?_⟩
  · obtain ⟨s', e, h⟩ := gsUnique_run hin u0 hu0
    refine allSchedules_of_lockRun (gsUnique_ok np) e _ ?_
    intro s hs q hq
    rw [hs q hq]; exact h q hq
  · obtain ⟨s', e, h⟩ := gsSetup_unique_run hin hf m s0 h0
    refine allSchedules_of_lockRun (gsSetup_ok true m np) e _ ?_
    intro s hs t v hl hv s2 hs2
    refine gsOp_all (plainRep D op) hD (fun _ _ => trivial) (h.congr fun q hq => by rw [hs q hq]) t v (fun q hq => ?_) hv s2 hs2
    rw [hl q hq, uniqIds_length]

/-! ### finding: a flagged entry in front of the unflagged one -/

/-- the ids `-5`, `5` on one process -/
def flIds : Nat → List Int := fun _ => [-5, 5]

/-- pw_data for no shared ids -/
def noComm : PwData := ⟨fun b => if b then ⟨[], 0⟩ else ⟨[], 0⟩, fun b => if b then [uintMax] else [uintMax]⟩

/-- the handle of gs_setup with `unique = 1` for `flIds` -/
def flHandle : GsData := localSetup (uqRows [-5, 5] (fl2 1 flIds 0)) (.pairwise noComm)

theorem flHandle_setup (s0 : Nat → SetupSt) (h0 : (s0 0).topo.ids = [-5, 5]) : ∃ s', (gsSetup true .pairwise 1).run 1 s0 = .ok s' ∧ (s' 0).h = flHandle := by
  have hin : GsInput 1 flIds := ⟨by decide, fun _ _ => ⟨by unfold flIds; decide, by unfold flIds; decide⟩, by decide⟩
  have hsm : sharedPairs 1 flIds * 40 < Crystal.intMax := by
    rw [sharedPairs_eq]; decide
  obtain ⟨ord, total, sf, e1, ho, hto, h1⟩ := getTopology_run hin.np_le hin.ids_ok hsm (fun q => (s0 q).topo) (fun q hq => by
    obtain rfl : q = 0 := by omega
    exact h0)
  have h1 := h1 0 (by decide)
  have r1 : (setupTopo 1).run 1 s0 = .ok (putAll SetupSt.setTopo 1 s0 sf) := by
    unfold setupTopo
    rw [Coll.lift_run lens_topo _ 1 s0 (fun q => (s0 q).topo) (fun _ _ => rfl), Coll.mapW_run Sum.inl SetupMsg.topo (fun _ => rfl), e1]; rfl
  let s1 := putAll SetupSt.setTopo 1 s0 sf
  have hs1 : s1 0 = (s0 0).setTopo (sf 0) := rfl
  have hsh : (sortedIds (flIds 0)).flatMap (kept 1 flIds 0) = [] := by
    rw [List.flatMap_eq_nil_iff]
    intro a _
    by_contra hc
    have := gRows_ne.1 (kept_ne.1 hc)
    obtain ⟨p, hp, hs, _⟩ := this
    omega
  let tp : TopoSt := { sf 0 with
      ids := if false then uniqIds 1 flIds 0 else flIds 0
      nz := uqRows (flIds 0) (fl2 1 flIds 0)
      sh := []
      pr := (sharedIds 1 flIds 0).map (prRow flIds ord (fun a => if own 1 flIds a = 0 then 0 else 1) 0) }
  have r2 : (setupLoc (setupLocal true)).run 1 s1 = .ok (fun q => if q < 1 then { s1 q with topo := tp, h := localSetup tp.nz (s1 q).h.r } else s1 q) := Coll.loc_run_ok fun q hq => by
    obtain rfl : q = 0 := by omega
    unfold setupLocal
    rw [if_pos rfl, hs1]
    show (makeUnique false 0 (sf 0)).bind _ = _
    rw [makeUnique_run hin.np_le hin.ids_ok (by decide) h1 false, hsh]; rfl
  have hnil : ∀ (fs : List (Sarray.Field SharedId Nat)) (sc : Sarray.ScratchF Nat), (∀ f ∈ fs, f.Fits []) → Sarray.sarraySort fs [] sc = .ok [] :=
    fun fs sc hfs => Sarray.sarraySort_eq_of_inj hfs (by simp) (List.Perm.refl _) List.Pairwise.nil
  have hpw : ∀ sc, pwSetup [] sc = .ok (noComm, []) := by
    intro sc
    unfold pwSetup pwCommSetup pwMapSetup
    have k1 := hnil [.int 4 SharedId.p, .int 8 SharedId.id] sc (by
      intro f hf
      simp only [List.mem_cons, List.not_mem_nil, or_false] at hf
      rcases hf with rfl | rfl <;> exact fun r hr => absurd hr (by simp))
    have k2 := hnil [.int 4 SharedId.i] sc (by
      intro f hf
      rw [List.mem_singleton] at hf
      subst hf
      exact fun r hr => absurd hr (by simp))
    simp only [k1, Outcome.bind, assignBi, k2, pwMap, pwMsgs, List.filter_nil, List.length_nil]
    rfl
  refine ⟨_, Coll.seq_run_ok (Coll.seq_ok (setupTopo_ok 1) (Coll.loc_ok _ _ _)) (Coll.seq_run_ok (setupTopo_ok 1) r1 r2) (Coll.loc_run_ok
    (g := fun q => ({ s1 q with topo := tp, h := localSetup tp.nz (.pairwise noComm) } : SetupSt)) fun q hq => ?_), ?_⟩
  · obtain rfl : q = 0 := by omega
    beta_reduce
    rw [if_pos (by decide)]
    unfold setupPw
    show (pwSetup [] _).bind _ = _
    rw [hpw]; rfl
  · rfl

/-- **finding**: gs_setup with `unique = 1` on one process with ids `-5`, `5`. make_topology_unique leaves the rows of an id ordered by index although local_map expects the
unflagged one first, so gs with `add`, `transpose = 0` on the values 1, 2 gives 3, 3 (the flagged value 1 contributes) instead of 2, 2. -/
theorem gs_setup_unique_flagged_first (s0 : Nat → SetupSt) (h0 : (s0 0).topo.ids = [-5, 5]) :
    (AllSchedules (gsSetup true .pairwise 1).prog 1 s0 fun s1 =>
      AllSchedules (gsOp (plainKernels (intDom 32 32) .add) (intDom 32 32) .add 1 false fun q => (s1 q).h) 1 (fun _ => ⟨[1, 2], [], fun _ => 0, []⟩) fun s3 =>
        (s3 0).u = [3, 3]) ∧
    gsResult false ((intDom 32 32).doOp .add) ((intDom 32 32).identity .add) 1 flIds (fun _ => [1, 2]) 0 = [2, 2] := by
  refine ⟨?_, by decide +kernel⟩
  obtain ⟨s', e, h⟩ := flHandle_setup s0 h0
  refine allSchedules_of_lockRun (gsSetup_ok true .pairwise 1) e _ ?_
  intro s hs
  have hh : (s 0).h = flHandle := by rw [hs 0 (by decide)]; exact h
  let c : Coll (GsSt (List (BitVec 32)) (BitVec 32)) (List (BitVec 32)) := gsAux (plainKernels (intDom 32 32) .add) (fun _ => flHandle) false (pwExec (plainKernels (intDom 32 32) .add) (fun _ => noComm) false)
  have hex : (pwExec (plainKernels (intDom 32 32) .add) (fun _ => noComm) false).Ok 1 := by
    refine ⟨?_, ?_, ?_, ?_, ?_, ?_⟩ <;> intro p hp
    · exact List.pairwise_singleton _ _
    all_goals
      intro s hs
      obtain rfl := List.mem_singleton.1 hs
    · exact Nat.zero_lt_one
    · exact List.nodup_nil
    · exact List.nodup_nil
    · intro x hx
      exact absurd hx (by simp [pwExecStep, noComm])
    · intro x hx
      exact absurd hx (by simp [pwExecStep, noComm])
  have hc : c.Ok 1 := Coll.seq_ok (Coll.seq_ok (Coll.loc_ok _ _ _) hex) (Coll.loc_ok _ _ _)
  let c' : Coll (GsSt (List (BitVec 32)) (BitVec 32)) (List (BitVec 32)) := ⟨c.T, gsOp (plainKernels (intDom 32 32) .add) (intDom 32 32) .add 1 false fun q => (s q).h⟩
  have hpr : ∀ p, p < 1 → c'.prog p = c.prog p := by
    intro p hp
    obtain rfl : p = 0 := by omega
    show (gsAux _ (fun _ => (s 0).h) false (remoteExec _ _ _ _ _ (s 0).h)).prog 0 = _
    rw [hh]; rfl
  have hrun : ∃ sf, c.run 1 (fun _ => ⟨[1, 2], [], fun _ => 0, []⟩) = .ok sf ∧ (sf 0).u = [3, 3] := by
    have hd : (c.run 1 (fun _ => ⟨[1, 2], [], fun _ => 0, []⟩)).bind (fun sf => .ok (sf 0).u) = .ok [3, 3] := by decide +kernel
    cases hr : c.run 1 (fun _ => ⟨[1, 2], [], fun _ => 0, []⟩) with
    | ok sf => rw [hr] at hd; exact ⟨sf, rfl, by simpa [Outcome.bind] using hd⟩
    | abort => rw [hr] at hd; simp [Outcome.bind] at hd
    | ub => rw [hr] at hd; simp [Outcome.bind] at hd
  obtain ⟨sf, e2, h2⟩ := hrun
  refine allSchedules_of_lockRun (Coll.ok_congr (a := c') (b := c) rfl hpr hc) ((Coll.run_congr (a := c') (b := c) rfl hpr _).trans e2) _ ?_
  intro s3 hs3
  rw [hs3 0 (by decide)]; exact h2

/-! ### examples: the hypotheses are met by concrete inputs -/

/-- ids on three processes, flagged entries after unflagged ones -/
def uqIdsEx (q : Nat) : List Int := [[1, 2, 0, 2, -3], [2, 3, 3], [-3, 7, 2, -2]].getD q []

example : GsInput 3 uqIdsEx where
  np_le := by decide
  ids_ok q hq := by
    have : q = 0 ∨ q = 1 ∨ q = 2 := by omega
    rcases this with rfl | rfl | rfl <;> exact ⟨by decide, by decide⟩
  small := by decide +kernel

example : ∀ q, q < 3 → FlaggedLater (uqIdsEx q) := by
  intro q hq i a ha hi hm
  have : q = 0 ∨ q = 1 ∨ q = 2 := by omega
  have hlt : i < 5 := by
    have := (List.getElem?_eq_some_iff.1 hi).1
    rcases ‹q = 0 ∨ _› with rfl | rfl | rfl <;> simp [uqIdsEx] at this <;> omega
  rcases this with rfl | rfl | rfl
  · have : i = 0 ∨ i = 1 ∨ i = 2 ∨ i = 3 ∨ i = 4 := by omega
    rcases this with rfl | rfl | rfl | rfl | rfl <;> simp [uqIdsEx] at hi hm <;> omega
  · have : i = 0 ∨ i = 1 ∨ i = 2 ∨ i = 3 ∨ i = 4 := by omega
    rcases this with rfl | rfl | rfl | rfl | rfl <;> simp [uqIdsEx] at hi hm <;> omega
  · have : i = 0 ∨ i = 1 ∨ i = 2 ∨ i = 3 ∨ i = 4 := by omega
    rcases this with rfl | rfl | rfl | rfl | rfl <;> simp [uqIdsEx] at hi hm
    · omega
    · omega
    · omega
    · exact ⟨2, by decide, by simp [uqIdsEx]; omega⟩

/-- the result for these ids -/
example : (List.range 3).map (uniqIds 3 uqIdsEx) = [[1, -2, 0, -2, -3], [-2, 3, -3], [-3, 7, 2, -2]] := by decide +kernel

end Gslib.Props
