import Verif.Model.Gs
import Verif.Lemmas.GsAr
import Verif.Lemmas.GsOut
import Verif.Lemmas.GsCr
import Verif.Lemmas.GsCrSetup

/-! # The handles computed by gs_setup, and gs with these handles -/

namespace Gslib.Gs
open Gslib Gslib.Mpi Gslib.Spec Gslib.Props Gslib.Comm

variable {V T U : Type} {D : Dom T} {op : Op} {K : Kernels U T} {f : V → V → V} {e : V}
variable {np : Nat} {ids : Nat → List Int}

/-- the handles hold the data of one of the three methods for the ids -/
inductive RemoteOk (np : Nat) (ids : Nat → List Int) (r : Nat → Remote) : Prop where
  | pairwise (h : ∀ q, q < np → r q = .pairwise (pwSpec np ids q))
  | crystal (d : Nat → CrData) (hd : CrOk np ids d) (h : ∀ q, q < np → r q = .crystal (d q))
  | allreduce (st : Nat → TopoSt) (ord : Nat → Nat) (total : Nat) (ho : OrdOk np ids ord total) (htot : total ≤ 4294967295)
      (hst : ∀ q, q < np → TopoCore np ids ord total q (st q)) (h : ∀ q, q < np → r q = .allreduce (allreduceSetup (st q).pr (st q).total))

/-- the handles of all processes -/
structure HandleOk (np : Nat) (ids : Nat → List Int) (h : Nat → GsData) : Prop where
  loc : ∀ q, q < np → h q = localSetup (nzSpec (ids q)) (h q).r
  remote : RemoteOk np ids fun q => (h q).r

theorem gsAux_prog_congr (t : Bool) {p : Nat} {h h' : Nat → GsData} {ex ex' : Coll (GsSt U T) (List T)} (hh : h p = h' p) (hT : ex.T = ex'.T)
    (hp : ex.prog p = ex'.prog p) : (gsAux K h t ex).prog p = (gsAux K h' t ex').prog p := by
  unfold gsAux Coll.seq Coll.loc
  simp only [hh, hT, hp]

theorem OrdOk.idBound' {ord : Nat → Nat} {total : Nat} (ho : OrdOk np ids ord total) : IdBound np ids total := ho.idBound

/-- gs with the handles is an exchange between local parts -/
theorem gsOp_run (R : Rep D op K f e) {ok : V → Prop} (M : CommMonoidOn ok f e) (hok : ∀ v, ok v → R.shp v) (hi : ∀ q, q < np → IdsOk (ids q))
    {NB : Nat} (hB : IdBound np ids NB) (hNB : 3 * NB < 4294967295) (hsmall : sharedPairs np ids < 4294967295) {h : Nat → GsData} (hh : HandleOk np ids h) (t : Bool)
    (w : Nat → Nat → V) (hsw : ∀ q, q < np → ∀ k, R.shp (w q k)) (hw : ∀ q, q < np → ∀ k, absAt (ids q) k ≠ 0 → ok (w q k)) (s : Nat → GsSt U T) (hs : ∀ q, q < np → (s q).u = R.repU (tab (ids q).length (w q))) :
    ∃ (T' : Nat) (s' : Nat → GsSt U T), Matched (gsOp K D op np t h) np T' ∧ lockRun (gsOp K D op np t h) np T' s = .ok s' ∧
      ∀ q, q < np → (s' q).u = R.repU (tab (ids q).length (gsVal f e t np ids w q)) := by
  -- reduction to `gsAux_run`
  have key : ∀ (r : Nat → Remote) (ex : Coll (GsSt U T) (List T)), (∀ q, q < np → (h q).r = r q) → Exch R ok np ids t (fun q => (r q).bufferSize) ex →
      (∀ q, q < np → (remoteExec K D op np t (h q)).T = ex.T ∧ (remoteExec K D op np t (h q)).prog q = ex.prog q) →
      ∃ (T' : Nat) (s' : Nat → GsSt U T), Matched (gsOp K D op np t h) np T' ∧ lockRun (gsOp K D op np t h) np T' s = .ok s' ∧
        ∀ q, q < np → (s' q).u = R.repU (tab (ids q).length (gsVal f e t np ids w q)) := by
    intro r ex hr hex hp
    obtain ⟨s', e1, h1⟩ := gsAux_run R M hok hi t r hex w hsw hw s hs
    let c := gsAux K (fun q => localSetup (nzSpec (ids q)) (r q)) t ex
    have hc : c.Ok np := Coll.seq_ok (Coll.seq_ok (Coll.loc_ok _ _ _) hex.okc) (Coll.loc_ok _ _ _)
    let c' : Coll (GsSt U T) (List T) := ⟨c.T, gsOp K D op np t h⟩
    have hpr : ∀ p, p < np → c'.prog p = c.prog p := by
      intro p hp'
      refine gsAux_prog_congr t ?_ (hp p hp').1 (hp p hp').2
      rw [← hr p hp']
      exact hh.loc p hp'
    exact ⟨c.T, s', Coll.ok_congr (a := c') (b := c) rfl hpr hc, (Coll.run_congr (a := c') (b := c) rfl hpr s).trans e1, h1⟩
  cases hh.remote with
  | pairwise hr =>
    refine key (fun q => .pairwise (pwSpec np ids q)) (pwExec K (pwSpec np ids) t) hr (pwExec_exch R M hok hi hsmall t) ?_
    intro q hq
    have : (h q).r = .pairwise (pwSpec np ids q) := hr q hq
    unfold remoteExec
    rw [this]
    exact ⟨rfl, rfl⟩
  | crystal d hd hr =>
    obtain ⟨R0, Rw, Vl, gl, h0, hl⟩ := hd.learned t
    refine key (fun q => .crystal (d q)) (crExec K np d t) hr (crExec_exch R M hok hi hB hNB t hl h0 (hd.sbs t)) ?_
    intro q hq
    have : (h q).r = .crystal (d q) := hr q hq
    unfold remoteExec
    rw [this]
    exact ⟨rfl, rfl⟩
  | allreduce st ord total ho htot hst hr =>
    refine key (fun q => .allreduce (allreduceSetup (st q).pr (st q).total)) (arExec K D op np total (fun q => allreduceSetup (st q).pr (st q).total) t) hr
      (arExec_exch R M hok hi ho htot st hst t _) ?_
    intro q hq
    have : (h q).r = .allreduce (allreduceSetup (st q).pr (st q).total) := hr q hq
    unfold remoteExec
    rw [this]
    have ht : (allreduceSetup (st q).pr (st q).total).total = total := (hst q hq).total_eq
    simp only [ht]
    exact ⟨rfl, rfl⟩

theorem lens_topo : Lens SetupSt.topo SetupSt.setTopo := ⟨fun _ _ => rfl, fun _ => rfl, fun _ _ _ => rfl⟩
theorem lens_cr : Lens SetupSt.cr SetupSt.setCr := ⟨fun _ _ => rfl, fun _ => rfl, fun _ _ _ => rfl⟩

theorem setupTopo_ok (np : Nat) : (setupTopo np).Ok np := Coll.lift_ok _ _ (Coll.mapW_ok _ _ (ok_getTopology np))

theorem setupCr_ok (np : Nat) (keep : Bool) : (setupCr np keep).Ok np :=
  Coll.seq_ok (Coll.seq_ok (Coll.loc_ok _ _ _) (Coll.lift_ok _ _ (Coll.mapW_ok _ _ (crSetup_ok np)))) (Coll.loc_ok _ _ _)

theorem remoteSetup_ok (np : Nat) (m : Method) : (remoteSetup np m).Ok np := by
  cases m with
  | pairwise => exact Coll.loc_ok _ _ _
  | crystal => exact setupCr_ok np true
  | allreduce => exact Coll.loc_ok _ _ _
  | auto cr ar =>
    simp only [remoteSetup]
    by_cases h1 : 1 < np
    · rw [if_pos h1]
      exact Coll.seq_ok (Coll.seq_ok (Coll.loc_ok _ _ _) (setupCr_ok np cr)) (Coll.loc_ok _ _ _)
    · rw [if_neg h1]
      exact Coll.loc_ok _ _ _

theorem gsSetup_ok (unique : Bool) (m : Method) (np : Nat) : (gsSetup unique m np).Ok np :=
  Coll.seq_ok (Coll.seq_ok (setupTopo_ok np) (Coll.loc_ok _ _ _)) (remoteSetup_ok np m)

/-- cr_setup -/
theorem setupCr_run (hi : ∀ q, q < np → IdsOk (ids q)) {NB : Nat} (hB : IdBound np ids NB) (hNB : 3 * NB < 4294967295) (keep : Bool) (s : Nat → SetupSt)
    (hsh : ∀ q, q < np → ShOk np ids q (s q).topo.sh) :
    ∃ (d : Nat → CrData) (s' : Nat → SetupSt), (setupCr np keep).run np s = .ok s' ∧ CrOk np ids d ∧
      ∀ q, q < np → (s' q).topo = (s q).topo ∧ (s' q).h = if keep then { (s q).h with r := .crystal (d q) } else (s q).h := by
  let s1 : Nat → SetupSt := fun q => if q < np then (s q).setCr { (s q).cr with sh := (s q).topo.sh } else s q
  have hs1 : ∀ q, q < np → s1 q = (s q).setCr { (s q).cr with sh := (s q).topo.sh } := fun q hq => if_pos hq
  have r1 : (setupLoc fun _ s => .ok (s.setCr { s.cr with sh := s.topo.sh })).run np s = .ok s1 := Coll.loc_run_ok (fun q _ => rfl)
  obtain ⟨c, e2, h2⟩ := crSetup_run hi hB hNB (fun q => (s1 q).cr) (by
    intro q hq
    rw [hs1 q hq]; exact hsh q hq)
  have r2 : (((crSetup np).mapW Sum.inr SetupMsg.cr).lift SetupSt.cr SetupSt.setCr).run np s1 = .ok (putAll SetupSt.setCr np s1 c) := by
    rw [Coll.lift_run lens_cr _ np s1 (fun q => (s1 q).cr) (fun _ _ => rfl), Coll.mapW_run Sum.inr SetupMsg.cr (fun _ => rfl), e2]; rfl
  let s2 := putAll SetupSt.setCr np s1 c
  have hs2 : ∀ q, q < np → s2 q = (s q).setCr (c q) := by
    intro q hq
    show putAll _ _ _ _ q = _
    unfold putAll
    rw [if_pos hq, hs1 q hq]; rfl
  have r3 : (setupLoc fun _ s => .ok (if keep then s.setRemote (.crystal s.cr.data) else s)).run np s2 =
      .ok (fun q => if q < np then (if keep then (s2 q).setRemote (.crystal (s2 q).cr.data) else s2 q) else s2 q) := Coll.loc_run_ok (fun q _ => rfl)
  refine ⟨fun q => (c q).data, fun q => if q < np then (if keep then (s2 q).setRemote (.crystal (s2 q).cr.data) else s2 q) else s2 q, ?_, h2, ?_⟩
  · have k1 : (setupLoc fun _ s => .ok (s.setCr { s.cr with sh := s.topo.sh })).Ok np := Coll.loc_ok _ _ _
    have k2 := Coll.lift_ok SetupSt.cr SetupSt.setCr (Coll.mapW_ok Sum.inr SetupMsg.cr (crSetup_ok np))
    exact Coll.seq_run_ok (Coll.seq_ok k1 k2) (Coll.seq_run_ok k1 r1 r2) r3
  · intro q hq
    beta_reduce
    rw [if_pos hq, hs2 q hq]
    cases keep <;> exact ⟨rfl, rfl⟩

theorem mqRows_shOk {b : Nat → Nat → Nat} {q : Nat} : ShOk np ids q (mqRows np ids b q) where
  mem x hx := by
    obtain ⟨a, p, h1, h2, rfl⟩ := mem_sqRows.1 (mq_perm_sq.mem_iff.1 hx)
    exact ⟨a, p, h1, h2, rfl⟩
  cover a p h1 h2 := ⟨_, mq_perm_sq.mem_iff.2 (mem_sqRows.2 ⟨a, p, h1, h2, rfl⟩), rfl⟩

/-- the set-up of the exchange method -/
theorem remoteSetup_run' (hnp : np ≤ 4294967295) (hi : ∀ q, q < np → IdsOk (ids q)) (hsmall : sharedPairs np ids < 4294967295) {ord : Nat → Nat} {total : Nat}
    (ho : OrdOk np ids ord total) (htot : 3 * total < 4294967295) (m : Method) (s : Nat → SetupSt) (hs : ∀ q, q < np → TopoCore np ids ord total q (s q).topo)
    (hl : ∀ q, q < np → (s q).h = localSetup (nzSpec (ids q)) (s q).h.r) :
    ∃ s' : Nat → SetupSt, (remoteSetup np m).run np s = .ok s' ∧ (HandleOk np ids fun q => (s' q).h) ∧ (m = .pairwise → ∀ q, q < np → (s' q).h.r = .pairwise (pwSpec np ids q)) := by
  have rpw : ∀ q, q < np → setupPw (s q) = .ok (((s q).setTopo { (s q).topo with sh := mqRows np ids (biOf true np ids q) q }).setRemote (.pairwise (pwSpec np ids q))) := by
    intro q hq
    unfold setupPw
    rw [pwSetup_run hnp hi hq hsmall (hs q hq)]; rfl
  let s1 : Nat → SetupSt := fun q => if q < np then ((s q).setTopo { (s q).topo with sh := mqRows np ids (biOf true np ids q) q }).setRemote (.pairwise (pwSpec np ids q)) else s q
  have hs1 : ∀ q, q < np → s1 q = ((s q).setTopo { (s q).topo with sh := mqRows np ids (biOf true np ids q) q }).setRemote (.pairwise (pwSpec np ids q)) := fun q hq => if_pos hq
  have r1 : (setupLoc fun _ => setupPw).run np s = .ok s1 := Coll.loc_run_ok rpw
  have hl1 : ∀ q, q < np → (s1 q).h = localSetup (nzSpec (ids q)) (s1 q).h.r := by
    intro q hq
    rw [hs1 q hq]
    show ({ (s q).h with r := _ } : GsData) = _
    rw [hl q hq]; rfl
  have h1 : HandleOk np ids fun q => (s1 q).h := ⟨hl1, .pairwise fun q hq => by rw [hs1 q hq]; rfl⟩
  have hset : ∀ (h : GsData) (q : Nat) (r : Remote), h = localSetup (nzSpec (ids q)) h.r → ({ h with r := r } : GsData) = localSetup (nzSpec (ids q)) r := by
    intro h q r e
    rw [e]; rfl
  cases m with
  | pairwise => exact ⟨s1, r1, h1, fun _ q hq => by rw [hs1 q hq]; rfl⟩
  | crystal =>
    obtain ⟨d, s', e1, h2, h3⟩ := setupCr_run hi ho.idBound htot true s (fun q hq => (hs q hq).shOk)
    refine ⟨s', e1, ⟨?_, .crystal d h2 ?_⟩, nofun⟩
    · intro q hq
      rw [(h3 q hq).2, if_pos rfl]
      exact hset _ q _ (hl q hq)
    · intro q hq
      rw [(h3 q hq).2]; rfl
  | allreduce =>
    refine ⟨_, Coll.loc_run_ok (g := fun q => (s q).setRemote (.allreduce (allreduceSetup (s q).topo.pr (s q).topo.total))) (fun q _ => rfl), ⟨?_, .allreduce (fun q => (s q).topo) ord total ho (by omega) hs ?_⟩, nofun⟩
    · intro q hq
      beta_reduce
      rw [if_pos hq]
      exact hset _ q _ (hl q hq)
    · intro q hq
      beta_reduce
      rw [if_pos hq]; rfl
  | auto cr ar =>
    simp only [remoteSetup]
    by_cases hnp1 : 1 < np
    · rw [if_pos hnp1]
      obtain ⟨d, s2, e2, h2, h3⟩ := setupCr_run hi ho.idBound htot cr s1 (fun q hq => by
        rw [hs1 q hq]; exact mqRows_shOk)
      have hl2 : ∀ q, q < np → (s2 q).h = localSetup (nzSpec (ids q)) (s2 q).h.r := by
        intro q hq
        rw [(h3 q hq).2]
        split
        · exact hset _ q _ (hl1 q hq)
        · exact hl1 q hq
      have hpr : ∀ q, q < np → (s2 q).topo.pr = (s q).topo.pr ∧ (s2 q).topo.total = (s q).topo.total := by
        intro q hq
        rw [(h3 q hq).1, hs1 q hq]; exact ⟨rfl, rfl⟩
      have k1 : (setupLoc fun _ => setupPw).Ok np := Coll.loc_ok _ _ _
      by_cases hc : total < 100000 ∧ ar = true
      · refine ⟨_, Coll.seq_run_ok (Coll.seq_ok k1 (setupCr_ok np cr)) (Coll.seq_run_ok k1 r1 e2) (Coll.loc_run_ok (g := fun q => (s2 q).setRemote (.allreduce (allreduceSetup (s2 q).topo.pr (s2 q).topo.total))) ?_), ⟨?_,
          .allreduce (fun q => (s q).topo) ord total ho (by omega) hs ?_⟩, nofun⟩
        · intro q hq
          rw [if_pos (by rw [(hpr q hq).2, (hs q hq).total_eq]; exact hc)]; rfl
        · intro q hq
          beta_reduce
          rw [if_pos hq]
          exact hset _ q _ (hl2 q hq)
        · intro q hq
          beta_reduce
          rw [if_pos hq]
          show Remote.allreduce (allreduceSetup (s2 q).topo.pr (s2 q).topo.total) = _
          rw [(hpr q hq).1, (hpr q hq).2]
      · refine ⟨_, Coll.seq_run_ok (Coll.seq_ok k1 (setupCr_ok np cr)) (Coll.seq_run_ok k1 r1 e2) (Coll.loc_run_ok (g := fun q => s2 q) ?_), ⟨?_, ?_⟩, nofun⟩
        · intro q hq
          rw [if_neg (by rw [(hpr q hq).2, (hs q hq).total_eq]; exact hc)]
        · intro q hq
          beta_reduce
          rw [if_pos hq]
          exact hl2 q hq
        · cases cr with
          | true =>
            refine .crystal d h2 ?_
            intro q hq
            beta_reduce
            rw [if_pos hq, (h3 q hq).2]; rfl
          | false =>
            refine .pairwise ?_
            intro q hq
            beta_reduce
            rw [if_pos hq, (h3 q hq).2]
            show (s1 q).h.r = _
            rw [hs1 q hq]; rfl
    · rw [if_neg hnp1]
      exact ⟨s1, r1, h1, nofun⟩

/-- the set-up of the exchange method -/
theorem remoteSetup_run (hnp : np ≤ 4294967295) (hi : ∀ q, q < np → IdsOk (ids q)) (hsmall : sharedPairs np ids < 4294967295) {ord : Nat → Nat} {total : Nat}
    (ho : OrdOk np ids ord total) (htot : 3 * total < 4294967295) (m : Method) (s : Nat → SetupSt) (hs : ∀ q, q < np → TopoCore np ids ord total q (s q).topo)
    (hl : ∀ q, q < np → (s q).h = localSetup (nzSpec (ids q)) (s q).h.r) :
    ∃ s' : Nat → SetupSt, (remoteSetup np m).run np s = .ok s' ∧ HandleOk np ids fun q => (s' q).h := by
  obtain ⟨s', e, h, _⟩ := remoteSetup_run' hnp hi hsmall ho htot m s hs hl
  exact ⟨s', e, h⟩

end Gslib.Gs
