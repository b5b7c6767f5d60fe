import Verif.Lemmas.GsCr

/-! # cr_setup -/

namespace Gslib.Gs
open Gslib Gslib.Mpi Gslib.Sarray Gslib.Spec Gslib.Props Gslib.Crystal

variable {np : Nat} {ids : Nat → List Int}

theorem OrdOk.idBound {ord : Nat → Nat} {total : Nat} (h : OrdOk np ids ord total) : IdBound np ids total := by
  intro L hnd hL
  have h1 : (L.map ord).Nodup := hnd.map_on fun a ha b hb he => h.inj a b (hL a ha) (hL b hb) he
  have h2 : L.map ord ⊆ List.range total := by
    intro x hx
    obtain ⟨a, ha, rfl⟩ := List.mem_map.1 hx
    exact List.mem_range.2 (h.lt a (hL a ha))
  have := (List.subperm_of_subset h1 h2).length_le
  rwa [List.length_map, List.length_range] at this

theorem ShOk.perm {q : Nat} {sh sh' : List SharedId} (h : ShOk np ids q sh) (hp : sh'.Perm sh) : ShOk np ids q sh' where
  mem x hx := h.mem x (hp.mem_iff.1 hx)
  cover a p hpn hS := by
    obtain ⟨x, hx, e⟩ := h.cover a p hpn hS
    exact ⟨x, hp.mem_iff.2 hx, e⟩

theorem TopoCore.shOk {ord : Nat → Nat} {total q : Nat} {s : TopoSt} (h : TopoCore np ids ord total q s) : ShOk np ids q s.sh where
  mem x hx := by
    obtain ⟨a, p, h1, h2, rfl⟩ := (h.mem_sh x).1 hx
    exact ⟨a, p, h1, h2, rfl⟩
  cover a p h1 h2 := ⟨_, (h.mem_sh _).2 ⟨a, p, h1, h2, rfl⟩, rfl⟩

theorem lens_learn : Lens CrSetSt.learn CrSetSt.setLearn := ⟨fun _ _ => rfl, fun _ => rfl, fun _ _ _ => rfl⟩

theorem crSetup_ok (np : Nat) : (crSetup np).Ok np := by
  unfold crSetup
  exact Coll.seq_ok (Coll.seq_ok (Coll.seq_ok (Coll.loc_ok _ _ _) (Coll.lift_ok _ _ (crLearn_ok np))) (Coll.loc_ok _ _ _)) (Coll.lift_ok _ _ (crLearn_ok np))

/-- the handle has the stages of both directions -/
structure CrOk (np : Nat) (ids : Nat → List Int) (d : Nat → CrData) : Prop where
  learned : ∀ t, ∃ R0 Rw Vl gl, Rows0 t np ids R0 ∧ Learned t np ids R0 Rw Vl gl (fun p => (d p).stages t)
  sbs : ∀ t p, p < np → sizeMax ((d p).stages t) ≤ (d p).sbs

theorem crSetup_run (hi : ∀ q, q < np → IdsOk (ids q)) {NB : Nat} (hB : IdBound np ids NB) (hNB : 3 * NB < 4294967295) (s : Nat → CrSetSt) (hsh : ∀ q, q < np → ShOk np ids q (s q).sh) :
    ∃ s', (crSetup np).run np s = .ok s' ∧ CrOk np ids (fun p => (s' p).data) := by
  -- sort
  have hsort : ∀ q, ∃ sh, q < np → sarraySort [.int 4 SharedId.i] (s q).sh (s q).learn.scratch = .ok sh ∧ ShOk np ids q sh := by
    intro q
    by_cases hq : q < np
    · obtain ⟨out, e, h⟩ := sarray_sort_lexicographic (κ := Nat) [.int 4 SharedId.i] (s q).sh (s q).learn.scratch (by
        intro f hf
        simp only [List.mem_singleton] at hf
        subst hf
        intro x hx
        obtain ⟨a, p, hp, hS, he⟩ := (hsh q hq).mem x hx
        have h1 := prim_lt_length hS.2.1
        have h2 := (hi q hq).len
        have h3 : x.i = prim (ids q) a := by rw [he]; rfl
        norm_num
        omega)
      exact ⟨out, fun _ => ⟨e, (hsh q hq).perm h.perm⟩⟩
    · exact ⟨[], fun h => absurd h hq⟩
  choose sh hsh1 using hsort
  let g1 : Nat → CrSetSt := fun q => { s q with sh := sh q, learn := { (s q).learn with cw := crlWorkInit 1 q uintMax false (sh q), stages := [] } }
  have r1 : (Coll.loc crSet1 (.rows []) : Coll CrSetSt CrMsg).run np s = .ok (fun q => if q < np then g1 q else s q) := by
    apply Coll.loc_run_ok
    intro q hq
    unfold crSet1
    rw [(hsh1 q hq).1]; rfl
  have hinit : ∀ (t : Bool), Rows0 t np ids (fun q => crlWorkInit (crMask t) q uintMax false (sh q)) := by
    intro t q hq w
    exact mem_init hq (hsh1 q hq).2 t w
  have hsi : ∀ (t : Bool) q, q < np → ∀ w ∈ crlWorkInit (crMask t) q uintMax false (sh q), w.si < 4294967295 := by
    intro t q hq w hw
    obtain ⟨a, p, hc, _, rfl⟩ := (hinit t q hq w).1 hw
    have h1 := prim_lt_length hc.has
    have h2 := (hi q hq).len
    show prim (ids q) a < _
    omega
  let s1 : Nat → CrSetSt := fun q => if q < np then g1 q else s q
  have hs1 : ∀ q, q < np → s1 q = g1 q := fun q hq => if_pos hq
  obtain ⟨l1, R1, V1, gl1, e1, h1⟩ := crLearn_run (tr := false) hi hB hNB (fun q => (s1 q).learn) (by
      intro p hp; rw [hs1 p hp]) ((rows_init (hinit false)).congr (by intro p hp; rw [hs1 p hp]; rfl)) (by
      intro p hp w hw
      rw [hs1 p hp] at hw
      exact hsi false p hp w hw)
  have r2 : ((crLearn np).lift CrSetSt.learn CrSetSt.setLearn).run np s1 = .ok (putAll CrSetSt.setLearn np s1 l1) := by
    rw [Coll.lift_run lens_learn _ np s1 (fun q => (s1 q).learn) (fun _ _ => rfl), e1]; rfl
  let s2 := putAll CrSetSt.setLearn np s1 l1
  have hs2 : ∀ q, q < np → s2 q = (g1 q).setLearn (l1 q) := by
    intro q hq
    show putAll _ _ _ _ q = _
    unfold putAll
    rw [if_pos hq, hs1 q hq]
  let g3 : Nat → CrSetSt := fun q => { s2 q with stages0 := (s2 q).learn.stages, learn := { (s2 q).learn with cw := crlWorkInit 2 q uintMax false (s2 q).sh, stages := [] } }
  have r3 : (Coll.loc crSet2 (.rows []) : Coll CrSetSt CrMsg).run np s2 = .ok (fun q => if q < np then g3 q else s2 q) := by
    apply Coll.loc_run_ok
    intro q hq
    rfl
  let s3 : Nat → CrSetSt := fun q => if q < np then g3 q else s2 q
  have hs3 : ∀ q, q < np → s3 q = g3 q := fun q hq => if_pos hq
  have hcw3 : ∀ q, q < np → (s3 q).learn.cw = crlWorkInit (crMask true) q uintMax false (sh q) := by
    intro q hq
    rw [hs3 q hq]
    show crlWorkInit 2 q uintMax false (s2 q).sh = _
    rw [hs2 q hq]; rfl
  obtain ⟨l4, R4, V4, gl4, e4, h4⟩ := crLearn_run (tr := true) hi hB hNB (fun q => (s3 q).learn) (by
      intro p hp; rw [hs3 p hp]) ((rows_init (hinit true)).congr (by intro p hp; exact hcw3 p hp)) (by
      intro p hp w hw
      rw [hcw3 p hp] at hw
      exact hsi true p hp w hw)
  have r4 : ((crLearn np).lift CrSetSt.learn CrSetSt.setLearn).run np s3 = .ok (putAll CrSetSt.setLearn np s3 l4) := by
    rw [Coll.lift_run lens_learn _ np s3 (fun q => (s3 q).learn) (fun _ _ => rfl), e4]; rfl
  have hs4 : ∀ q, q < np → putAll CrSetSt.setLearn np s3 l4 q = (g3 q).setLearn (l4 q) := by
    intro q hq
    unfold putAll
    rw [if_pos hq, hs3 q hq]
  have hst0 : ∀ q, q < np → (putAll CrSetSt.setLearn np s3 l4 q).data.stages false = (l1 q).stages := by
    intro q hq
    rw [hs4 q hq]
    show (s2 q).learn.stages = _
    rw [hs2 q hq]; rfl
  have hst1 : ∀ q, q < np → (putAll CrSetSt.setLearn np s3 l4 q).data.stages true = (l4 q).stages := by
    intro q hq
    rw [hs4 q hq]; rfl
  refine ⟨putAll CrSetSt.setLearn np s3 l4, ?_, ?_, ?_⟩
  · unfold crSetup
    have k1 := Coll.loc_ok (S := CrSetSt) (W := CrMsg) crSet1 (.rows []) np
    have k2 := Coll.lift_ok CrSetSt.learn CrSetSt.setLearn (crLearn_ok np)
    have k3 := Coll.loc_ok (S := CrSetSt) (W := CrMsg) crSet2 (.rows []) np
    exact Coll.seq_run_ok (Coll.seq_ok (Coll.seq_ok k1 k2) k3) (Coll.seq_run_ok (Coll.seq_ok k1 k2) (Coll.seq_run_ok k1 r1 r2) r3) r4
  · intro t
    cases t with
    | false =>
      refine ⟨_, R1, V1, gl1, ?_, ⟨h1.hist, h1.start, ?_, h1.maps, h1.back⟩⟩
      · intro q hq w
        show w ∈ (s1 q).learn.cw ↔ _
        rw [hs1 q hq]
        exact hinit false q hq w
      · intro p hp
        rw [hst0 p hp]
        exact h1.stages p hp
    | true =>
      refine ⟨_, R4, V4, gl4, ?_, ⟨h4.hist, h4.start, ?_, h4.maps, h4.back⟩⟩
      · intro q hq w
        show w ∈ (s3 q).learn.cw ↔ _
        rw [hcw3 q hq]
        exact hinit true q hq w
      · intro p hp
        rw [hst1 p hp]
        exact h4.stages p hp
  · intro t p hp
    cases t
    · exact le_max_left _ _
    · exact le_max_right _ _

end Gslib.Gs
