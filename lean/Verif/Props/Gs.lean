import Verif.Lemmas.GsFinal
import Verif.Props.GsOp

/-!
# Properties C20-C22, C24, C25: gather-scatter

Specification: `Verif/Spec/Gs.lean`. Model: `Verif/Model/Gs.lean` (gs_setup and gs), `Verif/Model/GsTopo.lean` (topology), `Verif/Model/GsExec.lean` (pairwise
and all-reduce exchange), `Verif/Model/GsCr.lean` (crystal-router exchange), `Verif/Model/GsKernel.lean` (kernels).

`gsSetup unique m np` is the program of gs_setup on `np` processes; the memory `s` of a process has the ids `s.topo.ids`, and after the call the handle `s.h`.
`gsOp K D op np t h` is the program of gs (`K := plainKernels D op`), gs_vec (`vecKernels D op vn`) or gs_many (`manyKernels D op vn`) with `transpose = t` when
process `p` has the handle `h p`. The memory before a call is arbitrary except for the user data, so that the theorems apply to every call after any other calls.
`okT` are the values on which the operation is a commutative monoid (all values, for the integer domains: `gs_op_commutative_monoid`).
-/

namespace Gslib.Props
open Gslib Gslib.Spec Gslib.Mpi Gslib.Gs Gslib.Comm

variable {T : Type}

/-- after gs_setup with any method: the general form of the theorems below -/
theorem gs_setup_handles {np : Nat} {ids : Nat → List Int} (hin : GsInput np ids) (m : Method) (s0 : Nat → SetupSt) (h0 : ∀ q, q < np → (s0 q).topo.ids = ids q)
    (Q : (Nat → SetupSt) → Prop) (hQ : ∀ s, (Handles np ids fun q => (s q).h) → Q s) : AllSchedules (gsSetup false m np).prog np s0 Q := by
  obtain ⟨s', e, h⟩ := gsSetup_run hin m s0 h0
  refine allSchedules_of_lockRun (gsSetup_ok false m np) e _ ?_
  intro s hs
  refine hQ s ⟨h.ids_ok, h.bound, h.small, ?_, ?_⟩
  · intro q hq
    have := h.ok.loc q hq
    beta_reduce at this ⊢
    rw [hs q hq]; exact this
  · have heq : ∀ q, q < np → (s q).h.r = (s' q).h.r := fun q hq => by rw [hs q hq]
    cases h.ok.remote with
    | pairwise h => exact .pairwise fun q hq => (heq q hq).trans (h q hq)
    | crystal d hd h => exact .crystal d hd fun q hq => (heq q hq).trans (h q hq)
    | allreduce st ord total ho htot hst h => exact .allreduce st ord total ho htot hst fun q hq => (heq q hq).trans (h q hq)

/-- the result of gs: for every number of processes, all ids, all values, every method and under every schedule, gs_setup ends on all processes, and any later
call of gs with the handles ends on all processes with the specified result -/
theorem gs_computes (D : Dom T) (op : Op) (okT : T → Prop) (hD : CommMonoidOn okT (D.doOp op) (D.identity op)) {np : Nat} {ids : Nat → List Int} (hin : GsInput np ids)
    (m : Method) (s0 : Nat → SetupSt) (h0 : ∀ q, q < np → (s0 q).topo.ids = ids q) :
    AllSchedules (gsSetup false m np).prog np s0 fun s1 =>
      ∀ (t : Bool) (v : Nat → List T), (∀ q, q < np → (v q).length = (ids q).length) → (∀ q, q < np → ∀ x ∈ v q, okT x) →
      ∀ s2 : Nat → GsSt (List T) T, (∀ q, q < np → (s2 q).u = v q) →
        AllSchedules (gsOp (plainKernels D op) D op np t fun q => (s1 q).h) np s2 fun s3 =>
          ∀ q, q < np → (s3 q).u = gsResult t (D.doOp op) (D.identity op) np ids v q := by
  refine gs_setup_handles hin m s0 h0 _ ?_
  intro s1 hh t v hl hv s2 hs2
  exact gsOp_all (plainRep D op) hD (fun _ _ => trivial) hh t v hl hv s2 hs2

/-- **C20**: if all ids are positive, gs (with `transpose` 0 or 1) replaces every entry by the reduction of all entries with the same id, on all processes -/
theorem gs_symmetric (D : Dom T) (op : Op) (okT : T → Prop) (hD : CommMonoidOn okT (D.doOp op) (D.identity op)) {np : Nat} {ids : Nat → List Int} (hin : GsInput np ids)
    (hpos : ∀ q, q < np → ∀ x ∈ ids q, 0 < x) (m : Method) (s0 : Nat → SetupSt) (h0 : ∀ q, q < np → (s0 q).topo.ids = ids q) :
    AllSchedules (gsSetup false m np).prog np s0 fun s1 =>
      ∀ (t : Bool) (v : Nat → List T), (∀ q, q < np → (v q).length = (ids q).length) → (∀ q, q < np → ∀ x ∈ v q, okT x) →
      ∀ s2 : Nat → GsSt (List T) T, (∀ q, q < np → (s2 q).u = v q) →
        AllSchedules (gsOp (plainKernels D op) D op np t fun q => (s1 q).h) np s2 fun s3 =>
          ∀ q, q < np → (s3 q).u = (ids q).map fun x => reduce (D.doOp op) (D.identity op) ((List.range np).flatMap fun p => pick (fun y => y = x) (ids p) (v p)) := by
  refine gs_setup_handles hin m s0 h0 _ ?_
  intro s1 hh t v hl hv s2 hs2
  have h := gsOp_all (plainRep D op) hD (fun _ _ => trivial) hh t v hl hv s2 hs2
  refine ⟨h.noInfinite, h.noDeadlock, fun c hc hf => ⟨?_, (h.result c hc hf).2⟩⟩
  intro q hq
  rw [(h.result c hc hf).1 q hq]
  show gsResult _ _ _ _ _ _ _ = _
  apply List.ext_getElem?
  intro i
  cases hx : (ids q)[i]? with
  | none =>
    have hlt : (ids q).length ≤ i := List.getElem?_eq_none_iff.1 hx
    rw [List.getElem?_eq_none, List.getElem?_eq_none (by simpa using hlt)]
    unfold gsResult gsOutT gsOut
    split <;> simp [List.length_zip, hl q hq] <;> omega
  | some x =>
    have hlt : i < (ids q).length := (List.getElem?_eq_some_iff.1 hx).1
    obtain ⟨y, hy⟩ : ∃ y, (v q)[i]? = some y := ⟨_, List.getElem?_eq_getElem (by rw [hl q hq]; exact hlt)⟩
    have hx0 : 0 < x := hpos q hq x (List.mem_of_getElem? hx)
    have habs : (x.natAbs : Int) = x := by omega
    rw [List.getElem?_map, hx]
    cases t with
    | false =>
      show (gsOut _ _ np ids v q)[i]? = _
      rw [gsOut_get hx hy, if_neg (by omega)]
      unfold unflagged
      rw [habs]; rfl
    | true =>
      show (gsOutT _ _ np ids v q)[i]? = _
      rw [gsOutT_get hx hy, if_pos hx0]
      unfold members
      rw [Option.map_some]
      congr 2
      apply List.flatMap_congr
      intro p hp
      unfold pick
      congr 1
      apply List.filter_congr
      intro z hz
      have := hpos p (List.mem_range.1 hp) z.1 (List.of_mem_zip hz).1
      rw [decide_eq_decide]
      omega

/-- **C21**: an entry with id 0 is not changed by gs, and its value has no influence on other entries -/
theorem gs_ignores_zero_ids (D : Dom T) (op : Op) (okT : T → Prop) (hD : CommMonoidOn okT (D.doOp op) (D.identity op)) {np : Nat} {ids : Nat → List Int} (hin : GsInput np ids)
    (m : Method) (s0 : Nat → SetupSt) (h0 : ∀ q, q < np → (s0 q).topo.ids = ids q) :
    AllSchedules (gsSetup false m np).prog np s0 fun s1 =>
      ∀ (t : Bool) (v : Nat → List T), (∀ q, q < np → (v q).length = (ids q).length) → (∀ q, q < np → ∀ x ∈ v q, okT x) →
      ∀ s2 : Nat → GsSt (List T) T, (∀ q, q < np → (s2 q).u = v q) →
        AllSchedules (gsOp (plainKernels D op) D op np t fun q => (s1 q).h) np s2 fun s3 =>
          (∀ q, q < np → ∀ i : Nat, (ids q)[i]? = some 0 → (s3 q).u[i]? = (v q)[i]?) ∧
          ∀ v' : Nat → List T, (∀ q, q < np → (v' q).length = (ids q).length) → (∀ q, q < np → ∀ x ∈ v' q, okT x) →
            (∀ q, q < np → ∀ i : Nat, (ids q)[i]? ≠ some 0 → (v' q)[i]? = (v q)[i]?) →
            ∀ s2' : Nat → GsSt (List T) T, (∀ q, q < np → (s2' q).u = v' q) →
              AllSchedules (gsOp (plainKernels D op) D op np t fun q => (s1 q).h) np s2' fun s3' =>
                ∀ q, q < np → ∀ i : Nat, (ids q)[i]? ≠ some 0 → (s3' q).u[i]? = (s3 q).u[i]? := by
  refine gs_setup_handles hin m s0 h0 _ ?_
  intro s1 hh t v hl hv s2 hs2
  have h := gsOp_all (plainRep D op) hD (fun _ _ => trivial) hh t v hl hv s2 hs2
  refine ⟨h.noInfinite, h.noDeadlock, fun c hc hf => ⟨⟨?_, ?_⟩, (h.result c hc hf).2⟩⟩
  · intro q hq i hx
    have hlt : i < (ids q).length := (List.getElem?_eq_some_iff.1 hx).1
    obtain ⟨y, hy⟩ : ∃ y, (v q)[i]? = some y := ⟨_, List.getElem?_eq_getElem (by rw [hl q hq]; exact hlt)⟩
    rw [(h.result c hc hf).1 q hq, hy]
    cases t with
    | false =>
      show (gsOut _ _ np ids v q)[i]? = _
      rw [gsOut_get hx hy, if_pos rfl]
    | true =>
      show (gsOutT _ _ np ids v q)[i]? = _
      rw [gsOutT_get hx hy, if_neg (by omega), if_neg (by omega)]
  · intro v' hl' hv' hvv s2' hs2'
    have h' := gsOp_all (plainRep D op) hD (fun _ _ => trivial) hh t v' hl' hv' s2' hs2'
    refine ⟨h'.noInfinite, h'.noDeadlock, fun c' hc' hf' => ⟨?_, (h'.result c' hc' hf').2⟩⟩
    intro q hq i hi
    rw [(h.result c hc hf).1 q hq, (h'.result c' hc' hf').1 q hq]
    exact gsResult_zero hl' hl hvv hq hi

/-- **C22**, `transpose = 0`: flagged entries (negative id) do not contribute, but receive the result -/
theorem gs_flagged (D : Dom T) (op : Op) (okT : T → Prop) (hD : CommMonoidOn okT (D.doOp op) (D.identity op)) {np : Nat} {ids : Nat → List Int} (hin : GsInput np ids)
    (m : Method) (s0 : Nat → SetupSt) (h0 : ∀ q, q < np → (s0 q).topo.ids = ids q) :
    AllSchedules (gsSetup false m np).prog np s0 fun s1 =>
      ∀ (v : Nat → List T), (∀ q, q < np → (v q).length = (ids q).length) → (∀ q, q < np → ∀ x ∈ v q, okT x) →
      ∀ s2 : Nat → GsSt (List T) T, (∀ q, q < np → (s2 q).u = v q) →
        AllSchedules (gsOp (plainKernels D op) D op np false fun q => (s1 q).h) np s2 fun s3 =>
          ∀ q, q < np → ∀ (i : Nat) (x : Int), (ids q)[i]? = some x → x ≠ 0 →
            (s3 q).u[i]? = some (reduce (D.doOp op) (D.identity op) ((List.range np).flatMap fun p => pick (fun y => y = |x|) (ids p) (v p))) := by
  refine gs_setup_handles hin m s0 h0 _ ?_
  intro s1 hh v hl hv s2 hs2
  have h := gsOp_all (plainRep D op) hD (fun _ _ => trivial) hh false v hl hv s2 hs2
  refine ⟨h.noInfinite, h.noDeadlock, fun c hc hf => ⟨?_, (h.result c hc hf).2⟩⟩
  intro q hq i x hx hx0
  have hlt : i < (ids q).length := (List.getElem?_eq_some_iff.1 hx).1
  obtain ⟨y, hy⟩ : ∃ y, (v q)[i]? = some y := ⟨_, List.getElem?_eq_getElem (by rw [hl q hq]; exact hlt)⟩
  rw [(h.result c hc hf).1 q hq]
  show (gsOut _ _ np ids v q)[i]? = _
  rw [gsOut_get hx hy, if_neg hx0]
  unfold unflagged
  rw [Int.abs_eq_natAbs]

/-- **C22**, `transpose = 1`: all entries contribute, unflagged ones receive the result; a flagged entry is not changed if the process has an unflagged entry with this id
or an earlier entry with this id. (Otherwise it receives the reduction of the entries of its process, see `gs_transpose_changes_flagged`.) -/
theorem gs_flagged_transpose (D : Dom T) (op : Op) (okT : T → Prop) (hD : CommMonoidOn okT (D.doOp op) (D.identity op)) {np : Nat} {ids : Nat → List Int} (hin : GsInput np ids)
    (m : Method) (s0 : Nat → SetupSt) (h0 : ∀ q, q < np → (s0 q).topo.ids = ids q) :
    AllSchedules (gsSetup false m np).prog np s0 fun s1 =>
      ∀ (v : Nat → List T), (∀ q, q < np → (v q).length = (ids q).length) → (∀ q, q < np → ∀ x ∈ v q, okT x) →
      ∀ s2 : Nat → GsSt (List T) T, (∀ q, q < np → (s2 q).u = v q) →
        AllSchedules (gsOp (plainKernels D op) D op np true fun q => (s1 q).h) np s2 fun s3 =>
          ∀ q, q < np → ∀ (i : Nat) (x : Int), (ids q)[i]? = some x →
            (0 < x → (s3 q).u[i]? = some (reduce (D.doOp op) (D.identity op) ((List.range np).flatMap fun p => pick (fun y => |y| = x) (ids p) (v p)))) ∧
            (x < 0 → ((-x) ∈ ids q ∨ ∃ j < i, (ids q)[j]? = some x) → (s3 q).u[i]? = (v q)[i]?) ∧
            (x < 0 → ¬ ((-x) ∈ ids q ∨ ∃ j < i, (ids q)[j]? = some x) →
              (s3 q).u[i]? = some (reduce (D.doOp op) (D.identity op) (pick (fun y => y = x) (ids q) (v q)))) := by
  refine gs_setup_handles hin m s0 h0 _ ?_
  intro s1 hh v hl hv s2 hs2
  have h := gsOp_all (plainRep D op) hD (fun _ _ => trivial) hh true v hl hv s2 hs2
  refine ⟨h.noInfinite, h.noDeadlock, fun c hc hf => ⟨?_, (h.result c hc hf).2⟩⟩
  intro q hq i x hx
  have hlt : i < (ids q).length := (List.getElem?_eq_some_iff.1 hx).1
  obtain ⟨y, hy⟩ : ∃ y, (v q)[i]? = some y := ⟨_, List.getElem?_eq_getElem (by rw [hl q hq]; exact hlt)⟩
  rw [(h.result c hc hf).1 q hq]
  show ((0 < x → (gsOutT _ _ np ids v q)[i]? = _) ∧ (x < 0 → _ → (gsOutT _ _ np ids v q)[i]? = _) ∧ (x < 0 → _ → (gsOutT _ _ np ids v q)[i]? = _))
  rw [gsOutT_get hx hy]
  -- the condition of the specification
  have hcond : x < 0 → (loneFlagged (ids q) i x.natAbs ↔ ¬ ((-x) ∈ ids q ∨ ∃ j < i, (ids q)[j]? = some x)) := by
    intro hx0
    have habs : (x.natAbs : Int) = -x := by omega
    unfold loneFlagged
    rw [habs, not_or]
    constructor
    · rintro ⟨h1, h2⟩
      refine ⟨h1, ?_⟩
      rintro ⟨j, hj, hjx⟩
      apply h2 j hj
      rw [List.getD_eq_getElem?_getD, hjx]; rfl
    · rintro ⟨h1, h2⟩
      refine ⟨h1, ?_⟩
      intro j hj hja
      have hj' : j < (ids q).length := by omega
      rw [List.getD_eq_getElem _ _ hj'] at hja
      by_cases hz : (ids q)[j] = x
      · exact h2 ⟨j, hj, by rw [List.getElem?_eq_getElem hj', hz]⟩
      · apply h1
        have : (ids q)[j] = -x := by omega
        rw [← this]
        exact List.getElem_mem hj'
  refine ⟨?_, ?_, ?_⟩
  · intro hx0
    rw [if_pos hx0]
    unfold members
    congr 2
    apply List.flatMap_congr
    intro p _
    unfold pick
    congr 1
    apply List.filter_congr
    intro z _
    rw [decide_eq_decide, Int.abs_eq_natAbs]
    omega
  · intro hx0 hc
    rw [if_neg (by omega), if_neg (fun h => ((hcond hx0).1 h.2) hc), hy]
  · intro hx0 hc
    rw [if_neg (by omega), if_pos ⟨hx0, (hcond hx0).2 hc⟩]
    congr 2
    unfold pick
    congr 1
    apply List.filter_congr
    intro z hz
    rw [decide_eq_decide]
    constructor
    · intro h1
      by_contra h2
      exact hc (Or.inl (by
        have : z.1 = -x := by omega
        rw [← this]; exact (List.of_mem_zip hz).1))
    · intro h1
      rw [h1]

/-- **finding**: with `transpose = 1` a flagged entry can be changed: on one process with ids `-5`, `-5` and values 1, 2, gs with `add` leaves 3, 2 -/
theorem gs_transpose_changes_flagged (m : Method) (s0 : Nat → SetupSt) (h0 : (s0 0).topo.ids = [-5, -5]) (fill : Nat → BitVec 32) :
    AllSchedules (gsSetup false m 1).prog 1 s0 fun s1 =>
      AllSchedules (gsOp (plainKernels (intDom 32 32) .add) (intDom 32 32) .add 1 true fun q => (s1 q).h) 1 (fun _ => ⟨[1, 2], [], fill, []⟩) fun s3 =>
        (s3 0).u = [3, 2] := by
  have hin : GsInput 1 (fun _ => [-5, -5]) := ⟨by decide, fun _ _ => ⟨by decide, by decide⟩, by decide⟩
  have h := gs_computes (intDom 32 32) .add (fun _ => True) (gs_op_commutative_monoid 32 .add) hin m s0 (fun q hq => by
    obtain rfl : q = 0 := by omega
    exact h0)
  refine ⟨h.noInfinite, h.noDeadlock, fun c hc hf => ⟨?_, (h.result c hc hf).2⟩⟩
  have h1 := (h.result c hc hf).1 true (fun _ => [1, 2]) (fun _ _ => rfl) (fun _ _ _ _ => trivial) (fun _ => ⟨[1, 2], [], fill, []⟩) (fun _ _ => rfl)
  refine ⟨h1.noInfinite, h1.noDeadlock, fun c' hc' hf' => ⟨?_, (h1.result c' hc' hf').2⟩⟩
  rw [(h1.result c' hc' hf').1 0 (by decide)]
  decide

/-- **C24**, gs_vec: on vectors with `vn` components, component `k` of the result is the result for component `k` -/
theorem gs_vec_is_componentwise (D : Dom T) (op : Op) (okT : T → Prop) (hD : CommMonoidOn okT (D.doOp op) (D.identity op)) {np : Nat} {ids : Nat → List Int} (hin : GsInput np ids)
    (m : Method) (s0 : Nat → SetupSt) (h0 : ∀ q, q < np → (s0 q).topo.ids = ids q) :
    AllSchedules (gsSetup false m np).prog np s0 fun s1 =>
      ∀ (t : Bool) (vn : Nat), 1 ≤ vn → ∀ (x : Nat → List T), (∀ q, q < np → (x q).length = (ids q).length * vn) → (∀ q, q < np → ∀ y ∈ x q, okT y) →
      ∀ s2 : Nat → GsSt (List T) T, (∀ q, q < np → (s2 q).u = x q) →
        AllSchedules (gsOp (vecKernels D op vn) D op np t fun q => (s1 q).h) np s2 fun s3 =>
          ∀ q, q < np → (s3 q).u.length = (x q).length ∧
            ∀ k, k < vn → column vn k (s3 q).u = gsResult t (D.doOp op) (D.identity op) np ids (fun p => column vn k (x p)) q := by
  refine gs_setup_handles hin m s0 h0 _ ?_
  intro s1 hh t vn hvn x hl hx s2 hs2
  have hex : ∀ q, ∃ Z : List (List T), q < np → Units vn Z ∧ Z.length = (ids q).length ∧ Z.flatten = x q := by
    intro q
    by_cases hq : q < np
    · obtain ⟨Z, h⟩ := exists_units (ids q).length (x q) (hl q hq)
      exact ⟨Z, fun _ => h⟩
    · exact ⟨[], fun h => absurd h hq⟩
  choose Z hZ using hex
  have h := gsOp_all (vecRep D op vn) (gatherArray_monoid D op hD vn) (fun _ h => h.1) hh t Z (fun q hq => (hZ q hq).2.1) (by
    intro q hq y hy
    refine ⟨(hZ q hq).1 y hy, fun a ha => hx q hq a ?_⟩
    rw [← (hZ q hq).2.2]
    exact List.mem_flatten.2 ⟨y, hy, ha⟩) s2 (fun q hq => by
    rw [hs2 q hq]; exact (hZ q hq).2.2.symm)
  refine ⟨h.noInfinite, h.noDeadlock, fun c hc hf => ⟨?_, (h.result c hc hf).2⟩⟩
  intro q hq
  have hu := gsResult_units (ids := ids) t D op (fun q hq => (hZ q hq).1) hq
  rw [(h.result c hc hf).1 q hq]
  show (List.flatten _).length = _ ∧ ∀ k, k < vn → column vn k (List.flatten _) = _
  constructor
  · rw [flatten_units_length hu, ← (hZ q hq).2.2, flatten_units_length (hZ q hq).1]
    congr 1
    unfold gsResult gsOut gsOutT
    split <;> simp [List.length_zip, (hZ q hq).2.1]
  · intro k hk
    rw [column_flatten (D.identity op) hk hu, gsResult_comp t D op hk (fun q hq => (hZ q hq).1) hq]
    apply gsResult_congr _ hq
    intro p hp
    rw [← (hZ p hp).2.2, column_flatten (D.identity op) hk (hZ p hp).1]

/-- **C24**, gs_many: on `vn` arrays, the result is that of each array separately -/
theorem gs_many_is_componentwise (D : Dom T) (op : Op) (okT : T → Prop) (hD : CommMonoidOn okT (D.doOp op) (D.identity op)) {np : Nat} {ids : Nat → List Int} (hin : GsInput np ids)
    (m : Method) (s0 : Nat → SetupSt) (h0 : ∀ q, q < np → (s0 q).topo.ids = ids q) :
    AllSchedules (gsSetup false m np).prog np s0 fun s1 =>
      ∀ (t : Bool) (vn : Nat), 1 ≤ vn → ∀ (x : Nat → Nat → List T), (∀ q, q < np → ∀ k, k < vn → (x q k).length = (ids q).length) →
      (∀ q, q < np → ∀ k, k < vn → ∀ y ∈ x q k, okT y) →
      ∀ s2 : Nat → GsSt (List (List T)) T, (∀ q, q < np → (s2 q).u = (List.range vn).map (x q)) →
        AllSchedules (gsOp (manyKernels D op vn) D op np t fun q => (s1 q).h) np s2 fun s3 =>
          ∀ q, q < np → (s3 q).u = (List.range vn).map fun k => gsResult t (D.doOp op) (D.identity op) np ids (fun p => x p k) q := by
  refine gs_setup_handles hin m s0 h0 _ ?_
  intro s1 hh t vn hvn x hl hx s2 hs2
  have hex : ∀ q, ∃ Z : List (List T), q < np → Units vn Z ∧ Z.length = (ids q).length ∧ ((List.range vn).map fun k => compK (D.identity op) k Z) = (List.range vn).map (x q) := by
    intro q
    by_cases hq : q < np
    · obtain ⟨Z, h⟩ := exists_units_many (vn := vn) (n := (ids q).length) (D.identity op) ((List.range vn).map (x q)) (by simp) (by
        intro a ha
        obtain ⟨k, hk, rfl⟩ := List.mem_map.1 ha
        exact hl q hq k (List.mem_range.1 hk))
      exact ⟨Z, fun _ => h⟩
    · exact ⟨[], fun h => absurd h hq⟩
  choose Z hZ using hex
  have hcomp : ∀ q, q < np → ∀ k, k < vn → compK (D.identity op) k (Z q) = x q k := by
    intro q hq k hk
    exact List.map_inj_left.1 (hZ q hq).2.2 k (List.mem_range.2 hk)
  have h := gsOp_all (manyRep D op vn) (gatherArray_monoid D op hD vn) (fun _ h => h.1) hh t Z (fun q hq => (hZ q hq).2.1) (by
    intro q hq y hy
    refine ⟨(hZ q hq).1 y hy, fun a ha => ?_⟩
    obtain ⟨k, hk, hka⟩ := List.getElem_of_mem ha
    have hk' : k < vn := by rw [← (hZ q hq).1 y hy]; exact hk
    apply hx q hq k hk'
    rw [← hcomp q hq k hk']
    unfold compK
    refine List.mem_map.2 ⟨y, hy, ?_⟩
    rw [List.getD_eq_getElem _ _ hk, hka]) s2 (fun q hq => by
    rw [hs2 q hq]; exact (hZ q hq).2.2.symm)
  refine ⟨h.noInfinite, h.noDeadlock, fun c hc hf => ⟨?_, (h.result c hc hf).2⟩⟩
  intro q hq
  rw [(h.result c hc hf).1 q hq]
  show List.map _ _ = _
  apply List.map_congr_left
  intro k hk
  have hk := List.mem_range.1 hk
  rw [gsResult_comp t D op hk (fun q hq => (hZ q hq).1) hq]
  exact gsResult_congr (fun p hp => hcomp p hp k hk) hq

/-- **C25**: the result does not depend on the exchange method, including the choice of gs_auto: handles from gs_setup with two methods give the same result -/
theorem gs_method_unobservable (D : Dom T) (op : Op) (okT : T → Prop) (hD : CommMonoidOn okT (D.doOp op) (D.identity op)) {np : Nat} {ids : Nat → List Int} (hin : GsInput np ids)
    (m m' : Method) (s0 s0' : Nat → SetupSt) (h0 : ∀ q, q < np → (s0 q).topo.ids = ids q) (h0' : ∀ q, q < np → (s0' q).topo.ids = ids q) :
    AllSchedules (gsSetup false m np).prog np s0 fun s1 => AllSchedules (gsSetup false m' np).prog np s0' fun s1' =>
      ∀ (t : Bool) (v : Nat → List T), (∀ q, q < np → (v q).length = (ids q).length) → (∀ q, q < np → ∀ x ∈ v q, okT x) →
      ∀ s2 s2' : Nat → GsSt (List T) T, (∀ q, q < np → (s2 q).u = v q) → (∀ q, q < np → (s2' q).u = v q) →
        AllSchedules (gsOp (plainKernels D op) D op np t fun q => (s1 q).h) np s2 fun s3 =>
        AllSchedules (gsOp (plainKernels D op) D op np t fun q => (s1' q).h) np s2' fun s3' =>
          ∀ q, q < np → (s3 q).u = (s3' q).u := by
  refine gs_setup_handles hin m s0 h0 _ ?_
  intro s1 hh
  refine gs_setup_handles hin m' s0' h0' _ ?_
  intro s1' hh' t v hl hv s2 s2' hs2 hs2'
  have h := gsOp_all (plainRep D op) hD (fun _ _ => trivial) hh t v hl hv s2 hs2
  have h' := gsOp_all (plainRep D op) hD (fun _ _ => trivial) hh' t v hl hv s2' hs2'
  refine ⟨h.noInfinite, h.noDeadlock, fun c hc hf => ⟨?_, (h.result c hc hf).2⟩⟩
  refine ⟨h'.noInfinite, h'.noDeadlock, fun c' hc' hf' => ⟨?_, (h'.result c' hc' hf').2⟩⟩
  intro q hq
  rw [(h.result c hc hf).1 q hq, (h'.result c' hc' hf').1 q hq]

/-! ### examples: the hypotheses are met by concrete inputs -/

/-- ids on three processes: zero, flagged and repeated ids -/
def exIds (q : Nat) : List Int := [[1, 2, 0, -3], [2, 3, 3], [-3, 7, 2, 0]].getD q []

/-- the hypothesis of the theorems above holds for `exIds` -/
theorem exIds_input : GsInput 3 exIds where
  np_le := by decide
  ids_ok q hq := by
    have : q = 0 ∨ q = 1 ∨ q = 2 := by omega
    rcases this with rfl | rfl | rfl <;> exact ⟨by decide, by decide⟩
  small := by decide +kernel

/-- values for `exIds` -/
def exVals (q : Nat) : List (BitVec 32) := [[1, 2, 3, 4], [5, 6, 7], [8, 9, 10, 11]].getD q []

example : gsResult false ((intDom 32 32).doOp .add) ((intDom 32 32).identity .add) 3 exIds exVals 0 = [1, 17, 3, 13] := by decide +kernel
example : gsResult true ((intDom 32 32).doOp .add) ((intDom 32 32).identity .add) 3 exIds exVals 1 = [17, 25, 25] := by decide +kernel

/-- gs_symmetric: positive ids -/
example : GsInput 2 (fun q => if q = 0 then [4, 4, 6] else [6, 4]) where
  np_le := by decide
  ids_ok q hq := by
    have : q = 0 ∨ q = 1 := by omega
    rcases this with rfl | rfl <;> exact ⟨by decide, by decide⟩
  small := by decide +kernel

end Gslib.Props
