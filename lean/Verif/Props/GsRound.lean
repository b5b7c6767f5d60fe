import Verif.Lemmas.Combine
import Verif.Props.Gs

/-!
# Property C61: gather-scatter with an operation that is not associative (floating point)

Specification: `Verif/Spec/Combine.lean`. Model: as for C20. The theorems of C20-C25 assume that the operation is associative and commutative, which sums and products of
floating point numbers are not. Here there is no assumption about the operation: each entry of the result combines exactly the values it has to, in some order.
-/

namespace Gslib.Props
open Gslib Gslib.Spec Gslib.Mpi Gslib.Gs Gslib.Comm

variable {T : Type}

/-- **C61**, gs: for every operation, all ids and values and every method, gs ends on all processes under every schedule; the result is the same under every schedule, each entry of it
combines the values of C20-C22, each of them once, in some order and with some bracketing, and the entries with id 0 are not changed -/
theorem gs_any_operation (D : Dom T) (op : Op) {np : Nat} {ids : Nat → List Int} (hin : GsInput np ids) (m : Method) (s0 : Nat → SetupSt) (h0 : ∀ q, q < np → (s0 q).topo.ids = ids q) :
    AllSchedules (gsSetup false m np).prog np s0 fun s1 =>
      ∀ (t : Bool) (v : Nat → List T), (∀ q, q < np → (v q).length = (ids q).length) →
      ∀ s2 : Nat → GsSt (List T) T, (∀ q, q < np → (s2 q).u = v q) →
        ∃ r : Nat → List T, (∀ q, q < np → GsCombines (D.doOp op) (D.identity op) t np ids v q (r q)) ∧
          AllSchedules (gsOp (plainKernels D op) D op np t fun q => (s1 q).h) np s2 fun s3 => ∀ q, q < np → (s3 q).u = r q := by
  refine gs_setup_handles hin m s0 h0 _ ?_
  intro s1 hh t v hl s2 hs2
  obtain ⟨T', s', hm, hr, hu⟩ := gsAny_lock D op hh t v hl s2 hs2
  exact ⟨fun q => (s' q).u, hu, allSchedules_of_lockRun hm hr _ fun s hs q hq => by rw [hs q hq]⟩

/-- **C61**, gs_vec: the same for each component -/
theorem gs_vec_any_operation (D : Dom T) (op : Op) {np : Nat} {ids : Nat → List Int} (hin : GsInput np ids) (m : Method) (s0 : Nat → SetupSt) (h0 : ∀ q, q < np → (s0 q).topo.ids = ids q) :
    AllSchedules (gsSetup false m np).prog np s0 fun s1 =>
      ∀ (t : Bool) (vn : Nat) (x : Nat → List T), (∀ q, q < np → (x q).length = (ids q).length * vn) →
      ∀ s2 : Nat → GsSt (List T) T, (∀ q, q < np → (s2 q).u = x q) →
        ∃ r : Nat → List T, (∀ q, q < np → (r q).length = (x q).length ∧
            ∀ k, k < vn → GsCombines (D.doOp op) (D.identity op) t np ids (fun p => column vn k (x p)) q (column vn k (r q))) ∧
          AllSchedules (gsOp (vecKernels D op vn) D op np t fun q => (s1 q).h) np s2 fun s3 => ∀ q, q < np → (s3 q).u = r q := by
  refine gs_setup_handles hin m s0 h0 _ ?_
  intro s1 hh t vn x hl s2 hs2
  obtain ⟨T', s', hm, hr, hu⟩ := gsAnyVec_lock D op hh t x hl s2 hs2
  exact ⟨fun q => (s' q).u, hu, allSchedules_of_lockRun hm hr _ fun s hs q hq => by rw [hs q hq]⟩

/-- **C61**, gs_many: the same for each array -/
theorem gs_many_any_operation (D : Dom T) (op : Op) {np : Nat} {ids : Nat → List Int} (hin : GsInput np ids) (m : Method) (s0 : Nat → SetupSt) (h0 : ∀ q, q < np → (s0 q).topo.ids = ids q) :
    AllSchedules (gsSetup false m np).prog np s0 fun s1 =>
      ∀ (t : Bool) (vn : Nat) (x : Nat → Nat → List T), (∀ q, q < np → ∀ k, k < vn → (x q k).length = (ids q).length) →
      ∀ s2 : Nat → GsSt (List (List T)) T, (∀ q, q < np → (s2 q).u = (List.range vn).map (x q)) →
        ∃ r : Nat → List (List T), (∀ q, q < np → List.Forall₂ (fun k u => GsCombines (D.doOp op) (D.identity op) t np ids (fun p => x p k) q u) (List.range vn) (r q)) ∧
          AllSchedules (gsOp (manyKernels D op vn) D op np t fun q => (s1 q).h) np s2 fun s3 => ∀ q, q < np → (s3 q).u = r q := by
  refine gs_setup_handles hin m s0 h0 _ ?_
  intro s1 hh t vn x hl s2 hs2
  obtain ⟨T', s', hm, hr, hu⟩ := gsAnyMany_lock D op hh t x hl s2 hs2
  exact ⟨fun q => (s' q).u, hu, allSchedules_of_lockRun hm hr _ fun s hs q hq => by rw [hs q hq]⟩

/-- with a commutative monoid there is only one way to combine values: C61 implies C20 -/
theorem combines_unique {ok : T → Prop} {f : T → T → T} {e : T} (M : CommMonoidOn ok f e) {l : List T} (hl : ∀ x ∈ l, ok x) {y : T} (h : Combines f e (l : Multiset T) y) : y = reduce f e l :=
  (h.eq_reduce M l rfl hl).2

/-- **C61**: sums in floating point. If each sum is rounded with relative error at most `u`, an entry of the result of gs that combines `n` values differs from their sum by at most
`(1+u)^(n-1) - 1` times the sum of their absolute values; the values of entries with id 0 are exact. -/
theorem gs_sum_rounding_error (D : Dom ℝ) (rnd : ℝ → ℝ) (u : ℝ) (hu : 0 ≤ u) (hr : ∀ z, |rnd z - z| ≤ u * |z|) (hi : ∀ z, rnd (rnd z) = rnd z)
    (hD : ∀ a b, D.doOp .add a b = rnd (a + b)) (hD0 : D.identity .add = 0) {np : Nat} {ids : Nat → List Int} (hin : GsInput np ids) (m : Method) (s0 : Nat → SetupSt)
    (h0 : ∀ q, q < np → (s0 q).topo.ids = ids q) :
    AllSchedules (gsSetup false m np).prog np s0 fun s1 =>
      ∀ (t : Bool) (v : Nat → List ℝ), (∀ q, q < np → (v q).length = (ids q).length) → (∀ q, q < np → ∀ x ∈ v q, rnd x = x) →
      ∀ s2 : Nat → GsSt (List ℝ) ℝ, (∀ q, q < np → (s2 q).u = v q) →
        AllSchedules (gsOp (plainKernels D .add) D .add np t fun q => (s1 q).h) np s2 fun s3 => ∀ q, q < np →
          List.Forall₂ (fun l y => |y - l.sum| ≤ ((1 + u) ^ (l.length - 1) - 1) * (l.map (|·|)).sum) (gsTerms t np ids v q) (s3 q).u := by
  have h := gs_any_operation D .add hin m s0 h0
  refine ⟨h.noInfinite, h.noDeadlock, fun c hc hf => ⟨?_, (h.result c hc hf).2⟩⟩
  intro t v hl hv s2 hs2
  obtain ⟨r, hrr, h1⟩ := (h.result c hc hf).1 t v hl s2 hs2
  refine ⟨h1.noInfinite, h1.noDeadlock, fun c' hc' hf' => ⟨?_, (h1.result c' hc' hf').2⟩⟩
  intro q hq
  rw [(h1.result c' hc' hf').1 q hq]
  have hterms : ∀ l ∈ gsTerms t np ids v q, ∀ x ∈ l, rnd x = x := gsTerms_mem t hq hv
  have hf : (D.doOp .add) = fun a b => rnd (a + b) := by funext a b; exact hD a b
  have hg := (hrr q hq).terms
  rw [hf, hD0] at hg
  refine forall₂_of_get hg.length_eq fun i l y hli hy => ?_
  obtain ⟨y', hy', hcb⟩ := LRel.get hg i l hli
  rw [hy] at hy'
  obtain rfl := Option.some.inj hy'
  have := (hcb.error hu hr hi (fun x hx => hterms l (List.mem_of_getElem? hli) x (by simpa using hx))).2.1
  simpa using this

/-- **C61**: products in floating point: relative error at most `(1+u)^(n-1) - 1` -/
theorem gs_product_rounding_error (D : Dom ℝ) (rnd : ℝ → ℝ) (u : ℝ) (hu : 0 ≤ u) (hr : ∀ z, |rnd z - z| ≤ u * |z|) (hi : ∀ z, rnd (rnd z) = rnd z) (h1 : rnd 1 = 1)
    (hD : ∀ a b, D.doOp .mul a b = rnd (a * b)) (hD0 : D.identity .mul = 1) {np : Nat} {ids : Nat → List Int} (hin : GsInput np ids) (m : Method) (s0 : Nat → SetupSt)
    (h0 : ∀ q, q < np → (s0 q).topo.ids = ids q) :
    AllSchedules (gsSetup false m np).prog np s0 fun s1 =>
      ∀ (t : Bool) (v : Nat → List ℝ), (∀ q, q < np → (v q).length = (ids q).length) → (∀ q, q < np → ∀ x ∈ v q, rnd x = x) →
      ∀ s2 : Nat → GsSt (List ℝ) ℝ, (∀ q, q < np → (s2 q).u = v q) →
        AllSchedules (gsOp (plainKernels D .mul) D .mul np t fun q => (s1 q).h) np s2 fun s3 => ∀ q, q < np →
          List.Forall₂ (fun l y => |y - l.prod| ≤ ((1 + u) ^ (l.length - 1) - 1) * |l.prod|) (gsTerms t np ids v q) (s3 q).u := by
  have h := gs_any_operation D .mul hin m s0 h0
  refine ⟨h.noInfinite, h.noDeadlock, fun c hc hf => ⟨?_, (h.result c hc hf).2⟩⟩
  intro t v hl hv s2 hs2
  obtain ⟨r, hrr, h2⟩ := (h.result c hc hf).1 t v hl s2 hs2
  refine ⟨h2.noInfinite, h2.noDeadlock, fun c' hc' hf' => ⟨?_, (h2.result c' hc' hf').2⟩⟩
  intro q hq
  rw [(h2.result c' hc' hf').1 q hq]
  have hterms : ∀ l ∈ gsTerms t np ids v q, ∀ x ∈ l, rnd x = x := gsTerms_mem t hq hv
  have hf : (D.doOp .mul) = fun a b => rnd (a * b) := by funext a b; exact hD a b
  have hg := (hrr q hq).terms
  rw [hf, hD0] at hg
  refine forall₂_of_get hg.length_eq fun i l y hli hy => ?_
  obtain ⟨y', hy', hcb⟩ := LRel.get hg i l hli
  rw [hy] at hy'
  obtain rfl := Option.some.inj hy'
  have := (hcb.error_mul hu hr hi h1 (fun x hx => hterms l (List.mem_of_getElem? hli) x (by simpa using hx))).2.1
  simpa using this

/-! ### copies can differ -/

/-- sums of natural numbers with three binary digits (for sums below 16): commutative, with identity 0, not associative -/
def roundDom : Dom Nat := ⟨fun _ a b => if a + b < 8 then a + b else (a + b) / 4 * 4, fun _ => 0⟩

/-- `roundDom` is commutative and 0 is neutral on the numbers with three digits -/
theorem roundDom_comm (a b : Nat) : roundDom.doOp .add a b = roundDom.doOp .add b a ∧ (a < 8 → roundDom.doOp .add 0 a = a) := by
  constructor
  · show (if a + b < 8 then a + b else (a + b) / 4 * 4) = if b + a < 8 then b + a else (b + a) / 4 * 4
    rw [Nat.add_comm]
  · intro h
    show (if 0 + a < 8 then 0 + a else (0 + a) / 4 * 4) = a
    rw [if_pos (by omega)]; omega

/-- one id on three processes -/
def copyIds (_ : Nat) : List Int := [5]

/-- its values -/
def copyVals (q : Nat) : List Nat := [[3], [3], [6]].getD q []

/-- **finding**: with a commutative operation that is not associative, the copies of a value on different processes can differ after gs with the pairwise exchange:
each process begins with its own value. Values 3, 3, 6 with one id on three processes, sums rounded to three binary digits: two processes have 12, the third one 8. -/
theorem gs_copies_can_differ (s0 : Nat → SetupSt) (h0 : ∀ q, q < 3 → (s0 q).topo.ids = [5]) :
    AllSchedules (gsSetup false .pairwise 3).prog 3 s0 fun s1 =>
      AllSchedules (gsOp (plainKernels roundDom .add) roundDom .add 3 false fun q => (s1 q).h) 3 (fun q => ⟨copyVals q, [], fun _ => 0, []⟩) fun s3 =>
        (s3 0).u = [12] ∧ (s3 1).u = [12] ∧ (s3 2).u = [8] := by
  have hin : GsInput 3 copyIds := ⟨by decide, fun _ _ => ⟨by show ([5] : List Int).length ≤ _; decide, by show ∀ x ∈ ([5] : List Int), _; decide⟩, by decide +kernel⟩
  obtain ⟨s', e, hh, hpw⟩ := gsSetup_run' hin .pairwise s0 h0
  refine allSchedules_of_lockRun (gsSetup_ok false .pairwise 3) e _ ?_
  intro s1 hs1
  have hpw := hpw rfl
  let ex := pwExec (plainKernels roundDom .add) (pwSpec 3 copyIds) false
  let c := gsAux (plainKernels roundDom .add) (fun q => localSetup (nzSpec (copyIds q)) (.pairwise (pwSpec 3 copyIds q))) false ex
  have hc : c.Ok 3 := Coll.seq_ok (Coll.seq_ok (Coll.loc_ok _ _ _) (pwExec_ok _ false)) (Coll.loc_ok _ _ _)
  let c' : Coll (GsSt (List Nat) Nat) (List Nat) := ⟨c.T, gsOp (plainKernels roundDom .add) roundDom .add 3 false fun q => (s1 q).h⟩
  have hpr : ∀ p, p < 3 → c'.prog p = c.prog p := by
    intro p hp
    have hrp : (s1 p).h.r = .pairwise (pwSpec 3 copyIds p) := by rw [hs1 p hp]; exact hpw p hp
    have hex : remoteExec (plainKernels roundDom .add) roundDom .add 3 false (s1 p).h = pwExec (plainKernels roundDom .add) (fun _ => pwSpec 3 copyIds p) false := by
      unfold remoteExec
      rw [hrp]
    refine gsAux_prog_congr false ?_ (by rw [hex]; rfl) (by rw [hex]; rfl)
    have := hh.ok.loc p hp
    beta_reduce at this
    rw [← hs1 p hp, hrp] at this
    exact this
  have hrun : ∃ sf, c.run 3 (fun q => ⟨copyVals q, [], fun _ => 0, []⟩) = .ok sf ∧ (sf 0).u = [12] ∧ (sf 1).u = [12] ∧ (sf 2).u = [8] := by
    have : (match c.run 3 (fun q => ⟨copyVals q, [], fun _ => 0, []⟩) with
      | .ok sf => decide ((sf 0).u = [12] ∧ (sf 1).u = [12] ∧ (sf 2).u = [8])
      | _ => false) = true := by decide +kernel
    cases hx : c.run 3 (fun q => ⟨copyVals q, [], fun _ => 0, []⟩) with
    | ok sf => rw [hx] at this; exact ⟨sf, rfl, of_decide_eq_true this⟩
    | ub => rw [hx] at this; cases this
    | abort => rw [hx] at this; cases this
  obtain ⟨sf, e2, h1, h2, h3⟩ := hrun
  refine allSchedules_of_lockRun (Coll.ok_congr (a := c') (b := c) rfl hpr hc) ((Coll.run_congr (a := c') (b := c) rfl hpr _).trans e2) _ ?_
  intro s hs
  rw [hs 0 (by decide), hs 1 (by decide), hs 2 (by decide)]
  exact ⟨h1, h2, h3⟩

/-! ### examples -/

/-- the values combined for each entry of process 1 of `exIds` -/
example : gsTerms false 3 exIds exVals 1 = [[2, 5, 10], [6, 7], [6, 7]] := by decide +kernel

/-- two ways to combine 3, 3, 6 -/
example : Combines (roundDom.doOp .add) 0 {3, 3, 6} 12 ∧ Combines (roundDom.doOp .add) 0 {3, 3, 6} 8 := by
  constructor
  · have := Combines.op (Combines.op (Combines.val 3) (Combines.val 3)) (Combines.val 6) (f := roundDom.doOp .add) (e := 0)
    exact this
  · have := Combines.op (Combines.op (Combines.val 6) (Combines.val 3)) (Combines.val 3) (f := roundDom.doOp .add) (e := 0)
    have h : ({6} + {3} + {3} : Multiset Nat) = {3, 3, 6} := by decide
    rw [h] at this
    exact this

/-- but not 5 -/
example : ¬ Combines (fun a b : Nat => a + b) 0 {3, 3, 6} 5 := by
  intro h
  have M : CommMonoidOn (fun _ : Nat => True) (fun a b => a + b) 0 := ⟨fun _ _ _ _ => trivial, trivial, fun a b c _ _ _ => Nat.add_assoc a b c, fun a b _ _ => Nat.add_comm a b, fun a _ => Nat.zero_add a, fun a _ => Nat.add_zero a⟩
  have := combines_unique M (l := [3, 3, 6]) (fun _ _ => trivial) h
  revert this
  decide

end Gslib.Props
