import Verif.Lemmas.GsAlg
import Verif.Props.Gs
import Verif.Props.GsOp
import Mathlib.Data.BitVec

/-!
# C65: transpose, repetition and multiplicity
-/

namespace Gslib.Props
open Gslib Gslib.Mpi Gslib.Comm Gslib.Spec Gslib.Gs

variable {T : Type} {np : Nat} {ids : Nat → List Int}

/-- **C65**: gs with `transpose = 1` is the transpose of gs with `transpose = 0`: for sums over a commutative ring, the scalar product of `w` with gs of `u` equals that of gs-transposed of `w` with `u`, where
the flagged entries are left out in the latter; for every method of setup and every schedule of the three programs -/
theorem gs_transpose [CommSemiring T] (D : Dom T) (hadd : D.doOp .add = (· + ·)) (hzero : D.identity .add = 0) (hin : GsInput np ids) (m : Method) (s0 : Nat → SetupSt)
    (h0 : ∀ q, q < np → (s0 q).topo.ids = ids q) :
    AllSchedules (gsSetup false m np).prog np s0 fun s1 =>
      ∀ u w : Nat → List T, (∀ q, q < np → (u q).length = (ids q).length) → (∀ q, q < np → (w q).length = (ids q).length) →
      ∀ s2 : Nat → GsSt (List T) T, (∀ q, q < np → (s2 q).u = u q) →
        AllSchedules (gsOp (plainKernels D .add) D .add np false fun q => (s1 q).h) np s2 fun s3 =>
          ∀ s4 : Nat → GsSt (List T) T, (∀ q, q < np → (s4 q).u = w q) →
            AllSchedules (gsOp (plainKernels D .add) D .add np true fun q => (s1 q).h) np s4 fun s5 =>
              total np ids (fun q i => (w q).getD i 0 * (s3 q).u.getD i 0) =
                total np ids fun q i => if 0 ≤ (ids q).getD i 0 then (s5 q).u.getD i 0 * (u q).getD i 0 else 0 := by
  have hD : CommMonoidOn (fun _ : T => True) (D.doOp .add) (D.identity .add) := by
    rw [hadd, hzero]
    exact ⟨fun _ _ _ _ => trivial, trivial, fun a b c _ _ _ => add_assoc a b c, fun a b _ _ => add_comm a b, fun a _ => zero_add a, fun a _ => add_zero a⟩
  refine gs_setup_handles hin m s0 h0 _ ?_
  intro s1 hh u w hu hw s2 hs2
  have h := gsOp_all (plainRep D .add) hD (fun _ _ => trivial) hh false u hu (fun _ _ _ _ => trivial) s2 hs2
  refine ⟨h.noInfinite, h.noDeadlock, fun c hc hf => ⟨?_, (h.result c hc hf).2⟩⟩
  intro s4 hs4
  have h' := gsOp_all (plainRep D .add) hD (fun _ _ => trivial) hh true w hw (fun _ _ _ _ => trivial) s4 hs4
  refine ⟨h'.noInfinite, h'.noDeadlock, fun c' hc' hf' => ⟨?_, (h'.result c' hc' hf').2⟩⟩
  have e1 : ∀ q, q < np → (c.proc q).st.u = gsResult false (D.doOp .add) (D.identity .add) np ids u q := (h.result c hc hf).1
  have e2 : ∀ q, q < np → (c'.proc q).st.u = gsResult true (D.doOp .add) (D.identity .add) np ids w q := (h'.result c' hc' hf').1
  have key := gsOut_adjoint hu hw
  rw [hadd, hzero] at e1 e2
  have l1 : ∀ q, q < np → (c.proc q).st.u = gsOut (· + ·) 0 np ids u q := e1
  have l2 : ∀ q, q < np → (c'.proc q).st.u = gsOutT (· + ·) 0 np ids w q := e2
  refine Eq.trans ?_ (key.trans ?_)
  · unfold total
    refine Finset.sum_congr rfl fun q hq => ?_
    beta_reduce
    rw [l1 q (Finset.mem_range.1 hq)]
  · unfold total
    refine Finset.sum_congr rfl fun q hq => ?_
    beta_reduce
    rw [l2 q (Finset.mem_range.1 hq)]

/-- **C65**: with an operation that satisfies `f x x = x` (minimum, maximum), a second gs changes nothing -/
theorem gs_idempotent (D : Dom T) (op : Op) (okT : T → Prop) (hD : CommMonoidOn okT (D.doOp op) (D.identity op)) (hidem : ∀ x, okT x → D.doOp op x x = x) (hin : GsInput np ids) (m : Method)
    (s0 : Nat → SetupSt) (h0 : ∀ q, q < np → (s0 q).topo.ids = ids q) :
    AllSchedules (gsSetup false m np).prog np s0 fun s1 =>
      ∀ v : Nat → List T, (∀ q, q < np → (v q).length = (ids q).length) → (∀ q, q < np → ∀ x ∈ v q, okT x) →
      ∀ s2 : Nat → GsSt (List T) T, (∀ q, q < np → (s2 q).u = v q) →
        AllSchedules (gsOp (plainKernels D op) D op np false fun q => (s1 q).h) np s2 fun s3 =>
          ∀ s4 : Nat → GsSt (List T) T, (∀ q, q < np → (s4 q).u = (s3 q).u) →
            AllSchedules (gsOp (plainKernels D op) D op np false fun q => (s1 q).h) np s4 fun s5 => ∀ q, q < np → (s5 q).u = (s3 q).u := by
  refine gs_setup_handles hin m s0 h0 _ ?_
  intro s1 hh v hl hv s2 hs2
  have h := gsOp_all (plainRep D op) hD (fun _ _ => trivial) hh false v hl hv s2 hs2
  refine ⟨h.noInfinite, h.noDeadlock, fun c hc hf => ⟨?_, (h.result c hc hf).2⟩⟩
  intro s4 hs4
  have e1 : ∀ q, q < np → (c.proc q).st.u = gsOut (D.doOp op) (D.identity op) np ids v q := (h.result c hc hf).1
  have hred : ∀ a, okT (reduce (D.doOp op) (D.identity op) (unflagged np ids v a)) := by
    intro a
    refine hD.reduce_ok _ fun x hx => ?_
    unfold unflagged at hx
    obtain ⟨q, hq, hx⟩ := List.mem_flatMap.1 hx
    obtain ⟨y, hy, rfl⟩ := List.mem_map.1 hx
    exact hv q (List.mem_range.1 hq) _ (List.of_mem_zip (List.mem_filter.1 hy).1).2
  have hok : ∀ q, q < np → ∀ x ∈ gsOut (D.doOp op) (D.identity op) np ids v q, okT x := by
    intro q hq x hx
    unfold gsOut at hx
    obtain ⟨y, hy, rfl⟩ := List.mem_map.1 hx
    split
    · exact hv q hq _ (List.of_mem_zip hy).2
    · exact hred _
  have h' := gsOp_all (plainRep D op) hD (fun _ _ => trivial) hh false (gsOut (D.doOp op) (D.identity op) np ids v) (fun q hq => gsOut_length _ _ _ _ _ _ (hl q hq)) hok s4
    (fun q hq => (hs4 q hq).trans (e1 q hq))
  refine ⟨h'.noInfinite, h'.noDeadlock, fun c' hc' hf' => ⟨?_, (h'.result c' hc' hf').2⟩⟩
  intro q hq
  have e2 : (c'.proc q).st.u = gsOut (D.doOp op) (D.identity op) np ids (gsOut (D.doOp op) (D.identity op) np ids v) q := (h'.result c' hc' hf').1 q hq
  show (c'.proc q).st.u = (c.proc q).st.u
  rw [e2, e1 q hq, gsOut_idem hl (fun a => hD.idLeft _ (hred a)) (fun a => hidem _ (hred a)) hq]

/-- **C65**: gs of ones counts the entries with the same id; dividing by it counts every id once, in every sum over all entries of all processes of values that depend on the id -/
theorem gs_multiplicity {K : Type} [Field K] [CharZero K] (D : Dom K) (hadd : D.doOp .add = (· + ·)) (hzero : D.identity .add = 0) (hin : GsInput np ids) (hpos : ∀ q, q < np → ∀ x ∈ ids q, 0 ≤ x)
    (m : Method) (s0 : Nat → SetupSt) (h0 : ∀ q, q < np → (s0 q).topo.ids = ids q) :
    AllSchedules (gsSetup false m np).prog np s0 fun s1 =>
      ∀ s2 : Nat → GsSt (List K) K, (∀ q, q < np → (s2 q).u = List.replicate (ids q).length 1) →
        AllSchedules (gsOp (plainKernels D .add) D .add np false fun q => (s1 q).h) np s2 fun s3 =>
          ∀ g : Nat → K, total np ids (fun q i => if (ids q).getD i 0 = 0 then 0 else g ((ids q).getD i 0).natAbs / (s3 q).u.getD i 0) = ∑ a ∈ allIds np ids, g a := by
  have hD : CommMonoidOn (fun _ : K => True) (D.doOp .add) (D.identity .add) := by
    rw [hadd, hzero]
    exact ⟨fun _ _ _ _ => trivial, trivial, fun a b c _ _ _ => add_assoc a b c, fun a b _ _ => add_comm a b, fun a _ => zero_add a, fun a _ => add_zero a⟩
  refine gs_setup_handles hin m s0 h0 _ ?_
  intro s1 hh s2 hs2
  have hl : ∀ q, q < np → (List.replicate (ids q).length (1 : K)).length = (ids q).length := fun _ _ => List.length_replicate
  have h := gsOp_all (plainRep D .add) hD (fun _ _ => trivial) hh false (fun q => List.replicate (ids q).length 1) hl (fun _ _ _ _ => trivial) s2 hs2
  refine ⟨h.noInfinite, h.noDeadlock, fun c hc hf => ⟨?_, (h.result c hc hf).2⟩⟩
  intro g
  have e1 : ∀ q, q < np → (c.proc q).st.u = gsResult false (D.doOp .add) (D.identity .add) np ids (fun q => List.replicate (ids q).length 1) q := (h.result c hc hf).1
  rw [hadd, hzero] at e1
  have l1 : ∀ q, q < np → (c.proc q).st.u = gsOut (· + ·) 0 np ids (fun q => List.replicate (ids q).length 1) q := e1
  rw [← count_once hl (fun q _ i hi => by simp [List.getD_eq_getElem?_getD, hi]) hpos g]
  unfold total
  refine Finset.sum_congr rfl fun q hq => ?_
  beta_reduce
  rw [l1 q (Finset.mem_range.1 hq)]

/-- the hypotheses on the domain hold for exact real arithmetic, ... -/
example : (realDom (1000 : Rat) (fun _ => 0) (fun _ => 0)).doOp .add = (· + ·) ∧ (realDom (1000 : Rat) (fun _ => 0) (fun _ => 0)).identity .add = 0 := ⟨rfl, rfl⟩

/-- ... for machine integers, ... -/
example : (intDom 32 64).doOp .add = (· + ·) ∧ (intDom 32 64).identity .add = 0 := ⟨rfl, rfl⟩

/-- ... and minima of machine integers are idempotent -/
example : ∀ x, (intDom 32 64).doOp .min x x = x := by intro x; simp [intDom]

/-- `exIds` has flagged and zero ids: both scalar products of `gs_transpose` for `u = w = exVals` -/
example : total 3 exIds (fun q i => (exVals q).getD i 0 * (gsOut (· + ·) 0 3 exIds exVals q).getD i 0) = 826 ∧
    total 3 exIds (fun q i => if 0 ≤ (exIds q).getD i 0 then (gsOutT (· + ·) 0 3 exIds exVals q).getD i 0 * (exVals q).getD i 0 else 0) = 826 := by decide +kernel

/-- nonnegative ids on two processes for `gs_multiplicity`: five entries with two ids -/
def exIds2 (q : Nat) : List Int := [[4, 4, 6], [6, 0, 4]].getD q []

example : GsInput 2 exIds2 ∧ (∀ q, q < 2 → ∀ x ∈ exIds2 q, 0 ≤ x) ∧ allIds 2 exIds2 = {4, 6} := by
  refine ⟨⟨by decide, ?_, by decide +kernel⟩, by decide +kernel, by decide +kernel⟩
  intro q hq
  have : ∀ q, q < 2 → (exIds2 q).length ≤ 2147483648 ∧ ∀ x ∈ exIds2 q, x.natAbs < 9223372036854775808 := by decide +kernel
  exact ⟨(this q hq).1, (this q hq).2⟩

end Gslib.Props
