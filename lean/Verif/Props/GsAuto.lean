import Verif.Lemmas.GsAuto
import Verif.Spec.GsAuto
import Verif.Props.GsNb

/-!
# C64: gs_setup with gs_auto, measurements included
-/

namespace Gslib.Props
open Gslib Gslib.Mpi Gslib.Comm Gslib.Spec Gslib.Gs

variable {K : Type} [Field K] [LinearOrder K] [IsStrictOrderedRing K] {big : K} {toU : K → Nat} {ofU : Nat → K} {np : Nat} {ids : Nat → List Int}

/-- **C64**: with gs_auto, gs_setup with the trial exchanges and the reductions of the measured times ends on all processes under every schedule, whatever the clocks of the processes show, and
returns handles for one and the same method on all processes: with `mj` the largest time of a process in measurement `j` (0 pairwise, 1 crystal router, 2 all-reduce), the crystal router replaces pairwise if
`m1 < m0`, and the all-reduce (with fewer than 100000 shared ids) replaces these if `m2 < min m1 m0`. -/
theorem gs_setup_auto (hin : GsInput np ids) (u0 : Nat → SetupSt) (h0 : ∀ q, q < np → (u0 q).topo.ids = ids q) :
    ∃ par : AutoPar, ∀ (clock : Nat → Nat → K) (m0 m1 m2 : K),
      LargestOf np (fun p => clock p 0) m0 → LargestOf np (fun p => clock p 1) m1 → LargestOf np (fun p => clock p 2) m2 →
      ∀ s : Nat → AutoSt K, (∀ q, q < np → (s q).su = u0 q) →
        AllSchedules (gsSetupAuto (realDom big toU ofU) np par clock).prog np s fun sf =>
          FromSetup (.auto (decide (m1 < m0)) (decide (m2 < min m1 m0))) np ids fun q => (sf q).su.h := by
  obtain ⟨par, hpar⟩ := gsSetupAuto_run (K := K) (big := big) (toU := toU) (ofU := ofU) hin u0 h0
  refine ⟨par, fun clock m0 m1 m2 l0 l1 l2 s hs => ?_⟩
  obtain ⟨kok, hrun⟩ := hpar clock
  have hM : ∀ j m, LargestOf np (fun p => clock p j) m → (timesOf (realDom big toU ofU) np fun p => clock p j).max = m := by
    intro j m ⟨⟨q, hq, e⟩, hm⟩
    obtain ⟨⟨q', hq', e'⟩, hm'⟩ := foldMax big toU ofU (fun p => clock p j) (np - 1)
    show foldRanks ((realDom big toU ofU).doOp .max) (fun p => clock p j) 0 (np - 1) = m
    refine le_antisymm ?_ ?_
    · rw [e']; exact hm q' (by omega)
    · rw [← e]; exact hm' q (by omega)
  obtain ⟨s', u', e1, e2, h3⟩ := hrun s hs
  simp only [hM 0 m0 l0, hM 1 m1 l1, hM 2 m2 l2] at e2
  refine allSchedules_of_lockRun kok e1 _ ?_
  intro sf hsf
  have hall := allSchedules_of_lockRun (gsSetup_ok false (.auto (decide (m1 < m0)) (decide (m2 < min m1 m0))) np) e2 (fun t => ∀ q, q < np → t q = u' q) fun _ h => h
  obtain ⟨c, hr, hf⟩ := exists_finished hall
  refine ⟨hin, u0, c, h0, hr, hf, fun q hq => ?_⟩
  show (sf q).su.h = _
  exact (hsf q hq ▸ h3 q hq).trans (congrArg SetupSt.h ((hall.result c hr hf).1 q hq)).symm

/-- then gs computes the specified reductions with these handles -/
theorem gs_auto_then_gs {T : Type} (D : Dom T) (op : Op) (okT : T → Prop) (hD : CommMonoidOn okT (D.doOp op) (D.identity op)) (hin : GsInput np ids) (u0 : Nat → SetupSt)
    (h0 : ∀ q, q < np → (u0 q).topo.ids = ids q) (hnp : 0 < np) :
    ∃ par : AutoPar, ∀ clock : Nat → Nat → K, ∀ s : Nat → AutoSt K, (∀ q, q < np → (s q).su = u0 q) →
      AllSchedules (gsSetupAuto (realDom big toU ofU) np par clock).prog np s fun s1 =>
        ∀ (t : Bool) (v : Nat → List T), (∀ q, q < np → (v q).length = (ids q).length) → (∀ q, q < np → ∀ x ∈ v q, okT x) →
          ∀ s2 : Nat → GsSt (List T) T, (∀ q, q < np → (s2 q).u = v q) →
            AllSchedules (gsOp (plainKernels D op) D op np t fun q => (s1 q).su.h) np s2 fun s3 =>
              ∀ q, q < np → (s3 q).u = gsResult t (D.doOp op) (D.identity op) np ids v q := by
  obtain ⟨par, hpar⟩ := gs_setup_auto (K := K) (big := big) (toU := toU) (ofU := ofU) hin u0 h0
  have hmax : ∀ f : Nat → K, ∃ m, LargestOf np f m := by
    intro f
    obtain ⟨⟨q', hq', e'⟩, hm'⟩ := foldMax big toU ofU f (np - 1)
    exact ⟨_, ⟨q', by omega, e'.symm⟩, fun q hq => hm' q (by omega)⟩
  refine ⟨par, fun clock s hs => ?_⟩
  obtain ⟨m0, l0⟩ := hmax fun p => clock p 0
  obtain ⟨m1, l1⟩ := hmax fun p => clock p 1
  obtain ⟨m2, l2⟩ := hmax fun p => clock p 2
  have := hpar clock m0 m1 m2 l0 l1 l2 s hs
  refine ⟨this.noInfinite, this.noDeadlock, fun c hr hf => ?_⟩
  obtain ⟨hfrom, hmb⟩ := this.result c hr hf
  refine ⟨?_, hmb⟩
  intro t v hl hv s2 hs2
  exact gsOp_all (plainRep D op) hD (fun _ _ => trivial) (fromSetup_handles hfrom) t v hl hv s2 hs2

/-- clocks of three processes: 5, 3, 4 for pairwise, 2, 4, 1 for the crystal router, 6, 6, 6 for the all-reduce -/
def exClock (p j : Nat) : Rat := ([[5, 2, 6], [3, 4, 6], [4, 1, 6]].getD p []).getD j 0

theorem exClock_max : LargestOf 3 (fun p => exClock p 0) 5 ∧ LargestOf 3 (fun p => exClock p 1) 4 ∧ LargestOf 3 (fun p => exClock p 2) 6 := by
  refine ⟨⟨⟨0, by decide, by decide +kernel⟩, ?_⟩, ⟨⟨1, by decide, by decide +kernel⟩, ?_⟩, ⟨⟨2, by decide, by decide +kernel⟩, ?_⟩⟩ <;> decide +kernel

/-- with these clocks, three processes and the ids of `exIds`, the handles are those of the crystal router on all processes (on process 1 alone, pairwise is faster) -/
example (u0 : Nat → SetupSt) (h0 : ∀ q, q < 3 → (u0 q).topo.ids = exIds q) (s : Nat → AutoSt Rat) (hs : ∀ q, q < 3 → (s q).su = u0 q) :
    ∃ par, AllSchedules (gsSetupAuto (realDom 1000 (fun _ => 0) (fun _ => 0)) 3 par exClock).prog 3 s fun sf => FromSetup (.auto true false) 3 exIds fun q => (sf q).su.h := by
  obtain ⟨par, h⟩ := gs_setup_auto (K := Rat) (big := 1000) (toU := fun _ => 0) (ofU := fun _ => 0) exIds_input u0 h0
  exact ⟨par, h exClock 5 4 6 exClock_max.1 exClock_max.2.1 exClock_max.2.2 s hs⟩

end Gslib.Props
