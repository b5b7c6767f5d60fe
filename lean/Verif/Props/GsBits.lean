import Verif.Lemmas.GsBits
import Verif.Props.GsRound

/-!
# Property C61 (second part): the pairwise method is reproducible, and nonblocking operations give the same bits

Specification: `Verif/Spec/GsBits.lean`. No assumption on the operation (it need not be associative or commutative).
-/

namespace Gslib.Props
open Gslib Gslib.Spec Gslib.Mpi Gslib.Gs Gslib.Nb

variable {T : Type}

/-- **C61**: for handles of gs_setup with the pairwise method the result of gs, gs_vec and gs_many, for any operation, is determined by the handles and the data alone: there is one result `r`
that every call returns, under every schedule and whatever the buffers hold (and however long they are); each entry combines the values it has to; the sizes of the arrays stay the same. -/
theorem gs_pairwise_reproducible (D : Dom T) {np : Nat} (hnp : 0 < np) {ids : Nat → List Int} {h : Nat → GsData} (hs : FromSetup .pairwise np ids h) (a : GsArgs) {v : Nat → UserData T}
    (hv : ∀ q, q < np → Fits (ids q) a.mode (v q)) :
    ∃ r : Nat → UserData T, GsReturns D np h a v r ∧ ∀ q, q < np → GsMayReturn D np ids a v q (r q) ∧ Fits (ids q) a.mode (r q) := by
  obtain ⟨r, h1, h2, -⟩ := pw_op D (h := fun _ => h) (g := 0) (fromSetup_handles hs) (fromSetup_pw hs) a hnp hv
  exact ⟨r, h1, fun q hq => ⟨(h2 q hq).1, (h2 q hq).2.fits (hv q hq)⟩⟩

/-- **C61**: igs and gs_wait with handles for the pairwise method give bit for bit the results of the blocking operations one after the other. `eff` is any function that gives the results of the
blocking operations (for data of the right sizes); the programs are those of C26 (`igs_wait_equals_gs`): operations with distinct data may be outstanding at the same time, the waits may be in any order.
Nothing is assumed of the operations of the domain `D`: with floating point numbers the sums are added in the same order. -/
theorem igs_wait_equals_gs_bits (D : Dom T) (nbc : Bool) {np : Nat} (ids : Nat → Nat → List Int) (h : Nat → Nat → GsData) (ops : List (Spec.Op GsArgs)) (prog : Nat → List (Ev GsArgs))
    (hp : NbProgram np ops prog) (hN : ops.length ≤ 1073741824) (hset : ∀ o ∈ ops, FromSetup .pairwise np (ids o.g) (h o.g))
    (eff : Spec.Op GsArgs → (Nat → UserData T) → Nat → UserData T)
    (heff : ∀ o ∈ ops, ∀ v : Nat → UserData T, (∀ q, q < np → Fits (ids o.g q) o.a.mode (v q)) → GsReturns D np (h o.g) o.a v (eff o v))
    (u0 : Nat → Nat → UserData T) (b0 : Nat → Nat → NbBuf T) (hdata : ∀ o ∈ ops, ∀ q, q < np → Fits (ids o.g q) o.a.mode (u0 q (o.x q))) :
    AllNbSchedules (igsEx D nbc np h) np prog u0 b0 fun u => ∀ p, p < np → u p = oneByOne eff ops u0 p := by
  haveI : Inhabited GsArgs := ⟨⟨.plain, .add, false⟩⟩
  rcases Nat.eq_zero_or_pos np with h0 | h0
  · subst h0
    refine nb_all hp hN u0 b0 _ (fun o ho => ⟨fun p hp => absurd hp (by omega), fun p hp => absurd hp (by omega)⟩) ?_
    intro l o l' he b
    exact ⟨fun q => (u0 q 0, b q), ⟨fun q => (u0 q 0, b q), fun p hp => absurd hp (by omega)⟩, fun p hp => absurd hp (by omega)⟩
  haveI : Nonempty T := ⟨D.identity .add⟩
  -- the result of the blocking operation is that of `pw_op`
  have hop : ∀ o ∈ ops, ∀ v : Nat → UserData T, (∀ q, q < np → Fits (ids o.g q) o.a.mode (v q)) → (∀ q, q < np → SameShape (v q) (eff o v q)) ∧
      ∀ b : Nat → NbBuf T, ∃ d', OpRun np (igsEx D nbc np h o.a o.g) (fun q => (v q, b q)) d' ∧ ∀ q, q < np → (d' q).1 = eff o v q := by
    intro o ho v hv
    obtain ⟨r, h1, h2, h3⟩ := pw_op D (h := h) (g := o.g) (fromSetup_handles (hset o ho)) (fromSetup_pw (hset o ho)) o.a h0 hv
    have e := GsReturns.unique hv h1 (heff o ho v hv)
    refine ⟨fun q hq => by rw [← e q hq]; exact (h2 q hq).2, fun b => ?_⟩
    obtain ⟨d', h4, h5⟩ := h3 nbc b
    exact ⟨d', h4, fun q hq => (h5 q hq).trans (e q hq)⟩
  -- the sizes do not change
  have hfit : ∀ (l : List (Spec.Op GsArgs)), (∀ o ∈ l, o ∈ ops) → ∀ u : Nat → Nat → UserData T, (∀ o ∈ ops, ∀ q, q < np → Fits (ids o.g q) o.a.mode (u q (o.x q))) →
      ∀ o ∈ ops, ∀ q, q < np → Fits (ids o.g q) o.a.mode (oneByOne eff l u q (o.x q)) := by
    intro l
    induction l with
    | nil => exact fun _ u hu => hu
    | cons o' l ih =>
      intro hl u hu
      refine ih (fun o ho => hl o (by simp [ho])) _ ?_
      intro o ho q hq
      by_cases hx : o.x q = o'.x q
      · rw [hx, Function.update_self]
        have hsh := (hop o' (hl o' (by simp)) (fun q => u q (o'.x q)) fun q hq => hu o' (hl o' (by simp)) q hq).1 q hq
        refine hsh.fits ?_
        have := hu o ho q hq
        rwa [hx] at this
      · rw [Function.update_of_ne hx]
        exact hu o ho q hq
  refine nb_all hp hN u0 b0 _ (fun o ho => igsEx_matched (fromSetup_pw (hset o ho)) D nbc o.a) ?_
  intro l o l' he b
  have ho : o ∈ ops := by rw [he]; simp
  exact (hop o ho _ fun q hq => hfit l (fun o' h => by rw [he]; simp [h]) u0 hdata o ho q hq).2 b

/-- such a function exists -/
theorem exists_gs_results (D : Dom T) {np : Nat} (hnp : 0 < np) (ids : Nat → Nat → List Int) (h : Nat → Nat → GsData) (ops : List (Spec.Op GsArgs)) (hset : ∀ o ∈ ops, FromSetup .pairwise np (ids o.g) (h o.g)) :
    ∃ eff : Spec.Op GsArgs → (Nat → UserData T) → Nat → UserData T,
      ∀ o ∈ ops, ∀ v : Nat → UserData T, (∀ q, q < np → Fits (ids o.g q) o.a.mode (v q)) → GsReturns D np (h o.g) o.a v (eff o v) := by
  have : ∀ (o : Spec.Op GsArgs) (v : Nat → UserData T), ∃ r : Nat → UserData T, o ∈ ops → (∀ q, q < np → Fits (ids o.g q) o.a.mode (v q)) → GsReturns D np (h o.g) o.a v r := by
    intro o v
    by_cases hc : o ∈ ops ∧ ∀ q, q < np → Fits (ids o.g q) o.a.mode (v q)
    · obtain ⟨r, h1, -⟩ := gs_pairwise_reproducible D hnp (hset o hc.1) o.a hc.2
      exact ⟨r, fun _ _ => h1⟩
    · exact ⟨v, fun h1 h2 => absurd ⟨h1, h2⟩ hc⟩
  choose eff he using this
  exact ⟨eff, fun o ho v hv => he o v ho hv⟩

/-! ### the hypotheses are met -/

/-- the operations and programs of `exOps`, `exProg` with data for a domain whose addition rounds (and is not associative, see `gs_copies_can_differ`) -/
example (s0 : SetupSt) (u0 : Nat → Nat → UserData Nat) (hu : ∀ q x, u0 q x = if x = 0 then .one ((exIds q).map fun _ => 5) else .many [(exIds q).map fun _ => 3, (exIds q).map fun _ => 7]) (b0 : Nat → Nat → NbBuf Nat) :
    ∃ (h : Nat → Nat → GsData) (eff : Spec.Op GsArgs → (Nat → UserData Nat) → Nat → UserData Nat),
      AllNbSchedules (igsEx roundDom false 3 h) 3 exProg u0 b0 fun u => ∀ p, p < 3 → u p = oneByOne eff exOps u0 p := by
  obtain ⟨h, hs⟩ := exists_fromSetup exIds_input .pairwise s0
  have hset : ∀ o ∈ exOps, FromSetup .pairwise 3 exIds ((fun _ => h : Nat → Nat → GsData) o.g) := fun _ _ => hs
  obtain ⟨eff, he⟩ := exists_gs_results roundDom (by decide) (fun _ => exIds) (fun _ => h) exOps hset
  refine ⟨fun _ => h, eff, igs_wait_equals_gs_bits roundDom false (fun _ => exIds) _ exOps exProg ?_ (by decide) hset eff he u0 b0 ?_⟩
  · exact ⟨fun p _ => by unfold exProg; split <;> rfl, fun p _ => by unfold exProg; split <;> simp [Disciplined]⟩
  · intro o ho q hq
    rcases List.mem_cons.1 ho with rfl | ho
    · rw [hu]
      exact ⟨by simp, fun _ _ => trivial⟩
    · obtain rfl := List.mem_singleton.1 ho
      rw [hu]
      refine ⟨by decide, rfl, ?_⟩
      intro x hx
      rcases List.mem_cons.1 hx with rfl | hx
      · exact ⟨by simp, fun _ _ => trivial⟩
      · obtain rfl := List.mem_singleton.1 hx
        exact ⟨by simp, fun _ _ => trivial⟩

end Gslib.Props
