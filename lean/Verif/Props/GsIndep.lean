import Verif.Lemmas.GsCopies
import Verif.Props.GsNb
import Verif.Props.GsRound

/-!
# Property C67: gs is reproducible bit for bit with every method; which copies are equal bit for bit

Specification: `Verif/Spec/GsBits.lean`, `Verif/Spec/GsCopies.lean`. No assumption on the operation (it need not be associative or commutative): this covers floating point.
-/

namespace Gslib.Props
open Gslib Gslib.Spec Gslib.Mpi Gslib.Gs Gslib.Nb

variable {T : Type}

/-- **C67**: for handles of gs_setup with any method the result of gs, gs_vec and gs_many, for any operation, is determined by the handles and the data alone: there is one result `r`
that every call returns, under every schedule and whatever the buffers hold (and however long they are); each entry combines the values it has to; the sizes of the arrays stay the same. -/
theorem gs_reproducible (D : Dom T) {np : Nat} (hnp : 0 < np) {ids : Nat → List Int} {m : Method} {h : Nat → GsData} (hs : FromSetup m np ids h) (a : GsArgs) {v : Nat → UserData T}
    (hv : ∀ q, q < np → Fits (ids q) a.mode (v q)) :
    ∃ r : Nat → UserData T, GsReturns D np h a v r ∧ ∀ q, q < np → GsMayReturn D np ids a v q (r q) ∧ Fits (ids q) a.mode (r q) := by
  obtain ⟨r, h1, h2⟩ := any_op D (fromSetup_handles hs) a hnp hv
  exact ⟨r, h1, fun q hq => ⟨(h2 q hq).1, (h2 q hq).2.fits (hv q hq)⟩⟩

/-- **C67**: with every method the entries of one process that get the combination of the values with one id are equal, bit for bit -/
theorem gs_copies_on_process (D : Dom T) {np : Nat} {ids : Nat → List Int} {m : Method} {h : Nat → GsData} (hs : FromSetup m np ids h) (a : GsArgs) {v r : Nat → UserData T}
    (hv : ∀ q, q < np → Fits (ids q) a.mode (v q)) (hr : GsReturns D np h a v r) {q : Nat} (hq : q < np) {b i j : Nat} (hi : Receives a.t (ids q) b i) (hj : Receives a.t (ids q) b j) :
    entryOf a.mode (r q) i = entryOf a.mode (r q) j :=
  haveI : Nonempty T := ⟨D.identity .add⟩
  any_copies D (fromSetup_handles hs) a (by omega) hv hr q q hq hq b i j hi hj (Or.inl rfl)

/-- the method of the handles is the all-reduce (it can be the choice of gs_auto) -/
def UsesAllreduce (h : Nat → GsData) : Prop := ∃ d, (h 0).r = .allreduce d

/-- gs_setup with gs_all_reduce gives such handles -/
theorem fromSetup_allreduce {np : Nat} (hnp : 0 < np) {ids : Nat → List Int} {h : Nat → GsData} (hs : FromSetup .allreduce np ids h) : UsesAllreduce h := by
  obtain ⟨-, s1, s', -, e2, h3⟩ := setup_run_of hs
  have e2 : (setupLoc fun _ => setupAr).run np s1 = .ok s' := e2
  have := loc_of_run e2 0 hnp
  exact ⟨allreduceSetup (s1 0).topo.pr (s1 0).topo.total, by rw [h3 0 hnp, ← Outcome.ok.inj this]; rfl⟩

/-- **C67**: with the all-reduce the entries of all processes that get the combination of the values with one id are equal, bit for bit (`gs_copies_can_differ`: not so with the pairwise method).
At least one entry has this id, unflagged. -/
theorem gs_copies_allreduce (D : Dom T) {np : Nat} {ids : Nat → List Int} {m : Method} {h : Nat → GsData} (hs : FromSetup m np ids h) (har : UsesAllreduce h) (a : GsArgs) {v r : Nat → UserData T}
    (hv : ∀ q, q < np → Fits (ids q) a.mode (v q)) (hr : GsReturns D np h a v r) {q p : Nat} (hq : q < np) (hp : p < np) {b i j : Nat} (hb : ∃ s, s < np ∧ (b : Int) ∈ ids s)
    (hi : Receives a.t (ids q) b i) (hj : Receives a.t (ids p) b j) : entryOf a.mode (r q) i = entryOf a.mode (r p) j :=
  haveI : Nonempty T := ⟨D.identity .add⟩
  any_copies D (fromSetup_handles hs) a (by omega) hv hr q p hq hp b i j hi hj (Or.inr ⟨har, hb⟩)

/-! ### the hypotheses are met -/

/-- the copies that differ with the pairwise method (12, 12, 8) are equal with the all-reduce -/
example (s0 : SetupSt) : ∃ (h : Nat → GsData) (r : Nat → UserData Nat), FromSetup .allreduce 3 copyIds h ∧ GsReturns roundDom 3 h ⟨.plain, .add, false⟩ (fun q => .one (copyVals q)) r ∧
    entryOf .plain (r 0) 0 = entryOf .plain (r 2) 0 := by
  have hin : GsInput 3 copyIds := ⟨by decide, fun _ _ => ⟨by show ([5] : List Int).length ≤ _; decide, by show ∀ x ∈ ([5] : List Int), _; decide⟩, by decide +kernel⟩
  obtain ⟨h, hs⟩ := exists_fromSetup hin .allreduce s0
  have hv : ∀ q, q < 3 → Fits (copyIds q) .plain (.one (copyVals q)) := by
    intro q hq
    refine ⟨?_, fun _ _ => trivial⟩
    match q, hq with
    | 0, _ => rfl
    | 1, _ => rfl
    | 2, _ => rfl
  obtain ⟨r, hr, -⟩ := gs_reproducible roundDom (by decide) hs ⟨.plain, .add, false⟩ hv
  exact ⟨h, r, hs, hr, gs_copies_allreduce roundDom hs (fromSetup_allreduce (by decide) hs) ⟨.plain, .add, false⟩ hv hr (by decide) (by decide) (b := 5) ⟨0, by decide, by decide⟩
    ⟨by decide, 5, rfl, rfl⟩ ⟨by decide, 5, rfl, rfl⟩⟩

/-- two entries of process 1 of `exIds` with one id, crystal router, transpose, vectors of two components -/
example (s0 : SetupSt) (v : Nat → UserData Nat) (hv : ∀ q, q < 3 → Fits (exIds q) (.vec 2) (v q)) : ∃ (h : Nat → GsData) (r : Nat → UserData Nat), FromSetup .crystal 3 exIds h ∧
    GsReturns roundDom 3 h ⟨.vec 2, .mul, true⟩ v r ∧ entryOf (.vec 2) (r 1) 1 = entryOf (.vec 2) (r 1) 2 := by
  obtain ⟨h, hs⟩ := exists_fromSetup exIds_input .crystal s0
  obtain ⟨r, hr, -⟩ := gs_reproducible roundDom (by decide) hs ⟨.vec 2, .mul, true⟩ hv
  exact ⟨h, r, hs, hr, gs_copies_on_process roundDom hs ⟨.vec 2, .mul, true⟩ hv hr (q := 1) (by decide) (b := 3) ⟨by decide, 3, rfl, rfl⟩ ⟨by decide, 3, rfl, rfl⟩⟩

end Gslib.Props
