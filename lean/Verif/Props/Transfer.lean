import Verif.Lemmas.TransferRun
import Verif.Props.SarraySort

/-!
# Properties C12-C16: struct array and tuple transfers

Specification: `Verif/Spec/Transfer.lean`, admissible inputs: `Verif/Spec/TransferInput.lean`. Model: `Verif/Model/Transfer.lean`.
Rows are byte strings; `received np R D f p` lists `f q r` for all rows `r` on all processes `q` with destination `p`.
-/

namespace Gslib.Props
open Gslib Gslib.Spec Gslib.Mpi Gslib.Crystal Gslib.Transfer Gslib.Sarray

/-! ## C14 -/

/-- **C14** (and the general form of C12, C16): `sarray_transfer_many` with any number of arrays of any row sizes. Under every
schedule the call ends on all processes; then the arrays of process `p` hold, row by row, the components of the rows that were
destined to `p`, all components of a row together (component `j` of output row `i` and component `j'` of output row `i` come from the same
input row), and the number of rows is returned. In fixed mode this holds when no more rows arrive than fit. -/
theorem sarray_transfer_many_delivers {np : Nat} {P : Params} {s0 : Nat → TrState} {R : Nat → List Row} {D : Nat → List Nat}
    (h : Inp np P s0 R D)
    (hfix : P.fixed = true → ∀ p, p < np → receivedCount np R D p ≤ (s0 p).max ∧ (s0 p).max * P.rowSize < uintRange) :
    AllSchedules (transferMany np P).prog np s0 fun s => ∀ p, p < np → ∃ out : List Row,
      (s p).cols = colsOf P.sizes.length out ∧ (s p).ret = out.length ∧
      out.Perm (received np R D (fun q r => if P.ext then r else setProcField P.pOff (if P.setSrc then q else p) r) p) := by
  obtain ⟨sf, e, hf⟩ := transferMany_run h hfix
  apply allSchedules_of_lockRun (transferMany_ok np P) e
  intro s hs p hp
  obtain ⟨out, h1, h2⟩ := hf p hp
  refine ⟨out, ?_, ?_, h1⟩
  · rw [hs p hp, h2]
  · rw [hs p hp, h2]

/-! ## the processor field -/

theorem leVal_leBytes {w : Nat} (h : w < 4294967296) : leVal (leBytes w) = w := by
  simp [leVal, leBytes]; omega

theorem leBytes_leVal {b : List Nat} (hl : b.length = 4) (hb : Bytes b) : leBytes (leVal b) = b := by
  match b, hl with
  | [x, y, z, w], _ =>
    have h1 := hb x (by simp)
    have h2 := hb y (by simp)
    have h3 := hb z (by simp)
    have h4 := hb w (by simp)
    simp [leVal, leBytes]
    omega

/-- a row whose first component holds the processor field -/
def FieldIn (pOff : Nat) (r : Row) : Prop := ∃ c cs, r = c :: cs ∧ pOff + 4 ≤ c.length

theorem procField_setProcField {pOff w : Nat} {r : Row} (hr : FieldIn pOff r) (hw : w < 4294967296) :
    procField pOff (setProcField pOff w r) = w := by
  obtain ⟨c, cs, rfl, hc⟩ := hr
  unfold procField setProcField
  simp only [List.getD_cons_zero]
  have e : (c.take pOff).length = pOff := by simp; omega
  have : ((c.take pOff ++ leBytes w ++ c.drop (pOff + 4)).drop pOff).take 4 = leBytes w := by
    rw [List.append_assoc]
    conv => lhs; arg 2; arg 1; rw [← e]
    rw [List.drop_left, List.take_append_of_le_length (by simp [leBytes]), List.take_of_length_le (by simp [leBytes])]
  rw [this, leVal_leBytes hw]

theorem setProcField_setProcField {pOff a b : Nat} {r : Row} (hr : FieldIn pOff r) :
    setProcField pOff a (setProcField pOff b r) = setProcField pOff a r := by
  obtain ⟨c, cs, rfl, hc⟩ := hr
  unfold setProcField
  simp only [List.getD_cons_zero, List.tail_cons]
  have e : (c.take pOff).length = pOff := by simp; omega
  congr 2
  · congr 1
    rw [List.append_assoc, List.take_append_of_le_length (by omega), List.take_of_length_le (by omega)]
  · have e2 : (c.take pOff ++ leBytes b).length = pOff + 4 := by simp [leBytes]; omega
    conv => lhs; arg 1; rw [← e2]
    rw [List.drop_left]

theorem setProcField_self {pOff : Nat} {r : Row} (hr : FieldIn pOff r) (hb : Bytes (r.getD 0 [])) :
    setProcField pOff (procField pOff r) r = r := by
  obtain ⟨c, cs, rfl, hc⟩ := hr
  unfold setProcField procField
  simp only [List.getD_cons_zero, List.tail_cons] at hb ⊢
  rw [leBytes_leVal (by simp; omega) (fun b hb' => hb b (List.mem_of_mem_drop (List.mem_of_mem_take hb')))]
  congr 1
  rw [show c.drop (pOff + 4) = (c.drop pOff).drop 4 by rw [List.drop_drop], List.append_assoc, List.take_append_drop, List.take_append_drop]

/-! ## C12 -/

/-- the destinations in the processor fields -/
def destOf (pOff : Nat) (R : Nat → List Row) (q : Nat) : List Nat := (R q).map (procField pOff)

/-- **C12** (`set_src = 1`, and with `setSrc = false` the processor field is the target): `sarray_transfer` on any number of
processes. The rows on `p` afterwards are exactly those that named `p`, with the sending process (or the target) in the processor
field and all other bytes unchanged. -/
theorem sarray_transfer_delivers {np size pOff : Nat} {setSrc : Bool} {s0 : Nat → TrState} {R : Nat → List Row}
    (h : Inp np ⟨[size], false, false, setSrc, pOff, size⟩ s0 R (destOf pOff R)) :
    AllSchedules (sarrayTransfer np size pOff setSrc).prog np s0 fun s => ∀ p, p < np → ∃ out : List Row,
      (s p).cols = colsOf 1 out ∧
      out.Perm (received np R (destOf pOff R) (fun q r => setProcField pOff (if setSrc then q else p) r) p) := by
  have := sarray_transfer_many_delivers h (fun hf => by simp at hf)
  refine ⟨this.noInfinite, this.noDeadlock, fun c hc hf => ?_⟩
  obtain ⟨h1, h2⟩ := this.result c hc hf
  refine ⟨fun p hp => ?_, h2⟩
  obtain ⟨out, a, _, b⟩ := h1 p hp
  exact ⟨out, a, by simpa using b⟩

theorem fieldIn_of {np : Nat} {P : Params} {s0 : Nat → TrState} {R : Nat → List Row} {D : Nat → List Nat} (h : Inp np P s0 R D)
    (hx : P.ext = false) {q : Nat} (hq : q < np) {r : Row} (hr : r ∈ R q) : FieldIn P.pOff r ∧ Bytes (r.getD 0 []) := by
  have h1 := (h.st q hq).rows r hr
  have h2 := h.wf.field hx
  match r, h1 with
  | [], h1 => exact absurd h1.1.symm (by simpa using h.wf.ne)
  | c :: cs, h1 =>
    have e : P.sizes.headD 0 = c.length := by rw [← h1.1]; rfl
    exact ⟨⟨c, cs, rfl, by omega⟩, h1.2 c (by simp)⟩

theorem received_congr {np : Nat} {R : Nat → List Row} {D : Nat → List Nat} {f g : Nat → Row → Row} {p : Nat}
    (h : ∀ q, q < np → ∀ x ∈ (R q).zip (D q), x.2 = p → f q x.1 = g q x.1) : received np R D f p = received np R D g p := by
  unfold received
  apply List.flatMap_congr
  intro q hq
  apply List.map_congr_left
  intro x hx
  obtain ⟨h1, h2⟩ := List.mem_filter.1 hx
  exact h q (List.mem_range.1 hq) x h1 (by simpa using h2)

theorem zip_map_self {α β : Type} (l : List α) (f : α → β) : l.zip (l.map f) = l.map fun a => (a, f a) := by
  induction l with
  | nil => rfl
  | cons a l ih => simp [ih]

/-- **C12** (`set_src = 0`): the rows arrive with all bytes unchanged -/
theorem sarray_transfer_unchanged {np size pOff : Nat} {s0 : Nat → TrState} {R : Nat → List Row}
    (h : Inp np ⟨[size], false, false, false, pOff, size⟩ s0 R (destOf pOff R)) :
    AllSchedules (sarrayTransfer np size pOff false).prog np s0 fun s => ∀ p, p < np → ∃ out : List Row,
      (s p).cols = colsOf 1 out ∧ out.Perm (received np R (destOf pOff R) (fun _ r => r) p) := by
  have := sarray_transfer_delivers h
  refine ⟨this.noInfinite, this.noDeadlock, fun c hc hf => ?_⟩
  obtain ⟨h1, h2⟩ := this.result c hc hf
  refine ⟨fun p hp => ?_, h2⟩
  obtain ⟨out, a, b⟩ := h1 p hp
  refine ⟨out, a, ?_⟩
  rwa [received_congr (g := fun _ r => r)] at b
  intro q hq x hx hxp
  simp only [destOf, zip_map_self, List.mem_map] at hx
  obtain ⟨r, hr, rfl⟩ := hx
  obtain ⟨f1, f2⟩ := fieldIn_of h rfl hq hr
  simp only at hxp ⊢
  rw [← hxp]
  exact setProcField_self f1 f2

/-- the state of a process holding the given rows of `k` arrays of capacity `m` -/
def demoState (k m : Nat) (R : List Row) (D : List Nat) : TrState :=
  ⟨colsOf k R, m, D, ⟨[], [], []⟩, 0, fun k => k, ⟨fun _ => none, fun _ _ => none⟩⟩

/-- three processes: rows of 6 bytes, the processor field in bytes 1 to 4 -/
def demoRows (q : Nat) : List Row :=
  match q with
  | 0 => [[[5, 2, 0, 0, 0, 8]], [[7, 0, 0, 0, 0, 1]], [[9, 2, 0, 0, 0, 5]]]
  | 1 => []
  | _ => [[[255, 1, 0, 0, 0, 254]]]

theorem demo_inp (setSrc : Bool) :
    Inp 3 ⟨[6], false, false, setSrc, 1, 6⟩ (fun q => demoState 1 0 (demoRows q) []) demoRows (destOf 1 demoRows) where
  wf := ⟨by simp, by simp, by simp [Params.rowSize, Params.off1]⟩
  st q hq := by
    refine ⟨rfl, ?_, by simp [destOf], by simp, fun _ => rfl, ?_, by simp⟩
    · have : q = 0 ∨ q = 1 ∨ q = 2 := by omega
      unfold RowsOk Bytes
      rcases this with rfl | rfl | rfl <;> simp only <;> decide
    · have : q = 0 ∨ q = 1 ∨ q = 2 := by omega
      rcases this with rfl | rfl | rfl <;> decide
  np32 := by omega
  small := by simp [Params.rowSize, Params.off1, Finset.sum_range_succ, demoRows, intMax]

example : received 3 demoRows (destOf 1 demoRows) (fun q r => setProcField 1 q r) 2 =
    [[[5, 0, 0, 0, 0, 8]], [[9, 0, 0, 0, 0, 5]]] := by decide

/-! ## C16 -/

/-- **C16**: `sarray_transfer_ext`: row `i` of process `q` goes to process `proc[i]`, with all bytes unchanged -/
theorem sarray_transfer_ext_delivers {np size stride : Nat} {s0 : Nat → TrState} {R : Nat → List Row} {D : Nat → List Nat}
    (h : Inp np ⟨[size], false, true, false, 0, stride⟩ s0 R D) :
    AllSchedules (sarrayTransferExt np size stride).prog np s0 fun s => ∀ p, p < np → ∃ out : List Row,
      (s p).cols = colsOf 1 out ∧ out.Perm (received np R D (fun _ r => r) p) := by
  have := sarray_transfer_many_delivers h (fun hf => by simp at hf)
  refine ⟨this.noInfinite, this.noDeadlock, fun c hc hf => ?_⟩
  obtain ⟨h1, h2⟩ := this.result c hc hf
  refine ⟨fun p hp => ?_, h2⟩
  obtain ⟨out, a, _, b⟩ := h1 p hp
  exact ⟨out, a, by simpa using b⟩

/-- destinations of the rows of `demoRows` -/
def demoDest (q : Nat) : List Nat := match q with | 0 => [1, 1, 2] | 1 => [] | _ => [0]

example : Inp 3 ⟨[6], false, true, false, 0, 4⟩ (fun q => demoState 1 0 (demoRows q) (demoDest q)) demoRows demoDest where
  wf := ⟨by simp, by simp, by simp [Params.rowSize, Params.off1]⟩
  st q hq := by
    refine ⟨rfl, ?_, ?_, fun _ => rfl, by simp, ?_, ?_⟩
    all_goals
      have : q = 0 ∨ q = 1 ∨ q = 2 := by omega
    · unfold RowsOk Bytes
      rcases this with rfl | rfl | rfl <;> decide
    · rcases this with rfl | rfl | rfl <;> rfl
    · rcases this with rfl | rfl | rfl <;> decide
    · rcases this with rfl | rfl | rfl <;> decide
  np32 := by omega
  small := by simp [Params.rowSize, Params.off1, Finset.sum_range_succ, demoRows, intMax]

/-! ## C13 -/

theorem perm_by_class {α : Type} (f : α → Nat) (l : List α) : ∀ n, (∀ x ∈ l, f x < n) →
    ((List.range n).flatMap fun p => l.filter fun x => f x = p).Perm l := by
  have h : ∀ n, ((List.range n).flatMap fun p => l.filter fun x => f x = p).Perm (l.filter fun x => f x < n) := by
    intro n
    induction n with
    | zero => simp
    | succ n ih =>
      rw [List.range_succ, List.flatMap_append, List.flatMap_singleton]
      have := List.filter_append_perm (fun x => decide (f x < n)) (l.filter fun x => f x < n + 1)
      refine List.Perm.trans ?_ this
      rw [List.filter_filter, List.filter_filter]
      refine List.Perm.append (ih.trans (List.Perm.of_eq ?_)) (List.Perm.of_eq ?_)
      · apply List.filter_congr
        intro x _
        by_cases c : f x < n
        · simp [c]; omega
        · simp [c]
      · apply List.filter_congr
        intro x _
        simp only [← decide_not, ← Bool.decide_and]
        apply decide_eq_decide.2
        omega
  intro n hn
  refine (h n).trans (List.Perm.of_eq ?_)
  rw [List.filter_eq_self]
  intro x hx
  simpa using hn x hx

theorem sum_range_list (f : Nat → Nat) (n : Nat) : ∑ q ∈ Finset.range n, f q = ((List.range n).map f).sum := by
  induction n with
  | zero => rfl
  | succ n ih => rw [Finset.sum_range_succ, ih, List.range_succ]; simp

/-- rows received in total -/
theorem received_total {np pOff : Nat} {R : Nat → List Row} (f : Nat → Nat → Row → Row) (hd : ∀ q, q < np → ∀ r ∈ R q, procField pOff r < np) :
    ∑ p ∈ Finset.range np, (received np R (destOf pOff R) (f p) p).length = ∑ q ∈ Finset.range np, (R q).length := by
  have e : ∀ p, (received np R (destOf pOff R) (f p) p).length = ∑ q ∈ Finset.range np, ((R q).filter fun r => procField pOff r = p).length := by
    intro p
    rw [sum_range_list]
    unfold received destOf
    rw [List.length_flatMap]
    congr 1
    apply List.map_congr_left
    intro q _
    rw [List.length_map, zip_map_self, List.filter_map, List.length_map]
    rfl
  rw [Finset.sum_congr rfl fun p _ => e p, Finset.sum_comm]
  apply Finset.sum_congr rfl
  intro q hq
  have := (perm_by_class (procField pOff) (R q) np (hd q (Finset.mem_range.1 hq))).length_eq
  rw [← this, List.length_flatMap, sum_range_list]

theorem setProcField_ok {P : Params} (hx : P.ext = false) (hw : Wf P) {r : Row} (h : r.map List.length = P.sizes ∧ ∀ c ∈ r, Bytes c) (w : Nat) :
    (setProcField P.pOff w r).map List.length = P.sizes ∧ ∀ c ∈ setProcField P.pOff w r, Bytes c := by
  have h2 := hw.field hx
  match r, h with
  | [], h => exact absurd h.1.symm (by simpa using hw.ne)
  | c :: cs, h =>
    have e : P.sizes.headD 0 = c.length := by rw [← h.1]; rfl
    constructor
    · rw [← h.1]
      simp [setProcField, leBytes]; omega
    · intro x hx
      simp only [setProcField, List.getD_cons_zero, List.tail_cons, List.mem_cons] at hx
      rcases hx with rfl | hx
      · intro b hb
        simp only [List.mem_append] at hb
        rcases hb with (hb | hb) | hb
        · exact h.2 c (by simp) b (List.mem_of_mem_take hb)
        · simp [leBytes] at hb; omega
        · exact h.2 c (by simp) b (List.mem_of_mem_drop hb)
      · exact h.2 x (by simp [hx])

theorem received_mem {np pOff : Nat} {R : Nat → List Row} {f : Nat → Row → Row} {p : Nat} {r : Row}
    (h : r ∈ received np R (destOf pOff R) f p) : ∃ q, q < np ∧ ∃ r0 ∈ R q, procField pOff r0 = p ∧ r = f q r0 := by
  unfold received destOf at h
  obtain ⟨q, hq, h⟩ := List.mem_flatMap.1 h
  obtain ⟨x, hx, rfl⟩ := List.mem_map.1 h
  obtain ⟨h1, h2⟩ := List.mem_filter.1 hx
  rw [zip_map_self] at h1
  obtain ⟨r0, h3, rfl⟩ := List.mem_map.1 h1
  exact ⟨q, List.mem_range.1 hq, r0, h3, by simpa using h2, rfl⟩

/-- the state after the first transfer is an admissible input of the second, which brings every row back -/
theorem roundtrip_inp {np : Nat} {P : Params} {s0 sf : Nat → TrState} {R out : Nat → List Row}
    (hx : P.ext = false) (h : Inp np P s0 R (destOf P.pOff R))
    (ho : ∀ p, p < np → (out p).Perm (received np R (destOf P.pOff R) (fun q => setProcField P.pOff q) p) ∧ (sf p).cols = colsOf P.sizes.length (out p)) :
    Inp np P sf out (destOf P.pOff out) ∧
    ∀ q, q < np → (received np out (destOf P.pOff out) (fun p => setProcField P.pOff p) q).Perm (R q) := by
  have hnp := h.np32
  have hfld : ∀ p, p < np → ∀ r ∈ out p, ∃ q, q < np ∧ ∃ r0 ∈ R q, procField P.pOff r0 = p ∧ r = setProcField P.pOff q r0 := by
    intro p hp r hr
    exact received_mem ((ho p hp).1.mem_iff.1 hr)
  have hdst : ∀ p, p < np → ∀ r ∈ R p, procField P.pOff r < np := by
    intro p hp r hr
    exact (h.st p hp).dest _ (List.mem_map.2 ⟨r, hr, rfl⟩)
  refine ⟨⟨h.wf, ?_, h.np32, ?_⟩, ?_⟩
  · intro p hp
    refine ⟨(ho p hp).2, ?_, by simp [destOf], by simp [hx], fun _ => rfl, ?_, by simp [hx]⟩
    · intro r hr
      obtain ⟨q, hq, r0, h0, _, rfl⟩ := hfld p hp r hr
      exact setProcField_ok hx h.wf ((h.st q hq).rows r0 h0) q
    · intro d hd
      obtain ⟨r, hr, rfl⟩ := List.mem_map.1 hd
      obtain ⟨q, hq, r0, h0, _, rfl⟩ := hfld p hp r hr
      rw [procField_setProcField (fieldIn_of h hx hq h0).1 (by omega)]
      exact hq
  · have e : ∑ p ∈ Finset.range np, (out p).length = ∑ q ∈ Finset.range np, (R q).length := by
      rw [← received_total (fun _ q => setProcField P.pOff q) hdst]
      exact Finset.sum_congr rfl fun p hp => (ho p (Finset.mem_range.1 hp)).1.length_eq
    rw [e]
    exact h.small
  · intro q hq
    have hp : ∀ p, p < np → List.Perm ((((out p).zip (destOf P.pOff out p)).filter fun x => x.2 = q).map (fun x => setProcField P.pOff p x.1))
        ((R q).filter fun r => procField P.pOff r = p) := by
      intro p hp
      unfold destOf
      rw [zip_map_self, List.filter_map, List.map_map]
      refine (((ho p hp).1.filter _).map _).trans (List.Perm.of_eq ?_)
      unfold received destOf
      rw [List.filter_flatMap, List.map_flatMap]
      have : ∀ q' ∈ List.range np, (((((R q').zip ((R q').map (procField P.pOff))).filter fun x => x.2 = p).map fun x => setProcField P.pOff q' x.1).filter
            ((fun x : Row × Nat => decide (x.2 = q)) ∘ fun a => (a, procField P.pOff a))).map ((fun x : Row × Nat => setProcField P.pOff p x.1) ∘ fun a => (a, procField P.pOff a)) =
          if q' = q then (R q).filter fun r => procField P.pOff r = p else [] := by
        intro q' hq'
        have hq' := List.mem_range.1 hq'
        rw [zip_map_self, List.filter_map, List.filter_map, List.map_map, List.filter_map, List.map_map]
        split
        · rename_i e
          subst e
          rw [List.filter_eq_self.2]
          · conv => rhs; rw [← List.map_id ((R q').filter fun r => procField P.pOff r = p)]
            apply List.map_congr_left
            intro r hr
            obtain ⟨h1, h2⟩ := List.mem_filter.1 hr
            have h2 : procField P.pOff r = p := by simpa using h2
            obtain ⟨f1, f2⟩ := fieldIn_of h hx hq' h1
            simp only [Function.comp, id]
            rw [setProcField_setProcField f1, ← h2, setProcField_self f1 f2]
          · intro r hr
            obtain ⟨h1, h2⟩ := List.mem_filter.1 hr
            simp only [Function.comp, decide_eq_true_eq]
            exact procField_setProcField (fieldIn_of h hx hq' h1).1 (by omega)
        · rename_i e
          rw [List.filter_eq_nil_iff.2]
          · rfl
          · intro r hr
            obtain ⟨h1, h2⟩ := List.mem_filter.1 hr
            simp only [Function.comp, decide_eq_true_eq]
            rw [procField_setProcField (fieldIn_of h hx hq' h1).1 (by omega)]
            exact e
      rw [List.flatMap_congr this]
      have hs : ∀ n, (List.range n).flatMap (fun q' => if q' = q then (R q).filter fun r => procField P.pOff r = p else []) =
          if q < n then (R q).filter fun r => procField P.pOff r = p else [] := by
        intro n
        induction n with
        | zero => rfl
        | succ n ih =>
          rw [List.range_succ, List.flatMap_append, ih, List.flatMap_singleton]
          by_cases c : q < n
          · simp [c, show q < n + 1 by omega, show n ≠ q by omega]
          · by_cases c' : n = q
            · subst c'; simp
            · simp [c, c', show ¬ q < n + 1 by omega]
      rw [hs, if_pos hq]
    unfold received
    refine (perm_flatMap _ fun p hp' => hp p (List.mem_range.1 hp')).trans ?_
    exact perm_by_class (procField P.pOff) (R q) np (hdst q hq)

theorem two_transfers_run {np : Nat} {P : Params} {s0 : Nat → TrState} {R : Nat → List Row}
    (hx : P.ext = false) (hsrc : P.setSrc = true) (hfix : P.fixed = false) (h : Inp np P s0 R (destOf P.pOff R)) :
    ∃ sf, ((transferMany np P).seq (transferMany np P)).run np s0 = .ok sf ∧
      ∀ q, q < np → ∃ out : List Row, out.Perm (R q) ∧ (sf q).cols = colsOf P.sizes.length out ∧ (sf q).scratch = (s0 q).scratch := by
  have hout : ∀ p q, outRow P q p = setProcField P.pOff q := by intro p q; funext r; simp [outRow, hx, hsrc]
  obtain ⟨s1, e1, h1⟩ := transferMany_run h (by simp [hfix])
  have : ∀ p, ∃ out : List Row, p < np → out.Perm (received np R (destOf P.pOff R) (fun q => setProcField P.pOff q) p) ∧
      s1 p = { s0 p with cols := colsOf P.sizes.length out, ret := out.length, cr := (s1 p).cr } := by
    intro p
    by_cases hp : p < np
    · obtain ⟨out, a, b⟩ := h1 p hp
      refine ⟨out, fun _ => ⟨?_, b⟩⟩
      simpa only [hout] using a
    · exact ⟨[], fun hp' => absurd hp' hp⟩
  choose out hout1 using this
  obtain ⟨i1, i2⟩ := roundtrip_inp (sf := s1) (out := out) hx h (fun p hp => ⟨(hout1 p hp).1, by rw [(hout1 p hp).2]⟩)
  obtain ⟨s2, e2, h2⟩ := transferMany_run i1 (by simp [hfix])
  refine ⟨s2, ?_, ?_⟩
  · rw [Coll.seq_run (transferMany_ok np P), e1]
    exact e2
  · intro q hq
    obtain ⟨o, a, b⟩ := h2 q hq
    simp only [hout] at a
    refine ⟨o, a.trans (i2 q hq), by rw [b], ?_⟩
    rw [b]
    change (s1 q).scratch = _
    rw [(hout1 q hq).2]

/-- **C13**: two consecutive transfers with `set_src = 1`, in every schedule (a process may start the second while others are
in the first): every process gets back exactly its own rows, with all bytes as before -/
theorem transfer_there_and_back {np size pOff : Nat} {s0 : Nat → TrState} {R : Nat → List Row}
    (h : Inp np ⟨[size], false, false, true, pOff, size⟩ s0 R (destOf pOff R)) :
    AllSchedules ((sarrayTransfer np size pOff true).seq (sarrayTransfer np size pOff true)).prog np s0 fun s =>
      ∀ q, q < np → ∃ out : List Row, (s q).cols = colsOf 1 out ∧ out.Perm (R q) := by
  obtain ⟨sf, e, hf⟩ := two_transfers_run rfl rfl rfl h
  apply allSchedules_of_lockRun (Coll.seq_ok (transferMany_ok _ _) (transferMany_ok _ _)) e
  intro s hs q hq
  obtain ⟨out, a, b, _⟩ := hf q hq
  exact ⟨out, by rw [hs q hq, b]; rfl, a⟩

/-- sort the rows of the (only) array by the unsigned integer of `D` bytes at offset `kOff`: sarray_sort -/
def sortByField (kOff D : Nat) : Coll TrState (List Nat) :=
  Coll.loc (fun _ s => (sarraySort (κ := Nat) [Field.int D fun c => leVal ((c.drop kOff).take D)] (s.cols.headD []) ⟨s.scratch, s.scratch⟩).bind
    fun c => .ok { s with cols := [c] }) []

theorem leVal_lt : ∀ (b : List Nat), Bytes b → leVal b < 256 ^ b.length
  | [], _ => by simp [leVal]
  | x :: b, h => by
    have ih := leVal_lt b (fun y hy => h y (by simp [hy]))
    have hx := h x (by simp)
    simp only [leVal, List.foldr_cons, List.length_cons, Nat.pow_succ] at *
    omega

theorem eq_of_perm_sorted {α : Type} {k : α → Nat} : ∀ {a b : List α}, a.Perm b → b.Pairwise (fun x y => k x < k y) → a.Pairwise (fun x y => k x ≤ k y) → a = b
  | [], b, h, _, _ => by have := h.length_eq; simp at this; exact (List.length_eq_zero_iff.1 this.symm).symm
  | x :: a, [], h, _, _ => by simp at h
  | x :: a, y :: b, h, hb, ha => by
    rw [List.pairwise_cons] at hb ha
    have hxy : x = y := by
      have h1 : x ∈ y :: b := h.mem_iff.1 (by simp)
      have h2 : y ∈ x :: a := h.mem_iff.2 (by simp)
      rcases List.mem_cons.1 h1 with e | h1
      · exact e
      · rcases List.mem_cons.1 h2 with e | h2
        · exact e.symm
        · have := hb.1 x h1
          have := ha.1 y h2
          omega
    subst hxy
    rw [eq_of_perm_sorted (List.Perm.cons_inv h) hb.2 ha.2]

/-- **C13** (restoring the array): if the rows of each process are initially in strictly increasing order of an index
field, two transfers followed by `sarray_sort` on this field restore the array of every process exactly -/
theorem transfer_there_and_back_sorted {np size pOff kOff D : Nat} {s0 : Nat → TrState} {R : Nat → List Row}
    (h : Inp np ⟨[size], false, false, true, pOff, size⟩ s0 R (destOf pOff R)) 
    (hidx : ∀ q, q < np → ((R q).map fun r => leVal (((r.getD 0 []).drop kOff).take D)).Pairwise (· < ·)) :
    AllSchedules (((sarrayTransfer np size pOff true).seq (sarrayTransfer np size pOff true)).seq (sortByField kOff D)).prog np s0 fun s =>
      ∀ q, q < np → (s q).cols = (s0 q).cols := by
  obtain ⟨sf, e, hf⟩ := two_transfers_run rfl rfl rfl h
  have hok : ((sarrayTransfer np size pOff true).seq (sarrayTransfer np size pOff true)).Ok np := Coll.seq_ok (transferMany_ok _ _) (transferMany_ok _ _)
  have hsort : ∀ q, q < np → (sarraySort (κ := Nat) [Field.int D fun c => leVal ((c.drop kOff).take D)] ((sf q).cols.headD []) ⟨(sf q).scratch, (sf q).scratch⟩).bind
      (fun c => Outcome.ok { sf q with cols := [c] }) = .ok { sf q with cols := (s0 q).cols } := by
    intro q hq
    obtain ⟨out, a, b, _⟩ := hf q hq
    have hcol : (sf q).cols.headD [] = out.map fun r => r.getD 0 [] := by rw [b]; rfl
    rw [hcol]
    obtain ⟨c, ec, hc⟩ := sarray_sort_lexicographic (κ := Nat) [Field.int D fun c => leVal ((c.drop kOff).take D)] (out.map fun r => r.getD 0 []) ⟨(sf q).scratch, (sf q).scratch⟩ (by
      intro f hf
      simp only [List.mem_singleton] at hf
      subst hf
      intro c hc
      obtain ⟨r, hr, rfl⟩ := List.mem_map.1 hc
      have hb := (fieldIn_of h rfl hq (a.mem_iff.1 hr)).2
      refine lt_of_lt_of_le (leVal_lt _ fun x hx => hb x (List.mem_of_mem_drop (List.mem_of_mem_take hx))) ?_
      exact Nat.pow_le_pow_right (by omega) (by simp))
    rw [ec]
    have : c = (R q).map fun r => r.getD 0 [] := by
      apply eq_of_perm_sorted (k := fun c => leVal ((c.drop kOff).take D)) (hc.perm.trans (a.map _))
      · have := hidx q hq
        rw [List.pairwise_map] at this ⊢
        exact this
      · refine hc.sorted.imp ?_
        intro x y hxy
        simp only [List.map_cons, List.map_nil, LexLe, Field.key, Key.Lt, Key.Same, and_true] at hxy
        omega
    simp only [Outcome.bind, this]
    congr 2
    rw [(h.st q hq).cols]
    rfl
  have e' : (((sarrayTransfer np size pOff true).seq (sarrayTransfer np size pOff true)).seq (sortByField kOff D)).run np s0 =
      .ok (fun q => if q < np then { sf q with cols := (s0 q).cols } else sf q) := by
    rw [Coll.seq_run hok]
    have : ((sarrayTransfer np size pOff true).seq (sarrayTransfer np size pOff true)).run np s0 = .ok sf := e
    rw [this]
    exact Coll.loc_run_ok hsort
  apply allSchedules_of_lockRun (Coll.seq_ok hok (Coll.loc_ok _ _ _)) e'
  intro s hs q hq
  rw [hs q hq]
  simp [hq]

example : ∀ q, q < 3 → ((demoRows q).map fun r => leVal (((r.getD 0 []).drop 0).take 1)).Pairwise (· < ·) := by decide

/-! ## C14, Fortran interface -/

/-- **C14** (Fortran `crystal_tuple_transfer`): rows of `mi` integers, `ml` longs and `md` reals in three arrays, processor
field in integer `key` (one-based): if no more rows arrive on a process than fit its arrays, every row arrives with its three
parts together, the sender's rank in the processor field and everything else unchanged; the number of rows is returned -/
theorem tuple_transfer_delivers {np mi ml md key : Nat} {s0 : Nat → TrState} {R : Nat → List Row}
    (h : Inp np ⟨[4 * mi, 8 * ml, 8 * md], true, false, true, (key - 1) * 4, 4 * mi⟩ s0 R (destOf ((key - 1) * 4) R))
    (hfit : ∀ p, p < np → receivedCount np R (destOf ((key - 1) * 4) R) p ≤ (s0 p).max ∧ (s0 p).max * (mi + 2 * ml + 2 * md) < uintRange) :
    AllSchedules (tupleTransfer np mi ml md key).prog np s0 fun s => ∀ p, p < np → ∃ out : List Row,
      (s p).cols = [out.map fun r => r.getD 0 [], out.map fun r => r.getD 1 [], out.map fun r => r.getD 2 []] ∧ (s p).ret = out.length ∧
      out.Perm (received np R (destOf ((key - 1) * 4) R) (fun q r => setProcField ((key - 1) * 4) q r) p) := by
  have := sarray_transfer_many_delivers h (fun _ p hp => ⟨(hfit p hp).1, by
    refine lt_of_le_of_lt (Nat.mul_le_mul_left _ ?_) (hfit p hp).2
    simp [Params.rowSize, Params.off1]; omega⟩)
  refine ⟨this.noInfinite, this.noDeadlock, fun c hc hf => ?_⟩
  obtain ⟨h1, h2⟩ := this.result c hc hf
  refine ⟨fun p hp => ?_, h2⟩
  obtain ⟨out, a, a', b⟩ := h1 p hp
  exact ⟨out, a, a', by simpa using b⟩

/-- two processes, rows of two integers (processor field first), one long and no reals -/
def demoTuples (q : Nat) : List Row :=
  match q with
  | 0 => [[[1, 0, 0, 0, 9, 0, 0, 0], [1, 2, 3, 4, 5, 6, 7, 8], []], [[0, 0, 0, 0, 8, 0, 0, 0], [8, 2, 3, 4, 5, 6, 7, 8], []]]
  | _ => [[[0, 0, 0, 0, 7, 0, 0, 0], [0, 0, 0, 0, 0, 0, 0, 3], []]]

example : Inp 2 ⟨[4 * 2, 8 * 1, 8 * 0], true, false, true, (1 - 1) * 4, 4 * 2⟩ (fun q => demoState 3 5 (demoTuples q) []) demoTuples (destOf ((1 - 1) * 4) demoTuples) where
  wf := ⟨by simp, by simp, by simp [Params.rowSize, Params.off1]⟩
  st q hq := by
    have : q = 0 ∨ q = 1 := by omega
    refine ⟨rfl, ?_, by simp [destOf], by simp, fun _ => rfl, ?_, by simp⟩
    · unfold RowsOk Bytes
      rcases this with rfl | rfl <;> decide
    · rcases this with rfl | rfl <;> decide
  np32 := by omega
  small := by simp [Params.rowSize, Params.off1, Finset.sum_range_succ, demoTuples, intMax]
example : ∀ p, p < 2 → receivedCount 2 demoTuples (destOf 0 demoTuples) p ≤ 5 ∧ 5 * (2 + 2 * 1 + 2 * 0) < uintRange := by decide

/-! ## C15

The full statement is false of the code: `cap_rows` lengthens the message that crosses the capacity instead of shortening it
(sarray_transfer.c:127, `buf[2]-=(maxn-n)` with `n ≥ maxn`). -/

/-- **C15**, the part that holds: when the number of arriving rows is at most the capacity of every process, a fixed transfer writes
exactly the arriving rows and returns their number. Missing: more rows than the capacity, see `fixed_transfer_overflow`. -/
theorem fixed_transfer_within_capacity_partial {np : Nat} {P : Params} {s0 : Nat → TrState} {R : Nat → List Row} {D : Nat → List Nat}
    (h : Inp np P s0 R D) (_hf : P.fixed = true)
    (hcap : ∀ p, p < np → receivedCount np R D p ≤ (s0 p).max ∧ (s0 p).max * P.rowSize < uintRange) :
    AllSchedules (transferMany np P).prog np s0 fun s => ∀ p, p < np →
      (s p).ret = receivedCount np R D p ∧ ∀ col ∈ (s p).cols, col.length = receivedCount np R D p ∧ col.length ≤ (s0 p).max := by
  have := sarray_transfer_many_delivers h (fun _ => hcap)
  refine ⟨this.noInfinite, this.noDeadlock, fun c hc hf => ?_⟩
  obtain ⟨h1, h2⟩ := this.result c hc hf
  refine ⟨fun p hp => ?_, h2⟩
  obtain ⟨out, a, a', b⟩ := h1 p hp
  have hl : out.length = receivedCount np R D p := by
    rw [b.length_eq]; unfold receivedCount received; simp [List.length_flatMap]
  refine ⟨by rw [a', hl], ?_⟩
  intro col hcol
  rw [a] at hcol
  obtain ⟨j, _, rfl⟩ := List.mem_map.1 hcol
  rw [List.length_map, hl]
  exact ⟨rfl, (hcap p hp).1⟩

/-- **C15 fails**: whatever was received, if a message begins before the capacity and ends after it, unpacking in fixed mode writes
behind the end of the caller's arrays. `gs1`: messages before, `g`: the message, `gs2`: messages after. -/
theorem fixed_transfer_overflow {P : Params} (hw : Wf P) (s : TrState) (gs1 : List G) (g : G) (gs2 : List G)
    (hd : s.cr.data = flat ((gs1 ++ g :: gs2).map G.msg)) (hs : ∀ g' ∈ gs1 ++ g :: gs2, ∀ s ∈ g'.slots, s.length = P.rowSize)
    (hn : nRows (gs1 ++ g :: gs2) * P.rowSize * 4 < intMax) (hf : P.fixed = true) (hm : s.max * P.rowSize < uintRange)
    (h1 : nRows gs1 < s.max ∨ gs1 = []) (h2 : s.max < nRows gs1 + g.slots.length) : unpackPart P s = .ub :=
  unpackPart_overflow hw s gs1 g gs2 hd hs hn hf hm h1 h2

/-- what kind of outcome: 0 normal, 1 undefined behaviour, 2 abort -/
def kind {α : Type} : Outcome α → Nat | .ok _ => 0 | .ub => 1 | .abort => 2

/-- two rows of two integers for process 0, room for `m` rows -/
def demoCap (m : Nat) : TrState := demoState 1 m [[[0, 0, 0, 0, 1, 2, 3, 4]], [[0, 0, 0, 0, 5, 6, 7, 8]]] []

/-- **C15 fails**, a complete run: `crystal_ituple_transfer` on one process with two rows and room for one -/
theorem fixed_transfer_overflow_witness : (ituTransfer 1 2 1).run 1 (fun _ => demoCap 1) = .ub := by
  have h : kind ((ituTransfer 1 2 1).run 1 fun _ => demoCap 1) = 1 := by decide +kernel
  generalize (ituTransfer 1 2 1).run 1 (fun _ => demoCap 1) = o at h
  cases o <;> simp [kind] at h ⊢

example : kind ((ituTransfer 1 2 1).run 1 fun _ => demoCap 2) = 0 := by decide +kernel
example : unpackPart ⟨[8], true, false, true, 0, 8⟩ { demoCap 1 with cr := ⟨flat [⟨0, 3, [11, 12, 13]⟩], [], []⟩ } = .ub :=
  fixed_transfer_overflow (P := ⟨[8], true, false, true, 0, 8⟩) ⟨by simp, by simp, by decide⟩ _ [] ⟨0, 3, [[11], [12], [13]]⟩ [] rfl (by decide) (by decide) rfl (by decide) (.inr rfl) (by decide)

/-! ## rows without payload -/

/-- A row that consists of the processor field only has `row_size = 0`: every such (non-fixed) transfer divides by zero in
`num_rows` (sarray_transfer.c:116), whatever was received. Hence the condition `0 < rowSize` in `Wf`. -/
theorem transfer_of_bare_field_divides_by_zero (P : Params) (h0 : P.rowSize = 0) (hf : P.fixed = false) (s : TrState) : unpackPart P s = .ub := by
  unfold unpackPart numRows
  simp only [hf, Bool.not_false, if_true, h0, bind, Option.bind]
  cases sumLens s.cr.data (s.cr.data.length + 1) 0 0 <;> rfl

example : (⟨[4], false, false, true, 0, 4⟩ : Params).rowSize = 0 := by decide
example : kind ((sarrayTransfer 1 4 0 true).run 1 fun _ => demoState 1 0 [[[0, 0, 0, 0]]] []) = 1 := by decide +kernel

end Gslib.Props
