import Verif.Model.Rec
import Verif.Lemmas.TypedTransfer

/-! # Transfers of structs of doubles and integers -/

namespace Gslib.Gs
open Gslib Gslib.Mpi Gslib.Transfer Gslib.Spec Gslib.Props

variable {k m : Nat}

/-- all fields in range -/
def Rec.Fit (r : Rec k m) : Prop := (∀ i, r.d i < 18446744073709551616) ∧ ∀ i, r.u i < 4294967296

theorem flatten_ofFn_length {n c : Nat} (f : Fin n → List Nat) (h : ∀ i, (f i).length = c) : (List.ofFn f).flatten.length = c * n := by
  induction n with
  | zero => simp
  | succ n ih =>
    rw [List.ofFn_succ, List.flatten_cons, List.length_append, h, ih _ (fun i => h _)]
    ring

/-- piece `i` -/
theorem flatten_ofFn_at {n c : Nat} (f : Fin n → List Nat) (h : ∀ i, (f i).length = c) (i : Fin n) (t : List Nat) :
    (((List.ofFn f).flatten ++ t).drop (c * i.val)).take c = f i := by
  induction n with
  | zero => exact i.elim0
  | succ n ih =>
    rw [List.ofFn_succ, List.flatten_cons]
    refine Fin.cases ?_ (fun i => ?_) i
    · simp only [Fin.val_zero, Nat.mul_zero, List.drop_zero, List.append_assoc]
      rw [List.take_append_of_le_length (by rw [h]), List.take_of_length_le (by rw [h])]
    · rw [List.append_assoc, show c * (i.succ).val = (f 0).length + c * i.val by rw [h, Fin.val_succ]; ring, List.drop_append, List.drop_of_length_le (by omega)]
      rw [Nat.add_sub_cancel_left, List.nil_append]
      exact ih (fun i => f i.succ) (fun i => h _) i

/-- replacing piece `j` -/
theorem flatten_ofFn_put {n c : Nat} (f g : Fin n → List Nat) (h : ∀ i, (f i).length = c) (j : Fin n) (hg : ∀ i, i ≠ j → g i = f i) (hgj : (g j).length = c) (t : List Nat) :
    ((List.ofFn f).flatten ++ t).take (c * j.val) ++ g j ++ ((List.ofFn f).flatten ++ t).drop (c * j.val + c) = (List.ofFn g).flatten ++ t := by
  induction n with
  | zero => exact j.elim0
  | succ n ih =>
    rw [List.ofFn_succ, List.flatten_cons, List.ofFn_succ (f := g), List.flatten_cons]
    revert hg hgj
    refine Fin.cases ?_ (fun j => ?_) j
    · intro hg hgj
      have : (fun i : Fin n => g i.succ) = fun i => f i.succ := by funext i; exact hg _ (Fin.succ_ne_zero i)
      rw [this]
      simp only [Fin.val_zero, Nat.mul_zero, Nat.zero_add, List.take_zero, List.nil_append, List.append_assoc]
      rw [List.drop_append, List.drop_of_length_le (by rw [h]), h]
      simp
    · intro hg hgj
      rw [hg 0 (Fin.succ_ne_zero j).symm]
      have e1 : c * (j.succ).val = (f 0).length + c * j.val := by rw [h, Fin.val_succ]; ring
      have ih' := ih (fun i => f i.succ) (fun i => g i.succ) (fun i => h _) j (fun i hi => hg _ (fun e => hi (Fin.succ_injective _ e))) hgj
      simp only [List.append_assoc] at ih' ⊢
      rw [e1, List.take_append, List.take_of_length_le (by omega), Nat.add_sub_cancel_left, List.drop_append, List.drop_of_length_le (by omega),
        show (f 0).length + c * j.val + c - (f 0).length = c * j.val + c by omega, List.nil_append, List.append_assoc, ih']

theorem bytes_flatten {n : Nat} (f : Fin n → List Nat) (h : ∀ i, Bytes (f i)) : Bytes (List.ofFn f).flatten := by
  intro b hb
  obtain ⟨l, hl, hb⟩ := List.mem_flatten.1 hb
  obtain ⟨i, rfl⟩ := (List.mem_ofFn' f l).1 hl
  exact h i b hb

theorem recLayout_ok (j : Fin m) (pad : Nat) (hbig : 0 < k ∨ 1 < m ∨ 0 < pad) : (recLayout k m j pad).Ok (fun r => r.u j) (Rec.set j) Rec.Fit where
  len r := by
    simp only [recLayout, List.length_append, flatten_ofFn_length _ (fun i => le8_length (r.d i)), flatten_ofFn_length (c := 4) _ (fun i => (rfl : (le4 (r.u i)).length = 4)), List.length_replicate]
  bytes r _ := bytes_append (bytes_append (bytes_flatten _ fun _ => le8_bytes _) (bytes_flatten _ fun _ => le4_bytes _)) (by intro b hb; rw [List.eq_of_mem_replicate hb]; decide)
  dec r h := by
    ext i
    · simp only [recLayout, List.append_assoc]
      rw [flatten_ofFn_at _ (fun i => le8_length (r.d i)), unle_le8 _ (h.1 i)]
    · simp only [recLayout, List.append_assoc]
      rw [List.drop_append, List.drop_of_length_le (by rw [flatten_ofFn_length _ (fun i => le8_length (r.d i))]; omega), flatten_ofFn_length _ (fun i => le8_length (r.d i)), List.nil_append,
        Nat.add_sub_cancel_left, flatten_ofFn_at (c := 4) _ (fun i => rfl), unle_le4 _ (h.2 i)]
  off := by
    have := j.isLt
    simp only [recLayout]; omega
  big := by
    have := j.isLt
    simp only [recLayout]; omega
  getp r h := by
    simp only [recLayout, List.append_assoc]
    rw [List.drop_append, List.drop_of_length_le (by rw [flatten_ofFn_length _ (fun i => le8_length (r.d i))]; omega), flatten_ofFn_length _ (fun i => le8_length (r.d i)), List.nil_append,
        Nat.add_sub_cancel_left, flatten_ofFn_at (c := 4) _ (fun i => rfl), leVal_eq_unle, unle_le4 _ (h.2 j)]
  putp r w h hw := by
    simp only [recLayout, List.append_assoc, Rec.set]
    have e0 := flatten_ofFn_length _ (fun i => le8_length (r.d i))
    rw [List.take_append, List.take_of_length_le (by omega), List.drop_append, List.drop_of_length_le (by omega), e0, List.nil_append, Nat.add_sub_cancel_left,
      show 8 * k + 4 * j.val + 4 - 8 * k = 4 * j.val + 4 by omega, List.append_assoc]
    congr 1
    have := flatten_ofFn_put (c := 4) (fun i => le4 (r.u i)) (fun i => le4 (if i = j then w else r.u i)) (fun i => rfl) j (fun i hi => by simp [hi]) rfl (List.replicate pad 0)
    simp only [if_true] at this
    rw [← this, List.append_assoc]
    rfl
  fit_set r w h hw := ⟨h.1, fun i => by show (if i = j then w else r.u i) < _; split <;> [exact hw; exact h.2 i]⟩

/-- the transfer of an array of structs -/
theorem recTransfer_run {σ : Type} {get : σ → TrState} {set : σ → TrState → σ} (hl : Lens get set) {np : Nat} (j : Fin m) (pad : Nat) (hbig : 0 < k ∨ 1 < m ∨ 0 < pad) (setSrc : Bool)
    (rows : Nat → List (Rec k m)) (s0 : Nat → σ) (hnp : np ≤ 4294967295) (hfit : ∀ q, q < np → ∀ r ∈ rows q, r.Fit ∧ r.u j < np)
    (hs : ∀ q, q < np → (get (s0 q)).cols = [(rows q).map (recLayout k m j pad).enc])
    (hsmall : (∑ q ∈ Finset.range np, (rows q).length) * ((8 * k + 4 * m + pad - 4 + 3) / 4 + 3) * 4 < Crystal.intMax) :
    ∃ (t : Nat → TrState), (recTransfer get set np (k := k) j pad setSrc).run np s0 = .ok (fun p => if p < np then set (s0 p) (t p) else s0 p) ∧
      ∀ p, p < np → (getRows (recLayout k m j pad) (t p)).Perm (arrived np (fun r => r.u j) (Rec.set j) setSrc rows p) := by
  have hL := recLayout_ok (k := k) j pad hbig
  obtain ⟨sf, e, h⟩ := typed_transfer_run hL (setSrc := setSrc) rows (fun p => get (s0 p)) hnp hfit hs hsmall
  refine ⟨sf, ?_, ?_⟩
  · unfold recTransfer
    rw [Coll.lift_run hl _ np s0 (fun p => get (s0 p)) (fun _ _ => rfl), e]
    rfl
  · intro p hp
    obtain ⟨out, h1, h2⟩ := h p hp
    unfold getRows
    rw [h2]
    simp only [List.headD_cons, List.map_map]
    have : List.map ((recLayout k m j pad).dec ∘ (recLayout k m j pad).enc) out = out := by
      conv => rhs; rw [← List.map_id out]
      apply List.map_congr_left
      intro r hr
      exact hL.dec r (arrived_fit hL rows hnp hfit hp r (h1.mem_iff.1 hr))
    rw [this]
    exact h1

theorem recTransfer_ok {σ : Type} (get : σ → TrState) (set : σ → TrState → σ) (np : Nat) (j : Fin m) (pad : Nat) (setSrc : Bool) : (recTransfer get set np (k := k) j pad setSrc).Ok np :=
  Coll.lift_ok _ _ (transferMany_ok _ _)

/-- rows for `p` when the destinations are in a separate array -/
def arrivedExt {ρ : Type} (np : Nat) (rows : Nat → List ρ) (dst : Nat → List Nat) (p : Nat) : List ρ :=
  (List.range np).flatMap fun q => (((rows q).zip (dst q)).filter fun x => x.2 = p).map Prod.fst

/-- the transfer of an array of structs with separate destinations -/
theorem recTransferExt_run {σ : Type} {get : σ → TrState} {set : σ → TrState → σ} (hl : Lens get set) {np : Nat} (j : Fin m) (pad : Nat)
    (rows : Nat → List (Rec k m)) (dst : Nat → List Nat) (s0 : Nat → σ) (hnp : np ≤ 4294967295) (hfit : ∀ q, q < np → ∀ r ∈ rows q, r.Fit) (hlen : ∀ q, q < np → (dst q).length = (rows q).length)
    (hdst : ∀ q, q < np → ∀ x ∈ dst q, x < np)
    (hs : ∀ q, q < np → (get (s0 q)).cols = [(rows q).map (recLayout k m j pad).enc]) (hp : ∀ q, q < np → (get (s0 q)).proc = dst q)
    (hsmall : (∑ q ∈ Finset.range np, (rows q).length) * ((8 * k + 4 * m + pad + 3) / 4 + 3) * 4 < Crystal.intMax) :
    ∃ (t : Nat → TrState), (recTransferExt get set np (k := k) j pad).run np s0 = .ok (fun p => if p < np then set (s0 p) (t p) else s0 p) ∧
      ∀ p, p < np → (getRows (recLayout k m j pad) (t p)).Perm (arrivedExt np rows dst p) := by
  have hm := j.isLt
  have hlenc : ∀ r : Rec k m, ((recLayout k m j pad).enc r).length = 8 * k + 4 * m + pad := fun r => by
    simp only [recLayout, List.length_append, flatten_ofFn_length _ (fun i => le8_length (r.d i)), flatten_ofFn_length (c := 4) _ (fun i => (rfl : (le4 (r.u i)).length = 4)), List.length_replicate]
  have hbytes : ∀ r : Rec k m, Bytes ((recLayout k m j pad).enc r) := fun r =>
    bytes_append (bytes_append (bytes_flatten _ fun _ => le8_bytes _) (bytes_flatten _ fun _ => le4_bytes _)) (by intro b hb; rw [List.eq_of_mem_replicate hb]; decide)
  have hdec : ∀ r : Rec k m, r.Fit → (recLayout k m j pad).dec ((recLayout k m j pad).enc r) = r := by
    intro r h
    ext i
    · simp only [recLayout, List.append_assoc]
      rw [flatten_ofFn_at _ (fun i => le8_length (r.d i)), unle_le8 _ (h.1 i)]
    · simp only [recLayout, List.append_assoc]
      rw [List.drop_append, List.drop_of_length_le (by rw [flatten_ofFn_length _ (fun i => le8_length (r.d i))]; omega), flatten_ofFn_length _ (fun i => le8_length (r.d i)), List.nil_append,
        Nat.add_sub_cancel_left, flatten_ofFn_at (c := 4) _ (fun i => rfl), unle_le4 _ (h.2 i)]
  have hrs : (⟨[8 * k + 4 * m + pad], false, true, false, 0, 4⟩ : Params).rowSize = (8 * k + 4 * m + pad + 3) / 4 := by simp [Params.rowSize, Params.off1]
  have hin : Inp np ⟨[8 * k + 4 * m + pad], false, true, false, 0, 4⟩ (fun p => get (s0 p)) (fun q => (rows q).map fun r => [(recLayout k m j pad).enc r]) dst := by
    refine ⟨⟨by simp, fun h => by simp at h, by rw [hrs]; omega⟩, ?_, hnp, ?_⟩
    · intro q hq
      refine ⟨?_, ?_, by rw [hlen q hq]; simp, fun _ => hp q hq, by simp, hdst q hq, fun _ => ?_⟩
      · rw [hs q hq]
        simp [colsOf, Function.comp_def]
      · intro r hr
        obtain ⟨x, hx, rfl⟩ := List.mem_map.1 hr
        refine ⟨by simp [hlenc], ?_⟩
        intro c hc
        rw [List.mem_singleton] at hc
        subst hc
        exact hbytes x
      · have h1 : (rows q).length ≤ ∑ q ∈ Finset.range np, (rows q).length := Finset.single_le_sum (f := fun q => (rows q).length) (fun _ _ => Nat.zero_le _) (Finset.mem_range.2 hq)
        have h2 : (∑ q ∈ Finset.range np, (rows q).length) * 1 * 4 ≤ (∑ q ∈ Finset.range np, (rows q).length) * ((8 * k + 4 * m + pad + 3) / 4 + 3) * 4 :=
          Nat.mul_le_mul_right _ (Nat.mul_le_mul_left _ (by omega))
        rw [List.length_map]
        have h3 : Crystal.intMax ≤ Crystal.uintRange := by decide
        show 4 * _ ≤ _
        omega
    · rw [hrs]; simpa using hsmall
  obtain ⟨sf, e, h⟩ := transferMany_run hin (fun hf => by simp at hf)
  refine ⟨sf, ?_, ?_⟩
  · unfold recTransferExt
    rw [Coll.lift_run hl _ np s0 (fun p => get (s0 p)) (fun _ _ => rfl)]
    have e' : (sarrayTransferExt np (recLayout k m j pad).size 4).run np (fun p => get (s0 p)) = .ok sf := e
    rw [e']
    rfl
  · intro p hp
    obtain ⟨out, h1, h2⟩ := h p hp
    have hr : received np (fun q => (rows q).map fun r => [(recLayout k m j pad).enc r]) dst (fun q => outRow ⟨[8 * k + 4 * m + pad], false, true, false, 0, 4⟩ q p) p
        = (arrivedExt np rows dst p).map fun r => [(recLayout k m j pad).enc r] := by
      unfold received arrivedExt
      rw [List.map_flatMap]
      apply List.flatMap_congr
      intro q hq
      rw [List.zip_map_left, List.filter_map, List.map_map, List.map_map]
      rfl
    rw [hr] at h1
    obtain ⟨l, hl1, hl2⟩ := perm_map_inv _ h1
    unfold getRows
    rw [h2, hl2]
    have : List.map ((recLayout k m j pad).dec ∘ (recLayout k m j pad).enc) l = l := by
      conv => rhs; rw [← List.map_id l]
      apply List.map_congr_left
      intro r hr
      refine hdec r ?_
      have := hl1.mem_iff.1 hr
      unfold arrivedExt at this
      simp only [List.mem_flatMap, List.mem_map, List.mem_filter, List.mem_range] at this
      obtain ⟨q, hq, x, ⟨hx, _⟩, rfl⟩ := this
      exact hfit q hq _ (List.of_mem_zip hx).1
    simp only [colsOf, List.length_cons, List.length_nil, List.map_map, Function.comp_def] at this ⊢
    simp only [List.range_one, List.map_cons, List.map_nil, List.headD_cons, List.map_map, Function.comp_def, zero_add]
    simpa [this] using hl1

theorem recTransferExt_ok {σ : Type} (get : σ → TrState) (set : σ → TrState → σ) (np : Nat) (j : Fin m) (pad : Nat) : (recTransferExt get set np (k := k) j pad).Ok np :=
  Coll.lift_ok _ _ (transferMany_ok _ _)

end Gslib.Gs
