import Verif.Lemmas.TransferUnpack
import Verif.Lemmas.Coll
import Verif.Spec.Transfer
import Verif.Spec.TransferInput
import Verif.Props.Sort

namespace Gslib.Transfer
open Gslib Gslib.Crystal Gslib.Spec Gslib.Mpi Gslib.Sorting

/-! ## decoding a slot -/

/-- split a byte string -/
def splits : Nat → List Nat → List Nat → List (List Nat)
  | _, [], _ => []
  | off, z :: zs, b => (b.drop off).take z :: splits (off + z) zs b

theorem splits_length : ∀ (zs : List Nat) (off : Nat) (b : List Nat), (splits off zs b).length = zs.length
  | [], _, _ => rfl
  | z :: zs, off, b => by simp [splits, splits_length zs]

theorem take_drop_of_take {b x y : List Nat} {off z t : Nat} (h : b.take t = x ++ y) (hx : x.length = off) (hz : z ≤ y.length) :
    (b.drop off).take z = y.take z := by
  have h1 : off + z ≤ t := by
    have := congrArg List.length h
    simp at this; omega
  have : (b.take t).drop off = y := by rw [h, ← hx, List.drop_left]
  rw [List.drop_take] at this
  rw [← this, List.take_take, min_eq_left (by omega)]

theorem splits_eq : ∀ (cs : List (List Nat)) (zs : List Nat) (off t : Nat) (b pre : List Nat), cs.map List.length = zs →
    pre.length = off → b.take t = pre ++ cs.flatten → splits off zs b = cs
  | [], zs, off, t, b, pre, h, _, _ => by simp at h; subst h; rfl
  | c :: cs, zs, off, t, b, pre, h, hp, hb => by
    match zs, h with
    | z :: zs, h =>
      simp only [List.map_cons, List.cons.injEq] at h
      rw [splits, take_drop_of_take hb hp (by simp; omega)]
      have := splits_eq cs zs (off + z) t b (pre ++ c) h.2 (by simp; omega) (by rw [hb]; simp)
      rw [this]
      congr 1
      rw [List.flatten_cons, List.take_append_of_le_length (by omega), ← h.1, List.take_length]

/-- the row recorded in a slot of a message from `src` to `tgt` -/
def decRow (P : Params) (src tgt : Nat) (s : List Nat) : Row :=
  (if P.ext then (bytesOf s).take (P.sizes.headD 0)
   else (bytesOf s).take P.pOff ++ le4 (if P.setSrc then src else tgt) ++ ((bytesOf s).drop P.pOff).take (P.sizes.headD 0 - (P.pOff + 4))) ::
  splits P.off1 P.sizes.tail (bytesOf s)

/-- the packed bytes of a row -/
def packedRow (P : Params) (r : Row) : List Nat :=
  (if P.ext then r.getD 0 [] else (r.getD 0 []).take P.pOff ++ (r.getD 0 []).drop (P.pOff + 4)) ++ r.tail.flatten

theorem row_bytes (P : Params) : P.off1 + P.sizes.tail.sum ≤ 4 * P.rowSize := by
  unfold Params.rowSize; omega

theorem decRow_eq {P : Params} (hw : Wf P) (src tgt : Nat) (r : Row) (hr : r.map List.length = P.sizes) (s : List Nat)
    (hs : (bytesOf s).take (P.off1 + P.sizes.tail.sum) = packedRow P r) : decRow P src tgt s = outRow P src tgt r := by
  match r, hr with
  | [], hr => exact absurd hr.symm (by simpa using hw.ne)
  | c :: cs, hr =>
    have e0 : P.sizes = c.length :: cs.map List.length := by rw [← hr]; rfl
    have eh : P.sizes.headD 0 = c.length := by rw [e0]; rfl
    have et : P.sizes.tail = cs.map List.length := by rw [e0]; rfl
    unfold packedRow at hs
    unfold decRow outRow
    simp only [List.getD_cons_zero, List.tail_cons] at hs
    by_cases hx : P.ext = true
    · simp only [hx, if_true] at hs ⊢
      have ho : P.off1 = c.length := by unfold Params.off1; rw [if_pos hx, eh]
      have h1 := take_drop_of_take (x := []) (off := 0) (z := c.length) hs rfl (by simp)
      have h2 := splits_eq cs P.sizes.tail P.off1 _ _ c et.symm ho.symm hs
      rw [h2, eh]
      congr 1
      simpa using h1
    · have hx' : P.ext = false := by simpa using hx
      have hf := hw.field hx'
      rw [eh] at hf
      simp only [hx', Bool.false_eq_true, if_false] at hs ⊢
      have ho : P.off1 = c.length - 4 := by unfold Params.off1; rw [if_neg hx, eh]
      have h0 : (c.take P.pOff).length = P.pOff := by simp; omega
      have h1 := take_drop_of_take (x := []) (y := c.take P.pOff ++ c.drop (P.pOff + 4) ++ cs.flatten) (off := 0) (z := P.pOff) (by simpa using hs) rfl (by simp; omega)
      have h3 := take_drop_of_take (x := c.take P.pOff) (y := c.drop (P.pOff + 4) ++ cs.flatten) (off := P.pOff) (z := c.length - (P.pOff + 4)) (by simpa using hs) h0 (by simp)
      have h2 := splits_eq cs P.sizes.tail P.off1 _ _ (c.take P.pOff ++ c.drop (P.pOff + 4)) et.symm (by simp; omega) hs
      rw [h2, eh]
      unfold setProcField
      simp only [List.getD_cons_zero, List.tail_cons]
      congr 1
      have h1' : (bytesOf s).take P.pOff = c.take P.pOff := by
        rw [List.drop_zero] at h1
        rw [h1, List.append_assoc, List.take_append_of_le_length (by omega), List.take_of_length_le (by omega)]
      have h3' : ((bytesOf s).drop P.pOff).take (c.length - (P.pOff + 4)) = c.drop (P.pOff + 4) := by
        rw [h3, List.take_append_of_le_length (by simp), List.take_of_length_le (by simp)]
      rw [h1', h3']
      rfl

/-! ## rows of an array -/

theorem colsOf_succ (n : Nat) (R : List Row) : colsOf (n + 1) R = (R.map fun r => r.getD 0 []) :: colsOf n (R.map List.tail) := by
  unfold colsOf
  rw [List.range_succ_eq_map, List.map_cons, List.map_map]
  congr 1
  apply List.map_congr_left
  intro j _
  simp only [Function.comp, List.map_map]
  apply List.map_congr_left
  intro r _
  cases r <;> simp

theorem colsOf_zip_arrOk (N : Nat) : ∀ (zs : List Nat) (R : List Row), (∀ r ∈ R, r.map List.length = zs ∧ ∀ c ∈ r, Bytes c) →
    (∀ z ∈ zs, ∀ i, i < R.length → z * i < uintRange) →
    ∀ x ∈ (colsOf zs.length R).zip zs, ∀ i, i < R.length → ArrOk x.2 x.1 i
  | [], R, _, _ => by simp [colsOf]
  | z :: zs, R, h, hz => by
    intro x hx i hi
    rw [List.length_cons, colsOf_succ, List.zip_cons_cons, List.mem_cons] at hx
    rcases hx with rfl | hx
    · simp only
      refine ⟨hz z (by simp) i hi, by simpa using hi, ?_⟩
      have hr := h R[i] (List.getElem_mem hi)
      have e : (R.map fun r => r.getD 0 []).getD i [] = R[i].getD 0 [] := by
        rw [List.getD_eq_getElem?_getD, List.getElem?_map, List.getElem?_eq_getElem hi]; rfl
      rw [e]
      generalize R[i] = r at hr
      match r, hr with
      | c :: cs, hr =>
        simp only [List.map_cons, List.cons.injEq] at hr
        exact ⟨hr.1.1, hr.2 c (by simp)⟩
    · refine colsOf_zip_arrOk N zs (R.map List.tail) ?_ (fun z' hz' i hi => hz z' (by simp [hz']) i (by simpa using hi)) x hx i (by simpa using hi)
      intro r hr
      obtain ⟨r', hr', rfl⟩ := List.mem_map.1 hr
      have := h r' hr'
      match r', this with
      | c :: cs, this =>
        simp only [List.map_cons, List.cons.injEq] at this
        exact ⟨this.1.2, fun c' hc' => this.2 c' (by simp [List.tail] at hc'; simp [hc'])⟩

theorem colsOf_flatMap_getD : ∀ (zs : List Nat) (R : List Row), (∀ r ∈ R, r.map List.length = zs) → ∀ (i : Nat) (hi : i < R.length),
    (colsOf zs.length R).flatMap (fun A => A.getD i []) = R[i].flatten
  | [], R, h, i, hi => by
    have := h R[i] (List.getElem_mem hi)
    simp at this
    simp [colsOf, this]
  | z :: zs, R, h, i, hi => by
    rw [List.length_cons, colsOf_succ, List.flatMap_cons]
    have ih := colsOf_flatMap_getD zs (R.map List.tail) (by
      intro r hr
      obtain ⟨r', hr', rfl⟩ := List.mem_map.1 hr
      have := h r' hr'
      match r', this with
      | c :: cs, this =>
        simp only [List.map_cons, List.cons.injEq] at this
        exact this.2) i (by simpa using hi)
    rw [ih]
    have e : (R.map fun r => r.getD 0 []).getD i [] = R[i].getD 0 [] := by
      rw [List.getD_eq_getElem?_getD, List.getElem?_map, List.getElem?_eq_getElem hi]; rfl
    rw [e, List.getElem_map]
    have := h R[i] (List.getElem_mem hi)
    generalize R[i] = r at this
    match r, this with
    | c :: cs, this => rfl

theorem forall₂_imp_mem {α β : Type} {R R' : α → β → Prop} : ∀ {a : List α} {b : List β},
    List.Forall₂ R a b → (∀ x ∈ a, ∀ y ∈ b, R x y → R' x y) → List.Forall₂ R' a b
  | _, _, .nil, _ => .nil
  | x :: a, y :: b, .cons h t, hh =>
    .cons (hh x (by simp) y (by simp) h) (forall₂_imp_mem t fun x hx y hy => hh x (by simp [hx]) y (by simp [hy]))

/-! ## the packing phase -/

theorem unle_eq_leVal (bs : List Nat) : unle bs = leVal bs := by
  induction bs with
  | nil => rfl
  | cons b bs ih => simp only [unle, leVal, List.foldr_cons] at *; rw [ih]

theorem packAll_spec {np : Nat} {P : Params} {s : TrState} {R : List Row} {D : List Nat} (hw : Wf P) (hs : StOk np P s R D) (id : Nat)
    (hid : id < np) (hnp : np ≤ 4294967295) (hn : R.length * (P.rowSize + 3) * 4 < intMax) :
    ∃ (gs : List G) (perm : List Nat), packAll P id s = .ok { s with cr := { s.cr with data := flat (gs.map G.msg) } } ∧
      perm.Perm (List.range R.length) ∧ (∀ g ∈ gs, (g.src = id ∧ g.tgt < np) ∧ g.Ok P.rowSize) ∧
      (flat (gs.map G.msg)).length ≤ R.length * (P.rowSize + 3) ∧
      List.Forall₂ (fun i (r : Nat × List Nat) => r.1 = D.getD i 0 ∧
        (bytesOf r.2).take (P.off1 + P.sizes.tail.sum) = packedRow P (R.getD i [])) perm (recs gs) := by
  obtain ⟨z, zs, hz⟩ : ∃ z zs, P.sizes = z :: zs := by
    cases h : P.sizes with
    | nil => exact absurd h hw.ne
    | cons z zs => exact ⟨z, zs, rfl⟩
  have hhd : P.sizes.headD 0 = z := by rw [hz]; rfl
  have htl : P.sizes.tail = zs := by rw [hz]; rfl
  have hcols : s.cols = (R.map fun r => r.getD 0 []) :: colsOf zs.length (R.map List.tail) := by
    rw [hs.cols, hz, List.length_cons, colsOf_succ]
  set A := R.map fun r => r.getD 0 [] with hA
  have hAl : A.length = R.length := by simp [hA]
  -- the keys
  have hrow0 : ∀ i (hi : i < R.length), A.getD i [] = R[i].getD 0 [] ∧ (R[i].getD 0 []).length = z ∧ Bytes (R[i].getD 0 []) ∧ R[i].tail.map List.length = zs := by
    intro i hi
    refine ⟨by rw [hA, List.getD_eq_getElem?_getD, List.getElem?_map, List.getElem?_eq_getElem hi]; rfl, ?_⟩
    have hr := hs.rows R[i] (List.getElem_mem hi)
    rw [hz] at hr
    generalize R[i] = r at hr
    match r, hr with
    | c :: cs, hr =>
      simp only [List.map_cons, List.cons.injEq] at hr
      exact ⟨hr.1.1, hr.2 c (by simp), hr.1.2⟩
  have hkeys : keysOf P s = some D := by
    have hk : keysOf P s = if P.ext then (if s.proc.length = A.length then some s.proc else none)
        else A.mapM fun row => getPInt P.pOff 0 row := by
      unfold keysOf; rw [hcols]; rfl
    rw [hk]
    by_cases hx : P.ext = true
    · rw [if_pos hx, if_pos (by rw [hs.dext hx, hs.dlen, hAl]), hs.dext hx]
    · have hx' : P.ext = false := by simpa using hx
      rw [if_neg hx]
      rw [mapM_eq_map (g := fun row => unle ((row.drop P.pOff).take 4))]
      · rw [hs.dint hx', hA, List.map_map]
        congr 1
        apply List.map_congr_left
        intro r _
        simp [procField, unle_eq_leVal]
      · intro row hrow
        obtain ⟨i, hi, rfl⟩ := List.mem_iff_getElem.1 hrow
        rw [hAl] at hi
        have := hrow0 i hi
        have e : A[i] = A.getD i [] := by rw [List.getD_eq_getElem?_getD, List.getElem?_eq_getElem (by omega)]; rfl
        unfold getPInt
        rw [if_pos]
        have := hw.field hx'
        rw [e, (hrow0 i hi).1, (hrow0 i hi).2.1]; omega
  obtain ⟨perm, hperm, hst⟩ := Props.sortp_stable 4 D s.scratch (by
    intro d hd; have := hs.dest d hd; omega)
  have hpp : perm.Perm (List.range R.length) := by rw [← hs.dlen]; exact hst.perm
  have hmem : ∀ i ∈ perm, i < R.length := fun i hi => List.mem_range.1 (hpp.mem_iff.1 hi)
  have hrb := row_bytes P
  rw [htl] at hrb
  -- sizes
  have hoff : P.off1 = if P.ext then z else z - 4 := by unfold Params.off1; rw [hhd]
  have hsz : ∀ y ∈ P.sizes, y ≤ 4 * P.rowSize + 4 := by
    intro y hy
    rw [hz, List.mem_cons] at hy
    rcases hy with rfl | hy
    · split at hoff <;> omega
    · have := List.le_sum_of_mem hy; omega
  have hmul : ∀ y ∈ P.sizes, ∀ i, i < R.length → y * i < uintRange := by
    intro y hy i hi
    have h1 := hsz y hy
    have h2 : y * i ≤ (4 * P.rowSize + 4) * R.length := Nat.mul_le_mul h1 (by omega)
    have h3 : (4 * P.rowSize + 4) * R.length ≤ R.length * (P.rowSize + 3) * 4 := by
      have : R.length * (P.rowSize + 3) * 4 = (4 * P.rowSize + 12) * R.length := by ring
      rw [this]; exact Nat.mul_le_mul_right _ (by omega)
    unfold uintRange intMax at *; omega
  have hArr0 : ∀ i, i < R.length → ArrOk z A i := by
    intro i hi
    obtain ⟨h1, h2, h3, _⟩ := hrow0 i hi
    exact ⟨hmul z (by rw [hz]; simp) i hi, by rw [hAl]; exact hi, by rw [h1]; exact h2, by rw [h1]; exact h3⟩
  -- first array
  have hbody : ∃ gs : List G, (if P.ext then packBody P.rowSize id A z (getPExt s.proc P.stride) copyRowExt perm s.junk
        else packBody P.rowSize id A z (getPInt P.pOff) (copyRowInt z P.pOff) perm s.junk) = some (flat (gs.map G.msg)) ∧
      (∀ g ∈ gs, (g.src = id ∧ g.tgt < np) ∧ g.Ok P.rowSize) ∧
      List.Forall₂ (Packed P.off1 (fun i => D.getD i 0)
        (fun i => if P.ext then A.getD i [] else (A.getD i []).take P.pOff ++ (A.getD i []).drop (P.pOff + 4))) perm (recs gs) ∧
      W32 (flat (gs.map G.msg)) ∧ (flat (gs.map G.msg)).length ≤ A.length * (P.rowSize + 3) := by
    have hkey : ∀ i, i < R.length → D.getD i 0 < 4294967295 ∧ D.getD i 0 < np := by
      intro i hi
      have : D.getD i 0 < np := by
        apply hs.dest
        rw [List.getD_eq_getElem?_getD, List.getElem?_eq_getElem (by rw [hs.dlen]; exact hi)]
        exact List.getElem_mem _
      omega
    by_cases hx : P.ext = true
    · simp only [hx, if_true] at hoff ⊢
      apply packBody_spec (by unfold uintRange; omega) s.junk perm (by rw [hpp.length_eq]; simp [hAl])
      · intro i hi
        have hi' := hmem i hi
        have h0 := hArr0 i hi'
        refine ⟨A.getD i [], rowAt_ok h0, ?_, hkey i hi', ?_⟩
        · unfold getPExt
          rw [if_pos, hs.dext hx, List.getElem?_eq_getElem (by rw [hs.dlen]; exact hi')]
          · simp only [List.getD_eq_getElem?_getD]
            rw [List.getElem?_eq_getElem (by rw [hs.dlen]; exact hi')]; rfl
          · have := hs.stride hx
            by_cases c : P.stride = 0
            · rw [c]; unfold uintRange; omega
            · have : P.stride * i < P.stride * R.length := Nat.mul_lt_mul_of_pos_left hi' (by omega)
              omega
        · rw [hoff]
          exact copyOk_ext h0.2.2.1 h0.2.2.2 (by omega)
      · rw [hAl]; unfold uintRange intMax at *; omega
    · have hx' : P.ext = false := by simpa using hx
      simp only [hx', Bool.false_eq_true, if_false] at hoff ⊢
      have hf := hw.field hx'
      rw [hhd] at hf
      apply packBody_spec (by unfold uintRange; omega) s.junk perm (by rw [hpp.length_eq]; simp [hAl])
      · intro i hi
        have hi' := hmem i hi
        have h0 := hArr0 i hi'
        refine ⟨A.getD i [], rowAt_ok h0, ?_, hkey i hi', ?_⟩
        · unfold getPInt
          rw [if_pos (by rw [h0.2.2.1]; exact hf), hs.dint hx', (hrow0 i hi').1]
          have e : ∀ d, (R.map (procField P.pOff)).getD i d = procField P.pOff R[i] := by
            intro d
            rw [List.getD_eq_getElem?_getD, List.getElem?_map, List.getElem?_eq_getElem hi']; rfl
          simp only [e, procField, unle_eq_leVal]
        · rw [hoff]
          exact copyOk_int h0.2.2.1 h0.2.2.2 hf (by omega)
      · rw [hAl]; unfold uintRange intMax at *; omega
  obtain ⟨gs, e1, g1, g2, g3, g4⟩ := hbody
  have hzr : ∀ x ∈ (colsOf zs.length (R.map List.tail)).zip zs, ∀ i ∈ perm, ArrOk x.2 x.1 i := by
    intro x hx i hi
    apply colsOf_zip_arrOk 0 zs (R.map List.tail) ?_ ?_ x hx i (by simpa using hmem i hi)
    · intro r hr
      obtain ⟨r', hr', rfl⟩ := List.mem_map.1 hr
      have := hs.rows r' hr'
      rw [hz] at this
      match r', this with
      | c :: cs, this =>
        simp only [List.map_cons, List.cons.injEq] at this
        exact ⟨this.1.2, fun c' hc' => this.2 c' (by simp [List.tail] at hc'; simp [hc'])⟩
    · intro y hy i hi
      exact hmul y (by rw [hz]; simp [hy]) i (by simpa using hi)
  obtain ⟨gs', e2, k1, k2, k3, k4⟩ := packRest_spec perm hw.row (colsOf zs.length (R.map List.tail)) zs P.off1 gs _ (by simp [colsOf]) hrb hzr g1 g3 g2
  refine ⟨gs', perm, ?_, hpp, k1, by rw [k4, ← hAl]; exact g4, ?_⟩
  · have hcr : packAll P id s = (Outcome.ofOption (keysOf P s)).bind fun keys =>
        (sortpInt 4 none keys s.scratch).bind fun perm =>
        Outcome.ofOption (do
          let data ← (if P.ext then packBody P.rowSize id A z (getPExt s.proc P.stride) copyRowExt perm s.junk
            else packBody P.rowSize id A z (getPInt P.pOff) (copyRowInt z P.pOff) perm s.junk)
          let data ← packRest P.rowSize perm P.off1 (colsOf zs.length (R.map List.tail)) zs data
          some { s with cr := { s.cr with data := data } }) := by
      unfold packAll
      split
      · rename_i A' As' z' zs' q1 q2
        rw [hcols] at q1
        rw [hz] at q2
        cases q1; cases q2; rfl
      · rename_i q
        exact (q _ _ _ _ hcols hz).elim
    rw [hcr, hkeys]
    simp only [Outcome.ofOption, Outcome.bind, hperm]
    simp only [e1, e2, bind, Option.bind]
  · rw [htl]
    have hlen := k3.length_eq
    apply forall₂_imp_mem k3
    intro i hi r _ h
    have hi' := hmem i hi
    refine ⟨h.1, ?_⟩
    rw [h.2]
    have hc := colsOf_flatMap_getD zs (R.map List.tail) (by
      intro r hr
      obtain ⟨j, hj, rfl⟩ := List.mem_iff_getElem.1 hr
      rw [List.getElem_map]
      exact (hrow0 j (by simpa using hj)).2.2.2) i (by simpa using hi')
    beta_reduce
    rw [hc, List.getElem_map]
    unfold packedRow
    have e : R.getD i [] = R[i] := by rw [List.getD_eq_getElem?_getD, List.getElem?_eq_getElem hi']; rfl
    rw [e, (hrow0 i hi').1]

end Gslib.Transfer
