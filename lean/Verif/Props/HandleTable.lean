import Verif.Lemmas.HandleTable
import Verif.Model.Fgs

/-! # C27, C28, C29: handle tables and the Fortran interface -/

namespace Gslib.Props
open Gslib Gslib.Spec Gslib.Tab Gslib.Fgs

variable {R : Type}

/-! ## C27 -/

/-- C27: in every history of nonblocking starts and waits for handles in use (fewer than 2^30 starts):
starting another operation never fails and returns a handle that is not in use; waiting for a handle in use
completes exactly the operation it was returned for; a handle is in use for one operation only; once no handle is in use the table is
released and in its initial state. -/
theorem nonblocking_handles {τ : List (TabObs R)} {t : Nb R} (H : NbHist τ t) (hn : numCreated τ < 1073741824) :
    (∀ r, ∃ h t', nbStart r t = .ok (h, t') ∧ ∀ r', ¬ Live τ h r') ∧
    (∀ h r, Live τ h r → ∃ t', nbWait h t = .ok (some r, t')) ∧
    (∀ h r r', Live τ h r → Live τ h r' → r = r') ∧
    (NoneLive τ → t = Nb.empty) := by
  have I := NbHist.inv H (by omega)
  refine ⟨fun r => ?_, fun h r hl => ?_, fun h r r' h1 h2 => ?_, fun hz => ?_⟩
  · obtain ⟨t', h1, -⟩ := nbStart_inv I r hn
    refine ⟨_, t', h1, fun r' hl => ?_⟩
    exact absurd (I.wf.obj_lt ((I.live _ _).mp hl)) (Nat.lt_irrefl _)
  · obtain ⟨t', h1, -⟩ := nbWait_inv I hl
    exact ⟨t', h1⟩
  · have h1 := (I.live _ _).mp h1
    have h2 := (I.live _ _).mp h2
    rw [h1] at h2; cases h2; rfl
  · have ho : objs t.tab = 0 := by
      rcases Nat.eq_zero_or_pos (objs t.tab) with h | h
      · exact h
      · obtain ⟨c, hc, hc2⟩ := List.countP_pos_iff.mp h
        obtain ⟨i, hi⟩ := List.mem_iff_getElem?.mp hc
        rcases c with _ | _ | r
        · cases hc2
        · cases hc2
        · exact absurd ((I.live i r).mpr hi) (hz i r)
    have hc : t.count = 0 := by rw [I.count, ho]; rfl
    have ht := I.zero hc
    rcases t with ⟨tt, c⟩
    subst ht; subst hc; rfl

/-- C27, beyond the claim: waiting twice for a handle while another operation is outstanding is undefined behaviour
(a null pointer is dereferenced, gs.c:1293-1302), as is waiting for a negative handle -/
theorem nonblocking_wait_unchecked : ∃ (τ : List (TabObs Nat)) (t : Nb Nat), NbHist τ t ∧ ¬ NoneLive τ ∧
    nbWait 0 t = .ub ∧ nbWait (-1) t = .ub := by
  refine ⟨[.created 0 7, .created 1 8, .done 0 7], ⟨⟨[.null, .obj 8], 2, 2⟩, 1⟩, ?_, ?_, by decide +kernel, by decide +kernel⟩
  · have h0 : NbHist ([] : List (TabObs Nat)) Nb.empty := .init
    have h1 := NbHist.start (t' := ⟨⟨[.obj 7], 1, 1⟩, 1⟩) 7 0 h0 (by decide +kernel)
    have h2 := NbHist.start (t' := ⟨⟨[.obj 7, .obj 8], 2, 2⟩, 2⟩) 8 1 h1 (by decide +kernel)
    have h3 := NbHist.wait (t' := ⟨⟨[.null, .obj 8], 2, 2⟩, 1⟩) 0 7 7 h2 (by unfold Live; decide +kernel) (by decide +kernel)
    exact h3
  · intro h; exact h 1 8 (by unfold Live; decide +kernel)

/-- a history with four operations, two waits in another order, and a reuse of the table -/
example : ∃ t, NbHist [.created 0 'a', .created 1 'b', .created 2 'c', .done 1 'b', .done 0 'a', .done 2 'c', .created 0 'd'] t := by
  have h0 : NbHist ([] : List (TabObs Char)) Nb.empty := .init
  have h1 := NbHist.start (t' := ⟨⟨[.obj 'a'], 1, 1⟩, 1⟩) 'a' 0 h0 (by decide +kernel)
  have h2 := NbHist.start (t' := ⟨⟨[.obj 'a', .obj 'b'], 2, 2⟩, 2⟩) 'b' 1 h1 (by decide +kernel)
  have h3 := NbHist.start (t' := ⟨⟨[.obj 'a', .obj 'b', .obj 'c', .unset], 3, 4⟩, 3⟩) 'c' 2 h2 (by decide +kernel)
  have h4 := NbHist.wait (t' := ⟨⟨[.obj 'a', .null, .obj 'c', .unset], 3, 4⟩, 2⟩) 1 'b' 'b' h3 (by unfold Live; decide +kernel) (by decide +kernel)
  have h5 := NbHist.wait (t' := ⟨⟨[.null, .null, .obj 'c', .unset], 3, 4⟩, 1⟩) 0 'a' 'a' h4 (by unfold Live; decide +kernel) (by decide +kernel)
  have h6 := NbHist.wait (t' := Nb.empty) 2 'c' 'c' h5 (by unfold Live; decide +kernel) (by decide +kernel)
  have h7 := NbHist.start (t' := ⟨⟨[.obj 'd'], 1, 1⟩, 1⟩) 'd' 0 h6 (by decide +kernel)
  exact ⟨_, h7⟩

/-! ## C28 -/

/-- C28, tables (gs, crystal router, findpts): in every history of set-up and free calls (fewer than 2^30 set-ups): set-up succeeds and returns a
handle that was never returned before; a handle in use gives exactly the object it was returned for; distinct handles in use belong to
distinct set-up calls; every other number, in particular a freed handle, is rejected -/
theorem fortran_handles {τ : List (TabObs R)} {t : Tab R} (H : FHist τ t) (hn : numCreated τ < 1073741824) :
    (∀ r, ∃ h t', put r t = .ok (h, t') ∧ ∀ r', TabObs.created h r' ∉ τ) ∧
    (∀ h r, Live τ h r → check (h : Int) t = .ok r ∧ ∃ t', Tab.free (h : Int) t = .ok (r, t')) ∧
    (∀ h r r', Live τ h r → Live τ h r' → r = r') ∧
    (∀ h : Int, (∀ (k : Nat) r, h = k → ¬ Live τ k r) → check h t = .abort ∧ Tab.free h t = .abort) := by
  have I := FHist.inv H (by omega)
  refine ⟨fun r => ?_, fun h r hl => ?_, fun h r r' h1 h2 => ?_, fun h hb => ?_⟩
  · obtain ⟨t', h1, -⟩ := fSetup_inv I r hn
    refine ⟨_, t', h1, fun r' hm => ?_⟩
    have := (I.used _).mp ⟨r', hm⟩
    rw [I.few] at this; exact absurd this (Nat.lt_irrefl _)
  · have hc := check_obj I.wf ((I.live _ _).mp hl)
    exact ⟨hc, _, by unfold Tab.free; rw [hc]; rfl⟩
  · have h1 := (I.live _ _).mp h1
    have h2 := (I.live _ _).mp h2
    rw [h1] at h2; cases h2; rfl
  · have hc : check h t = .abort := by
      apply check_bad I.wf
      intro r
      rcases Int.lt_or_le h 0 with h0 | h0
      · exact Or.inr h0
      · refine Or.inl fun hx => hb h.toNat r (by omega) ((I.live _ _).mpr hx)
    exact ⟨hc, by unfold Tab.free; rw [hc]; rfl⟩

/-- each handle is returned by one set-up call of the history only -/
theorem fortran_handles_distinct {τ : List (TabObs R)} {t : Tab R} (H : FHist τ t) (hn : numCreated τ ≤ 1073741824) :
    ((τ.filterMap fun o => match o with | .created h _ => some h | .done _ _ => none).Nodup) := by
  induction H with
  | init => exact List.nodup_nil
  | @setup τ t t' r h H hs ih =>
    rw [numCreated_created] at hn
    have I := FHist.inv H (by omega)
    obtain ⟨t'', h1, -⟩ := fSetup_inv I r (by omega)
    rw [h1] at hs; cases hs
    rw [List.filterMap_append, List.nodup_append]
    refine ⟨ih (by omega), by simp, ?_⟩
    intro a ha b hb
    simp only [List.filterMap_cons, List.filterMap_nil, List.mem_singleton] at hb
    rw [hb]
    obtain ⟨o, ho, ho2⟩ := List.mem_filterMap.mp ha
    rcases o with ⟨h', r'⟩ | _
    · cases ho2
      have := (I.used _).mp ⟨r', ho⟩
      rw [I.few] at this; omega
    · cases ho2
  | free h r H hs ih =>
    rw [numCreated_done] at hn
    simpa using ih hn

/-- C28, arguments: `gs_op` and its variants are performed exactly if the handle is in use, the datatype is in 1..3 and the operation in 1..4;
they then work on the object the handle was returned for, with datatype double, sint, slong for 1, 2, 3 and operation add, mul, min, max for
1, 2, 3, 4, transposed iff the flag is not zero. In all other cases the program is aborted with a message. -/
theorem fortran_gs_arguments {τ : List (TabObs R)} {t : Tab R} (H : FHist τ t) (hn : numCreated τ ≤ 1073741824) (c : Cfg)
    (h dom op transpose : Int) :
    (∀ (k : Nat) r, h = k → Live τ k r → ∀ d o, (dom, d) ∈ [((1 : Int), GDom.double), (2, c.sint.dom), (3, c.slong.dom)] →
      (op, o) ∈ [((1 : Int), Gs.Op.add), (2, .mul), (3, .min), (4, .max)] → fgs c h dom op transpose t = .ok ⟨r, d, o, decide (transpose ≠ 0)⟩) ∧
    ((dom < 1 ∨ 3 < dom ∨ op < 1 ∨ 4 < op ∨ ∀ (k : Nat) r, h = k → ¬ Live τ k r) → fgs c h dom op transpose t = .abort) := by
  have I := FHist.inv H hn
  constructor
  · intro k r hk hl d o hd ho
    subst hk
    have hc := check_obj I.wf ((I.live _ _).mp hl)
    have hd' : (1 ≤ dom ∧ dom ≤ 3) ∧ (fgsDom c)[dom.toNat]? = some d := by
      simp only [List.mem_cons, List.not_mem_nil, or_false, Prod.mk.injEq] at hd
      rcases hd with ⟨rfl, rfl⟩ | ⟨rfl, rfl⟩ | ⟨rfl, rfl⟩ <;> exact ⟨by omega, rfl⟩
    have ho' : (1 ≤ op ∧ op ≤ 4) ∧ opEnum[(op - 1).toNat]? = some o := by
      simp only [List.mem_cons, List.not_mem_nil, or_false, Prod.mk.injEq] at ho
      rcases ho with ⟨rfl, rfl⟩ | ⟨rfl, rfl⟩ | ⟨rfl, rfl⟩ | ⟨rfl, rfl⟩ <;> exact ⟨by omega, rfl⟩
    unfold fgs checkParms
    rw [if_neg (by omega), if_neg (by omega), hc]
    show Outcome.ofOption _ = _
    rw [hd'.2]
    show Outcome.ofOption ((opEnum[(op - 1).toNat]?).bind _) = _
    rw [ho'.2]; rfl
  · intro hb
    have : checkParms h dom op t = .abort := by
      unfold checkParms
      by_cases h1 : dom < 1 ∨ 3 < dom
      · rw [if_pos h1]
      · rw [if_neg h1]
        by_cases h2 : op < 1 ∨ 4 < op
        · rw [if_pos h2]
        · rw [if_neg h2]
          apply check_bad I.wf
          intro r
          rcases Int.lt_or_le h 0 with h0 | h0
          · exact Or.inr h0
          · have hb : ∀ (k : Nat) r, h = k → ¬ Live τ k r := by
              rcases hb with hb | hb | hb | hb | hb
              · omega
              · omega
              · omega
              · omega
              · exact hb
            exact Or.inl fun hx => hb h.toNat r (by omega) ((I.live _ _).mpr hx)
    unfold fgs; rw [this]; rfl

/-- a history with a freed handle and two in use; handle 1 is rejected, handle 2 is accepted -/
example : ∃ t, FHist [.created 0 'a', .created 1 'b', .done 1 'b', .created 2 'c'] t ∧ check 1 t = .abort ∧ check 2 t = .ok 'c' ∧
    fgs ⟨.int, .longLong⟩ 2 3 1 0 t = .ok ⟨'c', .longLong, .add, false⟩ := by
  have h0 : FHist ([] : List (TabObs Char)) Tab.empty := .init
  have h1 := FHist.setup (t' := ⟨[.obj 'a'], 1, 1⟩) 'a' 0 h0 (by decide +kernel)
  have h2 := FHist.setup (t' := ⟨[.obj 'a', .obj 'b'], 2, 2⟩) 'b' 1 h1 (by decide +kernel)
  have h3 := FHist.free (t' := ⟨[.obj 'a', .null], 2, 2⟩) 1 'b' h2 (by decide +kernel)
  have h4 := FHist.setup (t' := ⟨[.obj 'a', .null, .obj 'c', .unset], 3, 4⟩) 'c' 2 h3 (by decide +kernel)
  exact ⟨_, h4, by decide +kernel, by decide +kernel, by decide +kernel⟩

/-! ## C29 -/

theorem fieldPtrs_get (u off n j : Nat) (hj : j < n) : (fieldPtrs off u n)[j]? = some (u + j * off) := by
  induction n generalizing u j with
  | zero => omega
  | succ n ih =>
    rcases j with _ | j
    · simp [fieldPtrs]
    · simp only [fieldPtrs, List.getElem?_cons_succ]
      rw [ih _ _ (by omega), Nat.succ_mul]; congr 1; omega

theorem fieldPtrs_length (u off n : Nat) : (fieldPtrs off u n).length = n := by
  induction n generalizing u with
  | zero => rfl
  | succ n ih => simp [fieldPtrs, ih]

/-- C29 (partial: only where the C type of the data has the size of entry `dom-1` of the table of sizes, i.e. for double always, for sint if it is int,
for slong if it is int): `gs_op_fields` passes `n` arrays to `gs_many` such that element `i` of array `j` is at
`u + (j*stride+i)*size`, for the type of data it works on -/
theorem fields_addresses_partial {τ : List (TabObs R)} {t : Tab R} (H : FHist τ t) (hn : numCreated τ ≤ 1073741824) (c : Cfg)
    (k : Nat) (r : R) (hl : Live τ k r) (u : Nat) (stride n dom op transpose : Int) (h0 : 0 ≤ stride) (hs : stride < 536870912) (hn0 : 0 ≤ n)
    (hop : 1 ≤ op ∧ op ≤ 4) (hdom : dom = 1 ∨ (dom = 2 ∧ c.sint = .int) ∨ (dom = 3 ∧ c.slong = .int)) :
    ∃ ptrs call, fgsFields c k u stride n dom op transpose t = .ok (some (ptrs, call)) ∧
      fgs c k dom op transpose t = .ok call ∧ (ptrs.length : Int) = n ∧
      ∀ j i : Nat, (j : Int) < n → ∃ p, ptrs[j]? = some p ∧
        (elemAddr call.dom p i : Int) = u + (j * stride + i) * call.dom.size := by
  have I := FHist.inv H hn
  have hc := check_obj I.wf ((I.live _ _).mp hl)
  obtain ⟨d, hd, hsz⟩ : ∃ d, (fgsDom c)[dom.toNat]? = some d ∧ gsDomSize[(dom - 1).toNat]? = some d.size := by
    rcases hdom with rfl | ⟨rfl, h⟩ | ⟨rfl, h⟩
    · exact ⟨_, rfl, rfl⟩
    · exact ⟨_, rfl, by rw [h]; rfl⟩
    · exact ⟨_, rfl, by rw [h]; rfl⟩
  obtain ⟨o, ho⟩ : ∃ o, opEnum[(op - 1).toNat]? = some o := by
    have : op = 1 ∨ op = 2 ∨ op = 3 ∨ op = 4 := by omega
    rcases this with rfl | rfl | rfl | rfl <;> exact ⟨_, rfl⟩
  have hck : checkParms (k : Int) dom op t = .ok r := by
    unfold checkParms
    rw [if_neg (by omega), if_neg (by omega), hc]
  have hf : fgs c k dom op transpose t = .ok ⟨r, d, o, decide (transpose ≠ 0)⟩ := by
    unfold fgs
    rw [hck]
    show Outcome.ofOption _ = _
    rw [hd]
    show Outcome.ofOption ((opEnum[(op - 1).toNat]?).bind _) = _
    rw [ho]; rfl
  have hoff : (fieldOffset c stride d.size : Int) = stride * d.size := by
    have h8 : d.size = 4 ∨ d.size = 8 := by cases d <;> simp [GDom.size]
    unfold fieldOffset
    split <;> rcases h8 with h8 | h8 <;> rw [h8] <;> omega
  refine ⟨fieldPtrs (fieldOffset c stride d.size) u n.toNat, _, ?_, hf, ?_, ?_⟩
  · unfold fgsFields
    rw [hck]
    show (if n < 0 then _ else _) = _
    rw [if_neg (by omega), hsz, hf]; rfl
  · rw [fieldPtrs_length]; omega
  · intro j i hj
    refine ⟨_, fieldPtrs_get _ _ _ j (by omega), ?_⟩
    simp only [elemAddr]
    push_cast
    rw [hoff, Int.add_mul, Int.mul_assoc]
    omega

/-- C29 fails for slong if it is a 64-bit type: the fields are taken at half of the stride (`gs_dom_size[*dom-1]`, gs.c:1646, is `sizeof(int)` for
`dom=3`) -/
theorem fields_addresses_slong_wrong {τ : List (TabObs R)} {t : Tab R} (H : FHist τ t) (hn : numCreated τ ≤ 1073741824) (c : Cfg)
    (hi : c.sint = .int) (hl : c.slong ≠ .int) (k : Nat) (r : R) (hlive : Live τ k r) (u : Nat) (stride n op transpose : Int) (h0 : 0 < stride) (hs : stride < 536870912)
    (hn0 : 2 ≤ n) (hop : 1 ≤ op ∧ op ≤ 4) :
    ∃ (ptrs : List Nat) (call : Call R) (p : Nat), fgsFields c k u stride n 3 op transpose t = .ok (some (ptrs, call)) ∧ call.dom = c.slong.dom ∧ ptrs[1]? = some p ∧
      (p : Int) = u + 4 * stride ∧ (p : Int) ≠ u + stride * call.dom.size := by
  have I := FHist.inv H hn
  have hc := check_obj I.wf ((I.live _ _).mp hlive)
  obtain ⟨o, ho⟩ : ∃ o, opEnum[(op - 1).toNat]? = some o := by
    have : op = 1 ∨ op = 2 ∨ op = 3 ∨ op = 4 := by omega
    rcases this with rfl | rfl | rfl | rfl <;> exact ⟨_, rfl⟩
  have hck : checkParms (k : Int) 3 op t = .ok r := by
    unfold checkParms
    rw [if_neg (by omega), if_neg (by omega), hc]
  have hf : fgs c k 3 op transpose t = .ok ⟨r, c.slong.dom, o, decide (transpose ≠ 0)⟩ := by
    unfold fgs
    rw [hck]
    show Outcome.ofOption ((opEnum[(op - 1).toNat]?).bind _) = _
    rw [ho]; rfl
  have hoff : (fieldOffset c stride 4 : Int) = stride * 4 := by
    unfold fieldOffset
    rw [if_pos hi]; omega
  refine ⟨fieldPtrs (fieldOffset c stride 4) u n.toNat, ⟨r, c.slong.dom, o, decide (transpose ≠ 0)⟩, _, ?_, rfl, fieldPtrs_get u (fieldOffset c stride 4) n.toNat 1 (by omega), ?_, ?_⟩
  · unfold fgsFields
    rw [hck]
    show (if n < 0 then _ else _) = _
    rw [if_neg (by omega), hf]; rfl
  · push_cast; rw [hoff]; omega
  · push_cast
    rw [hoff]
    have : c.slong.dom.size = 8 := by
      rcases c with ⟨a, b⟩
      cases b
      · exact absurd rfl hl
      · rfl
      · rfl
    show (u : Int) + 1 * (stride * 4) ≠ u + stride * (c.slong.dom.size : Nat)
    rw [this]; omega

/-- a negative stride is not taken as such: the offset is computed in unsigned 32-bit arithmetic (gs.c:1646) -/
theorem fields_negative_stride : fgsFields (R := Char) ⟨.int, .int⟩ 0 1000 (-1) 2 1 1 0 ⟨[.obj 'a'], 1, 1⟩ =
    .ok (some ([1000, 1000 + 4294967288], ⟨'a', .double, .add, false⟩)) := by decide +kernel

/-- three fields of doubles, 10 apart -/
example : fgsFields (R := Char) ⟨.int, .longLong⟩ 0 1000 10 3 1 1 0 ⟨[.obj 'a'], 1, 1⟩ =
    .ok (some ([1000, 1080, 1160], ⟨'a', .double, .add, false⟩)) := by decide +kernel

/-- the same with slong = long long: 40 bytes apart instead of 80 -/
example : fgsFields (R := Char) ⟨.int, .longLong⟩ 0 1000 10 3 3 1 0 ⟨[.obj 'a'], 1, 1⟩ =
    .ok (some ([1000, 1040, 1080], ⟨'a', .longLong, .add, false⟩)) := by decide +kernel

end Gslib.Props
