import Verif.Spec.HandleTable
import Mathlib.Data.List.GetD
import Mathlib.Data.List.Count

/-! # Invariants of handle tables -/

namespace Gslib.Tab
open Gslib Gslib.Spec

variable {R : Type}

theorem live_created {τ : List (TabObs R)} {h h' : Nat} {r r' : R} :
    Live (τ ++ [.created h r]) h' r' ↔ Live τ h' r' ∨ (h' = h ∧ r' = r) := by
  unfold Live; simp [inUse]

theorem live_done {τ : List (TabObs R)} {h h' : Nat} {r r' : R} :
    Live (τ ++ [.done h r]) h' r' ↔ Live τ h' r' ∧ h' ≠ h := by
  unfold Live; simp [inUse]

theorem numCreated_created (τ : List (TabObs R)) (h : Nat) (r : R) : numCreated (τ ++ [.created h r]) = numCreated τ + 1 := by
  simp [numCreated]

theorem numCreated_done (τ : List (TabObs R)) (h : Nat) (r : R) : numCreated (τ ++ [.done h r]) = numCreated τ := by
  simp [numCreated]

/-- the table is well-formed: `n` elements of a block of `max` are determined -/
structure Wf (t : Tab R) : Prop where
  len : t.cells.length = t.max
  le : t.n ≤ t.max
  set : ∀ i : Nat, i < t.n → t.cells[i]? ≠ some .unset
  unset : ∀ i : Nat, t.n ≤ i → i < t.max → t.cells[i]? = some .unset
  cap : t.max ≤ t.n + t.n / 2 + 1

theorem wf_empty : Wf (Tab.empty : Tab R) := ⟨rfl, Nat.le_refl _, by simp [empty], by simp [empty], by simp [empty]⟩

/-- elements of a well-formed table -/
theorem Wf.obj_lt {t : Tab R} (w : Wf t) {i : Nat} {r : R} (h : t.cells[i]? = some (.obj r)) : i < t.n := by
  rcases Nat.lt_or_ge i t.n with hi | hi
  · exact hi
  · rcases Nat.lt_or_ge i t.max with h2 | h2
    · rw [w.unset i hi h2] at h; cases h
    · rw [List.getElem?_eq_none (by rw [w.len]; exact h2)] at h; cases h

/-- whether an element points to an object -/
def isObj : Cell R → Bool
  | .obj _ => true
  | _ => false

/-- number of objects in a table -/
def objs (t : Tab R) : Nat := t.cells.countP isObj

theorem put_ok (r : R) {t : Tab R} (w : Wf t) (hn : t.n < 1073741824) :
    ∃ t', put r t = .ok (t.n, t') ∧ Wf t' ∧ t'.n = t.n + 1 ∧ objs t' = objs t + 1 ∧
      t'.cells[t.n]? = some (.obj r) ∧
      ∀ i : Nat, i ≠ t.n → ∀ r', t'.cells[i]? = some (.obj r') ↔ t.cells[i]? = some (.obj r') := by
  obtain ⟨t1, hg, w1, hlt, hn1, ho, hc⟩ : ∃ t1 : Tab R, grow t = .ok t1 ∧ Wf t1 ∧ t1.n < t1.max ∧ t1.n = t.n ∧ objs t1 = objs t ∧
      ∀ i : Nat, ∀ r', t1.cells[i]? = some (.obj r') ↔ t.cells[i]? = some (.obj r') := by
    by_cases h : t.n = t.max
    · have hb : t.max + (t.max / 2 + 1) ≤ intMax := by unfold intMax; omega
      refine ⟨_, (if_pos h).trans (if_pos hb), ⟨?_, ?_, ?_, ?_, ?_⟩, ?_, rfl, ?_, ?_⟩
      · simp only [List.length_append, List.length_replicate, w.len]; omega
      · show t.n ≤ t.max + (t.max / 2 + 1); omega
      · intro i hi
        have hi : i < t.n := hi
        show (t.cells ++ _)[i]? ≠ _
        rw [List.getElem?_append_left (by rw [w.len]; omega)]; exact w.set i hi
      · intro i hi hi2
        have hi : t.n ≤ i := hi
        have hi2 : i < t.max + (t.max / 2 + 1) := hi2
        show (t.cells ++ _)[i]? = _
        rw [List.getElem?_append_right (by rw [w.len]; omega), List.getElem?_replicate, if_pos (by rw [w.len]; omega)]
      · show t.max + (t.max / 2 + 1) ≤ t.n + t.n / 2 + 1; omega
      · show t.n < t.max + (t.max / 2 + 1); omega
      · simp [objs, List.countP_append, List.countP_replicate, isObj]
      · intro i r'
        show (t.cells ++ _)[i]? = _ ↔ _
        rcases Nat.lt_or_ge i t.cells.length with h2 | h2
        · rw [List.getElem?_append_left h2]
        · rw [List.getElem?_append_right h2, List.getElem?_replicate, List.getElem?_eq_none h2]
          split <;> simp
    · exact ⟨t, if_neg h, w, by have := w.le; omega, rfl, rfl, fun _ _ => Iff.rfl⟩
  have hl : t1.n < t1.cells.length := by rw [w1.len]; exact hlt
  have hu : t1.cells[t1.n]? = some .unset := w1.unset _ (Nat.le_refl _) hlt
  refine ⟨⟨t1.cells.set t1.n (.obj r), t1.n + 1, t1.max⟩, ?_, ⟨?_, ?_, ?_, ?_, ?_⟩, by simp [hn1], ?_, ?_, ?_⟩
  · rw [← hn1]; unfold put; rw [hg]; exact if_pos hl
  · show (t1.cells.set _ _).length = _; rw [List.length_set]; exact w1.len
  · exact hlt
  · intro i hi
    show (t1.cells.set _ _)[i]? ≠ _
    have hi : i < t1.n + 1 := hi
    by_cases h2 : i = t1.n
    · subst h2; rw [List.getElem?_set_self hl]; simp
    · rw [List.getElem?_set_ne (Ne.symm h2)]; exact w1.set i (by omega)
  · intro i hi hi2
    show (t1.cells.set _ _)[i]? = _
    have hi : t1.n + 1 ≤ i := hi
    rw [List.getElem?_set_ne (by omega)]; exact w1.unset i (by omega) hi2
  · show t1.max ≤ t1.n + 1 + (t1.n + 1) / 2 + 1
    have := w1.cap; omega
  · show (t1.cells.set _ _).countP isObj = _
    rw [List.countP_set hl]
    have : t1.cells[t1.n] = .unset := by rw [List.getElem?_eq_getElem hl] at hu; exact Option.some.inj hu
    rw [this]; simp [isObj]; rw [← ho]; rfl
  · show (t1.cells.set _ _)[t.n]? = _
    rw [← hn1, List.getElem?_set_self hl]
  · intro i hi r'
    show (t1.cells.set _ _)[i]? = _ ↔ _
    rw [List.getElem?_set_ne (by omega)]; exact hc i r'

/-- storing a null pointer in place of an object -/
theorem setNull {t : Tab R} (w : Wf t) {h : Nat} {r : R} (hr : t.cells[h]? = some (.obj r)) :
    Wf (⟨t.cells.set h .null, t.n, t.max⟩ : Tab R) ∧ objs (⟨t.cells.set h .null, t.n, t.max⟩ : Tab R) + 1 = objs t ∧
      ∀ i : Nat, ∀ r', (t.cells.set h .null)[i]? = some (.obj r') ↔ t.cells[i]? = some (.obj r') ∧ i ≠ h := by
  have hl : h < t.cells.length := by
    rcases Nat.lt_or_ge h t.cells.length with h2 | h2
    · exact h2
    · rw [List.getElem?_eq_none h2] at hr; cases hr
  have hlt := w.obj_lt hr
  refine ⟨⟨?_, w.le, ?_, ?_, w.cap⟩, ?_, ?_⟩
  · show (t.cells.set _ _).length = _; rw [List.length_set]; exact w.len
  · intro i hi
    show (t.cells.set _ _)[i]? ≠ _
    by_cases h2 : i = h
    · subst h2; rw [List.getElem?_set_self hl]; simp
    · rw [List.getElem?_set_ne (Ne.symm h2)]; exact w.set i hi
  · intro i hi hi2
    show (t.cells.set _ _)[i]? = _
    have hi : t.n ≤ i := hi
    rw [List.getElem?_set_ne (by omega)]; exact w.unset i hi hi2
  · show (t.cells.set _ _).countP isObj + 1 = _
    rw [List.countP_set hl]
    have : t.cells[h] = .obj r := by rw [List.getElem?_eq_getElem hl] at hr; exact Option.some.inj hr
    rw [this]
    have : 0 < t.cells.countP isObj := List.countP_pos_iff.mpr ⟨.obj r, List.mem_of_getElem? hr, rfl⟩
    simp [isObj, objs]; omega
  · intro i r'
    by_cases h2 : i = h
    · subst h2; rw [List.getElem?_set_self hl]; simp
    · rw [List.getElem?_set_ne (Ne.symm h2)]; simp [h2]

theorem objs_zero {t : Tab R} (h : objs t = 0) (i : Nat) (r : R) : t.cells[i]? ≠ some (.obj r) := by
  intro hr
  have : 0 < t.cells.countP isObj := List.countP_pos_iff.mpr ⟨.obj r, List.mem_of_getElem? hr, rfl⟩
  unfold objs at h; omega

/-- invariant of the nonblocking table -/
structure NbInv (τ : List (TabObs R)) (t : Nb R) : Prop where
  wf : Wf t.tab
  live : ∀ (h : Nat) r, Live τ h r ↔ t.tab.cells[h]? = some (.obj r)
  count : t.count = objs t.tab
  few : t.tab.n ≤ numCreated τ
  zero : t.count = 0 → t.tab = Tab.empty

theorem nbStart_inv {τ : List (TabObs R)} {t : Nb R} (I : NbInv τ t) (r : R) (hn : numCreated τ < 1073741824) :
    ∃ t', nbStart r t = .ok (t.tab.n, t') ∧ NbInv (τ ++ [.created t.tab.n r]) t' := by
  obtain ⟨t1, hp, w1, hn1, ho, hs, hc⟩ := put_ok r I.wf (by have := I.few; omega)
  refine ⟨⟨t1, t.count + 1⟩, by unfold nbStart; rw [hp]; rfl, w1, ?_, ?_, ?_, ?_⟩
  · intro h r'
    rw [live_created, I.live]
    show _ ↔ t1.cells[h]? = _
    by_cases h2 : h = t.tab.n
    · subst h2
      rw [hs]
      have : t.tab.cells[t.tab.n]? ≠ some (.obj r') := fun hx => absurd (I.wf.obj_lt hx) (Nat.lt_irrefl _)
      simp only [this, false_or, true_and, Option.some.injEq, Cell.obj.injEq]; exact eq_comm
    · rw [hc h h2]; simp [h2]
  · show t.count + 1 = _; rw [ho, I.count]; rfl
  · rw [numCreated_created]; show t1.n ≤ _; rw [hn1]; have := I.few; omega
  · intro h
    have h : t.count + 1 = 0 := h
    rw [I.count] at h; omega

theorem nbWait_inv {τ : List (TabObs R)} {t : Nb R} (I : NbInv τ t) {h : Nat} {r : R} (hr : Live τ h r) :
    ∃ t', nbWait h t = .ok (some r, t') ∧ NbInv (τ ++ [.done h r]) t' := by
  have hc := (I.live h r).mp hr
  have hlt := I.wf.obj_lt hc
  obtain ⟨w1, ho, h1⟩ := setNull I.wf hc
  have key : NbInv (τ ++ [.done h r]) (nbRecycle ⟨⟨t.tab.cells.set h .null, t.tab.n, t.tab.max⟩, t.count - 1⟩) := by
    by_cases h0 : t.count - 1 = 0
    · have ho0 : objs (⟨t.tab.cells.set h .null, t.tab.n, t.tab.max⟩ : Tab R) = 0 := by
        have := I.count; omega
      have e : nbRecycle (⟨⟨t.tab.cells.set h .null, t.tab.n, t.tab.max⟩, t.count - 1⟩ : Nb R) = ⟨Tab.empty, t.count - 1⟩ := if_pos h0
      rw [e]
      refine ⟨wf_empty, ?_, ?_, Nat.zero_le _, fun _ => rfl⟩
      · intro i r'
        rw [live_done, I.live, ← h1 i r']
        constructor
        · intro hx; exact absurd hx (objs_zero ho0 i r')
        · intro hx; simp [Tab.empty] at hx
      · show t.count - 1 = _; rw [h0]; rfl
    · have e : nbRecycle (⟨⟨t.tab.cells.set h .null, t.tab.n, t.tab.max⟩, t.count - 1⟩ : Nb R) = ⟨⟨t.tab.cells.set h .null, t.tab.n, t.tab.max⟩, t.count - 1⟩ := if_neg h0
      rw [e]
      refine ⟨w1, ?_, ?_, ?_, fun hx => absurd hx h0⟩
      · intro i r'
        rw [live_done, I.live]; exact (h1 i r').symm
      · show t.count - 1 = (objs (⟨t.tab.cells.set h .null, t.tab.n, t.tab.max⟩ : Tab R) : Int); have := I.count; omega
      · rw [numCreated_done]; exact I.few
  refine ⟨_, ?_, key⟩
  unfold nbWait
  rw [if_pos (by exact_mod_cast hlt), if_neg (by omega), Int.toNat_natCast, hc]

theorem NbHist.inv {τ : List (TabObs R)} {t : Nb R} (H : NbHist τ t) (hn : numCreated τ ≤ 1073741824) : NbInv τ t := by
  induction H with
  | init => exact ⟨wf_empty, by intro h r; simp [Live, inUse, Nb.empty, Tab.empty], rfl, Nat.le_refl _, fun _ => rfl⟩
  | start r h H hs ih =>
    rw [numCreated_created] at hn
    obtain ⟨t', h1, h2⟩ := nbStart_inv (ih (by omega)) r (by omega)
    rw [h1] at hs; cases hs; exact h2
  | wait h r0 r H hl hs ih =>
    rw [numCreated_done] at hn
    obtain ⟨t', h1, h2⟩ := nbWait_inv (ih hn) hl
    rw [h1] at hs; cases hs; exact h2

/-- invariant of the Fortran tables -/
structure FInv (τ : List (TabObs R)) (t : Tab R) : Prop where
  wf : Wf t
  live : ∀ (h : Nat) r, Live τ h r ↔ t.cells[h]? = some (.obj r)
  few : t.n = numCreated τ
  used : ∀ h : Nat, (∃ r, TabObs.created h r ∈ τ) ↔ h < t.n

theorem fSetup_inv {τ : List (TabObs R)} {t : Tab R} (I : FInv τ t) (r : R) (hn : numCreated τ < 1073741824) :
    ∃ t', put r t = .ok (numCreated τ, t') ∧ FInv (τ ++ [.created (numCreated τ) r]) t' := by
  rw [← I.few] at hn ⊢
  obtain ⟨t1, hp, w1, hn1, ho, hs, hc⟩ := put_ok r I.wf hn
  refine ⟨t1, hp, w1, ?_, ?_, ?_⟩
  · intro h r'
    rw [live_created, I.live]
    by_cases h2 : h = t.n
    · subst h2
      rw [hs]
      have : t.cells[t.n]? ≠ some (.obj r') := fun hx => absurd (I.wf.obj_lt hx) (Nat.lt_irrefl _)
      simp only [this, false_or, true_and, Option.some.injEq, Cell.obj.injEq]; exact eq_comm
    · rw [hc h h2]; simp [h2]
  · rw [numCreated_created, hn1, I.few]
  · intro h
    have := I.used h
    constructor
    · rintro ⟨r', hr'⟩
      rw [List.mem_append] at hr'
      rcases hr' with hr' | hr'
      · have := this.mp ⟨r', hr'⟩; omega
      · simp at hr'; omega
    · intro hlt
      by_cases h2 : h = t.n
      · exact ⟨r, by simp [h2]⟩
      · obtain ⟨r', hr'⟩ := this.mpr (by omega)
        exact ⟨r', List.mem_append_left _ hr'⟩

theorem check_obj {t : Tab R} (w : Wf t) {h : Nat} {r : R} (hr : t.cells[h]? = some (.obj r)) : check (h : Int) t = .ok r := by
  have := w.obj_lt hr
  unfold check
  rw [if_neg (by omega), Int.toNat_natCast, hr]

theorem check_bad {t : Tab R} (w : Wf t) {h : Int} (hr : ∀ r, t.cells[h.toNat]? ≠ some (.obj r) ∨ h < 0) : check h t = .abort := by
  unfold check
  by_cases h1 : h < 0 ∨ (t.n : Int) ≤ h
  · rw [if_pos h1]
  · rw [if_neg h1]
    rcases hc : t.cells[h.toNat]? with _ | c
    · rw [List.getElem?_eq_none_iff, w.len] at hc; have := w.le; omega
    · rcases c with _ | _ | r
      · exact absurd hc (w.set _ (by omega))
      · rfl
      · rcases hr r with h2 | h2
        · exact absurd hc h2
        · omega

theorem check_ok {t : Tab R} {h : Int} {r : R} (hr : check h t = .ok r) : 0 ≤ h ∧ t.cells[h.toNat]? = some (.obj r) := by
  unfold check at hr
  by_cases h1 : h < 0 ∨ (t.n : Int) ≤ h
  · rw [if_pos h1] at hr; cases hr
  · rw [if_neg h1] at hr
    refine ⟨by omega, ?_⟩
    rcases hc : t.cells[h.toNat]? with _ | c
    · rw [hc] at hr; cases hr
    · rw [hc] at hr
      rcases c with _ | _ | r'
      · cases hr
      · cases hr
      · cases hr; rfl

theorem FHist.inv {τ : List (TabObs R)} {t : Tab R} (H : FHist τ t) (hn : numCreated τ ≤ 1073741824) : FInv τ t := by
  induction H with
  | init => exact ⟨wf_empty, by intro h r; simp [Live, inUse, Tab.empty], rfl, by intro h; simp [Tab.empty]⟩
  | setup r h H hs ih =>
    rw [numCreated_created] at hn
    obtain ⟨t', h1, h2⟩ := fSetup_inv (ih (by omega)) r (by omega)
    rw [h1] at hs; cases hs; exact h2
  | @free τ t t' h r H hs ih =>
    rw [numCreated_done] at hn
    have I := ih hn
    unfold Tab.free at hs
    rcases hc : check (h : Int) t with r' | _ | _
    · rw [hc] at hs
      have hr := (check_ok hc).2
      rw [Int.toNat_natCast] at hr
      cases hs
      obtain ⟨w1, -, h1⟩ := setNull I.wf hr
      refine ⟨by rw [Int.toNat_natCast]; exact w1, ?_, ?_, ?_⟩
      · intro i r'
        rw [live_done, I.live, Int.toNat_natCast]; exact (h1 i r').symm
      · rw [numCreated_done]; exact I.few
      · intro i
        show _ ↔ i < t.n
        rw [← I.used i]
        simp
    · rw [hc] at hs; cases hs
    · rw [hc] at hs; cases hs

end Gslib.Tab
