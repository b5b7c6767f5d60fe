import Verif.Lemmas.GsCrRows

/-! # crl_work_label -/

namespace Gslib.Gs
open Gslib Gslib.Sarray Gslib.Spec Gslib.Props

/-- the row is sent to the other half -/
def CrlId.goes (cutoff : Nat) (hi : Bool) (w : CrlId) : Bool := if hi then cutoff ≤ w.p else w.p < cutoff

/-! ### runs of equal ids -/

/-- ids differing from the previous one -/
def runIds : Nat → List CrlId → List Nat
  | _, [] => []
  | i, w :: rest => if w.id ≠ i then w.id :: runIds w.id rest else runIds i rest

/-- the ids of consecutive runs -/
def runs : List CrlId → List Nat
  | [] => []
  | w :: rest => w.id :: runIds w.id rest

theorem mem_runIds : ∀ (l : List CrlId) (i a : Nat), a ∈ i :: runIds i l ↔ a = i ∨ ∃ w ∈ l, w.id = a
  | [], i, a => by simp [runIds]
  | w :: l, i, a => by
    rw [runIds]
    split
    · rw [List.mem_cons, mem_runIds l w.id a]
      simp only [List.mem_cons, exists_eq_or_imp]
      tauto
    · rename_i h
      have h : w.id = i := by simpa using h
      rw [mem_runIds l i a]
      simp only [List.mem_cons, exists_eq_or_imp]
      rw [h]; tauto

theorem mem_runs {l : List CrlId} {a : Nat} : a ∈ runs l ↔ ∃ w ∈ l, w.id = a := by
  cases l with
  | nil => simp [runs]
  | cons w l =>
    rw [runs, mem_runIds]
    simp only [List.mem_cons, exists_eq_or_imp]
    tauto

theorem runIds_sorted : ∀ (l : List CrlId) (i : Nat), (∀ w ∈ l, i ≤ w.id) → l.Pairwise (fun x y => x.id ≤ y.id) → (i :: runIds i l).Pairwise (· < ·)
  | [], i, _, _ => by simp [runIds]
  | w :: l, i, h, hp => by
    rw [List.pairwise_cons] at hp
    have hw := h w (by simp)
    rw [runIds]
    split
    · rename_i hne
      have ih := runIds_sorted l w.id hp.1 hp.2
      rw [List.pairwise_cons]
      refine ⟨?_, ih⟩
      intro a ha
      rcases (mem_runIds l w.id a).1 ha with rfl | ⟨x, hx, rfl⟩
      · omega
      · have := hp.1 x hx; omega
    · exact runIds_sorted l i (fun x hx => h x (by simp [hx])) hp.2

theorem runs_sorted {l : List CrlId} (hp : l.Pairwise (fun x y => x.id ≤ y.id)) : (runs l).Pairwise (· < ·) := by
  cases l with
  | nil => exact List.Pairwise.nil
  | cons w l => rw [List.pairwise_cons] at hp; exact runIds_sorted l w.id hp.1 hp.2

/-- the id of the last row -/
def lastId : Nat → List CrlId → Nat
  | i, [] => i
  | _, w :: l => lastId w.id l

theorem lastId_mem : ∀ (l : List CrlId) (i : Nat), lastId i l = i ∨ ∃ w ∈ l, w.id = lastId i l
  | [], _ => Or.inl rfl
  | w :: l, i => by
    right
    rcases lastId_mem l w.id with h | ⟨x, hx, h⟩
    · exact ⟨w, by simp, h.symm⟩
    · exact ⟨x, by simp [hx], h⟩

theorem runIds_append : ∀ (A B : List CrlId) (i : Nat), runIds i (A ++ B) = runIds i A ++ runIds (lastId i A) B
  | [], B, i => rfl
  | w :: A, B, i => by
    rw [List.cons_append, runIds, runIds, lastId]
    split
    · rw [runIds_append A B w.id]; rfl
    · rename_i h
      have h : w.id = i := by simpa using h
      rw [h]
      exact runIds_append A B i

theorem runs_append {A B : List CrlId} (h : ∀ x ∈ A, ∀ y ∈ B, x.id ≠ y.id) : runs (A ++ B) = runs A ++ runs B := by
  cases A with
  | nil => rfl
  | cons w A =>
    rw [List.cons_append, runs, runs, runIds_append, List.cons_append]
    congr 2
    cases B with
    | nil => rfl
    | cons y B =>
      rw [runIds, runs, if_pos]
      intro e
      rcases lastId_mem A w.id with h1 | ⟨x, hx, h1⟩
      · exact h w (by simp) y (by simp) (by rw [e, h1])
      · exact h x (by simp [hx]) y (by simp) (by rw [e, h1])

theorem runIds_last : ∀ (l : List CrlId) (i : Nat), (i :: runIds i l).getLast? = some (lastId i l)
  | [], _ => rfl
  | w :: l, i => by
    rw [runIds, lastId]
    split
    · rw [List.getLast?_cons_cons]
      exact runIds_last l w.id
    · rename_i h
      have h : w.id = i := by simpa using h
      rw [h]
      exact runIds_last l i

theorem lastId_last : ∀ (l : List CrlId) (w : CrlId), ((w :: l).getLast?).map CrlId.id = some (lastId w.id l)
  | [], _ => rfl
  | x :: l, w => by
    rw [List.getLast?_cons_cons, lastId_last l x]; rfl

/-! ### crl_index -/

/-- a row with its label; the row has been in the first loop -/
def lab1 (L : List Nat) (w : CrlId) : CrlId := { w with send := if w.bi ≠ 1 then 1 else w.send, bi := L.idxOf w.id }

/-- a row with its label; the row has been in the second loop -/
def lab0 (L : List Nat) (w : CrlId) : CrlId := { w with send := 0, bi := L.idxOf w.id }

theorem idxOf_mid {L0 R : List Nat} {i : Nat} (h : (L0 ++ i :: R).Nodup) : (L0 ++ i :: R).idxOf i = L0.length := by
  have : i ∉ L0 := by
    intro hi
    rw [List.nodup_append] at h
    exact h.2.2 i hi i (by simp) rfl
  rw [List.idxOf_append_of_notMem this]
  simp

theorem crlIndex_some : ∀ (l : List CrlId) (k : Nat) (L0 : List Nat) (i : Nat), (L0 ++ i :: runIds i l).Nodup →
    crlIndex k (some i) L0.length l = (l.take k).map (lab1 (L0 ++ i :: runIds i l)) ++ (l.drop k).map (lab0 (L0 ++ i :: runIds i l))
  | [], k, L0, i, _ => by simp [crlIndex]
  | w :: l, k, L0, i, h => by
    rw [crlIndex]
    by_cases e : w.id = i
    · have er : runIds i (w :: l) = runIds i l := by rw [runIds, if_neg (by simpa using e)]
      rw [er] at h ⊢
      rw [if_neg (by simpa using e), e, crlIndex_some l (k - 1) L0 i h]
      have hi := idxOf_mid h
      cases k with
      | zero =>
        simp only [Nat.zero_sub, List.take_zero, List.map_nil, List.nil_append, List.drop_zero, List.map_cons, lab0, e, hi, if_true]
      | succ k =>
        simp only [Nat.add_sub_cancel, List.take_succ_cons, List.drop_succ_cons, List.map_cons, List.cons_append, lab1, e, hi, Nat.add_eq_zero_iff,
          one_ne_zero, and_false, if_false]
    · have er : runIds i (w :: l) = w.id :: runIds w.id l := by rw [runIds, if_pos e]
      rw [er] at h ⊢
      have h' : ((L0 ++ [i]) ++ w.id :: runIds w.id l).Nodup := by simpa using h
      have ih := crlIndex_some l (k - 1) (L0 ++ [i]) w.id h'
      rw [List.length_append, List.length_singleton] at ih
      rw [if_pos e, ih]
      have hi := idxOf_mid h'
      rw [List.length_append, List.length_singleton] at hi
      simp only [List.append_assoc, List.singleton_append] at hi ih ⊢
      cases k with
      | zero =>
        simp only [Nat.zero_sub, List.take_zero, List.map_nil, List.nil_append, List.drop_zero, List.map_cons, lab0, hi, if_true]
      | succ k =>
        simp only [Nat.add_sub_cancel, List.take_succ_cons, List.drop_succ_cons, List.map_cons, List.cons_append, lab1, hi, Nat.add_eq_zero_iff,
          one_ne_zero, and_false, if_false]

theorem crlIndex_none (l : List CrlId) (k : Nat) (h : (runs l).Nodup) :
    crlIndex k none 0 l = (l.take k).map (lab1 (runs l)) ++ (l.drop k).map (lab0 (runs l)) := by
  cases l with
  | nil => simp [crlIndex]
  | cons w l =>
    rw [runs] at h ⊢
    rw [crlIndex]
    have ih := crlIndex_some l (k - 1) [] w.id (by simpa using h)
    simp only [List.length_nil, List.nil_append] at ih
    rw [ih]
    have hi : (w.id :: runIds w.id l).idxOf w.id = 0 := by simp
    cases k with
    | zero => simp only [Nat.zero_sub, List.take_zero, List.map_nil, List.nil_append, List.drop_zero, List.map_cons, lab0, hi, if_true]
    | succ k =>
      simp only [Nat.add_sub_cancel, List.take_succ_cons, List.drop_succ_cons, List.map_cons, List.cons_append, lab1, hi, Nat.add_eq_zero_iff,
          one_ne_zero, and_false, if_false]

theorem idxOf_getLast : ∀ {L : List Nat} {a : Nat}, L.getLast? = some a → L.Nodup → L.idxOf a + 1 = L.length
  | [], _, h, _ => by simp at h
  | [b], a, h, _ => by simp at h; subst h; simp
  | c :: b :: L, a, h, hnd => by
    rw [List.nodup_cons] at hnd
    rw [List.getLast?_cons_cons] at h
    rw [List.idxOf_cons_ne]
    · rw [Nat.succ_eq_add_one, idxOf_getLast h hnd.2]; rfl
    · intro e
      exact hnd.1 (e ▸ List.mem_of_getLast? h)

theorem sizeOf_map {A : List CrlId} (g : CrlId → CrlId) (L : List Nat) (hg : ∀ w ∈ A, (g w).bi = L.idxOf w.id) (R : List Nat) (hL : L = runs A ++ R) (hnd : L.Nodup) :
    sizeOf (A.map g) = (runs A).length := by
  cases A with
  | nil => rfl
  | cons w A =>
    have hn : (runs (w :: A)).Nodup := by rw [hL] at hnd; exact (List.nodup_append.1 hnd).1
    have h1 := lastId_last A w
    obtain ⟨z, hz⟩ : ∃ z, (w :: A).getLast? = some z := by
      cases e : (w :: A).getLast? with
      | none => simp at e
      | some z => exact ⟨z, rfl⟩
    unfold sizeOf
    rw [hz, Option.map_some, Option.some.injEq] at h1
    rw [List.getLast?_map, hz]
    simp only [Option.map_some]
    have hr : (runs (w :: A)).getLast? = some z.id := by rw [h1]; exact runIds_last A w.id
    rw [hg z (List.mem_of_getLast? hz), hL, List.idxOf_append_of_mem (List.mem_of_getLast? hr)]
    exact idxOf_getLast hr hn

/-! ### crl_dup -/

/-- what crl_dup does with a row; `S`: ids that are sent -/
def dupOf (S : Nat → Prop) [DecidablePred S] (w : CrlId) : CrlId := if w.send = 1 ∧ S w.id then { w with send := 0, bi := 1 } else { w with bi := 0 }

/-- order by `id`, then `send` -/
def IsLe (x y : CrlId) : Prop := x.id < y.id ∨ (x.id = y.id ∧ x.send ≤ y.send)

theorem crlDup_eq (S : Nat → Prop) [DecidablePred S] : ∀ (l : List CrlId) (start : Option CrlId), l.Pairwise IsLe → (∀ w ∈ l, w.send ≤ 1) →
    (∀ s, start = some s → (s.send = if S s.id then 0 else 1) ∧ ∀ w ∈ l, s.id ≤ w.id) → (∀ w ∈ l, w.send = 0 → S w.id) →
    (∀ a, S a → (∀ s, start = some s → s.id ≠ a) → (∃ w ∈ l, w.id = a) → ∃ w ∈ l, w.id = a ∧ w.send = 0) →
    crlDup start l = l.map (dupOf S)
  | [], _, _, _, _, _, _ => rfl
  | w :: l, start, hp, h1, hs, hS, hex => by
    rw [List.pairwise_cons] at hp
    have hw1 := h1 w (by simp)
    have hge : ∀ y ∈ l, w.id ≤ y.id := by
      intro y hy
      rcases hp.1 y hy with h | h <;> omega
    have hnew : (∀ s, start = some s → s.id ≠ w.id) → w.send = if S w.id then 0 else 1 := by
      intro hn
      by_cases c : S w.id
      · rw [if_pos c]
        obtain ⟨x, hx, e1, e2⟩ := hex w.id c hn ⟨w, by simp, rfl⟩
        rcases List.mem_cons.1 hx with rfl | hx
        · exact e2
        · rcases hp.1 x hx with h | h <;> omega
      · rw [if_neg c]
        have : w.send ≠ 0 := fun h => c (hS w (by simp) h)
        omega
    have hrest : ∀ s' : CrlId, s'.id = w.id → (s'.send = if S s'.id then 0 else 1) → crlDup (some s') l = l.map (dupOf S) := by
      intro s' e1 e2
      refine crlDup_eq S l (some s') hp.2 (fun x hx => h1 x (by simp [hx])) ?_ (fun x hx => hS x (by simp [hx])) ?_
      · intro s e; rw [Option.some.injEq] at e; subst e; exact ⟨e2, fun y hy => e1 ▸ hge y hy⟩
      · intro a ha hn hx
        have hne := hn s' rfl
        obtain ⟨y, hy, e⟩ := hx
        have hya := hge y hy
        obtain ⟨z, hz, e4, e5⟩ := hex a ha (by
          intro s es e6
          have := (hs s es).2 w (by simp)
          omega) ⟨y, by simp [hy], e⟩
        rcases List.mem_cons.1 hz with rfl | hz
        · exact absurd (e1.trans e4) hne
        · exact ⟨z, hz, e4, e5⟩
    have hhead : ∀ s' : CrlId, s'.id = w.id → (s'.send = if S s'.id then 0 else 1) →
        (if w.send ≠ s'.send then { w with send := 0, bi := 1 } else { w with bi := 0 }) = dupOf S w := by
      intro s' e1 e2
      rw [e1] at e2
      unfold dupOf
      by_cases c : S w.id
      · rw [if_pos c] at e2
        by_cases c' : w.send = 1
        · rw [if_pos (by omega), if_pos ⟨c', c⟩]
        · rw [if_neg (by omega), if_neg (fun h => c' h.1)]
      · rw [if_neg c] at e2
        have : w.send ≠ 0 := fun h => c (hS w (by simp) h)
        rw [if_neg (by omega), if_neg (fun h => c h.2)]
    rw [List.map_cons]
    cases start with
    | none =>
      have := hnew (by simp)
      simp only [crlDup]
      rw [hhead w rfl this, hrest w rfl this]
    | some s =>
      have key : ∀ s', (if w.id ≠ s.id then w else s) = s' → crlDup (some s) (w :: l) =
          (if w.send ≠ s'.send then { w with send := 0, bi := 1 } else { w with bi := 0 }) :: crlDup (some s') l := by
        intro s' e; subst e; rfl
      by_cases c : w.id = s.id
      · rw [key s (if_neg (by simpa using c))]
        have := (hs s rfl).1
        rw [hhead s c.symm this, hrest s c.symm this]
      · rw [key w (if_pos c)]
        have := hnew (by intro s' e; rw [Option.some.injEq] at e; subst e; exact fun h => c h.symm)
        rw [hhead w rfl this, hrest w rfl this]

theorem dupOf_bi (S : Nat → Prop) [DecidablePred S] (x : CrlId) : (dupOf S x).bi = if x.send = 1 ∧ S x.id then 1 else 0 := by
  unfold dupOf; split <;> rfl

theorem dupOf_send (S : Nat → Prop) [DecidablePred S] (x : CrlId) : (dupOf S x).send = if x.send = 1 ∧ S x.id then 0 else x.send := by
  unfold dupOf; split <;> rfl

theorem dupOf_goes (S : Nat → Prop) [DecidablePred S] (x : CrlId) (c : Nat) (hi : Bool) : (dupOf S x).goes c hi = x.goes c hi := by
  have : (dupOf S x).p = x.p := by unfold dupOf; split <;> rfl
  unfold CrlId.goes; rw [this]

/-- the labelled row -/
def lab (L : List Nat) (cutoff : Nat) (hi : Bool) (w : CrlId) : CrlId := { w with bi := L.idxOf w.id, send := if w.goes cutoff hi then 1 else 0 }

theorem split_by_send {l : List CrlId} (h : l.Pairwise fun x y => x.send ≤ y.send) (h1 : ∀ w ∈ l, w.send ≤ 1) :
    l = (l.filter fun w => w.send = 0) ++ l.filter fun w => w.send = 1 := by
  induction l with
  | nil => rfl
  | cons w l ih =>
    rw [List.pairwise_cons] at h
    have ih := ih h.2 (fun x hx => h1 x (by simp [hx]))
    have hw := h1 w (by simp)
    by_cases c : w.send = 0
    · rw [List.filter_cons_of_pos (by simpa using c), List.filter_cons_of_neg (by simp; omega), List.cons_append, ← ih]
    · have hc : w.send = 1 := by omega
      have : (l.filter fun w => w.send = 0) = [] := by
        rw [List.filter_eq_nil_iff]
        intro x hx
        have := h.1 x hx
        simp; omega
      rw [List.filter_cons_of_neg (by simpa using c), List.filter_cons_of_pos (by simpa using hc), this, List.nil_append]
      rw [this, List.nil_append] at ih
      rw [← ih]

theorem sum_send : ∀ (l : List CrlId), (∀ w ∈ l, w.send ≤ 1) → (l.map CrlId.send).sum = (l.filter fun w => w.send = 1).length
  | [], _ => rfl
  | w :: l, h => by
    have hw := h w (by simp)
    rw [List.map_cons, List.sum_cons, sum_send l (fun x hx => h x (by simp [hx])), List.filter_cons]
    split
    · rename_i c; simp at c; rw [c, List.length_cons]; omega
    · rename_i c; simp at c; omega

theorem sum_bi : ∀ (l : List CrlId), (∀ w ∈ l, w.bi ≤ 1) → (l.map CrlId.bi).sum = (l.filter fun w => w.bi = 1).length
  | [], _ => rfl
  | w :: l, h => by
    have hw := h w (by simp)
    rw [List.map_cons, List.sum_cons, sum_bi l (fun x hx => h x (by simp [hx])), List.filter_cons]
    split
    · rename_i c; simp at c; rw [c, List.length_cons]; omega
    · rename_i c; simp at c; omega

/-- crl_work_label -/
theorem crlWorkLabel_spec (cw : List CrlId) (cutoff : Nat) (hi : Bool) (s : ScratchF Nat) (hid : ∀ w ∈ cw, w.id < 18446744073709551616)
    (hsi : ∀ w ∈ cw, w.si < 4294967296) (hN : ∀ L : List Nat, L.Nodup → (∀ a ∈ L, ∃ w ∈ cw, w.id = a) → L.length ≤ 4294967296) :
    ∃ out L nS gl, crlWorkLabel cw cutoff hi s = .ok ⟨out, (cw.filter (CrlId.goes cutoff hi)).length, nS, L.length,
        encGroups (gl.map fun g => (g.2.1, [g.1])), encGroups ((gl.filter fun g => g.2.2 ≠ []).map fun g => (g.1, g.2.2))⟩ ∧
      L.Nodup ∧ (∀ a, a ∈ L ↔ ∃ w ∈ cw, w.id = a) ∧ nS ≤ L.length ∧ (∀ w ∈ cw, w.goes cutoff hi → L.idxOf w.id < nS) ∧
      out.Perm (cw.map (lab L cutoff hi)) ∧ MapsOk (cw.map (lab L cutoff hi)) gl ∧ ∀ g ∈ gl, ∃ w ∈ cw.map (lab L cutoff hi), w.bi = g.1 := by
  set mk : CrlId → CrlId := fun w => { w with send := if w.goes cutoff hi then 0 else 1 } with hmk
  have hmark : crlMark cutoff hi cw = cw.map mk := by
    unfold crlMark
    apply List.map_congr_left
    intro w _
    simp only [hmk, CrlId.goes]
    congr 1
    cases hi with
    | true => simp only [if_true, decide_eq_true_eq]; by_cases c : w.p < cutoff
              · rw [if_pos c, if_neg (by omega)]
              · rw [if_neg c, if_pos (by omega)]
    | false => simp only [Bool.false_eq_true, if_false, decide_eq_true_eq]; by_cases c : cutoff ≤ w.p
               · rw [if_pos c, if_neg (by omega)]
               · rw [if_neg c, if_pos (by omega)]
  have hmk1 : ∀ w, (mk w).send ≤ 1 := by intro w; simp only [hmk]; split <;> omega
  have hmk0 : ∀ w, (mk w).send = 0 ↔ w.goes cutoff hi = true := by intro w; simp only [hmk]; split <;> simp_all
  obtain ⟨c1, e1, s1⟩ := sarray_sort_lexicographic (κ := Nat) [.int 8 CrlId.id, .int 4 CrlId.send] (cw.map mk) s (by
    intro f hf
    simp only [List.mem_cons, List.not_mem_nil, or_false] at hf
    rcases hf with rfl | rfl
    · intro r hr
      obtain ⟨w, hw, rfl⟩ := List.mem_map.1 hr
      have := hid w hw
      simp only [hmk]; norm_num; omega
    · intro r hr
      obtain ⟨w, hw, rfl⟩ := List.mem_map.1 hr
      have := hmk1 w
      norm_num; omega)
  have hc1 : c1.Pairwise IsLe := s1.sorted.imp (by
    intro a b hab
    simp only [List.map_cons, List.map_nil, Field.key, LexLe, Key.Lt, Key.Same, and_true] at hab
    unfold IsLe
    omega)
  have hmem1 : ∀ x, x ∈ c1 ↔ ∃ w ∈ cw, mk w = x := fun x => by rw [s1.perm.mem_iff, List.mem_map]
  let S : Nat → Prop := fun a => ∃ w ∈ cw, w.id = a ∧ w.goes cutoff hi = true
  haveI hSdec : DecidablePred S := fun a => by unfold S; infer_instance
  have hdup : crlDup none c1 = c1.map (dupOf S) := by
    refine crlDup_eq S c1 none hc1 ?_ (by simp) ?_ ?_
    · intro w hw
      obtain ⟨x, _, rfl⟩ := (hmem1 w).1 hw
      exact hmk1 x
    · intro w hw h0
      obtain ⟨x, hx, rfl⟩ := (hmem1 w).1 hw
      exact ⟨x, hx, rfl, (hmk0 x).1 h0⟩
    · rintro a ⟨w, hw, ha, hg⟩ _ _
      exact ⟨mk w, (hmem1 _).2 ⟨w, hw, rfl⟩, ha, (hmk0 w).2 hg⟩
  set d := c1.map (dupOf S) with hd
  have hd1 : ∀ x ∈ d, x.send ≤ 1 ∧ x.bi ≤ 1 := by
    intro x hx
    obtain ⟨w, hw, rfl⟩ := List.mem_map.1 hx
    obtain ⟨z, _, rfl⟩ := (hmem1 w).1 hw
    unfold dupOf
    split
    · exact ⟨Nat.zero_le _, le_refl _⟩
    · exact ⟨hmk1 z, Nat.zero_le _⟩
  obtain ⟨c2, e2, s2⟩ := sarray_sort_lexicographic (κ := Nat) [.int 4 CrlId.send] d s (by
    intro f hf
    simp only [List.mem_cons, List.not_mem_nil, or_false] at hf
    subst hf
    intro r hr
    have := (hd1 r hr).1
    norm_num; omega)
  have hc2 : c2 = (d.filter fun w => w.send = 0) ++ d.filter fun w => w.send = 1 := by
    rw [split_by_send (l := c2)]
    · congr 1
      · exact s2.stable (fun w => decide (w.send = 0)) ⟨0, 0, 0, 0, 0, 0⟩ (by intro a; simp [Field.key, Key.Same, eq_comm])
      · exact s2.stable (fun w => decide (w.send = 1)) ⟨0, 0, 0, 0, 0, 1⟩ (by intro a; simp [Field.key, Key.Same, eq_comm])
    · exact s2.sorted.imp (by
        intro a b hab
        simp only [List.map_cons, List.map_nil, Field.key, LexLe, Key.Lt, Key.Same, and_true] at hab
        omega)
    · intro w hw; exact (hd1 w (s2.perm.mem_iff.1 hw)).1
  set A := d.filter fun w => w.send = 0 with hA
  set B := d.filter fun w => w.send = 1 with hB
  -- rows of `d`
  have hdmem : ∀ x, x ∈ d ↔ ∃ w ∈ cw, dupOf S (mk w) = x := by
    intro x
    rw [hd, List.mem_map]
    constructor
    · rintro ⟨y, hy, rfl⟩
      obtain ⟨w, hw, rfl⟩ := (hmem1 y).1 hy
      exact ⟨w, hw, rfl⟩
    · rintro ⟨w, hw, rfl⟩
      exact ⟨mk w, (hmem1 _).2 ⟨w, hw, rfl⟩, rfl⟩
  have hdup_id : ∀ w, (dupOf S w).id = w.id := by intro w; unfold dupOf; split <;> rfl
  have hsend0 : ∀ w ∈ cw, (dupOf S (mk w)).send = 0 ↔ S w.id := by
    intro w hw
    have hm : S (mk w).id ↔ S w.id := Iff.rfl
    rw [dupOf_send]
    by_cases c : w.goes cutoff hi = true
    · have h0 := (hmk0 w).2 c
      rw [if_neg (by omega)]
      exact ⟨fun _ => ⟨w, hw, rfl, c⟩, fun _ => h0⟩
    · have h1 : (mk w).send = 1 := by
        have := hmk1 w
        have h0 : (mk w).send ≠ 0 := fun h => c ((hmk0 w).1 h)
        omega
      by_cases c' : S w.id
      · rw [if_pos ⟨h1, c'⟩]; simp [c']
      · rw [if_neg (fun h => c' h.2)]; simp [c', h1]
  have hAid : ∀ x ∈ A, S x.id := by
    intro x hx
    rw [hA, List.mem_filter] at hx
    obtain ⟨w, hw, rfl⟩ := (hdmem x).1 hx.1
    rw [hdup_id]
    exact (hsend0 w hw).1 (by simpa using hx.2)
  have hBid : ∀ x ∈ B, ¬ S x.id := by
    intro x hx
    rw [hB, List.mem_filter] at hx
    obtain ⟨w, hw, rfl⟩ := (hdmem x).1 hx.1
    rw [hdup_id]
    intro hc
    have h0 := (hsend0 w hw).2 hc
    have : (dupOf S (mk w)).send = 1 := by simpa using hx.2
    omega
  have hdis : ∀ x ∈ A, ∀ y ∈ B, x.id ≠ y.id := fun x hx y hy e => hBid y hy (e ▸ hAid x hx)
  have hdsort : d.Pairwise fun x y => x.id ≤ y.id := by
    rw [hd, List.pairwise_map]
    refine hc1.imp ?_
    intro a b hab
    rw [hdup_id, hdup_id]
    rcases hab with h | h <;> omega
  have hrA := runs_sorted (hdsort.filter fun w => decide (w.send = 0))
  have hrB := runs_sorted (hdsort.filter fun w => decide (w.send = 1))
  rw [← hA] at hrA
  rw [← hB] at hrB
  have hL : runs (A ++ B) = runs A ++ runs B := runs_append hdis
  have hnd : (runs (A ++ B)).Nodup := by
    rw [hL, List.nodup_append]
    refine ⟨hrA.imp Nat.ne_of_lt, hrB.imp Nat.ne_of_lt, ?_⟩
    intro a ha b hb e
    obtain ⟨x, hx, e3⟩ := mem_runs.1 ha
    obtain ⟨y, hy, e4⟩ := mem_runs.1 hb
    exact hdis x hx y hy (by rw [e3, e4, e])
  set L := runs (A ++ B) with hLdef
  have hperm2 : (A ++ B).Perm d := by rw [← hc2]; exact s2.perm
  have hmemL : ∀ a, a ∈ L ↔ ∃ w ∈ cw, w.id = a := by
    intro a
    rw [hLdef, mem_runs]
    constructor
    · rintro ⟨x, hx, rfl⟩
      obtain ⟨w, hw, rfl⟩ := (hdmem x).1 (hperm2.mem_iff.1 hx)
      exact ⟨w, hw, (hdup_id (mk w)).symm⟩
    · rintro ⟨w, hw, rfl⟩
      exact ⟨dupOf S (mk w), hperm2.mem_iff.2 ((hdmem _).2 ⟨w, hw, rfl⟩), hdup_id _⟩
  -- numbers
  have hnsend : cw.length - nKeep c1 = (cw.filter (CrlId.goes cutoff hi)).length := by
    unfold nKeep
    rw [(s1.perm.map CrlId.send).sum_eq, sum_send _ (by intro w hw; obtain ⟨x, _, rfl⟩ := List.mem_map.1 hw; exact hmk1 x), List.filter_map, List.length_map]
    have h1 : (cw.filter ((fun w => decide (w.send = 1)) ∘ mk)) = cw.filter fun w => !(CrlId.goes cutoff hi w) := by
      apply List.filter_congr
      intro w _
      have h1 := hmk0 w
      have h2 := hmk1 w
      simp only [Function.comp_apply]
      cases c : w.goes cutoff hi with
      | true => have := h1.2 c; simp [this]
      | false =>
        have : (mk w).send ≠ 0 := fun h => by rw [h1.1 h] at c; cases c
        simp; omega
    rw [h1]
    have := List.length_eq_length_filter_add (l := cw) (CrlId.goes cutoff hi)
    omega
  have hk : cw.length - nKeep c1 + nKs d = A.length := by
    rw [hnsend]
    unfold nKs
    rw [sum_bi _ (fun w hw => (hd1 w hw).2)]
    have hp : d.Perm (cw.map fun w => dupOf S (mk w)) := by
      rw [hd]
      have := s1.perm.map (dupOf S)
      rwa [List.map_map] at this
    rw [hA, (hp.filter _).length_eq, (hp.filter _).length_eq, List.filter_map, List.filter_map, List.length_map, List.length_map]
    have h3 : (cw.filter ((fun w => decide (w.bi = 1)) ∘ fun w => dupOf S (mk w))) = (cw.filter ((fun w => decide (w.send = 0)) ∘ fun w => dupOf S (mk w))).filter fun w => !(CrlId.goes cutoff hi w) := by
      rw [List.filter_filter]
      apply List.filter_congr
      intro w hw
      have h0 := hsend0 w hw
      simp only [Function.comp_apply]
      rw [Bool.eq_iff_iff]
      simp only [decide_eq_true_eq, Bool.and_eq_true, h0, dupOf_bi]
      cases c : w.goes cutoff hi with
      | true =>
        have := (hmk0 w).2 c
        rw [if_neg (by omega)]
        simp
      | false =>
        have h1 := hmk1 w
        have : (mk w).send ≠ 0 := fun h => by rw [(hmk0 w).1 h] at c; cases c
        by_cases c' : S w.id
        · rw [if_pos ⟨by omega, c'⟩]; simp [c']
        · rw [if_neg (fun h => c' h.2)]; simp [c']
    have h4 : cw.filter (CrlId.goes cutoff hi) = (cw.filter ((fun w => decide (w.send = 0)) ∘ fun w => dupOf S (mk w))).filter (CrlId.goes cutoff hi) := by
      rw [List.filter_filter]
      apply List.filter_congr
      intro w hw
      have h0 := hsend0 w hw
      simp only [Function.comp_apply]
      rw [Bool.eq_iff_iff]
      simp only [decide_eq_true_eq, Bool.and_eq_true, h0]
      cases c : w.goes cutoff hi with
      | true =>
        have : S w.id := ⟨w, hw, rfl, c⟩
        simp [this]
      | false => simp
    rw [h3, h4]
    exact (List.length_eq_length_filter_add (CrlId.goes cutoff hi)).symm
  have hidx : crlIndex A.length none 0 (A ++ B) = A.map (lab1 L) ++ B.map (lab0 L) := by
    rw [crlIndex_none _ _ hnd, List.take_left, List.drop_left]
  have hlab : A.map (lab1 L) ++ B.map (lab0 L) = (A ++ B).map fun x => { x with bi := L.idxOf x.id, send := if x.goes cutoff hi then 1 else 0 } := by
    rw [List.map_append]
    congr 1
    · apply List.map_congr_left
      intro x hx
      rw [hA, List.mem_filter] at hx
      obtain ⟨w, hw, rfl⟩ := (hdmem x).1 hx.1
      have hx0 : (dupOf S (mk w)).send = 0 := by simpa using hx.2
      have hg : (dupOf S (mk w)).goes cutoff hi = w.goes cutoff hi := dupOf_goes S (mk w) cutoff hi
      unfold lab1
      rw [hg, hx0]
      congr 1
      have hSw := (hsend0 w hw).1 hx0
      rw [dupOf_bi]
      cases c : w.goes cutoff hi with
      | true =>
        have := (hmk0 w).2 c
        rw [if_neg (c := (mk w).send = 1 ∧ S (mk w).id) (by omega)]
        simp
      | false =>
        have h1 := hmk1 w
        have : (mk w).send ≠ 0 := fun h => by rw [(hmk0 w).1 h] at c; cases c
        rw [if_pos (c := (mk w).send = 1 ∧ S (mk w).id) ⟨by omega, hSw⟩]
        simp
    · apply List.map_congr_left
      intro x hx
      have hxB := hBid x hx
      rw [hB, List.mem_filter] at hx
      obtain ⟨w, hw, rfl⟩ := (hdmem x).1 hx.1
      have hg : (dupOf S (mk w)).goes cutoff hi = w.goes cutoff hi := dupOf_goes S (mk w) cutoff hi
      unfold lab0
      rw [hg]
      congr 1
      rw [if_neg]
      intro c
      rw [hdup_id] at hxB
      exact hxB ⟨w, hw, rfl, c⟩
  have hperm3 : (A.map (lab1 L) ++ B.map (lab0 L)).Perm (cw.map (lab L cutoff hi)) := by
    rw [hlab]
    refine (hperm2.map _).trans ?_
    rw [hd, List.map_map]
    refine (s1.perm.map _).trans ?_
    rw [List.map_map]
    have : (fun x : CrlId => ({ x with bi := L.idxOf x.id, send := if x.goes cutoff hi then 1 else 0 } : CrlId)) ∘ dupOf S ∘ mk = lab L cutoff hi := by
      funext w
      simp only [Function.comp_apply]
      unfold dupOf lab CrlId.goes
      split <;> rfl
    rw [Function.comp_assoc, this]
  have hLlen := hN L hnd (fun a ha => (hmemL a).1 ha)
  have hlt : ∀ w ∈ cw, L.idxOf w.id < L.length := fun w hw => List.idxOf_lt_length_iff.2 ((hmemL _).2 ⟨w, hw, rfl⟩)
  obtain ⟨out, gl, e3, p3, m3, m4⟩ := crlMaps_spec (A.map (lab1 L) ++ B.map (lab0 L)) s (by
    intro x hx
    obtain ⟨w, hw, rfl⟩ := List.mem_map.1 (hperm3.mem_iff.1 hx)
    have := hlt w hw
    show L.idxOf w.id < _
    omega) (by
    intro x hx
    obtain ⟨w, hw, rfl⟩ := List.mem_map.1 (hperm3.mem_iff.1 hx)
    exact hsi w hw)
  refine ⟨out, L, (runs A).length, gl, ?_, hnd, hmemL, ?_, ?_, p3.trans hperm3, ⟨m3.nodup, ?_, ?_⟩, ?_⟩
  · unfold crlWorkLabel
    rw [hmark, e1]
    simp only [Outcome.bind]
    rw [hdup, e2]
    simp only
    rw [hc2, hk, hidx, e3]
    simp only [Outcome.ok.injEq, Labelled.mk.injEq, true_and, and_true]
    refine ⟨hnsend, ?_, ?_⟩
    · rw [List.take_left' (by simp)]
      exact sizeOf_map (lab1 L) L (fun _ _ => rfl) (runs B) hL hnd
    · rw [hlab]
      exact sizeOf_map _ L (fun _ _ => rfl) [] (by rw [List.append_nil]) hnd
  · rw [hL, List.length_append]; omega
  · intro w hw hg
    rw [hL, List.idxOf_append_of_mem]
    · apply List.idxOf_lt_length_iff.2
      refine mem_runs.2 ⟨dupOf S (mk w), ?_, hdup_id _⟩
      rw [hA, List.mem_filter]
      exact ⟨(hdmem _).2 ⟨w, hw, rfl⟩, by simpa using (hsend0 w hw).2 ⟨w, hw, rfl, hg⟩⟩
    · refine mem_runs.2 ⟨dupOf S (mk w), ?_, hdup_id _⟩
      rw [hA, List.mem_filter]
      exact ⟨(hdmem _).2 ⟨w, hw, rfl⟩, by simpa using (hsend0 w hw).2 ⟨w, hw, rfl, hg⟩⟩
  · intro g hg
    refine ⟨(m3.slots g hg).1, fun x => ?_⟩
    rw [(m3.slots g hg).2 x]
    constructor
    · rintro ⟨w, hw, r⟩; exact ⟨w, hperm3.mem_iff.1 hw, r⟩
    · rintro ⟨w, hw, r⟩; exact ⟨w, hperm3.mem_iff.2 hw, r⟩
  · intro w hw; exact m3.cover w (hperm3.mem_iff.2 hw)
  · intro g hg
    obtain ⟨w, hw, e⟩ := m4 g hg
    exact ⟨w, hperm3.mem_iff.1 hw, e⟩

end Gslib.Gs
