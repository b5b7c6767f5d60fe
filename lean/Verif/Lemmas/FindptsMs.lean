import Verif.Lemmas.FindptsMerge
import Verif.Model.FindptsMs
import Verif.Spec.FindptsMs
import Verif.Props.SarraySort

/-! # `findptsms` with several sessions: lemmas -/

namespace Gslib.Fp
open Gslib Gslib.Mpi Gslib.Transfer Gslib.Gs Gslib.Hash Gslib.Num Gslib.Spec

variable {D : Nat} {K : Type} [Field K] [LinearOrder K] [FloorRing K]

omit [Field K] [FloorRing K] in
theorem msBetter_fields (val : Nat → K) (r : OutPt D) (s : MsSt D) : (msBetter val r s).oldindex = s.oldindex ∧ (msBetter val r s).oldelsid = s.oldelsid ∧ (msBetter val r s).istart = s.istart ∧
    (msBetter val r s).ioriginator = s.ioriginator ∧ (msBetter val r s).as = s.as ∧ (msBetter val r s).outs = s.outs ∧ (msBetter val r s).procs = s.procs := by
  unfold msBetter
  split
  · split
    · exact ⟨rfl, rfl, rfl, rfl, rfl, rfl, rfl⟩
    · exact ⟨rfl, rfl, rfl, rfl, rfl, rfl, rfl⟩
  · exact ⟨rfl, rfl, rfl, rfl, rfl, rfl, rfl⟩

omit [Field K] [FloorRing K] in
theorem foldBetter_fields (val : Nat → K) : ∀ (l : List (OutPt D)) (s : MsSt D), let t := l.foldl (fun s r => msBetter val r s) s
    t.oldindex = s.oldindex ∧ t.oldelsid = s.oldelsid ∧ t.istart = s.istart ∧ t.ioriginator = s.ioriginator ∧ t.as = s.as ∧ t.outs = s.outs ∧ t.procs = s.procs
  | [], s => ⟨rfl, rfl, rfl, rfl, rfl, rfl, rfl⟩
  | r :: l, s => by
    obtain ⟨a1, a2, a3, a4, a5, a6, a7⟩ := foldBetter_fields val l (msBetter val r s)
    obtain ⟨b1, b2, b3, b4, b5, b6, b7⟩ := msBetter_fields val r s
    exact ⟨a1.trans b1, a2.trans b2, a3.trans b3, a4.trans b4, a5.trans b5, a6.trans b6, a7.trans b7⟩

/-- the state after `msPoint` and `msSession` for a row of point `i`, session `e` -/
theorem msHead_fields (low : Nat) (first : Bool) (r : OutPt D) (o : LRes D) (q : Nat) (s : MsSt D) : let t := msSession r o q (msPoint low first r o s)
    t.oldindex = r.u 0 ∧ t.oldelsid = r.u 4 ∧ t.istart = true ∧ t.outs = s.outs ∧ t.procs = s.procs := by
  have h1 : (msPoint low first r o s).oldindex = r.u 0 ∧ (msPoint low first r o s).outs = s.outs ∧ (msPoint low first r o s).procs = s.procs := by
    unfold msPoint
    split
    · exact ⟨rfl, rfl, rfl⟩
    · rename_i h
      push Not at h
      exact ⟨h.1.symm, rfl, rfl⟩
  obtain ⟨a, b, c⟩ := h1
  generalize msPoint low first r o s = s' at a b c
  show (msSession r o q s').oldindex = _ ∧ (msSession r o q s').oldelsid = _ ∧ (msSession r o q s').istart = _ ∧ (msSession r o q s').outs = _ ∧ (msSession r o q s').procs = _
  unfold msSession
  split
  · split
    · exact ⟨a, rfl, rfl, b, c⟩
    · exact ⟨a, rfl, rfl, b, c⟩
  · rename_i h
    push Not at h
    exact ⟨a, h.1.symm, by simpa using h.2, b, c⟩

/-- the last row of a session -/
def msFinish (val : Nat → K) (next : Option (OutPt D)) (r : OutPt D) (o : LRes D) (s : MsSt D) : MsSt D :=
  match next with
  | none => msStore val r o (msAll val s)
  | some r' => if r.u 0 ≠ r'.u 0 then msStore val r o (msAll val s) else msAll val s

/-- a block of rows of one point and session -/
theorem msLoop_block (val : Nat → K) (low : Nat) (o : LRes D) (q : Nat) (rest : List (OutPt D)) : ∀ (tail : List (OutPt D)) (first : Bool) (r : OutPt D) (s : MsSt D),
    (∀ r' ∈ tail, r'.u 0 = r.u 0 ∧ r'.u 4 = r.u 4) → (∀ r' ∈ rest.head?, ¬ (r'.u 0 = r.u 0 ∧ r'.u 4 = r.u 4)) → s.outs[r.u 0]? = some o → s.procs[r.u 0]? = some q →
    msLoop val low first (r :: (tail ++ rest)) s =
      msLoop val low false rest (msFinish val rest.head? r o (tail.foldl (fun s r => msBetter val r s) (msBetter val r (msSession r o q (msPoint low first r o s)))))
  | [], first, r, s, _, hr, ho, hq => by
    rw [msLoop, List.nil_append]
    unfold msRow
    rw [ho, Option.bind_some, hq, Option.map_some, Option.bind_some]
    congr 1
    unfold msFinish
    cases hh : rest.head? with
    | none => rfl
    | some r' =>
      have := hr r' (by rw [hh]; rfl)
      show (if r.u 4 ≠ r'.u 4 ∨ r.u 0 ≠ r'.u 0 then _ else _) = _
      rw [if_pos (by
        by_contra hc
        push Not at hc
        exact this ⟨hc.2.symm, hc.1.symm⟩)]
      rfl
  | r2 :: tail, first, r, s, ht, hr, ho, hq => by
    obtain ⟨t1, t2⟩ := ht r2 (by simp)
    obtain ⟨a1, a2, a3, a4, a5⟩ := msHead_fields low first r o q s
    let s1 := msBetter val r (msSession r o q (msPoint low first r o s))
    obtain ⟨b1, b2, b3, b4, b5, b6, b7⟩ := msBetter_fields val r (msSession r o q (msPoint low first r o s))
    have e1 : msRow val low first (some r2) r s = some s1 := by
      unfold msRow
      rw [ho, Option.bind_some, hq, Option.map_some]
      show some (if r.u 4 ≠ r2.u 4 ∨ r.u 0 ≠ r2.u 0 then _ else _) = _
      rw [if_neg (by rw [t1, t2]; simp)]
    have c1 : s1.oldindex = r2.u 0 := by rw [t1]; exact b1.trans a1
    have c2 : s1.oldelsid = r2.u 4 := by rw [t2]; exact b2.trans a2
    have c3 : s1.istart = true := b3.trans a3
    have ih := msLoop_block val low o q rest tail false r2 s1 (fun r' h => by rw [t1, t2]; exact ht r' (by simp [h])) (by rw [t1, t2]; exact hr)
      (by rw [t1]; show s1.outs[_]? = _; rw [show s1.outs = s.outs from b6.trans a4]; exact ho) (by rw [t1]; rw [show s1.procs = s.procs from b7.trans a5]; exact hq)
    have e2 : msSession r2 o q (msPoint low false r2 o s1) = s1 := by
      have : msPoint low false r2 o s1 = s1 := by
        unfold msPoint
        rw [if_neg (by rw [c1]; simp)]
      rw [this]
      unfold msSession
      rw [if_neg (by rw [c2, c3]; simp)]
    rw [e2] at ih
    rw [List.cons_append, msLoop, List.head?_cons, e1, Option.bind_some, ih]
    have e3 : msFinish val rest.head? r2 o = msFinish val rest.head? r o := by
      funext t
      unfold msFinish msStore
      rw [t1]
    rw [e3]
    rfl

/-- the merged data: `F i` are the results for point `i`, `L i` its candidates on the own process, `B r` the candidates of a row -/
structure MsOk (val : Nat → K) (low n : Nat) (sess : Nat → Nat) (F : Nat → Nat → Nat → FRes D) (L : Nat → Nat → Nat → Prop) (B : OutPt D → Nat → Nat → Prop) (outs0 : List (LRes D)) (procs0 : List Nat) (rows : List (OutPt D)) : Prop where
  len : outs0.length = n
  plen : procs0.length = n
  low : ∀ i q el, val low ≤ val (F i q el).disti
  own : ∀ (i : Nat) o q, outs0[i]? = some o → procs0[i]? = some q → IsBest val (F i) (L i) (o.toPt q) ∧ (o.code ≠ 2 → o.disti = (F i q o.el).disti ∧ ∀ q el, L i q el → sess q = o.elsid)
  row : ∀ r ∈ rows, r.u 0 < n ∧ r.u 1 ≠ 2 ∧ IsBest val (F (r.u 0)) (B r) ((outRes r).toPt (r.u 3)) ∧ (outRes r).disti = (F (r.u 0) (r.u 3) (r.u 2)).disti ∧ ∀ q el, B r q el → sess q = r.u 4
  sorted : rows.Pairwise fun a b => a.u 0 < b.u 0 ∨ (a.u 0 = b.u 0 ∧ a.u 4 ≤ b.u 4)

/-- the candidates of a point -/
def MsC (L : Nat → Nat → Nat → Prop) (B : OutPt D → Nat → Nat → Prop) (rows : List (OutPt D)) (i q el : Nat) : Prop := L i q el ∨ ∃ r ∈ rows, r.u 0 = i ∧ B r q el

/-- a best result with its `disti` -/
def Good (val : Nat → K) (F : Nat → Nat → FRes D) (C : Nat → Nat → Prop) (x : LRes D × Nat) : Prop :=
  x.1.code ≠ 2 ∧ IsBest val F C (x.1.toPt x.2) ∧ x.1.disti = (F x.2 x.1.el).disti

omit [Field K] [FloorRing K] in
/-- the better of two -/
theorem good_better {val : Nat → K} {F : Nat → Nat → FRes D} {C : Nat → Nat → Prop} {r : OutPt D} {B : Nat → Nat → Prop} (h1 : r.u 1 ≠ 2) (h2 : IsBest val F B ((outRes r).toPt (r.u 3)))
    (h3 : (outRes r).disti = (F (r.u 3) (r.u 2)).disti) (s : MsSt D) (hs : Good val F C s.cs ∨ (s.cs.1.code = 2 ∧ ∀ q el, ¬ C q el)) :
    Good val F (fun q el => C q el ∨ B q el) (msBetter val r s).cs := by
  have hb : IsBest val F C (s.cs.1.toPt s.cs.2) := by
    rcases hs with h | ⟨h, h'⟩
    · exact h.2.1
    · exact Or.inl ⟨h, h'⟩
  have hm := IsBest.merge hb h2 h1
  unfold msBetter
  by_cases hc : s.cs.1.code = codeInternal
  · rw [if_neg (by simpa using hc)]
    rw [if_pos (show (s.cs.1.toPt s.cs.2).code = 0 from hc)] at hm
    rcases hs with h | ⟨h, _⟩
    · exact ⟨h.1, hm, h.2.2⟩
    · have : s.cs.1.code = 0 := hc
      omega
  · rw [if_pos hc]
    rw [if_neg (show ¬ (s.cs.1.toPt s.cs.2).code = 0 from hc)] at hm
    by_cases hu : s.cs.1.code = codeNotFound ∨ r.u 1 = codeInternal ∨ val (outRes r).dist2 < val s.cs.1.dist2
    · rw [if_pos hu]
      rw [if_pos (by exact hu)] at hm
      exact ⟨h1, hm, h3⟩
    · rw [if_neg hu]
      rw [if_neg (by exact hu)] at hm
      rcases hs with h | ⟨h, _⟩
      · exact ⟨h.1, hm, h.2.2⟩
      · exact absurd (Or.inl h) hu

omit [Field K] [FloorRing K] in
theorem good_fold {val : Nat → K} {F : Nat → Nat → FRes D} {B : OutPt D → Nat → Nat → Prop} : ∀ (l : List (OutPt D)) (C : Nat → Nat → Prop) (s : MsSt D), (∀ r ∈ l, r.u 1 ≠ 2 ∧ IsBest val F (B r) ((outRes r).toPt (r.u 3)) ∧
    (outRes r).disti = (F (r.u 3) (r.u 2)).disti) → Good val F C s.cs → Good val F (fun q el => C q el ∨ ∃ r ∈ l, B r q el) (l.foldl (fun s r => msBetter val r s) s).cs
  | [], C, s, _, h => by simpa using h
  | r :: l, C, s, hr, h => by
    obtain ⟨a, b, c⟩ := hr r (by simp)
    have := good_fold l _ _ (fun r' h' => hr r' (by simp [h'])) (good_better a b c s (Or.inl h))
    rw [List.foldl_cons]
    simpa only [List.mem_cons, exists_eq_or_imp, or_assoc] using this

/-- result of a point: a best one -/
def Final (val : Nat → K) (sess : Nat → Nat) (F : Nat → Nat → FRes D) (C : Nat → Nat → Prop) (x : LRes D × Nat) : Prop :=
  (x.1.code = 2 ∧ ∀ q el, ¬ C q el) ∨ ∃ e, Good val F (fun q el => C q el ∧ sess q = e) x ∧ ∀ e', (∃ q el, C q el ∧ sess q = e') → ∃ y, Good val F (fun q el => C q el ∧ sess q = e') y ∧ val y.1.disti ≤ val x.1.disti

omit [Field K] [FloorRing K] in
theorem Final.best {val : Nat → K} {sess : Nat → Nat} {F : Nat → Nat → FRes D} {C : Nat → Nat → Prop} {x : LRes D × Nat} (h : Final val sess F C x) : IsBestMs val F sess C (x.1.toPt x.2) := by
  rcases h with h | ⟨e, ⟨h1, h2, h3⟩, h4⟩
  · exact Or.inl h
  · refine Or.inr ⟨h1, e, h2, fun e' he' => ?_⟩
    obtain ⟨y, ⟨y1, y2, y3⟩, y4⟩ := h4 e' he'
    refine ⟨_, y2, ?_⟩
    rw [y3, h3] at y4
    exact y4

/-- the state between two sessions -/
structure MsInv (val : Nat → K) (sess : Nat → Nat) (F : Nat → Nat → Nat → FRes D) (L : Nat → Nat → Nat → Prop) (B : OutPt D → Nat → Nat → Prop) (outs0 : List (LRes D)) (procs0 : List Nat) (rows : List (OutPt D))
    (first : Bool) (pre rest : List (OutPt D)) (s : MsSt D) : Prop where
  len : s.outs.length = outs0.length
  plen : s.procs.length = procs0.length
  done : ∀ (i : Nat) o q, (∀ r ∈ rest, r.u 0 ≠ i) → s.outs[i]? = some o → s.procs[i]? = some q → Final val sess (F i) (MsC L B rows i) (o, q)
  same : ∀ i : Nat, (∃ r ∈ rest, r.u 0 = i) → s.outs[i]? = outs0[i]? ∧ s.procs[i]? = procs0[i]?
  start : first = true → pre = []
  old : first = false → (∃ r ∈ pre, s.oldindex = r.u 0) ∧ ∀ r ∈ pre, r.u 0 ≤ s.oldindex
  sep : ∀ r' ∈ pre, ∀ r ∈ rest, ¬ (r'.u 0 = r.u 0 ∧ r'.u 4 = r.u 4)
  mid : ∀ r ∈ rest.head?, first = false → s.oldindex = r.u 0 → s.istart = true ∧ s.oldelsid ≠ r.u 4 ∧
    (∀ o, outs0[r.u 0]? = some o → (s.ioriginator = true ↔ o.code ≠ 2 ∧ ∀ r' ∈ pre, r'.u 0 = r.u 0 → r'.u 4 ≠ o.elsid)) ∧
    ∃ e, Good val (F (r.u 0)) (fun q el => MsC L B rows (r.u 0) q el ∧ sess q = e) s.as ∧
      ∀ r' ∈ pre, r'.u 0 = r.u 0 → ∃ y, Good val (F (r.u 0)) (fun q el => MsC L B rows (r.u 0) q el ∧ sess q = r'.u 4) y ∧ val y.1.disti ≤ val s.as.1.disti

/-- the invariant of the winner of all sessions of point `i` -/
def AsInv (val : Nat → K) (sess : Nat → Nat) (F : Nat → Nat → FRes D) (C : Nat → Nat → Prop) (pre : List (OutPt D)) (i : Nat) (as : LRes D × Nat) : Prop :=
  ∃ e, Good val F (fun q el => C q el ∧ sess q = e) as ∧ ∀ r' ∈ pre, r'.u 0 = i → ∃ y, Good val F (fun q el => C q el ∧ sess q = r'.u 4) y ∧ val y.1.disti ≤ val as.1.disti

/-- the state after `msPoint` -/
theorem msPoint_inv {val : Nat → K} {low n : Nat} {sess : Nat → Nat} {F : Nat → Nat → Nat → FRes D} {L : Nat → Nat → Nat → Prop} {B : OutPt D → Nat → Nat → Prop} {outs0 : List (LRes D)} {procs0 : List Nat} {rows : List (OutPt D)}
    (H : MsOk val low n sess F L B outs0 procs0 rows) {first : Bool} {pre l : List (OutPt D)} {r : OutPt D} {s : MsSt D} (hrows : rows = pre ++ r :: l) (I : MsInv val sess F L B outs0 procs0 rows first pre (r :: l) s)
    {o : LRes D} (ho : outs0[r.u 0]? = some o) : let t := msPoint low first r o s
    (t.oldelsid ≠ r.u 4 ∨ t.istart = false) ∧ (t.ioriginator = true ↔ o.code ≠ 2 ∧ ∀ r' ∈ pre, r'.u 0 = r.u 0 → r'.u 4 ≠ o.elsid) ∧
      (((∀ r' ∈ pre, r'.u 0 ≠ r.u 0) ∧ t.as.1.disti = low) ∨ AsInv val sess (F (r.u 0)) (MsC L B rows (r.u 0)) pre (r.u 0) t.as) := by
  by_cases hn : r.u 0 ≠ s.oldindex ∨ first = true
  · have hno : ∀ r' ∈ pre, r'.u 0 ≠ r.u 0 := by
      intro r' hr' he
      have hs := H.sorted
      rw [hrows, List.pairwise_append] at hs
      cases hf : first with
      | true => rw [I.start hf] at hr'; simp at hr'
      | false =>
        obtain ⟨⟨r2, h2, e2⟩, h3⟩ := I.old hf
        have a := h3 r' hr'
        have b := hs.2.2 r2 h2 r (by simp)
        rw [hf] at hn
        have c : r.u 0 ≠ s.oldindex := by simpa using hn
        omega
    unfold msPoint
    rw [if_pos hn]
    refine ⟨Or.inr rfl, ?_, Or.inl ⟨hno, rfl⟩⟩
    show (o.code != codeNotFound) = true ↔ _
    rw [bne_iff_ne]
    exact ⟨fun h => ⟨h, fun r' hr' he => absurd he (hno r' hr')⟩, fun h => h.1⟩
  · have hp : msPoint low first r o s = s := by unfold msPoint; rw [if_neg hn]
    push Not at hn
    obtain ⟨m1, m2, m3, m4⟩ := I.mid r rfl (by simpa using hn.2) hn.1.symm
    rw [hp]
    exact ⟨Or.inl m2, m3 o ho, Or.inr m4⟩

omit [Field K] [FloorRing K] in
theorem best_empty {val : Nat → K} {find : Nat → Nat → FRes D} {C : Nat → Nat → Prop} {res : PtRes D} (h : IsBest val find C res) (h2 : res.code = 2) : ∀ q el, ¬ C q el := by
  rcases h with ⟨_, h⟩ | ⟨h, _⟩ | ⟨h, _⟩
  · exact h
  · omega
  · omega

/-- a whole session of a point -/
theorem ms_block {val : Nat → K} {low n : Nat} {sess : Nat → Nat} {F : Nat → Nat → Nat → FRes D} {L : Nat → Nat → Nat → Prop} {B : OutPt D → Nat → Nat → Prop} {outs0 : List (LRes D)} {procs0 : List Nat} {rows : List (OutPt D)}
    (H : MsOk val low n sess F L B outs0 procs0 rows) {first : Bool} {pre tail rest : List (OutPt D)} {r : OutPt D} {s : MsSt D} (hrows : rows = pre ++ r :: (tail ++ rest))
    (htail : ∀ r' ∈ tail, r'.u 0 = r.u 0 ∧ r'.u 4 = r.u 4) (hrest : ∀ r' ∈ rest, r.u 0 < r'.u 0 ∨ (r.u 0 = r'.u 0 ∧ r.u 4 < r'.u 4))
    (I : MsInv val sess F L B outs0 procs0 rows first pre (r :: (tail ++ rest)) s) {o : LRes D} {q : Nat} (ho : outs0[r.u 0]? = some o) (hq : procs0[r.u 0]? = some q) :
    let t := msAll val (tail.foldl (fun s r => msBetter val r s) (msBetter val r (msSession r o q (msPoint low first r o s))))
    t.oldindex = r.u 0 ∧ t.oldelsid = r.u 4 ∧ t.istart = true ∧ t.outs = s.outs ∧ t.procs = s.procs ∧
      (t.ioriginator = true ↔ o.code ≠ 2 ∧ ∀ r' ∈ pre ++ r :: tail, r'.u 0 = r.u 0 → r'.u 4 ≠ o.elsid) ∧ AsInv val sess (F (r.u 0)) (MsC L B rows (r.u 0)) (pre ++ r :: tail) (r.u 0) t.as := by
  obtain ⟨p1, p2, p3⟩ := msPoint_inv H hrows I ho
  obtain ⟨a1, a2, a3, a4, a5⟩ := msHead_fields low first r o q s
  obtain ⟨b1, b2, b3, b4, b5, b6, b7⟩ := msBetter_fields val r (msSession r o q (msPoint low first r o s))
  obtain ⟨c1, c2, c3, c4, c5, c6, c7⟩ := foldBetter_fields val tail (msBetter val r (msSession r o q (msPoint low first r o s)))
  obtain ⟨w1, w2⟩ := H.own _ o q ho hq
  have hblk : ∀ r' ∈ r :: tail, r'.u 0 = r.u 0 ∧ r'.u 4 = r.u 4 := by
    intro r' h
    rcases List.mem_cons.1 h with rfl | h
    · exact ⟨rfl, rfl⟩
    · exact htail r' h
  have hin : ∀ r' ∈ r :: tail, r' ∈ rows := by
    intro r' h
    rw [hrows, ← List.cons_append]
    exact List.mem_append_right _ (List.mem_append_left _ h)
  -- the session
  have hsess : (Good val (F (r.u 0)) (fun q el => L (r.u 0) q el ∧ sess q = r.u 4) (msSession r o q (msPoint low first r o s)).cs ∨
      ((msSession r o q (msPoint low first r o s)).cs.1.code = 2 ∧ ∀ q el, ¬ (L (r.u 0) q el ∧ sess q = r.u 4))) ∧
      ((msSession r o q (msPoint low first r o s)).ioriginator = true ↔ o.code ≠ 2 ∧ ∀ r' ∈ pre ++ r :: tail, r'.u 0 = r.u 0 → r'.u 4 ≠ o.elsid) ∧
      (msSession r o q (msPoint low first r o s)).as = (msPoint low first r o s).as := by
    generalize msPoint low first r o s = t at p1 p2 p3
    unfold msSession
    rw [if_pos (by
      rcases p1 with h | h
      · exact Or.inl (Ne.symm h)
      · exact Or.inr h)]
    by_cases hc : t.ioriginator = true ∧ o.elsid = r.u 4
    · rw [if_pos hc]
      have hcode := (p2.1 hc.1).1
      refine ⟨Or.inl ⟨hcode, ?_, (w2 hcode).1⟩, ?_, rfl⟩
      · show IsBest val (F (r.u 0)) _ (o.toPt q)
        refine (congrArg (fun C => IsBest val (F (r.u 0)) C (o.toPt q)) ?_).mp w1
        funext q el
        refine propext ⟨fun h => ⟨h, ((w2 hcode).2 q el h).trans hc.2⟩, fun h => h.1⟩
      · refine iff_of_false (by simp) ?_
        rintro ⟨_, h⟩
        exact h r (by simp) rfl hc.2.symm
    · rw [if_neg hc]
      refine ⟨Or.inr ⟨rfl, ?_⟩, ?_, rfl⟩
      · rintro q' el ⟨h1, h2⟩
        have hcode : o.code ≠ 2 := fun h => best_empty w1 h q' el h1
        have hs := (w2 hcode).2 q' el h1
        apply hc
        refine ⟨p2.2 ⟨hcode, ?_⟩, hs.symm.trans h2⟩
        intro r' hr' he hel
        exact I.sep r' hr' r (by simp) ⟨he, by rw [hel, ← hs, h2]⟩
      · show t.ioriginator = true ↔ _
        rw [p2]
        refine and_congr_right fun hcode => ⟨fun h r' hr' he => ?_, fun h r' hr' he => h r' (List.mem_append_left _ hr') he⟩
        rcases List.mem_append.1 hr' with hr' | hr'
        · exact h r' hr' he
        · intro hel
          exact hc ⟨p2.2 ⟨hcode, h⟩, by rw [← hel, (hblk r' hr').2]⟩
  obtain ⟨s1, s2, s3⟩ := hsess
  have hr0 := H.row r (hin r (by simp))
  have hg := good_better hr0.2.1 hr0.2.2.1 hr0.2.2.2.1 _ s1
  have hg := good_fold (B := B) tail _ _ (fun r' h => by
    have := H.row r' (hin r' (by simp [h]))
    rw [(htail r' h).1] at this
    exact ⟨this.2.1, this.2.2.1, this.2.2.2.1⟩) hg
  have hset : (fun q el => ((L (r.u 0) q el ∧ sess q = r.u 4) ∨ B r q el) ∨ ∃ r' ∈ tail, B r' q el) = fun q el => MsC L B rows (r.u 0) q el ∧ sess q = r.u 4 := by
    funext q el
    refine propext ⟨?_, ?_⟩
    · rintro ((⟨h1, h2⟩ | h) | ⟨r', h1, h2⟩)
      · exact ⟨Or.inl h1, h2⟩
      · exact ⟨Or.inr ⟨r, hin r (by simp), rfl, h⟩, hr0.2.2.2.2 q el h⟩
      · have := H.row r' (hin r' (by simp [h1]))
        exact ⟨Or.inr ⟨r', hin r' (by simp [h1]), (htail r' h1).1, h2⟩, by rw [← (htail r' h1).2]; exact this.2.2.2.2 q el h2⟩
    · rintro ⟨h | ⟨r', h1, h2, h3⟩, h4⟩
      · exact Or.inl (Or.inl ⟨h, h4⟩)
      · have he : r'.u 4 = r.u 4 := by rw [← h4]; exact ((H.row r' h1).2.2.2.2 q el h3).symm
        rw [hrows] at h1
        rcases List.mem_append.1 h1 with h1 | h1
        · exact absurd ⟨h2, he⟩ (I.sep r' h1 r (by simp))
        · rcases List.mem_cons.1 h1 with rfl | h1
          · exact Or.inl (Or.inr h3)
          · rcases List.mem_append.1 h1 with h1 | h1
            · exact Or.inr ⟨r', h1, h3⟩
            · have := hrest r' h1
              omega
  rw [hset] at hg
  have has : (tail.foldl (fun s r => msBetter val r s) (msBetter val r (msSession r o q (msPoint low first r o s)))).as = (msPoint low first r o s).as := c5.trans (b5.trans s3)
  have hio := c4.trans b4
  generalize tail.foldl (fun s r => msBetter val r s) (msBetter val r (msSession r o q (msPoint low first r o s))) = t at *
  have hall : (msAll val t).oldindex = t.oldindex ∧ (msAll val t).oldelsid = t.oldelsid ∧ (msAll val t).istart = t.istart ∧ (msAll val t).outs = t.outs ∧ (msAll val t).procs = t.procs ∧ (msAll val t).ioriginator = t.ioriginator := by
    unfold msAll
    split
    · exact ⟨rfl, rfl, rfl, rfl, rfl, rfl⟩
    · exact ⟨rfl, rfl, rfl, rfl, rfl, rfl⟩
  obtain ⟨d1, d2, d3, d4, d5, d6⟩ := hall
  refine ⟨d1.trans (c1.trans (b1.trans a1)), d2.trans (c2.trans (b2.trans a2)), d3.trans (c3.trans (b3.trans a3)), d4.trans (c6.trans (b6.trans a4)), d5.trans (c7.trans (b7.trans a5)), by rw [d6, hio]; exact s2, ?_⟩
  have hcs : val t.as.1.disti ≤ val t.cs.1.disti → AsInv val sess (F (r.u 0)) (MsC L B rows (r.u 0)) (pre ++ r :: tail) (r.u 0) t.cs := by
    intro hle
    refine ⟨r.u 4, hg, ?_⟩
    intro r' hr' he
    rcases List.mem_append.1 hr' with hr' | hr'
    · rw [has] at hle
      rcases p3 with ⟨h, _⟩ | ⟨e, g, h⟩
      · exact absurd he (h r' hr')
      · obtain ⟨y, y1, y2⟩ := h r' hr' he
        exact ⟨y, y1, y2.trans hle⟩
    · rw [(hblk r' hr').2]
      exact ⟨t.cs, hg, le_refl _⟩
  unfold msAll
  by_cases hle : val t.as.1.disti ≤ val t.cs.1.disti
  · rw [if_pos hle]
    exact hcs hle
  · rw [if_neg hle]
    show AsInv val sess (F (r.u 0)) (MsC L B rows (r.u 0)) (pre ++ r :: tail) (r.u 0) t.as
    rcases p3 with ⟨_, h⟩ | ⟨e, g, h⟩
    · exfalso
      apply hle
      rw [has, h, hg.2.2]
      exact H.low _ _ _
    · refine ⟨e, by rw [has]; exact g, ?_⟩
      intro r' hr' he
      rcases List.mem_append.1 hr' with hr' | hr'
      · obtain ⟨y, y1, y2⟩ := h r' hr' he
        exact ⟨y, y1, by rw [has]; exact y2⟩
      · rw [(hblk r' hr').2]
        exact ⟨t.cs, hg, (not_le.1 hle).le⟩

/-- the stored winner -/
theorem ms_final {val : Nat → K} {low n : Nat} {sess : Nat → Nat} {F : Nat → Nat → Nat → FRes D} {L : Nat → Nat → Nat → Prop} {B : OutPt D → Nat → Nat → Prop} {outs0 : List (LRes D)} {procs0 : List Nat} {rows : List (OutPt D)}
    (H : MsOk val low n sess F L B outs0 procs0 rows) {i : Nat} {o : LRes D} {q : Nat} (ho : outs0[i]? = some o) (hq : procs0[i]? = some q) {as : LRes D × Nat} {ior : Bool}
    (h1 : ior = true ↔ o.code ≠ 2 ∧ ∀ r' ∈ rows, r'.u 0 = i → r'.u 4 ≠ o.elsid) (h2 : AsInv val sess (F i) (MsC L B rows i) rows i as) :
    Final val sess (F i) (MsC L B rows i) (if ¬ (ior = true ∧ val as.1.disti < val o.disti) then as else (o, q)) := by
  obtain ⟨w1, w2⟩ := H.own _ o q ho hq
  obtain ⟨e, g, h⟩ := h2
  -- the own result is the one of its session when no row is of this session
  have hown : ior = true → Good val (F i) (fun q el => MsC L B rows i q el ∧ sess q = o.elsid) (o, q) := by
    intro hi
    obtain ⟨hc, hno⟩ := h1.1 hi
    refine ⟨hc, ?_, (w2 hc).1⟩
    refine (congrArg (fun C => IsBest val (F i) C (o.toPt q)) ?_).mp w1
    funext q el
    refine propext ⟨fun h => ⟨Or.inl h, (w2 hc).2 q el h⟩, ?_⟩
    rintro ⟨h | ⟨r', a, b, c⟩, d⟩
    · exact h
    · exact absurd (by rw [← d]; exact ((H.row r' a).2.2.2.2 q el c).symm) (hno r' a b)
  -- every session is the one of a row, or the own one
  have hsess : ∀ e', (∃ q el, MsC L B rows i q el ∧ sess q = e') → (∃ r' ∈ rows, r'.u 0 = i ∧ r'.u 4 = e') ∨ (ior = true ∧ e' = o.elsid) := by
    rintro e' ⟨q', el, hc | ⟨r', a, b, c⟩, d⟩
    · have hcode : o.code ≠ 2 := fun h => best_empty w1 h q' el hc
      have he := (w2 hcode).2 q' el hc
      by_cases hr : ∃ r' ∈ rows, r'.u 0 = i ∧ r'.u 4 = e'
      · exact Or.inl hr
      · refine Or.inr ⟨h1.2 ⟨hcode, fun r' hr' hi hel => hr ⟨r', hr', hi, by rw [hel, ← he, d]⟩⟩, by rw [← d, he]⟩
    · exact Or.inl ⟨r', a, b, by rw [← d]; exact ((H.row r' a).2.2.2.2 q' el c).symm⟩
  by_cases hb : ior = true ∧ val as.1.disti < val o.disti
  · rw [if_neg (not_not.2 hb)]
    refine Or.inr ⟨o.elsid, hown hb.1, fun e' he' => ?_⟩
    rcases hsess e' he' with ⟨r', a, b, rfl⟩ | ⟨_, rfl⟩
    · obtain ⟨y, y1, y2⟩ := h r' a b
      exact ⟨y, y1, y2.trans hb.2.le⟩
    · exact ⟨(o, q), hown hb.1, le_refl _⟩
  · rw [if_pos hb]
    refine Or.inr ⟨e, g, fun e' he' => ?_⟩
    rcases hsess e' he' with ⟨r', a, b, rfl⟩ | ⟨hi, rfl⟩
    · exact h r' a b
    · exact ⟨(o, q), hown hi, not_lt.1 fun hlt => hb ⟨hi, hlt⟩⟩

/-- the invariant is kept by a session -/
theorem ms_step {val : Nat → K} {low n : Nat} {sess : Nat → Nat} {F : Nat → Nat → Nat → FRes D} {L : Nat → Nat → Nat → Prop} {B : OutPt D → Nat → Nat → Prop} {outs0 : List (LRes D)} {procs0 : List Nat} {rows : List (OutPt D)}
    (H : MsOk val low n sess F L B outs0 procs0 rows) {first : Bool} {pre tail rest : List (OutPt D)} {r : OutPt D} {s : MsSt D} (hrows : rows = pre ++ r :: (tail ++ rest))
    (htail : ∀ r' ∈ tail, r'.u 0 = r.u 0 ∧ r'.u 4 = r.u 4) (hrest : ∀ r' ∈ rest, r.u 0 < r'.u 0 ∨ (r.u 0 = r'.u 0 ∧ r.u 4 < r'.u 4))
    (I : MsInv val sess F L B outs0 procs0 rows first pre (r :: (tail ++ rest)) s) :
    ∃ s', msLoop val low first (r :: (tail ++ rest)) s = msLoop val low false rest s' ∧ MsInv val sess F L B outs0 procs0 rows false (pre ++ r :: tail) rest s' := by
  have hr0 := H.row r (by rw [hrows]; simp)
  obtain ⟨o, ho⟩ : ∃ o, outs0[r.u 0]? = some o := ⟨_, List.getElem?_eq_getElem (by rw [H.len]; exact hr0.1)⟩
  obtain ⟨q, hq⟩ : ∃ q, procs0[r.u 0]? = some q := ⟨_, List.getElem?_eq_getElem (by rw [H.plen]; exact hr0.1)⟩
  obtain ⟨e1, e2⟩ := I.same (r.u 0) ⟨r, by simp, rfl⟩
  have hblk := ms_block H hrows htail hrest I ho hq
  have hloop := msLoop_block val low o q rest tail first r s htail (fun r' hr' => by
    have := hrest r' (List.mem_of_mem_head? hr')
    omega) (e1.trans ho) (e2.trans hq)
  refine ⟨_, hloop, ?_⟩
  have hsrt := H.sorted
  rw [hrows, List.pairwise_append] at hsrt
  have hle : ∀ r' ∈ pre ++ r :: tail, r'.u 0 ≤ r.u 0 := by
    intro r' hr'
    rcases List.mem_append.1 hr' with h | h
    · have := hsrt.2.2 r' h r (by simp)
      omega
    · rcases List.mem_cons.1 h with rfl | h
      · exact le_refl _
      · exact (htail r' h).1.le
  have hsep : ∀ r' ∈ pre ++ r :: tail, ∀ r'' ∈ rest, ¬ (r'.u 0 = r''.u 0 ∧ r'.u 4 = r''.u 4) := by
    intro r' hr' r'' hr''
    rcases List.mem_append.1 hr' with h | h
    · exact I.sep r' h r'' (by simp [hr''])
    · have := hrest r'' hr''
      rcases List.mem_cons.1 h with rfl | h
      · omega
      · have := htail r' h
        omega
  have hsome : ∃ r' ∈ pre ++ r :: tail, r.u 0 = r'.u 0 := ⟨r, by simp, rfl⟩
  generalize hs2 : tail.foldl (fun s r => msBetter val r s) (msBetter val r (msSession r o q (msPoint low first r o s))) = s2 at *
  obtain ⟨a1, a2, a3, a4, a5, a6, a7⟩ := hblk
  have hrs : rest.Pairwise fun a b => a.u 0 < b.u 0 ∨ (a.u 0 = b.u 0 ∧ a.u 4 ≤ b.u 4) := (List.pairwise_append.1 (List.pairwise_cons.1 hsrt.2.1).2).2.1
  by_cases hlast : ∀ r' ∈ rest.head?, r.u 0 ≠ r'.u 0
  · -- the last row of the point
    have hfin : msFinish val rest.head? r o s2 = msStore val r o (msAll val s2) := by
      unfold msFinish
      cases hh : rest.head? with
      | none => rfl
      | some r' => exact if_pos (hlast r' (by rw [hh]; rfl))
    have hgt : ∀ r' ∈ rest, r.u 0 < r'.u 0 := by
      intro r' hr'
      cases rest with
      | nil => simp at hr'
      | cons h l =>
        have h1 := hlast h rfl
        have h2 := hrest h (by simp)
        rcases List.mem_cons.1 hr' with rfl | hr'
        · omega
        · have := (List.pairwise_cons.1 hrs).1 r' hr'
          omega
    have hmem : ∀ r' ∈ rows, r'.u 0 = r.u 0 → r' ∈ pre ++ r :: tail := by
      intro r' hr' he
      rw [hrows, ← List.cons_append, ← List.append_assoc] at hr'
      rcases List.mem_append.1 hr' with h | h
      · exact h
      · have := hgt r' h
        omega
    have hmem' : ∀ r' ∈ pre ++ r :: tail, r' ∈ rows := by
      intro r' hr'
      rw [hrows, ← List.cons_append, ← List.append_assoc]
      exact List.mem_append_left _ hr'
    have hF := ms_final H ho hq (as := (msAll val s2).as) (ior := (msAll val s2).ioriginator) (by
        rw [a6]
        exact and_congr_right fun _ => ⟨fun h r' hr' he => h r' (hmem r' hr' he) he, fun h r' hr' he => h r' (hmem' r' hr') he⟩)
      (by
        obtain ⟨e, g, h⟩ := a7
        exact ⟨e, g, fun r' hr' he => h r' (hmem r' hr' he) he⟩)
    rw [hfin]
    generalize msAll val s2 = t at *
    have hst : (msStore val r o t).oldindex = t.oldindex ∧ (msStore val r o t).outs.length = t.outs.length ∧ (msStore val r o t).procs.length = t.procs.length ∧
        (∀ j, j ≠ r.u 0 → (msStore val r o t).outs[j]? = t.outs[j]? ∧ (msStore val r o t).procs[j]? = t.procs[j]?) ∧
        (∀ o' q', (msStore val r o t).outs[r.u 0]? = some o' → (msStore val r o t).procs[r.u 0]? = some q' → Final val sess (F (r.u 0)) (MsC L B rows (r.u 0)) (o', q')) := by
      unfold msStore
      by_cases hc : ¬ (t.ioriginator = true ∧ val t.as.1.disti < val o.disti)
      · rw [if_pos hc] at hF ⊢
        refine ⟨rfl, by simp, by simp, fun j hj => ⟨List.getElem?_set_ne hj.symm, List.getElem?_set_ne hj.symm⟩, ?_⟩
        intro o' q' h1 h2
        have l1 : r.u 0 < t.outs.length := by rw [a4, I.len, H.len]; exact hr0.1
        have l2 : r.u 0 < t.procs.length := by rw [a5, I.plen, H.plen]; exact hr0.1
        rw [show ((_ : MsSt D).outs[r.u 0]? = some o') = ((t.outs.set (r.u 0) t.as.1)[r.u 0]? = some o') from rfl, List.getElem?_set_self l1] at h1
        rw [show ((_ : MsSt D).procs[r.u 0]? = some q') = ((t.procs.set (r.u 0) t.as.2)[r.u 0]? = some q') from rfl, List.getElem?_set_self l2] at h2
        obtain rfl := Option.some.inj h1
        obtain rfl := Option.some.inj h2
        exact hF
      · rw [if_neg hc] at hF ⊢
        refine ⟨rfl, rfl, rfl, fun _ _ => ⟨rfl, rfl⟩, ?_⟩
        intro o' q' h1 h2
        rw [a4, e1, ho] at h1
        rw [a5, e2, hq] at h2
        obtain rfl := Option.some.inj h1
        obtain rfl := Option.some.inj h2
        exact hF
    obtain ⟨b1, b2, b3, b4, b5⟩ := hst
    refine ⟨b2.trans (by rw [a4]; exact I.len), b3.trans (by rw [a5]; exact I.plen), ?_, ?_, fun h => absurd h (by decide), fun _ => ⟨?_, ?_⟩, hsep, ?_⟩
    · intro j o' q' hno h1 h2
      by_cases hj : j = r.u 0
      · subst hj
        exact b5 o' q' h1 h2
      · rw [(b4 j hj).1, a4] at h1
        rw [(b4 j hj).2, a5] at h2
        refine I.done j o' q' ?_ h1 h2
        intro r' hr'
        rcases List.mem_cons.1 hr' with rfl | hr'
        · exact Ne.symm hj
        · rcases List.mem_append.1 hr' with hr' | hr'
          · rw [(htail r' hr').1]; exact Ne.symm hj
          · exact hno r' hr'
    · rintro j ⟨r', hr', rfl⟩
      have hj : r'.u 0 ≠ r.u 0 := by
        have := hgt r' hr'
        omega
      rw [(b4 _ hj).1, (b4 _ hj).2, a4, a5]
      exact I.same _ ⟨r', by simp [hr'], rfl⟩
    · rw [b1, a1]; exact hsome
    · rw [b1, a1]; exact hle
    · intro r' hr' _ he
      rw [b1, a1] at he
      exact absurd he (hlast r' hr')
  · push Not at hlast
    obtain ⟨r', hr', he⟩ := hlast
    have hfin : msFinish val rest.head? r o s2 = msAll val s2 := by
      unfold msFinish
      rw [hr']
      exact if_neg (not_not.2 he)
    rw [hfin]
    have hrm : r' ∈ rest := List.mem_of_mem_head? hr'
    generalize msAll val s2 = t at *
    refine ⟨by rw [a4]; exact I.len, by rw [a5]; exact I.plen, ?_, ?_, fun h => absurd h (by decide), fun _ => ⟨?_, ?_⟩, hsep, ?_⟩
    · intro j o' q' hno h1 h2
      rw [a4] at h1
      rw [a5] at h2
      refine I.done j o' q' ?_ h1 h2
      have hj := hno r' hrm
      intro r2 h2
      rcases List.mem_cons.1 h2 with rfl | h2
      · rw [he]; exact hj
      · rcases List.mem_append.1 h2 with h2 | h2
        · rw [(htail r2 h2).1, he]; exact hj
        · exact hno r2 h2
    · rintro j ⟨r2, h2, rfl⟩
      rw [a4, a5]
      exact I.same _ ⟨r2, by simp [h2], rfl⟩
    · rw [a1]; exact hsome
    · rw [a1]; exact hle
    · intro r2 h2 _ _
      obtain rfl : r' = r2 := Option.some.inj (hr'.symm.trans h2)
      rw [← he]
      refine ⟨a3, ?_, ?_, a7⟩
      · rw [a2]
        have := hrest r' hrm
        omega
      · intro o' ho'
        rw [ho] at ho'
        obtain rfl := Option.some.inj ho'
        exact a6

/-- the whole loop -/
theorem ms_loop {val : Nat → K} {low n : Nat} {sess : Nat → Nat} {F : Nat → Nat → Nat → FRes D} {L : Nat → Nat → Nat → Prop} {B : OutPt D → Nat → Nat → Prop} {outs0 : List (LRes D)} {procs0 : List Nat} {rows : List (OutPt D)}
    (H : MsOk val low n sess F L B outs0 procs0 rows) : ∀ (m : Nat) (first : Bool) (pre rest : List (OutPt D)) (s : MsSt D), rest.length ≤ m → rows = pre ++ rest → MsInv val sess F L B outs0 procs0 rows first pre rest s →
    ∃ s', msLoop val low first rest s = some s' ∧ s'.outs.length = outs0.length ∧ s'.procs.length = procs0.length ∧
      ∀ (i : Nat) o q, s'.outs[i]? = some o → s'.procs[i]? = some q → Final val sess (F i) (MsC L B rows i) (o, q)
  | _, first, pre, [], s, _, _, I => ⟨s, rfl, I.len, I.plen, fun i o q => I.done i o q (by simp)⟩
  | 0, _, _, _ :: _, _, h, _, _ => by simp at h
  | m + 1, first, pre, r :: l, s, hm, hrows, I => by
    let p : OutPt D → Bool := fun r' => decide (r'.u 0 = r.u 0 ∧ r'.u 4 = r.u 4)
    have hsplit : l = l.takeWhile p ++ l.dropWhile p := (List.takeWhile_append_dropWhile).symm
    have htail : ∀ r' ∈ l.takeWhile p, r'.u 0 = r.u 0 ∧ r'.u 4 = r.u 4 := fun r' h => by
      have h2 := List.all_takeWhile (p := p) (l := l)
      have := List.all_eq_true.1 h2 r' h
      simpa [p] using this
    have hsrt := H.sorted
    rw [hrows, List.pairwise_append] at hsrt
    have hr := List.pairwise_cons.1 hsrt.2.1
    have hhead : ∀ r' ∈ (l.dropWhile p).head?, ¬ (r'.u 0 = r.u 0 ∧ r'.u 4 = r.u 4) := by
      intro r' h
      have := List.head?_dropWhile_not p l
      rw [show (l.dropWhile p).head? = some r' from h] at this
      simpa [p] using this
    have hrest : ∀ r' ∈ l.dropWhile p, r.u 0 < r'.u 0 ∨ (r.u 0 = r'.u 0 ∧ r.u 4 < r'.u 4) := by
      intro r' h
      have hs2 : (l.dropWhile p).Pairwise fun a b => a.u 0 < b.u 0 ∨ (a.u 0 = b.u 0 ∧ a.u 4 ≤ b.u 4) := by
        have := hr.2
        rw [hsplit, List.pairwise_append] at this
        exact this.2.1
      have hall : ∀ r2 ∈ l.dropWhile p, r.u 0 < r2.u 0 ∨ (r.u 0 = r2.u 0 ∧ r.u 4 ≤ r2.u 4) := fun r2 h2 => hr.1 r2 (List.dropWhile_subset _ h2)
      generalize l.dropWhile p = d at *
      cases d with
      | nil => simp at h
      | cons h0 d =>
        have h1 := hhead h0 rfl
        have h2 := hall h0 (by simp)
        rcases List.mem_cons.1 h with rfl | h
        · omega
        · have := (List.pairwise_cons.1 hs2).1 r' h
          omega
    have hrows' : rows = pre ++ r :: (l.takeWhile p ++ l.dropWhile p) := by rw [← hsplit]; exact hrows
    obtain ⟨s', e1, I'⟩ := ms_step H hrows' htail hrest (by rw [← hsplit]; exact I)
    rw [← hsplit] at e1
    have hlen : (l.dropWhile p).length ≤ m := by
      have := (List.dropWhile_suffix (l := l) p).length_le
      simp only [List.length_cons] at hm
      omega
    obtain ⟨s'', e2, h⟩ := ms_loop H m false (pre ++ r :: l.takeWhile p) (l.dropWhile p) s' hlen (by rw [hrows']; simp) I'
    exact ⟨s'', by rw [e1, e2], h⟩

/-- the merge of all rows -/
theorem ms_run {val : Nat → K} {low n : Nat} {sess : Nat → Nat} {F : Nat → Nat → Nat → FRes D} {L : Nat → Nat → Nat → Prop} {B : OutPt D → Nat → Nat → Prop} {outs0 : List (LRes D)} {procs0 : List Nat} {rows : List (OutPt D)}
    (H : MsOk val low n sess F L B outs0 procs0 rows) (junk : LRes D × Nat) :
    ∃ s', msLoop val low true rows ⟨0, 0, false, false, junk, junk, outs0, procs0⟩ = some s' ∧ s'.outs.length = n ∧ s'.procs.length = n ∧
      ∀ (i : Nat) o q, s'.outs[i]? = some o → s'.procs[i]? = some q → IsBestMs val (F i) sess (MsC L B rows i) (o.toPt q) := by
  obtain ⟨s', e, h1, h2, h3⟩ := ms_loop H rows.length true [] rows ⟨0, 0, false, false, junk, junk, outs0, procs0⟩ (le_refl _) rfl {
    len := rfl
    plen := rfl
    done := by
      intro i o q hno ho hq
      obtain ⟨w1, w2⟩ := H.own i o q ho hq
      have hC : MsC L B rows i = L i := by
        funext q el
        refine propext ⟨?_, Or.inl⟩
        rintro (h | ⟨r, hr, he, _⟩)
        · exact h
        · exact absurd he (hno r hr)
      rw [hC]
      by_cases hc : o.code = 2
      · exact Or.inl ⟨hc, best_empty w1 hc⟩
      · have hg : Good val (F i) (fun q el => L i q el ∧ sess q = o.elsid) (o, q) := by
          refine ⟨hc, ?_, (w2 hc).1⟩
          refine (congrArg (fun C => IsBest val (F i) C (o.toPt q)) ?_).mp w1
          funext q el
          exact propext ⟨fun h => ⟨h, (w2 hc).2 q el h⟩, fun h => h.1⟩
        refine Or.inr ⟨o.elsid, hg, ?_⟩
        rintro e' ⟨q', el, a, rfl⟩
        rw [(w2 hc).2 q' el a]
        exact ⟨(o, q), hg, le_refl _⟩
    same := fun _ _ => ⟨rfl, rfl⟩
    start := fun _ => rfl
    old := fun h => absurd h (by decide)
    sep := by simp
    mid := fun _ _ h => absurd h (by decide) }
  exact ⟨s', e, h1.trans H.len, h2.trans H.plen, fun i o q ho hq => (h3 i o q ho hq).best⟩

omit [Field K] [FloorRing K] in
theorem foldl_ms (val : Nat → K) (env : LEnv D K) (hi : env.ims = true) (find : Nat → Pt D → FRes D) (x : Pt D) : ∀ (l : List Nat) (o : LRes D), (o.code ≠ 2 → o.disti = (find o.el x).disti ∧ o.elsid = env.nsid) →
    (l.foldl (updC val env find x) o).code ≠ 2 → (l.foldl (updC val env find x) o).disti = (find (l.foldl (updC val env find x) o).el x).disti ∧ (l.foldl (updC val env find x) o).elsid = env.nsid
  | [], _, h => h
  | a :: l, o, h => by
    rw [List.foldl_cons]
    refine foldl_ms val env hi find x l _ ?_
    unfold updC updL
    split
    · exact h
    · split
      · intro _
        simp [hi]
      · exact h

theorem locFrom_ms {val : Nat → K} {env : FEnv D K} (hi : env.loc.ims = true) (lst : Pt D → List Nat) (find : Nat → Pt D → FRes D) (sessm : Nat) (x : Pt D × Nat) (o : LRes D)
    (h : (locFrom val env lst find sessm x o).code ≠ 2) : (locFrom val env lst find sessm x o).disti = (find (locFrom val env lst find sessm x o).el x.1).disti ∧ (locFrom val env lst find sessm x o).elsid = env.loc.nsid :=
  foldl_ms val env.loc hi find x.1 _ _ (fun h => absurd rfl h) h

theorem findptsMs_ok (val : Nat → K) (low : Nat) (junk : LRes D × Nat) (np sessm : Nat) (env : Nat → FEnv D K) : (findptsMs val low junk np sessm env).Ok np :=
  Coll.seq_ok (findptsSearch_ok _ _ _ _) (Coll.loc_ok _ _ _)

/-- the candidates of a point asked by process `p` -/
def CandMs (env : Nat → FEnv D K) (lst : Nat → Pt D → List Nat) (glst : Pt D → List Nat) (sessm p : Nat) (x : Pt D × Nat) (q el : Nat) : Prop :=
  el ∈ cands (env q).loc sessm (lst q) x ∧ (q = p ∨ q ∈ glst x.1)

/-- `findptsms`: every point gets a best result among its candidates -/
theorem findptsMs_run {val : Nat → K} {np : Nat} {env : Nat → FEnv D K} {lst : Nat → Pt D → List Nat} {find : Nat → Nat → Pt D → FRes D} {h : Pt D → Nat} {glst : Pt D → List Nat}
    (H : FpOk val np env lst find h glst true) (low : Nat) (hlow : ∀ q el x, val low ≤ val (find q el x).disti) (junk : LRes D × Nat) (sessm : Nat)
    (s0 : Nat → FpSt D) (hlen : ∀ p, p < np → (s0 p).outs.length = (s0 p).xs.length)
    (hxs : ∀ p, p < np → ∀ x ∈ (s0 p).xs, (∀ d, x.1 d < 18446744073709551616) ∧ x.2 < 4294967296) (hnpt : ∀ p, p < np → (s0 p).xs.length ≤ 4294967296)
    (hT : (∑ p ∈ Finset.range np, (s0 p).xs.length) * (8 * D + 24) < Crystal.intMax)
    (hG : (∑ p ∈ Finset.range np, ((s0 p).xs.map fun x => (glst x.1).length).sum) * (8 * D + 48) < Crystal.intMax) :
    ∃ sf, (findptsMs val low junk np sessm env).run np s0 = .ok sf ∧ ∀ p, p < np → (sf p).xs = (s0 p).xs ∧ (sf p).outs.length = (s0 p).xs.length ∧ (sf p).procs.length = (s0 p).xs.length ∧
      ∀ (i : Nat) x, (s0 p).xs[i]? = some x → ∃ o q, (sf p).outs[i]? = some o ∧ (sf p).procs[i]? = some q ∧
        IsBestMs val (fun q el => find q el x.1) (fun q => (env q).loc.nsid) (CandMs env lst glst sessm p x) (o.toPt q) := by
  obtain ⟨s1, e1, hs1⟩ := findptsSearch_run H sessm s0 hlen hxs hnpt hT hG
  have key : ∀ p, ∃ t : FpSt D, p < np → fp4ms val low junk (s1 p) = .ok t ∧ t.xs = (s0 p).xs ∧ t.outs.length = (s0 p).xs.length ∧ t.procs.length = (s0 p).xs.length ∧
      ∀ (i : Nat) x, (s0 p).xs[i]? = some x → ∃ o q, t.outs[i]? = some o ∧ t.procs[i]? = some q ∧
        IsBestMs val (fun q el => find q el x.1) (fun q => (env q).loc.nsid) (CandMs env lst glst sessm p x) (o.toPt q) := by
    intro p
    by_cases hp : p < np
    swap
    · exact ⟨s1 p, fun h => absurd h hp⟩
    obtain ⟨ex, ep, el, eo, er⟩ := hs1 p hp
    let xs := (s0 p).xs
    let F : Nat → Nat → Nat → FRes D := fun i q el => find q el ((xs[i]?.map Prod.fst).getD fun _ => 0)
    have hF : ∀ (i : Nat) x, xs[i]? = some x → F i = fun q el => find q el x.1 := by
      intro i x hx
      funext q el
      simp only [F, hx, Option.map_some, Option.getD_some]
    let B : OutPt D → Nat → Nat → Prop := fun r q el => q = r.u 3 ∧ ∃ x, xs[r.u 0]? = some x ∧ el ∈ cands (env (r.u 3)).loc sessm (lst (r.u 3)) x
    let L : Nat → Nat → Nat → Prop := fun i q el => q = p ∧ ∃ x, xs[i]? = some x ∧ el ∈ cands (env p).loc sessm (lst p) x
    have hrow : ∀ r ∈ getRows (outLayout D) (s1 p).tr, ∃ i x q, xs[i]? = some x ∧ q ∈ glst x.1 ∧ q ≠ p ∧ (locFrom val (env q) (lst q) (find q) sessm x junkRes).code ≠ 2 ∧
        r = outRow i q (locFrom val (env q) (lst q) (find q) sessm x junkRes) := by
      intro r hr
      obtain ⟨i, x, o, q, b1, b2, b3, b4, b5, b6, b7⟩ := (er r).1 hr
      exact ⟨i, x, q, b1, b4, b5, b6, b7⟩
    obtain ⟨rows, sort, hsort⟩ := Props.sarray_sort_lexicographic (κ := Nat) [.int 4 fun r : OutPt D => r.u 0, .int 4 fun r => r.u 4] (getRows (outLayout D) (s1 p).tr) (s1 p).scratch (by
      intro f hf
      rcases List.mem_cons.1 hf with rfl | hf
      · intro r hr
        obtain ⟨i, x, q, b1, _, _, _, rfl⟩ := hrow r hr
        have h1 := (List.getElem?_eq_some_iff.1 b1).1
        have h2 := hnpt p hp
        show i < 256 ^ 4
        have h3 : xs.length = (s0 p).xs.length := rfl
        norm_num
        omega
      · rw [List.mem_singleton] at hf
        subst hf
        intro r hr
        obtain ⟨i, x, q, b1, b2, _, b4, rfl⟩ := hrow r hr
        have hq := H.glt _ _ b2
        show (locFrom val (env q) (lst q) (find q) sessm x junkRes).elsid < 256 ^ 4
        rw [(locFrom_ms (H.ims q hq) _ _ _ _ _ b4).2]
        have := H.sid q hq
        norm_num
        omega)
    have hmem : ∀ r, r ∈ rows ↔ r ∈ getRows (outLayout D) (s1 p).tr := fun r => hsort.perm.mem_iff
    have hLx : ∀ (i : Nat) x, xs[i]? = some x → L i = fun q el => q = p ∧ el ∈ cands (env p).loc sessm (lst p) x := by
      intro i x hx
      funext q el
      refine propext (and_congr_right fun _ => ⟨?_, fun h => ⟨x, hx, h⟩⟩)
      rintro ⟨x', hx', h⟩
      rw [hx] at hx'
      obtain rfl := Option.some.inj hx'
      exact h
    have hBx : ∀ (i : Nat) x q o, xs[i]? = some x → B (outRow i q o) = fun q' el => q' = q ∧ el ∈ cands (env q).loc sessm (lst q) x := by
      intro i x q o hx
      funext q' el
      refine propext (and_congr_right fun _ => ⟨?_, fun h => ⟨x, hx, h⟩⟩)
      rintro ⟨x', hx', h⟩
      have : some x = some x' := hx.symm.trans hx'
      obtain rfl := Option.some.inj this
      exact h
    have M : MsOk val low xs.length (fun q => (env q).loc.nsid) F L B (s1 p).outs (s1 p).procs rows := {
      len := el
      plen := by rw [ep, List.length_map]
      low := fun i q el => hlow _ _ _
      own := by
        intro i o q ho hq
        have hi : i < xs.length := by rw [← el]; exact (List.getElem?_eq_some_iff.1 ho).1
        have hx : xs[i]? = some xs[i] := List.getElem?_eq_getElem hi
        have ho0 : (s0 p).outs[i]? = some ((s0 p).outs[i]'(by rw [hlen p hp]; exact hi)) := List.getElem?_eq_getElem _
        have := eo i _ _ hx ho0
        rw [ho] at this
        obtain rfl := Option.some.inj this
        have hqp : q = p := by
          rw [ep, List.getElem?_map, hx] at hq
          exact (Option.some.inj hq).symm
        subst hqp
        rw [hF i _ hx, hLx i _ hx]
        refine ⟨locFrom_best (val := val) env lst find q sessm xs[i] _, fun hc => ?_⟩
        obtain ⟨h1, h2⟩ := locFrom_ms (H.ims q hp) _ _ _ _ _ hc
        refine ⟨h1, ?_⟩
        rintro q' el ⟨rfl, _⟩
        exact h2.symm
      row := by
        intro r hr
        obtain ⟨i, x, q, b1, b2, b3, b4, rfl⟩ := hrow r ((hmem r).1 hr)
        obtain ⟨h1, h2⟩ := locFrom_ms (H.ims q (H.glt _ _ b2)) _ _ _ _ _ b4
        rw [outRes_outRow, hBx i x q _ b1]
        show i < xs.length ∧ _ ≠ 2 ∧ IsBest val (F i) _ (LRes.toPt q _) ∧ _ = (F i q (locFrom val (env q) (lst q) (find q) sessm x junkRes).el).disti ∧ _
        rw [hF i x b1]
        refine ⟨(List.getElem?_eq_some_iff.1 b1).1, b4, locFrom_best (val := val) env lst find q sessm x junkRes, h1, ?_⟩
        rintro q' el ⟨rfl, _⟩
        exact h2.symm
      sorted := by
        refine hsort.sorted.imp ?_
        rintro a b (h | ⟨h, h' | ⟨h', _⟩⟩)
        · exact Or.inl h
        · exact Or.inr ⟨h, Nat.le_of_lt h'⟩
        · exact Or.inr ⟨h, Nat.le_of_eq h'⟩ }
    obtain ⟨t, t1, t2, t3, t4⟩ := ms_run M junk
    refine ⟨{ s1 p with outs := t.outs, procs := t.procs }, fun _ => ⟨?_, ex, t2, t3, ?_⟩⟩
    · unfold fp4ms
      rw [sort]
      show (Outcome.ofOption (msLoop val low true rows _)).bind _ = _
      rw [t1]
      rfl
    · intro i x hx
      have hi : i < xs.length := (List.getElem?_eq_some_iff.1 hx).1
      obtain ⟨o, ho⟩ : ∃ o, t.outs[i]? = some o := ⟨_, List.getElem?_eq_getElem (by omega)⟩
      obtain ⟨q, hq⟩ : ∃ q, t.procs[i]? = some q := ⟨_, List.getElem?_eq_getElem (by omega)⟩
      refine ⟨o, q, ho, hq, ?_⟩
      have hb := t4 i o q ho hq
      rw [hF i x hx] at hb
      refine (congrArg (fun C => IsBestMs val (fun q el => find q el x.1) (fun q => (env q).loc.nsid) C _) ?_).mp hb
      funext q el
      unfold MsC
      rw [hLx i x hx]
      refine propext ⟨?_, ?_⟩
      · rintro (⟨rfl, hc⟩ | ⟨r, hr, rfl, hB⟩)
        · exact ⟨hc, Or.inl rfl⟩
        · obtain ⟨i, x', q', b1, b2, b3, b4, rfl⟩ := hrow r ((hmem r).1 hr)
          have e2 : some x' = some x := b1.symm.trans hx
          obtain rfl := Option.some.inj e2
          rw [hBx i x' q' _ b1] at hB
          obtain ⟨rfl, hc⟩ := hB
          exact ⟨hc, Or.inr b2⟩
      · rintro ⟨hc, hg⟩
        by_cases hqp : q = p
        · subst hqp
          exact Or.inl ⟨rfl, hc⟩
        · have hg := hg.resolve_left hqp
          have hcode : (locFrom val (env q) (lst q) (find q) sessm x junkRes).code ≠ 2 := fun h2 => best_empty (locFrom_best (val := val) env lst find q sessm x junkRes) h2 q el ⟨rfl, hc⟩
          have hi0 : i < (s0 p).outs.length := by rw [hlen p hp]; exact hi
          refine Or.inr ⟨outRow i q (locFrom val (env q) (lst q) (find q) sessm x junkRes), (hmem _).2 ((er _).2 ⟨i, x, _, q, hx, eo i x _ hx (List.getElem?_eq_getElem hi0), Or.inl rfl, hg, hqp, hcode, rfl⟩), rfl, ?_⟩
          rw [hBx i x q _ hx]
          exact ⟨rfl, hc⟩
  choose t ht using key
  refine ⟨fun p => if p < np then t p else s1 p, Coll.seq_run_ok (findptsSearch_ok _ _ _ _) e1 (Coll.loc_run_ok ?_), ?_⟩
  · intro p hp
    exact (ht p hp).1
  · intro p hp
    simp only [if_pos hp]
    exact (ht p hp).2

end Gslib.Fp
