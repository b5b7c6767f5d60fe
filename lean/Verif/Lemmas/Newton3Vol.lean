import Verif.Lemmas.Newton3

/-!
# `newton_vol`: the goto loop ends, in the box, with a smaller objective
-/

namespace Gslib.El
open Gslib.Lin Gslib.Spec

variable {K : Type} [Field K] [LinearOrder K] [IsStrictOrderedRing K] {J : Fin 3 → Fin 3 → K} {resid : Fin 3 → K}

/-- held coordinates are at their bound -/
def Held3 (b : Box3 K) (r0 dr : Fin 3 → K) (c : Fin 3 → Con) : Prop := ∀ d, c d ≠ .free → r0 d + dr d = b.at d (c d)

/-- `y` points into the box in direction `d` -/
def Inward (b : Box3 K) (r0 dr : Fin 3 → K) (d : Fin 3) (y : K) : Prop := y ≠ 0 ∧ ∀ w, w ≠ .free → r0 d + dr d = b.at d w → sgn w * y ≤ 0

/-- `J^T (resid - J dr)` -/
abbrev yy (J : Fin 3 → Fin 3 → K) (resid dr : Fin 3 → K) (d : Fin 3) : K := yAt3 J (resAt3 J resid dr) d

omit [LinearOrder K] [IsStrictOrderedRing K] in
theorem slope_one (dr v : Fin 3 → K) (d : Fin 3) (h1 : v (d + 1) = 0) (h2 : v (d + 2) = 0) : slope J resid dr v = yy J resid dr d * v d := by
  unfold slope
  fin_cases d
  · have h1 : v 1 = 0 := h1; have h2 : v 2 = 0 := h2
    rw [h1, h2]; show _ = yy J resid dr 0 * v 0; ring
  · have h1 : v 2 = 0 := h1; have h2 : v 0 = 0 := h2
    rw [h1, h2]; show _ = yy J resid dr 1 * v 1; ring
  · have h1 : v 0 = 0 := h1; have h2 : v 1 = 0 := h2
    rw [h1, h2]; show _ = yy J resid dr 2 * v 2; ring

omit [LinearOrder K] [IsStrictOrderedRing K] in
theorem slope_two (dr v : Fin 3 → K) (d : Fin 3) (h : v d = 0) : slope J resid dr v = yy J resid dr (d + 1) * v (d + 1) + yy J resid dr (d + 2) * v (d + 2) := by
  unfold slope
  fin_cases d
  · have h : v 0 = 0 := h
    rw [h]; show _ = yy J resid dr 1 * v 1 + yy J resid dr 2 * v 2; ring
  · have h : v 1 = 0 := h
    rw [h]; show _ = yy J resid dr 2 * v 2 + yy J resid dr 0 * v 0; ring
  · have h : v 2 = 0 := h
    rw [h]; show _ = yy J resid dr 0 * v 0 + yy J resid dr 1 * v 1; ring

omit [LinearOrder K] [IsStrictOrderedRing K] in
theorem nsq_two (v : Fin 3 → K) (d : Fin 3) (h : v d = 0) :
    nsq J v = gram J (d + 1) (d + 1) * v (d + 1) ^ 2 + 2 * gram J (d + 1) (d + 2) * v (d + 1) * v (d + 2) + gram J (d + 2) (d + 2) * v (d + 2) ^ 2 := by
  unfold nsq gram
  fin_cases d
  · have h : v 0 = 0 := h
    rw [h]; show _ = (J 0 1 * J 0 1 + J 1 1 * J 1 1 + J 2 1 * J 2 1) * v 1 ^ 2 + 2 * (J 0 1 * J 0 2 + J 1 1 * J 1 2 + J 2 1 * J 2 2) * v 1 * v 2 + (J 0 2 * J 0 2 + J 1 2 * J 1 2 + J 2 2 * J 2 2) * v 2 ^ 2
    ring
  · have h : v 1 = 0 := h
    rw [h]; show _ = (J 0 2 * J 0 2 + J 1 2 * J 1 2 + J 2 2 * J 2 2) * v 2 ^ 2 + 2 * (J 0 2 * J 0 0 + J 1 2 * J 1 0 + J 2 2 * J 2 0) * v 2 * v 0 + (J 0 0 * J 0 0 + J 1 0 * J 1 0 + J 2 0 * J 2 0) * v 0 ^ 2
    ring
  · have h : v 2 = 0 := h
    rw [h]; show _ = (J 0 0 * J 0 0 + J 1 0 * J 1 0 + J 2 0 * J 2 0) * v 0 ^ 2 + 2 * (J 0 0 * J 0 1 + J 1 0 * J 1 1 + J 2 0 * J 2 1) * v 0 * v 1 + (J 0 1 * J 0 1 + J 1 1 * J 1 1 + J 2 1 * J 2 1) * v 1 ^ 2
    ring

omit [LinearOrder K] [IsStrictOrderedRing K] in
/-- slopes after a move -/
theorem yy_move (dr v : Fin 3 → K) (t : K) (d : Fin 3) :
    yy J resid (fun e => dr e + t * v e) d = yy J resid dr d - t * (gram J d 0 * v 0 + gram J d 1 * v 1 + gram J d 2 * v 2) := by
  unfold yy yAt3 resAt3 gram; ring

theorem num_two (c : Fin 3 → Con) (d : Fin 3) (h0 : c d = .free) (h1 : c (d + 1) ≠ .free) (h2 : c (d + 2) ≠ .free) : heldNum c = 2 := by
  revert c; refine con3 ?_
  intro a b e; fin_cases d <;> cases a <;> cases b <;> cases e <;> decide

theorem num_three (c : Fin 3 → Con) (h : ∀ d, c d ≠ .free) : heldNum c = 3 := by
  revert c; refine con3 ?_
  intro a b e; cases a <;> cases b <;> cases e <;> decide

/-- the direction with one coordinate -/
def dir1 (d : Fin 3) (a : K) : Fin 3 → K := fun e => if e = d then a else 0

/-- the direction with two coordinates -/
def dir2 (d : Fin 3) (a a' : K) : Fin 3 → K := fun e => if e = d + 1 then a else if e = d + 2 then a' else 0

theorem volEdge_run (b : Box3 K) (hdet : det3 J ≠ 0) (r0 dr : Fin 3 → K) (c : Fin 3 → Con) (d : Fin 3) (h0 : c d = .free) (h1 : c (d + 1) ≠ .free) (h2 : c (d + 2) ≠ .free)
    (hin : InBox3 b fun e => r0 e + dr e) (hh : Held3 b r0 dr c) :
    ∃ dr' c', volEdge b J resid r0 (dr, fl3 c) = some (dr', fl3 c') ∧ (InBox3 b fun e => r0 e + dr' e) ∧ Held3 b r0 dr' c' ∧ 2 ≤ heldNum c' ∧ (∀ e, c' e = .free → yy J resid dr' e = 0) ∧
      linSq3 J resid dr' ≤ linSq3 J resid dr ∧ (Inward b r0 dr d (yy J resid dr d) → linSq3 J resid dr' < linSq3 J resid dr) := by
  have hg := gram_pos hdet d
  unfold volEdge
  dsimp only
  rw [(edge_fl3 c d h0 h1 h2).1, Option.bind_some, divE_some hg.ne', Option.bind_some]
  set a := yAt3 J (resAt3 J resid dr) d / gram J d d with ha
  have hya : yy J resid dr d = gram J d d * a := by rw [ha]; field_simp
  have hv : dir1 d a d = a := by simp [dir1]
  have hv1 : dir1 d a (d + 1) = 0 := by simp [dir1, ne1]
  have hv2 : dir1 d a (d + 2) = 0 := by simp [dir1, ne2]
  obtain ⟨s, es, ⟨s0, s1, s2⟩, -, hl, hu⟩ := checkCon_run b r0 dr (dir1 d a) hin d (1, 0) (hit_start _ _ _)
  rw [hv] at es hl hu
  rw [es, Option.map_some]
  have hdr : addAt3 dr d (s.1 * a) = fun e => dr e + s.1 * dir1 d a e := by
    funext e; unfold addAt3 dir1; split_ifs <;> simp
  have hslope : slope J resid dr (dir1 d a) = nsq J (dir1 d a) := by
    rw [slope_one dr _ d hv1 hv2, hv, hya]
    unfold nsq gram dir1; fin_cases d <;> simp <;> ring
  have hin' : InBox3 b fun e => r0 e + (dr e + s.1 * dir1 d a e) := by
    intro e
    beta_reduce
    rcases fin3_cases d e with rfl | rfl | rfl
    · rw [hv, ← add_assoc]; exact ⟨hl, hu⟩
    · rw [hv1, mul_zero, add_zero]; exact hin _
    · rw [hv2, mul_zero, add_zero]; exact hin _
  have hle : linSq3 J resid (fun e => dr e + s.1 * dir1 d a e) ≤ linSq3 J resid dr := quad_le dr _ hslope s.1 s0 s1
  have hlt : Inward b r0 dr d (yy J resid dr d) → linSq3 J resid (fun e => dr e + s.1 * dir1 d a e) < linSq3 J resid dr := by
    rintro ⟨i1, i2⟩
    have ha0 : a ≠ 0 := by intro h; apply i1; rw [hya, h, mul_zero]
    have hnp : 0 < nsq J (dir1 d a) := nsq_pos hdet _ ⟨d, by rw [hv]; exact ha0⟩
    rcases s0.lt_or_eq with hs | hs
    · exact quad_lt dr _ hslope hnp s.1 hs s1
    · exfalso
      rcases s2 with ⟨e1, _⟩ | ⟨e, w, hw, _, _, hat, hsg⟩
      · rw [← hs] at e1; exact zero_ne_one e1
      · have he : e = d := by
          by_contra hne
          have : dir1 d a e = 0 := by simp [dir1, hne]
          rw [this, mul_zero] at hsg; exact lt_irrefl _ hsg
        subst he
        rw [← hs, zero_mul, add_zero] at hat
        rw [hv] at hsg
        have := i2 w hw hat
        rw [hya] at this
        nlinarith [mul_pos hg hsg]
  rcases s2 with ⟨e1, e2⟩ | ⟨e, w, hw, hlt1, e2, hat, hsg⟩
  · refine ⟨_, c, by rw [hdr, e2]; simp, hin', ?_, ?_, ?_, hle, hlt⟩
    · intro e he
      have hed : e ≠ d := by rintro rfl; exact he h0
      have : dir1 d a e = 0 := by simp [dir1, hed]
      beta_reduce
      rw [this, mul_zero, add_zero]; exact hh e he
    · rw [num_two c d h0 h1 h2]
    · intro e he
      have hed : e = d := by
        rcases fin3_cases d e with h | h | h
        · exact h
        · rw [h] at he; exact absurd he h1
        · rw [h] at he; exact absurd he h2
      subst hed
      rw [yy_move, e1, one_mul, hya]
      unfold dir1; fin_cases e <;> simp
  · have he : e = d := by
      by_contra hne
      have : dir1 d a e = 0 := by simp [dir1, hne]
      rw [this, mul_zero] at hsg; exact lt_irrefl _ hsg
    subst he
    have hall : ∀ d, setc3 c e w d ≠ .free := by
      intro f
      rcases fin3_cases e f with rfl | rfl | rfl
      · simp [setc3, hw]
      · simp [setc3, ne1, h1]
      · simp [setc3, ne2, h2]
    refine ⟨_, setc3 c e w, by rw [hdr, e2, or_fl3 c e w h0], hin', ?_, ?_, ?_, hle, hlt⟩
    · intro f hf
      rcases fin3_cases e f with rfl | rfl | rfl
      · show r0 f + (dr f + _) = b.at f (setc3 c f w f)
        rw [← add_assoc, hat]; simp [setc3]
      · beta_reduce
        rw [hv1, mul_zero, add_zero]
        have : setc3 c e w (e + 1) = c (e + 1) := by simp [setc3, ne1]
        rw [this]; exact hh _ h1
      · beta_reduce
        rw [hv2, mul_zero, add_zero]
        have : setc3 c e w (e + 2) = c (e + 2) := by simp [setc3, ne2]
        rw [this]; exact hh _ h2
    · rw [num_three _ hall]; omega
    · intro f hf; exact absurd hf (hall f)

omit [LinearOrder K] [IsStrictOrderedRing K] in
theorem dir2_vals (d : Fin 3) (a a' : K) : dir2 d a a' d = 0 ∧ dir2 d a a' (d + 1) = a ∧ dir2 d a a' (d + 2) = a' := by
  unfold dir2; fin_cases d <;> simp

omit [LinearOrder K] [IsStrictOrderedRing K] in
/-- the minimum in a face -/
theorem sym_solve (d : Fin 3) (y y' : K) (hg : gram J (d + 1) (d + 1) * gram J (d + 2) (d + 2) - gram J (d + 1) (d + 2) * gram J (d + 1) (d + 2) ≠ 0) :
    gram J (d + 1) (d + 1) * linSolveSym2 ![gram J (d + 1) (d + 1), gram J (d + 1) (d + 2), gram J (d + 2) (d + 2)] ![y, y'] 0 +
      gram J (d + 1) (d + 2) * linSolveSym2 ![gram J (d + 1) (d + 1), gram J (d + 1) (d + 2), gram J (d + 2) (d + 2)] ![y, y'] 1 = y ∧
    gram J (d + 1) (d + 2) * linSolveSym2 ![gram J (d + 1) (d + 1), gram J (d + 1) (d + 2), gram J (d + 2) (d + 2)] ![y, y'] 0 +
      gram J (d + 2) (d + 2) * linSolveSym2 ![gram J (d + 1) (d + 1), gram J (d + 1) (d + 2), gram J (d + 2) (d + 2)] ![y, y'] 1 = y' := by
  generalize gram J (d + 1) (d + 1) = A at *
  generalize gram J (d + 1) (d + 2) = B at *
  generalize gram J (d + 2) (d + 2) = C at *
  simp only [linSolveSym2, Matrix.cons_val_zero, Matrix.cons_val_one, Matrix.cons_val]
  have hi := mul_inv_cancel₀ hg
  rw [one_div]
  constructor
  · linear_combination y * hi
  · linear_combination y' * hi

/-- the third direction -/
theorem third (d e : Fin 3) (h : e ≠ d) : ∃ f : Fin 3, f ≠ d ∧ f ≠ e ∧ ((f + 1 = d ∧ f + 2 = e) ∨ (f + 1 = e ∧ f + 2 = d)) ∧ ((e = d + 1 ∧ f = d + 2) ∨ (e = d + 2 ∧ f = d + 1)) := by
  revert d e; decide

theorem volFace_run (b : Box3 K) (hdet : det3 J ≠ 0) (r0 dr : Fin 3 → K) (d : Fin 3) (v : Con) (hv : v ≠ .free)
    (hin : InBox3 b fun e => r0 e + dr e) (hh : Held3 b r0 dr (single3 d v)) :
    ∃ dr' c' fin, volFace b J resid r0 (dr, fl3 (single3 d v)) = some ((dr', fl3 c'), fin) ∧ (InBox3 b fun e => r0 e + dr' e) ∧ Held3 b r0 dr' c' ∧ linSq3 J resid dr' ≤ linSq3 J resid dr ∧
      (fin = true → c' = single3 d v ∧ ∀ e, e ≠ d → yy J resid dr' e = 0) ∧
      (fin = false → ∃ f, c' f = .free ∧ c' (f + 1) ≠ .free ∧ c' (f + 2) ≠ .free ∧
        ((∀ e, e ≠ d → yy J resid dr e = 0 ∨ Inward b r0 dr e (yy J resid dr e)) → (∃ e, e ≠ d ∧ yy J resid dr e ≠ 0) →
          linSq3 J resid dr' < linSq3 J resid dr ∨ Inward b r0 dr' f (yy J resid dr' f))) := by
  have hg := gram_det hdet d
  obtain ⟨-, hd1, hd2⟩ := face_fl3 d v hv
  unfold volFace
  dsimp only
  rw [hd1, Option.bind_some, hd2, Option.bind_some, if_neg hg.ne']
  obtain ⟨q1, q2⟩ := sym_solve d (yAt3 J (resAt3 J resid dr) (d + 1)) (yAt3 J (resAt3 J resid dr) (d + 2)) hg.ne'
  generalize linSolveSym2 ![gram J (d + 1) (d + 1), gram J (d + 1) (d + 2), gram J (d + 2) (d + 2)] ![yAt3 J (resAt3 J resid dr) (d + 1), yAt3 J (resAt3 J resid dr) (d + 2)] = drc at q1 q2 ⊢
  obtain ⟨u0, u1, u2⟩ := dir2_vals d (drc 0) (drc 1)
  obtain ⟨s, es, hs, -, hl, hu⟩ := checkCon_run b r0 dr (dir2 d (drc 0) (drc 1)) hin (d + 1) (1, 0) (hit_start _ _ _)
  obtain ⟨t, et, ht, tle, hl', hu'⟩ := checkCon_run b r0 dr (dir2 d (drc 0) (drc 1)) hin (d + 2) s hs
  rw [u1] at es hl hu
  rw [u2] at et hl' hu'
  rw [es, Option.bind_some, et, Option.map_some]
  obtain ⟨t0, t1, t2⟩ := ht
  set w := dir2 d (drc 0) (drc 1) with hw
  have hdr : addAt3 (addAt3 dr (d + 1) (t.1 * drc 0)) (d + 2) (t.1 * drc 1) = fun e => dr e + t.1 * w e := by
    funext e
    rcases fin3_cases d e with rfl | rfl | rfl
    · beta_reduce; rw [u0]; simp [addAt3, (ne1 e).symm, (ne2 e).symm]
    · beta_reduce; rw [u1]; simp [addAt3, ne12]
    · beta_reduce; rw [u2]; simp [addAt3, (ne12 d).symm]
  have hnsq : nsq J w = yy J resid dr (d + 1) * w (d + 1) + yy J resid dr (d + 2) * w (d + 2) := by
    rw [nsq_two w d u0, u1, u2]
    show _ = yAt3 J (resAt3 J resid dr) (d + 1) * drc 0 + yAt3 J (resAt3 J resid dr) (d + 2) * drc 1
    linear_combination drc 0 * q1 + drc 1 * q2
  have hslope : slope J resid dr w = nsq J w := by rw [slope_two dr w d u0, hnsq]
  have hin' : InBox3 b fun e => r0 e + (dr e + t.1 * w e) := by
    intro e
    beta_reduce
    rcases fin3_cases d e with rfl | rfl | rfl
    · rw [u0, mul_zero, add_zero]; exact hin _
    · rw [u1, ← add_assoc]; exact seg_in (hin _).1 (hin _).2 hl hu t0 tle
    · rw [u2, ← add_assoc]; exact ⟨hl', hu'⟩
  have hle : linSq3 J resid (fun e => dr e + t.1 * w e) ≤ linSq3 J resid dr := quad_le dr w hslope t.1 t0 t1
  rcases t2 with ⟨e1, e2⟩ | ⟨e, x, hx, hlt1, e2, hat, hsg⟩
  · refine ⟨_, single3 d v, true, by rw [hdr, e2]; simp, hin', ?_, hle, fun _ => ⟨rfl, fun e he => ?_⟩, by simp⟩
    swap
    · have g : gram J (d + 2) (d + 1) = gram J (d + 1) (d + 2) := by unfold gram; ring
      have hsum : ∀ f, gram J f 0 * w 0 + gram J f 1 * w 1 + gram J f 2 * w 2 = gram J f (d + 1) * drc 0 + gram J f (d + 2) * drc 1 := by
        intro f
        rw [← u1, ← u2]
        have hs : gram J f 0 * w 0 + gram J f 1 * w 1 + gram J f 2 * w 2 = gram J f d * w d + gram J f (d + 1) * w (d + 1) + gram J f (d + 2) * w (d + 2) := by
          clear * -
          fin_cases d
          · rfl
          · show _ = gram J f 1 * w 1 + gram J f 2 * w 2 + gram J f 0 * w 0; ring
          · show _ = gram J f 2 * w 2 + gram J f 0 * w 0 + gram J f 1 * w 1; ring
        rw [hs, u0, mul_zero, zero_add]
      rw [yy_move, e1, hsum, one_mul]
      rcases fin3_cases d e with h | h | h
      · exact absurd h he
      · rw [h]; show yAt3 J (resAt3 J resid dr) (d + 1) - _ = 0; rw [← q1]; ring
      · rw [h]; show yAt3 J (resAt3 J resid dr) (d + 2) - _ = 0; rw [← q2, g]; ring
    intro e he
    have hed : e = d := by
      by_contra h; rw [single3_other d e v h] at he; exact he rfl
    subst hed
    beta_reduce
    rw [u0, mul_zero, add_zero]; exact hh e he
  · have hed : e ≠ d := by
      rintro rfl; rw [u0, mul_zero] at hsg; exact lt_irrefl _ hsg
    have hfree : single3 d v e = .free := single3_other d e v hed
    have hne0 : t.2 ≠ 0 := by
      rw [e2]; intro h0
      rw [zero_fl3] at h0
      have := congrFun (fl3_inj _ _ h0) e
      rw [single3_same] at this; exact hx this
    refine ⟨_, setc3 (single3 d v) e x, false, by rw [hdr, decide_eq_false hne0, e2, or_fl3 _ e x hfree], hin', ?_, hle, by simp, fun _ => ?_⟩
    · intro f hf
      beta_reduce
      by_cases hfe : f = e
      · subst hfe
        rw [← add_assoc, hat]; simp [setc3]
      · have hc : setc3 (single3 d v) e x f = single3 d v f := by simp [setc3, hfe]
        rw [hc] at hf ⊢
        have hfd : f = d := by by_contra h; rw [single3_other d f v h] at hf; exact hf rfl
        subst hfd
        rw [u0, mul_zero, add_zero]; exact hh f hf
    · -- the free coordinate
      obtain ⟨f, hfd, hfe, hf1, hf2⟩ := third d e hed
      have cd : setc3 (single3 d v) e x d ≠ .free := by simp [setc3, Ne.symm hed, single3_same, hv]
      have ce : setc3 (single3 d v) e x e ≠ .free := by simp [setc3, hx]
      refine ⟨f, by simp [setc3, hfe, single3_other d f v hfd], ?_, ?_, fun hI hE => ?_⟩
      · rcases hf1 with ⟨a, a'⟩ | ⟨a, a'⟩ <;> rw [a] <;> assumption
      · rcases hf1 with ⟨a, a'⟩ | ⟨a, a'⟩ <;> rw [a'] <;> assumption
      · have hw0 : ∃ g, w g ≠ 0 := by
          by_contra hcon
          push Not at hcon
          obtain ⟨g, hgd, hgy⟩ := hE
          apply hgy
          have z0 : drc 0 = 0 := by rw [← u1]; exact hcon _
          have z1 : drc 1 = 0 := by rw [← u2]; exact hcon _
          rw [z0, z1] at q1 q2
          rcases fin3_cases d g with h | h | h
          · exact absurd h hgd
          · rw [h]; show yAt3 _ _ _ = 0; rw [← q1]; ring
          · rw [h]; show yAt3 _ _ _ = 0; rw [← q2]; ring
        have hnp : 0 < nsq J w := nsq_pos hdet w hw0
        rcases t0.lt_or_eq with hs0 | hs0
        · left; exact quad_lt dr w hslope hnp t.1 hs0 t1
        · right
          have hsame : (fun e => dr e + t.1 * w e) = dr := by funext g; rw [← hs0]; simp
          rw [hsame]
          rw [← hs0, zero_mul, add_zero] at hat
          rcases hI f hfd with h | h
          · exfalso
            have hpos : 0 < yy J resid dr e * w e := by
              rcases hf2 with ⟨a, a'⟩ | ⟨a, a'⟩
              · rw [hnsq, ← a, ← a', h, zero_mul, add_zero] at hnp; exact hnp
              · rw [hnsq, ← a, ← a', h, zero_mul, zero_add] at hnp; exact hnp
            rcases hI e hed with h' | h'
            · rw [h', zero_mul] at hpos; exact lt_irrefl _ hpos
            · have h3 := h'.2 x hx hat
              have h4 : 0 < (sgn x * w e) * (yy J resid dr e * w e) := mul_pos hsg hpos
              have h5 : (sgn x * w e) * (yy J resid dr e * w e) = (sgn x * yy J resid dr e) * (w e * w e) := by ring
              rw [h5] at h4
              exact absurd h4 (not_lt.2 (mul_nonpos_of_nonpos_of_nonneg h3 (mul_self_nonneg _)))
          · exact h

/-! ## relaxing constraints -/

theorem setDr3_eq (b : Box3 K) (r0 dr : Fin 3 → K) (c : Fin 3 → Con) (h : Held3 b r0 dr c) : setDr3 b r0 (dr, fl3 c) = dr := by
  funext d
  unfold setDr3
  dsimp only
  rw [conAt_fl3]
  simp only [code_zero, code_one]
  cases hc : c d with
  | free => simp
  | lo =>
    have := h d (by rw [hc]; decide)
    rw [hc] at this
    have this : r0 d + dr d = b.lo d := this
    simp; linarith
  | hi =>
    have := h d (by rw [hc]; decide)
    rw [hc] at this
    have this : r0 d + dr d = b.hi d := this
    simp; linarith

/-- what is left of the constraints -/
def keep3 (dr y : Fin 3 → K) (c : Fin 3 → Con) : Fin 3 → Con := fun d => if dr d * y d < 0 then .free else c d

theorem release3_run (dr y : Fin 3 → K) (c : Fin 3 → Con) (d : Fin 3) : release3 dr y d (fl3 c) = fl3 (setc3 c d (if dr d * y d < 0 then .free else c d)) := by
  unfold release3
  rw [conAt_fl3]
  simp only [code_zero]
  split_ifs with h1 h2 h2
  · congr 1; funext e; unfold setc3; split_ifs with h
    · rw [h, h1]
    · rfl
  · congr 1; funext e; unfold setc3; split_ifs with h
    · rw [h]
    · rfl
  · exact release_fl3 c d
  · congr 1; funext e; unfold setc3; split_ifs with h
    · rw [h]
    · rfl

theorem volRelax_run (b : Box3 K) (r0 dr : Fin 3 → K) (c : Fin 3 → Con) (h : Held3 b r0 dr c) :
    volRelax b J resid r0 (dr, fl3 c) = (dr, fl3 (keep3 dr (yy J resid dr) c)) := by
  unfold volRelax
  dsimp only
  rw [setDr3_eq b r0 dr c h, release3_run, release3_run, release3_run]
  congr 2
  funext e
  unfold keep3 setc3
  fin_cases e <;> simp

/-- after `newton_vol_edge`: at least two constraints, and the free coordinate (if there is one) is at its minimum -/
structure Canon (b : Box3 K) (J : Fin 3 → Fin 3 → K) (resid r0 dr : Fin 3 → K) (c : Fin 3 → Con) : Prop where
  box : InBox3 b fun e => r0 e + dr e
  held : Held3 b r0 dr c
  num : 2 ≤ heldNum c
  free : ∀ e, c e = .free → yy J resid dr e = 0

theorem canon_le {b : Box3 K} {r0 dr dr' : Fin 3 → K} {c : Fin 3 → Con} (h : Canon b J resid r0 dr c) (h' : Canon b J resid r0 dr' c) : linSq3 J resid dr ≤ linSq3 J resid dr' := by
  have hq := quad_eq (J := J) (resid := resid) dr (fun d => dr' d - dr d) 1
  have h0 : ∀ d, yAt3 J (resAt3 J resid dr) d * (dr' d - dr d) = 0 := by
    intro d
    by_cases hc : c d = .free
    · have : yAt3 J (resAt3 J resid dr) d = 0 := h.free d hc
      rw [this, zero_mul]
    · have : dr' d - dr d = 0 := by linarith [h.held d hc, h'.held d hc]
      rw [this, mul_zero]
  have hs : slope J resid dr (fun d => dr' d - dr d) = 0 := by
    unfold slope; rw [h0, h0, h0]; ring
  have hn := nsq_nonneg (J := J) fun d => dr' d - dr d
  have he : (fun d => dr d + 1 * (dr' d - dr d)) = dr' := by funext d; ring
  rw [he, hs] at hq
  linarith

instance : Fintype Con := ⟨{.free, .lo, .hi}, by intro a; cases a <;> decide⟩

open Classical in
/-- configurations that can still be visited -/
noncomputable def below (b : Box3 K) (J : Fin 3 → Fin 3 → K) (resid r0 : Fin 3 → K) (v : K) : Finset (Fin 3 → Con) :=
  Finset.univ.filter fun c => 2 ≤ heldNum c ∧ ∃ dr, Canon b J resid r0 dr c ∧ linSq3 J resid dr < v

theorem below_lt {b : Box3 K} {r0 dr : Fin 3 → K} {c : Fin 3 → Con} {v : K} (h : Canon b J resid r0 dr c) (hv : linSq3 J resid dr < v) :
    (below b J resid r0 (linSq3 J resid dr)).card < (below b J resid r0 v).card := by
  apply Finset.card_lt_card
  rw [Finset.ssubset_iff_of_subset]
  · refine ⟨c, ?_, ?_⟩
    · simp only [below, Finset.mem_filter, Finset.mem_univ, true_and]
      exact ⟨h.num, dr, h, hv⟩
    · simp only [below, Finset.mem_filter, Finset.mem_univ, true_and, not_and, not_exists, not_lt]
      rintro - dr' h'
      exact canon_le h h'
  · intro c' hc'
    simp only [below, Finset.mem_filter, Finset.mem_univ, true_and] at hc' ⊢
    obtain ⟨h1, dr', h2, h3⟩ := hc'
    exact ⟨h1, dr', h2, h3.trans hv⟩

theorem below_start {b : Box3 K} {r0 dr : Fin 3 → K} {c : Fin 3 → Con} (h : Canon b J resid r0 dr c) : (below b J resid r0 (linSq3 J resid dr)).card < 20 := by
  have h1 : below b J resid r0 (linSq3 J resid dr) ⊆ (Finset.univ.filter fun c : Fin 3 → Con => 2 ≤ heldNum c).erase c := by
    intro c' hc'
    simp only [below, Finset.mem_filter, Finset.mem_univ, true_and] at hc'
    obtain ⟨a, dr', h2, h3⟩ := hc'
    simp only [Finset.mem_erase, Finset.mem_filter, Finset.mem_univ, true_and]
    refine ⟨?_, a⟩
    rintro rfl
    exact absurd (canon_le h h2) (not_le.2 h3)
  have h2 : (Finset.univ.filter fun c : Fin 3 → Con => 2 ≤ heldNum c).card = 20 := by decide +kernel
  have h3 := Finset.card_le_card h1
  have hm : c ∈ Finset.univ.filter fun c : Fin 3 → Con => 2 ≤ heldNum c := by simp [h.num]
  rw [Finset.card_erase_of_mem hm, h2] at h3
  omega

/-- a released coordinate can move inward -/
theorem released_inward (b : Box3 K) (r0 dr : Fin 3 → K) (hr : InBox3 b r0) (c : Fin 3 → Con) (hh : Held3 b r0 dr c) (d : Fin 3) (hc : c d ≠ .free) (y : K) (hy : dr d * y < 0) : Inward b r0 dr d y := by
  refine ⟨?_, fun w hw hat => ?_⟩
  · rintro rfl; rw [mul_zero] at hy; exact lt_irrefl _ hy
  have h := hh d hc
  have hb := hr d
  cases hcd : c d with
  | free => exact absurd hcd hc
  | lo =>
    rw [hcd] at h
    have h : r0 d + dr d = b.lo d := h
    have hneg : dr d < 0 := by
      rcases (show dr d ≤ 0 by linarith).lt_or_eq with h1 | h1
      · exact h1
      · rw [h1, zero_mul] at hy; exact absurd hy (lt_irrefl _)
    have hyp : 0 < y := by by_contra hn; push Not at hn; exact absurd hy (not_lt.2 (mul_nonneg_of_nonpos_of_nonpos hneg.le hn))
    cases w with
    | free => exact absurd rfl hw
    | lo => show -1 * y ≤ 0; linarith
    | hi =>
      have hat : r0 d + dr d = b.hi d := hat
      exfalso; linarith
  | hi =>
    rw [hcd] at h
    have h : r0 d + dr d = b.hi d := h
    have hpos : 0 < dr d := by
      rcases (show 0 ≤ dr d by linarith).lt_or_eq with h1 | h1
      · exact h1
      · rw [← h1, zero_mul] at hy; exact absurd hy (lt_irrefl _)
    have hyn : y < 0 := by by_contra hn; push Not at hn; exact absurd hy (not_lt.2 (mul_nonneg hpos.le hn))
    cases w with
    | free => exact absurd rfl hw
    | hi => show 1 * y ≤ 0; linarith
    | lo =>
      have hat : r0 d + dr d = b.lo d := hat
      exfalso; linarith

/-- what is known at `newton_vol_fin` -/
structure VolOk (b : Box3 K) (J : Fin 3 → Fin 3 → K) (resid r0 dr : Fin 3 → K) (c : Fin 3 → Con) : Prop where
  box : InBox3 b fun e => r0 e + dr e
  held : Held3 b r0 dr c
  desc : linSq3 J resid dr ≤ linSq3 J resid 0
  inner : ∀ d, b.lo d < r0 d + dr d → r0 d + dr d < b.hi d → yy J resid dr d = 0

theorem _root_.Gslib.El.Canon.inner {b : Box3 K} {r0 dr : Fin 3 → K} {c : Fin 3 → Con} (h : Canon b J resid r0 dr c) (d : Fin 3) (h1 : b.lo d < r0 d + dr d) (h2 : r0 d + dr d < b.hi d) : yy J resid dr d = 0 := by
  cases hc : c d with
  | free => exact h.free d hc
  | lo =>
    have := h.held d (by rw [hc]; decide)
    rw [hc] at this
    exact absurd this (ne_of_gt h1)
  | hi =>
    have := h.held d (by rw [hc]; decide)
    rw [hc] at this
    exact absurd this (ne_of_lt h2)

theorem held_keep (b : Box3 K) (r0 dr : Fin 3 → K) (c : Fin 3 → Con) (y : Fin 3 → K) (h : Held3 b r0 dr c) : Held3 b r0 dr (keep3 dr y c) := by
  intro d hd
  unfold keep3 at hd ⊢
  split_ifs at hd ⊢ with h1
  · exact absurd rfl hd
  · exact h d hd

theorem face_inner {b : Box3 K} {r0 dr : Fin 3 → K} {c : Fin 3 → Con} {d : Fin 3} {v : Con} (hc : c = single3 d v) (hv : v ≠ .free) (hh : Held3 b r0 dr c) (h : ∀ e, e ≠ d → yy J resid dr e = 0) (e : Fin 3)
    (h1 : b.lo e < r0 e + dr e) (h2 : r0 e + dr e < b.hi e) : yy J resid dr e = 0 := by
  by_cases he : e = d
  · subst he
    have := hh e (by rw [hc, single3_same]; exact hv)
    rw [hc, single3_same] at this
    cases v with
    | free => exact absurd rfl hv
    | lo => exact absurd this (ne_of_gt h1)
    | hi => exact absurd this (ne_of_lt h2)
  · exact h e he

/-- the loop, from a state after `newton_vol_edge` on -/
theorem relax_run (b : Box3 K) (hdet : det3 J ≠ 0) (r0 : Fin 3 → K) (hr : InBox3 b r0) : ∀ (fuel : Nat) (dr : Fin 3 → K) (c : Fin 3 → Con), Canon b J resid r0 dr c →
    (below b J resid r0 (linSq3 J resid dr)).card < fuel → linSq3 J resid dr ≤ linSq3 J resid 0 →
    ∃ dr' c', (if (volRelax b J resid r0 (dr, fl3 c)).2 = fl3 c then some (volRelax b J resid r0 (dr, fl3 c)) else volLoop b J resid r0 fuel (volRelax b J resid r0 (dr, fl3 c))) = some (dr', fl3 c') ∧
      VolOk b J resid r0 dr' c' := by
  intro fuel
  induction fuel with
  | zero => intro dr c _ h; omega
  | succ fuel ih =>
    intro dr c hc hcard hdesc
    rw [volRelax_run b r0 dr c hc.held]
    dsimp only
    by_cases hsame : fl3 (keep3 dr (yy J resid dr) c) = fl3 c
    · rw [if_pos hsame]
      exact ⟨dr, _, rfl, hc.box, held_keep b r0 dr c _ hc.held, hdesc, hc.inner⟩
    rw [if_neg hsame]
    have hk := held_keep b r0 dr c (yy J resid dr) hc.held
    -- a coordinate that was released
    obtain ⟨x, hx1, hx2⟩ : ∃ x, c x ≠ .free ∧ dr x * yy J resid dr x < 0 := by
      by_contra hcon
      push Not at hcon
      apply hsame
      congr 1
      funext x
      unfold keep3
      split_ifs with h
      · by_cases hcx : c x = .free
        · exact hcx.symm
        · exact absurd h (not_lt.2 (hcon x hcx))
      · rfl
    have hxI : Inward b r0 dr x (yy J resid dr x) := released_inward b r0 dr hr c hc.held x hx1 _ hx2
    have hxk : keep3 dr (yy J resid dr) c x = .free := by unfold keep3; rw [if_pos hx2]
    -- free coordinates have slope 0 or point inward
    have hI : ∀ e, keep3 dr (yy J resid dr) c e = .free → yy J resid dr e = 0 ∨ Inward b r0 dr e (yy J resid dr e) := by
      intro e he
      by_cases hce : c e = .free
      · exact Or.inl (hc.free e hce)
      · right
        refine released_inward b r0 dr hr c hc.held e hce _ ?_
        unfold keep3 at he
        by_contra hn
        rw [if_neg hn] at he
        exact hce he
    -- the rest of a pass
    have tail : ∀ dr1 c1 f, c1 f = .free → c1 (f + 1) ≠ .free → c1 (f + 2) ≠ .free → (InBox3 b fun e => r0 e + dr1 e) → Held3 b r0 dr1 c1 → linSq3 J resid dr1 ≤ linSq3 J resid dr →
        (linSq3 J resid dr1 < linSq3 J resid dr ∨ Inward b r0 dr1 f (yy J resid dr1 f)) →
        ∃ dr' c', volTail b J resid r0 (volLoop b J resid r0 fuel) (dr1, fl3 c1) = some (dr', fl3 c') ∧ VolOk b J resid r0 dr' c' := by
      intro dr1 c1 f h0 h1 h2 hin hh hle hstr
      obtain ⟨dr2, c2, e2, hin2, hh2, hn2, hf2, hle2, hlt2⟩ := volEdge_run (J := J) (resid := resid) b hdet r0 dr1 c1 f h0 h1 h2 hin hh
      have hlt : linSq3 J resid dr2 < linSq3 J resid dr := by
        rcases hstr with h | h
        · exact lt_of_le_of_lt hle2 h
        · exact lt_of_lt_of_le (hlt2 h) hle
      have hcan : Canon b J resid r0 dr2 c2 := ⟨hin2, hh2, hn2, hf2⟩
      have := below_lt hcan hlt
      unfold volTail
      rw [e2, Option.bind_some]
      exact ih dr2 c2 hcan (by omega) (hlt.le.trans hdesc)
    set k := keep3 dr (yy J resid dr) c with hkdef
    unfold volLoop
    dsimp only
    rw [num_fl3]
    have hle3 := heldNum_le k
    interval_cases hn : heldNum k
    · rw [if_neg (by decide), if_neg (by decide)]
      exact ⟨dr, k, rfl, hc.box, hk, hdesc, hc.inner⟩
    · rw [if_pos (by decide)]
      obtain ⟨d, hd, hkd⟩ := held_one k hn
      have hkh : Held3 b r0 dr (single3 d (k d)) := by rw [← hkd]; exact hk
      obtain ⟨dr1, c1, fin, e1, hin1, hh1, hle1, hfin1, hfin0⟩ := volFace_run (J := J) (resid := resid) b hdet r0 dr d (k d) hd hc.box hkh
      rw [hkd, e1, Option.bind_some]
      cases fin with
      | true => exact ⟨dr1, c1, rfl, hin1, hh1, hle1.trans hdesc, face_inner (hfin1 rfl).1 hd hh1 (hfin1 rfl).2⟩
      | false =>
        obtain ⟨f, f0, f1, f2, hf⟩ := hfin0 rfl
        have hxd : x ≠ d := by rintro rfl; exact hd hxk
        refine tail dr1 c1 f f0 f1 f2 hin1 hh1 hle1 (hf (fun e he => hI e ?_) ⟨x, hxd, hxI.1⟩)
        rw [hkd]; exact single3_other d e _ he
    · rw [if_neg (by decide), if_pos (by decide)]
      obtain ⟨f, f0, f1, f2⟩ := held_two k hn
      have hxf : x = f := by
        rcases fin3_cases f x with h | h | h
        · exact h
        · rw [h] at hxk; exact absurd hxk f1
        · rw [h] at hxk; exact absurd hxk f2
      subst hxf
      exact tail dr k x f0 f1 f2 hc.box hk (le_refl _) (Or.inr hxI)
    · exact absurd hxk (held_three k hn x)

end Gslib.El
