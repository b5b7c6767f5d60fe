import Verif.Lemmas.GsUniqOwn

/-! # make_topology_unique: the loops over the groups -/

namespace Gslib.Gs
open Gslib Gslib.Sarray Gslib.Spec

variable {np : Nat} {ids : Nat → List Int} {q : Nat}

/-- this process shares id `a` and is not the owner -/
def lose (np : Nat) (ids : Nat → List Int) (q a : Nat) : Prop := gRows np ids q a ≠ [] ∧ own np ids a ≠ q

instance (np : Nat) (ids : Nat → List Int) (q a : Nat) : Decidable (lose np ids q a) := by unfold lose; infer_instance

/-- the flags after the loop -/
def fl2 (np : Nat) (ids : Nat → List Int) (q : Nat) (j : Nat) : Nat := if lose np ids q (absAt (ids q) j) then 1 else fl1 (ids q) j

/-- the ids after the loop -/
def negLost (np : Nat) (ids : Nat → List Int) (q : Nat) (w : List Int) : List Nat → List Int
  | [] => w
  | a :: l => negLost np ids q (if lose np ids q a then w.set (prim (ids q) a) (-(a : Int)) else w) l

theorem negLost_length (l : List Nat) : ∀ (w : List Int), (negLost np ids q w l).length = w.length := by
  induction l with
  | nil => intro w; rfl
  | cons a l ih =>
    intro w
    rw [negLost, ih]
    split <;> simp

theorem negLost_getD : ∀ (l : List Nat) (w : List Int), w.length = (ids q).length → (∀ a ∈ l, has (ids q) a) → l.Nodup → ∀ j,
    (negLost np ids q w l).getD j 0 = if absAt (ids q) j ∈ l ∧ j = prim (ids q) (absAt (ids q) j) ∧ lose np ids q (absAt (ids q) j) then -(absAt (ids q) j : Int) else w.getD j 0
  | [], w, _, _, _, j => by simp [negLost]
  | a :: l, w, hw, h, hn, j => by
    have hn' := List.nodup_cons.1 hn
    rw [negLost, negLost_getD l _ (by split <;> simp [hw]) (fun c hc => h c (by simp [hc])) hn'.2]
    have ha := h a (by simp)
    have hpa := absAt_prim ha
    by_cases hj : absAt (ids q) j = a
    · rw [if_neg (fun hc => hn'.1 (hj ▸ hc.1)), hj]
      by_cases hl : lose np ids q a
      · rw [if_pos hl]
        by_cases hjp : j = prim (ids q) a
        · rw [if_pos ⟨by simp, hjp, hl⟩, List.getD_eq_getElem?_getD, hjp, List.getElem?_set_self (by rw [hw]; exact prim_lt_length ha)]; rfl
        · rw [if_neg (fun hc => hjp hc.2.1), List.getD_eq_getElem?_getD, List.getElem?_set_ne (Ne.symm hjp), List.getD_eq_getElem?_getD]
      · rw [if_neg hl, if_neg (fun hc => hl hc.2.2)]
    · have e1 : absAt (ids q) j ∈ a :: l ↔ absAt (ids q) j ∈ l := by simp [hj]
      simp only [e1]
      have e2 : (if lose np ids q a then w.set (prim (ids q) a) (-(a : Int)) else w).getD j 0 = w.getD j 0 := by
        split
        · rw [List.getD_eq_getElem?_getD, List.getElem?_set_ne, List.getD_eq_getElem?_getD]
          rintro rfl
          exact hj hpa
        · rfl
      rw [e2]

theorem takeWhile_append_head {A : Type} (c : A → Bool) (l r : List A) (h1 : ∀ x ∈ l, c x = true) (h2 : ∀ x ∈ r.head?, c x = false) :
    (l ++ r).takeWhile c = l ∧ (l ++ r).dropWhile c = r := by
  rw [List.takeWhile_append_of_pos h1, List.dropWhile_append_of_pos h1]
  cases r with
  | nil => simp
  | cons x r =>
    have := h2 x (by simp)
    rw [List.takeWhile_cons_of_neg (by simp [this]), List.dropWhile_cons_of_neg (by simp [this])]
    simp

theorem flatMap_head {A B : Type} {f : A → List B} {P : B → Prop} {l : List A} (h : ∀ a ∈ l, ∀ x ∈ f a, P x) : ∀ x ∈ (l.flatMap f).head?, P x := by
  intro x hx
  obtain ⟨a, ha, hx'⟩ := List.mem_flatMap.1 (List.mem_of_mem_head? hx)
  exact h a ha x hx'

theorem gRows_i {a : Nat} {x : SharedId} (h : x ∈ gRows np ids q a) : x.i = prim (ids q) a ∧ x.id = a := by
  obtain ⟨p, _, rfl⟩ := List.mem_map.1 h
  exact ⟨rfl, rfl⟩

/-- the group of `nz` split at the primary -/
theorem group_split {a : Nat} (ha : has (ids q) a) (fl : Nat → Nat) : ∃ pre post, sgrp (ids q) a = pre ++ prim (ids q) a :: post ∧
    (∀ x ∈ pre, x ≠ prim (ids q) a) ∧ (∀ x ∈ post, x ≠ prim (ids q) a) ∧
    (sgrp (ids q) a).map (uRow (ids q) fl) = pre.map (uRow (ids q) fl) ++ uRow (ids q) fl (prim (ids q) a) :: post.map (uRow (ids q) fl) := by
  have hm : prim (ids q) a ∈ sgrp (ids q) a := (mem_sgrp ha.1).2 (absAt_prim ha)
  have hsp := sorted_split_mem _ _ (sgrp_sorted (ids q) a) hm
  refine ⟨_, _, hsp, ?_, ?_, ?_⟩
  · intro x hx
    have := (List.mem_filter.1 hx).2
    simp at this; omega
  · intro x hx
    have := (List.mem_filter.1 hx).2
    simp at this; omega
  · conv => lhs; rw [hsp]
    rw [List.map_append, List.map_cons]

theorem uniqLoop_run (hq : q < np) (upd : Bool) : ∀ (l : List Nat) (nzb tl : List NonzeroId) (w : List Int) (out : List SharedId), w.length = (ids q).length →
    (∀ a ∈ l, has (ids q) a) → l.Nodup → (∀ x ∈ tl, ∀ b ∈ l, x.i ≠ prim (ids q) b) →
    uniqLoop upd q (l.flatMap (gRows np ids q)) nzb (tl ++ l.flatMap fun a => (sgrp (ids q) a).map (uRow (ids q) (fl1 (ids q)))) w out =
      .ok ⟨if upd then negLost np ids q w l else w, nzb ++ tl ++ l.flatMap fun a => (sgrp (ids q) a).map (uRow (ids q) (fl2 np ids q)), out ++ l.flatMap (kept np ids q)⟩
  | [], nzb, tl, w, out, _, _, _, _ => by
    simp only [List.flatMap_nil, uniqLoop, List.append_nil, negLost, ite_self]
  | a :: l, nzb, tl, w, out, hw, h, hn, htl => by
    have hn' := List.nodup_cons.1 hn
    have ha := h a (by simp)
    have hl := fun c hc => h c (List.mem_cons_of_mem a hc)
    rw [List.flatMap_cons, List.flatMap_cons, List.flatMap_cons, List.flatMap_cons]
    by_cases he : gRows np ids q a = []
    · have hlose : ¬ lose np ids q a := fun hc => hc.1 he
      have hk : kept np ids q a = [] := by unfold kept; rw [if_pos he]
      have hfl : (sgrp (ids q) a).map (uRow (ids q) (fl2 np ids q)) = (sgrp (ids q) a).map (uRow (ids q) (fl1 (ids q))) := by
        apply List.map_congr_left
        intro j hj
        have hj' := (mem_sgrp ha.1).1 hj
        unfold uRow fl2
        rw [hj', if_neg hlose]
      rw [he, hk, hfl, List.nil_append, List.nil_append, ← List.append_assoc]
      rw [uniqLoop_run hq upd l nzb (tl ++ _) w out hw hl hn'.2 ?_]
      · simp only [negLost, if_neg hlose, List.append_assoc]
      · intro x hx b hb
        rcases List.mem_append.1 hx with hx | hx
        · exact htl x hx b (List.mem_cons_of_mem _ hb)
        · obtain ⟨j, hj, rfl⟩ := List.mem_map.1 hx
          have hj' := (mem_sgrp ha.1).1 hj
          intro hc
          have hc' : j = prim (ids q) b := hc
          have := absAt_prim (hl b hb)
          rw [← hc', hj'] at this
          exact hn'.1 (this ▸ hb)
    · -- the group is not empty
      obtain ⟨pb, g, hg⟩ := List.exists_cons_of_ne_nil he
      have hpb := gRows_i (np := np) (ids := ids) (q := q) (a := a) (x := pb) (by rw [hg]; simp)
      have hrest : (g ++ l.flatMap (gRows np ids q)).takeWhile (fun p => decide (p.i = pb.i)) = g ∧
          (g ++ l.flatMap (gRows np ids q)).dropWhile (fun p => decide (p.i = pb.i)) = l.flatMap (gRows np ids q) := by
        apply takeWhile_append_head
        · intro x hx
          have := gRows_i (np := np) (ids := ids) (q := q) (a := a) (x := x) (by rw [hg]; simp [hx])
          rw [this.1, hpb.1]; simp
        · apply flatMap_head
          intro c hc x hx
          have := gRows_i hx
          rw [this.1, hpb.1]
          have hne : prim (ids q) c ≠ prim (ids q) a := by
            intro e
            have := prim_inj (hl c hc) ha e
            exact hn'.1 (this ▸ hc)
          simpa using hne
      obtain ⟨pre, post, hsp, hpre, hpost, hmap⟩ := group_split (q := q) ha (fl1 (ids q))
      have hnz : (tl ++ ((sgrp (ids q) a).map (uRow (ids q) (fl1 (ids q))) ++ l.flatMap fun a => (sgrp (ids q) a).map (uRow (ids q) (fl1 (ids q))))).takeWhile (fun r => decide (r.i ≠ pb.i)) =
            tl ++ pre.map (uRow (ids q) (fl1 (ids q))) ∧
          (tl ++ ((sgrp (ids q) a).map (uRow (ids q) (fl1 (ids q))) ++ l.flatMap fun a => (sgrp (ids q) a).map (uRow (ids q) (fl1 (ids q))))).dropWhile (fun r => decide (r.i ≠ pb.i)) =
            uRow (ids q) (fl1 (ids q)) (prim (ids q) a) :: (post.map (uRow (ids q) (fl1 (ids q))) ++ l.flatMap fun a => (sgrp (ids q) a).map (uRow (ids q) (fl1 (ids q)))) := by
        rw [hmap]
        have e : tl ++ ((pre.map (uRow (ids q) (fl1 (ids q))) ++ uRow (ids q) (fl1 (ids q)) (prim (ids q) a) :: post.map (uRow (ids q) (fl1 (ids q)))) ++ l.flatMap fun a => (sgrp (ids q) a).map (uRow (ids q) (fl1 (ids q)))) =
            (tl ++ pre.map (uRow (ids q) (fl1 (ids q)))) ++ uRow (ids q) (fl1 (ids q)) (prim (ids q) a) :: (post.map (uRow (ids q) (fl1 (ids q))) ++ l.flatMap fun a => (sgrp (ids q) a).map (uRow (ids q) (fl1 (ids q)))) := by
          simp
        rw [e]
        apply takeWhile_append_head
        · intro x hx
          rw [hpb.1]
          rcases List.mem_append.1 hx with hx | hx
          · simpa using htl x hx a (by simp)
          · obtain ⟨j, hj, rfl⟩ := List.mem_map.1 hx
            exact decide_eq_true (show (uRow (ids q) (fl1 (ids q)) j).i ≠ prim (ids q) a from hpre j hj)
        · intro x hx
          simp only [List.head?_cons, Option.mem_def, Option.some.injEq] at hx
          subst hx
          rw [hpb.1]
          simp [uRow]
      have hfl' : ∀ j ∈ post ++ pre, uRow (ids q) (fl2 np ids q) j = uRow (ids q) (fl1 (ids q)) j := by
        intro j hj
        have hjs : j ∈ sgrp (ids q) a := by
          rw [hsp]
          rcases List.mem_append.1 hj with h | h <;> simp [h]
        have hjp : j ≠ prim (ids q) a := by
          rcases List.mem_append.1 hj with h | h
          · exact hpost j h
          · exact hpre j h
        have hj' := (mem_sgrp ha.1).1 hjs
        have h1 : fl1 (ids q) j = 1 := by unfold fl1; rw [hj', if_pos hjp]
        unfold uRow fl2
        rw [h1]; simp
      have hmap2 : (sgrp (ids q) a).map (uRow (ids q) (fl2 np ids q)) = pre.map (uRow (ids q) (fl1 (ids q))) ++ uRow (ids q) (fl2 np ids q) (prim (ids q) a) :: post.map (uRow (ids q) (fl1 (ids q))) := by
        rw [hsp, List.map_append, List.map_cons]
        congr 1
        · exact List.map_congr_left fun j hj => hfl' j (by simp [hj])
        · congr 1
          exact List.map_congr_left fun j hj => hfl' j (by simp [hj])
      have htl' : ∀ x : NonzeroId, (∃ j, absAt (ids q) j = a ∧ x.i = j) → ∀ b ∈ l, x.i ≠ prim (ids q) b := by
        rintro x ⟨j, hj, hx⟩ b hb hc
        have := absAt_prim (hl b hb)
        rw [← hc, hx, hj] at this
        exact hn'.1 (this ▸ hb)
      have hpost' : ∀ x ∈ post.map (uRow (ids q) (fl1 (ids q))), ∀ b ∈ l, x.i ≠ prim (ids q) b := by
        intro x hx
        obtain ⟨j, hj, rfl⟩ := List.mem_map.1 hx
        exact htl' _ ⟨j, (mem_sgrp ha.1).1 (by rw [hsp]; simp [hj]), rfl⟩
      have hgr : uniqGroup q pb (pb :: g) = .ok (kept np ids q a, decide (own np ids a = q)) := by
        rw [← hg]
        exact uniqGroup_run hq ha (by rw [hg]; simp)
      rw [hg, List.cons_append, uniqLoop]
      simp only [hrest.1, hrest.2, hnz.1, hnz.2, hgr, Outcome.bind]
      by_cases ho : own np ids a = q
      · have hlose : ¬ lose np ids q a := fun hc => hc.2 ho
        have hr2 : uRow (ids q) (fl2 np ids q) (prim (ids q) a) = uRow (ids q) (fl1 (ids q)) (prim (ids q) a) := by
          unfold uRow fl2
          rw [absAt_prim ha, if_neg hlose]
        rw [if_pos (by simpa using ho)]
        have := uniqLoop_run hq upd l (nzb ++ (tl ++ pre.map (uRow (ids q) (fl1 (ids q))))) (uRow (ids q) (fl1 (ids q)) (prim (ids q) a) :: post.map (uRow (ids q) (fl1 (ids q)))) w (out ++ kept np ids q a) hw hl hn'.2 (by
          intro x hx
          rcases List.mem_cons.1 hx with rfl | hx
          · exact htl' _ ⟨_, absAt_prim ha, rfl⟩
          · exact hpost' x hx)
        rw [List.cons_append] at this
        rw [this, hmap2, hr2]
        simp only [negLost, if_neg hlose, List.append_assoc, List.cons_append]
      · have hlose : lose np ids q a := ⟨he, ho⟩
        have hr2 : ({ uRow (ids q) (fl1 (ids q)) (prim (ids q) a) with flag := 1 } : NonzeroId) = uRow (ids q) (fl2 np ids q) (prim (ids q) a) := by
          unfold uRow fl2
          rw [absAt_prim ha, if_pos hlose]
        rw [if_neg (by simpa using ho), hr2, if_neg (fun hc => hc.2 (by rw [hpb.1, hw]; exact prim_lt_length ha))]
        have := uniqLoop_run hq upd l (nzb ++ (tl ++ pre.map (uRow (ids q) (fl1 (ids q))))) (uRow (ids q) (fl2 np ids q) (prim (ids q) a) :: post.map (uRow (ids q) (fl1 (ids q))))
          (if upd = true then w.set pb.i (-(pb.id : Int)) else w) (out ++ kept np ids q a) (by split <;> simp [hw]) hl hn'.2 (by
          intro x hx
          rcases List.mem_cons.1 hx with rfl | hx
          · exact htl' _ ⟨_, absAt_prim ha, rfl⟩
          · exact hpost' x hx)
        rw [List.cons_append] at this
        rw [this, hmap2, hpb.1, hpb.2]
        cases upd
        · simp [List.append_assoc]
        · simp [negLost, if_pos hlose, List.append_assoc]

/-- the row of `pr` -/
def prRow (ids : Nat → List Int) (ord : Nat → Nat) (fl : Nat → Nat) (q a : Nat) : PrimaryShared := ⟨a, ord a, prim (ids q) a, fl a⟩

theorem kept_ne {a : Nat} : kept np ids q a ≠ [] ↔ gRows np ids q a ≠ [] := by
  unfold kept
  by_cases h : gRows np ids q a = []
  · simp [h]
  · rw [if_neg h]
    split <;> simp [h]

theorem kept_row {a : Nat} {x : SharedId} (hx : x ∈ kept np ids q a) : x.id = a ∧ x.i = prim (ids q) a ∧ x.flags &&& 1 = if own np ids a = q then 0 else 1 := by
  unfold kept at hx
  by_cases h : gRows np ids q a = []
  · simp [h] at hx
  · rw [if_neg h] at hx
    by_cases ho : own np ids a = q
    · rw [if_pos ho] at hx
      obtain ⟨y, hy, rfl⟩ := List.mem_map.1 hx
      have := gRows_i hy
      exact ⟨this.2, this.1, by simp [ho]⟩
    · rw [if_neg ho, List.mem_singleton] at hx
      subst hx
      exact ⟨rfl, rfl, by simp [ho]⟩

theorem uniqFlags_run (ord : Nat → Nat) (fl : Nat → Nat) : ∀ (l : List Nat), (∀ a ∈ l, has (ids q) a) → l.Nodup →
    uniqFlags (l.flatMap (kept np ids q)) ((l.filter fun a => gRows np ids q a ≠ []).map (prRow ids ord fl q)) =
      .ok ((l.filter fun a => gRows np ids q a ≠ []).map (prRow ids ord (fun a => if own np ids a = q then 0 else 1) q))
  | [], _, _ => by simp [uniqFlags]
  | a :: l, h, hn => by
    have hn' := List.nodup_cons.1 hn
    have ha := h a (by simp)
    have hl := fun c hc => h c (List.mem_cons_of_mem a hc)
    have ih := uniqFlags_run ord fl l hl hn'.2
    by_cases he : gRows np ids q a = []
    · have hk : kept np ids q a = [] := by unfold kept; rw [if_pos he]
      rw [List.flatMap_cons, hk, List.nil_append, List.filter_cons_of_neg (by simp [he])]
      exact ih
    · obtain ⟨pb, g, hg⟩ := List.exists_cons_of_ne_nil (kept_ne.2 he)
      have hpb := kept_row (np := np) (ids := ids) (q := q) (a := a) (x := pb) (by rw [hg]; simp)
      have hrest : (g ++ l.flatMap (kept np ids q)).dropWhile (fun p => decide (p.i = pb.i)) = l.flatMap (kept np ids q) := by
        refine (takeWhile_append_head _ _ _ ?_ ?_).2
        · intro x hx
          have := kept_row (np := np) (ids := ids) (q := q) (a := a) (x := x) (by rw [hg]; simp [hx])
          rw [this.2.1, hpb.2.1]; simp
        · apply flatMap_head
          intro c hc x hx
          have := kept_row hx
          rw [this.2.1, hpb.2.1]
          have hne : prim (ids q) c ≠ prim (ids q) a := by
            intro e
            have := prim_inj (hl c hc) ha e
            exact hn'.1 (this ▸ hc)
          simpa using hne
      rw [List.flatMap_cons, hg, List.cons_append, List.filter_cons_of_pos (by simp [he]), List.map_cons, uniqFlags, hrest, ih]
      simp only [Outcome.bind, List.map_cons, prRow, hpb.2.2]

end Gslib.Gs
