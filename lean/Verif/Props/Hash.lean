import Verif.Lemmas.Hash
import Verif.Spec.Hash
import Mathlib.Data.Rat.Floor
import Mathlib.Algebra.Order.Ring.Rat

/-!
# C40, C51: the local hash table
-/

namespace Gslib.Props
open Gslib.Num Gslib.Hash Gslib.Spec

theorem mapM_some {A B : Type} (f : A → Option B) (g : A → B) : ∀ (l : List A), (∀ a ∈ l, f a = some (g a)) → l.mapM f = some (l.map g)
  | [], _ => rfl
  | a :: l, h => by
      rw [List.mapM_cons, h a (by simp), mapM_some f g l (fun b hb => h b (by simp [hb]))]; rfl

/-- the bisection ends at a size that fits, and the next size does not fit (unless the upper limit is reached) -/
theorem bisect_spec (size : Nat → Nat) (maxSize nu0 : Nat) (L : Nat → Nat → Prop) : ∀ (k nl nu low : Nat), nu - nl = k → L nl low →
    (∀ n, nl < n → n < nu → size n ≤ maxSize → L n (size n)) → (nu = nu0 ∨ maxSize < size nu) → nl < nu →
    ∃ n l, bisect size maxSize nl nu low = (n, l) ∧ nl ≤ n ∧ n < nu ∧ L n l ∧ (n + 1 = nu0 ∨ maxSize < size (n + 1)) := by
  intro k
  induction k using Nat.strong_induction_on with
  | _ k ih =>
    intro nl nu low hk h1 h2 h3 h4
    rw [bisect]
    by_cases h : nu - nl > 1
    · rw [if_pos h]
      dsimp only
      split
      · rename_i hs
        obtain ⟨n, l, e, a, b, c⟩ := ih (nu - (nl + (nu - nl) / 2)) (by omega) (nl + (nu - nl) / 2) nu _ rfl (h2 _ (by omega) (by omega) hs)
          (fun n hn hn' => h2 n (by omega) hn') h3 (by omega)
        exact ⟨n, l, e, by omega, b, c⟩
      · rename_i hs
        obtain ⟨n, l, e, a, b, c⟩ := ih (nl + (nu - nl) / 2 - nl) (by omega) nl (nl + (nu - nl) / 2) low rfl h1
          (fun n hn hn' => h2 n hn (by omega)) (Or.inr (by omega)) (by omega)
        exact ⟨n, l, e, a, by omega, c⟩
    · rw [if_neg h]
      have : nu = nl + 1 := by omega
      exact ⟨nl, low, rfl, le_refl _, h4, h1, this ▸ h3⟩

variable {K : Type} [Field K] [LinearOrder K] [IsStrictOrderedRing K] [FloorRing K]

theorem bisect_le (size : Nat → Nat) (maxSize nl nu low : Nat) (h : nu ≤ nl + 1) : bisect size maxSize nl nu low = (nl, low) := by
  rw [bisect, if_neg (by omega)]

/-- number of entries of the table for `n` cells per coordinate -/
theorem hashCount_one {bnd : List (Range K)} {obb : List (List (Range K))} (hf : ∀ b ∈ obb, FitBox bnd b) : hashCount 1 bnd obb = obb.length := by
  unfold hashCount
  have : ∀ b ∈ obb, ((hashRanges 1 bnd b).map fun r => r.max - r.min).prod = 1 := by
    intro b hb
    have hok := hashRanges_ok (n := 1) (by omega) (hf b hb)
    generalize hashRanges 1 bnd b = l at hok
    clear hb hf
    induction l with
    | nil => rfl
    | cons r l ih =>
      have := hok r (by simp)
      have h' : r.max - r.min = 1 := by unfold IRange.Ok at this; omega
      rw [List.map_cons, List.prod_cons, h', ih (fun r hr => hok r (by simp [hr]))]
  rw [List.map_congr_left this]; simp

/-- **C51 (hash size)**: the number of cells per coordinate and the table size chosen: the size is that of the table with this number of cells;
it respects the caller's limit unless there is a single cell; and one more cell per coordinate would exceed the limit or the search's upper end. -/
theorem hash_opt_size_spec {bnd : List (Range K)} {obb : List (List (Range K))} (hf : ∀ b ∈ obb, FitBox bnd b) (maxSize nu0 : Nat) :
    ∃ n size, hashOptSize bnd obb maxSize nu0 = (n, size) ∧ 1 ≤ n ∧
      size = n ^ bnd.length + 1 + hashCount n bnd obb ∧ (n = 1 ∨ size ≤ maxSize) ∧
      (nu0 ≤ n + 1 ∨ maxSize < (n + 1) ^ bnd.length + 1 + hashCount (n + 1) bnd obb) := by
  unfold hashOptSize
  by_cases h : nu0 ≤ 2
  · refine ⟨1, 2 + obb.length, bisect_le _ _ _ _ _ (by omega), le_refl _, ?_, Or.inl rfl, Or.inl h⟩
    rw [hashCount_one hf, one_pow]
  · obtain ⟨n, l, e, a, b, c, d⟩ := bisect_spec (fun n => n ^ bnd.length + 1 + hashCount n bnd obb) maxSize nu0
      (fun n l => l = n ^ bnd.length + 1 + hashCount n bnd obb ∧ (n = 1 ∨ l ≤ maxSize)) (nu0 - 1) 1 nu0 (2 + obb.length) rfl
      ⟨by rw [hashCount_one hf, one_pow], Or.inl rfl⟩ (fun n _ _ hs => ⟨rfl, Or.inr hs⟩) (Or.inl rfl) (by omega)
    refine ⟨n, l, e, a, c.1, c.2, ?_⟩
    rcases d with d | d
    · left; omega
    · right; exact d

theorem events_length (hn : Nat) (bnd : List (Range K)) (obb : List (List (Range K))) :
    (events hn bnd obb).length = hashCount hn bnd obb := by
  unfold events hashCount
  rw [List.length_flatMap]
  simp only [List.length_map, cells_length]
  congr 1
  apply List.ext_getElem
  · simp
  · intro i h1 h2
    simp only [List.length_map, List.length_range] at h1
    simp [List.getD_eq_getElem?_getD, List.getElem?_eq_getElem h1]

theorem vals_events (hn : Nat) {bnd : List (Range K)} {obb : List (List (Range K))} (h1 : 0 < hn) (hf : ∀ b ∈ obb, FitBox bnd b) (c : Nat) :
    vals (events hn bnd obb) c = (List.range obb.length).filter (fun el => c ∈ cells hn (hashRanges hn bnd (obb.getD el []))) := by
  unfold events
  have key : ∀ l : List Nat, (∀ el ∈ l, el < obb.length) →
      vals (l.flatMap fun el => (cells hn (hashRanges hn bnd (obb.getD el []))).map fun c => (c, el)) c
        = l.filter (fun el => c ∈ cells hn (hashRanges hn bnd (obb.getD el []))) := by
    intro l
    induction l with
    | nil => intro _; rfl
    | cons el l ih =>
      intro hl
      have hel := hl el (by simp)
      have hnd : (cells hn (hashRanges hn bnd (obb.getD el []))).Nodup := by
        apply cells_nodup
        apply hashRanges_ok h1
        apply hf
        rw [List.getD_eq_getElem?_getD, List.getElem?_eq_getElem hel]
        exact List.getElem_mem hel
      rw [List.flatMap_cons, vals_append, ih (fun e he => hl e (by simp [he])), List.filter_cons]
      generalize cells hn (hashRanges hn bnd (obb.getD el [])) = cs at hnd
      have : ∀ cs : List Nat, cs.Nodup → vals (cs.map fun c => (c, el)) c = if c ∈ cs then [el] else [] := by
        intro cs hcs
        induction cs with
        | nil => rfl
        | cons a cs ihc =>
          rw [List.nodup_cons] at hcs
          rw [List.map_cons, ← List.singleton_append, vals_append, ihc hcs.2]
          by_cases ha : a = c
          · subst ha; simp [vals, hcs.1]
          · simp [vals, ha, Ne.symm ha]
      rw [this cs hnd]
      by_cases hc : c ∈ cs <;> simp [hc]
  exact key _ (by simp)

/-- **C40 (local hash table)**. For every non-empty list of proper boxes and every size limit, building the table performs no access out of
bounds and no read of an unset entry, and yields a bounding box, a number `hn` of cells per coordinate and a table such that

* the table has the reported size, within the limit unless there is only one cell;
* every cell number the search can compute, for any point at all, is below `hn^D`;
* every cell can be read; it lists elements in increasing order (so each at most once), no more than the reported maximum, which some cell attains;
* for every point of the half open box of element `el`, the cell of the point lists `el`. -/
theorem local_hash_table {D : Nat} {obb : List (List (Range K))} (hne : obb ≠ []) (hp : ProperBoxes D obb) (maxSize nu0 : Nat) :
    ∃ bnd hn size off mx, hashBuildAll obb maxSize nu0 = some (bnd, hn, size, off, mx) ∧
      (hn = 1 ∨ size ≤ maxSize) ∧
      (∀ x, hashIndex hn bnd x < hn ^ D) ∧
      (∀ c < hn ^ D, ∃ l, readBucket size off c = some l ∧ l.Pairwise (· < ·) ∧ (∀ el ∈ l, el < obb.length) ∧ l.length ≤ mx) ∧
      (∃ c < hn ^ D, ∃ l, readBucket size off c = some l ∧ l.length = mx) ∧
      (∀ x el box, obb[el]? = some box → InHalfOpenBox box x → ∃ l, readBucket size off (hashIndex hn bnd x) = some l ∧ el ∈ l) := by
  obtain ⟨bnd, eb, hl, hf⟩ := hashBb_fit hne hp
  obtain ⟨hn, size, eo, h1, hsz, hlim, _⟩ := hash_opt_size_spec hf maxSize nu0
  have hnd : 0 < hn ^ D := Nat.pow_pos h1
  have hev : ∀ e ∈ events hn bnd obb, e.1 < hn ^ D := by
    intro e he
    unfold events at he
    simp only [List.mem_flatMap, List.mem_map, List.mem_range] at he
    obtain ⟨el, hel, c, hc, rfl⟩ := he
    have hfit : FitBox bnd (obb.getD el []) := by
      apply hf
      rw [List.getD_eq_getElem?_getD, List.getElem?_eq_getElem hel]
      exact List.getElem_mem hel
    have := cells_lt _ (hashRanges_ok h1 hfit) c hc
    rwa [hashRanges_length hfit, hl] at this
  have hlen := events_length hn bnd obb
  rw [hl] at hsz
  obtain ⟨cnt, e1, hc⟩ := countAll_run (hn ^ D) (events hn bnd obb) hev
  obtain ⟨o, sum, mx, e2, ho, hmx, cm, hcm, hcm'⟩ := offsets_run size (hn ^ D) (events hn bnd obb) hnd (by omega) cnt (fun _ => none) hc
  obtain ⟨o', cnt', e3, ho', hb⟩ := fillAll_run size (hn ^ D) (events hn bnd obb) hev (by omega) cnt o hc ho
  have hread : ∀ c < hn ^ D, readBucket size o' c = some (vals (events hn bnd obb) c) := by
    intro c hc
    unfold readBucket
    have r1 := ho'.rd c (by omega) (cap := size) (by omega)
    have r2 := ho'.rd (c + 1) (by omega) (cap := size) (by omega)
    rw [Nat.zero_add] at r1 r2
    rw [r1, r2, Option.bind_some, Option.bind_some, pos, Nat.add_sub_cancel_left,
      mapM_some _ (fun i => (vals (events hn bnd obb) c).getD i 0)]
    · congr 1
      apply List.ext_getElem
      · simp
      · intro i hi1 hi2
        simp [List.getD_eq_getElem?_getD, List.getElem?_eq_getElem hi2]
    · intro i hi
      rw [List.mem_range] at hi
      have hle := pos_mono (hn ^ D) (events hn bnd obb) (show c + 1 ≤ hn ^ D by omega)
      rw [pos_total _ _ hev, pos] at hle
      rw [rd, if_pos (by omega), hb c hc i hi]
      simp [List.getD_eq_getElem?_getD, List.getElem?_eq_getElem hi]
  refine ⟨bnd, hn, size, o', mx, ?_, hlim, ?_, ?_, ⟨cm, hcm, _, hread cm hcm, hcm'.symm⟩, ?_⟩
  · unfold hashBuildAll hashBuild
    rw [eb, Option.bind_some]
    simp only [eo, hl]
    rw [e1, Option.bind_some, e2, Option.bind_some, e3]; rfl
  · intro x
    have := hashIndex_lt h1 bnd x
    rwa [hl] at this
  · intro c hc
    refine ⟨_, hread c hc, ?_, ?_, hmx c hc⟩
    · rw [vals_events hn h1 hf]
      exact List.Pairwise.filter _ List.pairwise_lt_range
    · intro el hel
      rw [vals_events hn h1 hf, List.mem_filter, List.mem_range] at hel
      exact hel.1
  · intro x el box hbox hx
    have hel : el < obb.length := by
      by_contra h
      rw [List.getElem?_eq_none (by omega)] at hbox; cases hbox
    refine ⟨_, hread _ ?_, ?_⟩
    · have := hashIndex_lt h1 bnd x
      rwa [hl] at this
    · rw [vals_events hn h1 hf, List.mem_filter, List.mem_range]
      have eg : obb.getD el [] = box := by rw [List.getD_eq_getElem?_getD, hbox]; rfl
      refine ⟨hel, ?_⟩
      rw [eg]
      simp only [decide_eq_true_eq]
      apply hashIndex_mem h1 (hf box (List.mem_of_getElem? hbox)) hx.1
      intro d b r y _ hr hy
      obtain ⟨a1, a2⟩ := hx.2 d r y hr hy
      exact ⟨a1, a2.le, Or.inl a2⟩

/-- the hypotheses of `local_hash_table` are met by two plane boxes -/
example : ProperBoxes 2 [[⟨0, 1⟩, ⟨0, 1⟩], [⟨3/2, 2⟩, ⟨0, (1 : ℚ)⟩]] := by
  intro b hb
  simp only [List.mem_cons, List.not_mem_nil, or_false] at hb
  rcases hb with rfl | rfl <;> simp <;> norm_num

/-- **C40, closed boxes**: the point may also be on an upper face, unless this face is on a cell boundary (the upper face of the common bounding
box is no exception to the claim: it is covered). -/
theorem local_hash_table_closed {n : Nat} (hn : 0 < n) {bnd box : List (Range K)} {x : List K} (hf : FitBox bnd box) (hl : x.length = box.length)
    (hc : ∀ (d : Nat) b r y, bnd[d]? = some b → box[d]? = some r → x[d]? = some y →
      r.min ≤ y ∧ y ≤ r.max ∧ (y < r.max ∨ y = b.max ∨ ∀ i : ℤ, (y - b.min) * ((n : K) / (b.max - b.min)) ≠ i)) :
    hashIndex n bnd x ∈ cells n (hashRanges n bnd box) :=
  hashIndex_mem hn hf hl hc

/-- the two boxes `[0,1]×[0,1]` and `[3/2,2]×[0,1]` -/
def twoBoxes : List (List (Range ℚ)) := [[⟨0, 1⟩, ⟨0, 1⟩], [⟨3/2, 2⟩, ⟨0, 1⟩]]

theorem twoBoxes_size : hashOptSize [⟨0, 2⟩, ⟨0, (1 : ℚ)⟩] twoBoxes 100 3 = (2, 9) := by
  have h : (2 ^ 2 + 1 + hashCount 2 [⟨0, 2⟩, ⟨0, (1 : ℚ)⟩] twoBoxes) = 9 := by decide +kernel
  rw [hashOptSize, bisect, if_pos (by omega)]
  simp only [List.length_cons, List.length_nil]
  norm_num at h ⊢
  rw [h, bisect]
  norm_num

/-- **finding**: the half open restriction cannot be dropped. With two cells per coordinate the point `(1,1/2)`, on the upper face of the first
box, falls in a cell that lists only the second box, which does not contain it: the element is never tried. -/
theorem local_hash_upper_face_missed :
    ∃ bnd hn size off mx, hashBuildAll twoBoxes 100 3 = some (bnd, hn, size, off, mx) ∧
      readBucket size off (hashIndex hn bnd [1, 1/2]) = some [1] := by
  have hb : hashBb twoBoxes = some [⟨0, 2⟩, ⟨0, (1 : ℚ)⟩] := by
    simp [hashBb, twoBoxes, rangeMerge]; norm_num
  unfold hashBuildAll hashBuild
  rw [hb, Option.bind_some]
  simp only [twoBoxes_size]
  have : ((countAll (2 ^ 2) (events 2 [⟨0, 2⟩, ⟨0, (1 : ℚ)⟩] twoBoxes) (fun i => if i < 2 ^ 2 then some 0 else none)).bind fun count =>
      (offsets 9 (2 ^ 2) count (fun _ => none)).bind fun s =>
      (fillAll 9 (2 ^ 2) (events 2 [⟨0, 2⟩, ⟨0, (1 : ℚ)⟩] twoBoxes) (s.1, count)).bind fun t =>
      readBucket 9 t.1 (hashIndex 2 [⟨0, 2⟩, ⟨0, (1 : ℚ)⟩] [1, 1/2])) = some [1] := by decide +kernel
  simp only [List.length_cons, List.length_nil, Nat.zero_add]
  show ∃ bnd hn size off mx, Option.map _ ((countAll (2 ^ 2) _ _).bind _) = _ ∧ _
  generalize countAll (2 ^ 2) (events 2 [⟨0, 2⟩, ⟨0, (1 : ℚ)⟩] twoBoxes) (fun i => if i < 2 ^ 2 then some 0 else none) = c at *
  cases c with
  | none => simp at this
  | some c =>
    simp only [Option.bind_some] at this ⊢
    generalize offsets 9 (2 ^ 2) c (fun _ => none) = o at *
    cases o with
    | none => simp at this
    | some o =>
      simp only [Option.bind_some] at this ⊢
      generalize fillAll 9 (2 ^ 2) (events 2 [⟨0, 2⟩, ⟨0, (1 : ℚ)⟩] twoBoxes) (o.1, c) = t at *
      cases t with
      | none => simp at this
      | some t =>
        simp only [Option.bind_some] at this
        exact ⟨_, 2, 9, t.1, o.2.2, rfl, this⟩

/-- **finding**: boxes need positive thickness. A box of zero thickness at the upper end of the bounding box gets the range `[n,n+1)`, outside of
the table. -/
theorem hash_range_degenerate {n : Nat} {b : Range K} (hb : b.min < b.max) :
    (hashRange n b ⟨b.max, b.max⟩).min = n ∧ (hashRange n b ⟨b.max, b.max⟩).max = n + 1 := by
  have : (b.max - b.min) * facOf n b = n := facOf_top (r := b) ⟨le_refl _, hb.le, le_refl _, hb⟩
  simp [hashRange, this]

end Gslib.Props
