import Verif.Lemmas.HashWrap
import Mathlib.Data.Rat.Floor
import Mathlib.Algebra.Order.Ring.Rat

/-!
# C69: 32-bit arithmetic in the local hash table
-/

namespace Gslib.Props
open Gslib.Num Gslib.Hash Gslib.Spec

section
variable {K : Type} [Field K] [LinearOrder K] [IsStrictOrderedRing K] [FloorRing K]

/-- **C69**: if `(nel+1)·nu^D + 1 < 2^32`, where `nu = ceil((max_size-nel)^(1/D)) > 0`, no 32-bit computation wraps and no conversion is undefined: the table has all the properties of C40 -/
theorem local_hash_table_machine {D : Nat} {obb : List (List (Range K))} (hne : obb ≠ []) (hp : ProperBoxes D obb) (hD : 0 < D) (maxSize nu0 : Nat) (h0 : 0 < nu0)
    (hw : (obb.length + 1) * nu0 ^ D + 1 < 4294967296) :
    ∃ bnd hn size off mx, hashBuildAllM obb maxSize nu0 = some (bnd, hn, size, off, mx) ∧
      (hn = 1 ∨ size ≤ maxSize) ∧
      (∀ x, hashIndex hn bnd x < hn ^ D) ∧
      (∀ c < hn ^ D, ∃ l, readBucket size off c = some l ∧ l.Pairwise (· < ·) ∧ (∀ el ∈ l, el < obb.length) ∧ l.length ≤ mx) ∧
      (∃ c < hn ^ D, ∃ l, readBucket size off c = some l ∧ l.length = mx) ∧
      (∀ x el box, obb[el]? = some box → InHalfOpenBox box x → ∃ l, readBucket size off (hashIndex hn bnd x) = some l ∧ el ∈ l) := by
  have e : hashBuildAllM obb maxSize nu0 = hashBuildAll obb maxSize nu0 := by
    obtain ⟨bnd, eb, hl, hf⟩ := hashBb_fit hne hp
    unfold hashBuildAllM hashBuildAll
    rw [eb, Option.bind_some, Option.bind_some, hashBuildM_eq hne hf (by omega) maxSize nu0 h0 (by rw [hl]; exact hw)]
  rw [e]
  exact local_hash_table hne hp maxSize nu0

theorem hashBb_attained : ∀ (bs : List (List (Range K))) (acc : List (Range K)) (bb : Range K) (bt : List (Range K)),
    bs.foldl (fun acc x => List.zipWith rangeMerge acc x) acc = bb :: bt → ∃ box ∈ acc :: bs, ∃ r rs, box = r :: rs ∧ r.max = bb.max
  | [], acc, bb, bt, h => ⟨acc, by simp, bb, bt, h, rfl⟩
  | x :: bs, acc, bb, bt, h => by
    obtain ⟨box, hbox, r, rs, e, hm⟩ := hashBb_attained bs (List.zipWith rangeMerge acc x) bb bt h
    rcases List.mem_cons.1 hbox with rfl | hbox
    · cases acc with
      | nil => simp at e
      | cons a acc =>
        cases x with
        | nil => simp at e
        | cons y x =>
          rw [List.zipWith_cons_cons, List.cons.injEq] at e
          rw [← e.1] at hm
          simp only [rangeMerge] at hm
          split at hm
          · exact ⟨_, List.mem_cons_self .., a, acc, rfl, hm⟩
          · exact ⟨_, List.mem_cons_of_mem _ (List.mem_cons_self ..), y, x, rfl, hm⟩
    · exact ⟨box, by simp [hbox], r, rs, e, hm⟩

theorem hashCountM_none {n : Nat} {bnd : List (Range K)} {box : List (Range K)} (h : hashRangesM n bnd box = none) : ∀ (l : List (List (Range K))) (c : Nat), box ∈ l → hashCountM n bnd l c = none
  | x :: l, c, hm => by
    rw [hashCountM]
    rcases List.mem_cons.1 hm with rfl | hm
    · rw [h]; rfl
    · cases hashRangesM n bnd x with
      | none => rfl
      | some rs => exact hashCountM_none h l _ hm

/-- **C69 (finding)**: a size limit equal to the number of elements. `pow(0,1/D)` is 0, the unsigned difference `nu-nl` wraps, the first number of cells tried is 2^31, and a `double` that is not an `sint` is converted: undefined
for all elements. -/
theorem hash_limit_eq_nel_undefined {D : Nat} {obb : List (List (Range K))} (hp : ProperBoxes D obb) (hD : 0 < D) (maxSize : Nat) : hashBuildAllM obb maxSize 0 = none := by
  unfold hashBuildAllM
  by_cases hne : obb = []
  · subst hne; rfl
  obtain ⟨bnd, eb, hl, hf⟩ := hashBb_fit hne hp
  rw [eb, Option.bind_some]
  cases hb : bnd with
  | nil => rw [hb] at hl; simp at hl; omega
  | cons bb bt =>
    have hcnt : hashCountM 2147483648 bnd obb 0 = none := by
      obtain ⟨box, hbox, r, rs, e, hm⟩ : ∃ box ∈ obb, ∃ r rs, box = r :: rs ∧ r.max = bb.max := by
        cases obb with
        | nil => exact absurd rfl hne
        | cons acc bs =>
          simp only [hashBb, Option.some.injEq] at eb
          exact hashBb_attained bs acc bb bt (eb.trans hb)
      refine hashCountM_none ?_ obb 0 hbox
      have hfit := hf box hbox
      rw [hb, e] at hfit ⊢
      have hfit := (List.forall₂_cons.1 hfit).1
      rw [hashRangesM]
      have : hashRangeM 2147483648 bb r = none := by
        unfold hashRangeM
        rw [hm, facOf_top hfit, Int.ceil_natCast]
        cases sintOf ⌊(r.min - bb.min) * facOf 2147483648 bb⌋ with
        | none => rfl
        | some i => rw [Option.bind_some, show sintOf ((2147483648 : Nat) : Int) = none from if_neg (by decide)]; rfl
      rw [this]; rfl
    have : hashOptSizeM bnd obb maxSize 0 = none := by
      unfold hashOptSizeM
      rw [bisectM, if_pos (by decide)]
      show (sizeM bnd obb 2147483648).bind _ = none
      rw [sizeM, hcnt]; rfl
    rw [hb] at this
    unfold hashBuildM
    rw [this]; rfl

end

/-- the unit square -/
def unitBox : List (Range ℚ) := [⟨0, 1⟩, ⟨0, 1⟩]

theorem unit_proper (N : Nat) : ProperBoxes 2 (List.replicate N unitBox) := by
  intro b hb
  obtain ⟨_, rfl⟩ := List.mem_replicate.1 hb
  simp [unitBox]

theorem unit_fit (N : Nat) : ∀ b ∈ List.replicate N unitBox, FitBox unitBox b := by
  intro b hb
  obtain ⟨_, rfl⟩ := List.mem_replicate.1 hb
  exact fit_self (by simp [unitBox])

theorem unit_bb {N : Nat} (h : 0 < N) : hashBb (List.replicate N unitBox) = some unitBox := by
  obtain ⟨N, rfl⟩ : ∃ M, N = M + 1 := ⟨N - 1, by omega⟩
  have : ∀ n, (List.replicate n unitBox).foldl (fun acc x => List.zipWith rangeMerge acc x) unitBox = unitBox := by
    intro n
    induction n with
    | zero => rfl
    | succ n ih =>
      rw [List.replicate_succ, List.foldl_cons]
      have : List.zipWith rangeMerge unitBox unitBox = unitBox := by simp [unitBox, rangeMerge]
      rw [this, ih]
  simp only [List.replicate_succ, hashBb]
  rw [this]

theorem unit_range {n : Nat} (hn : 0 < n) : hashRanges n unitBox unitBox = [⟨0, n⟩, ⟨0, n⟩] := by
  have : hashRange n (⟨0, 1⟩ : Range ℚ) ⟨0, 1⟩ = ⟨0, n⟩ := by
    simp [hashRange, facOf]; omega
  simp [hashRanges, unitBox, this]

theorem unit_count {n : Nat} (hn : 0 < n) (N : Nat) : hashCount n unitBox (List.replicate N unitBox) = N * (n * n) := by
  unfold hashCount
  rw [List.map_replicate, unit_range hn]
  simp

theorem unit_size {n : Nat} (hn : 0 < n) (hs : n < 2147483648) (N : Nat) : sizeM unitBox (List.replicate N unitBox) n = some ((n * n + 1 + N * (n * n)) % 4294967296) := by
  rw [sizeM_mod hn hs (unit_fit N), unit_count hn]
  simp [unitBox, pow_two]

/-- 65536 elements with the same bounding box and the size limit 327680: the limit is respected by a table of 65537 entries, with 256 cells in both directions (`512 = sqrt(327680-65536)`) -/
theorem hash_size_wraps : hashOptSizeM unitBox (List.replicate 65536 unitBox) 327680 512 = some (256, 65537) ∧
    hashCount 256 unitBox (List.replicate 65536 unitBox) = 4294967296 := by
  refine ⟨?_, by rw [unit_count (by decide)]⟩
  unfold hashOptSizeM
  have hs : ∀ n, 0 < n → n < 2147483648 → sizeM unitBox (List.replicate 65536 unitBox) n = some ((n * n + 1 + 65536 * (n * n)) % 4294967296) := fun n h1 h2 => unit_size h1 h2 _
  generalize sizeM unitBox (List.replicate 65536 unitBox) = f at hs
  have step : ∀ nl nu low, nl < nu → nu < 1000 → 0 < nl → bisectM f 327680 nl nu low =
      if nu - nl > 1 then
        (if ((nl + (nu - nl) / 2) * (nl + (nu - nl) / 2) + 1 + 65536 * ((nl + (nu - nl) / 2) * (nl + (nu - nl) / 2))) % 4294967296 ≤ 327680 then
          bisectM f 327680 (nl + (nu - nl) / 2) nu (((nl + (nu - nl) / 2) * (nl + (nu - nl) / 2) + 1 + 65536 * ((nl + (nu - nl) / 2) * (nl + (nu - nl) / 2))) % 4294967296)
        else bisectM f 327680 nl (nl + (nu - nl) / 2) low)
      else some (nl, low) := by
    intro nl nu low h1 h2 h3
    rw [bisectM, subU_eq h1.le (by omega)]
    dsimp only
    rw [Nat.mod_eq_of_lt (by omega), hs _ (by omega) (by omega), Option.bind_some]
  rw [List.length_replicate]
  rw [step 1 512 _ (by decide) (by decide) (by decide), if_pos (by decide), if_pos (by decide)]
  show bisectM f 327680 256 512 65537 = _
  rw [step 256 512 _ (by decide) (by decide) (by decide), if_pos (by decide), if_neg (by decide)]
  show bisectM f 327680 256 384 65537 = _
  rw [step 256 384 _ (by decide) (by decide) (by decide), if_pos (by decide), if_neg (by decide)]
  show bisectM f 327680 256 320 65537 = _
  rw [step 256 320 _ (by decide) (by decide) (by decide), if_pos (by decide), if_neg (by decide)]
  show bisectM f 327680 256 288 65537 = _
  rw [step 256 288 _ (by decide) (by decide) (by decide), if_pos (by decide), if_neg (by decide)]
  show bisectM f 327680 256 272 65537 = _
  rw [step 256 272 _ (by decide) (by decide) (by decide), if_pos (by decide), if_neg (by decide)]
  show bisectM f 327680 256 264 65537 = _
  rw [step 256 264 _ (by decide) (by decide) (by decide), if_pos (by decide), if_neg (by decide)]
  show bisectM f 327680 256 260 65537 = _
  rw [step 256 260 _ (by decide) (by decide) (by decide), if_pos (by decide), if_neg (by decide)]
  show bisectM f 327680 256 258 65537 = _
  rw [step 256 258 _ (by decide) (by decide) (by decide), if_pos (by decide), if_neg (by decide)]
  show bisectM f 327680 256 257 65537 = _
  rw [step 256 257 _ (by decide) (by decide) (by decide), if_neg (by decide)]

theorem unit_head {N n : Nat} (hN : 0 < N) (hn : 0 < n) : ∃ t, events n unitBox (List.replicate N unitBox) = (0, 0) :: t := by
  obtain ⟨N, rfl⟩ : ∃ M, N = M + 1 := ⟨N - 1, by omega⟩
  obtain ⟨n, rfl⟩ : ∃ m, n = m + 1 := ⟨n - 1, by omega⟩
  have hc : ∃ t, cells (n + 1) [⟨0, n + 1⟩, ⟨0, n + 1⟩] = 0 :: t := by
    simp only [cells, List.flatMap_cons, List.flatMap_nil, List.append_nil, Nat.sub_zero, List.range_succ_eq_map, List.map_cons, List.cons_append]
    refine ⟨_, congrArg (· :: _) ?_⟩
    simp
  obtain ⟨t, ht⟩ := hc
  unfold events
  rw [List.length_replicate, List.range_succ_eq_map, List.flatMap_cons, List.replicate_succ, List.getD_cons_zero, unit_range (by omega), ht, List.map_cons, List.cons_append]
  exact ⟨_, rfl⟩

theorem forUp_post {S : Type} (I : Nat → S → Prop) (f : Nat → S → Option S) : ∀ (n a : Nat) (s s' : S), I a s → (∀ i s s', a ≤ i → I i s → f i s = some s' → I (i + 1) s') →
    forUp a n f s = some s' → I (a + n) s'
  | 0, _, s, s', h, _, e => by cases e; exact h
  | n + 1, a, s, s', h, hs, e => by
    rw [forUp, Option.bind_eq_some_iff] at e
    obtain ⟨t, h1, h2⟩ := e
    have := forUp_post I f n (a + 1) t s' (hs a s t (le_refl _) h h1) (fun i s s' hi => hs i s s' (by omega)) h2
    rwa [show a + (n + 1) = a + 1 + n by omega]

/-- **C69 (finding)**: 65536 elements with the same bounding box, size limit 327680 (5 per element): the number of entries is 2^32, which wraps to 0; `hash_build` allocates 65537 entries, fills them with the offsets of the cells and
writes the first element number behind the end of the array -/
theorem hash_table_overflow : hashBuildAllM (List.replicate 65536 unitBox) 327680 512 = none := by
  unfold hashBuildAllM hashBuildM
  rw [unit_bb (by decide), Option.bind_some, hash_size_wraps.1, Option.bind_some]
  dsimp only
  have hpw : powM 256 unitBox.length = 65536 := powM_eq (n := 256) (D := 2) (by decide)
  have hev := eventsM_eq (hn := 256) (by decide) (by decide) (bnd := unitBox) (by decide) _ (unit_fit 65536)
  rw [hpw, hev, Option.bind_some]
  have hvals : ∀ c, vals (events 256 unitBox (List.replicate 65536 unitBox)) c = (List.range 65536).filter (fun _ => c ∈ cells 256 [⟨0, 256⟩, ⟨0, 256⟩]) := by
    intro c
    rw [vals_events 256 (by decide) (unit_fit 65536), List.length_replicate]
    refine List.filter_congr fun el hel => ?_
    rw [List.mem_range] at hel
    have : (List.replicate 65536 unitBox).getD el [] = unitBox := by
      rw [List.getD_eq_getElem?_getD, List.getElem?_replicate, if_pos hel]; rfl
    rw [this, unit_range (by decide)]
  have hlen : ∀ c, (vals (events 256 unitBox (List.replicate 65536 unitBox)) c).length ≤ 65536 := by
    intro c
    rw [hvals]
    exact (List.length_filter_le _ _).trans (by rw [List.length_range])
  have hlen0 : (vals (events 256 unitBox (List.replicate 65536 unitBox)) 0).length = 65536 := by
    rw [hvals, List.filter_eq_self.2, List.length_range]
    intro _ _
    rw [decide_eq_true_eq, mem_cells_cons]
    refine ⟨0, ?_, 0, by decide, by decide, by decide⟩
    rw [mem_cells_cons]
    exact ⟨0, by simp [cells], 0, by decide, by decide, by decide⟩
  have hevlt : ∀ e ∈ events 256 unitBox (List.replicate 65536 unitBox), e.1 < 65536 := by
    intro e he
    unfold events at he
    simp only [List.mem_flatMap, List.mem_map, List.mem_range] at he
    obtain ⟨el, hel, c, hc, rfl⟩ := he
    have hmem : (List.replicate 65536 unitBox).getD el [] ∈ List.replicate 65536 unitBox := by
      rw [List.getD_eq_getElem?_getD, List.getElem?_eq_getElem hel]
      exact List.getElem_mem hel
    have hfit := unit_fit _ _ hmem
    have := cells_lt _ (hashRanges_ok (by decide) hfit) c hc
    rw [hashRanges_length hfit] at this
    exact this
  obtain ⟨t, ht⟩ := unit_head (N := 65536) (n := 256) (by decide) (by decide)
  rw [countAllM_eq _ _ fun c => (hlen c).trans_lt (by decide)]
  obtain ⟨cnt, e1, hc⟩ := countAll_run 65536 (events 256 unitBox (List.replicate 65536 unitBox)) hevlt
  rw [e1, Option.bind_some]
  have hr0 : rd 65536 cnt 0 = some 65536 := by
    have := hc.rd 0 (by decide) (cap := 65536) (by decide)
    rwa [hlen0] at this
  cases ho : offsetsM 65537 65536 cnt (fun _ => none) with
  | none => rfl
  | some s =>
    rw [Option.bind_some]
    have h1 : s.1 1 = some 131073 := by
      unfold offsetsM at ho
      rw [hr0, Option.bind_some, wr_some (by decide), Option.bind_some] at ho
      have := forUp_post (fun i (s : Mem Nat × Nat × Nat) => (i = 0 ∧ s.2.1 = 65537) ∨ (0 < i ∧ s.1 1 = some 131073)) _ 65536 0 _ s (Or.inl ⟨rfl, rfl⟩) ?_ ho
      · rcases this with h | h
        · exact absurd h.1 (by decide)
        · exact h.2
      · intro i s s' _ hi e
        rw [Option.bind_eq_some_iff] at e
        obtain ⟨c, hc1, e⟩ := e
        rw [Option.map_eq_some_iff] at e
        obtain ⟨o, hw, rfl⟩ := e
        right
        refine ⟨by omega, ?_⟩
        unfold wr at hw
        split at hw
        · cases hw
          rcases hi with ⟨h0, hs⟩ | ⟨h0, hs⟩
          · subst h0
            rw [hr0] at hc1
            cases hc1
            simp [hs]
          · show (if 1 = i + 1 then _ else _) = _
            rw [if_neg (by omega), hs]
        · cases hw
    have : fillAllM 65537 65536 (events 256 unitBox (List.replicate 65536 unitBox)) (s.1, cnt) = none := by
      rw [ht, fillAllM, forList]
      have hr1 : rd 65537 s.1 ((0 + 1) % 4294967296) = some 131073 := by
        rw [rd, if_pos (by decide)]; exact h1
      have hsub : subU 131073 65536 = 65537 := by rw [subU_eq (by omega) (by omega)]
      have hwr : wr 65537 s.1 65537 0 = none := if_neg (Nat.lt_irrefl _)
      dsimp only
      rw [hr1, Option.bind_some, hr0, Option.bind_some, hsub, hwr, Option.bind_none, Option.bind_none]
    rw [this, Option.map_none, Option.map_none]

/-- the hypotheses of `local_hash_table_machine`: a thousand elements, limit 100000 (`315 = ceil(sqrt(99000))`) -/
example : ProperBoxes 2 (List.replicate 1000 unitBox) ∧ List.replicate 1000 unitBox ≠ [] ∧ ((List.replicate 1000 unitBox).length + 1) * 315 ^ 2 + 1 < 4294967296 :=
  ⟨unit_proper _, List.ne_nil_of_length_pos (by rw [List.length_replicate]; decide), by rw [List.length_replicate]; decide⟩

/-- so the overflow of `hash_table_overflow` happens for proper boxes -/
example : ProperBoxes 2 (List.replicate 65536 unitBox) ∧ 327680 - 65536 = 512 ^ 2 := ⟨unit_proper _, by decide⟩

end Gslib.Props
