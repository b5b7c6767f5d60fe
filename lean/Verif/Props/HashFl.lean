import Verif.Lemmas.HashFl
import Verif.Props.Hash

/-!
# C70: the local hash table with rounding

The extent of the mesh in a coordinate is the largest upper end minus the smallest lower end of the boxes. Boxes have to be thicker than `5u` extents, and the search finds the element of every point that is more than `4u` extents away from the upper faces of a box of the element.
-/

namespace Gslib.Props
open Gslib.Num Gslib.Hash Gslib.Spec
variable {K : Type} [Field K] [LinearOrder K]

/-- every box is thicker, in every coordinate `d`, than `5u` times the distance of the lower end of any box from the upper end of any other -/
def ThickBoxes (u : K) (obb : List (List (Range K))) : Prop :=
  ∀ box ∈ obb, ∀ lo ∈ obb, ∀ hi ∈ obb, ∀ (d : Nat) r rl rh, box[d]? = some r → lo[d]? = some rl → hi[d]? = some rh →
    5 * u * (rh.max - rl.min) < r.max - r.min

/-- `x` lies in the box, at a distance of more than `4u` extents from the upper faces -/
def InsideBox (u : K) (obb : List (List (Range K))) (box : List (Range K)) (x : List K) : Prop :=
  x.length = box.length ∧ ∀ (d : Nat) r y, box[d]? = some r → x[d]? = some y → r.min ≤ y ∧
    ∀ lo ∈ obb, ∀ hi ∈ obb, ∀ rl rh, lo[d]? = some rl → hi[d]? = some rh → y + 4 * u * (rh.max - rl.min) < r.max

variable [IsStrictOrderedRing K]

omit [Field K] [IsStrictOrderedRing K] in
theorem zip_attained {P Q : Nat → K → Prop} : ∀ {a b : List (Range K)} (k : Nat), (∀ d r, a[d]? = some r → P (k + d) r.min ∧ Q (k + d) r.max) → (∀ d r, b[d]? = some r → P (k + d) r.min ∧ Q (k + d) r.max) →
    ∀ d r, (List.zipWith rangeMerge a b)[d]? = some r → P (k + d) r.min ∧ Q (k + d) r.max := by
  intro a b k ha hb d r h
  rw [List.getElem?_zipWith] at h
  cases e1 : a[d]? with
  | none => rw [e1] at h; simp at h
  | some x =>
    cases e2 : b[d]? with
    | none => rw [e1, e2] at h; simp at h
    | some y =>
      rw [e1, e2] at h
      simp only [Option.some.injEq] at h
      obtain ⟨h1, h2⟩ := ha d x e1
      obtain ⟨h3, h4⟩ := hb d y e2
      subst h
      unfold rangeMerge
      dsimp only
      constructor <;> split <;> assumption

omit [Field K] [IsStrictOrderedRing K] in
theorem foldl_attained {P Q : Nat → K → Prop} : ∀ (bs : List (List (Range K))) (b : List (Range K)), (∀ c ∈ b :: bs, ∀ d r, c[d]? = some r → P d r.min ∧ Q d r.max) →
    ∀ d r, (bs.foldl (fun acc x => List.zipWith rangeMerge acc x) b)[d]? = some r → P d r.min ∧ Q d r.max
  | [], b, h, d, r, hr => h b (by simp) d r hr
  | c :: bs, b, h, d, r, hr => by
      refine foldl_attained bs (List.zipWith rangeMerge b c) ?_ d r hr
      intro e he
      rcases List.mem_cons.1 he with rfl | he
      · intro d r hd
        have := zip_attained (P := P) (Q := Q) 0 (fun d r hd => by simpa using h b (by simp) d r hd) (fun d r hd => by simpa using h c (by simp) d r hd) d r hd
        simpa using this
      · exact h e (by simp [he])

omit [Field K] [IsStrictOrderedRing K] in
/-- the ends of the bound are ends of boxes -/
theorem hashBb_ends {obb : List (List (Range K))} {bnd : List (Range K)} (h : hashBb obb = some bnd) {d : Nat} {b : Range K} (hb : bnd[d]? = some b) :
    (∃ lo ∈ obb, ∃ rl, lo[d]? = some rl ∧ b.min = rl.min) ∧ (∃ hi ∈ obb, ∃ rh, hi[d]? = some rh ∧ b.max = rh.max) := by
  cases obb with
  | nil => cases h
  | cons c cs =>
    simp only [hashBb, Option.some.injEq] at h
    subst h
    exact foldl_attained (P := fun d v => ∃ lo ∈ c :: cs, ∃ rl, lo[d]? = some rl ∧ v = rl.min) (Q := fun d v => ∃ hi ∈ c :: cs, ∃ rh, hi[d]? = some rh ∧ v = rh.max) cs c
      (fun e he d r hr => ⟨⟨e, he, r, hr, rfl⟩, ⟨e, he, r, hr, rfl⟩⟩) d b hb

theorem fitFl_of_thick {D : Nat} {u : K} {obb : List (List (Range K))} (hne : obb ≠ []) (hp : ProperBoxes D obb) (ht : ThickBoxes u obb) :
    ∃ bnd, hashBb obb = some bnd ∧ bnd.length = D ∧ ∀ b ∈ obb, List.Forall₂ (FitFl u) bnd b := by
  obtain ⟨bnd, e, hl, hf⟩ := hashBb_fit hne hp
  refine ⟨bnd, e, hl, fun box hbox => ?_⟩
  have h := hf box hbox
  rw [List.forall₂_iff_get]
  rw [FitBox, List.forall₂_iff_get] at h
  refine ⟨h.1, fun i h1 h2 => ?_⟩
  have hfit := h.2 i h1 h2
  obtain ⟨⟨lo, hlo, rl, el, e1⟩, ⟨hi, hhi, rh, eh, e2⟩⟩ := hashBb_ends e (d := i) (b := bnd.get ⟨i, h1⟩) (by simp [List.getElem?_eq_getElem h1])
  refine ⟨hfit.1, hfit.2.2.1, ?_⟩
  rw [e1, e2]
  exact ht box hbox lo hlo hi hhi i (box.get ⟨i, h2⟩) rl rh (by simp [List.getElem?_eq_getElem h2]) el eh

variable [FloorRing K]

theorem hashCountFl_one {rnd : K → K} {u : K} (hr : IsRnd rnd u) {bnd : List (Range K)} {obb : List (List (Range K))} (hf : ∀ b ∈ obb, List.Forall₂ (FitFl u) bnd b) : hashCountFl rnd 1 bnd obb = obb.length := by
  unfold hashCountFl
  have : ∀ b ∈ obb, ((hashRangesFl rnd 1 bnd b).map fun r => r.max - r.min).prod = 1 := by
    intro b hb
    have hok := hashRangesFl_ok hr (n := 1) (by omega) (hf b hb)
    generalize hashRangesFl rnd 1 bnd b = l at hok
    clear hb hf
    induction l with
    | nil => rfl
    | cons r l ih =>
      have := hok r (by simp)
      have h' : r.max - r.min = 1 := by unfold IRange.Ok at this; omega
      rw [List.map_cons, List.prod_cons, h', ih (fun r hr => hok r (by simp [hr]))]
  rw [List.map_congr_left this]; simp

theorem hashOptSizeFl_spec {rnd : K → K} {u : K} (hr : IsRnd rnd u) {bnd : List (Range K)} {obb : List (List (Range K))} (hf : ∀ b ∈ obb, List.Forall₂ (FitFl u) bnd b) (maxSize nu0 : Nat) :
    ∃ n size, hashOptSizeFl rnd bnd obb maxSize nu0 = (n, size) ∧ 1 ≤ n ∧ size = n ^ bnd.length + 1 + hashCountFl rnd n bnd obb ∧ (n = 1 ∨ size ≤ maxSize) := by
  unfold hashOptSizeFl
  by_cases h : nu0 ≤ 2
  · refine ⟨1, 2 + obb.length, bisect_le _ _ _ _ _ (by omega), le_refl _, ?_, Or.inl rfl⟩
    rw [hashCountFl_one hr hf, one_pow]
  · obtain ⟨n, l, e, a, b, c, d⟩ := bisect_spec (fun n => n ^ bnd.length + 1 + hashCountFl rnd n bnd obb) maxSize nu0
      (fun n l => l = n ^ bnd.length + 1 + hashCountFl rnd n bnd obb ∧ (n = 1 ∨ l ≤ maxSize)) (nu0 - 1) 1 nu0 (2 + obb.length) rfl
      ⟨by rw [hashCountFl_one hr hf, one_pow], Or.inl rfl⟩ (fun n _ _ hs => ⟨rfl, Or.inr hs⟩) (Or.inl rfl) (by omega)
    exact ⟨n, l, e, a, c.1, c.2⟩

omit [IsStrictOrderedRing K] in
theorem eventsFl_length (rnd : K → K) (hn : Nat) (bnd : List (Range K)) (obb : List (List (Range K))) :
    (eventsFl rnd hn bnd obb).length = hashCountFl rnd hn bnd obb := by
  unfold eventsFl hashCountFl
  rw [List.length_flatMap]
  simp only [List.length_map, cells_length]
  congr 1
  apply List.ext_getElem
  · simp
  · intro i h1 h2
    simp only [List.length_map, List.length_range] at h1
    simp [List.getD_eq_getElem?_getD, List.getElem?_eq_getElem h1]

theorem vals_eventsFl {rnd : K → K} {u : K} (hr : IsRnd rnd u) (hn : Nat) {bnd : List (Range K)} {obb : List (List (Range K))} (h1 : 0 < hn) (hf : ∀ b ∈ obb, List.Forall₂ (FitFl u) bnd b) (c : Nat) :
    vals (eventsFl rnd hn bnd obb) c = (List.range obb.length).filter (fun el => c ∈ cells hn (hashRangesFl rnd hn bnd (obb.getD el []))) := by
  unfold eventsFl
  have key : ∀ l : List Nat, (∀ el ∈ l, el < obb.length) →
      vals (l.flatMap fun el => (cells hn (hashRangesFl rnd hn bnd (obb.getD el []))).map fun c => (c, el)) c
        = l.filter (fun el => c ∈ cells hn (hashRangesFl rnd hn bnd (obb.getD el []))) := by
    intro l
    induction l with
    | nil => intro _; rfl
    | cons el l ih =>
      intro hl
      have hel := hl el (by simp)
      have hnd : (cells hn (hashRangesFl rnd hn bnd (obb.getD el []))).Nodup := by
        apply cells_nodup
        apply hashRangesFl_ok hr h1
        apply hf
        rw [List.getD_eq_getElem?_getD, List.getElem?_eq_getElem hel]
        exact List.getElem_mem hel
      rw [List.flatMap_cons, vals_append, ih (fun e he => hl e (by simp [he])), List.filter_cons]
      generalize cells hn (hashRangesFl rnd hn bnd (obb.getD el [])) = cs at hnd
      have : ∀ cs : List Nat, cs.Nodup → vals (cs.map fun c => (c, el)) c = if c ∈ cs then [el] else [] := by
        intro cs hcs
        induction cs with
        | nil => rfl
        | cons a cs ihc =>
          rw [List.nodup_cons] at hcs
          rw [List.map_cons, ← List.singleton_append, vals_append, ihc hcs.2]
          by_cases ha : a = c
          · subst ha; simp [vals, hcs.1]
          · simp [vals, ha, Ne.symm ha]
      rw [this cs hnd]
      by_cases hc : c ∈ cs <;> simp [hc]
  exact key _ (by simp)

/-- **C70**. With rounding: for every list of boxes thicker than `5u` times the extent of the mesh and every size limit, building the local hash table makes no access out of bounds and no read of an unset entry; the table has
the reported size, within the limit unless there is only one cell; the search stays inside the table, for any point; every cell lists existing elements, each at most once; and the cell of any point which is in a box, and more than `4u` extents away from the upper faces, lists the element. -/
theorem local_hash_table_rounded {D : Nat} {rnd : K → K} {u : K} (hr : IsRnd rnd u) {obb : List (List (Range K))} (hne : obb ≠ []) (hp : ProperBoxes D obb) (ht : ThickBoxes u obb) (maxSize nu0 : Nat) :
    ∃ bnd hn size off mx, hashBuildAllFl rnd obb maxSize nu0 = some (bnd, hn, size, off, mx) ∧
      (hn = 1 ∨ size ≤ maxSize) ∧
      (∀ x, hashIndexFl rnd hn bnd x < hn ^ D) ∧
      (∀ c < hn ^ D, ∃ l, readBucket size off c = some l ∧ l.Pairwise (· < ·) ∧ (∀ el ∈ l, el < obb.length) ∧ l.length ≤ mx) ∧
      (∃ c < hn ^ D, ∃ l, readBucket size off c = some l ∧ l.length = mx) ∧
      (∀ x el box, obb[el]? = some box → InsideBox u obb box x → ∃ l, readBucket size off (hashIndexFl rnd hn bnd x) = some l ∧ el ∈ l) := by
  obtain ⟨bnd, eb, hl, hf⟩ := fitFl_of_thick hne hp ht
  obtain ⟨hn, size, eo, h1, hsz, hlim⟩ := hashOptSizeFl_spec hr hf maxSize nu0
  have hnd : 0 < hn ^ D := Nat.pow_pos h1
  have hev : ∀ e ∈ eventsFl rnd hn bnd obb, e.1 < hn ^ D := by
    intro e he
    unfold eventsFl at he
    simp only [List.mem_flatMap, List.mem_map, List.mem_range] at he
    obtain ⟨el, hel, c, hc, rfl⟩ := he
    have hfit : List.Forall₂ (FitFl u) bnd (obb.getD el []) := by
      apply hf
      rw [List.getD_eq_getElem?_getD, List.getElem?_eq_getElem hel]
      exact List.getElem_mem hel
    have := cells_lt _ (hashRangesFl_ok hr h1 hfit) c hc
    have e : (hashRangesFl rnd hn bnd (obb.getD el [])).length = bnd.length := by
      rw [hashRangesFl, List.length_zipWith, ← hfit.length_eq, Nat.min_self]
    rwa [e, hl] at this
  have hlen := eventsFl_length rnd hn bnd obb
  rw [hl] at hsz
  obtain ⟨cnt, e1, hc⟩ := countAll_run (hn ^ D) (eventsFl rnd hn bnd obb) hev
  obtain ⟨o, sum, mx, e2, ho, hmx, cm, hcm, hcm'⟩ := offsets_run size (hn ^ D) (eventsFl rnd hn bnd obb) hnd (by omega) cnt (fun _ => none) hc
  obtain ⟨o', cnt', e3, ho', hb⟩ := fillAll_run size (hn ^ D) (eventsFl rnd hn bnd obb) hev (by omega) cnt o hc ho
  have hread : ∀ c < hn ^ D, readBucket size o' c = some (vals (eventsFl rnd hn bnd obb) c) := by
    intro c hc
    unfold readBucket
    have r1 := ho'.rd c (by omega) (cap := size) (by omega)
    have r2 := ho'.rd (c + 1) (by omega) (cap := size) (by omega)
    rw [Nat.zero_add] at r1 r2
    rw [r1, r2, Option.bind_some, Option.bind_some, pos, Nat.add_sub_cancel_left,
      mapM_some _ (fun i => (vals (eventsFl rnd hn bnd obb) c).getD i 0)]
    · congr 1
      apply List.ext_getElem
      · simp
      · intro i hi1 hi2
        simp [List.getD_eq_getElem?_getD, List.getElem?_eq_getElem hi2]
    · intro i hi
      rw [List.mem_range] at hi
      have hle := pos_mono (hn ^ D) (eventsFl rnd hn bnd obb) (show c + 1 ≤ hn ^ D by omega)
      rw [pos_total _ _ hev, pos] at hle
      rw [rd, if_pos (by omega), hb c hc i hi]
      simp [List.getD_eq_getElem?_getD, List.getElem?_eq_getElem hi]
  refine ⟨bnd, hn, size, o', mx, ?_, hlim, ?_, ?_, ⟨cm, hcm, _, hread cm hcm, hcm'.symm⟩, ?_⟩
  · unfold hashBuildAllFl hashBuildFl
    rw [eb, Option.bind_some]
    simp only [eo, hl]
    rw [e1, Option.bind_some, e2, Option.bind_some, e3]; rfl
  · intro x
    have := hashIndexFl_lt h1 rnd bnd x
    rwa [hl] at this
  · intro c hc
    refine ⟨_, hread c hc, ?_, ?_, hmx c hc⟩
    · rw [vals_eventsFl hr hn h1 hf]
      exact List.Pairwise.filter _ List.pairwise_lt_range
    · intro el hel
      rw [vals_eventsFl hr hn h1 hf, List.mem_filter, List.mem_range] at hel
      exact hel.1
  · intro x el box hbox hx
    have hel : el < obb.length := by
      by_contra h
      rw [List.getElem?_eq_none (by omega)] at hbox; cases hbox
    refine ⟨_, hread _ ?_, ?_⟩
    · have := hashIndexFl_lt h1 rnd bnd x
      rwa [hl] at this
    · rw [vals_eventsFl hr hn h1 hf, List.mem_filter, List.mem_range]
      have eg : obb.getD el [] = box := by rw [List.getD_eq_getElem?_getD, hbox]; rfl
      refine ⟨hel, ?_⟩
      rw [eg]
      simp only [decide_eq_true_eq]
      apply hashIndexFl_mem hr h1 (hf box (List.mem_of_getElem? hbox)) hx.1
      intro d b r y hb hr hy
      obtain ⟨a1, a2⟩ := hx.2 d r y hr hy
      obtain ⟨⟨lo, hlo, rl, el, e1⟩, ⟨hi, hhi, rh, eh, e2⟩⟩ := hashBb_ends eb hb
      refine ⟨a1, ?_⟩
      rw [e1, e2]
      exact a2 lo hlo hi hhi rl rh el eh

/-- **C70, global table**: findpts_imp.h uses the same functions with a bound common to all processes: a point of a box, more than `4u` widths of the bound away from the upper faces of the box, is in a cell of the box, whatever process computes the cell and whatever process enters the box. -/
theorem global_cell_rounded {rnd : K → K} {u : K} (hr : IsRnd rnd u) {n : Nat} (hn : 0 < n) {bnd box : List (Range K)} {x : List K} (hl : bnd.length = box.length) (hx : x.length = box.length)
    (hb : ∀ (d : Nat) b r, bnd[d]? = some b → box[d]? = some r → b.min ≤ r.min ∧ r.max ≤ b.max ∧ 5 * u * (b.max - b.min) < r.max - r.min)
    (hc : ∀ (d : Nat) b r y, bnd[d]? = some b → box[d]? = some r → x[d]? = some y → r.min ≤ y ∧ y + 4 * u * (b.max - b.min) < r.max) :
    hashIndexFl rnd n bnd x ∈ cells n (hashRangesFl rnd n bnd box) := by
  refine hashIndexFl_mem hr hn ?_ hx hc
  rw [List.forall₂_iff_get]
  exact ⟨hl, fun i h1 h2 => hb i _ _ (by simp [List.getElem?_eq_getElem h1]) (by simp [List.getElem?_eq_getElem h2])⟩

/-- rounding down to multiples of 1/64 above 1, exact elsewhere: a rounding that does change values -/
def rndDown (x : ℚ) : ℚ := if 1 ≤ x then (⌊x * 64⌋ : ℚ) / 64 else x

theorem rndDown_isRnd : IsRnd rndDown (1 / 64) where
  mono x y h := by
    unfold rndDown
    split_ifs with h1 h2
    · have : (⌊x * 64⌋ : ℚ) ≤ ⌊y * 64⌋ := by exact_mod_cast Int.floor_le_floor (by linarith)
      linarith
    · linarith
    · have : (64 : ℤ) ≤ ⌊y * 64⌋ := Int.le_floor.2 (by push_cast; linarith)
      have : (64 : ℚ) ≤ ⌊y * 64⌋ := by exact_mod_cast this
      linarith
    · exact h
  err z := by
    unfold rndDown
    split_ifs with h1
    · have a := Int.floor_le (z * 64)
      have b := Int.lt_floor_add_one (z * 64)
      rw [abs_of_nonneg (by linarith : (0 : ℚ) ≤ z), abs_le]
      constructor <;> linarith
    · simp only [sub_self, abs_zero]; positivity
  u0 := by norm_num
  u8 := by norm_num

/-- the hypotheses are met by the two boxes and a rounding that changes values (`rndDown (3/2 + 1/100)` is not `3/2 + 1/100`) -/
example : IsRnd rndDown (1 / 64) ∧ rndDown (3 / 2 + 1 / 100) ≠ 3 / 2 + 1 / 100 ∧ ProperBoxes 2 twoBoxes ∧ ThickBoxes (1 / 64) twoBoxes ∧
    InsideBox (1 / 64) twoBoxes [⟨3/2, 2⟩, ⟨0, 1⟩] [7/4, 1/2] := by
  refine ⟨rndDown_isRnd, by decide +kernel, ?_, ?_, rfl, ?_⟩
  · intro b hb
    simp only [twoBoxes, List.mem_cons, List.not_mem_nil, or_false] at hb
    rcases hb with rfl | rfl <;> simp <;> norm_num
  · intro box hb lo hlo hi hhi d r rl rh e1 e2 e3
    simp only [twoBoxes, List.mem_cons, List.not_mem_nil, or_false] at hb hlo hhi
    rcases d with _ | _ | d
    · rcases hb with rfl | rfl <;> rcases hlo with rfl | rfl <;> rcases hhi with rfl | rfl <;> simp at e1 e2 e3 <;> subst e1 <;> subst e2 <;> subst e3 <;> norm_num
    · rcases hb with rfl | rfl <;> rcases hlo with rfl | rfl <;> rcases hhi with rfl | rfl <;> simp at e1 e2 e3 <;> subst e1 <;> subst e2 <;> subst e3 <;> norm_num
    · rcases hb with rfl | rfl <;> simp at e1
  · intro d r y e1 e2
    rcases d with _ | _ | d
    · simp at e1 e2
      subst e1; subst e2
      refine ⟨by norm_num, fun lo hlo hi hhi rl rh e3 e4 => ?_⟩
      simp only [twoBoxes, List.mem_cons, List.not_mem_nil, or_false] at hlo hhi
      rcases hlo with rfl | rfl <;> rcases hhi with rfl | rfl <;> simp at e3 e4 <;> subst e3 <;> subst e4 <;> norm_num
    · simp at e1 e2
      subst e1; subst e2
      refine ⟨by norm_num, fun lo hlo hi hhi rl rh e3 e4 => ?_⟩
      simp only [twoBoxes, List.mem_cons, List.not_mem_nil, or_false] at hlo hhi
      rcases hlo with rfl | rfl <;> rcases hhi with rfl | rfl <;> simp at e3 e4 <;> subst e3 <;> subst e4 <;> norm_num
    · simp at e1

end Gslib.Props
