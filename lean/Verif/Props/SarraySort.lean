import Verif.Lemmas.SarraySort

/-!
# Properties C06-C08: `sarray_permute`, `sarray_sort_*`, Fortran tuple sorts, `sarray_perm_invert`

Specification: `Verif/Spec/Sort.lean`, `Verif/Spec/SarraySort.lean`. Model: `Verif/Model/SarraySort.lean`.
-/

namespace Gslib.Props
open Gslib Gslib.Spec Gslib.Sorting Gslib.Sarray

variable {ρ κ : Type} [LinearOrder κ]

/-! ## C06 -/

/-- **C06**: for every array and every permutation table of its indices, the in-place permutation ends
without undefined behaviour, row `i` of the result is row `perm[i]` of the input, and the table is
the same after the call. -/
theorem sarray_permute_correct (A : List ρ) (perm : List Nat) (h : IsPermTable A.length perm) :
    ∃ out table, sarrayPermute A perm = some (out, table) ∧ out.length = A.length ∧
      (∀ i j : Nat, perm[i]? = some j → out[i]? = A[j]?) ∧ table = perm.map Int.ofNat := by
  obtain ⟨out, e, h1, h2⟩ := sarrayPermute_spec A perm h
  exact ⟨out, _, e, h1, h2, rfl⟩

example : IsPermTable ["a", "b", "c", "d"].length [2, 0, 3, 1] := by unfold IsPermTable; decide
example : sarrayPermute ["a", "b", "c", "d"] [2, 0, 3, 1] = some (["c", "a", "d", "b"], [2, 0, 3, 1]) := by decide

/-! ## C07 -/

/-- **C07**: `sarray_sort`, `_2`, `_3`, `_4` (and any number of fields) and `crystal_ituple_sort`: for every
list of fields, of every type, and every array whose integer keys fit their fields, the call ends without
abort or undefined behaviour and leaves the rows in stable lexicographic order. -/
theorem sarray_sort_lexicographic (fs : List (Field ρ κ)) (rows : List ρ) (s : ScratchF κ)
    (hf : ∀ f ∈ fs, f.Fits rows) :
    ∃ out, sarraySort fs rows s = .ok out ∧ IsLexSort (fs.map Field.key) rows out := by
  obtain ⟨q, e, hnil, hp, hs⟩ := sortFields_spec rows s fs hf
  cases q with
  | none =>
    have hfs := hnil.1 rfl
    subst hfs
    refine ⟨rows, by simp [sarraySort, e, Outcome.bind], List.Perm.refl _, ?_, fun _ _ _ => rfl⟩
    exact List.pairwise_of_forall (fun _ _ => trivial)
  | some p =>
    have hp' := hp p rfl
    refine ⟨p.filterMap (rows[·]?), ?_, isLexSort_of_lexIdx rows _ p hp' hs⟩
    simp [sarraySort, e, Outcome.bind, permute_filterMap rows p hp', Outcome.ofOption]

example : ∀ f ∈ ([.int 4 (·.1), .real (·.2)] : List (Field (Nat × Int) Int)), f.Fits [(3, -1), (7, 2), (3, -5)] := by
  simp [Field.Fits]

/-- rows of three parallel arrays -/
def zip3 {δ : Type} (Ai Al : List (List Nat)) (Ad : List δ) : List (List Nat × List Nat × δ) := Ai.zip (Al.zip Ad)

/-- the key a valid one-based tuple key stands for -/
def tupleKey {δ : Type} (mi : Nat) (key : Int) : Key (List Nat × List Nat × δ) κ :=
  if key ≤ mi then .nat fun r => r.1.getD (key - 1).toNat 0
  else .nat fun r => r.2.1.getD (key - 1 - mi).toNat 0

theorem filterMap_zip_perm {α β : Type} (A : List α) (B : List β) (h : A.length = B.length) (p : List Nat)
    (hp : ∀ i ∈ p, i < A.length) :
    p.filterMap ((A.zip B)[·]?) = (p.filterMap (A[·]?)).zip (p.filterMap (B[·]?)) := by
  induction p with
  | nil => rfl
  | cons i p ih =>
    have hi : i < A.length := hp i (by simp)
    have ih := ih (fun j hj => hp j (by simp [hj]))
    have hz : i < (A.zip B).length := by simp; omega
    rw [List.filterMap_cons, List.filterMap_cons, List.filterMap_cons, List.getElem?_eq_getElem hi,
      List.getElem?_eq_getElem (show i < B.length by omega), List.getElem?_eq_getElem hz]
    simp [ih]

theorem lexIdx_zip {δ : Type} (mi ml : Nat) (Ai Al : List (List Nat)) (Ad : List δ) (h1 : Ai.length = Al.length)
    (h2 : Al.length = Ad.length) (i j : Nat) :
    ∀ (keys : List Int) (fs : List (Field (List Nat × List Nat) κ)), keys.mapM (tupleField mi ml) = some fs →
    LexIdx (Ai.zip Al) (fs.map Field.key) i j → LexIdx (zip3 Ai Al Ad) (keys.map (tupleKey (κ := κ) mi)) i j
  | [], fs, e, h => by
    simp only [List.mapM_nil, Option.pure_def, Option.some.injEq] at e
    subst e; exact h
  | key :: keys, fs, e, h => by
    rw [List.mapM_cons] at e
    cases e1 : tupleField (κ := κ) mi ml key with
    | none => simp [e1] at e
    | some f =>
      cases e2 : keys.mapM (tupleField (κ := κ) mi ml) with
      | none => simp [e1, e2] at e
      | some fs' =>
        simp only [e1, e2, Option.pure_def, Option.bind_eq_bind, Option.bind_some, Option.some.injEq] at e
        subst e
        intro a b ha hb
        have ha' : (Ai.zip Al)[i]? = some (a.1, a.2.1) := by
          simp only [zip3, List.getElem?_zip_eq_some] at ha ⊢
          exact ⟨ha.1, ha.2.1⟩
        have hb' : (Ai.zip Al)[j]? = some (b.1, b.2.1) := by
          simp only [zip3, List.getElem?_zip_eq_some] at hb ⊢
          exact ⟨hb.1, hb.2.1⟩
        have h := h _ _ ha' hb'
        have ht : ∀ (R : Key (List Nat × List Nat) κ → _ → _ → Prop) (R' : Key (List Nat × List Nat × δ) κ → _ → _ → Prop)
            (_ : ∀ g a b, R (.nat g) a b → ∀ g' a' b', g a = g' a' → g b = g' b' → R' (.nat g') a' b'),
            R f.key (a.1, a.2.1) (b.1, b.2.1) → R' (tupleKey mi key) a b := by
          intro R R' hR hr
          unfold tupleField at e1
          simp only at e1
          by_cases c1 : key - 1 < 0 ∨ (mi : Int) + ml ≤ key - 1
          · rw [if_pos c1] at e1; cases e1
          · rw [if_neg c1] at e1
            by_cases c2 : key - 1 < mi
            · rw [if_pos c2] at e1
              cases e1
              unfold tupleKey
              rw [if_pos (by omega)]
              exact hR _ _ _ hr _ _ _ rfl rfl
            · rw [if_neg c2] at e1
              cases e1
              unfold tupleKey
              rw [if_neg (by omega)]
              exact hR _ _ _ hr _ _ _ rfl rfl
        rcases h with h | ⟨h, h'⟩
        · exact Or.inl (ht _ _ (fun g a b hr g' a' b' e e' => by simp only [Key.Lt] at *; omega) h)
        · exact Or.inr ⟨ht _ _ (fun g a b hr g' a' b' e e' => by simp only [Key.Same] at *; omega) h,
            lexIdx_zip mi ml Ai Al Ad h1 h2 i j keys fs' e2 h'⟩

/-- **C07** (Fortran `crystal_tuple_sort`): with every key between 1 and `mi+ml`, the three parallel arrays are
rearranged together: the zipped rows are in stable lexicographic order of the keys. An array without columns
holds no data. -/
theorem tuple_sort_lexicographic {δ : Type} (mi ml md : Nat) (Ai Al : List (List Nat)) (Ad : List δ) (keys : List Int)
    (s : ScratchF κ) (h1 : Ai.length = Al.length) (h2 : Al.length = Ad.length)
    (hi : ∀ r ∈ Ai, r.length = mi ∧ ∀ x ∈ r, x < 256 ^ 4) (hl : ∀ r ∈ Al, r.length = ml ∧ ∀ x ∈ r, x < 256 ^ 8)
    (hd : md = 0 → ∀ a ∈ Ad, ∀ b ∈ Ad, a = b)
    (hk : ∀ k ∈ keys, 1 ≤ k ∧ k ≤ mi + ml) :
    ∃ Ai' Al' Ad', tupleSort mi ml md Ai Al Ad keys s = .ok (Ai', Al', Ad') ∧ Ai'.length = Ai.length ∧
      Al'.length = Al.length ∧ Ad'.length = Ad.length ∧
      IsLexSort (keys.map (tupleKey (κ := κ) mi)) (zip3 Ai Al Ad) (zip3 Ai' Al' Ad') := by
  unfold tupleSort
  by_cases hnil : keys = []
  · subst hnil
    rw [if_pos rfl]
    refine ⟨Ai, Al, Ad, rfl, rfl, rfl, rfl, List.Perm.refl _, ?_, fun _ _ _ => rfl⟩
    exact List.pairwise_of_forall (fun _ _ => trivial)
  rw [if_neg hnil]
  -- all keys valid
  have hmap : ∀ keys : List Int, (∀ k ∈ keys, 1 ≤ k ∧ k ≤ mi + ml) →
      ∃ fs, keys.mapM (tupleField (κ := κ) mi ml) = some fs ∧ (∀ f ∈ fs, f.Fits (Ai.zip Al)) ∧ (fs = [] ↔ keys = []) := by
    intro keys
    induction keys with
    | nil => intro _; exact ⟨[], rfl, by simp, by simp⟩
    | cons k ks ih =>
      intro hk
      obtain ⟨fs, e, hf, _⟩ := ih (fun k' h' => hk k' (by simp [h']))
      obtain ⟨hk1, hk2⟩ := hk k (by simp)
      have : ∃ f, tupleField (κ := κ) mi ml k = some f ∧ f.Fits (Ai.zip Al) := by
        have hgd : ∀ (r : List Nat) (j B : Nat), (∀ x ∈ r, x < B) → 0 < B → r.getD j 0 < B := by
          intro r j B h hB
          rw [List.getD_eq_getElem?_getD]
          cases hj : r[j]? with
          | none => simpa using hB
          | some x => exact h x (List.mem_of_getElem? hj)
        unfold tupleField
        simp only
        rw [if_neg (by omega)]
        by_cases c : k - 1 < mi
        · rw [if_pos c]
          refine ⟨_, rfl, ?_⟩
          intro r hr
          exact hgd _ _ _ (hi r.1 (List.of_mem_zip hr).1).2 (by norm_num)
        · rw [if_neg c]
          refine ⟨_, rfl, ?_⟩
          intro r hr
          exact hgd _ _ _ (hl r.2 (List.of_mem_zip hr).2).2 (by norm_num)
      obtain ⟨f, ef, hff⟩ := this
      refine ⟨f :: fs, ?_, ?_, by simp⟩
      · rw [List.mapM_cons, ef, e]; rfl
      · intro f' hf'
        rcases List.mem_cons.1 hf' with rfl | h
        · exact hff
        · exact hf f' h
  obtain ⟨fs, efs, hfit, hfs⟩ := hmap keys hk
  obtain ⟨q, e, hn, hp, hs⟩ := sortFields_spec (Ai.zip Al) s fs hfit
  cases q with
  | none => exact absurd (hfs.1 (hn.1 rfl)) hnil
  | some p =>
    have hp' : IsPermTable Ai.length p := by
      have := hp p rfl
      rwa [List.length_zip, ← h1, Nat.min_self] at this
    have hlt : ∀ i ∈ p, i < Ai.length := fun i hi => by simpa using hp'.mem_iff.1 hi
    have hlen : ∀ {γ : Type} (A : List γ), A.length = Ai.length → (p.filterMap (A[·]?)).length = A.length := by
      intro γ A hA
      have hh := permute_filterMap A p (by rw [hA]; exact hp')
      obtain ⟨o, eo, hlo, _⟩ := sarrayPermute_spec A p (by rw [hA]; exact hp')
      rw [hh] at eo
      cases eo; exact hlo
    have htab : (p.map Int.ofNat).map Int.toNat = p := by
      rw [List.map_map]
      exact List.map_id'' (by intro x; rfl) p
    -- an array all of whose rows are equal is not changed by a permutation
    have hconst : ∀ {γ : Type} (A : List γ), A.length = Ai.length → (∀ a ∈ A, ∀ b ∈ A, a = b) → p.filterMap (A[·]?) = A := by
      intro γ A hA hc
      have hl1 := hlen A hA
      apply List.ext_getElem?
      intro i
      by_cases hi : i < A.length
      · have hi' : i < (p.filterMap (A[·]?)).length := by omega
        rw [List.getElem?_eq_getElem hi, List.getElem?_eq_getElem hi']
        congr 1
        refine hc _ ?_ _ (List.getElem_mem hi)
        obtain ⟨j, _, hj⟩ := List.mem_filterMap.1 (List.getElem_mem hi')
        exact List.mem_of_getElem? hj
      · rw [List.getElem?_eq_none (by omega), List.getElem?_eq_none (by omega)]
    have hnilrow : ∀ (A : List (List Nat)) (B : Nat) (m : Nat), (∀ r ∈ A, r.length = m ∧ ∀ x ∈ r, x < B) → m = 0 →
        ∀ a ∈ A, ∀ b ∈ A, a = b := by
      intro A B m h hm a ha b hb
      rw [List.length_eq_zero_iff.1 ((h a ha).1.trans hm), List.length_eq_zero_iff.1 ((h b hb).1.trans hm)]
    have e1 : permuteIf mi Ai p = some (p.filterMap (Ai[·]?), p.map Int.ofNat) := by
      unfold permuteIf
      by_cases c : mi = 0
      · rw [if_neg (by simpa using c), hconst Ai rfl (hnilrow Ai _ mi hi c)]
      · rw [if_pos c, permute_filterMap Ai p hp']
    have e2 : permuteIf ml Al p = some (p.filterMap (Al[·]?), p.map Int.ofNat) := by
      unfold permuteIf
      by_cases c : ml = 0
      · rw [if_neg (by simpa using c), hconst Al h1.symm (hnilrow Al _ ml hl c)]
      · rw [if_pos c, permute_filterMap Al p (by rw [← h1]; exact hp')]
    have e3 : permuteIf md Ad p = some (p.filterMap (Ad[·]?), p.map Int.ofNat) := by
      unfold permuteIf
      by_cases c : md = 0
      · rw [if_neg (by simpa using c), hconst Ad (by omega) (hd c)]
      · rw [if_pos c, permute_filterMap Ad p (by rw [← h2, ← h1]; exact hp')]
    refine ⟨p.filterMap (Ai[·]?), p.filterMap (Al[·]?), p.filterMap (Ad[·]?), ?_, hlen Ai rfl, hlen Al h1.symm, hlen Ad (by omega), ?_⟩
    · rw [efs]
      simp only [e, Outcome.bind]
      simp only [e1, Option.bind_eq_bind, Option.bind_some, htab, e2, e3, Outcome.ofOption]
    · have hz : zip3 (p.filterMap (Ai[·]?)) (p.filterMap (Al[·]?)) (p.filterMap (Ad[·]?)) = p.filterMap ((zip3 Ai Al Ad)[·]?) := by
        unfold zip3
        rw [filterMap_zip_perm Ai (Al.zip Ad) (by simp; omega) p hlt, filterMap_zip_perm Al Ad h2 p (by rw [← h1]; exact hlt)]
      rw [hz]
      apply isLexSort_of_lexIdx
      · rw [show (zip3 Ai Al Ad).length = Ai.length by simp [zip3]; omega]; exact hp'
      · exact hs.imp (fun h => lexIdx_zip mi ml Ai Al Ad h1 h2 _ _ keys fs efs h)

/-- **C07**, error branch: a key outside `1..mi+ml` makes the call abort -/
theorem tuple_sort_invalid_key {δ : Type} (mi ml md : Nat) (Ai Al : List (List Nat)) (Ad : List δ) (keys : List Int)
    (s : ScratchF κ) (k : Int) (hk : k ∈ keys) (hbad : k < 1 ∨ (mi : Int) + ml < k) :
    tupleSort mi ml md Ai Al Ad keys s = .abort := by
  have : keys.mapM (tupleField (κ := κ) mi ml) = none := by
    have hb : tupleField (κ := κ) mi ml k = none := by
      unfold tupleField
      rw [if_pos (by omega)]
    clear hbad
    induction keys with
    | nil => simp at hk
    | cons k' ks ih =>
      rw [List.mapM_cons]
      rcases List.mem_cons.1 hk with rfl | h
      · rw [hb]; rfl
      · rw [ih h]
        cases tupleField (κ := κ) mi ml k' <;> rfl
  unfold tupleSort
  rw [if_neg (by rintro rfl; simp at hk), this]

example : let Ai := [[2, 9], [1, 9], [2, 8]]; let Al := [[5], [4], [3]]; let Ad := [(1 : Int), 2, 3]
    Ai.length = Al.length ∧ Al.length = Ad.length ∧ (∀ r ∈ Ai, r.length = 2 ∧ ∀ x ∈ r, x < 256 ^ 4) ∧
    (∀ r ∈ Al, r.length = 1 ∧ ∀ x ∈ r, x < 256 ^ 8) ∧ (∀ k ∈ [(1 : Int), 3], 1 ≤ k ∧ k ≤ ((2 : Nat) : Int) + (1 : Nat)) := by
  decide

/-! ## C08 -/

/-- **C08**: `sarray_perm_invert` yields the inverse table, whatever `pinv` contained before -/
theorem perm_invert_correct (perm pinv0 : List Nat) (hp : IsPermTable pinv0.length perm) :
    ∃ pinv, permInvert perm pinv0 = some pinv ∧ IsPermTable pinv0.length pinv ∧
      (∀ i j : Nat, perm[i]? = some j → pinv[j]? = some i) ∧ (∀ i j : Nat, pinv[j]? = some i → perm[i]? = some j) := by
  obtain ⟨out, e, hl, h⟩ := permInvert_spec perm pinv0 hp
  have hpl : perm.length = pinv0.length := by rw [hp.length_eq]; simp
  -- every index j occurs in perm
  have hsurj : ∀ j < pinv0.length, ∃ i : Nat, perm[i]? = some j := by
    intro j hj
    have : j ∈ perm := hp.mem_iff.2 (by simpa using hj)
    exact List.mem_iff_getElem?.1 this
  have hinv : ∀ i j : Nat, out[j]? = some i → perm[i]? = some j := by
    intro i j hij
    have hj : j < out.length := (List.getElem?_eq_some_iff.1 hij).1
    obtain ⟨i', hi'⟩ := hsurj j (by omega)
    have := h i' j hi'
    rw [hij] at this
    cases this; exact hi'
  refine ⟨out, e, ?_, h, hinv⟩
  have hnd : out.Nodup := by
    rw [List.nodup_iff_getElem?_ne_getElem?]
    intro j k hjk hk heq
    have hk' := List.getElem?_eq_getElem hk
    rw [hk'] at heq
    have a1 := hinv _ _ heq
    have a2 := hinv _ _ hk'
    rw [a1] at a2
    cases a2; omega
  unfold IsPermTable
  rw [List.perm_ext_iff_of_nodup hnd List.nodup_range]
  intro i
  constructor
  · intro hi
    obtain ⟨j, hj⟩ := List.mem_iff_getElem?.1 hi
    have := (List.getElem?_eq_some_iff.1 (hinv i j hj)).1
    simp; omega
  · intro hi
    have hi : i < perm.length := by simpa [hpl] using hi
    exact List.mem_of_getElem? (h i _ (List.getElem?_eq_getElem hi))

/-- **C08** (round trip): permuting by `perm` and then by its inverse restores the array -/
theorem permute_invert_roundtrip (A : List ρ) (perm pinv0 : List Nat) (hp : IsPermTable A.length perm)
    (h0 : pinv0.length = A.length) :
    ∃ pinv B t1 t2, permInvert perm pinv0 = some pinv ∧ sarrayPermute A perm = some (B, t1) ∧
      sarrayPermute B pinv = some (A, t2) := by
  obtain ⟨pinv, e, hpi, h1, h2⟩ := perm_invert_correct perm pinv0 (by rw [h0]; exact hp)
  obtain ⟨B, e1, hB, hv⟩ := sarrayPermute_spec A perm hp
  obtain ⟨C, e2, hC, hv'⟩ := sarrayPermute_spec B pinv (by rw [hB, ← h0]; exact hpi)
  have : C = A := by
    apply List.ext_getElem?
    intro j
    by_cases hj : j < A.length
    · have hj' : j < pinv.length := by rw [hpi.length_eq]; simp; omega
      have hj2 := List.getElem?_eq_getElem hj'
      rw [hv' j _ hj2, hv _ _ (h2 _ _ hj2)]
    · rw [List.getElem?_eq_none (by omega), List.getElem?_eq_none (by omega)]
  subst this
  exact ⟨pinv, B, _, _, e, e1, e2⟩

example : IsPermTable [10, 20, 30].length [2, 0, 1] := by unfold IsPermTable; decide

end Gslib.Props
