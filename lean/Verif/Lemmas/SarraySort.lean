import Verif.Model.SarraySort
import Verif.Lemmas.Sort
import Mathlib.Data.Finset.Card
import Mathlib.Data.Finset.Filter
import Mathlib.Data.Finset.Range
import Verif.Spec.SarraySort
import Verif.Props.Sort

namespace Gslib.Sarray
open Gslib Gslib.Sorting Gslib.Spec

variable {ρ κ : Type}

/-- `p` restricted to `0..n-1` is a bijection -/
structure IsP (n : Nat) (p : Nat → Nat) : Prop where
  lt : ∀ k, k < n → p k < n
  inj : ∀ j k, j < n → k < n → p j = p k → j = k

/-- number of unmarked entries -/
def unmarked (n : Nat) (fp : Nat → Int) : Nat := ((Finset.range n).filter fun k => 0 ≤ fp k).card

theorem unmarked_update {n : Nat} {fp : Nat → Int} {s : Nat} {v : Int} (hs : s < n) (h0 : 0 ≤ fp s) (hv : v < 0) :
    unmarked n (Function.update fp s v) < unmarked n fp := by
  unfold unmarked
  apply Finset.card_lt_card
  refine ⟨?_, ?_⟩
  · intro k hk
    simp only [Finset.mem_filter, Finset.mem_range] at hk ⊢
    by_cases e : k = s
    · subst e; rw [Function.update_self] at hk; omega
    · rw [Function.update_of_ne e] at hk; exact hk
  · intro hsub
    have : s ∈ (Finset.range n).filter fun k => 0 ≤ fp k := by simp [hs, h0]
    have := hsub this
    simp only [Finset.mem_filter, Function.update_self] at this
    omega

theorem unmarked_le (n : Nat) (fp : Nat → Int) : unmarked n fp ≤ n := by
  unfold unmarked
  exact le_trans (Finset.card_filter_le _ _) (by simp)

/-- state of the outer loop at `i` -/
structure Outer (n : Nat) (p : Nat → Nat) (A0 : Nat → ρ) (i : Nat) (A : Nat → ρ) (fp : Nat → Int) : Prop where
  tbl : ∀ k, k < n → fp k = p k ∨ (i ≤ k ∧ fp k = -(p k : Int) - 1)
  val : ∀ k, k < n → A k = if k < i ∨ fp k < 0 then A0 (p k) else A0 k
  closed : ∀ k, i ≤ k → k < n → 0 ≤ fp k → i ≤ p k ∧ 0 ≤ fp (p k)

theorem cycle_spec (n i : Nat) (p : Nat → Nat) (hp : IsP n p) (A0 : Nat → ρ) (fp0 : Nat → Int) (A00 : Nat → ρ)
    (hi : i < n) (h0 : Outer n p A0 i A00 fp0) :
    ∀ (fuel dst pi : Nat) (A : Nat → ρ) (fp : Nat → Int),
    -- dst is `i` or marked in this cycle, pi = p dst is unmarked, different from `i`
    dst < n → pi = p dst → pi ≠ i → 0 ≤ fp pi → i < pi → (dst = i ∨ (0 ≤ fp0 dst ∧ fp dst < 0)) → 0 ≤ fp0 i → 0 ≤ fp i →
    unmarked n fp ≤ fuel →
    (∀ k, k < n → fp k = fp0 k ∨ (i < k ∧ 0 ≤ fp0 k ∧ fp k = -(p k : Int) - 1)) →
    -- predecessor of a newly marked entry is visited and not dst
    (∀ k, k < n → 0 ≤ fp0 k → fp k < 0 → ∃ w, w < n ∧ w ≠ dst ∧ p w = k ∧ (w = i ∨ (0 ≤ fp0 w ∧ fp w < 0))) →
    (∀ k, k < n → k ≠ dst → A k = if (0 ≤ fp0 k ∧ fp k < 0) ∨ k = i then A0 (p k) else A00 k) →
    ∃ A' fp', cycle n i (A0 i) fuel dst (pi : Int) A fp = some (A', fp') ∧ Outer n p A0 (i + 1) A' fp' := by
  intro fuel
  induction fuel with
  | zero =>
    intro dst pi A fp hd hpi hne hunm hlt hdst hfi hfi' hf htbl hpred hval
    have hpn : pi < n := by rw [hpi]; exact hp.lt _ hd
    have : 0 < unmarked n fp := by
      unfold unmarked
      exact Finset.card_pos.2 ⟨pi, by simp [hpn, hunm]⟩
    omega
  | succ fuel ih =>
    intro dst pi A fp hd hpi hne hunm hlt hdst hfi hfi' hf htbl hpred hval
    have hpn : pi < n := by rw [hpi]; exact hp.lt _ hd
    rw [cycle, if_neg (by omega)]
    simp only [Int.toNat_natCast]
    have hfpi : fp pi = p pi := by
      rcases htbl pi hpn with h | ⟨_, _, h⟩
      · rcases h0.tbl pi hpn with h' | ⟨_, h'⟩
        · rw [h, h']
        · omega
      · omega
    have hfp0pi : 0 ≤ fp0 pi := by
      rcases htbl pi hpn with h | ⟨_, h, _⟩ <;> omega
    have hdp : dst ≠ pi := by
      rintro rfl
      rcases hdst with h | h <;> omega
    have hApi : A pi = A0 pi := by
      rw [hval pi hpn hdp.symm, if_neg (by intro h; rcases h with ⟨_, h⟩ | h <;> omega), h0.val pi hpn,
        if_neg (by intro h; rcases h with h | h <;> omega)]
    rw [hfpi]
    set A1 := Function.update A dst (A pi) with hA1
    set fp1 := Function.update fp pi (-(p pi : Int) - 1) with hfp1
    have hfp1ne : ∀ k, k ≠ pi → fp1 k = fp k := fun k hk => by rw [hfp1, Function.update_of_ne hk]
    have hfp1pi : fp1 pi = -(p pi : Int) - 1 := by rw [hfp1, Function.update_self]
    have htbl1 : ∀ k, k < n → fp1 k = fp0 k ∨ (i < k ∧ 0 ≤ fp0 k ∧ fp1 k = -(p k : Int) - 1) := by
      intro k hk
      by_cases e : k = pi
      · subst e; right; exact ⟨hlt, hfp0pi, hfp1pi⟩
      · rw [hfp1ne k e]; exact htbl k hk
    have hmk : ∀ k, fp k < 0 → fp1 k < 0 := by
      intro k hk
      by_cases e : k = pi
      · subst e; rw [hfp1pi]; omega
      · rw [hfp1ne k e]; exact hk
    have hvis : ∀ w, (w = i ∨ (0 ≤ fp0 w ∧ fp w < 0)) → w = i ∨ (0 ≤ fp0 w ∧ fp1 w < 0) := by
      intro w hw
      rcases hw with h | ⟨h1, h2⟩
      · exact Or.inl h
      · exact Or.inr ⟨h1, hmk w h2⟩
    have hpred1 : ∀ k, k < n → 0 ≤ fp0 k → fp1 k < 0 → ∃ w, w < n ∧ w ≠ pi ∧ p w = k ∧ (w = i ∨ (0 ≤ fp0 w ∧ fp1 w < 0)) := by
      intro k hk hk0 hk1
      by_cases e : k = pi
      · subst e; exact ⟨dst, hd, hdp, hpi.symm, hvis dst hdst⟩
      · rw [hfp1ne k e] at hk1
        obtain ⟨w, hw, _, hpw, hwv⟩ := hpred k hk hk0 hk1
        refine ⟨w, hw, ?_, hpw, hvis w hwv⟩
        rintro rfl
        rcases hwv with h | h <;> omega
    have hval1 : ∀ k, k < n → k ≠ pi → A1 k = if (0 ≤ fp0 k ∧ fp1 k < 0) ∨ k = i then A0 (p k) else A00 k := by
      intro k hk hkp
      by_cases e : k = dst
      · subst e
        rw [hA1, Function.update_self, hApi, if_pos (by rcases hvis k hdst with h | h; exact Or.inr h; exact Or.inl h), ← hpi]
      · rw [hA1, Function.update_of_ne e, hval k hk e, hfp1ne k hkp]
    by_cases hbreak : ((p pi : Nat) : Int) = (i : Int)
    · rw [if_pos hbreak]
      have hb : p pi = i := by exact_mod_cast hbreak
      refine ⟨_, _, rfl, ?_, ?_, ?_⟩
      · intro k hk
        rcases htbl1 k hk with h | ⟨h1, h2, h3⟩
        · rcases h0.tbl k hk with h' | ⟨h', h''⟩
          · left; rw [h, h']
          · right
            have : k ≠ i := by rintro rfl; omega
            exact ⟨by omega, by rw [h, h'']⟩
        · right; exact ⟨by omega, h3⟩
      · intro k hk
        by_cases e : k = pi
        · subst e
          rw [Function.update_self, if_pos (Or.inr (by rw [hfp1pi]; omega)), hb]
        · rw [Function.update_of_ne e, hval1 k hk e]
          by_cases hc : (0 ≤ fp0 k ∧ fp1 k < 0) ∨ k = i
          · rw [if_pos hc, if_pos (by rcases hc with h | h; exact Or.inr h.2; exact Or.inl (by omega))]
          · rw [if_neg hc, h0.val k hk]
            have hki : k ≠ i := fun h => hc (Or.inr h)
            rcases htbl1 k hk with h | ⟨h1, h2, h3⟩
            · rw [h]
              by_cases hd : k < i ∨ fp0 k < 0
              · rw [if_pos hd, if_pos (by rcases hd with h | h; exact Or.inl (by omega); exact Or.inr h)]
              · rw [if_neg hd, if_neg (by intro h; apply hd; rcases h with h | h; exact Or.inl (by omega); exact Or.inr h)]
            · exact absurd (Or.inl ⟨h2, by omega⟩) hc
      · intro k hik hk hk1
        have hkpi : k ≠ pi := by rintro rfl; rw [hfp1pi] at hk1; omega
        have hk0 : 0 ≤ fp0 k := by
          rcases htbl1 k hk with h | ⟨_, _, h⟩ <;> omega
        obtain ⟨c1, c2⟩ := h0.closed k (by omega) hk hk0
        have hpk := hp.lt k hk
        have hpki : p k ≠ i := by
          intro h
          have := hp.inj k pi hk hpn (h.trans hb.symm)
          exact hkpi this
        refine ⟨by omega, ?_⟩
        by_contra hneg
        obtain ⟨w, hw, _, hpw, hwv⟩ := hpred1 (p k) hpk c2 (by omega)
        have := hp.inj w k hw hk hpw
        subst this
        rcases hwv with h | h <;> omega
    · rw [if_neg hbreak]
      have hb : p pi ≠ i := fun h => hbreak (by exact_mod_cast h)
      obtain ⟨c1, c2⟩ := h0.closed pi (by omega) hpn hfp0pi
      have hppn := hp.lt pi hpn
      have hpp : p pi ≠ pi := by
        intro h
        have := hp.inj pi dst hpn hd (by rw [h, ← hpi])
        exact hdp this.symm
      have hunm1 : 0 ≤ fp1 (p pi) := by
        by_contra hneg
        obtain ⟨w, hw, hwne, hpw, hwv⟩ := hpred1 (p pi) hppn c2 (by omega)
        exact hwne (hp.inj w pi hw hpn hpw)
      refine ih pi (p pi) A1 fp1 hpn rfl hb hunm1 (by omega) (Or.inr ⟨hfp0pi, by rw [hfp1pi]; omega⟩) hfi
        (by rw [hfp1ne i (by omega)]; exact hfi') ?_ htbl1 hpred1 hval1
      have := unmarked_update (n := n) (fp := fp) (s := pi) (v := -(p pi : Int) - 1) hpn hunm (by omega)
      rw [← hfp1] at this
      omega

theorem permStep_spec (n i : Nat) (p : Nat → Nat) (hp : IsP n p) (A0 A : Nat → ρ) (fp : Nat → Int)
    (hi : i < n) (h : Outer n p A0 i A fp) :
    ∃ A' fp', permStep n i A fp = some (A', fp') ∧ Outer n p A0 (i + 1) A' fp' := by
  unfold permStep
  by_cases hneg : fp i < 0
  · simp only [if_pos hneg]
    refine ⟨_, _, rfl, ?_, ?_, ?_⟩
    · intro k hk
      by_cases e : k = i
      · subst e; left; rw [Function.update_self]
        rcases h.tbl k hk with h' | ⟨_, h'⟩ <;> omega
      · rw [Function.update_of_ne e]
        rcases h.tbl k hk with h' | ⟨h1, h2⟩
        · exact Or.inl h'
        · exact Or.inr ⟨by omega, h2⟩
    · intro k hk
      by_cases e : k = i
      · subst e
        rw [h.val k hk, if_pos (Or.inr hneg), if_pos (Or.inl (by omega))]
      · rw [Function.update_of_ne e, h.val k hk]
        by_cases hc : k < i ∨ fp k < 0
        · rw [if_pos hc, if_pos (by rcases hc with h | h; exact Or.inl (by omega); exact Or.inr h)]
        · rw [if_neg hc, if_neg (by intro h; apply hc; rcases h with h | h; exact Or.inl (by omega); exact Or.inr h)]
    · intro k hik hk hk0
      rw [Function.update_of_ne (by omega)] at hk0
      obtain ⟨c1, c2⟩ := h.closed k (by omega) hk hk0
      have : p k ≠ i := by intro e; rw [e] at c2; omega
      refine ⟨by omega, ?_⟩
      rw [Function.update_of_ne this]; exact c2
  · simp only [if_neg hneg]
    have hfi : fp i = p i := by rcases h.tbl i hi with h' | ⟨_, h'⟩ <;> omega
    by_cases hself : fp i = (i : Int)
    · rw [if_pos hself]
      have hpi : p i = i := by omega
      refine ⟨_, _, rfl, ?_, ?_, ?_⟩
      · intro k hk
        rcases h.tbl k hk with h' | ⟨h1, h2⟩
        · exact Or.inl h'
        · have : k ≠ i := by rintro rfl; omega
          exact Or.inr ⟨by omega, h2⟩
      · intro k hk
        rw [h.val k hk]
        by_cases e : k = i
        · subst e; rw [hpi]; simp
        · by_cases hc : k < i ∨ fp k < 0
          · rw [if_pos hc, if_pos (by rcases hc with h | h; exact Or.inl (by omega); exact Or.inr h)]
          · rw [if_neg hc, if_neg (by intro h; apply hc; rcases h with h | h; exact Or.inl (by omega); exact Or.inr h)]
      · intro k hik hk hk0
        obtain ⟨c1, c2⟩ := h.closed k (by omega) hk hk0
        have : p k ≠ i := by
          intro e; have := hp.inj k i hk hi (by rw [e, hpi]); omega
        exact ⟨by omega, c2⟩
    · rw [if_neg hself]
      obtain ⟨c1, c2⟩ := h.closed i (le_refl _) hi (by omega)
      have hpi : p i ≠ i := by intro e; rw [e] at hfi; exact hself hfi
      have hAi : A i = A0 i := by
        rw [h.val i hi, if_neg (by intro h; rcases h with h | h <;> omega)]
      rw [hAi, hfi]
      refine cycle_spec n i p hp A0 fp A hi h n i (p i) A fp hi rfl hpi c2 (by omega) (Or.inl rfl) (by omega)
        (by omega) (unmarked_le _ _) (fun k _ => Or.inl rfl) ?_ ?_
      · intro k hk h0 h1; omega
      · intro k hk hki
        rw [if_neg (by intro h; rcases h with ⟨h1, h2⟩ | h <;> omega)]

theorem permLoop_spec (n : Nat) (p : Nat → Nat) (hp : IsP n p) (A0 : Nat → ρ) :
    ∀ (r i : Nat) (A : Nat → ρ) (fp : Nat → Int), i + r = n → Outer n p A0 i A fp →
    ∃ A' fp', permLoop n r i A fp = some (A', fp') ∧ Outer n p A0 n A' fp'
  | 0, i, A, fp, e, h => ⟨A, fp, rfl, (show i = n by omega) ▸ h⟩
  | r + 1, i, A, fp, e, h => by
    obtain ⟨A1, fp1, e1, h1⟩ := permStep_spec n i p hp A0 A fp (by omega) h
    obtain ⟨A2, fp2, e2, h2⟩ := permLoop_spec n p hp A0 r (i + 1) A1 fp1 (by omega) h1
    exact ⟨A2, fp2, by rw [permLoop, e1]; exact e2, h2⟩

theorem isP_of_perm {n : Nat} {perm : List Nat} (h : perm.Perm (List.range n)) : IsP n (fun k => perm.getD k 0) := by
  have hl : perm.length = n := by rw [h.length_eq]; simp
  have hnd : perm.Nodup := h.nodup_iff.2 List.nodup_range
  refine ⟨?_, ?_⟩
  · intro k hk
    have hm : perm[k] ∈ perm := List.getElem_mem (by omega)
    have := h.mem_iff.1 hm
    simp only [List.getD_eq_getElem?_getD, List.getElem?_eq_getElem (show k < perm.length by omega)]
    simpa using this
  · intro j k hj hk e
    simp only [List.getD_eq_getElem?_getD, List.getElem?_eq_getElem (show k < perm.length by omega),
      List.getElem?_eq_getElem (show j < perm.length by omega), Option.getD_some] at e
    exact (List.Nodup.getElem_inj_iff hnd).1 e

theorem sarrayPermute_spec (A : List ρ) (perm : List Nat) (h : perm.Perm (List.range A.length)) :
    ∃ out, sarrayPermute A perm = some (out, perm.map Int.ofNat) ∧ out.length = A.length ∧
      ∀ i j : Nat, perm[i]? = some j → out[i]? = A[j]? := by
  have hl : perm.length = A.length := by rw [h.length_eq]; simp
  match A, h, hl with
  | [], h, hl =>
    refine ⟨[], rfl, rfl, ?_⟩
    intro i j e
    have : perm = [] := List.length_eq_zero_iff.1 hl
    simp [this] at e
  | x :: xs, h, hl =>
    simp only [sarrayPermute]
    rw [if_neg (by simpa using hl)]
    set n := (x :: xs).length with hn
    set A0 : Nat → ρ := fun k => (x :: xs).getD k x with hA0
    set p : Nat → Nat := fun k => perm.getD k 0 with hp
    obtain ⟨A', fp', e, ho⟩ := permLoop_spec n p (isP_of_perm h) A0 n 0 A0 (fun k => Int.ofNat (p k)) (by omega)
      ⟨fun k _ => Or.inl rfl, fun k _ => by rw [if_neg (by intro h; rcases h with h | h; omega; exact absurd h (by simp))],
       fun k _ _ _ => ⟨by omega, by simp⟩⟩
    refine ⟨(List.range n).map A', ?_, by simp, ?_⟩
    · rw [e]
      simp only [Option.map_some, Option.some.injEq, Prod.mk.injEq, true_and]
      apply List.ext_getElem?
      intro i
      by_cases hi : i < n
      · have hpi : p i = perm[i]'(by omega) := by
          simp only [hp, List.getD_eq_getElem?_getD, List.getElem?_eq_getElem (show i < perm.length by omega), Option.getD_some]
        have hv : fp' i = p i := by rcases ho.tbl i hi with h' | ⟨h', _⟩; exact h'; omega
        rw [List.getElem?_map, List.getElem?_range hi, List.getElem?_map,
          List.getElem?_eq_getElem (show i < perm.length by omega)]
        simp [hv, hpi]
      · rw [List.getElem?_eq_none (by simp; omega), List.getElem?_eq_none (by simp; omega)]
    · intro i j hij
      obtain ⟨hi, e2⟩ := List.getElem?_eq_some_iff.1 hij
      have hin : i < n := by omega
      have hpi : p i = j := by simp [hp, List.getD_eq_getElem?_getD, hij]
      rw [List.getElem?_map, List.getElem?_range hin, Option.map_some, ho.val i hin, if_pos (Or.inl hin), hpi]
      have hj : j < (x :: xs).length := by
        have h1 : perm.getD i 0 < (x :: xs).length := (isP_of_perm h).lt i hin
        have h2 : perm.getD i 0 = j := hpi
        omega
      simp only [hA0, List.getD_eq_getElem?_getD, List.getElem?_eq_getElem hj, Option.getD_some]

theorem isPermTable_nodup {n : Nat} {p : List Nat} (h : IsPermTable n p) : p.Nodup :=
  h.nodup_iff.2 List.nodup_range

/-- the rows listed by a permutation -/
theorem permute_filterMap (A : List ρ) (perm : List Nat) (h : perm.Perm (List.range A.length)) :
    sarrayPermute A perm = some (perm.filterMap (A[·]?), perm.map Int.ofNat) := by
  obtain ⟨out, e, hl, hv⟩ := sarrayPermute_spec A perm h
  have hlt : ∀ j ∈ perm, j < A.length := fun j hj => by simpa using h.mem_iff.1 hj
  have : out = perm.filterMap (A[·]?) := by
    have e1 : perm.filterMap (A[·]?) = perm.pmap (fun j (hj : j < A.length) => A[j]) hlt := by
      clear hv e
      have : ∀ (perm : List Nat) (hlt : ∀ j ∈ perm, j < A.length),
          perm.filterMap (A[·]?) = perm.pmap (fun j (hj : j < A.length) => A[j]) hlt := by
        intro perm hlt
        induction perm with
        | nil => rfl
        | cons j perm ih =>
          have hj : j < A.length := hlt j (by simp)
          rw [List.filterMap_cons, List.getElem?_eq_getElem hj]
          simp [ih (fun j' h' => hlt j' (by simp [h']))]
      exact this perm hlt
    rw [e1]
    have hpl : perm.length = A.length := by rw [h.length_eq]; simp
    apply List.ext_getElem?
    intro i
    by_cases hi : i < A.length
    · have hi' : i < perm.length := by omega
      have hj : perm[i] < A.length := hlt _ (List.getElem_mem hi')
      rw [hv i perm[i] (List.getElem?_eq_getElem hi'), List.getElem?_pmap, List.getElem?_eq_getElem hj]
      simp [List.getElem?_eq_getElem hi']
    · rw [List.getElem?_eq_none (by omega), List.getElem?_eq_none (by simp; omega)]
  rw [e, this]

variable [LinearOrder κ]

/-- the specification key of a field -/
def Field.key : Field ρ κ → Key ρ κ
  | .int _ f => .nat f
  | .real f => .ord f

/-- integer keys fit in the field -/
def Field.Fits (rows : List ρ) : Field ρ κ → Prop
  | .int D f => ∀ r ∈ rows, f r < 256 ^ D
  | .real _ => True

/-- strict lexicographic order on row numbers, ties by number -/
def LexIdx (rows : List ρ) : List (Key ρ κ) → Nat → Nat → Prop
  | [], i, j => i < j
  | k :: ks, i, j => ∀ a b, rows[i]? = some a → rows[j]? = some b → (k.Lt a b ∨ (k.Same a b ∧ LexIdx rows ks i j))

theorem sortField_spec (f : Field ρ κ) (rows : List ρ) (s : ScratchF κ) (hf : f.Fits rows) (q : Option (List Nat))
    (hq : ∀ q', q = some q' → IsPermTable rows.length q') (R : Nat → Nat → Prop)
    (hR : (q.getD (List.range rows.length)).Pairwise R) :
    ∃ p, sortField f rows q s = .ok p ∧ IsPermTable rows.length p ∧
      p.Pairwise fun i j => ∀ a b, rows[i]? = some a → rows[j]? = some b → (f.key.Lt a b ∨ (f.key.Same a b ∧ R i j)) := by
  have main : ∀ {κ' : Type} [LinearOrder κ'] (g : ρ → κ') (p : List Nat),
      IsStableSortPerm (rows.map g) (q.getD (List.range rows.length)) p → IsPermTable rows.length p ∧
      p.Pairwise fun i j => ∀ a b, rows[i]? = some a → rows[j]? = some b → (g a < g b ∨ (g a = g b ∧ R i j)) := by
    intro κ' _ g p h
    refine ⟨by simpa using h.perm, ?_⟩
    have hs := h.sorted
    rw [List.pairwise_iff_forall_sublist] at hs hR ⊢
    intro i j hij a b ha hb
    have := hs hij (g a) (g b) (by simp [ha]) (by simp [hb])
    rcases lt_or_eq_of_le this with h1 | h1
    · exact Or.inl h1
    · refine Or.inr ⟨h1, hR ((h.stable i j (g a) (by simp [ha]) (by simp [hb, h1])).1 hij)⟩
  cases f with
  | int D g =>
    have hA : ∀ x ∈ rows.map g, x < 256 ^ D := by
      intro x hx; obtain ⟨r, hr, rfl⟩ := List.mem_map.1 hx; exact hf r hr
    cases q with
    | none =>
      obtain ⟨p, e, h⟩ := Props.sortp_stable D (rows.map g) s.i hA
      exact ⟨p, e, main g p (by simpa using h)⟩
    | some q =>
      obtain ⟨p, e, h⟩ := Props.sortp_start_perm_stable D (rows.map g) q s.i hA (by simpa using hq q rfl)
      exact ⟨p, e, main g p (by simpa using h)⟩
  | real g =>
    cases q with
    | none =>
      obtain ⟨p, e, h⟩ := Props.sortp_real_stable (rows.map g) s.r
      exact ⟨p, e, main g p (by simpa using h)⟩
    | some q =>
      obtain ⟨p, e, h⟩ := Props.sortp_real_start_perm_stable (rows.map g) q s.r (by simpa using hq q rfl)
      exact ⟨p, e, main g p (by simpa using h)⟩

theorem sortFields_spec (rows : List ρ) (s : ScratchF κ) : ∀ (fs : List (Field ρ κ)), (∀ f ∈ fs, f.Fits rows) →
    ∃ q, sortFields fs rows s = .ok q ∧ (q = none ↔ fs = []) ∧ (∀ q', q = some q' → IsPermTable rows.length q') ∧
      (q.getD (List.range rows.length)).Pairwise (LexIdx rows (fs.map Field.key))
  | [], _ => ⟨none, rfl, by simp, by simp, List.pairwise_lt_range⟩
  | f :: fs, h => by
    obtain ⟨q, e, _, hp, hq⟩ := sortFields_spec rows s fs (fun f' hf' => h f' (by simp [hf']))
    obtain ⟨p, e', hp', hs⟩ := sortField_spec f rows s (h f (by simp)) q hp _ hq
    refine ⟨some p, ?_, by simp, ?_, hs⟩
    · simp only [sortFields, e, Outcome.bind, e']
    · rintro q' ⟨⟩; exact hp'

theorem LexIdx.le {rows : List ρ} {i j : Nat} {a b : ρ} (ha : rows[i]? = some a) (hb : rows[j]? = some b) :
    ∀ {ks : List (Key ρ κ)}, LexIdx rows ks i j → LexLe ks a b
  | [], _ => trivial
  | k :: ks, h => by
    rcases h a b ha hb with h | ⟨h1, h2⟩
    · exact Or.inl h
    · exact Or.inr ⟨h1, h2.le ha hb⟩

theorem Key.Same.not_lt {k : Key ρ κ} {r a b : ρ} (h1 : k.Same r a) (h2 : k.Same r b) : ¬ k.Lt a b := by
  cases k with
  | nat f => simp only [Key.Same, Key.Lt] at *; omega
  | ord f => simp only [Key.Same, Key.Lt] at *; rw [← h1, ← h2]; exact lt_irrefl _

theorem LexIdx.lt_of_same {rows : List ρ} {i j : Nat} {r a b : ρ} (ha : rows[i]? = some a) (hb : rows[j]? = some b) :
    ∀ {ks : List (Key ρ κ)}, LexIdx rows ks i j → (∀ k ∈ ks, k.Same r a) → (∀ k ∈ ks, k.Same r b) → i < j
  | [], h, _, _ => h
  | k :: ks, h, h1, h2 => by
    rcases h a b ha hb with h | ⟨_, h⟩
    · exact absurd h (Key.Same.not_lt (h1 k (by simp)) (h2 k (by simp)))
    · exact h.lt_of_same ha hb (fun k hk => h1 k (by simp [hk])) (fun k hk => h2 k (by simp [hk]))

/-- rows listed by a table sorted by `LexIdx` form the stable lexicographic sort -/
theorem isLexSort_of_lexIdx (rows : List ρ) (ks : List (Key ρ κ)) (p : List Nat) (hp : IsPermTable rows.length p)
    (hs : p.Pairwise (LexIdx rows ks)) : IsLexSort ks rows (p.filterMap (rows[·]?)) := by
  have hrange : (List.range rows.length).filterMap (rows[·]?) = rows := by
    have : (List.range rows.length).map (fun j => rows[j]?) = rows.map some := by
      apply List.ext_getElem?
      intro i
      by_cases hi : i < rows.length <;> simp [hi]
    have h2 : (List.range rows.length).filterMap (rows[·]?) = ((List.range rows.length).map (fun j => rows[j]?)).filterMap id := by
      rw [List.filterMap_map]; rfl
    rw [h2, this]; simp
  refine ⟨?_, ?_, ?_⟩
  · have := hp.filterMap (rows[·]?)
    rwa [hrange] at this
  · rw [List.pairwise_filterMap]
    refine hs.imp ?_
    intro i j h a ha b hb
    exact h.le ha hb
  · intro q r hq
    have hf : ∀ l : List Nat, (l.filterMap (rows[·]?)).filter q = (l.filter fun i => (rows[i]?).any q).filterMap (rows[·]?) := by
      intro l
      induction l with
      | nil => rfl
      | cons i l ih =>
        cases hi : rows[i]? with
        | none => simp [hi, ih]
        | some a =>
          by_cases hqa : q a = true
          · simp [hi, hqa, ih]
          · simp [hi, hqa, ih]
    have hlhs := hf p
    have hrhs := hf (List.range rows.length)
    rw [hrange] at hrhs
    rw [hlhs, hrhs]
    congr 1
    have hperm : (p.filter fun i => (rows[i]?).any q).Perm ((List.range rows.length).filter fun i => (rows[i]?).any q) := hp.filter _
    refine List.Perm.eq_of_pairwise (le := (· < ·)) (fun a b _ _ h h' => by omega) ?_ ?_ hperm
    · have := hs.filter (fun i => (rows[i]?).any q)
      refine this.imp_of_mem ?_
      intro i j hi hj h
      simp only [List.mem_filter, Option.any_eq_true] at hi hj
      obtain ⟨_, a, ha, hqa⟩ := hi
      obtain ⟨_, b, hb, hqb⟩ := hj
      exact h.lt_of_same ha hb ((hq a).1 hqa) ((hq b).1 hqb)
    · exact List.pairwise_lt_range.filter _

theorem permInvert_spec_aux (n : Nat) : ∀ (l : List (Nat × Nat)) (pinv : List Nat), pinv.length = n → (∀ x ∈ l, x.1 < n) →
    (l.map (·.1)).Nodup →
    ∃ out, l.foldlM (fun pinv (x : Nat × Nat) =>
      if x.1 < pinv.length then some (pinv.set x.1 x.2) else none) pinv = some out ∧ out.length = n ∧
      (∀ x ∈ l, out[x.1]? = some x.2) ∧ ∀ k, k ∉ l.map (·.1) → out[k]? = pinv[k]?
  | [], pinv, hl, _, _ => ⟨pinv, rfl, hl, by simp, by simp⟩
  | x :: l, pinv, hl, hb, hnd => by
    have hx : x.1 < n := hb x (by simp)
    simp only [List.map_cons, List.nodup_cons] at hnd
    obtain ⟨out, e, h1, h2, h3⟩ := permInvert_spec_aux n l (pinv.set x.1 x.2) (by simp [hl]) (fun y hy => hb y (by simp [hy])) hnd.2
    refine ⟨out, ?_, h1, ?_, ?_⟩
    · rw [List.foldlM_cons, if_pos (by omega)]; exact e
    · intro y hy
      rcases List.mem_cons.1 hy with rfl | hy
      · rw [h3 _ hnd.1, List.getElem?_set_self (by omega)]
      · exact h2 y hy
    · intro k hk
      simp only [List.map_cons, List.mem_cons, not_or] at hk
      rw [h3 k hk.2, List.getElem?_set_ne (by omega)]

theorem permInvert_spec (perm pinv0 : List Nat) (hp : IsPermTable pinv0.length perm) :
    ∃ out, permInvert perm pinv0 = some out ∧ out.length = pinv0.length ∧
      ∀ i j : Nat, perm[i]? = some j → out[j]? = some i := by
  have ha : ∀ x ∈ perm.zipIdx, x.1 < pinv0.length := by
    intro x hx
    have : x.1 ∈ perm := List.mem_of_getElem? (List.mem_zipIdx_iff_getElem?.1 hx)
    simpa using hp.mem_iff.1 this
  have hb : (perm.zipIdx.map (·.1)).Nodup := by
    have : perm.zipIdx.map (·.1) = perm := by simp
    rw [this]; exact isPermTable_nodup hp
  obtain ⟨out, e, h1, h2, _⟩ := permInvert_spec_aux pinv0.length perm.zipIdx pinv0 rfl ha hb
  refine ⟨out, e, h1, ?_⟩
  intro i j hij
  exact h2 (j, i) (List.mem_zipIdx_iff_getElem?.2 hij)

end Gslib.Sarray
