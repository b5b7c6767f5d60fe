import Verif.Model.HeapSort
import Mathlib.Data.List.Perm.Basic
import Mathlib.Data.Multiset.Range
import Mathlib.Tactic.Common
import Mathlib.Logic.Equiv.Basic
import Mathlib.Data.List.Nodup

namespace Gslib.HeapSort

variable {α κ : Type} [LinearOrder κ]

/-- the array contents as a list -/
def toL (n : Nat) (a : Nat → α) : List α := (List.range n).map a

theorem toL_comp_swap (n : Nat) (b : Nat → α) (x y : Nat) (hx : x < n) (hy : y < n) :
    (toL n (b ∘ Equiv.swap x y)).Perm (toL n b) := by
  unfold toL
  rw [← List.map_map]
  apply List.Perm.map
  refine (List.perm_ext_iff_of_nodup ?_ List.nodup_range).2 ?_
  · exact List.nodup_range.map (Equiv.swap x y).injective
  · intro k
    simp only [List.mem_map, List.mem_range]
    constructor
    · rintro ⟨j, hj, rfl⟩
      rcases Equiv.swap_apply_eq_iff.1 (rfl : Equiv.swap x y j = Equiv.swap x y j) with _
      simp only [Equiv.swap_apply_def]
      split
      · exact hy
      · split
        · exact hx
        · exact hj
    · intro hk
      refine ⟨Equiv.swap x y k, ?_, by simp⟩
      simp only [Equiv.swap_apply_def]
      split
      · exact hy
      · split
        · exact hx
        · exact hk

/-- moving the hole: filling cell `h` from cell `p` and then `p` with the item only permutes -/
theorem toL_move (n : Nat) (a : Nat → α) (h p : Nat) (item : α) (hh : h < n) (hp : p < n) (hne : h ≠ p) :
    (toL n (Function.update (Function.update a h (a p)) p item)).Perm (toL n (Function.update a h item)) := by
  have e : Function.update (Function.update a h (a p)) p item =
      (Function.update a h item) ∘ Equiv.swap h p := by
    funext k
    simp only [Function.update_apply, Function.comp, Equiv.swap_apply_def]
    by_cases h1 : k = p
    · subst h1; simp [hne.symm]
    · by_cases h2 : k = h
      · subst h2; simp [h1, hne.symm]
      · simp [h1, h2]
  rw [e]
  exact toL_comp_swap n _ h p hh hp

/-- max-heap order on the first `i` cells -/
def Heap (key : α → κ) (i : Nat) (a : Nat → α) : Prop :=
  ∀ j, 0 < j → j < i → key (a j) ≤ key (a ((j - 1) / 2))

theorem rdA_lt {n : Nat} {a : Nat → α} {k : Nat} (h : k < n) : rdA n a k = some (a k) := by simp [rdA, h]
theorem wrA_lt {n : Nat} {a : Nat → α} {k : Nat} {v : α} (h : k < n) :
    wrA n a k v = some (Function.update a k v) := by simp [wrA, h]

theorem siftUp_spec (key : α → κ) (n i : Nat) (item : α) (hin : i < n) : ∀ (h : Nat) (a : Nat → α),
    0 < h → h ≤ i → key (a ((h - 1) / 2)) < key item →
    (∀ j, 0 < j → j ≤ i → j ≠ h → (j - 1) / 2 ≠ h → key (a j) ≤ key (a ((j - 1) / 2))) →
    (∀ j, 0 < j → j ≤ i → (j - 1) / 2 = h → key (a j) ≤ key item ∧ key (a j) ≤ key (a ((h - 1) / 2))) →
    ∃ a', siftUp key n item h a = some a' ∧ Heap key (i + 1) a' ∧
      (toL n a').Perm (toL n (Function.update a h item)) ∧ (∀ k, i < k → a' k = a k) := by
  intro h
  induction h using Nat.strong_induction_on with
  | _ h ih =>
  intro a h0 hi hlt hinv hch
  rw [siftUp, dif_neg (by omega)]
  set p := (h - 1) / 2 with hp
  have hph : p < h := by omega
  simp only [rdA_lt (show p < n by omega), wrA_lt (show h < n by omega), Option.bind_eq_bind, Option.bind_some]
  set a1 := Function.update a h (a p) with ha1
  have hstop : (∀ j, 0 < j → j ≤ i → (j : Nat) = p → key item ≤ key (a1 ((j - 1) / 2))) →
      Heap key (i + 1) (Function.update a1 p item) := by
    intro hpar j hj0 hji
    have hji : j ≤ i := by omega
    by_cases e1 : j = p
    · subst e1
      rw [Function.update_self, Function.update_of_ne (by omega)]
      exact hpar _ hj0 hji rfl
    · rw [Function.update_of_ne e1]
      by_cases e2 : j = h
      · subst e2
        rw [ha1, Function.update_self, ← hp, Function.update_self]
        exact le_of_lt hlt
      · rw [ha1, Function.update_of_ne e2]
        by_cases e3 : (j - 1) / 2 = p
        · rw [e3, Function.update_self]
          have := hinv j hj0 hji e2 (by omega)
          rw [e3] at this
          exact le_trans this (le_of_lt hlt)
        · rw [Function.update_of_ne e3]
          by_cases e4 : (j - 1) / 2 = h
          · rw [e4, Function.update_self]
            exact (hch j hj0 hji e4).2
          · rw [Function.update_of_ne e4]
            exact hinv j hj0 hji e2 e4
  have hperm1 := toL_move n a h p item (by omega) (by omega) (by omega)
  rw [← ha1] at hperm1
  have hout : ∀ k, i < k → Function.update a1 p item k = a k := by
    intro k hk
    rw [Function.update_of_ne (by omega), ha1, Function.update_of_ne (by omega)]
  by_cases hp0 : p = 0
  · rw [if_pos hp0, wrA_lt (by omega)]
    exact ⟨_, rfl, hstop (by intro j h1 h2 h3; omega), hperm1, hout⟩
  · rw [if_neg hp0, rdA_lt (by omega)]
    simp only [Option.bind_some]
    split
    · rename_i hlt2
      obtain ⟨a', e, hh, hpm, ho⟩ := ih p hph a1 (by omega) (by omega) hlt2
        (by
          intro j hj0 hji hjp hparp
          by_cases e2 : j = h
          · exact absurd (by rw [e2, ← hp]) hparp
          · rw [ha1, Function.update_of_ne e2]
            by_cases e4 : (j - 1) / 2 = h
            · rw [e4, Function.update_self]; exact (hch j hj0 hji e4).2
            · rw [Function.update_of_ne e4]; exact hinv j hj0 hji e2 e4)
        (by
          intro j hj0 hji hjp
          have hgp : a1 ((p - 1) / 2) = a ((p - 1) / 2) := by rw [ha1, Function.update_of_ne (by omega)]
          rw [hgp]
          have hpp : key (a p) ≤ key (a ((p - 1) / 2)) := hinv p (by omega) (by omega) (by omega) (by omega)
          by_cases e2 : j = h
          · subst e2
            rw [ha1, Function.update_self]
            exact ⟨le_of_lt hlt, hpp⟩
          · rw [ha1, Function.update_of_ne e2]
            have := hinv j hj0 hji e2 (by omega)
            rw [hjp] at this
            exact ⟨le_trans this (le_of_lt hlt), le_trans this hpp⟩)
      refine ⟨a', e, hh, hpm.trans hperm1, ?_⟩
      intro k hk
      rw [ho k hk, ha1, Function.update_of_ne (by omega)]
    · rename_i hge
      rw [wrA_lt (by omega)]
      refine ⟨_, rfl, hstop (by intro j h1 h2 h3; rw [h3]; exact not_lt.1 hge), hperm1, hout⟩

theorem buildStep_spec (key : α → κ) (n i : Nat) (hin : i < n) (hi : 0 < i) (a : Nat → α) (hh : Heap key i a) :
    ∃ a', buildStep key n i a = some a' ∧ Heap key (i + 1) a' ∧ (toL n a').Perm (toL n a) := by
  unfold buildStep
  simp only [rdA_lt hin, rdA_lt (show (i - 1) / 2 < n by omega), Option.bind_eq_bind, Option.bind_some]
  split
  · rename_i hle
    refine ⟨a, rfl, ?_, List.Perm.refl _⟩
    intro j hj0 hji
    by_cases e : j = i
    · subst e; exact hle
    · exact hh j hj0 (by omega)
  · rename_i hlt
    obtain ⟨a', e, h1, h2, _⟩ := siftUp_spec key n i (a i) hin i a hi (le_refl _) (not_le.1 hlt)
      (by intro j h0 h1 h2 h3; exact hh j h0 (by omega)) (by intro j h0 h1 h2; omega)
    refine ⟨a', e, h1, ?_⟩
    rwa [Function.update_eq_self] at h2

theorem build_spec (key : α → κ) (n : Nat) : ∀ (r i : Nat) (a : Nat → α), 0 < i → i + r = n → Heap key i a →
    ∃ a', build key n r i a = some a' ∧ Heap key n a' ∧ (toL n a').Perm (toL n a)
  | 0, i, a, _, e, h => ⟨a, rfl, by rwa [show n = i by omega], List.Perm.refl _⟩
  | r + 1, i, a, h0, e, h => by
    obtain ⟨a1, e1, hh1, hp1⟩ := buildStep_spec key n i (by omega) h0 a h
    obtain ⟨a2, e2, hh2, hp2⟩ := build_spec key n r (i + 1) a1 (by omega) (by omega) hh1
    refine ⟨a2, ?_, hh2, hp2.trans hp1⟩
    rw [build, e1]; exact e2

theorem pickChild_spec (key : α → κ) (n i h : Nat) (a : Nat → α) (hin : i < n) :
    ∃ ch, pickChild key n i h a = some ch ∧ (ch = 1 + h * 2 ∨ ch = 1 + h * 2 + 1) ∧
      (i ≤ ch → i ≤ 1 + h * 2) ∧
      (∀ j, j < i → 0 < j → (j - 1) / 2 = h → key (a j) ≤ key (a ch)) := by
  unfold pickChild
  by_cases hr : 1 + h * 2 + 1 < i
  · simp only [if_pos hr, rdA_lt (show 1 + h * 2 < n by omega), rdA_lt (show 1 + h * 2 + 1 < n by omega),
      Option.bind_eq_bind, Option.bind_some]
    split
    · rename_i hlt
      refine ⟨_, rfl, Or.inr rfl, by omega, ?_⟩
      intro j hj hj0 hp
      have : j = 1 + h * 2 ∨ j = 1 + h * 2 + 1 := by omega
      rcases this with rfl | rfl
      · exact le_of_lt hlt
      · exact le_refl _
    · rename_i hge
      refine ⟨_, rfl, Or.inl rfl, by omega, ?_⟩
      intro j hj hj0 hp
      have : j = 1 + h * 2 ∨ j = 1 + h * 2 + 1 := by omega
      rcases this with rfl | rfl
      · exact le_refl _
      · exact not_lt.1 hge
  · simp only [if_neg hr]
    refine ⟨_, rfl, Or.inl rfl, by omega, ?_⟩
    intro j hj hj0 hp
    have : j = 1 + h * 2 := by omega
    rw [this]

theorem siftDown_spec (key : α → κ) (n i : Nat) (item : α) (hin : i < n) : ∀ (fuel h : Nat) (a : Nat → α),
    i ≤ fuel + h → h < i →
    (∀ j, 0 < j → j < i → j ≠ h → (j - 1) / 2 ≠ h → key (a j) ≤ key (a ((j - 1) / 2))) →
    (0 < h → key item ≤ key (a ((h - 1) / 2)) ∧
      ∀ j, 0 < j → j < i → (j - 1) / 2 = h → key (a j) ≤ key (a ((h - 1) / 2))) →
    ∃ a', siftDown key n i item fuel h a = some a' ∧ Heap key i a' ∧
      (toL n a').Perm (toL n (Function.update a h item)) ∧
      (toL i a').Perm (toL i (Function.update a h item)) ∧ (∀ k, i ≤ k → a' k = a k) := by
  intro fuel
  induction fuel with
  | zero => intro h a hf hi; omega
  | succ fuel ih =>
    intro h a hf hi hinv hch
    obtain ⟨ch, ec, hchv, hche, hmax⟩ := pickChild_spec key n i h a hin
    rw [siftDown]
    simp only [ec, Option.bind_eq_bind, Option.bind_some]
    have hstop : (∀ j, j < i → 0 < j → (j - 1) / 2 = h → key (a j) ≤ key item) →
        Heap key i (Function.update a h item) := by
      intro hc j hj0 hji
      by_cases e1 : j = h
      · subst e1
        rw [Function.update_self, Function.update_of_ne (by omega)]
        exact (hch hj0).1
      · rw [Function.update_of_ne e1]
        by_cases e2 : (j - 1) / 2 = h
        · rw [e2, Function.update_self]; exact hc j hji hj0 e2
        · rw [Function.update_of_ne e2]; exact hinv j hj0 hji e1 e2
    have hout : ∀ k, i ≤ k → Function.update a h item k = a k := by
      intro k hk; rw [Function.update_of_ne (by omega)]
    by_cases hge : i ≤ ch
    · rw [if_pos hge, wrA_lt (by omega)]
      refine ⟨_, rfl, hstop ?_, List.Perm.refl _, List.Perm.refl _, hout⟩
      intro j hj hj0 hp
      have := hche hge
      omega
    · rw [if_neg hge, rdA_lt (by omega)]
      simp only [Option.bind_some]
      split
      · rename_i hle
        rw [wrA_lt (by omega)]
        refine ⟨_, rfl, hstop ?_, List.Perm.refl _, List.Perm.refl _, hout⟩
        intro j hj hj0 hp
        exact le_trans (hmax j hj hj0 hp) hle
      · rename_i hlt
        have hlt : key item < key (a ch) := not_le.1 hlt
        rw [wrA_lt (by omega)]
        simp only [Option.bind_some]
        have hpc : (ch - 1) / 2 = h := by omega
        obtain ⟨a', e, hh, hpm, hpm', ho⟩ := ih ch (Function.update a h (a ch)) (by omega) (by omega)
          (by
            intro j hj0 hji hjc hparc
            by_cases e1 : j = h
            · subst e1
              rw [Function.update_self, Function.update_of_ne (by omega)]
              exact (hch hj0).2 ch (by omega) (by omega) hpc
            · rw [Function.update_of_ne e1]
              by_cases e2 : (j - 1) / 2 = h
              · rw [e2, Function.update_self]; exact hmax j hji hj0 e2
              · rw [Function.update_of_ne e2]; exact hinv j hj0 hji e1 e2)
          (by
            intro _
            rw [hpc, Function.update_self]
            refine ⟨le_of_lt hlt, ?_⟩
            intro j hj0 hji hjp
            rw [Function.update_of_ne (by omega)]
            have := hinv j hj0 hji (by omega) (by omega)
            rwa [hjp] at this)
        refine ⟨a', e, hh, hpm.trans (toL_move n a h ch item (by omega) (by omega) (by omega)),
          hpm'.trans (toL_move i a h ch item (by omega) (by omega) (by omega)), ?_⟩
        intro k hk
        rw [ho k hk, Function.update_of_ne (by omega)]

theorem heap_max (key : α → κ) (i : Nat) (a : Nat → α) (h : Heap key i a) : ∀ j, j < i → key (a j) ≤ key (a 0) := by
  intro j
  induction j using Nat.strong_induction_on with
  | _ j ih =>
    intro hj
    by_cases h0 : j = 0
    · rw [h0]
    · exact le_trans (h j (by omega) hj) (ih ((j - 1) / 2) (by omega) (by omega))

/-- sorted suffix `[i,n)`, everything before is below -/
def Tail (key : α → κ) (n i : Nat) (a : Nat → α) : Prop :=
  (∀ x y, i ≤ x → x ≤ y → y < n → key (a x) ≤ key (a y)) ∧ (∀ x y, x < i → i ≤ y → y < n → key (a x) ≤ key (a y))

theorem mem_toL {n : Nat} {a : Nat → α} {x : α} : x ∈ toL n a ↔ ∃ k, k < n ∧ a k = x := by
  simp [toL]

theorem extract_spec (key : α → κ) (n : Nat) : ∀ (i : Nat) (a : Nat → α), i < n → Heap key (i + 1) a →
    Tail key n (i + 1) a →
    ∃ a', extract key n i a = some a' ∧ (toL n a').Perm (toL n a) ∧
      (∀ x y, x ≤ y → y < n → key (a' x) ≤ key (a' y))
  | 0, a, _, hh, ht => by
    refine ⟨a, rfl, List.Perm.refl _, ?_⟩
    intro x y hxy hy
    by_cases hx : x = 0
    · by_cases hy0 : y = 0
      · rw [hx, hy0]
      · exact ht.2 x y (by omega) (by omega) hy
    · exact ht.1 x y (by omega) hxy hy
  | i + 1, a, hin, hh, ht => by
    rw [extract, extractStep]
    simp only [rdA_lt hin, rdA_lt (show 0 < n by omega), wrA_lt hin, Option.bind_eq_bind, Option.bind_some]
    set a1 := Function.update a (i + 1) (a 0) with ha1
    have a1lt : ∀ k, k < i + 1 → a1 k = a k := by intro k hk; rw [ha1, Function.update_of_ne (by omega)]
    obtain ⟨a2, e2, hh2, hp2, hp2', ho2⟩ := siftDown_spec key n (i + 1) (a (i + 1)) hin (i + 1) 0 a1 (by omega)
      (by omega) (by
        intro j h0 h1 h2 h3
        rw [a1lt j h1, a1lt _ (by omega)]
        exact hh j h0 (by omega)) (by intro h; omega)
    simp only [e2, Option.bind_some]
    have hpa : (toL n a2).Perm (toL n a) := by
      refine hp2.trans ?_
      have := toL_move n a (i + 1) 0 (a (i + 1)) hin (by omega) (by omega)
      rw [← ha1, Function.update_eq_self] at this
      exact this
    have hmem : ∀ x, x < i + 1 → ∃ y, y < i + 2 ∧ a2 x = a y := by
      intro x hx
      have : a2 x ∈ toL (i + 1) (Function.update a1 0 (a (i + 1))) := hp2'.mem_iff.1 (mem_toL.2 ⟨x, hx, rfl⟩)
      obtain ⟨k, hk, e⟩ := mem_toL.1 this
      by_cases hk0 : k = 0
      · subst hk0; rw [Function.update_self] at e; exact ⟨i + 1, by omega, e.symm⟩
      · rw [Function.update_of_ne hk0, a1lt k hk] at e; exact ⟨k, by omega, e.symm⟩
    have hmaxi := heap_max key (i + 2) a hh
    have hv1 : a2 (i + 1) = a 0 := by rw [ho2 _ (le_refl _), ha1, Function.update_self]
    have hv2 : ∀ k, i + 2 ≤ k → a2 k = a k := by
      intro k hk; rw [ho2 k (by omega), ha1, Function.update_of_ne (by omega)]
    have hT : Tail key n (i + 1) a2 := by
      constructor
      · intro x y hx hxy hy
        by_cases ex : x = i + 1
        · subst ex
          rw [hv1]
          by_cases ey : y = i + 1
          · subst ey; rw [hv1]
          · rw [hv2 y (by omega)]; exact ht.2 0 y (by omega) (by omega) hy
        · rw [hv2 x (by omega), hv2 y (by omega)]
          exact ht.1 x y (by omega) hxy hy
      · intro x y hx hy hyn
        obtain ⟨k, hk, ek⟩ := hmem x hx
        rw [ek]
        by_cases ey : y = i + 1
        · subst ey; rw [hv1]; exact hmaxi k hk
        · rw [hv2 y (by omega)]; exact ht.2 k y (by omega) (by omega) hyn
    obtain ⟨a3, e3, hp3, hs3⟩ := extract_spec key n i a2 (by omega) hh2 hT
    exact ⟨a3, e3, hp3.trans hpa, hs3⟩

theorem heapSortv_spec (key : α → κ) (n : Nat) (a : Nat → α) (hn : 0 < n) :
    ∃ a', heapSortv key n a = some a' ∧ (toL n a').Perm (toL n a) ∧
      (toL n a').Pairwise (fun x y => key x ≤ key y) := by
  unfold heapSortv
  rw [if_neg (by omega)]
  obtain ⟨a1, e1, hh1, hp1⟩ := build_spec key n (n - 1) 1 a (by omega) (by omega) (by intro j h0 h1; omega)
  obtain ⟨a2, e2, hp2, hs2⟩ := extract_spec key n (n - 1) a1 (by omega)
    (by rwa [show n - 1 + 1 = n by omega])
    ⟨by intro x y hx hxy hy; omega, by intro x y hx hy hyn; omega⟩
  refine ⟨a2, ?_, hp2.trans hp1, ?_⟩
  · rw [e1]; exact e2
  · unfold toL
    rw [List.pairwise_map]
    apply List.Pairwise.imp_of_mem (R := fun x y => x < y) _ (List.pairwise_lt_range (n := n))
    intro x y hx hy hlt
    exact hs2 x y (le_of_lt hlt) (List.mem_range.1 hy)

end Gslib.HeapSort
