import Verif.Props.SarraySort
import Mathlib.Data.List.Sort

/-! # Uniqueness of stable lexicographic sorts -/

namespace Gslib.Sarray
open Gslib Gslib.Spec Gslib.Sorting

variable {ρ : Type}

/-- all keys agree -/
def AllSame (ks : List (Key ρ Nat)) (a b : ρ) : Prop := ∀ k ∈ ks, k.Same a b

theorem lexLe_antisymm : ∀ (ks : List (Key ρ Nat)) (a b : ρ), LexLe ks a b → LexLe ks b a → AllSame ks a b
  | [], _, _, _, _ => by intro k hk; simp at hk
  | k :: ks, a, b, h1, h2 => by
    have hlt : ∀ (k : Key ρ Nat) (a b : ρ), k.Lt a b → ¬ k.Lt b a ∧ ¬ k.Same b a ∧ ¬ k.Same a b := by
      intro k a b h
      cases k <;> simp only [Key.Lt, Key.Same] at * <;> omega
    have hs : ∀ (k : Key ρ Nat) (a b : ρ), k.Same a b → k.Same b a := by
      intro k a b h
      cases k <;> exact h.symm
    rcases h1 with h1 | ⟨h1, h1'⟩
    · rcases h2 with h2 | ⟨h2, _⟩
      · exact absurd h2 (hlt k a b h1).1
      · exact absurd h2 (hlt k a b h1).2.1
    · rcases h2 with h2 | ⟨_, h2'⟩
      · exact absurd h1 (hlt k b a h2).2.1
      · have ih := lexLe_antisymm ks a b h1' h2'
        intro k' hk'
        rcases List.mem_cons.1 hk' with rfl | hk'
        · exact h1
        · exact ih k' hk'

theorem pairwise_of_filter {R : ρ → ρ → Prop} (same : ρ → ρ → Prop) [∀ a b, Decidable (same a b)] (hrefl : ∀ a, same a a) :
    ∀ (l : List ρ), (∀ r ∈ l, (l.filter fun b => same r b).Pairwise R) → l.Pairwise fun a b => same a b → R a b
  | [], _ => List.Pairwise.nil
  | a :: l, h => by
    rw [List.pairwise_cons]
    constructor
    · intro b hb hs
      have := h a (by simp)
      rw [List.filter_cons_of_pos (by simpa using hrefl a), List.pairwise_cons] at this
      exact this.1 b (List.mem_filter.2 ⟨hb, by simpa using hs⟩)
    · apply pairwise_of_filter same hrefl l
      intro r hr
      exact (h r (by simp [hr])).sublist ((List.sublist_cons_self a l).filter _)

/-- the output of a stable sort is ordered by the keys, then by the input order -/
theorem lexSort_pairwise {ks : List (Key ρ Nat)} {rows out : List ρ} (h : IsLexSort ks rows out) {R : ρ → ρ → Prop}
    (hR : rows.Pairwise R) : out.Pairwise fun a b => LexLe ks a b ∧ (AllSame ks a b → R a b) := by
  classical
  have : out.Pairwise fun a b => AllSame ks a b → R a b := by
    apply pairwise_of_filter (AllSame ks)
    · intro a k _; cases k <;> rfl
    · intro r _
      rw [h.stable (fun b => decide (AllSame ks r b)) r (fun a => by rw [decide_eq_true_iff]; rfl)]
      exact hR.sublist List.filter_sublist
  exact h.sorted.and this

/-- a stable sort with a known result -/
theorem lexSort_eq {ks : List (Key ρ Nat)} {rows out target : List ρ} (h : IsLexSort ks rows out) {R : ρ → ρ → Prop}
    (has : ∀ a b, R a b → ¬ R b a) (hR : rows.Pairwise R) (hp : target.Perm rows)
    (ht : target.Pairwise fun a b => LexLe ks a b ∧ (AllSame ks a b → R a b)) : out = target := by
  refine List.Perm.eq_of_pairwise ?_ (lexSort_pairwise h hR) ht (h.perm.trans hp.symm)
  intro a b _ _ h1 h2
  have e := lexLe_antisymm ks a b h1.1 h2.1
  have e' := lexLe_antisymm ks b a h2.1 h1.1
  exact absurd (h2.2 e') (has a b (h1.2 e))

/-- a sort by keys that determine the row -/
theorem lexSort_eq_of_inj {ks : List (Key ρ Nat)} {rows out target : List ρ} (h : IsLexSort ks rows out)
    (hinj : ∀ a ∈ rows, ∀ b ∈ rows, AllSame ks a b → a = b) (hp : target.Perm rows)
    (ht : target.Pairwise (LexLe ks)) : out = target := by
  refine List.Perm.eq_of_pairwise ?_ h.sorted ht (h.perm.trans hp.symm)
  intro a b ha hb h1 h2
  exact hinj a (h.perm.subset ha) b (hp.subset hb) (lexLe_antisymm ks a b h1 h2)

theorem sarraySort_eq {fs : List (Field ρ Nat)} {rows target : List ρ} {s : ScratchF Nat} (hf : ∀ f ∈ fs, f.Fits rows)
    {R : ρ → ρ → Prop} (has : ∀ a b, R a b → ¬ R b a) (hR : rows.Pairwise R) (hp : target.Perm rows)
    (ht : target.Pairwise fun a b => LexLe (fs.map Field.key) a b ∧ (AllSame (fs.map Field.key) a b → R a b)) :
    sarraySort fs rows s = .ok target := by
  obtain ⟨out, e, h⟩ := Props.sarray_sort_lexicographic fs rows s hf
  rw [e, lexSort_eq h has hR hp ht]

theorem sarraySort_eq_of_inj {fs : List (Field ρ Nat)} {rows target : List ρ} {s : ScratchF Nat} (hf : ∀ f ∈ fs, f.Fits rows)
    (hinj : ∀ a ∈ rows, ∀ b ∈ rows, AllSame (fs.map Field.key) a b → a = b) (hp : target.Perm rows)
    (ht : target.Pairwise (LexLe (fs.map Field.key))) : sarraySort fs rows s = .ok target := by
  obtain ⟨out, e, h⟩ := Props.sarray_sort_lexicographic fs rows s hf
  rw [e, lexSort_eq_of_inj h hinj hp ht]

end Gslib.Sarray
