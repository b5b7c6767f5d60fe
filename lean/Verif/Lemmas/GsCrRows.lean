import Verif.Lemmas.LexSort
import Verif.Lemmas.GsMaps
import Verif.Model.GsCr

/-! # Labels and maps of the crystal-router set-up -/

namespace Gslib.Gs
open Gslib Gslib.Sarray Gslib.Spec Gslib.Props

/-! ### maps -/

/-- a map entry: destination, first source, other sources -/
abbrev CrGroup := Nat × Nat × List Nat

/-- the groups of sorted rows -/
def crGroups : List CrlId → List CrGroup
  | [] => []
  | w :: rest => (w.bi, w.si, otherSi w.si (rest.takeWhile fun o => o.bi = w.bi)) :: crGroups (rest.dropWhile fun o => o.bi = w.bi)
  termination_by rows => rows.length
  decreasing_by
    have := (List.dropWhile_suffix (l := rest) (fun o : CrlId => decide (o.bi = w.bi))).length_le; simp only [List.length_cons]; omega

theorem crlScatter_eq (rows : List CrlId) : crlScatter rows = encGroups ((crGroups rows).map fun g => (g.2.1, [g.1])) := by
  fun_induction crlScatter rows with
  | case1 => rw [crGroups]; rfl
  | case2 w rest ih =>
    rw [crGroups, List.map_cons, ih]
    simp [encGroups]

theorem crlGather_eq (rows : List CrlId) : crlGather rows = encGroups (((crGroups rows).filter fun g => g.2.2 ≠ []).map fun g => (g.1, g.2.2)) := by
  fun_induction crlGather rows with
  | case1 => rw [crGroups]; rfl
  | case2 w rest ih =>
    rw [crGroups, List.filter_cons, ih]
    split
    · rename_i h
      rw [if_pos (by simpa using h), List.map_cons]
      simp [encGroups]
    · rename_i h
      rw [if_neg (by simpa using h)]
      rfl

/-- order by `bi`, then `si` -/
def BsLe (x y : CrlId) : Prop := x.bi < y.bi ∨ (x.bi = y.bi ∧ x.si ≤ y.si)

theorem otherSi_spec : ∀ (l : List CrlId) (s : Nat), (∀ w ∈ l, s ≤ w.si) → l.Pairwise (fun x y => x.si ≤ y.si) →
    (s :: otherSi s l).Pairwise (· < ·) ∧ ∀ x, x ∈ s :: otherSi s l ↔ x = s ∨ ∃ w ∈ l, w.si = x
  | [], s, _, _ => by simp [otherSi]
  | o :: l, s, h, hp => by
    rw [List.pairwise_cons] at hp
    have ho := h o (by simp)
    rw [otherSi]
    split
    · rename_i hne
      obtain ⟨i1, i2⟩ := otherSi_spec l o.si (fun w hw => hp.1 w hw) hp.2
      constructor
      · rw [List.pairwise_cons]
        refine ⟨?_, i1⟩
        intro x hx
        rcases (i2 x).1 hx with rfl | ⟨w, hw, rfl⟩
        · omega
        · have := hp.1 w hw; omega
      · intro x
        rw [List.mem_cons, i2 x]
        simp only [List.mem_cons, exists_eq_or_imp]
        tauto
    · rename_i he
      have he : o.si = s := by simpa using he
      obtain ⟨i1, i2⟩ := otherSi_spec l s (fun w hw => h w (by simp [hw])) hp.2
      refine ⟨i1, fun x => ?_⟩
      rw [i2 x]
      simp only [List.mem_cons, exists_eq_or_imp]
      rw [he]
      tauto

/-- what the maps of a stage do -/
structure MapsOk (rows : List CrlId) (gl : List CrGroup) : Prop where
  nodup : (gl.map (·.1)).Nodup
  slots : ∀ g ∈ gl, (g.2.1 :: g.2.2).Nodup ∧ ∀ x, x ∈ g.2.1 :: g.2.2 ↔ ∃ w ∈ rows, w.bi = g.1 ∧ w.si = x
  cover : ∀ w ∈ rows, ∃ g ∈ gl, g.1 = w.bi

theorem takeWhile_sorted {l : List CrlId} {b : Nat} (h : ∀ w ∈ l, b ≤ w.bi) (hs : l.Pairwise BsLe) :
    (∀ w, w ∈ l.takeWhile (fun o => o.bi = b) ↔ w ∈ l ∧ w.bi = b) ∧ (∀ w, w ∈ l.dropWhile (fun o => o.bi = b) ↔ w ∈ l ∧ b < w.bi) := by
  induction l with
  | nil => simp
  | cons o l ih =>
    rw [List.pairwise_cons] at hs
    obtain ⟨i1, i2⟩ := ih (fun w hw => h w (by simp [hw])) hs.2
    have ho := h o (by simp)
    by_cases e : o.bi = b
    · rw [List.takeWhile_cons_of_pos (by simpa using e), List.dropWhile_cons_of_pos (by simpa using e)]
      constructor
      · intro w
        rw [List.mem_cons, i1, List.mem_cons]
        constructor
        · rintro (rfl | h); exact ⟨Or.inl rfl, e⟩; exact ⟨Or.inr h.1, h.2⟩
        · rintro ⟨rfl | h, h'⟩; exact Or.inl rfl; exact Or.inr ⟨h, h'⟩
      · intro w
        rw [i2, List.mem_cons]
        constructor
        · rintro ⟨h1, h2⟩; exact ⟨Or.inr h1, h2⟩
        · rintro ⟨rfl | h1, h2⟩
          · omega
          · exact ⟨h1, h2⟩
    · rw [List.takeWhile_cons_of_neg (by simpa using e), List.dropWhile_cons_of_neg (by simpa using e)]
      have hgt : ∀ w ∈ o :: l, b < w.bi := by
        intro w hw
        rcases List.mem_cons.1 hw with rfl | hw
        · omega
        · rcases hs.1 w hw with h | h <;> omega
      constructor
      · intro w
        constructor
        · intro h; simp at h
        · rintro ⟨h1, h2⟩; have := hgt w h1; omega
      · intro w
        exact ⟨fun h => ⟨h, hgt w h⟩, fun h => h.1⟩

theorem crGroups_ok : ∀ (n : Nat) (rows : List CrlId), rows.length ≤ n → rows.Pairwise BsLe → MapsOk rows (crGroups rows) ∧ ∀ g ∈ crGroups rows, ∃ w ∈ rows, w.bi = g.1
  | _, [], _, _ => by
    rw [crGroups]
    exact ⟨⟨List.Pairwise.nil, by simp, by simp⟩, by simp⟩
  | 0, w :: rest, h, _ => by simp at h
  | n + 1, w :: rest, h, hs => by
    have hs0 := hs
    rw [List.pairwise_cons] at hs
    have hge : ∀ x ∈ rest, w.bi ≤ x.bi := by
      intro x hx
      rcases hs.1 x hx with h | h <;> omega
    obtain ⟨ht, hd⟩ := takeWhile_sorted hge hs.2
    have hl := (List.dropWhile_suffix (l := rest) (fun o : CrlId => decide (o.bi = w.bi))).length_le
    obtain ⟨⟨i1, i2, i3⟩, i4⟩ := crGroups_ok n (rest.dropWhile fun o => o.bi = w.bi) (by simp only [List.length_cons] at h; omega)
      (hs.2.sublist (List.dropWhile_suffix _).sublist)
    obtain ⟨o1, o2⟩ := otherSi_spec (rest.takeWhile fun o => o.bi = w.bi) w.si (by
      intro x hx
      have hx := (ht x).1 hx
      rcases hs.1 x hx.1 with h | h <;> omega) (by
      refine (List.Pairwise.and_mem.1 (hs.2.sublist (List.takeWhile_prefix _).sublist)).imp ?_
      rintro a b ⟨ha, hb, hab⟩
      have ha := (ht a).1 ha
      have hb := (ht b).1 hb
      rcases hab with h | h <;> omega)
    rw [crGroups]
    refine ⟨⟨?_, ?_, ?_⟩, ?_⟩
    · rw [List.map_cons, List.nodup_cons]
      refine ⟨?_, i1⟩
      intro hm
      obtain ⟨g, hg, e⟩ := List.mem_map.1 hm
      obtain ⟨x, hx, e'⟩ := i4 g hg
      have := (hd x).1 hx
      omega
    · intro g hg
      rcases List.mem_cons.1 hg with rfl | hg
      · refine ⟨o1.imp Nat.ne_of_lt, fun x => ?_⟩
        rw [o2 x]
        constructor
        · rintro (rfl | ⟨y, hy, rfl⟩)
          · exact ⟨w, by simp, rfl, rfl⟩
          · have := (ht y).1 hy
            exact ⟨y, by simp [this.1], this.2, rfl⟩
        · rintro ⟨y, hy, h1, rfl⟩
          rcases List.mem_cons.1 hy with rfl | hy
          · exact Or.inl rfl
          · exact Or.inr ⟨y, (ht y).2 ⟨hy, h1⟩, rfl⟩
      · obtain ⟨j1, j2⟩ := i2 g hg
        refine ⟨j1, fun x => ?_⟩
        rw [j2 x]
        obtain ⟨z, hz, ez⟩ := i4 g hg
        have hz := (hd z).1 hz
        constructor
        · rintro ⟨y, hy, h1, rfl⟩
          exact ⟨y, by simp [((hd y).1 hy).1], h1, rfl⟩
        · rintro ⟨y, hy, h1, rfl⟩
          rcases List.mem_cons.1 hy with rfl | hy
          · omega
          · exact ⟨y, (hd y).2 ⟨hy, by omega⟩, h1, rfl⟩
    · intro x hx
      rcases List.mem_cons.1 hx with rfl | hx
      · exact ⟨_, List.mem_cons_self, rfl⟩
      · by_cases e : x.bi = w.bi
        · exact ⟨_, List.mem_cons_self, e.symm⟩
        · have := hge x hx
          obtain ⟨g, hg, e'⟩ := i3 x ((hd x).2 ⟨hx, by omega⟩)
          exact ⟨g, List.mem_cons_of_mem _ hg, e'⟩
    · intro g hg
      rcases List.mem_cons.1 hg with rfl | hg
      · exact ⟨w, by simp, rfl⟩
      · obtain ⟨x, hx, e⟩ := i4 g hg
        exact ⟨x, by simp [((hd x).1 hx).1], e⟩

theorem crlMaps_spec (cw : List CrlId) (s : ScratchF Nat) (hb : ∀ w ∈ cw, w.bi < 4294967296) (hs : ∀ w ∈ cw, w.si < 4294967296) :
    ∃ out gl, crlMaps cw s = .ok (out, encGroups (gl.map fun g => (g.2.1, [g.1])), encGroups ((gl.filter fun g => g.2.2 ≠ []).map fun g => (g.1, g.2.2))) ∧
      out.Perm cw ∧ MapsOk cw gl ∧ ∀ g ∈ gl, ∃ w ∈ cw, w.bi = g.1 := by
  obtain ⟨out, e, h⟩ := sarray_sort_lexicographic (κ := Nat) [.int 4 CrlId.bi, .int 4 CrlId.si] cw s (by
    intro f hf
    simp only [List.mem_cons, List.not_mem_nil, or_false] at hf
    rcases hf with rfl | rfl
    · intro r hr; have := hb r hr; norm_num; omega
    · intro r hr; have := hs r hr; norm_num; omega)
  have hp : out.Pairwise BsLe := h.sorted.imp (by
    intro a b hab
    simp only [List.map_cons, List.map_nil, Field.key, LexLe, Key.Lt, Key.Same, and_true] at hab
    unfold BsLe
    omega)
  obtain ⟨⟨m1, m2, m3⟩, m4⟩ := crGroups_ok out.length out (le_refl _) hp
  refine ⟨out, crGroups out, ?_, h.perm, ⟨m1, ?_, ?_⟩, ?_⟩
  · unfold crlMaps
    rw [e]
    simp only [Outcome.bind]
    rw [crlScatter_eq, crlGather_eq]
  · intro g hg
    refine ⟨(m2 g hg).1, fun x => ?_⟩
    rw [(m2 g hg).2 x]
    constructor
    · rintro ⟨w, hw, r⟩; exact ⟨w, h.perm.mem_iff.1 hw, r⟩
    · rintro ⟨w, hw, r⟩; exact ⟨w, h.perm.mem_iff.2 hw, r⟩
  · intro w hw; exact m3 w (h.perm.mem_iff.2 hw)
  · intro g hg
    obtain ⟨w, hw, e⟩ := m4 g hg
    exact ⟨w, h.perm.mem_iff.1 hw, e⟩

end Gslib.Gs
