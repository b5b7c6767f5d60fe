import Verif.Model.Hash
import Verif.Lemmas.NumMem
import Mathlib.Data.List.Basic
import Mathlib.Algebra.BigOperators.Group.Finset.Basic

/-!
# The counting sort of `hash_build`: for any sequence of (cell, value) visits
-/

namespace Gslib.Hash
open Gslib.Num

theorem forList_inv {A S : Type} (f : A → S → Option S) (I : List A → S → Prop) (l : List A) :
    ∀ (r p : List A) (s : S), l = p ++ r → I p s →
      (∀ p a r s, l = p ++ a :: r → I p s → ∃ s', f a s = some s' ∧ I (p ++ [a]) s') →
      ∃ s', forList f r s = some s' ∧ I l s'
  | [], p, s, h, hi, _ => ⟨s, rfl, by rw [h, List.append_nil]; exact hi⟩
  | a :: r, p, s, h, hi, hs => by
      obtain ⟨s1, e1, h1⟩ := hs p a r s h hi
      obtain ⟨s2, e2, h2⟩ := forList_inv f I l r (p ++ [a]) s1 (by simp [h]) h1 hs
      exact ⟨s2, by rw [forList, e1]; exact e2, h2⟩

/-- the values visited at cell `c`, in order -/
def vals (ev : List (Nat × Nat)) (c : Nat) : List Nat := (ev.filter (fun e => e.1 = c)).map Prod.snd

theorem vals_snoc (p : List (Nat × Nat)) (a : Nat × Nat) (c : Nat) :
    vals (p ++ [a]) c = if a.1 = c then vals p c ++ [a.2] else vals p c := by
  unfold vals
  rw [List.filter_append, List.map_append]
  by_cases h : a.1 = c <;> simp [h]

theorem vals_append (p q : List (Nat × Nat)) (c : Nat) : vals (p ++ q) c = vals p c ++ vals q c := by
  unfold vals; rw [List.filter_append, List.map_append]

/-- start of bucket `i` -/
def pos (hnd : Nat) (ev : List (Nat × Nat)) : Nat → Nat
  | 0 => hnd + 1
  | i + 1 => pos hnd ev i + (vals ev i).length

theorem pos_mono (hnd : Nat) (ev : List (Nat × Nat)) {a b : Nat} (h : a ≤ b) : pos hnd ev a ≤ pos hnd ev b := by
  induction b with
  | zero => simp [show a = 0 by omega]
  | succ b ih =>
    by_cases hb : a = b + 1
    · rw [hb]
    · have := ih (by omega); rw [pos]; omega

theorem pos_total (hnd : Nat) (ev : List (Nat × Nat)) : (∀ e ∈ ev, e.1 < hnd) → pos hnd ev hnd = hnd + 1 + ev.length := by
  have key : ∀ n, pos hnd ev n = hnd + 1 + (ev.filter (fun e => e.1 < n)).length := by
    intro n
    induction n with
    | zero => simp [pos]
    | succ n ih =>
      rw [pos, ih, vals, List.length_map]
      have : ∀ l : List (Nat × Nat), (l.filter (fun e => e.1 < n + 1)).length
          = (l.filter (fun e => e.1 < n)).length + (l.filter (fun e => e.1 = n)).length := by
        intro l
        induction l with
        | nil => rfl
        | cons a l ih =>
          by_cases h1 : a.1 < n
          · have h2 : ¬ a.1 = n := by omega
            have h3 : a.1 < n + 1 := by omega
            simp [h1, h2, h3] at ih ⊢; omega
          · by_cases h2 : a.1 = n
            · simp [h2] at ih ⊢; omega
            · have h3 : ¬ a.1 < n + 1 := by omega
              simp [h1, h2, h3] at ih ⊢; omega
      rw [this ev]; omega
  intro h
  rw [key, List.filter_eq_self.2 (by simpa using h)]

theorem countAll_run (hnd : Nat) (ev : List (Nat × Nat)) (hev : ∀ e ∈ ev, e.1 < hnd) :
    ∃ m, countAll hnd ev (fun i => if i < hnd then some 0 else none) = some m ∧ Has m 0 hnd (fun c => (vals ev c).length) := by
  refine forList_inv _ (fun p (m : Mem Nat) => Has m 0 hnd (fun c => (vals p c).length)) ev ev [] _ rfl ?_ ?_
  · intro i hi; simp [hi, vals]
  · intro p a r m h hm
    have ha : a.1 < hnd := hev a (by simp [h])
    have hr := hm.rd a.1 ha (cap := hnd) (by omega)
    rw [Nat.zero_add] at hr
    refine ⟨_, by rw [hr]; exact wr_some ha, ?_⟩
    intro i hi
    show (if 0 + i = a.1 then _ else _) = _
    beta_reduce
    rw [vals_snoc]
    by_cases h' : a.1 = i
    · rw [if_pos (by omega), if_pos h']; simp [h']
    · rw [if_neg (by omega), if_neg h', hm i hi]

theorem offsets_run (size hnd : Nat) (ev : List (Nat × Nat)) (hpos : 0 < hnd) (hs : hnd < size) (count off : Mem Nat)
    (hc : Has count 0 hnd (fun c => (vals ev c).length)) :
    ∃ o sum mx, offsets size hnd count off = some (o, sum, mx) ∧ Has o 0 (hnd + 1) (pos hnd ev) ∧
      (∀ c < hnd, (vals ev c).length ≤ mx) ∧ ∃ c < hnd, mx = (vals ev c).length := by
  have h0 := hc.rd 0 hpos (cap := hnd) (by omega)
  rw [Nat.zero_add] at h0
  unfold offsets
  rw [h0, Option.bind_some, wr_some (by omega), Option.bind_some]
  obtain ⟨s, e, h⟩ := forUp_inv (fun i (s : Mem Nat × Nat × Nat) => Has s.1 0 (i + 1) (pos hnd ev) ∧ s.2.1 = pos hnd ev i ∧
      (∀ c < i, (vals ev c).length ≤ s.2.2) ∧ ∃ c < hnd, s.2.2 = (vals ev c).length)
    (fun i (s : Mem Nat × Nat × Nat) => (rd hnd count i).bind fun c =>
    (wr size s.1 (i + 1) (s.2.1 + c)).map fun o => (o, s.2.1 + c, if c > s.2.2 then c else s.2.2)) hnd 0
    ((fun k => if k = 0 then some (hnd + 1) else off k), hnd + 1, (vals ev 0).length)
    ⟨fun i hi => by
      have : i = 0 := by omega
      subst this; simp [pos], rfl, fun c hc => by omega, 0, hpos, rfl⟩ (by
      intro i _ hi s ⟨h1, h2, h3, c0, hc0, h4⟩
      have hr := hc.rd i (by omega) (cap := hnd) (by omega)
      rw [Nat.zero_add] at hr
      refine ⟨_, by rw [hr, Option.bind_some, wr_some (by omega), Option.map_some], ?_, ?_, ?_, ?_⟩
      · intro j hj
        show (if 0 + j = i + 1 then _ else _) = _
        by_cases hji : j = i + 1
        · rw [if_pos (by omega), hji, pos, h2]
        · rw [if_neg (by omega), h1 j (by omega)]
      · show s.2.1 + _ = _
        rw [h2, pos]
      · intro c hc
        dsimp only
        by_cases hci : c = i
        · subst hci; split <;> omega
        · have := h3 c (by omega); split <;> omega
      · dsimp only
        split
        · exact ⟨i, by omega, rfl⟩
        · exact ⟨c0, hc0, h4⟩)
  rw [Nat.zero_add] at h
  exact ⟨s.1, s.2.1, s.2.2, e, h.1, h.2.2.1, h.2.2.2⟩

theorem fillAll_run (size hnd : Nat) (ev : List (Nat × Nat)) (hev : ∀ e ∈ ev, e.1 < hnd) (hs : hnd + 1 + ev.length ≤ size)
    (count off : Mem Nat) (hc : Has count 0 hnd (fun c => (vals ev c).length)) (ho : Has off 0 (hnd + 1) (pos hnd ev)) :
    ∃ o cnt, fillAll size hnd ev (off, count) = some (o, cnt) ∧ Has o 0 (hnd + 1) (pos hnd ev) ∧
      ∀ c < hnd, ∀ k, (h : k < (vals ev c).length) → o (pos hnd ev c + k) = some (vals ev c)[k] := by
  obtain ⟨s, e, h⟩ := forList_inv (fun e (s : Mem Nat × Mem Nat) => (rd size s.1 (e.1 + 1)).bind fun o => (rd hnd s.2 e.1).bind fun c =>
    (wr size s.1 (o - c) e.2).bind fun off => (wr hnd s.2 e.1 (c - 1)).map fun cnt => (off, cnt))
    (fun p (s : Mem Nat × Mem Nat) => Has s.1 0 (hnd + 1) (pos hnd ev) ∧
      Has s.2 0 hnd (fun c => (vals ev c).length - (vals p c).length) ∧
      ∀ c < hnd, ∀ k, (h : k < (vals p c).length) → s.1 (pos hnd ev c + k) = some (vals p c)[k]) ev ev [] (off, count) rfl
    ⟨ho, by simpa [vals] using hc, fun c _ k hk => by simp [vals] at hk⟩ (by
      intro p a r s hp ⟨h1, h2, h3⟩
      have ha : a.1 < hnd := hev a (by simp [hp])
      have hlen : (vals ev a.1).length = (vals p a.1).length + (vals r a.1).length + 1 := by
        rw [hp, show p ++ a :: r = p ++ [a] ++ r by simp, vals_append, vals_snoc, if_pos rfl]; simp; omega
      have hple : ∀ c, (vals p c).length ≤ (vals ev c).length := by
        intro c; rw [hp, vals_append]; simp
      have hr1 := h1.rd (a.1 + 1) (by omega) (cap := size) (by omega)
      have hr2 := h2.rd a.1 ha (cap := hnd) (by omega)
      rw [Nat.zero_add] at hr1 hr2
      have hposlt : pos hnd ev (a.1 + 1) - ((vals ev a.1).length - (vals p a.1).length) = pos hnd ev a.1 + (vals p a.1).length := by
        rw [pos]; omega
      have hlo : hnd + 1 ≤ pos hnd ev a.1 := pos_mono hnd ev (Nat.zero_le _)
      have hhi : pos hnd ev (a.1 + 1) ≤ size := by
        have := pos_mono hnd ev (show a.1 + 1 ≤ hnd by omega)
        rw [pos_total hnd ev hev] at this; omega
      rw [pos] at hhi
      refine ⟨_, by rw [hr1, Option.bind_some, hr2, Option.bind_some, hposlt, wr_some (by omega), Option.bind_some, wr_some ha,
        Option.map_some], ?_, ?_, ?_⟩
      · intro i hi
        show (if 0 + i = _ then _ else _) = _
        rw [if_neg (by omega), h1 i hi]
      · intro i hi
        show (if 0 + i = a.1 then _ else _) = _
        beta_reduce
        rw [vals_snoc]
        by_cases h' : a.1 = i
        · rw [if_pos (by omega), if_pos h']; subst h'; simp; omega
        · rw [if_neg (by omega), if_neg h', h2 i hi]
      · intro c hcl k hk
        show (if _ = _ then _ else _) = _
        by_cases h' : a.1 = c
        · subst h'
          have e2 : vals (p ++ [a]) a.1 = vals p a.1 ++ [a.2] := by rw [vals_snoc, if_pos rfl]
          have hk' := hk
          rw [e2] at hk'; simp at hk'
          by_cases hkk : k = (vals p a.1).length
          · rw [if_pos (by omega)]; simp [e2, hkk]
          · rw [if_neg (by omega), h3 a.1 hcl k (by omega)]
            simp only [e2]; rw [List.getElem_append_left]
        · have e2 : vals (p ++ [a]) c = vals p c := by rw [vals_snoc, if_neg h']
          have hk' := hk
          rw [e2] at hk'
          have := hple c
          have hne : ¬ pos hnd ev c + k = pos hnd ev a.1 + (vals p a.1).length := by
            rcases Nat.lt_or_gt_of_ne h' with h'' | h''
            · have := pos_mono hnd ev (show a.1 + 1 ≤ c by omega)
              rw [pos] at this; omega
            · have := pos_mono hnd ev (show c + 1 ≤ a.1 by omega)
              rw [pos] at this; omega
          rw [if_neg hne, h3 c hcl k hk']
          simp only [e2])
  exact ⟨s.1, s.2, e, h.1, h.2.2⟩

end Gslib.Hash
