import Verif.Model.MergeSort
import Verif.Lemmas.StableSort
import Mathlib.Tactic.Linarith
import Mathlib.Data.List.Induction

namespace Gslib.MergeSort
open Gslib Gslib.Spec

variable {α κ : Type} [LinearOrder κ]

/-- buffer `b` holds `l` starting at position `p` -/
def Seg (m : Bufs Bool α) (b : Bool) (p : Nat) (l : List α) : Prop :=
  ∀ k, k < l.length → m b (p + k) = l[k]?

/-- `m'` agrees with `m` outside `[p, q)` of both buffers -/
def Same (m m' : Bufs Bool α) (p q : Nat) : Prop :=
  ∀ b k, k < p ∨ q ≤ k → m' b k = m b k

/-- `m'` agrees with `m` except in `[p,q)` of buffer `b` -/
def Same1 (m m' : Bufs Bool α) (b : Bool) (p q : Nat) : Prop :=
  ∀ b' k, (b' ≠ b ∨ k < p ∨ q ≤ k) → m' b' k = m b' k

theorem Seg.head {m : Bufs Bool α} {b p a l} (h : Seg m b p (a :: l)) : m b p = some a := by
  simpa using h 0 (by simp)

theorem Seg.tail {m : Bufs Bool α} {b p a l} (h : Seg m b p (a :: l)) : Seg m b (p + 1) l := by
  intro k hk
  have := h (k + 1) (by simpa using hk)
  simpa [Nat.add_assoc, Nat.add_comm, Nat.add_left_comm] using this

theorem Seg.cons {m : Bufs Bool α} {b p a l} (h0 : m b p = some a) (h : Seg m b (p + 1) l) :
    Seg m b p (a :: l) := by
  intro k hk
  cases k with
  | zero => simpa using h0
  | succ k =>
    have := h k (by simpa using hk)
    simpa [Nat.add_assoc, Nat.add_comm, Nat.add_left_comm] using this

theorem Seg.nil {m : Bufs Bool α} {b p} : Seg m b p [] := by intro k hk; simp at hk

theorem Seg.congr {m m' : Bufs Bool α} {b p l} (h : Seg m b p l)
    (e : ∀ k, p ≤ k → k < p + l.length → m' b k = m b k) : Seg m' b p l := by
  intro k hk
  rw [e (p + k) (by omega) (by omega)]
  exact h k hk

theorem wr_some {cap : Nat} {m : Bufs Bool α} {b k v} (h : k < cap) :
    wr cap m b k v = some (fun b' k' => if b' = b ∧ k' = k then some v else m b' k') := by
  simp [wr, h]

theorem copyTail_spec (cap : Nat) (b : Bool) : ∀ (la : List α) (fuel p ap ae : Nat) (m : Bufs Bool α),
    la ≠ [] → la.length ≤ fuel → ae = ap + la.length → p + la.length ≤ cap → ae ≤ cap →
    Seg m (!b) ap la →
    ∃ m', copyTail cap b ae fuel p ap m = some m' ∧ Seg m' b p la ∧ Same1 m m' b p (p + la.length)
  | [], _, _, _, _, _, h, _, _, _, _, _ => absurd rfl h
  | a :: la, 0, _, _, _, _, _, h, _, _, _, _ => by simp at h
  | a :: la, fuel + 1, p, ap, ae, m, _, hf, hae, hp, hcap, hs => by
    simp only [List.length_cons] at hf hae hp
    have hr : rd cap m (!b) ap = some a := by
      simp only [rd]; rw [if_pos (by omega)]; exact hs.head
    rw [copyTail]
    simp only [hr, Option.bind_eq_bind, Option.bind_some, wr_some (show p < cap by omega)]
    by_cases hl : la = []
    · subst hl
      rw [if_neg (by simp at hae; omega)]
      refine ⟨_, rfl, ?_, ?_⟩
      · exact Seg.cons (by simp) Seg.nil
      · intro b' k hk
        simp only [List.length_cons, List.length_nil] at hk
        have : ¬ (b' = b ∧ k = p) := by rintro ⟨rfl, rfl⟩; rcases hk with h | h | h <;> [exact h rfl; omega; omega]
        simp [this]
    · have hlen : 0 < la.length := List.length_pos_of_ne_nil hl
      rw [if_pos (by omega)]
      obtain ⟨m', e, hs', hsame⟩ := copyTail_spec cap b la fuel (p + 1) (ap + 1) ae
        (fun b' k' => if b' = b ∧ k' = p then some a else m b' k') hl (by omega) (by omega) (by omega)
        hcap (hs.tail.congr (by intro k _ _; simp))
      refine ⟨m', e, Seg.cons ?_ hs', ?_⟩
      · rw [hsame b p (Or.inr (Or.inl (by omega)))]; simp
      · intro b' k hk
        simp only [List.length_cons] at hk
        rw [hsame b' k (by rcases hk with h | h | h <;> [exact Or.inl h; (right; left; omega); (right; right; omega)])]
        have : ¬ (b' = b ∧ k = p) := by rintro ⟨rfl, rfl⟩; rcases hk with h | h | h <;> [exact h rfl; omega; omega]
        simp [this]

theorem mergeLoop_spec (key : α → κ) (cap : Nat) (b : Bool) :
    ∀ (fuel : Nat) (la lb : List α) (p ap bp ae be : Nat) (m : Bufs Bool α),
    la ≠ [] → lb ≠ [] → la.length + lb.length ≤ fuel → ae = ap + la.length → be = bp + lb.length →
    p + la.length = bp → be ≤ cap → ae ≤ cap →
    Seg m (!b) ap la → Seg m b bp lb →
    ∃ m', mergeLoop key cap b ae be fuel p ap bp m = some m' ∧ Seg m' b p (mergeL key la lb) ∧
      Same1 m m' b p be
  | 0, la, lb, _, _, _, _, _, _, h, _, hf, _, _, _, _, _, _, _ => by
    have := List.length_pos_of_ne_nil h; omega
  | fuel + 1, [], _, _, _, _, _, _, _, h, _, _, _, _, _, _, _, _, _ => absurd rfl h
  | fuel + 1, _ :: _, [], _, _, _, _, _, _, _, h, _, _, _, _, _, _, _, _ => absurd rfl h
  | fuel + 1, y :: la, x :: lb, p, ap, bp, ae, be, m, _, _, hf, hae, hbe, hp, hcb, hca, hsa, hsb => by
    simp only [List.length_cons] at hf hae hbe hp
    have hrx : rd cap m b bp = some x := by simp only [rd]; rw [if_pos (by omega)]; exact hsb.head
    have hry : rd cap m (!b) ap = some y := by simp only [rd]; rw [if_pos (by omega)]; exact hsa.head
    rw [mergeLoop]
    simp only [hrx, hry, Option.bind_eq_bind, Option.bind_some, wr_some (show p < cap by omega)]
    have hne : ∀ b' k, (b' ≠ b ∨ k < p ∨ be ≤ k) → ¬ (b' = b ∧ k = p) := by
      rintro b' k hk ⟨rfl, rfl⟩; rcases hk with h | h | h <;> [exact h rfl; omega; omega]
    by_cases hlt : key x < key y
    · rw [if_pos hlt, mergeL, if_pos hlt]
      by_cases hl : lb = []
      · subst hl
        simp only [List.length_nil] at hf hbe
        rw [if_neg (by omega)]
        obtain ⟨m', e, hs', hsame⟩ := copyTail_spec cap b (y :: la) fuel (p + 1) ap ae
          (fun b' k' => if b' = b ∧ k' = p then some x else m b' k') (by simp) (by simp; omega)
          (by simp; omega) (by simp; omega) hca (hsa.congr (by intro k _ _; simp))
        refine ⟨m', e, ?_, ?_⟩
        · have : mergeL key (y :: la) [] = y :: la := by rw [mergeL]; simp
          rw [this]
          refine Seg.cons ?_ hs'
          rw [hsame b p (Or.inr (Or.inl (by omega)))]; simp
        · intro b' k hk
          simp only [List.length_cons] at hsame
          rw [hsame b' k (by rcases hk with h | h | h <;> [exact Or.inl h; (right; left; omega); (right; right; omega)])]
          simp [hne b' k hk]
      · have hlen : 0 < lb.length := List.length_pos_of_ne_nil hl
        rw [if_pos (by omega)]
        obtain ⟨m', e, hs', hsame⟩ := mergeLoop_spec key cap b fuel (y :: la) lb (p + 1) ap (bp + 1) ae be
          (fun b' k' => if b' = b ∧ k' = p then some x else m b' k') (by simp) hl (by simp; omega)
          (by simp; omega) (by omega) (by simp; omega) hcb hca (hsa.congr (by intro k _ _; simp))
          (hsb.tail.congr (by intro k h1 h2; rw [if_neg]; rintro ⟨_, rfl⟩; omega))
        refine ⟨m', e, Seg.cons ?_ hs', ?_⟩
        · rw [hsame b p (Or.inr (Or.inl (by omega)))]; simp
        · intro b' k hk
          rw [hsame b' k (by rcases hk with h | h | h <;> [exact Or.inl h; (right; left; omega); (right; right; omega)])]
          simp [hne b' k hk]
    · rw [if_neg hlt, mergeL, if_neg hlt]
      by_cases hl : la = []
      · subst hl
        simp only [List.length_nil] at hf hae hp
        rw [if_pos (by omega)]
        refine ⟨_, rfl, ?_, ?_⟩
        · rw [mergeL]
          refine Seg.cons (by simp) ?_
          have : p + 1 = bp := by omega
          rw [this]
          exact hsb.congr (by intro k h1 h2; rw [if_neg]; rintro ⟨_, rfl⟩; omega)
        · intro b' k hk
          simp [hne b' k hk]
      · have hlen : 0 < la.length := List.length_pos_of_ne_nil hl
        rw [if_neg (by omega)]
        obtain ⟨m', e, hs', hsame⟩ := mergeLoop_spec key cap b fuel la (x :: lb) (p + 1) (ap + 1) bp ae be
          (fun b' k' => if b' = b ∧ k' = p then some y else m b' k') hl (by simp) (by simp; omega)
          (by omega) (by simp; omega) (by omega) hcb hca (hsa.tail.congr (by intro k _ _; simp))
          (hsb.congr (by intro k h1 h2; rw [if_neg]; rintro ⟨_, rfl⟩; omega))
        refine ⟨m', e, Seg.cons ?_ hs', ?_⟩
        · rw [hsame b p (Or.inr (Or.inl (by omega)))]; simp
        · intro b' k hk
          rw [hsame b' k (by rcases hk with h | h | h <;> [exact Or.inl h; (right; left; omega); (right; right; omega)])]
          simp [hne b' k hk]

theorem isStableSort_merge2 (key : α → κ) (v0 v1 : α) :
    IsStableSort key [v0, v1] [(merge2 key v0 v1).1, (merge2 key v0 v1).2] := by
  unfold merge2
  split
  · rename_i h
    refine ⟨List.Perm.swap _ _ _, by simp [le_of_lt h], ?_⟩
    intro k
    by_cases h1 : key v1 = k
    · have h0 : ¬ key v0 = k := by intro e; rw [e, h1] at h; exact lt_irrefl _ h
      simp [h1, h0]
    · simp [List.filter_cons, h1]
  · rename_i h
    exact ⟨List.Perm.refl _, by simp [not_lt.1 h], fun _ => rfl⟩

theorem mergeL_single2 (key : α → κ) (v0 v1 v2 : α) :
    mergeL key [(merge2 key v0 v1).1, (merge2 key v0 v1).2] [v2] =
     [(merge3 key v0 v1 v2).1, (merge3 key v0 v1 v2).2.1, (merge3 key v0 v1 v2).2.2] := by
  unfold merge2 merge3
  by_cases h10 : key v1 < key v0
  · by_cases h21 : key v2 < key v1
    · have : key v2 < key v0 := lt_trans h21 h10
      simp [mergeL, h10, h21]
    · by_cases h20 : key v2 < key v0 <;> simp [mergeL, h10, h21, h20]
  · by_cases h20 : key v2 < key v0
    · simp [mergeL, h10, h20]
    · by_cases h21 : key v2 < key v1 <;> simp [mergeL, h10, h20, h21]

theorem IsStableSort.single (key : α → κ) (a : α) : IsStableSort key [a] [a] :=
  ⟨List.Perm.refl _, by simp, fun _ => rfl⟩

theorem isStableSort_merge3 (key : α → κ) (v0 v1 v2 : α) :
    IsStableSort key [v0, v1, v2]
      [(merge3 key v0 v1 v2).1, (merge3 key v0 v1 v2).2.1, (merge3 key v0 v1 v2).2.2] := by
  have := (isStableSort_merge2 key v0 v1).merge (IsStableSort.single key v2)
  rw [mergeL_single2] at this
  exact this

theorem descend_le {s : St α} (h : s.n ≤ 3) : descend s = s := by
  rw [descend, if_neg (by omega)]

theorem descend_gt {s : St α} (h : 3 < s.n) : descend s =
    descend { s with odd := s.odd * 2 + s.n % 2, n := s.n / 2, c := s.c * 2, b := !s.b } := by
  rw [descend, if_pos h]

theorem bind_some' {β γ : Type} (o : Option β) (x : β) (f : β → Option γ) (h : o = some x) :
    o.bind f = f x := by subst h; rfl

/-- the state after the node described by `s` has been sorted into buffer memory `m` -/
def done (s : St α) (m : Bufs Bool α) : St α := { s with i := s.i + s.n, buf := m }

theorem node_spec (key : α → κ) (cap : Nat) (inp : List α) : ∀ (n : Nat) (s : St α), s.n = n → 2 ≤ n →
    1 ≤ s.c → 0 ≤ s.base → s.base + n ≤ cap → s.i + n ≤ inp.length →
    ∃ (k : Nat) (m : Bufs Bool α) (out : List α), k + 2 ≤ n ∧
      IsStableSort key ((inp.drop s.i).take n) out ∧ Seg m s.b s.base.toNat out ∧
      Same s.buf m s.base.toNat (s.base.toNat + n) ∧
      ∀ fuel, (process key cap inp (descend s)).bind (loop key cap inp (fuel + k)) =
        loop key cap inp fuel (done s m) := by
  intro n
  induction n using Nat.strong_induction_on with
  | _ n ih =>
  intro s hn h2 hc hb hcap hi
  by_cases h3 : n ≤ 3
  · -- leaf
    rw [descend_le (by omega)]
    have hb' : ¬ s.base < 0 := by omega
    have h0 : inp[s.i]? = some (inp[s.i]) := List.getElem?_eq_getElem (by omega)
    have h1 : inp[s.i + 1]? = some (inp[s.i + 1]) := List.getElem?_eq_getElem (by omega)
    by_cases hn2 : n = 2
    · subst hn2
      refine ⟨0, (fun b' k' => if b' = s.b ∧ k' = s.base.toNat + 1 then
          some (merge2 key inp[s.i] inp[s.i + 1]).2 else
          if b' = s.b ∧ k' = s.base.toNat then some (merge2 key inp[s.i] inp[s.i + 1]).1 else s.buf b' k'),
        [(merge2 key inp[s.i] inp[s.i + 1]).1, (merge2 key inp[s.i] inp[s.i + 1]).2],
        by omega, ?_, ?_, ?_, ?_⟩
      rotate_right
      · intro fuel
        simp only [process, hb', if_false, hn, if_true, h0, h1, Option.bind_eq_bind, Option.bind_some,
          wr_some (show s.base.toNat < cap by omega), wr_some (show s.base.toNat + 1 < cap by omega)]
        simp only [done, hn]
        rfl
      rotate_left 1
      · exact Seg.cons (by simp) (Seg.cons (by simp) Seg.nil)
      · intro b k hk
        have a1 : ¬ (b = s.b ∧ k = s.base.toNat + 1) := by rintro ⟨_, rfl⟩; omega
        have a2 : ¬ (b = s.b ∧ k = s.base.toNat) := by rintro ⟨_, rfl⟩; omega
        simp only [if_neg a1, if_neg a2]
      · have : (inp.drop s.i).take 2 = [inp[s.i], inp[s.i + 1]] := by
          rw [List.drop_eq_getElem_cons (by omega), List.drop_eq_getElem_cons (by omega)]; rfl
        rw [this]
        exact isStableSort_merge2 key _ _
    · have hn3 : n = 3 := by omega
      subst hn3
      have h2' : inp[s.i + 2]? = some (inp[s.i + 2]) := List.getElem?_eq_getElem (by omega)
      refine ⟨0, (fun b' k' => if b' = s.b ∧ k' = s.base.toNat + 2 then
          some (merge3 key inp[s.i] inp[s.i + 1] inp[s.i + 2]).2.2 else
          if b' = s.b ∧ k' = s.base.toNat + 1 then
          some (merge3 key inp[s.i] inp[s.i + 1] inp[s.i + 2]).2.1 else
          if b' = s.b ∧ k' = s.base.toNat then some (merge3 key inp[s.i] inp[s.i + 1] inp[s.i + 2]).1
          else s.buf b' k'),
        [(merge3 key inp[s.i] inp[s.i + 1] inp[s.i + 2]).1, (merge3 key inp[s.i] inp[s.i + 1] inp[s.i + 2]).2.1,
          (merge3 key inp[s.i] inp[s.i + 1] inp[s.i + 2]).2.2],
        by omega, ?_, ?_, ?_, ?_⟩
      rotate_right
      · intro fuel
        simp only [process, hb', if_false, hn, if_true, h0, h1, h2', Option.bind_eq_bind, Option.bind_some,
          wr_some (show s.base.toNat < cap by omega), wr_some (show s.base.toNat + 1 < cap by omega),
          wr_some (show s.base.toNat + 2 < cap by omega)]
        simp only [done, hn]
        rfl
      rotate_left 1
      · refine Seg.cons (by simp) (Seg.cons (by simp) (Seg.cons (by simp [Nat.add_assoc]) Seg.nil))
      · intro b k hk
        have a1 : ¬ (b = s.b ∧ k = s.base.toNat + 1) := by rintro ⟨_, rfl⟩; omega
        have a2 : ¬ (b = s.b ∧ k = s.base.toNat) := by rintro ⟨_, rfl⟩; omega
        have a3 : ¬ (b = s.b ∧ k = s.base.toNat + 2) := by rintro ⟨_, rfl⟩; omega
        simp only [if_neg a1, if_neg a2, if_neg a3]
      · have : (inp.drop s.i).take 3 = [inp[s.i], inp[s.i + 1], inp[s.i + 2]] := by
          rw [List.drop_eq_getElem_cons (by omega), List.drop_eq_getElem_cons (by omega),
            List.drop_eq_getElem_cons (by omega)]; rfl
        rw [this]
        exact isStableSort_merge3 key _ _ _
  · -- inner node
    have h4 : 3 < n := by omega
    set s1 : St α := { s with odd := s.odd * 2 + s.n % 2, n := s.n / 2, c := s.c * 2, b := !s.b } with hs1
    obtain ⟨k1, m1, o1, hk1, hst1, hseg1, hsame1, hrun1⟩ := ih (n / 2) (by omega) s1 (by simp [hs1, hn])
      (by omega) (by simp [hs1]; omega) (by simpa [hs1] using hb) (by simp only [hs1]; omega)
      (by simp only [hs1]; omega)
    -- the right child
    set d1 := done s1 m1 with hd1
    set s2 : St α := advance d1 with hs2
    have e2n : s2.n = (n + 1) / 2 := by simp only [hs2, advance, hd1, done, hs1, hn]; omega
    have e2b : s2.b = s.b := by simp [hs2, advance, hd1, done, hs1]
    have e2base : s2.base = s.base + ((n / 2 : Nat) : Int) := by simp [hs2, advance, hd1, done, hs1, hn]
    have e2i : s2.i = s.i + n / 2 := by simp [hs2, advance, hd1, done, hs1, hn]
    have e2c : s2.c = s.c * 2 + 1 := by simp [hs2, advance, hd1, done, hs1]
    have e2odd : s2.odd = s.odd * 2 + n % 2 := by simp [hs2, advance, hd1, done, hs1, hn]
    have e2buf : s2.buf = m1 := by simp [hs2, advance, hd1, done]
    obtain ⟨k2, m2, o2, hk2, hst2, hseg2, hsame2, hrun2⟩ := ih ((n + 1) / 2) (by omega) s2 e2n
      (by omega) (by omega) (by omega) (by omega) (by omega)
    set d2 := done s2 m2 with hd2
    have e3 : up d2 = { s with i := s.i + n, n := n, buf := m2 } := by
      have a1 : d2.base - ((d2.n : Int) - (d2.odd : Int) % 2) = s.base := by
        simp only [hd2, done]; rw [e2base, e2n, e2odd]; omega
      have a2 : d2.n * 2 - d2.odd % 2 = n := by simp only [hd2, done]; rw [e2n, e2odd]; omega
      have a3 : d2.odd / 2 = s.odd := by simp only [hd2, done]; rw [e2odd]; omega
      have a4 : d2.c / 2 = s.c := by simp only [hd2, done]; rw [e2c]; omega
      have a5 : d2.i = s.i + n := by simp only [hd2, done]; rw [e2n, e2i]; omega
      have a6 : d2.b = s.b := by simp only [hd2, done]; rw [e2b]
      have a7 : d2.buf = m2 := by simp only [hd2, done]
      simp only [up]
      rw [a1, a2, a3, a4, a5, a6, a7]
    have lo1 : o1.length = n / 2 := by rw [hst1.perm.length_eq]; simp [hs1]; omega
    have lo2 : o2.length = (n + 1) / 2 := by rw [hst2.perm.length_eq]; simp [e2i]; omega
    -- left run still in place
    have bt2 : s2.base.toNat = s.base.toNat + n / 2 := by rw [e2base]; omega
    have hsegL : Seg m2 (!s.b) s.base.toNat o1 := by
      refine hseg1.congr ?_
      intro k hk1' hk2'
      have := hsame2 s1.b k (Or.inl (by rw [bt2]; simp only [hs1] at hk2'; omega))
      rw [this, e2buf]
    have hsegR : Seg m2 s.b (s.base.toNat + n / 2) o2 := by
      rw [e2b, bt2] at hseg2; exact hseg2
    obtain ⟨m3, hm3, hseg3, hsame3⟩ := mergeLoop_spec key cap s.b n o1 o2 s.base.toNat s.base.toNat
      (s.base.toNat + n / 2) (s.base.toNat + n / 2) (s.base.toNat + n / 2 + (n + 1) / 2) m2
      (by intro e; rw [e] at lo1; simp at lo1; omega) (by intro e; rw [e] at lo2; simp at lo2; omega)
      (by omega) (by omega) (by omega) (by omega) (by omega) (by omega) hsegL hsegR
    refine ⟨k1 + k2 + 2, m3, mergeL key o1 o2, by omega, ?_, hseg3, ?_, ?_⟩
    · have := hst1.merge hst2
      rw [e2i] at this
      simp only [hs1] at this
      rw [show (inp.drop s.i).take n =
        (inp.drop s.i).take (n / 2) ++ (inp.drop (s.i + n / 2)).take ((n + 1) / 2) from ?_]
      · exact this
      · rw [← List.drop_drop, ← List.take_add]; congr 1; omega
    · intro b k hk
      have hb2 : b ≠ s.b ∨ k < s.base.toNat ∨ s.base.toNat + n / 2 + (n + 1) / 2 ≤ k := by
        right; omega
      rw [hsame3 b k hb2, hsame2 b k (by rw [bt2]; omega), e2buf, hsame1 b k (by simp only [hs1]; omega)]
    · intro fuel
      rw [descend_gt (by omega : 3 < s.n)]
      rw [show fuel + (k1 + k2 + 2) = (fuel + 1 + k2 + 1) + k1 by omega]
      rw [hrun1]
      rw [show fuel + 1 + k2 + 1 = (fuel + 1 + k2) + 1 by omega]
      rw [loop]
      have hc0 : (done s1 m1).c % 2 = 0 := by simp [done, hs1]
      rw [if_pos hc0, hrun2, loop]
      have hc1 : ¬ (done s2 m2).c % 2 = 0 := by simp only [done]; rw [e2c]; omega
      rw [if_neg hc1]
      simp only []
      rw [e3]
      have hcc : ¬ s.c = 0 := by omega
      rw [if_neg hcc]
      have hp : process key cap inp { s with i := s.i + n, n := n, buf := m2 } = some (done s m3) := by
        simp only [process]
        rw [if_neg (by omega), if_neg (by omega), if_neg (by omega)]
        simp only [hm3, Option.bind_eq_bind, Option.bind_some, done, hn]
      rw [hp]
      rfl

theorem mergeSort_spec (key : α → κ) (inp : List α) (m : Bufs Bool α) (h : 2 ≤ inp.length) (fuel : Nat)
    (hf : inp.length ≤ fuel) :
    ∃ m' out, mergeSort key inp m fuel = some m' ∧ IsStableSort key inp out ∧ Seg m' false 0 out := by
  set s0 : St α := { i := 0, n := inp.length, odd := 0, c := 0, b := true, base := -(inp.length : Int), buf := m } with hs0
  obtain ⟨k, m', out, hk, hst, hseg, _, hrun⟩ := node_spec key inp.length inp inp.length (advance s0)
    (by simp [advance, hs0]) h (by simp [advance, hs0]) (by simp [advance, hs0])
    (by simp [advance, hs0]) (by simp [advance, hs0])
  refine ⟨m', out, ?_, ?_, ?_⟩
  · simp only [mergeSort, ← hs0]
    obtain ⟨f, rfl⟩ : ∃ f, fuel = f + 1 + k + 1 := ⟨fuel - 2 - k, by omega⟩
    rw [loop, if_pos (by simp [hs0]), hrun, loop]
    simp [done, advance, hs0, up]
  · simpa [advance, hs0] using hst
  · simpa [advance, hs0] using hseg

theorem mapM_range_eq {β : Type} (f : Nat → Option β) : ∀ (l : List β),
    (∀ k, k < l.length → f k = l[k]?) → (List.range l.length).mapM f = some l := by
  intro l
  induction l using List.reverseRecOn with
  | nil => intro _; rfl
  | append_singleton l a ih =>
    intro h
    rw [List.length_append, List.length_singleton, List.range_succ, List.mapM_append, ih]
    · simp [h l.length (by simp)]
    · intro k hk
      rw [h k (by simp; omega), List.getElem?_append_left hk]

theorem readList_seg {m : Bufs Bool α} {b : Bool} {l : List α} (h : Seg m b 0 l) :
    readList (m b) l.length = some l := by
  unfold readList
  apply mapM_range_eq
  intro k hk
  have := h k hk
  simpa using this

theorem mergeSortv_spec (key : α → κ) (A : List α) (m : Bufs Bool α) (h : 2 ≤ A.length) :
    ∃ out, mergeSortv key A m = some out ∧ IsStableSort key A out := by
  obtain ⟨m', out, e, hst, hseg⟩ := mergeSort_spec key A m h (A.length + 1) (by omega)
  refine ⟨out, ?_, hst⟩
  simp only [mergeSortv, e, Option.bind_eq_bind, Option.bind_some]
  rw [← hst.perm.length_eq]
  exact readList_seg hseg

theorem copyPerm_go {β : Type} (p : Nat → Option (β × Nat)) (l : List (β × Nat))
    (h : ∀ k, k < l.length → p k = l[k]?) : ∀ (r left pos : Nat) (acc : List Nat),
    pos + left + 8 * r = l.length → acc = (l.take pos).map (·.2) →
    copyPerm.go p (r + 1) left pos acc = some (l.map (·.2)) := by
  have hrd : ∀ pos left, pos + left ≤ l.length →
      ((List.range left).mapM fun k => (p (pos + k)).map (·.2)) =
        some (((l.drop pos).take left).map (·.2)) := by
    intro pos left hle
    have := mapM_range_eq (fun k => (p (pos + k)).map (·.2)) (((l.drop pos).take left).map (·.2)) ?_
    · rw [show (((l.drop pos).take left).map (·.2)).length = left by simp; omega] at this
      exact this
    · intro k hk
      simp at hk
      rw [h _ (by omega)]
      rw [List.getElem?_map, List.getElem?_take_of_lt (by omega), List.getElem?_drop]
  intro r
  induction r with
  | zero =>
    intro left pos acc hl hacc
    simp only [copyPerm.go]
    rw [hrd pos left (by omega)]
    simp only [Option.bind_eq_bind, Option.bind_some, hacc, ← List.map_append]
    rw [List.take_of_length_le (i := left) (by rw [List.length_drop]; omega), List.take_append_drop]
  | succ r ih =>
    intro left pos acc hl hacc
    rw [copyPerm.go]
    rw [hrd pos left (by omega)]
    simp only [Option.bind_eq_bind, Option.bind_some]
    apply ih 8 (pos + left)
    · omega
    · rw [hacc, ← List.map_append, List.take_add]

theorem copyPerm_spec {β : Type} (p : Nat → Option (β × Nat)) (l : List (β × Nat)) (hne : l ≠ [])
    (h : ∀ k, k < l.length → p k = l[k]?) : copyPerm p l.length = some (l.map (·.2)) := by
  have hl : 0 < l.length := List.length_pos_of_ne_nil hne
  unfold copyPerm
  rw [if_neg (by omega)]
  obtain ⟨r, hr⟩ : ∃ r, (l.length + 7) / 8 = r + 1 := ⟨(l.length + 7) / 8 - 1, by omega⟩
  rw [hr]
  apply copyPerm_go p l h
  · split <;> omega
  · simp

theorem mergeSortp0_spec (A : List κ) (m : Bufs Bool (κ × Nat)) (h : 2 ≤ A.length) :
    ∃ out, mergeSortp0 A m = some (out.map (·.2)) ∧ IsStableSort (·.1) A.zipIdx out := by
  obtain ⟨m', out, e, hst, hseg⟩ := mergeSort_spec (fun x : κ × Nat => x.1) A.zipIdx m
    (by simpa using h) (A.length + 1) (by simp)
  refine ⟨out, ?_, hst⟩
  have hl : out.length = A.length := by rw [hst.perm.length_eq]; simp
  simp only [mergeSortp0, e, Option.bind_eq_bind, Option.bind_some]
  rw [← hl]
  apply copyPerm_spec
  · intro e; rw [e] at hl; simp at hl; omega
  · intro k hk; simpa using hseg k hk

theorem mergeSortp_spec (idx : List Nat) (A : List κ) (m : Bufs Bool (κ × Nat)) (h : 2 ≤ A.length)
    (inp : List (κ × Nat)) (hinp : (idx.mapM fun j => A[j]?.map fun v => (v, j)) = some inp)
    (hlen : inp.length = A.length) :
    ∃ out, mergeSortp idx A m = some (out.map (·.2)) ∧ IsStableSort (·.1) inp out := by
  obtain ⟨m', out, e, hst, hseg⟩ := mergeSort_spec (fun x : κ × Nat => x.1) inp m
    (by omega) (A.length + 1) (by omega)
  refine ⟨out, ?_, hst⟩
  have hl : out.length = A.length := by rw [hst.perm.length_eq, hlen]
  simp only [mergeSortp, hinp, e, Option.bind_eq_bind, Option.bind_some]
  rw [← hl]
  apply copyPerm_spec
  · intro e; rw [e] at hl; simp at hl; omega
  · intro k hk; simpa using hseg k hk

end Gslib.MergeSort
