import Verif.Model.NumMem

/-!
# Filling regions of an array
-/

namespace Gslib.Num
variable {K S : Type}

/-- entries `[off,off+n)` are initialised with `F` -/
def Has (m : Mem K) (off n : Nat) (F : Nat → K) : Prop := ∀ i < n, m (off + i) = some (F i)

/-- `m'` agrees with `m` outside `[off,off+n)` -/
def Outside (off n : Nat) (m m' : Mem K) : Prop := ∀ k, (k < off ∨ off + n ≤ k) → m' k = m k

theorem Has.congr {m : Mem K} {off n : Nat} {F G : Nat → K} (h : Has m off n F) (e : ∀ i < n, F i = G i) : Has m off n G :=
  fun i hi => by rw [h i hi, e i hi]

theorem Has.keep {m m' : Mem K} {off n off' n' : Nat} {F : Nat → K} (h : Has m off n F) (o : Outside off' n' m m')
    (hd : off + n ≤ off' ∨ off' + n' ≤ off) : Has m' off n F :=
  fun i hi => by rw [o _ (by omega), h i hi]

theorem Has.rd {m : Mem K} {off n cap : Nat} {F : Nat → K} (h : Has m off n F) (i : Nat) (hi : i < n) (hc : off + n ≤ cap) :
    rd cap m (off + i) = some (F i) := by
  rw [Num.rd, if_pos (by omega), h i hi]

theorem Outside.refl (off n : Nat) (m : Mem K) : Outside off n m m := fun _ _ => rfl

theorem Outside.trans' {a n b k : Nat} {m m' m'' : Mem K} (h : Outside a n m m') (h' : Outside b k m' m'') (lo hi : Nat)
    (h1 : lo ≤ a) (h2 : a + n ≤ lo + hi) (h3 : lo ≤ b) (h4 : b + k ≤ lo + hi) : Outside lo hi m m'' :=
  fun x hx => by rw [h' x (by omega), h x (by omega)]

theorem forUp_inv (I : Nat → S → Prop) (f : Nat → S → Option S) : ∀ (n a : Nat) (s : S), I a s →
    (∀ i, a ≤ i → i < a + n → ∀ s, I i s → ∃ s', f i s = some s' ∧ I (i + 1) s') →
    ∃ s', forUp a n f s = some s' ∧ I (a + n) s'
  | 0, a, s, h, _ => ⟨s, rfl, h⟩
  | n + 1, a, s, h, hs => by
      obtain ⟨s1, e1, h1⟩ := hs a (by omega) (by omega) s h
      obtain ⟨s2, e2, h2⟩ := forUp_inv I f n (a + 1) s1 h1 (fun i hi hi' => hs i (by omega) (by omega))
      refine ⟨s2, ?_, by rw [show a + (n + 1) = a + 1 + n by omega]; exact h2⟩
      rw [forUp, e1]; exact e2

theorem forDown_inv (I : Nat → S → Prop) (f : Nat → S → Option S) : ∀ (n : Nat) (s : S), I n s →
    (∀ i, i < n → ∀ s, I (i + 1) s → ∃ s', f (i + 1) s = some s' ∧ I i s') →
    ∃ s', forDown n f s = some s' ∧ I 0 s'
  | 0, s, h, _ => ⟨s, rfl, h⟩
  | n + 1, s, h, hs => by
      obtain ⟨s1, e1, h1⟩ := hs n (by omega) s h
      obtain ⟨s2, e2, h2⟩ := forDown_inv I f n s1 h1 (fun i hi => hs i (by omega))
      exact ⟨s2, by rw [forDown, e1]; exact e2, h2⟩

theorem wr_some {cap : Nat} {m : Mem K} {i : Nat} {v : K} (h : i < cap) :
    wr cap m i v = some fun k => if k = i then some v else m k := by rw [wr, if_pos h]

/-- a loop that fills `[off,off+n)` upwards -/
theorem fillUp (cap off n : Nat) (F : Nat → K) (f : Nat → Mem K → Option (Mem K)) (m : Mem K) (hc : off + n ≤ cap)
    (hf : ∀ i < n, ∀ m', Outside off n m m' → Has m' off i F → f i m' = wr cap m' (off + i) (F i)) :
    ∃ m', forUp 0 n f m = some m' ∧ Has m' off n F ∧ Outside off n m m' := by
  obtain ⟨m', e, h⟩ := forUp_inv (fun i m' => Has m' off i F ∧ Outside off n m m') f n 0 m
    ⟨fun i hi => by omega, Outside.refl _ _ _⟩ (by
      intro i _ hi m' ⟨h1, h2⟩
      refine ⟨_, by rw [hf i (by omega) m' h2 h1, wr_some (by omega)], ?_, ?_⟩
      · intro j hj
        by_cases hji : j = i
        · subst hji; simp
        · show (if off + j = off + i then _ else _) = _
          rw [if_neg (by omega), h1 j (by omega)]
      · intro k hk
        show (if k = off + i then _ else _) = _
        rw [if_neg (by omega), h2 k hk])
  exact ⟨m', e, by simpa using h⟩

/-- first entry, then a recurrence upwards -/
theorem fillUp1 (cap off n : Nat) (hn : 0 < n) (F : Nat → K) (f : Nat → Mem K → Option (Mem K)) (m : Mem K) (hc : off + n ≤ cap)
    (hf : ∀ i, i + 1 < n → ∀ m', Outside off n m m' → Has m' off (i + 1) F → f i m' = wr cap m' (off + (i + 1)) (F (i + 1))) :
    ∃ m', ((wr cap m off (F 0)).bind fun m => forUp 0 (n - 1) f m) = some m' ∧ Has m' off n F ∧ Outside off n m m' := by
  rw [wr_some (by omega)]
  obtain ⟨m', e, h⟩ := forUp_inv (fun i m' => Has m' off (i + 1) F ∧ Outside off n m m') f (n - 1) 0
    (fun k => if k = off then some (F 0) else m k)
    ⟨fun i hi => by
      have : i = 0 := by omega
      subst this; simp, fun k hk => by
      show (if k = off then _ else _) = _
      rw [if_neg (by omega)]⟩ (by
      intro i _ hi m' ⟨h1, h2⟩
      refine ⟨_, by rw [hf i (by omega) m' h2 h1, wr_some (by omega)], ?_, ?_⟩
      · intro j hj
        by_cases hji : j = i + 1
        · subst hji; simp
        · show (if off + j = off + (i + 1) then _ else _) = _
          rw [if_neg (by omega), h1 j (by omega)]
      · intro k hk
        show (if k = off + (i + 1) then _ else _) = _
        rw [if_neg (by omega), h2 k hk])
  refine ⟨m', e, ?_, h.2⟩
  have := h.1
  rwa [show 0 + (n - 1) + 1 = n by omega] at this

/-- last entry, then a recurrence downwards -/
theorem fillDown1 (cap off n : Nat) (hn : 0 < n) (F : Nat → K) (f : Nat → Mem K → Option (Mem K)) (m : Mem K) (hc : off + n ≤ cap)
    (hf : ∀ i, i + 1 < n → ∀ m', Outside off n m m' → (∀ j, i + 1 ≤ j → j < n → m' (off + j) = some (F j)) →
      f (i + 1) m' = wr cap m' (off + i) (F i)) :
    ∃ m', ((wr cap m (off + (n - 1)) (F (n - 1))).bind fun m => forDown (n - 1) f m) = some m' ∧ Has m' off n F ∧ Outside off n m m' := by
  rw [wr_some (by omega)]
  obtain ⟨m', e, h⟩ := forDown_inv (fun i m' => (∀ j, i ≤ j → j < n → m' (off + j) = some (F j)) ∧ Outside off n m m') f (n - 1)
    (fun k => if k = off + (n - 1) then some (F (n - 1)) else m k)
    ⟨fun j hj hj' => by
      have : j = n - 1 := by omega
      subst this; simp, fun k hk => by
      show (if k = off + (n - 1) then _ else _) = _
      rw [if_neg (by omega)]⟩ (by
      intro i hi m' ⟨h1, h2⟩
      refine ⟨_, by rw [hf i (by omega) m' h2 h1, wr_some (by omega)], ?_, ?_⟩
      · intro j hj hj'
        by_cases hji : j = i
        · subst hji; simp
        · show (if off + j = off + i then _ else _) = _
          rw [if_neg (by omega), h1 j (by omega) hj']
      · intro k hk
        show (if k = off + i then _ else _) = _
        rw [if_neg (by omega), h2 k hk])
  exact ⟨m', e, fun i hi => h.1 i (Nat.zero_le _) hi, h.2⟩

end Gslib.Num
