import Verif.Lemmas.NumMem
import Verif.Model.Quad

/-!
# Filling the two halves of a symmetric array
-/

namespace Gslib.Poly
open Gslib.Num
variable {K : Type} [Field K] [LinearOrder K]

theorem mirror_run (cap off n : Nat) (g : K → K) (z : Mem K) (F : Nat → K) (hc : off + n ≤ cap)
    (hz : ∀ i < n / 2, z (off + i) = some (F i)) :
    ∃ z', mirror cap off n g z = some z' ∧ (∀ k, (k < off + (n + 1) / 2 ∨ off + n ≤ k) → z' k = z k) ∧
      (∀ i < n / 2, z' (off + (n - 1 - i)) = some (g (F i))) := by
  obtain ⟨s, e, h1, h2, h3⟩ := forUp_inv (fun j (s : Mem K × Int) => s.2 = (n : Int) - 1 - j ∧
      (∀ k, (k < off + (n + 1) / 2 ∨ off + n ≤ k) → s.1 k = z k) ∧
      (∀ k, (n + 1) / 2 ≤ k → k < j → s.1 (off + k) = some (g (F (n - 1 - k)))))
    (fun j (s : Mem K × Int) =>
    (rdI cap s.1 (off + s.2)).bind fun v => (wr cap s.1 (off + j) (g v)).map fun z => (z, s.2 - 1))
    (n - (n + 1) / 2) ((n + 1) / 2) (z, ((n / 2 : Nat) : Int) - 1)
    ⟨by dsimp only; omega, fun _ _ => rfl, fun k hk hk' => by omega⟩ (by
      intro j hj hj' ⟨zz, i⟩ ⟨hi, ho, hk⟩
      dsimp only at hi ho hk
      have hrd : rdI cap zz (off + i) = some (F (n - 1 - j)) := by
        rw [rdI, if_pos (by omega), show (off + i : Int).toNat = off + (n - 1 - j) by omega, rd, if_pos (by omega),
          ho _ (by omega), hz _ (by omega)]
      dsimp only
      rw [hrd, Option.bind_some, wr_some (by omega)]
      refine ⟨_, rfl, ?_, ?_, ?_⟩
      · push_cast; omega
      · intro k hk'
        show (if k = off + j then _ else _) = _
        rw [if_neg (by omega), ho k hk']
      · intro k hk1 hk2
        show (if off + k = off + j then _ else _) = _
        by_cases hkj : k = j
        · subst hkj; rw [if_pos rfl]
        · rw [if_neg (by omega), hk k hk1 (by omega)])
  refine ⟨s.1, by rw [mirror, e]; rfl, h2, ?_⟩
  intro i hi
  rw [h3 (n - 1 - i) (by omega) (by omega), show n - 1 - (n - 1 - i) = i by omega]

/-- the values `halfNodes` stores -/
def halfVal (n : Nat) (r : Nat → K) (i : Nat) : K :=
  if i < n / 2 then r i else if n - 1 - i < n / 2 then -r (n - 1 - i) else 0

theorem halfNodes_run (cap off n : Nat) (root : Nat → Option K) (r : Nat → K) (hr : ∀ i < n / 2, root i = some (r i)) (z : Mem K)
    (hc : off + n ≤ cap) :
    ∃ z', halfNodes cap off n root z = some z' ∧ Has z' off n (halfVal n r) ∧ Outside off n z z' := by
  obtain ⟨z1, e1, h1, o1⟩ := fillUp cap off (n / 2) r (fun i z => (root i).bind fun x => wr cap z (off + i) x) z (by omega)
    (fun i hi m' _ _ => by rw [hr i hi, Option.bind_some])
  obtain ⟨z2, e2, h2, m2, o2⟩ : ∃ z2, (if n % 2 = 1 then wr cap z1 (off + n / 2) 0 else some z1) = some z2 ∧
      Has z2 off (n / 2) r ∧ (n % 2 = 1 → z2 (off + n / 2) = some 0) ∧ Outside off n z z2 := by
    by_cases h : n % 2 = 1
    · rw [if_pos h, wr_some (by omega)]
      refine ⟨_, rfl, ?_, ?_, ?_⟩
      · intro i hi
        show (if off + i = off + n / 2 then _ else _) = _
        rw [if_neg (by omega), h1 i hi]
      · intro _; simp
      · intro k hk
        show (if k = off + n / 2 then _ else _) = _
        rw [if_neg (by omega), o1 k (by omega)]
    · rw [if_neg h]
      exact ⟨z1, rfl, h1, fun h' => absurd h' h, fun k hk => o1 k (by omega)⟩
  obtain ⟨z3, e3, o3, h3⟩ := mirror_run cap off n (fun v => -v) z2 r hc h2
  refine ⟨z3, ?_, ?_, ?_⟩
  · simp only [halfNodes, e1, Option.bind_some, e2, e3]
  · intro i hi
    unfold halfVal
    split_ifs with ha hb
    · rw [o3 _ (by omega), h2 i ha]
    · have := h3 (n - 1 - i) hb
      rwa [show n - 1 - (n - 1 - i) = i by omega] at this
    · have hi2 : i = n / 2 := by omega
      have hodd : n % 2 = 1 := by omega
      rw [o3 _ (by omega), hi2, m2 hodd]
  · intro k hk
    rw [o3 k (by omega), o2 k (by omega)]

theorem halfVal_sym (n : Nat) (r : Nat → K) (i : Nat) (hi : i < n) : halfVal n r (n - 1 - i) = -halfVal n r i := by
  unfold halfVal
  rw [show n - 1 - (n - 1 - i) = i by omega]
  split_ifs with h1 h2 h3 <;> first | omega | simp

theorem halfNodes_none (cap off n : Nat) (root : Nat → Option K) (z z' : Mem K) (h : halfNodes cap off n root z = some z') :
    ∀ i < n / 2, ∃ r, root i = some r := by
  have key : ∀ (m a : Nat) (z z1 : Mem K), forUp a m (fun i z => (root i).bind fun x => wr cap z (off + i) x) z = some z1 →
      ∀ i, a ≤ i → i < a + m → ∃ r, root i = some r := by
    intro m
    induction m with
    | zero => intro a z z1 _ i h1 h2; omega
    | succ m ih =>
      intro a z z1 e i h1 h2
      rw [forUp] at e
      cases hr : root a with
      | none => rw [hr] at e; simp at e
      | some v =>
        by_cases hia : i = a
        · subst hia; exact ⟨v, hr⟩
        · rw [hr, Option.bind_some] at e
          cases hw : wr cap z (off + a) v with
          | none => rw [hw] at e; simp at e
          | some zz =>
            rw [hw, Option.bind_some] at e
            exact ih (a + 1) zz z1 e i (by omega) (by omega)
  rw [halfNodes] at h
  cases hf : forUp 0 (n / 2) (fun i z => (root i).bind fun x => wr cap z (off + i) x) z with
  | none => rw [hf] at h; simp at h
  | some z1 =>
    intro i hi
    exact key (n / 2) 0 z z1 hf i (Nat.zero_le _) (by omega)

theorem newton_spec (f df : K → K) (eps : K) : ∀ (fuel : Nat) (x0 r : K), newton f df eps fuel x0 = some r →
    ∃ ox x, df ox ≠ 0 ∧ x = ox - f ox / df ox ∧ |x - ox| ≤ -x * eps ∧ df x ≠ 0 ∧ r = x - f x / df x := by
  have key : ∀ (fuel : Nat) (x0 x : K), newtonLoop f df eps fuel x0 = some x →
      ∃ ox, df ox ≠ 0 ∧ x = ox - f ox / df ox ∧ |x - ox| ≤ -x * eps := by
    intro fuel
    induction fuel with
    | zero => intro x0 x h; simp [newtonLoop] at h
    | succ fuel ih =>
      intro x0 x h
      rw [newtonLoop] at h
      split_ifs at h with hz
      dsimp only at h
      split_ifs at h with hc
      · exact ih _ _ h
      · simp only [Option.some.injEq] at h
        subst h
        exact ⟨x0, hz, rfl, not_lt.mp hc⟩
  intro fuel x0 r h
  rw [newton, Option.bind_eq_some_iff] at h
  obtain ⟨x, hx, e⟩ := h
  obtain ⟨ox, h0, h1, h2⟩ := key fuel x0 x hx
  split_ifs at e with hz
  exact ⟨ox, x, h0, h1, h2, hz, (Option.some.inj e).symm⟩

theorem gllz_length : ∀ n, 4 ≤ n → n ≤ 24 → (gllz n).length = n / 2 - 1 := by
  intro n h1 h2
  have : n = 4 ∨ n = 5 ∨ n = 6 ∨ n = 7 ∨ n = 8 ∨ n = 9 ∨ n = 10 ∨ n = 11 ∨ n = 12 ∨ n = 13 ∨ n = 14 ∨ n = 15 ∨ n = 16 ∨ n = 17 ∨
    n = 18 ∨ n = 19 ∨ n = 20 ∨ n = 21 ∨ n = 22 ∨ n = 23 ∨ n = 24 := by omega
  rcases this with h | h | h | h | h | h | h | h | h | h | h | h | h | h | h | h | h | h | h | h | h <;> subst h <;> rfl

/-- tabulated node `i-1` in the field -/
def gllzVal (n i : Nat) : K := (((gllz n).getD (i - 1) 0 : Rat) : K)

theorem gllzRd_eq (n i : Nat) (h1 : 4 ≤ n) (h2 : n ≤ 24) (hi : 1 ≤ i) (hi' : i < n / 2) : gllzRd (K := K) n i = some (gllzVal n i) := by
  rw [gllzRd, if_pos (by omega), show ((i : Int) - 1).toNat = i - 1 by omega,
    List.getElem?_eq_getElem (by rw [gllz_length n h1 h2]; omega), gllzVal, List.getD_eq_getElem?_getD,
    List.getElem?_eq_getElem (by rw [gllz_length n h1 h2]; omega)]
  rfl

/-- the values `lobatto_nodes_fix` stores -/
def fixVal (n i : Nat) : K :=
  if i = 0 then -1 else if i = n - 1 then 1 else if i < n / 2 then -gllzVal n i else if n - 1 - i < n / 2 then gllzVal n (n - 1 - i) else 0

theorem lobattoFix_run (cap n : Nat) (z : Mem K) (hn : 2 ≤ n) (hn' : n ≤ 24) (hc : n ≤ cap) :
    ∃ z', lobattoNodesFix cap n z = some z' ∧ Has z' 0 n (fixVal n) ∧ Outside 0 n z z' := by
  rw [lobattoNodesFix, wr_some (by omega), Option.bind_some, wr_some (by omega), Option.bind_some]
  obtain ⟨z2, e2, a2, b2, m2, o2⟩ : ∃ z2, (if n % 2 = 1 then wr cap (fun k => if k = n - 1 then some (1 : K) else
      if k = 0 then some (-1) else z k) (n / 2) 0 else some (fun k => if k = n - 1 then some (1 : K) else
      if k = 0 then some (-1) else z k)) = some z2 ∧
      z2 0 = some (-1) ∧ z2 (n - 1) = some 1 ∧ (n % 2 = 1 → z2 (n / 2) = some 0) ∧ Outside 0 n z z2 := by
    by_cases h : n % 2 = 1
    · rw [if_pos h, wr_some (by omega)]
      refine ⟨_, rfl, ?_, ?_, ?_, ?_⟩
      · show (if 0 = n / 2 then _ else if 0 = n - 1 then _ else if 0 = 0 then _ else _) = _
        rw [if_neg (by omega), if_neg (by omega), if_pos rfl]
      · show (if n - 1 = n / 2 then _ else if n - 1 = n - 1 then _ else _) = _
        rw [if_neg (by omega), if_pos rfl]
      · intro _; simp
      · intro k hk
        show (if k = n / 2 then _ else if k = n - 1 then _ else if k = 0 then _ else _) = _
        rw [if_neg (by omega), if_neg (by omega), if_neg (by omega)]
    · rw [if_neg h]
      refine ⟨_, rfl, ?_, ?_, fun h' => absurd h' h, ?_⟩
      · show (if 0 = n - 1 then _ else if 0 = 0 then _ else _) = _
        rw [if_neg (by omega), if_pos rfl]
      · simp
      · intro k hk
        show (if k = n - 1 then _ else if k = 0 then _ else _) = _
        rw [if_neg (by omega), if_neg (by omega)]
  rw [e2, Option.bind_some]
  by_cases h4 : 4 ≤ n
  swap
  · rw [if_neg h4]
    refine ⟨z2, rfl, ?_, o2⟩
    intro i hi
    rw [Nat.zero_add]
    unfold fixVal
    split_ifs with ha hb hc' hd
    · rw [ha, a2]
    · rw [hb, b2]
    · omega
    · omega
    · rw [show i = n / 2 by omega, m2 (by omega)]
  rw [if_pos h4]
  obtain ⟨z3, e3, h3, o3⟩ := forUp_inv (fun i z' => (∀ k, 1 ≤ k → k < i → z' k = some (-gllzVal n k)) ∧
      ∀ k, (k < 1 ∨ n / 2 ≤ k) → z' k = z2 k)
    (fun i z => (gllzRd n i).bind fun v => wr cap z i (-v)) (n / 2 - 1) 1 z2 ⟨fun k _ _ => by omega, fun _ _ => rfl⟩ (by
      intro i hi hi' z' ⟨h1, h2⟩
      rw [gllzRd_eq n i h4 hn' hi (by omega), Option.bind_some, wr_some (by omega)]
      refine ⟨_, rfl, ?_, ?_⟩
      · intro k hk hk'
        show (if k = i then _ else _) = _
        by_cases hki : k = i
        · subst hki; rw [if_pos rfl]
        · rw [if_neg hki, h1 k hk (by omega)]
      · intro k hk
        show (if k = i then _ else _) = _
        rw [if_neg (by omega), h2 k hk])
  rw [e3, Option.bind_some]
  obtain ⟨s, e4, -, h5, h6⟩ := forUp_inv (fun j (s : Mem K × Int) => s.2 = (n : Int) - 1 - j ∧
      (∀ k, (k < (n + 1) / 2 ∨ n - 1 ≤ k) → s.1 k = z3 k) ∧
      (∀ k, (n + 1) / 2 ≤ k → k < j → s.1 k = some (gllzVal n (n - 1 - k))))
    (fun j (s : Mem K × Int) =>
      (gllzRd n s.2).bind fun v => (wr cap s.1 j v).map fun z => (z, s.2 - 1))
    (n - 1 - (n + 1) / 2) ((n + 1) / 2) (z3, ((n / 2 : Nat) : Int) - 1)
    ⟨by dsimp only; omega, fun _ _ => rfl, fun k hk hk' => by omega⟩ (by
      intro j hj hj' ⟨zz, i⟩ ⟨hi, ho, hk⟩
      dsimp only at hi ho hk
      have hrd : gllzRd (K := K) n i = some (gllzVal n (n - 1 - j)) := by
        rw [show i = ((n - 1 - j : Nat) : Int) by omega]
        exact gllzRd_eq n _ h4 hn' (by omega) (by omega)
      dsimp only
      rw [hrd, Option.bind_some, wr_some (by omega)]
      refine ⟨_, rfl, ?_, ?_, ?_⟩
      · push_cast; omega
      · intro k hk'
        show (if k = j then _ else _) = _
        rw [if_neg (by omega), ho k hk']
      · intro k hk1 hk2
        show (if k = j then _ else _) = _
        by_cases hkj : k = j
        · subst hkj; rw [if_pos rfl]
        · rw [if_neg (by omega), hk k hk1 (by omega)])
  refine ⟨s.1, by rw [e4]; rfl, ?_, ?_⟩
  · intro i hi
    rw [Nat.zero_add]
    unfold fixVal
    split_ifs with ha hb hc' hd
    · rw [ha, h5 _ (by omega), o3 _ (by omega), a2]
    · rw [hb, h5 _ (by omega), o3 _ (by omega), b2]
    · rw [h5 _ (by omega), h3 _ (by omega) (by omega)]
    · rw [h6 _ (by omega) (by omega)]
    · rw [show i = n / 2 by omega, h5 _ (by omega), o3 _ (by omega), m2 (by omega)]
  · intro k hk
    rw [h5 _ (by omega), o3 _ (by omega), o2 _ (by omega)]

theorem fixVal_sym (n i : Nat) (hn : 2 ≤ n) (hi : i < n) : fixVal (K := K) n (n - 1 - i) = -fixVal n i := by
  unfold fixVal
  rw [show n - 1 - (n - 1 - i) = i by omega]
  split_ifs <;> first | omega | simp

end Gslib.Poly
