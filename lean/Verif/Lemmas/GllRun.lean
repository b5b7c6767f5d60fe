import Verif.Lemmas.GllLag1
import Verif.Lemmas.GllLag2
import Verif.Lemmas.GllLag3
import Verif.Lemmas.GllLag4
import Verif.Lemmas.GllLag5
import Verif.Lemmas.GllLag6
import Verif.Lemmas.Quad
import Verif.Model.GllSetup
import Mathlib.Data.Rat.Cast.Order
import Mathlib.Data.List.GetD

/-!
# Running the Lobatto Lagrange functions
-/

namespace Gslib.Poly
open Gslib.Num
variable {K : Type} [Field K]

theorem gllLag_eq (n : Nat) (h : 2 ≤ n) (h' : n ≤ 24) (g w : Nat → K) (x : K) : gllLag n g w x = rowLists n w (dx (gnode n g) x) := by
  have : n = 2 ∨ n = 3 ∨ n = 4 ∨ n = 5 ∨ n = 6 ∨ n = 7 ∨ n = 8 ∨ n = 9 ∨ n = 10 ∨ n = 11 ∨ n = 12 ∨ n = 13 ∨ n = 14 ∨ n = 15 ∨ n = 16 ∨ n = 17 ∨
    n = 18 ∨ n = 19 ∨ n = 20 ∨ n = 21 ∨ n = 22 ∨ n = 23 ∨ n = 24 := by omega
  rcases this with h | h | h | h | h | h | h | h | h | h | h | h | h | h | h | h | h | h | h | h | h | h | h <;> subst h
  · exact gllLag02_eq g w x
  · exact gllLag03_eq g w x
  · exact gllLag04_eq g w x
  · exact gllLag05_eq g w x
  · exact gllLag06_eq g w x
  · exact gllLag07_eq g w x
  · exact gllLag08_eq g w x
  · exact gllLag09_eq g w x
  · exact gllLag10_eq g w x
  · exact gllLag11_eq g w x
  · exact gllLag12_eq g w x
  · exact gllLag13_eq g w x
  · exact gllLag14_eq g w x
  · exact gllLag15_eq g w x
  · exact gllLag16_eq g w x
  · exact gllLag17_eq g w x
  · exact gllLag18_eq g w x
  · exact gllLag19_eq g w x
  · exact gllLag20_eq g w x
  · exact gllLag21_eq g w x
  · exact gllLag22_eq g w x
  · exact gllLag23_eq g w x
  · exact gllLag24_eq g w x

theorem gnode_fixVal (n : Nat) : gnode n (fun i => (((gllz n).getD i 0 : Rat) : K)) = fixVal n := by
  funext i
  unfold gnode fixVal gllzVal
  rfl

theorem readRow_run {cap n : Nat} {m : Mem K} {w : Nat → K} (h : Has m 0 n w) (hc : n ≤ cap) :
    ∀ k ≤ n, readRow cap m k = some ((List.range k).map w)
  | 0, _ => rfl
  | k + 1, hk => by
      have := h.rd (cap := cap) k (by omega) (by omega)
      rw [Nat.zero_add] at this
      rw [readRow, readRow_run h hc k (by omega), Option.bind_some, this, Option.map_some, List.range_succ, List.map_append]
      rfl

theorem storeRow_run {pcap off n : Nat} (F : Nat → K) (p : Mem K) (hc : off + n ≤ pcap) :
    ∃ p', storeRow pcap off ((List.range n).map F) p = some p' ∧ Has p' off n F ∧ Outside off n p p' := by
  rw [storeRow, List.length_map, List.length_range]
  refine fillUp pcap off n F _ p hc fun i hi m' _ _ => ?_
  rw [List.getD_eq_getElem?_getD, List.getElem?_map, List.getElem?_range hi]
  rfl

theorem row0_congr {n : Nat} {w w' : Nat → K} (h : ∀ i < n, w i = w' i) (d : Nat → K) (i : Nat) (hi : i < n) :
    row0 n w d i = row0 n w' d i ∧ row1 n w d i = row1 n w' d i ∧ row2 n w d i = row2 n w' d i := by
  simp only [row0, row1, row2, h i hi, and_self]

/-- an unrolled function computes the three rows and keeps the scale factors -/
theorem fixedEval_run {cap pcap n : Nat} (hn : 2 ≤ n) (hn' : n ≤ 24) (hc : n ≤ cap) (der : Int) (hp : rows der * n ≤ pcap) (x : K)
    {w : Nat → K} {p m : Mem K} (h : Has m 0 n w) :
    ∃ p', gllFixedEval cap pcap n der x (p, m) = some (p', m) ∧
      Has p' 0 n (row0 n w (dx (fixVal n) x)) ∧ (0 < der → Has p' n n (row1 n w (dx (fixVal n) x))) ∧
      (1 < der → Has p' (2 * n) n (row2 n w (dx (fixVal n) x))) ∧ Outside 0 (rows der * n) p p' := by
  have hr : n ≤ rows der * n := Nat.le_mul_of_pos_left _ (by unfold rows; split_ifs <;> omega)
  rw [gllFixedEval, readRow_run h hc n (Nat.le_refl _), Option.bind_some]
  dsimp only
  rw [gllLag_eq n hn hn', gnode_fixVal, rowLists]
  dsimp only
  have hw : ∀ i < n, ((List.range n).map w).getD i 0 = w i := fun i hi => by
    rw [List.getD_eq_getElem?_getD, List.getElem?_map, List.getElem?_range hi]; rfl
  obtain ⟨p1, e1, h1, o1⟩ := storeRow_run (pcap := pcap) (off := 0) (n := n)
    (row0 n (fun i => ((List.range n).map w).getD i 0) (dx (fixVal n) x)) p (by omega)
  have h1' := h1.congr fun i hi => (row0_congr hw (dx (fixVal n) x) i hi).1
  rw [e1, Option.bind_some]
  by_cases hd : 0 < der
  swap
  · rw [if_neg (by omega), Option.bind_some, if_neg (by omega)]
    exact ⟨p1, rfl, h1', fun h => absurd h hd, fun h => absurd h (by omega), fun k hk => o1 k (by omega)⟩
  have hr2 : 2 * n ≤ rows der * n := Nat.mul_le_mul_right _ (by unfold rows; split_ifs <;> omega)
  obtain ⟨p2, e2, h2, o2⟩ := storeRow_run (pcap := pcap) (off := n) (n := n)
    (row1 n (fun i => ((List.range n).map w).getD i 0) (dx (fixVal n) x)) p1 (by omega)
  have h2' := h2.congr fun i hi => (row0_congr hw (dx (fixVal n) x) i hi).2.1
  rw [if_pos hd, e2, Option.bind_some]
  by_cases hd' : 1 < der
  swap
  · rw [if_neg (by omega)]
    exact ⟨p2, rfl, h1'.keep o2 (by omega), fun _ => h2', fun h => absurd h hd', fun k hk => by
      rw [o2 k (by omega), o1 k (by omega)]⟩
  have hr3 : 3 * n ≤ rows der * n := Nat.mul_le_mul_right _ (by unfold rows; split_ifs <;> omega)
  obtain ⟨p3, e3, h3, o3⟩ := storeRow_run (pcap := pcap) (off := 2 * n) (n := n)
    (row2 n (fun i => ((List.range n).map w).getD i 0) (dx (fixVal n) x)) p2 (by omega)
  have h3' := h3.congr fun i hi => (row0_congr hw (dx (fixVal n) x) i hi).2.2
  rw [if_pos hd', e3]
  exact ⟨p3, rfl, (h1'.keep o2 (by omega)).keep o3 (by omega), fun _ => h2'.keep o3 (by omega), fun _ => h3', fun k hk => by
      rw [o3 k (by omega), o2 k (by omega), o1 k (by omega)]⟩

/-- the state of `data`: nodes (if stored) and scale factors -/
def GData (n : Nat) (z w : Nat → K) (m : Mem K) : Prop := if n ≤ 24 then Has m 0 n w else Data n z w m

theorem gllEval_run {pcap n : Nat} (hn : 2 ≤ n) (der : Int) (hp : rows der * n ≤ pcap) (x : K)
    {z w : Nat → K} (hz : n ≤ 24 → z = fixVal n) {p m : Mem K} (h : GData n z w m) :
    ∃ p' m', gllEval n pcap der x (p, m) = some (p', m') ∧ GData n z w m' ∧
      Has p' 0 n (row0 n w (dx z x)) ∧ (0 < der → Has p' n n (row1 n w (dx z x))) ∧ (1 < der → Has p' (2 * n) n (row2 n w (dx z x))) ∧
      Outside 0 (rows der * n) p p' := by
  unfold GData at h
  by_cases h24 : n ≤ 24
  · rw [if_pos h24] at h
    obtain ⟨p', e, h1, h2, h3, h4⟩ := fixedEval_run (cap := gllLagSize n) (pcap := pcap) hn h24
      (by rw [gllLagSize, if_pos h24]; omega) der hp x (p := p) h
    rw [gllEval, if_pos h24, hz h24]
    exact ⟨p', m, e, by rw [GData, if_pos h24]; exact h, h1, h2, h3, h4⟩
  · rw [if_neg h24] at h
    rw [gllEval, if_neg h24]
    obtain ⟨p', m', e, h1, h2⟩ := eval_run (cap := gllLagSize n) (pcap := pcap)
      (by rw [gllLagSize, if_neg h24]) (by omega) der hp x (p := p) h
    exact ⟨p', m', e, by rw [GData, if_neg h24]; exact h1, h2⟩

theorem gllSetup_run [LinearOrder K] (fuel : Nat) (eps : K) (guess : Nat → K) (n : Nat) (hn : 2 ≤ n) (z : Mem K) (v : Nat → K)
    (hv : n ≤ 24 → v = fixVal n) (hz : Has z 0 n v)
    (hl : lobattoNodes n fuel eps guess n (fun _ => none) = some z) :
    ∃ m, gllLagSetup fuel eps guess n = some m ∧ GData n v (scale n v) m := by
  unfold gllLagSetup
  dsimp only
  rw [hl, Option.bind_some]
  have hcap : (if n ≤ 24 then 0 else n) + n ≤ gllLagSize n := by unfold gllLagSize; split_ifs <;> omega
  obtain ⟨m1, e1, h1, o1⟩ := fillUp (gllLagSize n) (if n ≤ 24 then 0 else n) n (fun _ => (1 : K))
    (fun i m => wr (gllLagSize n) m ((if n ≤ 24 then 0 else n) + i) 1)
    (fun k => if n ≤ 24 then none else if k < n then z k else none) hcap (fun i _ m' _ _ => rfl)
  rw [e1, Option.bind_some]
  have hg1 : GData n v (fun _ => 1) m1 := by
    unfold GData
    by_cases h24 : n ≤ 24
    · rw [if_pos h24]; rw [if_pos h24] at h1; exact h1
    · rw [if_neg h24]; rw [if_neg h24] at h1 o1
      refine ⟨fun i hi => ?_, h1⟩
      rw [o1 _ (by omega)]
      simp only [if_neg h24, Nat.zero_add, hi, if_true]
      have := hz i hi
      rwa [Nat.zero_add] at this
  obtain ⟨s2, e2, -, h2⟩ := forUp_inv (fun i (s : Mem K × Mem K) => (n ≤ 24 → Has s.1 n n v) ∧
      GData n v (fun j => if j < i then scale n v j else 1) s.2)
    (fun i (s : Mem K × Mem K) =>
    (if n ≤ 24 then rd (2 * n) s.1 (n + i) else rd (gllLagSize n) s.2 i).bind fun zi =>
    (gllEval n (2 * n) 0 zi s).bind fun s => (rd (2 * n) s.1 i).bind fun pi =>
    (wr (gllLagSize n) s.2 ((if n ≤ 24 then 0 else n) + i) (1 / pi)).map fun m => (s.1, m)) n 0
    (fun k => if n ≤ 24 then (if n ≤ k ∧ k < 2 * n then z (k - n) else none) else none, m1)
    ⟨fun h24 i hi => by
      dsimp only
      rw [if_pos h24, if_pos (by omega), show n + i - n = 0 + i by omega, hz i hi], by simpa using hg1⟩ (by
      intro i _ hi ⟨p, m⟩ ⟨hpz, h⟩
      have hzi : (if n ≤ 24 then rd (2 * n) p (n + i) else rd (gllLagSize n) m i) = some (v i) := by
        by_cases h24 : n ≤ 24
        · rw [if_pos h24]; exact (hpz h24).rd i (by omega) (by omega)
        · rw [if_neg h24]
          unfold GData at h; rw [if_neg h24] at h
          have := h.1.rd (cap := gllLagSize n) i (by omega) (by rw [gllLagSize, if_neg h24]; omega)
          rwa [Nat.zero_add] at this
      obtain ⟨p', m', e, hd, hp, -, -, ho⟩ := gllEval_run (pcap := 2 * n) hn 0 (by simp [rows]; omega) (v i) hv (p := p) h
      have hpi := hp.rd (cap := 2 * n) i (by omega) (by omega)
      rw [Nat.zero_add] at hpi
      dsimp only
      rw [hzi, Option.bind_some, e, Option.bind_some, hpi, Option.bind_some, wr_some (by omega)]
      refine ⟨_, rfl, fun h24 => ?_, ?_⟩
      · exact (hpz h24).keep ho (by simp [rows])
      · unfold GData at hd ⊢
        have key : ∀ off, (∀ k < n, m' (off + k) = some (if k < i then scale n v k else 1)) →
            ∀ k < n, (fun k => if k = off + i then some (1 / row0 n (fun j => if j < i then scale n v j else 1) (dx v (v i)) i) else m' k)
              (off + k) = some (if k < i + 1 then scale n v k else 1) := by
          intro off hh k hk
          dsimp only
          by_cases hki : k = i
          · subst hki
            rw [if_pos rfl, if_pos (by omega), scale]
            simp [row0]
          · rw [if_neg (by omega), hh k hk]
            have : (k < i) = (k < i + 1) := by rw [eq_iff_iff]; omega
            simp only [this]
        by_cases h24 : n ≤ 24
        · simp only [if_pos h24] at hd ⊢
          exact key 0 hd
        · simp only [if_neg h24] at hd ⊢
          refine ⟨fun k hk => ?_, key n hd.2⟩
          show (if 0 + k = n + i then _ else _) = _
          rw [if_neg (by omega), hd.1 k hk])
  refine ⟨s2.2, by rw [e2]; rfl, ?_⟩
  unfold GData at h2 ⊢
  by_cases h24 : n ≤ 24
  · rw [if_pos h24] at h2 ⊢; exact h2.congr fun i hi => by simp [hi]
  · rw [if_neg h24] at h2 ⊢; exact ⟨h2.1, h2.2.congr fun i hi => by simp [hi]⟩

/-- the tabulated nodes decrease strictly from below 1 to above 0 -/
theorem gllz_sorted : ∀ n, 4 ≤ n → n ≤ 24 → ((1 :: gllz n) ++ [0]).Pairwise (fun a b => b < a) := by
  intro n h1 h2
  have : n = 4 ∨ n = 5 ∨ n = 6 ∨ n = 7 ∨ n = 8 ∨ n = 9 ∨ n = 10 ∨ n = 11 ∨ n = 12 ∨ n = 13 ∨ n = 14 ∨ n = 15 ∨ n = 16 ∨ n = 17 ∨
    n = 18 ∨ n = 19 ∨ n = 20 ∨ n = 21 ∨ n = 22 ∨ n = 23 ∨ n = 24 := by omega
  rcases this with h | h | h | h | h | h | h | h | h | h | h | h | h | h | h | h | h | h | h | h | h <;> subst h <;> decide +kernel

end Gslib.Poly
