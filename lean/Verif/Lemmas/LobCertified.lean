import Verif.Lemmas.LobTab
import Verif.Props.LobSetup
import Mathlib.Analysis.Calculus.Deriv.Polynomial

/-!
# From a certificate to a valid table
-/

namespace Gslib.Lob
open Gslib.Spec Gslib.Poly Gslib.Props Gslib.Num Polynomial Finset

/-- cells `a, ..., a+len-1` -/
noncomputable def cellsOk (P : Par) (off : ℕ) (Z : List ℕ) (rows : List Row) (s a len : ℕ) : Bool :=
  @Nat.rec (fun _ => Bool) true (fun t ih => and (cellOk P off Z rows (Nat.add a t) (cellC s (Nat.add a t)) (cellR s (Nat.add a t))) ih) len

theorem cellsOk_iff {P : Par} {off : ℕ} {Z : List ℕ} {rows : List Row} {s a len : ℕ} (h : cellsOk P off Z rows s a len = true) (k : ℕ) (h1 : a ≤ k) (h2 : k < a + len) :
    cellOk P off Z rows k (cellC s k) (cellR s k) = true := by
  induction len with
  | zero => omega
  | succ t ih =>
    have h' : and (cellOk P off Z rows (a + t) (cellC s (a + t)) (cellR s (a + t))) (cellsOk P off Z rows s a t) = true := h
    rw [Bool.and_eq_true] at h'
    by_cases e : k = a + t
    · rw [e]; exact h'.1
    · exact ih h'.2 (by omega)

/-- static checks -/
def Clu.ok (n M : ℕ) (c : Clu) : Bool :=
  decide (c.k1 < c.k2) && decide (c.k2 ≤ M) && decide (3 ≤ c.k1 * (4 * n - 1) / M) && decide (12 * (c.k1 * (4 * n - 1) / M) * c.b ≤ c.a * (2 * (c.k1 * (4 * n - 1) / M) + 1) ^ 2) &&
  decide (3 ≤ (M - c.k2) * (4 * n - 1) / M) && decide (12 * ((M - c.k2) * (4 * n - 1) / M) * c.d ≤ c.c * (2 * ((M - c.k2) * (4 * n - 1) / M) + 1) ^ 2)

theorem Clu.ok_iff {n M : ℕ} {c : Clu} (h : c.ok n M = true) : c.Ok n M := by
  unfold Clu.ok at h
  simp only [Bool.and_eq_true, decide_eq_true_eq] at h
  exact ⟨h.1.1.1.1.1, h.1.1.1.1.2, h.1.1.1.2, h.1.1.2, h.1.2, h.2⟩

def Row.ok (n M : ℕ) (r : Row) : Bool := decide (r.bl ≤ 2 * r.al) && decide (r.br ≤ 2 * r.ar) && r.cl.all (Clu.ok n M)

/-- offset of the digits -/
noncomputable def offc (P : Par) : ℕ := Nat.mul P.h (Nat.div (Nat.sub (Nat.pow 2 (Nat.mul P.B P.n)) 1) (Nat.sub (Nat.pow 2 P.B) 1))

/-- nodes, data, and the checks of all cells -/
structure Certified (n : ℕ) (P : Par) (Z : List ℕ) (rows : List Row) (s : ℕ) : Prop where
  hn : P.n = n
  ok : P.Ok Z (3 * 10 ^ 51)
  win : P.Win
  M : P.M * s = 1024
  B : 0 < P.B
  le : rows.length ≤ n
  half : n ≤ 2 * rows.length
  stat : rows.all (Row.ok n P.M) = true
  cells : ∀ k < P.M, cellOk P (offc P) Z rows k (cellC s k) (cellR s k) = true
  nodes : ∀ j < n, ((Z.getD j 0 : ℕ) : ℚ) = 10 ^ 51 * (1 + fixVal n j)

theorem tab_lt (j : ℕ) : tab j < 295147905179352825856 := Nat.mod_lt _ (by norm_num)

theorem Certified.good {n : ℕ} {P : Par} {Z : List ℕ} {rows : List Row} {s : ℕ} (h : Certified n P Z rows s) {i : ℕ} (hi : i < rows.length) :
    Good (fun x => (derivative^[2] (rootsP Z i)).eval (10 ^ 51 * (1 + x))) (fun x => (derivative^[3] (rootsP Z i)).eval (10 ^ 51 * (1 + x))) (Real.pi / (4 * n - 1)) := by
  have hst := List.all_eq_true.1 h.stat _ (List.getElem_mem hi)
  unfold Row.ok at hst
  rw [Bool.and_eq_true, Bool.and_eq_true, decide_eq_true_eq, decide_eq_true_eq, List.all_eq_true] at hst
  have := good_of_cells h.win (r := rows[i]) hst.1.1 hst.1.2 (fun c hc => by rw [h.hn]; exact Clu.ok_iff (hst.2 c hc)) (C := fun k => (cellC s k : ℝ)) (R := fun k => (cellR s k : ℝ)) (S := 10 ^ 51)
    (fun k hk => cellOk_sound h.ok (offs_eq _ _ _ h.B).symm (by
      have t1 := tab_lt (k * s)
      have t2 := tab_lt ((k + 1) * s)
      show (tab (k * s) + tab ((k + 1) * s)) * 5000000000000000000000000000000 + 1 ≤ _
      omega) (by
      show 0 < _ + 10000000000000000000000000000000000000
      omega) (by rw [h.hn]; exact h.le) (h.cells k hk) i hi)
    (fun k hk θ h0 h1 => cell_loc h.M hk h0 h1)
  rw [h.hn] at this
  exact this

/-! ### The basis polynomials -/

theorem Good.scale3 {f2 f3 : ℝ → ℝ} {d w : ℝ} (hw : 0 < w) (h : Good f2 f3 d) : Good f2 (fun x => w * f3 x) d where
  left := h.left
  right := h.right
  infl := by
    intro θ h0 h1 hz'
    obtain ⟨σ, hs, h3, ⟨J, k, K, a1, a2, a3, a4, a5⟩, J', k', K', b1, b2, b3, b4, b5⟩ := h.infl θ h0 h1 hz'
    refine ⟨σ, hs, ?_, ⟨J, w * k, w * K, a1, a2, mul_nonneg hw.le a3, ?_, ?_⟩, J', w * k', w * K', b1, b2, mul_nonneg hw.le b3, ?_, ?_⟩
    · intro φ c0 c1 c2
      have := mul_nonneg hw.le (h3 φ c0 c1 c2)
      linarith
    · have := mul_le_mul_of_nonneg_left a4 hw.le
      linarith
    · intro φ c0 c1 c2
      have := a5 φ c0 c1 c2
      have m1 := mul_le_mul_of_nonneg_left this.1 hw.le
      have m2 := mul_le_mul_of_nonneg_left this.2 hw.le
      constructor <;> linarith
    · have := mul_le_mul_of_nonneg_left b4 hw.le
      linarith
    · intro φ c0 c1 c2
      have := b5 φ c0 c1 c2
      have m1 := mul_le_mul_of_nonneg_left this.1 hw.le
      have m2 := mul_le_mul_of_nonneg_left this.2 hw.le
      constructor <;> linarith

theorem iterate_derivative_lin (p : ℝ[X]) (a b : ℝ) (k : ℕ) : derivative^[k] (p.comp (C a * X + C b)) = C (a ^ k) * (derivative^[k] p).comp (C a * X + C b) := by
  induction k generalizing p with
  | zero => simp
  | succ k ih =>
    rw [Function.iterate_succ, Function.comp_apply, derivative_comp, show derivative (C a * X + C b : ℝ[X]) = C a by simp, iterate_derivative_C_mul, ih, Function.comp_apply, ← mul_assoc, ← C_mul, pow_succ, mul_comm a]

theorem iterate_derivative_lin_eval (p : ℝ[X]) (a b : ℝ) (k : ℕ) (x : ℝ) : (derivative^[k] (p.comp (C a * X + C b))).eval x = a ^ k * (derivative^[k] p).eval (a * x + b) := by
  rw [iterate_derivative_lin, eval_mul, eval_C, eval_comp]; simp

theorem prod_map_range (l : List ℕ) (f : ℕ → ℝ[X]) : (l.map f).prod = ∏ j ∈ range l.length, f (l.getD j 0) := by
  induction l with
  | nil => simp
  | cons c l ih => rw [List.map_cons, List.prod_cons, ih, List.length_cons, prod_range_succ', mul_comm]; simp

theorem rootsP_eq (Z : List ℕ) {i : ℕ} (hi : i < Z.length) : rootsP Z i = ∏ j ∈ (range Z.length).erase i, (X - C ((Z.getD j 0 : ℕ) : ℝ)) := by
  have h1 := List.CommMonoid.mul_prod_eraseIdx (l := Z.map fun z : ℕ => (X - C (z : ℝ) : ℝ[X])) (i := i) (by rw [List.length_map]; exact hi)
  rw [List.eraseIdx_map, prod_map_range Z (fun z : ℕ => (X - C (z : ℝ) : ℝ[X])), ← mul_prod_erase (range Z.length) _ (mem_range.2 hi)] at h1
  have e : (Z.map fun z : ℕ => (X - C (z : ℝ) : ℝ[X]))[i]'(by rw [List.length_map]; exact hi) = X - C ((Z.getD i 0 : ℕ) : ℝ) := by
    rw [List.getElem_map, List.getD_eq_getElem?_getD, List.getElem?_eq_getElem hi]; rfl
  rw [e] at h1
  exact mul_left_cancel₀ (X_sub_C_ne_zero _) h1

theorem basis_good_of_scale {n : ℕ} {Z : List ℕ} (hlen : Z.length = n) {z : ℕ → ℝ} (hz : ∀ j < n, ((Z.getD j 0 : ℕ) : ℝ) = 10 ^ 51 * (1 + z j)) (hinj : ∀ i < n, ∀ j < n, z i = z j → i = j) {i : ℕ} (hi : i < n) {d : ℝ}
    (h : Good (fun x => (derivative^[2] (rootsP Z i)).eval (10 ^ 51 * (1 + x))) (fun x => (derivative^[3] (rootsP Z i)).eval (10 ^ 51 * (1 + x))) d) :
    Good (fun x => (derivative^[2] (Lagrange.basis (range n) z i)).eval x) (fun x => (derivative^[3] (Lagrange.basis (range n) z i)).eval x) d := by
  set S : ℝ := 10 ^ 51 with hS
  have hSp : 0 < S := by rw [hS]; positivity
  set w : ℝ := ∏ j ∈ (range n).erase i, ((z i - z j)⁻¹ * S⁻¹) with hw
  have hw0 : w ≠ 0 := by
    rw [hw]
    refine prod_ne_zero_iff.2 fun j hj => mul_ne_zero (inv_ne_zero ?_) (inv_ne_zero hSp.ne')
    rw [mem_erase, mem_range] at hj
    exact sub_ne_zero.2 fun e => hj.1 (hinj i hi j hj.2 e).symm
  have hb : Lagrange.basis (range n) z i = C w * (rootsP Z i).comp (C S * X + C S) := by
    rw [rootsP_eq Z (by omega), hlen, Polynomial.prod_comp, hw, map_prod, ← prod_mul_distrib]
    unfold Lagrange.basis Lagrange.basisDivisor
    refine prod_congr rfl fun j hj => ?_
    rw [mem_erase, mem_range] at hj
    rw [hz j hj.2, sub_comp, X_comp, C_comp, C_mul, mul_assoc]
    congr 1
    have : (C S * X + C S - C (S * (1 + z j)) : ℝ[X]) = C S * (X - C (z j)) := by
      rw [C_mul, C_add, C_1]; ring
    rw [this, ← mul_assoc, ← C_mul, inv_mul_cancel₀ hSp.ne', C_1, one_mul]
  have e : ∀ k x, (derivative^[k] (Lagrange.basis (range n) z i)).eval x = w * S ^ k * (derivative^[k] (rootsP Z i)).eval (S * (1 + x)) := by
    intro k x
    rw [hb, iterate_derivative_C_mul, eval_mul, eval_C, iterate_derivative_lin_eval, show S * x + S = S * (1 + x) by ring, mul_assoc]
  have g := (h.scale3 hSp).scale (w := w * S ^ 2) (mul_ne_zero hw0 (pow_ne_zero 2 hSp.ne'))
  have e2 : (fun x => (derivative^[2] (Lagrange.basis (range n) z i)).eval x) = fun x => w * S ^ 2 * (derivative^[2] (rootsP Z i)).eval (S * (1 + x)) := funext (e 2)
  have e3 : (fun x => (derivative^[3] (Lagrange.basis (range n) z i)).eval x) = fun x => w * S ^ 2 * (S * (derivative^[3] (rootsP Z i)).eval (S * (1 + x))) := funext fun x => by rw [e 3]; ring
  rw [e2, e3]
  exact g

/-- symmetric nodes -/
theorem basis_refl {n : ℕ} {z : ℕ → ℝ} (hsym : ∀ j < n, z (n - 1 - j) = -z j) {i : ℕ} (hi : i < n) : Lagrange.basis (range n) z i = (Lagrange.basis (range n) z (n - 1 - i)).comp (C (-1) * X + C 0) := by
  unfold Lagrange.basis
  rw [Polynomial.prod_comp]
  refine prod_nbij' (fun j => n - 1 - j) (fun j => n - 1 - j) ?_ ?_ ?_ ?_ ?_
  · intro j hj; rw [mem_erase, mem_range] at hj ⊢; omega
  · intro j hj; rw [mem_erase, mem_range] at hj ⊢; omega
  · intro j hj; rw [mem_erase, mem_range] at hj; omega
  · intro j hj; rw [mem_erase, mem_range] at hj; omega
  · intro j hj
    rw [mem_erase, mem_range] at hj
    unfold Lagrange.basisDivisor
    rw [hsym i hi, hsym j hj.2, show -z i - -z j = -(z i - z j) by ring, inv_neg, mul_comp, C_comp, sub_comp, X_comp, C_comp]
    simp only [map_neg, map_one, map_zero, C_neg, C_0]
    ring

theorem basis_good_refl {n : ℕ} {z : ℕ → ℝ} (hsym : ∀ j < n, z (n - 1 - j) = -z j) {i : ℕ} (hi : i < n) {d : ℝ}
    (h : Good (fun x => (derivative^[2] (Lagrange.basis (range n) z (n - 1 - i))).eval x) (fun x => (derivative^[3] (Lagrange.basis (range n) z (n - 1 - i))).eval x) d) :
    Good (fun x => (derivative^[2] (Lagrange.basis (range n) z i)).eval x) (fun x => (derivative^[3] (Lagrange.basis (range n) z i)).eval x) d := by
  have g := h.refl
  have e : ∀ k x, (derivative^[k] (Lagrange.basis (range n) z i)).eval x = (-1) ^ k * (derivative^[k] (Lagrange.basis (range n) z (n - 1 - i))).eval (-x) := by
    intro k x
    rw [basis_refl hsym hi, iterate_derivative_lin_eval]; simp
  have e2 : (fun x => (derivative^[2] (Lagrange.basis (range n) z i)).eval x) = fun x => (derivative^[2] (Lagrange.basis (range n) z (n - 1 - i))).eval (-x) := funext fun x => by rw [e]; ring
  have e3 : (fun x => (derivative^[3] (Lagrange.basis (range n) z i)).eval x) = fun x => -(derivative^[3] (Lagrange.basis (range n) z (n - 1 - i))).eval (-x) := funext fun x => by rw [e]; ring
  rw [e2, e3]
  exact g

theorem basis_d3 (n : ℕ) (z : ℕ → ℝ) (i : ℕ) : D3 (basisAt n z i) (fun x => (derivative (Lagrange.basis (range n) z i)).eval x)
    (fun x => (derivative^[2] (Lagrange.basis (range n) z i)).eval x) (fun x => (derivative^[3] (Lagrange.basis (range n) z i)).eval x) :=
  ⟨fun x => (Lagrange.basis (range n) z i).hasDerivAt x, fun x => (derivative (Lagrange.basis (range n) z i)).hasDerivAt x, fun x => (derivative (derivative (Lagrange.basis (range n) z i))).hasDerivAt x⟩

/-- the nodes `h` by angle -/
theorem hVal_cheb {m : ℕ} (hm : 2 ≤ m) {j : ℕ} (hj : j < m) : hVal m (cheb m) j = -Real.cos (j * (Real.pi / ((m : ℝ) - 1))) := by
  have hmR : (2 : ℝ) ≤ m := by exact_mod_cast hm
  have hp : (m : ℝ) - 1 ≠ 0 := by linarith
  unfold hVal
  split_ifs with h0 h1
  · subst h0; simp
  · subst h1
    rw [Nat.cast_sub (by omega), Nat.cast_one, mul_div_cancel₀ _ hp, Real.cos_pi, neg_neg]
  · rw [cheb, ← Real.cos_pi_sub]
    congr 1
    field_simp

/-- the pairs of the table enclose values and tangents -/
theorem table_nodeOk {n m : ℕ} (hm : 2 ≤ m) {z H : ℕ → ℝ} (hinj : ∀ i < n, ∀ j < n, z i = z j → i = j) (hn : 2 ≤ n) (z0 : z 0 = -1) (z1 : z (n - 1) = 1) (H0 : H 0 = -1) (H1 : H (m - 1) = 1) {i : ℕ} (hi : i < n) :
    NodeOk (basisAt n z i) (fun x => (derivative (Lagrange.basis (range n) z i)).eval x) m H (tableVal n m z H i) := by
  have hnode : ∀ j < n, basisAt n z i (z j) = if i = j then 1 else 0 := by
    intro j hj
    unfold basisAt
    split_ifs with h
    · subst h
      exact Lagrange.eval_basis_self (fun a ha b hb e => hinj a (mem_range.1 ha) b (mem_range.1 hb) e) (mem_range.2 hi)
    · exact Lagrange.eval_basis_of_ne h (mem_range.2 hj)
  have hin : ∀ j, j ≠ 0 → j ≠ m - 1 → tableVal n m z H i j = innerVal n m z H i j := fun j h0 h1 => by rw [tableVal, if_neg (by omega)]
  refine ⟨fun j hj => ?_, fun j hj => ?_, fun j hj hj' => ?_⟩
  · by_cases h0 : j = 0
    · subst h0
      rw [tableVal, if_pos (Or.inl rfl), endVal, if_pos rfl, H0, ← z0, hnode 0 (by omega)]
      exact ⟨le_refl _, le_refl _⟩
    · by_cases h1 : j = m - 1
      · have hv : basisAt n z i 1 = if i = n - 1 then 1 else 0 := by rw [← hnode (n - 1) (by omega), z1]
        rw [tableVal, if_pos (Or.inr h1), endVal, if_neg h0, h1, H1, hv]
        exact ⟨le_refl _, le_refl _⟩
      · rw [hin j h0 h1, innerVal]
        have := nodeBounds_le (H j) ((H j + H (j - 1)) / 2) ((H j + H (j + 1)) / 2) (basisAt n z i ((H j + H (j - 1)) / 2)) ((derivative (Lagrange.basis (range n) z i)).eval ((H j + H (j - 1)) / 2))
          (basisAt n z i ((H j + H (j + 1)) / 2)) ((derivative (Lagrange.basis (range n) z i)).eval ((H j + H (j + 1)) / 2)) (basisAt n z i (H j))
        exact ⟨this.1.1, this.2.1⟩
  · rw [hin (j + 1) (by omega) (by omega), innerVal]
    have := nodeBounds_le (H (j + 1)) ((H (j + 1) + H (j + 1 - 1)) / 2) ((H (j + 1) + H (j + 1 + 1)) / 2) (basisAt n z i ((H (j + 1) + H (j + 1 - 1)) / 2)) ((derivative (Lagrange.basis (range n) z i)).eval ((H (j + 1) + H (j + 1 - 1)) / 2))
      (basisAt n z i ((H (j + 1) + H (j + 1 + 1)) / 2)) ((derivative (Lagrange.basis (range n) z i)).eval ((H (j + 1) + H (j + 1 + 1)) / 2)) (basisAt n z i (H (j + 1)))
    have e : midp H j = (H (j + 1) + H (j + 1 - 1)) / 2 := by unfold midp; rw [Nat.add_sub_cancel, add_comm]
    unfold tang
    rw [e]
    exact ⟨this.1.2.1, this.2.2.1⟩
  · rw [hin j (by omega) (by omega), innerVal]
    have := nodeBounds_le (H j) ((H j + H (j - 1)) / 2) ((H j + H (j + 1)) / 2) (basisAt n z i ((H j + H (j - 1)) / 2)) ((derivative (Lagrange.basis (range n) z i)).eval ((H j + H (j - 1)) / 2))
      (basisAt n z i ((H j + H (j + 1)) / 2)) ((derivative (Lagrange.basis (range n) z i)).eval ((H j + H (j + 1)) / 2)) (basisAt n z i (H j))
    exact ⟨this.1.2.2, this.2.2.2⟩

/-- a certificate gives a valid table for every `m>=4n` -/
theorem Certified.valid {n : ℕ} {P : Par} {Z : List ℕ} {rows : List Row} {s : ℕ} (h : Certified n P Z rows s) (hn : n ≤ 24) {m : ℕ} (hm : 4 * n ≤ m) :
    ValidTable n m (fixVal n) (hVal m (cheb m)) (tableVal n m (fixVal n) (hVal m (cheb m))) := by
  have h4 : 4 ≤ n := by rw [← h.hn]; exact h.win.n
  have hinj : ∀ i < n, ∀ j < n, fixVal (K := ℝ) n i = fixVal n j → i = j := by
    intro i hi j hj e
    rcases Nat.lt_trichotomy i j with h | h | h
    · exact absurd e (ne_of_lt (fixVal_mono n hn i j h hj))
    · exact h
    · exact absurd e.symm (ne_of_lt (fixVal_mono n hn j i h hi))
  have hlen : Z.length = n := by rw [h.ok.len, h.hn]
  have hnodes : ∀ j < n, ((Z.getD j 0 : ℕ) : ℝ) = 10 ^ 51 * (1 + fixVal n j) := by
    intro j hj
    have := h.nodes j hj
    rw [Gslib.Props.fixVal_cast (K := ℝ)]
    exact_mod_cast congrArg (fun q : ℚ => (q : ℝ)) this
  have hsym : ∀ j < n, fixVal (K := ℝ) n (n - 1 - j) = -fixVal n j := fun j hj => fixVal_sym n j (by omega) hj
  have hgood : ∀ i < n, Good (fun x => (derivative^[2] (Lagrange.basis (range n) (fixVal (K := ℝ) n) i)).eval x) (fun x => (derivative^[3] (Lagrange.basis (range n) (fixVal (K := ℝ) n) i)).eval x) (Real.pi / (4 * n - 1)) := by
    intro i hi
    by_cases hr : i < rows.length
    · exact basis_good_of_scale hlen hnodes hinj hi (h.good hr)
    · have := h.half
      exact basis_good_refl hsym hi (basis_good_of_scale hlen hnodes hinj (by omega) (h.good (by omega)))
  have hmR : (4 : ℝ) * n ≤ m := by exact_mod_cast hm
  have hnR : (4 : ℝ) ≤ n := by exact_mod_cast h4
  have hm1 : (0 : ℝ) < (m : ℝ) - 1 := by linarith
  have H1 : hVal m (cheb m) (m - 1) = 1 := by rw [hVal, if_neg (by omega), if_pos rfl]
  refine ⟨by omega, rfl, H1, fun i hi => ?_⟩
  refine good_bounds (basis_d3 n _ i) (m := m) (d := Real.pi / ((m : ℝ) - 1)) (D := Real.pi / (4 * n - 1)) (by omega) (div_pos Real.pi_pos hm1) ?_ ?_ ?_ (fun j hj => hVal_cheb (by omega) hj)
    (table_nodeOk (by omega) hinj (by omega) (by simp [fixVal]) (by rw [fixVal, if_neg (by omega), if_pos rfl]) rfl H1 hi) (hgood i hi)
  · rw [div_le_iff₀ hm1]
    have := Real.pi_lt_d2
    linarith
  · exact div_le_div_of_nonneg_left Real.pi_pos.le (by linarith) (by linarith)
  · field_simp

end Gslib.Lob
