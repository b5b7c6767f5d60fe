import Verif.Lemmas.ObboxReal
import Verif.Props.LinSolve
import Verif.Props.LobSetup

/-!
# The boxes cover the elements
-/

namespace Gslib.Obb
open Gslib.Num Gslib.Poly Gslib.Lob Gslib.Spec Finset Polynomial

theorem jac2_eq (nr : Nat) (zr : Nat → ℝ) (ns : Nat) (zs : Nat → ℝ) (U : Nat → Nat → ℝ) (r s : ℝ) :
    jac2 (fun c => poly2 nr zr ns zs (U c)) r s = J2 nr zr ns zs U r s 0 * J2 nr zr ns zs U r s 3 - J2 nr zr ns zs U r s 1 * J2 nr zr ns zs U r s 2 := by
  unfold jac2
  rw [(poly2_dr nr zr ns zs (U 0) r s).deriv, (poly2_ds nr zr ns zs (U 0) r s).deriv, (poly2_dr nr zr ns zs (U 1) r s).deriv, (poly2_ds nr zr ns zs (U 1) r s).deriv, Matrix.det_fin_two_of]
  rfl

theorem jac3_eq (nr : Nat) (zr : Nat → ℝ) (ns : Nat) (zs : Nat → ℝ) (nt : Nat) (zt : Nat → ℝ) (U : Nat → Nat → ℝ) (r s t : ℝ) :
    let J := J3 nr zr ns zs nt zt U r s t
    jac3 (fun c => poly3 nr zr ns zs nt zt (U c)) r s t = J 0 * (J 4 * J 8 - J 5 * J 7) + J 1 * (J 5 * J 6 - J 3 * J 8) + J 2 * (J 3 * J 7 - J 4 * J 6) := by
  intro J
  unfold jac3
  rw [(poly3_dr nr zr ns zs nt zt (U 0) r s t).deriv, (poly3_ds nr zr ns zs nt zt (U 0) r s t).deriv, (poly3_dt nr zr ns zs nt zt (U 0) r s t).deriv,
    (poly3_dr nr zr ns zs nt zt (U 1) r s t).deriv, (poly3_ds nr zr ns zs nt zt (U 1) r s t).deriv, (poly3_dt nr zr ns zs nt zt (U 1) r s t).deriv,
    (poly3_dr nr zr ns zs nt zt (U 2) r s t).deriv, (poly3_ds nr zr ns zs nt zt (U 2) r s t).deriv, (poly3_dt nr zr ns zs nt zt (U 2) r s t).deriv]
  rw [Matrix.det_fin_three]
  show J 0 * J 4 * J 8 - J 0 * J 5 * J 7 - J 1 * J 3 * J 8 + J 1 * J 5 * J 6 + J 2 * J 3 * J 7 - J 2 * J 4 * J 6 = _
  ring

theorem inv2_sum {J : Fin 4 → ℝ} (h : J 0 * J 3 - J 1 * J 2 ≠ 0) : ∀ c < 2, ∀ f < 2, ∑ e ∈ range 2, at2 (Lin.matInv2 J) c e * at2 J e f = if c = f then 1 else 0 := by
  have hi := inv_mul_cancel₀ h
  intro c hc f hf
  rw [sum_range_succ, sum_range_one]
  have hc : c = 0 ∨ c = 1 := by omega
  have hf : f = 0 ∨ f = 1 := by omega
  rcases hc with rfl | rfl <;> rcases hf with rfl | rfl <;> simp [at2, Lin.matInv2] <;> generalize (J 0 * J 3 - J 1 * J 2)⁻¹ = i at * <;>
    first | linear_combination hi | ring

theorem inv3_sum {J : Fin 9 → ℝ} (h : J 0 * (J 4 * J 8 - J 5 * J 7) + J 1 * (J 5 * J 6 - J 3 * J 8) + J 2 * (J 3 * J 7 - J 4 * J 6) ≠ 0) :
    ∀ c < 3, ∀ f < 3, ∑ e ∈ range 3, at3 (Lin.matInv3 J) c e * at3 J e f = if c = f then 1 else 0 := by
  have hi := inv_mul_cancel₀ h
  intro c hc f hf
  rw [sum_range_succ, sum_range_succ, sum_range_one]
  have hc : c = 0 ∨ c = 1 ∨ c = 2 := by omega
  have hf : f = 0 ∨ f = 1 ∨ f = 2 := by omega
  rcases hc with rfl | rfl | rfl <;> rcases hf with rfl | rfl | rfl <;> simp [at3, Lin.matInv3] <;>
    generalize (J 0 * (J 4 * J 8 - J 5 * J 7) + J 1 * (J 5 * J 6 - J 3 * J 8) + J 2 * (J 3 * J 7 - J 4 * J 6))⁻¹ = i at * <;>
    first | linear_combination hi | ring

/-- a positive tolerance puts the range strictly inside the expanded one -/
theorem expand_strict {a : ℝ × ℝ} {tol p : ℝ} (htol : 0 < tol) (ha : a.1 < a.2) (hp : a.1 ≤ p ∧ p ≤ a.2) : (expand a tol).1 < p ∧ p < (expand a tol).2 := by
  have h : 0 < (a.2 - a.1) * tol := mul_pos (sub_pos.2 ha) htol
  show (a.1 + a.2) / 2 - (a.2 - a.1) * (1 + tol) / 2 < p ∧ p < (a.1 + a.2) / 2 + (a.2 - a.1) * (1 + tol) / 2
  constructor <;> nlinarith [hp.1, hp.2]

section two
variable {nr mr : Nat} {I0r Dr : Mem ℝ} {zr : Nat → ℝ} (hr : DirOk nr mr I0r Dr zr) {ns ms : Nat} {I0s Ds : Mem ℝ} {zs : Nat → ℝ} (hs : DirOk ns ms I0s Ds zs)
include hr hs

theorem el2_covers {tol : ℝ} (htol : 0 ≤ tol) {ucap xo : Nat} {el : Nat → Mem ℝ} {U : Nat → Nat → ℝ} (hel : ∀ c < 2, Has (el c) xo (nr * ns) (U c)) (hc : xo + nr * ns ≤ ucap)
    (hj : ∀ r s, -1 < r → r < 1 → -1 < s → s < 1 → jac2 (fun c => poly2 nr zr ns zs (U c)) r s ≠ 0) :
    ∃ b, calcEl2 nr mr I0r Dr ns ms I0s Ds tol ucap el xo = some b ∧ (∀ c < 2, (b.x c).1 ≤ (b.x c).2) ∧
      (∀ r s, -1 ≤ r → r ≤ 1 → -1 ≤ s → s ≤ 1 → 0 < tol → ∀ c < 2, (b.x c).1 < poly2 nr zr ns zs (U c) r s ∧ poly2 nr zr ns zs (U c) r s < (b.x c).2) ∧
      ∀ r s, -1 ≤ r → r ≤ 1 → -1 ≤ s → s ≤ 1 → InBox 2 b.c0 b.A b.x (fun c => poly2 nr zr ns zs (U c) r s) ∧
        ∀ c < 2, |∑ e ∈ range 2, b.A c e * (poly2 nr zr ns zs (U e) r s - b.c0 e)| ≤ 1 / (1 + tol) := by
  obtain ⟨ab, tb, e, hab, htb⟩ := calcEl2_run hr hs (tol := tol) hel hc
  have hdet : ∀ r s, -1 < r → r < 1 → -1 < s → s < 1 → J2 nr zr ns zs U r s 0 * J2 nr zr ns zs U r s 3 - J2 nr zr ns zs U r s 1 * J2 nr zr ns zs U r s 2 ≠ 0 := by
    intro r s a1 a2 a3 a4
    have := hj r s a1 a2 a3 a4
    rwa [jac2_eq] at this
  have h0 := hdet 0 0 (by norm_num) (by norm_num) (by norm_num) (by norm_num)
  have hJ := inv2_sum h0
  generalize hx0 : (fun c => if c = 0 then poly2 nr zr ns zs (U 0) 0 0 else poly2 nr zr ns zs (U 1) 0 0) = x0 at *
  generalize hJi : at2 (Lin.matInv2 (J2 nr zr ns zs U 0 0)) = Ji at *
  have fa : ∀ c < 2, (∀ r s, -1 ≤ r → r ≤ 1 → -1 ≤ s → s ≤ 1 → (ab c).1 ≤ poly2 nr zr ns zs (U c) r s ∧ poly2 nr zr ns zs (U c) r s ≤ (ab c).2) ∧ (ab c).1 < (ab c).2 := by
    intro c hc2
    refine full2 (poly2_cont nr zr ns zs (U c)) (poly2_dr nr zr ns zs (U c)) (poly2_ds nr zr ns zs (U c)) (fun r s a1 a2 a3 a4 => ?_) (hab c hc2)
    by_contra hcon
    push Not at hcon
    refine hdet r s a1 a2 a3 a4 ?_
    have hc2 : c = 0 ∨ c = 1 := by omega
    rcases hc2 with rfl | rfl
    · have e1 : J2 nr zr ns zs U r s 0 = 0 := hcon.1
      have e2 : J2 nr zr ns zs U r s 1 = 0 := hcon.2
      rw [e1, e2]; ring
    · have e1 : J2 nr zr ns zs U r s 2 = 0 := hcon.1
      have e2 : J2 nr zr ns zs U r s 3 = 0 := hcon.2
      rw [e1, e2]; ring
  have et : ∀ c r s, poly2 nr zr ns zs (tVal 2 x0 Ji U c) r s = Ji c 0 * (poly2 nr zr ns zs (U 0) r s - x0 0) + Ji c 1 * (poly2 nr zr ns zs (U 1) r s - x0 1) := by
    intro c r s
    rw [poly2_tVal hr.two hs.two hr.inj hs.inj, sum_range_succ, sum_range_one]
  have ft : ∀ c < 2, (∀ r s, -1 ≤ r → r ≤ 1 → -1 ≤ s → s ≤ 1 → (tb c).1 ≤ poly2 nr zr ns zs (tVal 2 x0 Ji U c) r s ∧ poly2 nr zr ns zs (tVal 2 x0 Ji U c) r s ≤ (tb c).2) ∧ (tb c).1 < (tb c).2 := by
    intro c hc2
    refine full2 (fr := fun r s => Ji c 0 * J2 nr zr ns zs U r s 0 + Ji c 1 * J2 nr zr ns zs U r s 2) (fs := fun r s => Ji c 0 * J2 nr zr ns zs U r s 1 + Ji c 1 * J2 nr zr ns zs U r s 3)
      (poly2_cont nr zr ns zs _) (fun r s => ?_) (fun r s => ?_) (fun r s a1 a2 a3 a4 => ?_) (htb c hc2)
    · simp only [et]
      exact (((poly2_dr nr zr ns zs (U 0) r s).sub_const _).const_mul _).add (((poly2_dr nr zr ns zs (U 1) r s).sub_const _).const_mul _)
    · simp only [et]
      exact (((poly2_ds nr zr ns zs (U 0) r s).sub_const _).const_mul _).add (((poly2_ds nr zr ns zs (U 1) r s).sub_const _).const_mul _)
    · by_contra hcon
      push Not at hcon
      obtain ⟨c1, c2⟩ := hcon
      have hd := hdet r s a1 a2 a3 a4
      have z0 : Ji c 0 = 0 := by
        refine (mul_eq_zero.1 (?_ : Ji c 0 * _ = 0)).resolve_right hd
        linear_combination J2 nr zr ns zs U r s 3 * c1 - J2 nr zr ns zs U r s 2 * c2
      have z1 : Ji c 1 = 0 := by
        refine (mul_eq_zero.1 (?_ : Ji c 1 * _ = 0)).resolve_right hd
        linear_combination J2 nr zr ns zs U r s 0 * c2 - J2 nr zr ns zs U r s 1 * c1
      have := hJ c hc2 c hc2
      rw [sum_range_succ, sum_range_one, z0, z1, if_pos rfl] at this
      norm_num at this
  have hw : ∀ c < 2, (1 + tol) * ((tb c).2 - (tb c).1) ≠ 0 := fun c hc2 => mul_ne_zero (by linarith) (sub_pos.2 (ft c hc2).2).ne'
  rw [if_neg h0, if_neg (fun h => h.elim (hw 0 (by omega)) (hw 1 (by omega)))] at e
  refine ⟨_, e, fun c hc2 => ?_, fun r s a1 a2 a3 a4 htol' c hc2 => expand_strict htol' (fa c hc2).2 ((fa c hc2).1 r s a1 a2 a3 a4), fun r s a1 a2 a3 a4 => mkBox_in htol hJ (fun c hc2 => (ft c hc2).2) (fun c hc2 => (fa c hc2).1 r s a1 a2 a3 a4) (fun c hc2 => ?_)⟩
  · have := (fa c hc2).2
    show ((ab c).1 + (ab c).2) / 2 - ((ab c).2 - (ab c).1) * (1 + tol) / 2 ≤ ((ab c).1 + (ab c).2) / 2 + ((ab c).2 - (ab c).1) * (1 + tol) / 2
    have : 0 ≤ ((ab c).2 - (ab c).1) * (1 + tol) := mul_nonneg (by linarith) (by linarith)
    linarith
  · have := (ft c hc2).1 r s a1 a2 a3 a4
    rwa [poly2_tVal hr.two hs.two hr.inj hs.inj] at this
end two

section three
variable {nr mr : Nat} {I0r Dr : Mem ℝ} {zr : Nat → ℝ} (hr : DirOk nr mr I0r Dr zr) {ns ms : Nat} {I0s Ds : Mem ℝ} {zs : Nat → ℝ} (hs : DirOk ns ms I0s Ds zs)
  {nt mt : Nat} {I0t Dt : Mem ℝ} {zt : Nat → ℝ} (ht : DirOk nt mt I0t Dt zt)
include hr hs ht

theorem el3_covers {tol : ℝ} (htol : 0 ≤ tol) {ucap xo : Nat} {el : Nat → Mem ℝ} {U : Nat → Nat → ℝ} (hel : ∀ c < 3, Has (el c) xo (nr * ns * nt) (U c)) (hc : xo + nr * ns * nt ≤ ucap)
    (hj : ∀ r s t, -1 < r → r < 1 → -1 < s → s < 1 → -1 < t → t < 1 → jac3 (fun c => poly3 nr zr ns zs nt zt (U c)) r s t ≠ 0) :
    ∃ b, calcEl3 nr mr I0r Dr ns ms I0s Ds nt mt I0t Dt tol ucap el xo = some b ∧ (∀ c < 3, (b.x c).1 ≤ (b.x c).2) ∧
      (∀ r s t, -1 ≤ r → r ≤ 1 → -1 ≤ s → s ≤ 1 → -1 ≤ t → t ≤ 1 → 0 < tol → ∀ c < 3, (b.x c).1 < poly3 nr zr ns zs nt zt (U c) r s t ∧ poly3 nr zr ns zs nt zt (U c) r s t < (b.x c).2) ∧
      ∀ r s t, -1 ≤ r → r ≤ 1 → -1 ≤ s → s ≤ 1 → -1 ≤ t → t ≤ 1 → InBox 3 b.c0 b.A b.x (fun c => poly3 nr zr ns zs nt zt (U c) r s t) ∧
        ∀ c < 3, |∑ e ∈ range 3, b.A c e * (poly3 nr zr ns zs nt zt (U e) r s t - b.c0 e)| ≤ 1 / (1 + tol) := by
  obtain ⟨ab, tb, e, hab, htb⟩ := calcEl3_run hr hs ht (tol := tol) hel hc
  have hdet : ∀ r s t, -1 < r → r < 1 → -1 < s → s < 1 → -1 < t → t < 1 →
      J3 nr zr ns zs nt zt U r s t 0 * (J3 nr zr ns zs nt zt U r s t 4 * J3 nr zr ns zs nt zt U r s t 8 - J3 nr zr ns zs nt zt U r s t 5 * J3 nr zr ns zs nt zt U r s t 7) +
      J3 nr zr ns zs nt zt U r s t 1 * (J3 nr zr ns zs nt zt U r s t 5 * J3 nr zr ns zs nt zt U r s t 6 - J3 nr zr ns zs nt zt U r s t 3 * J3 nr zr ns zs nt zt U r s t 8) +
      J3 nr zr ns zs nt zt U r s t 2 * (J3 nr zr ns zs nt zt U r s t 3 * J3 nr zr ns zs nt zt U r s t 7 - J3 nr zr ns zs nt zt U r s t 4 * J3 nr zr ns zs nt zt U r s t 6) ≠ 0 := by
    intro r s t a1 a2 a3 a4 a5 a6
    have := hj r s t a1 a2 a3 a4 a5 a6
    rwa [jac3_eq] at this
  have h0 := hdet 0 0 0 (by norm_num) (by norm_num) (by norm_num) (by norm_num) (by norm_num) (by norm_num)
  have hJ := inv3_sum h0
  generalize hx0 : (fun c => if c = 0 then poly3 nr zr ns zs nt zt (U 0) 0 0 0 else if c = 1 then poly3 nr zr ns zs nt zt (U 1) 0 0 0 else poly3 nr zr ns zs nt zt (U 2) 0 0 0) = x0 at *
  generalize hJi : at3 (Lin.matInv3 (J3 nr zr ns zs nt zt U 0 0 0)) = Ji at *
  have fa : ∀ c < 3, (∀ r s t, -1 ≤ r → r ≤ 1 → -1 ≤ s → s ≤ 1 → -1 ≤ t → t ≤ 1 →
      (ab c).1 ≤ poly3 nr zr ns zs nt zt (U c) r s t ∧ poly3 nr zr ns zs nt zt (U c) r s t ≤ (ab c).2) ∧ (ab c).1 < (ab c).2 := by
    intro c hc2
    refine full3 (poly3_cont nr zr ns zs nt zt (U c)) (poly3_dr nr zr ns zs nt zt (U c)) (poly3_ds nr zr ns zs nt zt (U c)) (poly3_dt nr zr ns zs nt zt (U c)) (fun r s t a1 a2 a3 a4 a5 a6 => ?_) (hab c hc2)
    by_contra hcon
    push Not at hcon
    refine hdet r s t a1 a2 a3 a4 a5 a6 ?_
    have hc2 : c = 0 ∨ c = 1 ∨ c = 2 := by omega
    rcases hc2 with rfl | rfl | rfl
    · have e1 : J3 nr zr ns zs nt zt U r s t 0 = 0 := hcon.1
      have e2 : J3 nr zr ns zs nt zt U r s t 1 = 0 := hcon.2.1
      have e3 : J3 nr zr ns zs nt zt U r s t 2 = 0 := hcon.2.2
      rw [e1, e2, e3]; ring
    · have e1 : J3 nr zr ns zs nt zt U r s t 3 = 0 := hcon.1
      have e2 : J3 nr zr ns zs nt zt U r s t 4 = 0 := hcon.2.1
      have e3 : J3 nr zr ns zs nt zt U r s t 5 = 0 := hcon.2.2
      rw [e1, e2, e3]; ring
    · have e1 : J3 nr zr ns zs nt zt U r s t 6 = 0 := hcon.1
      have e2 : J3 nr zr ns zs nt zt U r s t 7 = 0 := hcon.2.1
      have e3 : J3 nr zr ns zs nt zt U r s t 8 = 0 := hcon.2.2
      rw [e1, e2, e3]; ring
  have et : ∀ c r s t, poly3 nr zr ns zs nt zt (tVal 3 x0 Ji U c) r s t =
      Ji c 0 * (poly3 nr zr ns zs nt zt (U 0) r s t - x0 0) + Ji c 1 * (poly3 nr zr ns zs nt zt (U 1) r s t - x0 1) + Ji c 2 * (poly3 nr zr ns zs nt zt (U 2) r s t - x0 2) := by
    intro c r s t
    rw [poly3_tVal hr.two hs.two ht.two hr.inj hs.inj ht.inj, sum_range_succ, sum_range_succ, sum_range_one]
  have ft : ∀ c < 3, (∀ r s t, -1 ≤ r → r ≤ 1 → -1 ≤ s → s ≤ 1 → -1 ≤ t → t ≤ 1 →
      (tb c).1 ≤ poly3 nr zr ns zs nt zt (tVal 3 x0 Ji U c) r s t ∧ poly3 nr zr ns zs nt zt (tVal 3 x0 Ji U c) r s t ≤ (tb c).2) ∧ (tb c).1 < (tb c).2 := by
    intro c hc2
    refine full3
      (fr := fun r s t => Ji c 0 * J3 nr zr ns zs nt zt U r s t 0 + Ji c 1 * J3 nr zr ns zs nt zt U r s t 3 + Ji c 2 * J3 nr zr ns zs nt zt U r s t 6)
      (fs := fun r s t => Ji c 0 * J3 nr zr ns zs nt zt U r s t 1 + Ji c 1 * J3 nr zr ns zs nt zt U r s t 4 + Ji c 2 * J3 nr zr ns zs nt zt U r s t 7)
      (ft := fun r s t => Ji c 0 * J3 nr zr ns zs nt zt U r s t 2 + Ji c 1 * J3 nr zr ns zs nt zt U r s t 5 + Ji c 2 * J3 nr zr ns zs nt zt U r s t 8)
      (poly3_cont nr zr ns zs nt zt _) (fun r s t => ?_) (fun r s t => ?_) (fun r s t => ?_) (fun r s t a1 a2 a3 a4 a5 a6 => ?_) (htb c hc2)
    · simp only [et]
      exact ((((poly3_dr nr zr ns zs nt zt (U 0) r s t).sub_const _).const_mul _).add (((poly3_dr nr zr ns zs nt zt (U 1) r s t).sub_const _).const_mul _)).add
        (((poly3_dr nr zr ns zs nt zt (U 2) r s t).sub_const _).const_mul _)
    · simp only [et]
      exact ((((poly3_ds nr zr ns zs nt zt (U 0) r s t).sub_const _).const_mul _).add (((poly3_ds nr zr ns zs nt zt (U 1) r s t).sub_const _).const_mul _)).add
        (((poly3_ds nr zr ns zs nt zt (U 2) r s t).sub_const _).const_mul _)
    · simp only [et]
      exact ((((poly3_dt nr zr ns zs nt zt (U 0) r s t).sub_const _).const_mul _).add (((poly3_dt nr zr ns zs nt zt (U 1) r s t).sub_const _).const_mul _)).add
        (((poly3_dt nr zr ns zs nt zt (U 2) r s t).sub_const _).const_mul _)
    · by_contra hcon
      push Not at hcon
      obtain ⟨c1, c2, c3⟩ := hcon
      have hd := hdet r s t a1 a2 a3 a4 a5 a6
      generalize J3 nr zr ns zs nt zt U r s t = J at *
      have z0 : Ji c 0 = 0 := by
        refine (mul_eq_zero.1 (?_ : Ji c 0 * _ = 0)).resolve_right hd
        linear_combination (J 4 * J 8 - J 5 * J 7) * c1 + (J 5 * J 6 - J 3 * J 8) * c2 + (J 3 * J 7 - J 4 * J 6) * c3
      have z1 : Ji c 1 = 0 := by
        refine (mul_eq_zero.1 (?_ : Ji c 1 * _ = 0)).resolve_right hd
        linear_combination (J 2 * J 7 - J 1 * J 8) * c1 + (J 0 * J 8 - J 2 * J 6) * c2 + (J 1 * J 6 - J 0 * J 7) * c3
      have z2 : Ji c 2 = 0 := by
        refine (mul_eq_zero.1 (?_ : Ji c 2 * _ = 0)).resolve_right hd
        linear_combination (J 1 * J 5 - J 2 * J 4) * c1 + (J 2 * J 3 - J 0 * J 5) * c2 + (J 0 * J 4 - J 1 * J 3) * c3
      have := hJ c hc2 c hc2
      rw [sum_range_succ, sum_range_succ, sum_range_one, z0, z1, z2, if_pos rfl] at this
      norm_num at this
  have hw : ∀ c < 3, (1 + tol) * ((tb c).2 - (tb c).1) ≠ 0 := fun c hc2 => mul_ne_zero (by linarith) (sub_pos.2 (ft c hc2).2).ne'
  rw [if_neg h0, if_neg (fun h => h.elim (hw 0 (by omega)) (fun h => h.elim (hw 1 (by omega)) (hw 2 (by omega))))] at e
  refine ⟨_, e, fun c hc2 => ?_, fun r s t a1 a2 a3 a4 a5 a6 htol' c hc2 => expand_strict htol' (fa c hc2).2 ((fa c hc2).1 r s t a1 a2 a3 a4 a5 a6), fun r s t a1 a2 a3 a4 a5 a6 => mkBox_in htol hJ (fun c hc2 => (ft c hc2).2) (fun c hc2 => (fa c hc2).1 r s t a1 a2 a3 a4 a5 a6) (fun c hc2 => ?_)⟩
  · have := (fa c hc2).2
    show ((ab c).1 + (ab c).2) / 2 - ((ab c).2 - (ab c).1) * (1 + tol) / 2 ≤ ((ab c).1 + (ab c).2) / 2 + ((ab c).2 - (ab c).1) * (1 + tol) / 2
    have : 0 ≤ ((ab c).2 - (ab c).1) * (1 + tol) := mul_nonneg (by linarith) (by linarith)
    linarith
  · have := (ft c hc2).1 r s t a1 a2 a3 a4 a5 a6
    rwa [poly3_tVal hr.two hs.two ht.two hr.inj hs.inj ht.inj] at this
end three

end Gslib.Obb
