import Verif.Lemmas.LobCert4
import Verif.Lemmas.LobCert5
import Verif.Lemmas.LobCert6
import Verif.Lemmas.LobCert7
import Verif.Lemmas.LobCert8
import Verif.Lemmas.LobCert9
import Verif.Lemmas.LobCert10
import Verif.Lemmas.LobCert11
import Verif.Lemmas.LobCert12
import Verif.Lemmas.LobCert13
import Verif.Lemmas.LobCert14
import Verif.Lemmas.LobCert15
import Verif.Lemmas.LobCert16
import Verif.Lemmas.LobCert17
import Verif.Lemmas.LobCert18
import Verif.Lemmas.LobCert19
import Verif.Lemmas.LobCert20
import Verif.Lemmas.LobCert21
import Verif.Lemmas.LobCert22
import Verif.Lemmas.LobCert23
import Verif.Lemmas.LobCert24
import Verif.Props.LobSetup
import Verif.Props.Obbox

/-!
# C37, C39: the bounds of `lob_bnd.c` without hypotheses for 2 to 24 nodes and at least `4n` points

`lob_bnd_setup` bounds each basis polynomial at each node of `h` by its value there and the tangents at the midpoints of the adjacent segments. That this gives bounds for the
basis polynomial on the whole interval is not clear at all (it fails for small `m`, see `lob_bnd_wrong_for_m_3`, `lob_bnd_wrong_for_m_5`). Here it is proved for all tabulated node sets and every `m >= 4n`
(the choice `mr = 4*nr` is the one of the documentation and of the tests), from certificates `Lemmas/LobCert*.lean` checked by the kernel.
-/

namespace Gslib.Props
open Gslib.Num Gslib.Poly Gslib.Spec Gslib.Lob Gslib.Obb Finset Polynomial

/-- **C37** for `2<=n<=24` nodes and every `m>=4n` the table made by `lob_bnd_setup` holds piecewise linear lower and upper bounds of all basis polynomials -/
theorem lob_bnd_setup_valid {n m : Nat} (hn : 2 ≤ n) (hn' : n ≤ 24) (hm : 4 * n ≤ m) :
    ValidTable n m (fixVal n) (hVal m (cheb m)) (tableVal n m (fixVal n) (hVal m (cheb m))) := by
  by_cases h : n < 4
  · exact valid_low (by omega) (by omega)
  have : n = 4 ∨ n = 5 ∨ n = 6 ∨ n = 7 ∨ n = 8 ∨ n = 9 ∨ n = 10 ∨ n = 11 ∨ n = 12 ∨ n = 13 ∨ n = 14 ∨ n = 15 ∨ n = 16 ∨ n = 17 ∨ n = 18 ∨ n = 19 ∨ n = 20 ∨ n = 21 ∨ n = 22 ∨ n = 23 ∨ n = 24 := by omega
  rcases this with rfl | rfl | rfl | rfl | rfl | rfl | rfl | rfl | rfl | rfl | rfl | rfl | rfl | rfl | rfl | rfl | rfl | rfl | rfl | rfl | rfl
  · exact Cert4.certified.valid hn' hm
  · exact Cert5.certified.valid hn' hm
  · exact Cert6.certified.valid hn' hm
  · exact Cert7.certified.valid hn' hm
  · exact Cert8.certified.valid hn' hm
  · exact Cert9.certified.valid hn' hm
  · exact Cert10.certified.valid hn' hm
  · exact Cert11.certified.valid hn' hm
  · exact Cert12.certified.valid hn' hm
  · exact Cert13.certified.valid hn' hm
  · exact Cert14.certified.valid hn' hm
  · exact Cert15.certified.valid hn' hm
  · exact Cert16.certified.valid hn' hm
  · exact Cert17.certified.valid hn' hm
  · exact Cert18.certified.valid hn' hm
  · exact Cert19.certified.valid hn' hm
  · exact Cert20.certified.valid hn' hm
  · exact Cert21.certified.valid hn' hm
  · exact Cert22.certified.valid hn' hm
  · exact Cert23.certified.valid hn' hm
  · exact Cert24.certified.valid hn' hm

/-- **C37, C38** end to end: for `2<=n<=24` nodes and `m>=4n`, after `lob_bnd_setup`, `lob_bnd_1` with a work array of `2m` doubles returns an interval that contains the values on [-1,1] of the polynomial of degree less than `n`
with the given values at the nodes (exact arithmetic) -/
theorem lob_bnd_1_polynomial (fuel : Nat) (eps : ℝ) (guess : Nat → ℝ) {n m : Nat} (hn : 2 ≤ n) (hn' : n ≤ 24) (hm : 4 * n ≤ m) :
    ∃ D : Mem ℝ, setup fuel eps guess (cheb m) n m = some D ∧
      ∀ (u : Nat → ℝ) (um : Mem ℝ), (∀ i < n, um i = some (u i)) → ∀ w : Mem ℝ, ∃ r w', bnd1 n m D n um 0 (2 * m) 0 w = some (r, w') ∧
        ∀ q : ℝ[X], q.degree < n → (∀ i < n, q.eval (fixVal n i) = u i) → ∀ x, -1 ≤ x → x ≤ 1 → r.1 ≤ q.eval x ∧ q.eval x ≤ r.2 := by
  obtain ⟨D, Q, e, hD, hd, -⟩ := lob_bnd_setup_table fuel eps guess (cheb m) hn hn' (by omega : 2 ≤ m)
  refine ⟨D, e, fun u um hu w => ?_⟩
  obtain ⟨r, w', e', -, h⟩ := lob_bnd_1_contains (by omega) hD hd (lob_bnd_setup_valid hn hn' hm) (ucap := n) (uo := 0) (um := um) (u := u)
    (fun i hi => by rw [Nat.zero_add]; exact hu i hi) (by omega) (cap := 2 * m) (wo := 0) (by omega) w
  refine ⟨r, w', e', fun q hq hqu x hx hx' => ?_⟩
  have hinj : Set.InjOn (fixVal (K := ℝ) n) (range n : Set Nat) := fun i hi j hj e => hd i (by simpa using hi) j (by simpa using hj) e
  have := congrArg (eval x) (Lagrange.eq_interpolate hinj (f := q) (by simpa using hq))
  have e2 : q.eval x = poly1 n (fixVal n) u x := by
    rw [this, Lagrange.interpolate_apply, eval_finsetSum]
    unfold poly1 basisAt
    refine sum_congr rfl fun i hi => ?_
    rw [eval_mul, eval_C, hqu i (mem_range.1 hi)]
  rw [e2]
  exact h x hx hx'

/-- **C37, C38** the same in two dimensions -/
theorem lob_bnd_2_polynomial (fuel : Nat) (eps : ℝ) (guess : Nat → Nat → ℝ) {nr mr ns ms : Nat} (hnr : 2 ≤ nr) (hnr' : nr ≤ 24) (hmr : 4 * nr ≤ mr) (hns : 2 ≤ ns) (hns' : ns ≤ 24) (hms : 4 * ns ≤ ms) :
    ∃ Dr Ds : Mem ℝ, setup fuel eps (guess nr) (cheb mr) nr mr = some Dr ∧ setup fuel eps (guess ns) (cheb ms) ns ms = some Ds ∧
      ∀ (u : Nat → ℝ) (um : Mem ℝ), (∀ i < ns * nr, um i = some (u i)) → ∀ w : Mem ℝ, ∃ R w', bnd2 nr mr Dr ns ms Ds (ns * nr) um 0 (2 * mr * (ms + 1 + ns)) 0 w = some (R, w') ∧
        ∀ r s, -1 ≤ r → r ≤ 1 → -1 ≤ s → s ≤ 1 → R.1 ≤ poly2 nr (fixVal nr) ns (fixVal ns) u r s ∧ poly2 nr (fixVal nr) ns (fixVal ns) u r s ≤ R.2 := by
  obtain ⟨Dr, Qr, er, hDr, hdr, -⟩ := lob_bnd_setup_table fuel eps (guess nr) (cheb mr) hnr hnr' (by omega : 2 ≤ mr)
  obtain ⟨Ds, Qs, es, hDs, hds, -⟩ := lob_bnd_setup_table fuel eps (guess ns) (cheb ms) hns hns' (by omega : 2 ≤ ms)
  refine ⟨Dr, Ds, er, es, fun u um hu w => ?_⟩
  obtain ⟨R, w', e', -, h⟩ := lob_bnd_2_contains (by omega) hDr hdr (lob_bnd_setup_valid hnr hnr' hmr) (by omega) hDs hds (lob_bnd_setup_valid hns hns' hms)
    (ucap := ns * nr) (uo := 0) (um := um) (u := u)
    (fun i hi => by rw [Nat.zero_add]; exact hu i hi) (by omega) (cap := 2 * mr * (ms + 1 + ns)) (wo := 0) (by omega) w
  exact ⟨R, w', e', h⟩

/-- **C37, C38** the same in three dimensions -/
theorem lob_bnd_3_polynomial (fuel : Nat) (eps : ℝ) (guess : Nat → Nat → ℝ) {nr mr ns ms nt mt : Nat} (hnr : 2 ≤ nr) (hnr' : nr ≤ 24) (hmr : 4 * nr ≤ mr) (hns : 2 ≤ ns) (hns' : ns ≤ 24) (hms : 4 * ns ≤ ms)
    (hnt : 2 ≤ nt) (hnt' : nt ≤ 24) (hmt : 4 * nt ≤ mt) :
    ∃ Dr Ds Dt : Mem ℝ, setup fuel eps (guess nr) (cheb mr) nr mr = some Dr ∧ setup fuel eps (guess ns) (cheb ms) ns ms = some Ds ∧ setup fuel eps (guess nt) (cheb mt) nt mt = some Dt ∧
      ∀ (u : Nat → ℝ) (um : Mem ℝ), (∀ i < nt * (ns * nr), um i = some (u i)) → ∀ w : Mem ℝ, ∃ R w',
        bnd3 nr mr Dr ns ms Ds nt mt Dt (nt * (ns * nr)) um 0 (2 * mr * ms * (nt + mt + 1)) 0 w = some (R, w') ∧
        ∀ r s t, -1 ≤ r → r ≤ 1 → -1 ≤ s → s ≤ 1 → -1 ≤ t → t ≤ 1 →
          R.1 ≤ poly3 nr (fixVal nr) ns (fixVal ns) nt (fixVal nt) u r s t ∧ poly3 nr (fixVal nr) ns (fixVal ns) nt (fixVal nt) u r s t ≤ R.2 := by
  obtain ⟨Dr, Qr, er, hDr, hdr, -⟩ := lob_bnd_setup_table fuel eps (guess nr) (cheb mr) hnr hnr' (by omega : 2 ≤ mr)
  obtain ⟨Ds, Qs, es, hDs, hds, -⟩ := lob_bnd_setup_table fuel eps (guess ns) (cheb ms) hns hns' (by omega : 2 ≤ ms)
  obtain ⟨Dt, Qt, et, hDt, hdt, -⟩ := lob_bnd_setup_table fuel eps (guess nt) (cheb mt) hnt hnt' (by omega : 2 ≤ mt)
  refine ⟨Dr, Ds, Dt, er, es, et, fun u um hu w => ?_⟩
  obtain ⟨R, w', e', -, h⟩ := lob_bnd_3_contains (by omega) hDr hdr (lob_bnd_setup_valid hnr hnr' hmr) (by omega) hDs hds (lob_bnd_setup_valid hns hns' hms)
    (by omega) hDt hdt (lob_bnd_setup_valid hnt hnt' hmt) (Nat.mul_le_mul (by omega) (by omega))
    (ucap := nt * (ns * nr)) (uo := 0) (um := um) (u := u)
    (fun i hi => by rw [Nat.zero_add]; exact hu i hi) (by omega) (cap := 2 * mr * ms * (nt + mt + 1)) (wo := 0) (by omega) w
  exact ⟨R, w', e', h⟩

/-- a case: 8 nodes, 32 points, the values of `x^7`; the interval contains the range [-1,1] -/
example (fuel : Nat) (eps : ℝ) (guess : Nat → ℝ) : ∃ D r w', setup fuel eps guess (cheb 32) 8 32 = some D ∧ bnd1 8 32 D 8 (fun i => some (fixVal 8 i ^ 7)) 0 64 0 (fun _ => none) = some (r, w') ∧
    r.1 ≤ -1 ∧ (1 : ℝ) ≤ r.2 := by
  obtain ⟨D, e, h⟩ := lob_bnd_1_polynomial fuel eps guess (n := 8) (m := 32) (by omega) (by omega) (by omega)
  obtain ⟨r, w', e', h'⟩ := h (fun i => fixVal 8 i ^ 7) (fun i => some (fixVal 8 i ^ 7)) (fun i _ => rfl) (fun _ => none)
  refine ⟨D, r, w', e, e', ?_, ?_⟩
  · have := (h' (X ^ 7) (by rw [degree_X_pow]; norm_num) (by simp) (-1) (by norm_num) (by norm_num)).1
    simpa [show (-1 : ℝ) ^ 7 = -1 by norm_num] using this
  · have := (h' (X ^ 7) (by rw [degree_X_pow]; norm_num) (by simp) 1 (by norm_num) (by norm_num)).2
    simpa using this

/-- **C39, C38** `obbox_calc_2` for elements of 2 to 24 nodes in each direction and `m>=4n`: all accesses in bounds, and every element with nonzero Jacobian inside is covered by its box, without further hypotheses -/
theorem obbox_calc_2_covers_poly (fuel : Nat) (eps : ℝ) (guess : Nat → Nat → ℝ) {nr mr ns ms nel ucap : Nat} (hnr : 2 ≤ nr) (hnr' : nr ≤ 24) (hmr : 4 * nr ≤ mr)
    (hns : 2 ≤ ns) (hns' : ns ≤ 24) (hms : 4 * ns ≤ ms)
    {tol : ℝ} (htol : 0 ≤ tol) {el : Nat → Mem ℝ} {X : Nat → Nat → ℝ} (hel : ∀ c < 2, Has (el c) 0 (nel * (nr * ns)) (X c)) (hcap : nel * (nr * ns) ≤ ucap)
    (hjac : ∀ e < nel, ∀ r s, -1 < r → r < 1 → -1 < s → s < 1 → jac2 (fun c => poly2 nr (fixVal nr) ns (fixVal ns) fun i => X c (e * (nr * ns) + i)) r s ≠ 0) :
    ∃ out, calc2 fuel eps guess cheb nr mr ns ms nel tol ucap el = some out ∧ ∀ e < nel, ∃ b, out e = some b ∧
      ∀ r s, -1 ≤ r → r ≤ 1 → -1 ≤ s → s ≤ 1 →
        let p : Nat → ℝ := fun c => poly2 nr (fixVal nr) ns (fixVal ns) (fun i => X c (e * (nr * ns) + i)) r s
        InBox 2 b.c0 b.A b.x p ∧ 0 ≤ test2 b p ∧ (0 < tol → ∀ c < 2, (b.x c).1 < p c ∧ p c < (b.x c).2) ∧
          ∀ c < 2, |∑ e ∈ range 2, b.A c e * (p e - b.c0 e)| ≤ 1 / (1 + tol) :=
  obbox_calc_2_covers fuel eps guess cheb (nodesOk_small fuel eps (guess nr) (by omega) (by omega)) (lob_bnd_setup_valid hnr hnr' hmr)
    (nodesOk_small fuel eps (guess ns) (by omega) (by omega)) (lob_bnd_setup_valid hns hns' hms) htol hel hcap hjac

/-- **C39, C38** `obbox_calc_3` likewise -/
theorem obbox_calc_3_covers_poly (fuel : Nat) (eps : ℝ) (guess : Nat → Nat → ℝ) {nr mr ns ms nt mt nel ucap : Nat} (hnr : 2 ≤ nr) (hnr' : nr ≤ 24) (hmr : 4 * nr ≤ mr)
    (hns : 2 ≤ ns) (hns' : ns ≤ 24) (hms : 4 * ns ≤ ms) (hnt : 2 ≤ nt) (hnt' : nt ≤ 24) (hmt : 4 * nt ≤ mt)
    {tol : ℝ} (htol : 0 ≤ tol) {el : Nat → Mem ℝ} {X : Nat → Nat → ℝ} (hel : ∀ c < 3, Has (el c) 0 (nel * (nr * ns * nt)) (X c)) (hcap : nel * (nr * ns * nt) ≤ ucap)
    (hjac : ∀ e < nel, ∀ r s t, -1 < r → r < 1 → -1 < s → s < 1 → -1 < t → t < 1 →
      jac3 (fun c => poly3 nr (fixVal nr) ns (fixVal ns) nt (fixVal nt) fun i => X c (e * (nr * ns * nt) + i)) r s t ≠ 0) :
    ∃ out, calc3 fuel eps guess cheb nr mr ns ms nt mt nel tol ucap el = some out ∧ ∀ e < nel, ∃ b, out e = some b ∧
      ∀ r s t, -1 ≤ r → r ≤ 1 → -1 ≤ s → s ≤ 1 → -1 ≤ t → t ≤ 1 →
        let p : Nat → ℝ := fun c => poly3 nr (fixVal nr) ns (fixVal ns) nt (fixVal nt) (fun i => X c (e * (nr * ns * nt) + i)) r s t
        InBox 3 b.c0 b.A b.x p ∧ 0 ≤ test3 b p ∧ (0 < tol → ∀ c < 3, (b.x c).1 < p c ∧ p c < (b.x c).2) ∧
          ∀ c < 3, |∑ e ∈ range 3, b.A c e * (p e - b.c0 e)| ≤ 1 / (1 + tol) :=
  obbox_calc_3_covers fuel eps guess cheb (nodesOk_small fuel eps (guess nr) (by omega) (by omega)) (lob_bnd_setup_valid hnr hnr' hmr)
    (nodesOk_small fuel eps (guess ns) (by omega) (by omega)) (lob_bnd_setup_valid hns hns' hms)
    (nodesOk_small fuel eps (guess nt) (by omega) (by omega)) (lob_bnd_setup_valid hnt hnt' hmt) htol hel hcap hjac

end Gslib.Props
