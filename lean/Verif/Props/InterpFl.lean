import Verif.Lemmas.TensorFl
import Mathlib.Tactic.NormNum

/-!
# C71: interpolation in floating point
-/

namespace Gslib.Props
open Gslib.Spec Gslib.Tensor Finset
open Gslib.TensorFl (IsFma Apx)

theorem apx_terms {u : ℝ} {k n : Nat} {x X B : Nat → ℝ} (w : Nat → ℝ) (h : ∀ i < n, Apx u k (x i) (X i) (B i)) : ∀ i < n, Apx u k (x i * w i) (X i * w i) (B i * |w i|) :=
  fun i hi => (h i hi).mul (w i)

theorem interp2_cols (Jr : Nat → ℝ) (nr : Nat) (Js : Nat → ℝ) (ns : Nat) (u : List ℝ) :
    interp2 Jr nr Js ns u = ∑ i ∈ range nr, (∑ j ∈ range ns, ent u (i + nr * j) * Js j) * Jr i := by
  unfold interp2
  refine sum_congr rfl fun i _ => ?_
  rw [sum_mul]
  exact sum_congr rfl fun j _ => by ring

theorem interp3_slices (Jr : Nat → ℝ) (nr : Nat) (Js : Nat → ℝ) (ns : Nat) (Jt : Nat → ℝ) (nt : Nat) (u : List ℝ) :
    interp3 Jr nr Js ns Jt nt u = ∑ j ∈ range ns, (∑ i ∈ range nr, (∑ k ∈ range nt, ent u (i + nr * (j + ns * k)) * Jt k) * Jr i) * Js j := by
  unfold interp3
  rw [sum_comm]
  refine sum_congr rfl fun j _ => ?_
  rw [sum_mul]
  refine sum_congr rfl fun i _ => ?_
  rw [sum_mul, sum_mul]
  exact sum_congr rfl fun k _ => by ring

theorem ent_abs (l : List ℝ) (i : Nat) : ent (l.map abs) i = |ent l i| := by
  unfold ent
  rw [List.getD_eq_getElem?_getD, List.getD_eq_getElem?_getD, List.getElem?_map]
  cases l[i]? <;> simp

theorem mapM_range {n : Nat} {f : Nat → Option ℝ} {v : Nat → ℝ} (h : ∀ i < n, f i = some (v i)) : (List.range n).mapM f = some ((List.range n).map v) := by
  have : ∀ l : List Nat, (∀ i ∈ l, f i = some (v i)) → l.mapM f = some (l.map v) := by
    intro l
    induction l with
    | nil => intro _; rfl
    | cons a l ih => intro h; rw [List.mapM_cons, h a (by simp), ih fun b hb => h b (by simp [hb])]; rfl
  exact this _ fun i hi => h i (List.mem_range.1 hi)

theorem slice_entry {nc nb : Nat} {g : Nat → Nat → ℝ} {p q : Nat} (hq : q < nc) (hp : p < nb) : ent ((tab2 nc nb g).drop (p * nc)) q = g q p := by
  rw [ent_drop, show p * nc + q = q + nc * p by ring, ent_tab2 hq hp]

/-- the entries of the array of partial sums over the last coordinate -/
theorem slice_apx {step : ℝ → ℝ → ℝ → ℝ} {mul : ℝ → ℝ → ℝ} {u : ℝ} (hf : IsFma step mul u) (n : Nat) (f g : Nat → ℝ) :
    Apx u (n + 1) (TensorFl.fold step f g n 0) (∑ k ∈ range n, f k * g k) (∑ k ∈ range n, |f k| * |g k|) := by
  have := Apx.fold0 hf (f := f) (g := g) (P := fun k => f k * g k) (B := fun k => |f k| * |g k|) (k := 0) (n := n) fun i _ => (Apx.exact u (f i)).mul (g i)
  simpa using this

/-- **C71, 2D**: `findpts_el_eval_2` with rounded arithmetic. `step s x y` is `s + x * y` (with or without fused multiply-add) with relative errors at most `u` per rounding. For every point `p` the value is the interpolant with the
weights of this point, up to `(1+u)^(nr+ns+2) - 1` times the same expression with absolute values. No array is read past its end. -/
theorem interpolation_rounding_error_2 {step : ℝ → ℝ → ℝ → ℝ} {mul : ℝ → ℝ → ℝ} {u : ℝ} (hf : IsFma step mul u) {nr ns pn : Nat} {wtr wts inp : List ℝ}
    (hr : nr * pn ≤ wtr.length) (hs : ns * pn ≤ wts.length) (hi : nr * ns ≤ inp.length) :
    ∃ out, TensorFl.eval2 step 0 nr ns pn wtr wts inp = some out ∧ out.length = pn ∧ ∀ p < pn,
      |ent out p - interp2 (fun i => ent wtr (nr * p + i)) nr (fun j => ent wts (ns * p + j)) ns inp|
        ≤ ((1 + u) ^ (nr + ns + 2) - 1) * interp2 (fun i => |ent wtr (nr * p + i)|) nr (fun j => |ent wts (ns * p + j)|) ns (inp.map abs) := by
  let R : Nat → ℝ := fun p => TensorFl.fold step (fun i => ent wtr (nr * p + i)) (fun i => TensorFl.fold step (fun k => ent inp (i + nr * k)) (fun k => ent wts (k + ns * p)) ns 0) nr 0
  have hrun : ∀ p < pn, TensorFl.dotLoop step (wtr.drop (p * nr)) ((tab2 nr pn fun i j => TensorFl.fold step (fun k => ent inp (i + nr * k)) (fun k => ent wts (k + ns * j)) ns 0).drop (p * nr)) nr 0
      = some (R p) := by
    intro p hp
    have e1 : nr * (p + 1) ≤ nr * pn := Nat.mul_le_mul_left _ hp
    have e2 : nr * (p + 1) = p * nr + nr := by ring
    rw [TensorFl.dotLoop_eq step nr _ _ 0 (by simp; omega) (by simp; omega)]
    congr 1
    refine TensorFl.fold_congr (fun i _ => ?_) fun i hi => slice_entry hi hp
    rw [ent_drop, Nat.mul_comm]
  refine ⟨(List.range pn).map R, ?_, by simp, fun p hp => ?_⟩
  · unfold TensorFl.eval2
    rw [TensorFl.mxm_eq step nr inp ns hi pn wts hs, Option.bind_some]
    exact mapM_range (v := R) hrun
  · rw [show ∀ f : Nat → ℝ, ent ((List.range pn).map f) p = f p from fun f => ent_tab (f := f) hp, interp2_cols, interp2_cols]
    simp only [ent_abs]
    have := Apx.fold0 hf (f := fun i => ent wtr (nr * p + i)) (g := fun i => TensorFl.fold step (fun k => ent inp (i + nr * k)) (fun k => ent wts (k + ns * p)) ns 0) (n := nr) (k := ns + 1)
      (P := fun i => (∑ j ∈ range ns, ent inp (i + nr * j) * ent wts (ns * p + j)) * ent wtr (nr * p + i))
      (B := fun i => (∑ j ∈ range ns, |ent inp (i + nr * j)| * |ent wts (ns * p + j)|) * |ent wtr (nr * p + i)|) ?_
    · rw [show ns + 1 + nr + 1 = nr + ns + 2 by omega] at this
      exact this.2
    · intro i _
      have h := (slice_apx hf ns (fun k => ent inp (i + nr * k)) fun k => ent wts (k + ns * p)).mul (ent wtr (nr * p + i))
      rw [mul_comm (ent wtr (nr * p + i))]
      simp only [Nat.add_comm (ns * p)]
      exact h

/-- **C71, 3D**: `findpts_el_eval_3` with rounded arithmetic: the interpolant up to `(1+u)^(nr+ns+nt+3) - 1` times the same expression with absolute values. -/
theorem interpolation_rounding_error_3 {step : ℝ → ℝ → ℝ → ℝ} {mul : ℝ → ℝ → ℝ} {u : ℝ} (hf : IsFma step mul u) {nr ns nt pn : Nat} {wtrs wtt inp : List ℝ} (h0 : 0 < nr)
    (hr : (nr + ns) * pn ≤ wtrs.length) (ht : nt * pn ≤ wtt.length) (hi : nr * ns * nt ≤ inp.length) :
    ∃ out, TensorFl.eval3 step mul 0 nr ns nt pn wtrs wtt inp = some out ∧ out.length = pn ∧ ∀ p < pn,
      |ent out p - interp3 (fun i => ent wtrs ((nr + ns) * p + i)) nr (fun j => ent wtrs ((nr + ns) * p + nr + j)) ns (fun k => ent wtt (nt * p + k)) nt inp|
        ≤ ((1 + u) ^ (nr + ns + nt + 3) - 1) * interp3 (fun i => |ent wtrs ((nr + ns) * p + i)|) nr (fun j => |ent wtrs ((nr + ns) * p + nr + j)|) ns (fun k => |ent wtt (nt * p + k)|) nt (inp.map abs) := by
  obtain ⟨m, rfl⟩ : ∃ m, nr = m + 1 := ⟨nr - 1, by omega⟩
  have hlen : ∀ p < pn, p * (m + 1 + ns) + (m + 1) + ns ≤ wtrs.length ∧ (m + 1) * ns ≤ (m + 1) * ns * pn - p * ((m + 1) * ns) := by
    intro p hp
    have e1 : (m + 1 + ns) * (p + 1) ≤ (m + 1 + ns) * pn := Nat.mul_le_mul_left _ hp
    have e2 : (m + 1 + ns) * (p + 1) = p * (m + 1 + ns) + (m + 1) + ns := by ring
    have e3 : (m + 1) * ns * (p + 1) ≤ (m + 1) * ns * pn := Nat.mul_le_mul_left _ hp
    have e4 : (m + 1) * ns * (p + 1) = p * ((m + 1) * ns) + (m + 1) * ns := by ring
    omega
  have hidx : ∀ i < m + 1, ∀ j < ns, i + (m + 1) * j < (m + 1) * ns := by
    intro i hi j hj
    have : (m + 1) * (j + 1) ≤ (m + 1) * ns := Nat.mul_le_mul_left _ hj
    have e : (m + 1) * (j + 1) = (m + 1) * j + (m + 1) := by ring
    omega
  -- the slice of point `p`, and its contraction with the weights of the first coordinate
  let S : Nat → Nat → ℝ := fun q p => TensorFl.fold step (fun k => ent inp (q + (m + 1) * ns * k)) (fun k => ent wtt (k + nt * p)) nt 0
  let V : Nat → Nat → ℝ := fun p j => TensorFl.fold step (fun k => S (k + 1 + (m + 1) * j) p) (fun k => ent wtrs ((m + 1 + ns) * p + (k + 1))) m (mul (S ((m + 1) * j) p) (ent wtrs ((m + 1 + ns) * p)))
  let R : Nat → ℝ := fun p => TensorFl.fold step (fun j => ent wtrs ((m + 1 + ns) * p + (m + 1) + j)) (V p) ns 0
  have hrun : ∀ p < pn, TensorFl.i2 step mul 0 (wtrs.drop (p * (m + 1 + ns))) (m + 1) (wtrs.drop (p * (m + 1 + ns) + (m + 1))) ns ((tab2 ((m + 1) * ns) pn S).drop (p * ((m + 1) * ns)))
      = some (R p) := by
    intro p hp
    obtain ⟨l1, l2⟩ := hlen p hp
    unfold TensorFl.i2
    rw [TensorFl.mtxv_eq step mul ns _ _ m (by rw [List.length_drop, tab2_length]; exact l2) (by simp; omega), Option.bind_some, TensorFl.dotLoop_eq step ns _ _ 0 (by simp; omega) (by simp)]
    congr 1
    refine TensorFl.fold_congr (fun i _ => ?_) fun j hj => ?_
    · rw [ent_drop, Nat.mul_comm p (m + 1 + ns)]
    · rw [ent_tab hj, slice_entry (by simpa using hidx 0 (by omega) j hj) hp, ent_drop, Nat.mul_comm p (m + 1 + ns), Nat.add_zero]
      refine TensorFl.fold_congr (fun k hk => ?_) fun k _ => ?_
      · exact slice_entry (hidx (k + 1) (by omega) j hj) hp
      · rw [ent_drop]
  refine ⟨(List.range pn).map R, ?_, by simp, fun p hp => ?_⟩
  · unfold TensorFl.eval3
    rw [TensorFl.mxm_eq step ((m + 1) * ns) inp nt hi pn wtt ht, Option.bind_some]
    exact mapM_range (v := R) hrun
  · rw [show ∀ f : Nat → ℝ, ent ((List.range pn).map f) p = f p from fun f => ent_tab (f := f) hp, interp3_slices, interp3_slices]
    simp only [ent_abs]
    have hS : ∀ q, Apx u (nt + 1) (S q p) (∑ k ∈ range nt, ent inp (q + (m + 1) * ns * k) * ent wtt (k + nt * p)) (∑ k ∈ range nt, |ent inp (q + (m + 1) * ns * k)| * |ent wtt (k + nt * p)|) :=
      fun q => slice_apx hf nt _ _
    have hV : ∀ j, Apx u (nt + 1 + 1 + m) (V p j)
        (∑ i ∈ range (m + 1), (∑ k ∈ range nt, ent inp (i + (m + 1) * j + (m + 1) * ns * k) * ent wtt (k + nt * p)) * ent wtrs ((m + 1 + ns) * p + i))
        (∑ i ∈ range (m + 1), (∑ k ∈ range nt, |ent inp (i + (m + 1) * j + (m + 1) * ns * k)| * |ent wtt (k + nt * p)|) * |ent wtrs ((m + 1 + ns) * p + i)|) := by
      intro j
      have h1 := ((hS ((m + 1) * j)).mul (ent wtrs ((m + 1 + ns) * p))).rnd hf.u0 (hf.mul (S ((m + 1) * j) p) (ent wtrs ((m + 1 + ns) * p)))
      have h2 := Apx.fold hf h1 (n := m) (f := fun k => S (k + 1 + (m + 1) * j) p) (g := fun k => ent wtrs ((m + 1 + ns) * p + (k + 1)))
        (apx_terms _ fun i _ => hS (i + 1 + (m + 1) * j))
      rw [sum_range_succ', sum_range_succ', add_comm (∑ i ∈ range m, _), add_comm (∑ i ∈ range m, _)]
      simp only [Nat.zero_add, Nat.add_zero]
      refine Apx.mono hf.u0 (by omega) h2
    have := Apx.fold0 hf (f := fun j => ent wtrs ((m + 1 + ns) * p + (m + 1) + j)) (g := V p) (n := ns) (k := nt + 1 + 1 + m)
      (P := fun j => (∑ i ∈ range (m + 1), (∑ k ∈ range nt, ent inp (i + (m + 1) * j + (m + 1) * ns * k) * ent wtt (k + nt * p)) * ent wtrs ((m + 1 + ns) * p + i)) * ent wtrs ((m + 1 + ns) * p + (m + 1) + j))
      (B := fun j => (∑ i ∈ range (m + 1), (∑ k ∈ range nt, |ent inp (i + (m + 1) * j + (m + 1) * ns * k)| * |ent wtt (k + nt * p)|) * |ent wtrs ((m + 1 + ns) * p + i)|) * |ent wtrs ((m + 1 + ns) * p + (m + 1) + j)|) ?_
    · have h := (this.mono hf.u0 (by omega : _ ≤ m + 1 + ns + nt + 3)).2
      have e : ∀ i j k, i + (m + 1) * (j + ns * k) = i + (m + 1) * j + (m + 1) * ns * k := fun i j k => by ring
      simp only [e, Nat.add_comm (nt * p)]
      exact h
    · intro j _
      rw [mul_comm (ent wtrs _)]
      exact (hV j).mul _

/-- the hypotheses are met: exact arithmetic, and rounding up every sum and product by one percent -/
example : IsFma (fun s x y => (s + x * y * (101 / 100)) * (101 / 100)) (fun x y => x * y * (101 / 100)) (1 / 100) where
  u0 := by norm_num
  step s x y := ⟨x * y * (101 / 100), by
    constructor
    · rw [show x * y * (101 / 100) - x * y = 1 / 100 * (x * y) by ring, abs_mul, abs_of_pos (by norm_num : (0 : ℝ) < 1 / 100)]
    · rw [show (s + x * y * (101 / 100)) * (101 / 100) - (s + x * y * (101 / 100)) = 1 / 100 * (s + x * y * (101 / 100)) by ring, abs_mul, abs_of_pos (by norm_num : (0 : ℝ) < 1 / 100)]⟩
  mul x y := by
    rw [show x * y * (101 / 100) - x * y = 1 / 100 * (x * y) by ring, abs_mul, abs_of_pos (by norm_num : (0 : ℝ) < 1 / 100)]

end Gslib.Props
