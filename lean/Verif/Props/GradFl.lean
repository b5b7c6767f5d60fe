import Verif.Model.TensorGradFl
import Verif.Props.InterpFl

/-!
# C74: interpolation with gradient in floating point
-/

namespace Gslib.Props
open Gslib.Spec Gslib.Tensor Finset
open Gslib.TensorFl (IsFma Apx)

/-- `x` is `X` up to `(1+u)^k - 1` times `A` -/
def Within (u : ℝ) (k : Nat) (x X A : ℝ) : Prop := |x - X| ≤ ((1 + u) ^ k - 1) * A

section
variable {step : ℝ → ℝ → ℝ → ℝ} {mul : ℝ → ℝ → ℝ} {u : ℝ}

/-- a sum of products of approximate values and exact weights -/
theorem contr (hf : IsFma step mul u) {a n : Nat} {f X B : Nat → ℝ} (g : Nat → ℝ) (h : ∀ i < n, Apx u a (f i) (X i) (B i)) :
    Apx u (a + n + 1) (TensorFl.fold step f g n 0) (∑ i ∈ range n, X i * g i) (∑ i ∈ range n, B i * |g i|) := Apx.fold0 hf (apx_terms g h)

theorem contr' (hf : IsFma step mul u) {a n : Nat} {f X B : Nat → ℝ} (g : Nat → ℝ) (h : ∀ i < n, Apx u a (f i) (X i) (B i)) :
    Apx u (a + n + 1) (TensorFl.fold step g f n 0) (∑ i ∈ range n, X i * g i) (∑ i ∈ range n, B i * |g i|) :=
  Apx.fold0 hf fun i hi => by rw [mul_comm (g i)]; exact (h i hi).mul (g i)

theorem mxv_eq (step : ℝ → ℝ → ℝ → ℝ) (nc na : Nat) (A B : List ℝ) (hA : nc * na ≤ A.length) (hB : na ≤ B.length) :
    TensorFl.mxv step 0 nc A B na = some (tab nc fun i => TensorFl.fold step (fun k => ent A (i + nc * k)) (ent B) na 0) := by
  unfold TensorFl.mxv
  have : List.replicate nc (0 : ℝ) = tab nc fun _ => 0 := by simp [tab]
  rw [this, TensorFl.mxmCol_eq step nc na _ A B hA hB]

/-- **C74, 1D**: `tensor_ig1`; `wtr` holds `nr` interpolation weights and then `nr` derivative weights -/
theorem gradient_rounding_error_1 (hf : IsFma step mul u) {nr : Nat} {wtr inp : List ℝ} (hr : nr * 2 ≤ wtr.length) (hi : nr ≤ inp.length) :
    ∃ v g, TensorFl.ig1 step 0 wtr nr inp = some (v, g) ∧
      Within u (nr + 1) v (∑ i ∈ range nr, ent inp i * ent wtr i) (∑ i ∈ range nr, |ent inp i| * |ent wtr i|) ∧
      Within u (nr + 1) g (∑ i ∈ range nr, ent inp i * ent wtr (nr + i)) (∑ i ∈ range nr, |ent inp i| * |ent wtr (nr + i)|) := by
  refine ⟨TensorFl.fold step (ent wtr) (ent inp) nr 0, TensorFl.fold step (fun i => ent wtr (nr + i)) (ent inp) nr 0, ?_, ?_, ?_⟩
  · unfold TensorFl.ig1
    rw [TensorFl.dotLoop_eq step nr _ _ 0 (by simp; omega) hi, Option.bind_some, TensorFl.dotLoop_eq step nr _ _ 0 (by omega) hi]
    rw [Option.map_some, TensorFl.fold_congr (f := ent (wtr.drop nr)) (f' := fun i => ent wtr (nr + i)) (fun i _ => ent_drop _ _ _) (fun _ _ => rfl)]
  · have := (contr' hf (ent wtr) (n := nr) fun i _ => Apx.exact u (ent inp i)).2
    rwa [Nat.zero_add] at this
  · have := (contr' hf (fun i => ent wtr (nr + i)) (n := nr) fun i _ => Apx.exact u (ent inp i)).2
    rwa [Nat.zero_add] at this

/-- **C74, 2D**: `tensor_ig2` with rounded arithmetic: the value and both components of the gradient are the tensor sums with the given weights (interpolation weights first, then derivative weights, in `wtr` and `wts`), up to
`(1+u)^(nr+ns+2) - 1` times the same sums with absolute values. No array is read past its end. -/
theorem gradient_rounding_error_2 (hf : IsFma step mul u) {nr ns : Nat} {wtr wts inp : List ℝ} (hr : nr * 2 ≤ wtr.length) (hs : ns * 2 ≤ wts.length) (hi : nr * ns ≤ inp.length) :
    let J := fun i => ent wtr i
    let D := fun i => ent wtr (nr + i)
    let Js := fun j => ent wts j
    let Ds := fun j => ent wts (ns + j)
    let a := fun (f : Nat → ℝ) i => |f i|
    ∃ v g0 g1, TensorFl.ig2 step 0 wtr nr wts ns inp = some (v, g0, g1) ∧
      Within u (nr + ns + 2) v (interp2 J nr Js ns inp) (interp2 (a J) nr (a Js) ns (inp.map abs)) ∧
      Within u (nr + ns + 2) g0 (interp2 D nr Js ns inp) (interp2 (a D) nr (a Js) ns (inp.map abs)) ∧
      Within u (nr + ns + 2) g1 (interp2 J nr Ds ns inp) (interp2 (a J) nr (a Ds) ns (inp.map abs)) := by
  intro J D Js Ds a
  let S : Nat → Nat → ℝ := fun q p => TensorFl.fold step (fun k => ent inp (q + nr * k)) (fun k => ent wts (k + ns * p)) ns 0
  have eS : ∀ p < 2, ∀ q < nr, ent ((tab2 nr 2 S).drop (p * nr)) q = S q p := fun p hp q hq => slice_entry hq hp
  have hS : ∀ p q, Apx u (ns + 1) (S q p) (∑ j ∈ range ns, ent inp (q + nr * j) * ent wts (j + ns * p)) (∑ j ∈ range ns, |ent inp (q + nr * j)| * |ent wts (j + ns * p)|) :=
    fun p q => slice_apx hf ns _ _
  have fin : ∀ p (g : Nat → ℝ), Within u (nr + ns + 2) (TensorFl.fold step g (fun q => S q p) nr 0) (interp2 g nr (fun j => ent wts (j + ns * p)) ns inp)
      (interp2 (a g) nr (a fun j => ent wts (j + ns * p)) ns (inp.map abs)) := by
    intro p g
    have := (contr' hf g (n := nr) fun q _ => hS p q).2
    rw [interp2_cols, interp2_cols]
    simp only [ent_abs]
    rw [show ns + 1 + nr + 1 = nr + ns + 2 by omega] at this
    exact this
  refine ⟨TensorFl.fold step J (fun q => S q 0) nr 0, TensorFl.fold step D (fun q => S q 0) nr 0, TensorFl.fold step J (fun q => S q 1) nr 0, ?_, ?_, ?_, ?_⟩
  · unfold TensorFl.ig2
    rw [TensorFl.mxm_eq step nr inp ns hi 2 wts hs, Option.bind_some, TensorFl.dotLoop_eq step nr _ _ 0 (by simp; omega) (by simp; omega), Option.bind_some,
      TensorFl.dotLoop_eq step nr _ _ 0 (by omega) (by simp; omega), Option.bind_some, TensorFl.dotLoop_eq step nr _ _ 0 (by omega) (by simp; omega), Option.map_some]
    have h0 : ∀ q < nr, ent (tab2 nr 2 S) q = S q 0 := fun q hq => by have := eS 0 (by omega) q hq; rwa [Nat.zero_mul, List.drop_zero] at this
    have h1 : ∀ q < nr, ent ((tab2 nr 2 S).drop nr) q = S q 1 := fun q hq => by have := eS 1 (by omega) q hq; rwa [Nat.one_mul] at this
    rw [TensorFl.fold_congr (fun _ _ => rfl) h0, TensorFl.fold_congr (fun _ _ => rfl) h1, TensorFl.fold_congr (f := ent (wtr.drop nr)) (f' := D) (fun i _ => ent_drop _ _ _) h0]
  · have := fin 0 J
    simp only [Nat.mul_zero, Nat.add_zero] at this
    exact this
  · have := fin 0 D
    simp only [Nat.mul_zero, Nat.add_zero] at this
    exact this
  · have := fin 1 J
    have e : (fun j => ent wts (j + ns * 1)) = Ds := by funext j; show ent wts _ = ent wts _; congr 1; omega
    rw [e] at this
    exact this

theorem interp3_nest (Jr : Nat → ℝ) (nr : Nat) (Js : Nat → ℝ) (ns : Nat) (Jt : Nat → ℝ) (nt : Nat) (v : List ℝ) :
    interp3 Jr nr Js ns Jt nt v = ∑ i ∈ range nr, (∑ j ∈ range ns, (∑ k ∈ range nt, ent v (i + nr * j + nr * ns * k) * Jt k) * Js j) * Jr i := by
  unfold interp3
  refine sum_congr rfl fun i _ => ?_
  rw [sum_mul]
  refine sum_congr rfl fun j _ => ?_
  rw [sum_mul, sum_mul]
  refine sum_congr rfl fun k _ => ?_
  rw [show i + nr * (j + ns * k) = i + nr * j + nr * ns * k by ring]
  ring

/-- **C74, 3D**: `tensor_ig3` likewise, up to `(1+u)^(nr+ns+nt+3) - 1` -/
theorem gradient_rounding_error_3 (hf : IsFma step mul u) {nr ns nt : Nat} {wtr wts wtt inp : List ℝ} (hr : nr * 2 ≤ wtr.length) (hs : ns * 2 ≤ wts.length) (ht : nt * 2 ≤ wtt.length)
    (hi : nr * ns * nt ≤ inp.length) :
    let J := fun i => ent wtr i
    let D := fun i => ent wtr (nr + i)
    let Js := fun j => ent wts j
    let Ds := fun j => ent wts (ns + j)
    let Jt := fun k => ent wtt k
    let Dt := fun k => ent wtt (nt + k)
    let a := fun (f : Nat → ℝ) i => |f i|
    ∃ v g0 g1 g2, TensorFl.ig3 step 0 wtr nr wts ns wtt nt inp = some (v, g0, g1, g2) ∧
      Within u (nr + ns + nt + 3) v (interp3 J nr Js ns Jt nt inp) (interp3 (a J) nr (a Js) ns (a Jt) nt (inp.map abs)) ∧
      Within u (nr + ns + nt + 3) g0 (interp3 D nr Js ns Jt nt inp) (interp3 (a D) nr (a Js) ns (a Jt) nt (inp.map abs)) ∧
      Within u (nr + ns + nt + 3) g1 (interp3 J nr Ds ns Jt nt inp) (interp3 (a J) nr (a Ds) ns (a Jt) nt (inp.map abs)) ∧
      Within u (nr + ns + nt + 3) g2 (interp3 J nr Js ns Dt nt inp) (interp3 (a J) nr (a Js) ns (a Dt) nt (inp.map abs)) := by
  intro J D Js Ds Jt Dt a
  have hidx : ∀ i < nr, ∀ j < ns, i + nr * j < nr * ns := by
    intro i hi j hj
    have : nr * (j + 1) ≤ nr * ns := Nat.mul_le_mul_left _ hj
    have e : nr * (j + 1) = nr * j + nr := by ring
    omega
  let S : Nat → Nat → ℝ := fun q p => TensorFl.fold step (fun k => ent inp (q + nr * ns * k)) (fun k => ent wtt (k + nt * p)) nt 0
  let R : Nat → Nat → Nat → ℝ := fun p o i => TensorFl.fold step (fun j => S (i + nr * j) p) (fun j => ent wts (j + ns * o)) ns 0
  have fin : ∀ p o (g : Nat → ℝ), Within u (nr + ns + nt + 3) (TensorFl.fold step (R p o) g nr 0)
      (interp3 g nr (fun j => ent wts (j + ns * o)) ns (fun k => ent wtt (k + nt * p)) nt inp)
      (interp3 (a g) nr (a fun j => ent wts (j + ns * o)) ns (a fun k => ent wtt (k + nt * p)) nt (inp.map abs)) := by
    intro p o g
    have h1 : ∀ q, Apx u (nt + 1) (S q p) (∑ k ∈ range nt, ent inp (q + nr * ns * k) * ent wtt (k + nt * p)) (∑ k ∈ range nt, |ent inp (q + nr * ns * k)| * |ent wtt (k + nt * p)|) :=
      fun q => slice_apx hf nt _ _
    have := (contr hf g (n := nr) fun i _ => contr hf (fun j => ent wts (j + ns * o)) (n := ns) fun j _ => h1 (i + nr * j)).2
    rw [interp3_nest, interp3_nest]
    simp only [ent_abs]
    rw [show nt + 1 + ns + 1 + nr + 1 = nr + ns + nt + 3 by omega] at this
    exact this
  have eS0 : ∀ q < nr * ns, ent (tab2 (nr * ns) 2 S) q = S q 0 := fun q hq => by
    have := slice_entry (g := S) (p := 0) hq (by omega : 0 < 2); rwa [Nat.zero_mul, List.drop_zero] at this
  have eS1 : ∀ q < nr * ns, ent ((tab2 (nr * ns) 2 S).drop (nr * ns)) q = S q 1 := fun q hq => by
    have := slice_entry (g := S) (p := 1) hq (by omega : 1 < 2); rwa [Nat.one_mul] at this
  let B : Nat → Nat → ℝ := fun i o => TensorFl.fold step (fun j => ent (tab2 (nr * ns) 2 S) (i + nr * j)) (fun j => ent wts (j + ns * o)) ns 0
  have eB : ∀ i < nr, ∀ o, B i o = R 0 o i := fun i hi o => TensorFl.fold_congr (fun j hj => eS0 _ (hidx i hi j hj)) fun _ _ => rfl
  have b0 : ∀ i < nr, ent (tab2 nr 2 B) i = R 0 0 i := fun i hi => by
    have := slice_entry (g := B) (p := 0) hi (by omega : 0 < 2); rw [Nat.zero_mul, List.drop_zero] at this; rw [this, eB i hi]
  have b1 : ∀ i < nr, ent ((tab2 nr 2 B).drop nr) i = R 0 1 i := fun i hi => by
    have := slice_entry (g := B) (p := 1) hi (by omega : 1 < 2); rw [Nat.one_mul] at this; rw [this, eB i hi]
  let C : Nat → ℝ := fun i => TensorFl.fold step (fun k => ent ((tab2 (nr * ns) 2 S).drop (nr * ns)) (i + nr * k)) (ent wts) ns 0
  have c0 : ∀ i < nr, ent (tab nr C) i = R 1 0 i := fun i hi => by
    rw [ent_tab hi]
    exact TensorFl.fold_congr (fun j hj => eS1 _ (hidx i hi j hj)) fun j _ => by simp
  refine ⟨TensorFl.fold step (R 0 0) J nr 0, TensorFl.fold step (R 0 0) D nr 0, TensorFl.fold step (R 0 1) J nr 0, TensorFl.fold step (R 1 0) J nr 0, ?_, ?_, ?_, ?_, ?_⟩
  · unfold TensorFl.ig3
    rw [TensorFl.mxm_eq step (nr * ns) inp nt hi 2 wtt ht, Option.bind_some, TensorFl.mxm_eq step nr _ ns (by rw [tab2_length]; omega) 2 wts hs, Option.bind_some,
      mxv_eq step nr ns _ wts (by rw [List.length_drop, tab2_length]; omega) (by omega), Option.bind_some,
      TensorFl.dotLoop_eq step nr _ _ 0 (by simp; omega) (by simp; omega), Option.bind_some,
      TensorFl.dotLoop_eq step nr _ _ 0 (by simp; omega) (by omega), Option.bind_some, TensorFl.dotLoop_eq step nr _ _ 0 (by first | (simp; done) | (simp; omega)) (by omega), Option.bind_some,
      TensorFl.dotLoop_eq step nr _ _ 0 (by first | (simp; done) | (simp; omega)) (by omega), Option.map_some]
    rw [TensorFl.fold_congr b0 (fun i _ => ent_drop wtr nr i), TensorFl.fold_congr b1 (fun _ _ => rfl), TensorFl.fold_congr c0 (fun _ _ => rfl), TensorFl.fold_congr (g := ent wtr) b0 (fun _ _ => rfl)]
  · have := fin 0 0 J
    simp only [Nat.mul_zero, Nat.add_zero] at this
    exact this
  · have := fin 0 0 D
    simp only [Nat.mul_zero, Nat.add_zero] at this
    exact this
  · have := fin 0 1 J
    have e : (fun j => ent wts (j + ns * 1)) = Ds := by funext j; show ent wts _ = ent wts _; congr 1; omega
    rw [e] at this
    simp only [Nat.mul_zero, Nat.add_zero] at this
    exact this
  · have := fin 1 0 J
    have e : (fun j => ent wtt (j + nt * 1)) = Dt := by funext j; show ent wtt _ = ent wtt _; congr 1; omega
    rw [e] at this
    simp only [Nat.mul_zero, Nat.add_zero] at this
    exact this

/-- the hypotheses are met: arithmetic that is always off by 1%, 2 x 3 values, arbitrary weights -/
example (f : Nat → ℝ) : ∃ v g0 g1, TensorFl.ig2 (fun s x y => (s + x * y * (101 / 100)) * (101 / 100)) 0 (tab 4 f) 2 (tab 6 f) 3 (tab 6 f) = some (v, g0, g1) ∧
    Within (1 / 100) (2 + 3 + 2) v (interp2 (fun i => ent (tab 4 f) i) 2 (fun j => ent (tab 6 f) j) 3 (tab 6 f))
      (interp2 (fun i => |ent (tab 4 f) i|) 2 (fun j => |ent (tab 6 f) j|) 3 ((tab 6 f).map abs)) := by
  have h : IsFma (fun s x y => (s + x * y * (101 / 100)) * (101 / 100)) (fun x y : ℝ => x * y * (101 / 100)) (1 / 100) := {
    u0 := by norm_num
    step := fun s x y => ⟨x * y * (101 / 100), by
      constructor
      · rw [show x * y * (101 / 100) - x * y = 1 / 100 * (x * y) by ring, abs_mul, abs_of_pos (by norm_num : (0 : ℝ) < 1 / 100)]
      · rw [show (s + x * y * (101 / 100)) * (101 / 100) - (s + x * y * (101 / 100)) = 1 / 100 * (s + x * y * (101 / 100)) by ring, abs_mul, abs_of_pos (by norm_num : (0 : ℝ) < 1 / 100)]⟩
    mul := fun x y => by
      rw [show x * y * (101 / 100) - x * y = 1 / 100 * (x * y) by ring, abs_mul, abs_of_pos (by norm_num : (0 : ℝ) < 1 / 100)] }
  obtain ⟨v, g0, g1, e, hv, -⟩ := gradient_rounding_error_2 h (nr := 2) (ns := 3) (wtr := tab 4 f) (wts := tab 6 f) (inp := tab 6 f) (by simp) (by simp) (by simp)
  exact ⟨v, g0, g1, e, hv⟩

end
end Gslib.Props
