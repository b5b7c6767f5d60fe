import Verif.Model.HashFl
import Verif.Lemmas.Hash

/-!
# Cells of boxes and points with rounding
-/

namespace Gslib.Hash
open Gslib.Num
variable {K : Type} [Field K] [LinearOrder K] [IsStrictOrderedRing K] [FloorRing K]

/-- rounding: monotone, with relative error at most `u` -/
structure IsRnd (rnd : K → K) (u : K) : Prop where
  mono : ∀ x y, x ≤ y → rnd x ≤ rnd y
  err : ∀ z, |rnd z - z| ≤ u * |z|
  u0 : 0 ≤ u
  u8 : u ≤ 1 / 8

theorem IsRnd.nonneg {rnd : K → K} {u : K} (h : IsRnd rnd u) {z : K} (hz : 0 ≤ z) : z * (1 - u) ≤ rnd z ∧ rnd z ≤ z * (1 + u) ∧ 0 ≤ rnd z := by
  have h1 := h.err z
  rw [abs_of_nonneg hz, abs_le] at h1
  have : z * u ≤ z := by nlinarith [h.u8, h.u0]
  refine ⟨?_, ?_, ?_⟩ <;> nlinarith [h1.1, h1.2]

/-- range `r` lies inside the bound `b` and is thicker than `5u` times the width of `b` -/
def FitFl (u : K) (b r : Range K) : Prop := b.min ≤ r.min ∧ r.max ≤ b.max ∧ 5 * u * (b.max - b.min) < r.max - r.min

theorem FitFl.pos {rnd : K → K} {u : K} {b r : Range K} (hr : IsRnd rnd u) (h : FitFl u b r) : r.min < r.max ∧ 0 < b.max - b.min := by
  obtain ⟨h1, h2, h3⟩ := h
  have hu := hr.u0
  by_contra hc
  by_cases hw : 0 < b.max - b.min
  · have := mul_nonneg hu hw.le
    exact hc ⟨by linarith, hw⟩
  · have hu8 := hr.u8
    have e : 5 * u * (b.max - b.min) = 5 * (u * (b.max - b.min)) := by ring
    nlinarith

theorem facFl_pos {rnd : K → K} {u : K} {b r : Range K} {n : Nat} (hr : IsRnd rnd u) (hn : 0 < n) (h : FitFl u b r) :
    0 < facFl rnd n b ∧ facFl rnd n b * (b.max - b.min) * (1 - u) ≤ n * (1 + u) := by
  obtain ⟨_, hw⟩ := h.pos hr
  obtain ⟨w1, w2, w3⟩ := hr.nonneg hw.le
  have hu := hr.u0
  have hu8 := hr.u8
  have hn' : (0 : K) < n := by exact_mod_cast hn
  have hw' : 0 < rnd (b.max - b.min) := lt_of_lt_of_le (mul_pos hw (by linarith)) w1
  have hq : 0 < (n : K) / rnd (b.max - b.min) := div_pos hn' hw'
  obtain ⟨q1, q2, q3⟩ := hr.nonneg hq.le
  refine ⟨lt_of_lt_of_le (mul_pos hq (by linarith)) q1, ?_⟩
  unfold facFl
  have e : (n : K) / rnd (b.max - b.min) * rnd (b.max - b.min) = n := div_mul_cancel₀ _ hw'.ne'
  have h1 : rnd ((n : K) / rnd (b.max - b.min)) * ((b.max - b.min) * (1 - u)) ≤ (n : K) / rnd (b.max - b.min) * (1 + u) * rnd (b.max - b.min) :=
    mul_le_mul q2 w1 (mul_nonneg hw.le (by linarith)) (mul_nonneg hq.le (by linarith))
  have h2 : (n : K) / rnd (b.max - b.min) * (1 + u) * rnd (b.max - b.min) = n * (1 + u) := by rw [mul_right_comm, e]
  rw [h2] at h1
  rwa [mul_assoc]

theorem scaleFl_mono {rnd : K → K} {u : K} (hr : IsRnd rnd u) {low fac : K} (hf : 0 ≤ fac) {x y : K} (h : x ≤ y) : scaleFl rnd low fac x ≤ scaleFl rnd low fac y :=
  hr.mono _ _ (mul_le_mul_of_nonneg_right (hr.mono _ _ (by linarith)) hf)

theorem scaleFl_bounds {rnd : K → K} {u : K} (hr : IsRnd rnd u) {low fac : K} (hf : 0 ≤ fac) {x : K} (h : low ≤ x) :
    (x - low) * fac * ((1 - u) * (1 - u)) ≤ scaleFl rnd low fac x ∧ scaleFl rnd low fac x ≤ (x - low) * fac * ((1 + u) * (1 + u)) ∧ 0 ≤ scaleFl rnd low fac x := by
  have hu := hr.u0
  have hu8 := hr.u8
  obtain ⟨a1, a2, a3⟩ := hr.nonneg (sub_nonneg.2 h)
  obtain ⟨b1, b2, b3⟩ := hr.nonneg (mul_nonneg a3 hf)
  refine ⟨?_, ?_, b3⟩
  · refine le_trans ?_ b1
    have := mul_le_mul_of_nonneg_right (mul_le_mul_of_nonneg_right a1 hf) (by linarith : 0 ≤ 1 - u)
    calc (x - low) * fac * ((1 - u) * (1 - u)) = (x - low) * (1 - u) * fac * (1 - u) := by ring
      _ ≤ _ := this
  · refine le_trans b2 ?_
    have := mul_le_mul_of_nonneg_right (mul_le_mul_of_nonneg_right a2 hf) (by linarith : 0 ≤ 1 + u)
    calc _ ≤ (x - low) * (1 + u) * fac * (1 + u) := this
      _ = _ := by ring

/-- a gap of more than `4u` widths survives rounding -/
theorem scaleFl_lt {rnd : K → K} {u : K} (hr : IsRnd rnd u) {b : Range K} {fac : K} (hf : 0 < fac) {x y : K} (hx : b.min ≤ x) (hy : y ≤ b.max)
    (hg : 4 * u * (b.max - b.min) < y - x) (hxy : x < y) : scaleFl rnd b.min fac x < scaleFl rnd b.min fac y := by
  have hu := hr.u0
  have hu8 := hr.u8
  obtain ⟨_, a2, _⟩ := scaleFl_bounds hr hf.le hx
  obtain ⟨b1, _, _⟩ := scaleFl_bounds hr hf.le (hx.trans hxy.le)
  refine lt_of_le_of_lt a2 (lt_of_lt_of_le ?_ b1)
  have hyw : 4 * u * (y - b.min) ≤ 4 * u * (b.max - b.min) := mul_le_mul_of_nonneg_left (by linarith) (by linarith)
  have hkey : (x - b.min) * ((1 + u) * (1 + u)) < (y - b.min) * ((1 - u) * (1 - u)) := by
    have h1 : 0 < y - x := by linarith
    have h2 : 0 ≤ (y - x) * u := mul_nonneg h1.le hu
    have h3 : 0 ≤ (y - x) * u * u := mul_nonneg h2 hu
    have e : (y - b.min) * ((1 - u) * (1 - u)) - (x - b.min) * ((1 + u) * (1 + u)) = (y - x) - 4 * u * (y - b.min) + 2 * ((y - x) * u) + (y - x) * u * u := by ring
    linarith
  calc (x - b.min) * fac * ((1 + u) * (1 + u)) = (x - b.min) * ((1 + u) * (1 + u)) * fac := by ring
    _ < (y - b.min) * ((1 - u) * (1 - u)) * fac := mul_lt_mul_of_pos_right hkey hf
    _ = _ := by ring

/-- lower ends of boxes are in a cell below `n` -/
theorem scaleFl_lt_n {rnd : K → K} {u : K} (hr : IsRnd rnd u) {b r : Range K} {n : Nat} (hn : 0 < n) (h : FitFl u b r) : scaleFl rnd b.min (facFl rnd n b) r.min < n := by
  have hu := hr.u0
  have hu8 := hr.u8
  obtain ⟨hf, hfw⟩ := facFl_pos hr hn h
  obtain ⟨_, hw⟩ := h.pos hr
  obtain ⟨h1, h2, h3⟩ := h
  obtain ⟨_, a2, _⟩ := scaleFl_bounds hr hf.le h1
  refine lt_of_le_of_lt a2 ?_
  have hn' : (0 : K) < n := by exact_mod_cast hn
  set W := b.max - b.min with hW
  set F := facFl rnd n b
  have hlt : r.min - b.min < W * (1 - 5 * u) := by
    have : r.min - b.min ≤ W - (r.max - r.min) := by rw [hW]; linarith
    have e : W * (1 - 5 * u) = W - 5 * u * W := by ring
    rw [e]; linarith
  have hc : (0 : K) < (1 + u) * (1 + u) := mul_pos (by linarith) (by linarith)
  have s1 : (r.min - b.min) * F * ((1 + u) * (1 + u)) < W * (1 - 5 * u) * F * ((1 + u) * (1 + u)) := mul_lt_mul_of_pos_right (mul_lt_mul_of_pos_right hlt hf) hc
  refine lt_of_lt_of_le s1 ?_
  have h5 : (0 : K) ≤ 1 - 5 * u := by linarith
  have s2 : F * W * (1 - u) * ((1 - 5 * u) * ((1 + u) * (1 + u))) ≤ n * (1 + u) * ((1 - 5 * u) * ((1 + u) * (1 + u))) := mul_le_mul_of_nonneg_right hfw (mul_nonneg h5 hc.le)
  have hpoly : (1 + u) * ((1 - 5 * u) * ((1 + u) * (1 + u))) ≤ 1 - u := by
    have e : 1 - u - (1 + u) * ((1 - 5 * u) * ((1 + u) * (1 + u))) = u * (1 + 12 * u + 14 * (u * u) + 5 * (u * u * u)) := by ring
    have := mul_nonneg hu hu
    have h' := mul_nonneg this hu
    have := mul_nonneg hu (by linarith : 0 ≤ 1 + 12 * u + 14 * (u * u) + 5 * (u * u * u))
    linarith
  have s3 : (n : K) * (1 + u) * ((1 - 5 * u) * ((1 + u) * (1 + u))) ≤ n * (1 - u) := by
    rw [mul_assoc]; exact mul_le_mul_of_nonneg_left hpoly hn'.le
  have s4 : W * (1 - 5 * u) * F * ((1 + u) * (1 + u)) * (1 - u) ≤ n * (1 - u) := by
    refine le_trans (le_of_eq ?_) (s2.trans s3)
    ring
  exact le_of_mul_le_mul_right s4 (by linarith)

theorem fl_facts {rnd : K → K} {u : K} {b r : Range K} {n : Nat} (hr : IsRnd rnd u) (hn : 0 < n) (h : FitFl u b r) :
    0 ≤ ⌊scaleFl rnd b.min (facFl rnd n b) r.min⌋ ∧ ⌊scaleFl rnd b.min (facFl rnd n b) r.min⌋ < n ∧
      ⌊scaleFl rnd b.min (facFl rnd n b) r.min⌋ < ⌈scaleFl rnd b.min (facFl rnd n b) r.max⌉ := by
  obtain ⟨hf, _⟩ := facFl_pos hr hn h
  obtain ⟨hlt, hw⟩ := h.pos hr
  have hn2 := scaleFl_lt_n hr hn h
  obtain ⟨h1, h2, h3⟩ := h
  have hg := scaleFl_lt (b := b) hr hf h1 h2 (by nlinarith [mul_nonneg hr.u0 hw.le]) hlt
  refine ⟨Int.floor_nonneg.2 (scaleFl_bounds hr hf.le h1).2.2, Int.floor_lt.2 (by exact_mod_cast hn2), ?_⟩
  have := Int.floor_le (scaleFl rnd b.min (facFl rnd n b) r.min)
  have := Int.le_ceil (scaleFl rnd b.min (facFl rnd n b) r.max)
  exact_mod_cast (by linarith : (⌊scaleFl rnd b.min (facFl rnd n b) r.min⌋ : K) < ⌈scaleFl rnd b.min (facFl rnd n b) r.max⌉)

theorem hashRangeFl_ok {rnd : K → K} {u : K} {b r : Range K} {n : Nat} (hr : IsRnd rnd u) (hn : 0 < n) (h : FitFl u b r) : (hashRangeFl rnd n b r).Ok n := by
  obtain ⟨f0, f1, f2⟩ := fl_facts hr hn h
  unfold hashRangeFl IRange.Ok
  dsimp only
  generalize ⌊scaleFl rnd b.min (facFl rnd n b) r.min⌋ = i0 at *
  generalize ⌈scaleFl rnd b.min (facFl rnd n b) r.max⌉ = i1 at *
  rw [if_neg (by omega)]
  split <;> split <;> constructor <;> (try omega)

/-- the cell coordinate of a point that is at least `4u` widths away from the upper end of the box is covered -/
theorem hashIndexAuxFl_mem {rnd : K → K} {u : K} {b r : Range K} {n : Nat} (hr : IsRnd rnd u) (hn : 0 < n) (h : FitFl u b r) {x : K} (h1 : r.min ≤ x) (h2 : x + 4 * u * (b.max - b.min) < r.max) :
    (hashRangeFl rnd n b r).min ≤ hashIndexAuxFl rnd b.min (facFl rnd n b) n x ∧ hashIndexAuxFl rnd b.min (facFl rnd n b) n x < (hashRangeFl rnd n b r).max := by
  obtain ⟨f0, f1, f2⟩ := fl_facts hr hn h
  obtain ⟨hf, _⟩ := facFl_pos hr hn h
  obtain ⟨_, hw⟩ := h.pos hr
  have hb := h.1
  have hm : ⌊scaleFl rnd b.min (facFl rnd n b) r.min⌋ ≤ ⌊scaleFl rnd b.min (facFl rnd n b) x⌋ := Int.floor_le_floor (scaleFl_mono hr hf.le h1)
  have hnn := mul_nonneg hr.u0 hw.le
  have hg := scaleFl_lt (b := b) hr hf (hb.trans h1) h.2.1 (by linarith) (by nlinarith : x < r.max)
  have hl : ⌊scaleFl rnd b.min (facFl rnd n b) x⌋ < ⌈scaleFl rnd b.min (facFl rnd n b) r.max⌉ := by
    have := Int.floor_le (scaleFl rnd b.min (facFl rnd n b) x)
    have := Int.le_ceil (scaleFl rnd b.min (facFl rnd n b) r.max)
    exact_mod_cast (by linarith : (⌊scaleFl rnd b.min (facFl rnd n b) x⌋ : K) < ⌈scaleFl rnd b.min (facFl rnd n b) r.max⌉)
  unfold hashRangeFl hashIndexAuxFl
  dsimp only
  generalize ⌊scaleFl rnd b.min (facFl rnd n b) r.min⌋ = i0 at *
  generalize ⌈scaleFl rnd b.min (facFl rnd n b) r.max⌉ = i1 at *
  generalize ⌊scaleFl rnd b.min (facFl rnd n b) x⌋ = i at *
  rw [if_neg (by omega), if_neg (by omega)]
  constructor
  · split <;> omega
  · split <;> split <;> (try split) <;> omega

omit [IsStrictOrderedRing K] in
theorem hashIndexFl_lt {n : Nat} (hn : 0 < n) (rnd : K → K) : ∀ (bnd : List (Range K)) (x : List K), hashIndexFl rnd n bnd x < n ^ bnd.length
  | [], _ => by simp [hashIndexFl]
  | b :: bs, [] => by simp only [hashIndexFl]; exact Nat.pow_pos hn
  | b :: bs, x :: xs => by
      have h1 := hashIndexFl_lt hn rnd bs xs
      have h2 : hashIndexAuxFl rnd b.min (facFl rnd n b) n x < n := by
        unfold hashIndexAuxFl
        dsimp only
        split
        · exact hn
        · split <;> omega
      rw [hashIndexFl, List.length_cons, pow_succ]
      calc hashIndexFl rnd n bs xs * n + hashIndexAuxFl rnd b.min (facFl rnd n b) n x < hashIndexFl rnd n bs xs * n + n := by omega
        _ = (hashIndexFl rnd n bs xs + 1) * n := by ring
        _ ≤ n ^ bs.length * n := Nat.mul_le_mul_right _ h1

theorem hashRangesFl_ok {rnd : K → K} {u : K} (hr : IsRnd rnd u) {n : Nat} (hn : 0 < n) : ∀ {bnd box : List (Range K)}, List.Forall₂ (FitFl u) bnd box → ∀ r ∈ hashRangesFl rnd n bnd box, r.Ok n
  | [], [], _, r, h => by simp [hashRangesFl] at h
  | b :: bs, x :: xs, h, r, hm => by
      obtain ⟨h1, h2⟩ := List.forall₂_cons.1 h
      rw [hashRangesFl, List.zipWith_cons_cons] at hm
      rcases List.mem_cons.1 hm with rfl | hm
      · exact hashRangeFl_ok hr hn h1
      · exact hashRangesFl_ok hr hn h2 r hm

theorem hashIndexFl_mem {rnd : K → K} {u : K} (hr : IsRnd rnd u) {n : Nat} (hn : 0 < n) : ∀ {bnd box : List (Range K)} {x : List K}, List.Forall₂ (FitFl u) bnd box → x.length = box.length →
    (∀ (d : Nat) b r y, bnd[d]? = some b → box[d]? = some r → x[d]? = some y → r.min ≤ y ∧ y + 4 * u * (b.max - b.min) < r.max) →
    hashIndexFl rnd n bnd x ∈ cells n (hashRangesFl rnd n bnd box)
  | [], [], [], _, _, _ => by simp [hashIndexFl, hashRangesFl, cells]
  | b :: bs, r :: rs, y :: ys, h, hl, hc => by
      obtain ⟨h1, h2⟩ := List.forall₂_cons.1 h
      rw [hashRangesFl, List.zipWith_cons_cons, mem_cells_cons, hashIndexFl]
      have ih := hashIndexFl_mem hr hn (x := ys) h2 (by simpa using hl) (fun d b r y hb hr hy => hc (d + 1) b r y (by simpa) (by simpa) (by simpa))
      obtain ⟨c1, c2⟩ := hc 0 b r y rfl rfl rfl
      have := hashIndexAuxFl_mem hr hn h1 c1 c2
      exact ⟨_, ih, _, this.1, this.2, rfl⟩

end Gslib.Hash
