import Verif.Lemmas.LobCell

/-!
# The check of all cells
-/

namespace Gslib.Lob
open Polynomial

/-- cells `k1 <= k < k2` where the second derivative may vanish; sign of the third derivative around them; its bounds to the left and to the right -/
structure Clu where
  k1 : ℕ
  k2 : ℕ
  s : Bool
  a : ℕ
  b : ℕ
  c : ℕ
  d : ℕ

/-- bounds of the second derivative at the ends, and the clusters -/
structure Row where
  sl : Bool
  al : ℕ
  bl : ℕ
  sr : Bool
  ar : ℕ
  br : ℕ
  cl : List Clu

noncomputable def allL {α : Type} (f : α → Bool) (l : List α) : Bool := @List.rec α (fun _ => Bool) true (fun c _ ih => and (f c) ih) l
noncomputable def anyL {α : Type} (f : α → Bool) (l : List α) : Bool := @List.rec α (fun _ => Bool) false (fun c _ ih => or (f c) ih) l

theorem allL_iff {α : Type} (f : α → Bool) (l : List α) : allL f l = true ↔ ∀ c ∈ l, f c = true := by
  induction l with
  | nil => exact ⟨fun _ c hc => absurd hc List.not_mem_nil, fun _ => rfl⟩
  | cons c l ih =>
    show and (f c) (allL f l) = true ↔ _
    rw [Bool.and_eq_true, ih]
    simp

theorem anyL_iff {α : Type} (f : α → Bool) (l : List α) : anyL f l = true ↔ ∃ c ∈ l, f c = true := by
  induction l with
  | nil => exact ⟨fun h => absurd h (by simp [anyL]), fun ⟨c, hc, _⟩ => absurd hc List.not_mem_nil⟩
  | cons c l ih =>
    show or (f c) (anyL f l) = true ↔ _
    rw [Bool.or_eq_true, ih]
    simp

/-- the sizes: number of nodes, of cells, windows (in cells), exponents of the bounds, base -/
structure Par where
  n : ℕ
  M : ℕ
  W : ℕ
  W2 : ℕ
  E : ℕ
  e2 : ℕ
  e3 : ℕ
  B : ℕ
  h : ℕ

noncomputable def imp (x y : Bool) : Bool := cond x y true

theorem imp_iff (x y : Bool) : imp x y = true ↔ (x = true → y = true) := by cases x <;> cases y <;> decide

noncomputable def cluOk (P : Par) (k R D U : ℕ) (c : Clu) : Bool :=
  and (imp (and (Nat.ble c.k1 (Nat.add k P.W)) (Nat.blt k (Nat.add c.k2 P.W))) (pos3 P.h c.s R D U))
    (and (imp (and (Nat.ble c.k1 (Nat.add k P.W2)) (Nat.blt k c.k2)) (fits3 P.h c.s (Nat.shiftLeft c.a P.e3) (Nat.shiftLeft c.b P.e3) R D U))
      (imp (and (Nat.ble c.k1 k) (Nat.blt k (Nat.add c.k2 P.W2))) (fits3 P.h c.s (Nat.shiftLeft c.c P.e3) (Nat.shiftLeft c.d P.e3) R D U)))

noncomputable def rowOk' (P : Par) (k R : ℕ) (r : Row) (Q D2 D3 : ℕ) (U : ℕ × ℕ) : Bool :=
  and (imp (Nat.blt k P.E) (fits2 P.h r.sl (Nat.shiftLeft r.al P.e2) (Nat.shiftLeft r.bl P.e2) D2 U.1))
    (and (imp (Nat.ble P.M (Nat.add k P.E)) (fits2 P.h r.sr (Nat.shiftLeft r.ar P.e2) (Nat.shiftLeft r.br P.e2) D2 U.1))
      (and (allL (cluOk P k R D3 U.2) r.cl)
        (imp (not (anyL (fun c : Clu => and (Nat.ble c.k1 k) (Nat.blt k c.k2)) r.cl)) (Nat.blt U.1 (Nat.mul 4 (absd P.h D2))))))

/-- the check of one cell for one basis function; `Q2`: the packed coefficients from the second on -/
noncomputable def rowOk (P : Par) (k R : ℕ) (r : Row) (Q2 : ℕ) : Bool :=
  rowOk' P k R r Q2 (Nat.mod Q2 (Nat.pow 2 P.B)) (Nat.mod (Nat.shiftRight Q2 P.B) (Nat.pow 2 P.B)) (sums P.B P.h R (Nat.sub P.n 2) Q2 2)

noncomputable def mapL {α β : Type} (f : α → β) (l : List α) : List β := @List.rec α (fun _ => List β) [] (fun c _ ih => f c :: ih) l
noncomputable def prodL (l : List ℕ) : ℕ := @List.rec ℕ (fun _ => ℕ) 1 (fun c _ ih => Nat.mul c ih) l
noncomputable def hd (l : List ℕ) : ℕ := @List.rec ℕ (fun _ => ℕ) 0 (fun c _ _ => c) l
noncomputable def tl (l : List ℕ) : List ℕ := @List.rec ℕ (fun _ => List ℕ) [] (fun _ t _ => t) l

theorem mapL_eq {α β : Type} (f : α → β) (l : List α) : mapL f l = l.map f := by
  induction l with
  | nil => rfl
  | cons c l ih => show f c :: mapL f l = _; rw [ih]; rfl

theorem prodL_eq (l : List ℕ) : prodL l = l.prod := by
  induction l with
  | nil => rfl
  | cons c l ih => show c * prodL l = _; rw [ih, List.prod_cons]

/-- all rows -/
noncomputable def rowsOk (P : Par) (k R off prod : ℕ) (rows : List Row) (fs : List ℕ) : Bool :=
  @List.rec Row (fun _ => List ℕ → Bool) (fun _ => true) (fun r _ ih fs =>
    and (rowOk P k R r (Nat.shiftRight (Nat.shiftRight (Nat.add off (Nat.div prod (hd fs))) P.B) P.B)) (ih (tl fs))) rows fs

theorem rowsOk_iff (P : Par) (k R off prod : ℕ) (rows : List Row) (fs : List ℕ) (hlen : rows.length ≤ fs.length) : rowsOk P k R off prod rows fs = true →
    ∀ i (hi : i < rows.length), rowOk P k R rows[i] (Nat.shiftRight (Nat.shiftRight (Nat.add off (Nat.div prod (fs[i]'(by omega)))) P.B) P.B) = true := by
  induction rows generalizing fs with
  | nil => intro _ i hi; simp at hi
  | cons r rows ih =>
    intro hc i hi
    cases fs with
    | nil => simp at hlen
    | cons x fs =>
      have hc' : and (rowOk P k R r (Nat.shiftRight (Nat.shiftRight (Nat.add off (Nat.div prod x)) P.B) P.B)) (rowsOk P k R off prod rows fs) = true := hc
      rw [Bool.and_eq_true] at hc'
      cases i with
      | zero => exact hc'.1
      | succ i => exact ih fs (by simpa using hlen) hc'.2 i (by simpa using hi)

/-- one cell with centre `C` and radius `R`, for all rows; `Z`: the nodes -/
noncomputable def cellOk' (P : Par) (off k R : ℕ) (rows : List Row) (fs : List ℕ) : Bool := rowsOk P k R off (prodL fs) rows fs
noncomputable def cellOk (P : Par) (off : ℕ) (Z : List ℕ) (rows : List Row) (k C R : ℕ) : Bool :=
  cellOk' P off k R rows (mapL (fun z => Nat.sub (Nat.add (Nat.pow 2 P.B) C) z) Z)

/-- the polynomial with roots at all nodes but `i` -/
noncomputable def rootsP (Z : List ℕ) (i : ℕ) : ℝ[X] := ((Z.eraseIdx i).map fun z : ℕ => X - C (z : ℝ)).prod

/-- the requirements on the sizes -/
structure Par.Ok (P : Par) (Z : List ℕ) (K : ℕ) : Prop where
  n : 4 ≤ P.n
  len : Z.length = P.n
  B : 2 ^ P.B = 2 * P.h
  hK : K ^ (P.n - 1) < P.h
  le : ∀ z ∈ Z, z + 1 ≤ K

/-- what the check of a cell says -/
structure RowCell (P : Par) (k : ℕ) (r : Row) (f2 f3 : ℝ → ℝ) (C R : ℝ) : Prop where
  left : k < P.E → ∀ y, |y - C| ≤ R → ((r.al <<< P.e2 : ℕ) : ℝ) ≤ sgn r.sl * f2 y ∧ sgn r.sl * f2 y ≤ ((r.bl <<< P.e2 : ℕ) : ℝ)
  right : P.M ≤ k + P.E → ∀ y, |y - C| ≤ R → ((r.ar <<< P.e2 : ℕ) : ℝ) ≤ sgn r.sr * f2 y ∧ sgn r.sr * f2 y ≤ ((r.br <<< P.e2 : ℕ) : ℝ)
  pos : ∀ c ∈ r.cl, c.k1 ≤ k + P.W → k < c.k2 + P.W → ∀ y, |y - C| ≤ R → 0 ≤ sgn c.s * f3 y
  lb : ∀ c ∈ r.cl, c.k1 ≤ k + P.W2 → k < c.k2 → ∀ y, |y - C| ≤ R → ((c.a <<< P.e3 : ℕ) : ℝ) ≤ sgn c.s * f3 y ∧ sgn c.s * f3 y ≤ ((c.b <<< P.e3 : ℕ) : ℝ)
  rb : ∀ c ∈ r.cl, c.k1 ≤ k → k < c.k2 + P.W2 → ∀ y, |y - C| ≤ R → ((c.c <<< P.e3 : ℕ) : ℝ) ≤ sgn c.s * f3 y ∧ sgn c.s * f3 y ≤ ((c.d <<< P.e3 : ℕ) : ℝ)
  nz : (∃ c ∈ r.cl, c.k1 ≤ k ∧ k < c.k2) ∨ ∀ y, |y - C| ≤ R → f2 y ≠ 0

theorem blt_iff {a b : ℕ} : Nat.blt a b = true ↔ a < b := by
  unfold Nat.blt
  rw [Nat.ble_eq]
  rfl

theorem derivative_comp_add (p : ℝ[X]) (c : ℝ) (k : ℕ) (y : ℝ) : (derivative^[k] (p.comp (X + C c))).eval y = (derivative^[k] p).eval (y + c) := by
  have : derivative^[k] (p.comp (X + C c)) = (derivative^[k] p).comp (X + C c) := by
    induction k generalizing p with
    | zero => rfl
    | succ k ih =>
      rw [Function.iterate_succ, Function.comp_apply, derivative_comp, derivative_add, derivative_X, derivative_C, add_zero, one_mul, ih]; rfl
  rw [this, eval_comp]
  simp

theorem rowCell_of_info {P : Par} {k R : ℕ} {r : Row} {Q2 : ℕ} {p : ℝ[X]} (hR : 0 < R) (hi : CellInfo p P.h R (Nat.mod Q2 (Nat.pow 2 P.B)) (Nat.mod (Nat.shiftRight Q2 P.B) (Nat.pow 2 P.B))
    (sums P.B P.h R (Nat.sub P.n 2) Q2 2).1 (sums P.B P.h R (Nat.sub P.n 2) Q2 2).2) (hc : rowOk P k R r Q2 = true) {q : ℝ[X]} {c : ℝ} (hp : p = q.comp (X + C c)) :
    RowCell P k r (fun y => (derivative^[2] q).eval y) (fun y => (derivative^[3] q).eval y) c R := by
  have e : ∀ j y, (derivative^[j] q).eval y = (derivative^[j] p).eval (y - c) := fun j y => by rw [hp, derivative_comp_add, sub_add_cancel]
  unfold rowOk rowOk' at hc
  rw [Bool.and_eq_true, Bool.and_eq_true, Bool.and_eq_true, imp_iff, imp_iff, imp_iff, allL_iff] at hc
  obtain ⟨h1, h2, h3, h4⟩ := hc
  have h3' : ∀ c ∈ r.cl, _ := fun c hc => by
    have := h3 c hc
    unfold cluOk at this
    rw [Bool.and_eq_true, Bool.and_eq_true, imp_iff, imp_iff, imp_iff, Bool.and_eq_true, Bool.and_eq_true, Bool.and_eq_true, blt_iff, blt_iff, blt_iff] at this
    exact this
  refine ⟨fun hk y hy => ?_, fun hk y hy => ?_, fun c hc a b y hy => ?_, fun c hc a b y hy => ?_, fun c hc a b y hy => ?_, ?_⟩
  · rw [e]; exact hi.b2 (h1 (blt_iff.2 hk)) hy
  · rw [e]; exact hi.b2 (h2 (Nat.ble_eq_true_of_le hk)) hy
  · rw [e]; exact hi.pos hR ((h3' c hc).1 ⟨Nat.ble_eq_true_of_le a, b⟩) hy
  · rw [e]; exact hi.b3 hR ((h3' c hc).2.1 ⟨Nat.ble_eq_true_of_le a, b⟩) hy
  · rw [e]; exact hi.b3 hR ((h3' c hc).2.2 ⟨Nat.ble_eq_true_of_le a, b⟩) hy
  · cases hany : anyL (fun c : Clu => and (Nat.ble c.k1 k) (Nat.blt k c.k2)) r.cl
    · right
      intro y hy
      show (derivative^[2] q).eval y ≠ 0
      rw [e]
      exact hi.nz (h4 (by rw [hany]; rfl)) hy
    · left
      obtain ⟨c, hc, hh⟩ := (anyL_iff _ _).1 hany
      rw [Bool.and_eq_true, blt_iff] at hh
      exact ⟨c, hc, Nat.le_of_ble_eq_true hh.1, hh.2⟩

/-- soundness of the check of a cell -/
theorem cellOk_sound {P : Par} {off : ℕ} {Z : List ℕ} {rows : List Row} {k C R K : ℕ} (hP : P.Ok Z K) (hoff : off = offs P.B P.h P.n) (hC : C + 1 ≤ K) (hR : 0 < R) (hrows : rows.length ≤ P.n)
    (hc : cellOk P off Z rows k C R = true) (i : ℕ) (hi : i < rows.length) :
    RowCell P k rows[i] (fun y => (derivative^[2] (rootsP Z i)).eval y) (fun y => (derivative^[3] (rootsP Z i)).eval y) C R := by
  have hKB : K ≤ 2 ^ P.B := by
    rw [hP.B]
    have h1 : K ≤ K ^ (P.n - 1) := Nat.le_self_pow (by have := hP.n; omega) K
    have := hP.hK
    omega
  unfold cellOk cellOk' at hc
  rw [mapL_eq, prodL_eq] at hc
  have hlen : (Z.map fun z => Nat.sub (Nat.add (Nat.pow 2 P.B) C) z).length = P.n := by rw [List.length_map, hP.len]
  have hr := rowsOk_iff P k R off _ rows _ (by omega) hc i hi
  have hiZ : i < Z.length := by rw [hP.len]; omega
  -- the factors
  set F : ℕ → ℕ := fun z => Nat.sub (Nat.add (Nat.pow 2 P.B) C) z with hF
  have hFz : ∀ z ∈ Z, ((F z : ℕ) : ℤ) = 2 ^ P.B + ((C : ℤ) - z) := by
    intro z hz
    have h1 := hP.le z hz
    show (((2 ^ P.B + C) - z : ℕ) : ℤ) = _
    rw [Nat.cast_sub (by omega)]
    push_cast; ring
  have hFpos : ∀ z ∈ Z, 0 < F z := by
    intro z hz
    have h1 := hP.le z hz
    show 0 < 2 ^ P.B + C - z
    omega
  have hdiv : Nat.div (Z.map F).prod ((Z.map F)[i]'(by rw [List.length_map]; exact hiZ)) = ((Z.eraseIdx i).map F).prod := by
    have h1 := List.CommMonoid.mul_prod_eraseIdx (l := Z.map F) (i := i) (by rw [List.length_map]; exact hiZ)
    rw [List.eraseIdx_map] at h1
    show (Z.map F).prod / _ = _
    rw [← h1]
    refine Nat.mul_div_cancel_left _ ?_
    rw [List.getElem_map]
    exact hFpos _ (List.getElem_mem hiZ)
  rw [hdiv] at hr
  set l : List ℤ := (Z.eraseIdx i).map fun z : ℕ => (C : ℤ) - z with hl
  have hmem : ∀ z ∈ Z.eraseIdx i, z ∈ Z := fun z hz => List.mem_of_mem_eraseIdx hz
  have hev : ((((Z.eraseIdx i).map F).prod : ℕ) : ℤ) = (linP l).eval (2 ^ P.B) := by
    rw [linP_eval, hl, List.map_map, Nat.cast_list_prod, List.map_map]
    congr 1
    refine List.map_congr_left fun z hz => ?_
    exact hFz z (hmem z hz)
  have hinfo := cell_info (R := R) hP.n hP.B l (by rw [hl, List.length_map, List.length_eraseIdx_of_lt hiZ, hP.len]; have := hP.n; omega) (K := K) (by
    intro c hc
    rw [hl, List.mem_map] at hc
    obtain ⟨z, hz, rfl⟩ := hc
    have h1 := hP.le z (hmem z hz)
    have : |(C : ℤ) - z| ≤ K - 1 := by
      rw [abs_le]
      constructor <;> omega
    linarith) hP.hK (Q := Nat.add off ((Z.eraseIdx i).map F).prod) (by
      show ((off + _ : ℕ) : ℤ) = _
      rw [Nat.cast_add, hev, hoff, add_comm])
  refine rowCell_of_info hR hinfo hr ?_
  rw [linP, hl, List.map_map, Polynomial.map_list_prod, List.map_map, rootsP, Polynomial.list_prod_comp, List.map_map]
  congr 1
  refine List.map_congr_left fun z _ => ?_
  simp
  ring

end Gslib.Lob
