import Verif.Lemmas.ElGroup3

/-!
# Helper lemmas: directions of a 3D element, and `findpt_vol`
-/

namespace Gslib.El
open Gslib.Tensor Gslib.Num Gslib.Spec Gslib.Props Polynomial Finset

variable {K : Type} [Field K] [LinearOrder K]

section
omit [LinearOrder K]

/-- a loop each round of which stores final values `V`, at the addresses `A i` (and nothing but final values) -/
theorem mono_loop {S : Type} {n : Nat} {body : Nat → S → Option S} (g : S → List K) (V : Nat → K) (A : Nat → Nat → Prop) (Q : Nat → S → Prop) (s0 : S) (h0 : Q 0 s0)
    (step : ∀ i, i < n → ∀ s, Q i s → ∃ s', body i s = some s' ∧ Q (i + 1) s' ∧ ∀ a, (A i a ∨ ent (g s) a = V a) → ent (g s') a = V a) :
    ∃ s', forUp 0 n body s0 = some s' ∧ Q n s' ∧ ∀ a, ((∃ i, i < n ∧ A i a) ∨ ent (g s0) a = V a) → ent (g s') a = V a := by
  obtain ⟨s', e, h1, h2⟩ := forUp_inv (fun k s => Q k s ∧ ∀ a, ((∃ i, i < k ∧ A i a) ∨ ent (g s0) a = V a) → ent (g s) a = V a) body n 0 s0
    ⟨h0, fun a ha => by rcases ha with ⟨i, hi, -⟩ | h; · omega
                        · exact h⟩ (by
      intro k _ hk s ⟨q, h⟩
      obtain ⟨s', e, q', h'⟩ := step k (by omega) s q
      refine ⟨s', e, q', fun a ha => h' a ?_⟩
      rcases ha with ⟨i, hi, hA⟩ | ha
      · rcases Nat.lt_succ_iff_lt_or_eq.1 hi with hlt | rfl
        · exact Or.inr (h a (Or.inl ⟨i, hlt, hA⟩))
        · exact Or.inl hA
      · exact Or.inr (h a (Or.inr ha)))
  rw [zero_add] at h1 h2
  exact ⟨s', e, h1, h2⟩

/-- the same for a loop with a literal bound -/
theorem mono_fin {S : Type} {n : Nat} {body : Fin n → S → Option S} (g : S → List K) (V : Nat → K) (A : Fin n → Nat → Prop) (Q : Nat → S → Prop) (s0 : S) (h0 : Q 0 s0)
    (step : ∀ i : Fin n, ∀ s, Q i.val s → ∃ s', body i s = some s' ∧ Q (i.val + 1) s' ∧ ∀ a, (A i a ∨ ent (g s) a = V a) → ent (g s') a = V a) :
    ∃ s', forFin n body s0 = some s' ∧ Q n s' ∧ ∀ a, ((∃ i, A i a) ∨ ent (g s0) a = V a) → ent (g s') a = V a := by
  obtain ⟨s', e, h1, h2⟩ := forFin_inv (f := body) (fun k s => Q k s ∧ ∀ a, ((∃ i : Fin n, i.val < k ∧ A i a) ∨ ent (g s0) a = V a) → ent (g s) a = V a) s0
    ⟨h0, fun a ha => by rcases ha with ⟨i, hi, -⟩ | h; · omega
                        · exact h⟩ (by
      intro k s ⟨q, h⟩
      obtain ⟨s', e, q', h'⟩ := step k s q
      refine ⟨s', e, q', fun a ha => h' a ?_⟩
      rcases ha with ⟨i, hi, hA⟩ | ha
      · rcases Nat.lt_succ_iff_lt_or_eq.1 hi with hlt | hik
        · exact Or.inr (h a (Or.inl ⟨i, hlt, hA⟩))
        · rw [Fin.ext hik] at hA; exact Or.inl hA
      · exact Or.inr (h a (Or.inr ha)))
  refine ⟨s', e, h1, fun a ha => h2 a ?_⟩
  rcases ha with ⟨i, hA⟩ | ha
  · exact Or.inl ⟨i, i.isLt, hA⟩
  · exact Or.inr ha

/-- storing final values -/
theorem store_mono {w v : List K} {o : Nat} (V : Nat → K) (h : o + v.length ≤ w.length) (hv : ∀ j, j < v.length → ent v j = V (o + j)) :
    ∃ w', store w o v = some w' ∧ w'.length = w.length ∧ (∀ a, (a < o ∨ o + v.length ≤ a) → ent w' a = ent w a) ∧ ∀ a, ((o ≤ a ∧ a < o + v.length) ∨ ent w a = V a) → ent w' a = V a := by
  obtain ⟨w', e, g1, g2, g3⟩ := store_eq (p := w) (off := o) (v := v) h
  have hin : ∀ a, o ≤ a → a < o + v.length → ent w' a = V a := by
    intro a h1 h2
    have := g2 (a - o) (by omega)
    rw [hv _ (by omega), show o + (a - o) = a by omega] at this
    exact this
  refine ⟨w', e, g1, g3, fun a ha => ?_⟩
  by_cases hr : o ≤ a ∧ a < o + v.length
  · exact hin a hr.1 hr.2
  · rw [g3 a (by omega)]
    rcases ha with ha | ha
    · exact absurd ha hr
    · exact ha

/-- storing one final value -/
theorem store1_mono {w : List K} {o : Nat} {v : K} (V : Nat → K) (h : o < w.length) (hv : v = V o) :
    ∃ w', store w o [v] = some w' ∧ w'.length = w.length ∧ (∀ a, a ≠ o → ent w' a = ent w a) ∧ ∀ a, (a = o ∨ ent w a = V a) → ent w' a = V a := by
  obtain ⟨w', e, g1, g2, g3⟩ := store1 (w := w) v h
  refine ⟨w', e, g1, g3, fun a ha => ?_⟩
  by_cases hr : a = o
  · rw [hr, g2, hv]
  · rw [g3 a hr]
    rcases ha with ha | ha
    · exact absurd ha hr
    · exact ha

/-- `memcpy` of final values -/
theorem cpy_mono {dst src : List K} {o s len : Nat} (V : Nat → K) (h1 : s + len ≤ src.length) (h2 : o + len ≤ dst.length) (hv : ∀ j, j < len → ent src (s + j) = V (o + j)) :
    ∃ w, cpy dst o src s len = some w ∧ w.length = dst.length ∧ ∀ a, ((o ≤ a ∧ a < o + len) ∨ ent dst a = V a) → ent w a = V a := by
  obtain ⟨w, e, g1, g2, g3⟩ := cpy_eq (dst := dst) (o := o) (src := src) (s := s) (len := len) h1 h2
  refine ⟨w, e, g1, fun a ha => ?_⟩
  by_cases hr : o ≤ a ∧ a < o + len
  · have := g2 (a - o) (by omega)
    rw [hv _ (by omega), show o + (a - o) = a by omega] at this
    exact this
  · rw [g3 a (by omega)]
    rcases ha with ha | ha
    · exact absurd ha hr
    · exact ha

end

/-- the place of a node with index `a` in direction `d`, `b` in the next one and `c` in the one after that -/
def node (e : El3 K) (d : Fin 3) (a b c : Nat) : Nat :=
  match d with
  | 0 => a + e.n 0 * (b + e.n 1 * c)
  | 1 => c + e.n 0 * (a + e.n 1 * b)
  | 2 => b + e.n 0 * (c + e.n 1 * a)

/-- the values of the Lagrange polynomials of direction `d` -/
noncomputable def Lg (e : El3 K) (d : Fin 3) (k i : Nat) (x : K) : K := lagD (e.n d) (ent (e.z d)) k i x

/-- `a` in direction `d`, `b` in the next one and `c` in the one after that -/
def kv (d : Fin 3) (a b c : Nat) : Fin 3 → Nat := fun x => if x = d then a else if x = d + 1 then b else c

omit [Field K] [LinearOrder K] in
theorem node_cyc (e : El3 K) (d : Fin 3) (a b c : Nat) : node e (d + 1) b c a = node e d a b c := by
  fin_cases d <;> rfl

omit [Field K] [LinearOrder K] in
theorem node_cyc2 (e : El3 K) (d : Fin 3) (a b c : Nat) : node e (d + 2) c a b = node e d a b c := by
  fin_cases d <;> rfl

theorem add12 (d : Fin 3) : d + 1 + 1 = d + 2 ∧ d + 1 + 2 = d ∧ d + 2 + 1 = d ∧ d + 2 + 2 = d + 1 := by revert d; decide

theorem neAll (d : Fin 3) : d + 1 ≠ d ∧ d + 2 ≠ d ∧ d + 2 ≠ d + 1 := by revert d; decide

theorem kv_val (d : Fin 3) (a b c : Nat) : kv d a b c d = a ∧ kv d a b c (d + 1) = b ∧ kv d a b c (d + 2) = c := by
  obtain ⟨h1, h2, h3⟩ := neAll d
  unfold kv
  exact ⟨if_pos rfl, by rw [if_neg h1, if_pos rfl], by rw [if_neg h2, if_neg h3]⟩

theorem kv_cyc (d : Fin 3) (a b c : Nat) : kv (d + 1) b c a = kv d a b c ∧ kv (d + 2) c a b = kv d a b c := by
  constructor <;> (funext x; fin_cases d <;> fin_cases x <;> rfl)

theorem kv_all (k : Fin 3 → Nat) (d : Fin 3) : k = kv d (k d) (k (d + 1)) (k (d + 2)) := by
  funext x; fin_cases d <;> fin_cases x <;> rfl

/-- the interpolant, starting with any direction -/
theorem tensor3_dir (e : El3 K) (k : Fin 3 → Nat) (u : List K) (r : Fin 3 → K) (d : Fin 3) : tensor3 e k u r =
    ∑ a ∈ range (e.n d), ∑ b ∈ range (e.n (d + 1)), ∑ c ∈ range (e.n (d + 2)), Lg e d (k d) a (r d) * Lg e (d + 1) (k (d + 1)) b (r (d + 1)) * Lg e (d + 2) (k (d + 2)) c (r (d + 2)) * ent u (node e d a b c) := by
  unfold tensor3 interp3
  fin_cases d
  · rfl
  · show _ = ∑ a ∈ range (e.n 1), ∑ b ∈ range (e.n 2), ∑ c ∈ range (e.n 0), Lg e 1 (k 1) a (r 1) * Lg e 2 (k 2) b (r 2) * Lg e 0 (k 0) c (r 0) * ent u (c + e.n 0 * (a + e.n 1 * b))
    rw [sum_comm]
    refine sum_congr rfl fun a _ => ?_
    rw [sum_comm]
    refine sum_congr rfl fun b _ => sum_congr rfl fun c _ => ?_
    unfold Lg; ring
  · show _ = ∑ a ∈ range (e.n 2), ∑ b ∈ range (e.n 0), ∑ c ∈ range (e.n 1), Lg e 2 (k 2) a (r 2) * Lg e 0 (k 0) b (r 0) * Lg e 1 (k 1) c (r 1) * ent u (b + e.n 0 * (c + e.n 1 * a))
    rw [sum_comm (s := range (e.n 2))]
    refine sum_congr rfl fun b _ => ?_
    rw [sum_comm]
    refine sum_congr rfl fun c _ => sum_congr rfl fun a _ => ?_
    unfold Lg; ring

/-- the entries of the Jacobian -/
theorem elMap3_J (e : El3 K) (r : Fin 3 → K) (c j : Fin 3) : (elMap3 e).J r c j = tensor3 e (kv j 1 0 0) (e.x c) r := by
  have h : ∀ a b : Fin 3 → Nat, a = b → tensor3 e a (e.x c) r = tensor3 e b (e.x c) r := fun _ _ h => by rw [h]
  fin_cases j
  · exact h _ _ (by funext x; fin_cases x <;> rfl)
  · exact h _ _ (by funext x; fin_cases x <;> rfl)
  · exact h _ _ (by funext x; fin_cases x <;> rfl)

theorem elMap3_X (e : El3 K) (r : Fin 3 → K) (c : Fin 3) : (elMap3 e).X r c = tensor3 e 0 (e.x c) r := by
  have h : ∀ a b : Fin 3 → Nat, a = b → tensor3 e a (e.x c) r = tensor3 e b (e.x c) r := fun _ _ h => by rw [h]
  exact h _ _ (by funext x; fin_cases x <;> rfl)

/-- the second derivatives -/
theorem elMap3_H (e : El3 K) (r : Fin 3 → K) (c i j : Fin 3) : (elMap3 e).H r c (hix i j) = tensor3 e (fun d => (if d = i then 1 else 0) + if d = j then 1 else 0) (e.x c) r := by
  have h : ∀ a b : Fin 3 → Nat, a = b → tensor3 e a (e.x c) r = tensor3 e b (e.x c) r := fun _ _ h => by rw [h]
  fin_cases i <;> fin_cases j <;> exact h _ _ (by funext x; fin_cases x <;> rfl)

/-- a point that is not there -/
def noPt3 : Pt K 3 := ⟨0, 0, none, 0, 0, 0, 0, 0⟩

/-- the final contents of `resid` and `jac` -/
noncomputable def rjV (e : El3 K) (ps : List (Pt K 3)) (a : Nat) : K :=
  if a < 3 * ps.length then (elMap3 e).resid (ps.getD (a / 3) noPt3).x (ps.getD (a / 3) noPt3).r (Fin.ofNat 3 (a % 3))
  else (elMap3 e).J (ps.getD ((a - 3 * ps.length) / 9) noPt3).r (Fin.ofNat 3 ((a - 3 * ps.length) % 9 / 3)) (Fin.ofNat 3 ((a - 3 * ps.length) % 3))

theorem finOf {d : Fin 3} {m : Nat} (h : m = d.val) : Fin.ofNat 3 m = d := by
  apply Fin.ext; show m % 3 = d.val; rw [h, Nat.mod_eq_of_lt d.isLt]

theorem rjV_resid (e : El3 K) (ps : List (Pt K 3)) {i : Nat} {p : Pt K 3} (hp : ps[i]? = some p) (d : Fin 3) : rjV e ps (3 * i + d.val) = (elMap3 e).resid p.x p.r d := by
  have hi : i < ps.length := (List.getElem?_eq_some_iff.1 hp).1
  have hd := d.isLt
  unfold rjV
  rw [if_pos (by omega), show (3 * i + d.val) / 3 = i by omega, finOf (show (3 * i + d.val) % 3 = d.val by omega), List.getD_eq_getElem?_getD, hp]
  rfl

theorem rjV_jac (e : El3 K) (ps : List (Pt K 3)) {i : Nat} {p : Pt K 3} (hp : ps[i]? = some p) (d j : Fin 3) : rjV e ps (3 * ps.length + (9 * i + 3 * d.val + j.val)) = (elMap3 e).J p.r d j := by
  have hi : i < ps.length := (List.getElem?_eq_some_iff.1 hp).1
  have hd := d.isLt
  have hj := j.isLt
  unfold rjV
  rw [if_neg (by omega), show (3 * ps.length + (9 * i + 3 * d.val + j.val) - 3 * ps.length) / 9 = i by omega, finOf (show (3 * ps.length + (9 * i + 3 * d.val + j.val) - 3 * ps.length) % 9 / 3 = d.val by omega),
    finOf (show (3 * ps.length + (9 * i + 3 * d.val + j.val) - 3 * ps.length) % 3 = j.val by omega), List.getD_eq_getElem?_getD, hp]
  rfl

/-- the weights of the points for `findpt_vol` -/
structure VolWts (e : El3 K) (ps : List (Pt K 3)) (w : List K) : Prop where
  r : ∀ (i : Nat) p, ps[i]? = some p → ∀ k, k < 2 → ∀ j, j < e.n 0 → ent w (12 * ps.length + (2 * (e.n 0 + e.n 1) * i + (e.n 0 * k + j))) = Lg e 0 k j (p.r 0)
  s : ∀ (i : Nat) p, ps[i]? = some p → ∀ k, k < 2 → ∀ j, j < e.n 1 → ent w (12 * ps.length + (2 * (e.n 0 + e.n 1) * i + (2 * e.n 0 + (e.n 1 * k + j)))) = Lg e 1 k j (p.r 1)
  t : ∀ (i : Nat) p, ps[i]? = some p → ∀ k, k < 2 → ∀ j, j < e.n 2 → ent w (12 * ps.length + 2 * (e.n 0 + e.n 1) * ps.length + (2 * e.n 2 * i + (e.n 2 * k + j))) = Lg e 2 k j (p.r 2)

/-- one round of the loop over `d` in `findpt_vol` -/
theorem volDim_run {e : El3 K} (he : El3Ok e) (ps : List (Pt K 3)) (w : List K)
    (h1 : 12 * ps.length + 2 * (e.n 0 * ps.length) + 2 * (e.n 1 * ps.length) + 2 * (e.n 2 * ps.length) + 2 * (e.n 0 * e.n 1 * ps.length) + 2 * e.n 0 ≤ w.length)
    (h2 : 12 * ps.length + 2 * (e.n 0 * ps.length) + 2 * (e.n 1 * ps.length) + 2 * (e.n 2 * ps.length) + 2 * (e.n 0 * e.n 1 * ps.length) + e.n 1 ≤ w.length) (hw : VolWts e ps w) (d : Fin 3) :
    ∃ w', volDim e ps.length ps d w = some w' ∧ (w'.length = w.length ∧ VolWts e ps w') ∧
      ∀ a, ((∃ i, i < ps.length ∧ (a = 3 * i + d.val ∨ ∃ j, j < 3 ∧ a = 3 * ps.length + (9 * i + 3 * d.val + j))) ∨ (a < 12 * ps.length ∧ ent w a = rjV e ps a)) → ent w' a = rjV e ps a := by
  have hd := d.isLt
  have hx := he.x d
  have p0 : 0 < e.n 0 := by have := (he.dir 0).two; omega
  have m1 : 2 * (e.n 0 + e.n 1) * ps.length = 2 * (e.n 0 * ps.length) + 2 * (e.n 1 * ps.length) := by ring
  have m2 : 2 * e.n 2 * ps.length = 2 * (e.n 2 * ps.length) := by ring
  have m3 : 2 * ps.length * (e.n 0 * e.n 1) = 2 * (e.n 0 * e.n 1 * ps.length) := by ring
  have m4 : e.n 2 * (2 * ps.length) = 2 * (e.n 2 * ps.length) := by ring
  have m5 : e.n 0 * e.n 1 * (2 * ps.length) = 2 * (e.n 0 * e.n 1 * ps.length) := by ring
  unfold volDim
  dsimp only
  obtain ⟨wb, eb, b1, b2, b3⟩ := mxmIn_eq (w := w) (c := 12 * ps.length + 2 * (e.n 0 + e.n 1) * ps.length + 2 * e.n 2 * ps.length) (nc := e.n 0 * e.n 1) (A := e.x d) (na := e.n 2) (b := 12 * ps.length + 2 * (e.n 0 + e.n 1) * ps.length)
    (nb := 2 * ps.length) (Or.inr (by omega)) (by omega) (by omega) (by omega)
  rw [eb, Option.bind_some]
  -- weights and slices in `wb`
  have hlow : ∀ a, a < 12 * ps.length + 2 * (e.n 0 + e.n 1) * ps.length + 2 * e.n 2 * ps.length → ent wb a = ent w a := fun a ha => b3 a (Or.inl ha)
  have hsl : ∀ (i : Nat) p, ps[i]? = some p → ∀ k, k < 2 → ∀ a, a < e.n 0 → ∀ b, b < e.n 1 →
      ent wb (12 * ps.length + 2 * (e.n 0 + e.n 1) * ps.length + 2 * e.n 2 * ps.length + (2 * (e.n 0 * e.n 1) * i + (e.n 0 * e.n 1 * k + (a + e.n 0 * b)))) =
      ∑ l ∈ range (e.n 2), ent (e.x d) (a + e.n 0 * b + e.n 0 * e.n 1 * l) * Lg e 2 k l (p.r 2) := by
    intro i p hp k hk a ha b hb
    have hi : i < ps.length := (List.getElem?_eq_some_iff.1 hp).1
    rw [show 2 * (e.n 0 * e.n 1) * i + (e.n 0 * e.n 1 * k + (a + e.n 0 * b)) = a + e.n 0 * b + e.n 0 * e.n 1 * (2 * i + k) by ring, b2 _ (idx_lt ha hb) _ (by omega)]
    refine sum_congr rfl fun l hl => ?_
    rw [show l + e.n 2 * (2 * i + k) = 2 * e.n 2 * i + (e.n 2 * k + l) by ring, hw.t i p hp k hk l (mem_range.1 hl)]
  have big : ∀ i, i < ps.length → 2 * (e.n 0 + e.n 1) * i + 2 * e.n 0 + 2 * e.n 1 ≤ 2 * (e.n 0 + e.n 1) * ps.length := by
    intro i hi; have := row_lt (len := 2 * (e.n 0 + e.n 1)) hi; omega
  have wts : ∀ w' : List K, (∀ a, 12 * ps.length ≤ a → a < 12 * ps.length + 2 * (e.n 0 + e.n 1) * ps.length + 2 * e.n 2 * ps.length → ent w' a = ent wb a) → VolWts e ps w' := by
    intro w' h
    constructor
    · intro i p hp k hk j hj
      have hi : i < ps.length := (List.getElem?_eq_some_iff.1 hp).1
      have := big i hi; have := row_lt (len := e.n 0) hk
      rw [h _ (by omega) (by omega), hlow _ (by omega), hw.r i p hp k hk j hj]
    · intro i p hp k hk j hj
      have hi : i < ps.length := (List.getElem?_eq_some_iff.1 hp).1
      have := big i hi; have := row_lt (len := e.n 1) hk
      rw [h _ (by omega) (by omega), hlow _ (by omega), hw.s i p hp k hk j hj]
    · intro i p hp k hk j hj
      have hi : i < ps.length := (List.getElem?_eq_some_iff.1 hp).1
      have := row_lt (len := 2 * e.n 2) hi; have := row_lt (len := e.n 2) hk
      rw [h _ (by omega) (by omega), hlow _ (by omega), hw.t i p hp k hk j hj]
  obtain ⟨w', e', ⟨g1, g2⟩, g3⟩ := mono_loop (n := ps.length)
    (body := volRow e ps.length (12 * ps.length + 2 * (e.n 0 + e.n 1) * ps.length + 2 * e.n 2 * ps.length) (12 * ps.length + 2 * (e.n 0 + e.n 1) * ps.length + 2 * e.n 2 * ps.length + 2 * ps.length * (e.n 0 * e.n 1)) ps d) id
    (rjV e ps) (fun i a => a = 3 * i + d.val ∨ ∃ j, j < 3 ∧ a = 3 * ps.length + (9 * i + 3 * d.val + j)) (fun _ (w' : List K) => w'.length = w.length ∧ ∀ a, 12 * ps.length ≤ a → ent w' a = ent wb a) wb ⟨b1, fun _ _ => rfl⟩ (by
      intro i hi w1 ⟨l1, s1⟩
      have hp : ps[i]? = some (ps.getD i noPt3) := by rw [List.getElem?_eq_getElem hi, List.getD_eq_getElem _ _ hi]
      generalize ps.getD i noPt3 = p at hp
      have hb := big i hi
      have r2 := row_lt (len := 2 * (e.n 0 * e.n 1)) hi
      have m6 : 2 * (e.n 0 * e.n 1) * ps.length = 2 * (e.n 0 * e.n 1 * ps.length) := by ring
      have t0 : 2 * i * (e.n 0 + e.n 1) = 2 * (e.n 0 + e.n 1) * i := by ring
      have t1 : 2 * i * (e.n 0 * e.n 1) = 2 * (e.n 0 * e.n 1) * i := by ring
      -- the values
      have key : ∀ w' : List K, (∀ a, 12 * ps.length ≤ a → ent w' a = ent wb a) → ∀ ka, ka < 2 → ∀ kb, kb < 2 → ∀ kc, kc < 2 → ∀ (Jr Js : Nat → K) (u : List K),
          (∀ a, a < e.n 0 → Jr a = ent w' (12 * ps.length + (2 * (e.n 0 + e.n 1) * i + (e.n 0 * ka + a)))) → (∀ a, a < e.n 1 → Js a = ent w' (12 * ps.length + (2 * (e.n 0 + e.n 1) * i + (2 * e.n 0 + (e.n 1 * kb + a))))) →
          (∀ a, a < e.n 0 * e.n 1 → ent u a = ent w' (12 * ps.length + 2 * (e.n 0 + e.n 1) * ps.length + 2 * e.n 2 * ps.length + (2 * (e.n 0 * e.n 1) * i + (e.n 0 * e.n 1 * kc + a)))) →
          interp2 Jr (e.n 0) Js (e.n 1) u = tensor3 e (kv 0 ka kb kc) (e.x d) p.r := by
        intro w' h' ka hka kb hkb kc hkc Jr Js u hr hs hu
        have W := wts w' (fun a ha _ => h' a ha)
        unfold tensor3
        refine interp3_slice (fun a ha => ?_) (fun a ha => ?_) fun a ha b hb => ?_
        · rw [hr a ha, W.r i p hp ka hka a ha]; rfl
        · rw [hs a ha, W.s i p hp kb hkb a ha]; rfl
        · have hab := idx_lt ha hb
          rw [hu _ hab, h' _ (by omega), hsl i p hp kc hkc a ha b hb]; rfl
      unfold volRow
      dsimp only
      rw [hp, Option.bind_some, t0, t1, tensor_ig2_eq _ _ _ _ _ _ (by simp; omega) (by simp; omega) (by simp; omega) (by simp; omega), Option.bind_some]
      dsimp only
      have e1 : interp2 (ent (w1.drop (12 * ps.length + 2 * (e.n 0 + e.n 1) * i))) (e.n 0) (ent (w1.drop (12 * ps.length + 2 * (e.n 0 + e.n 1) * i + 2 * e.n 0))) (e.n 1)
          (w1.drop (12 * ps.length + 2 * (e.n 0 + e.n 1) * ps.length + 2 * e.n 2 * ps.length + 2 * (e.n 0 * e.n 1) * i)) = tensor3 e (kv 0 0 0 0) (e.x d) p.r :=
        key w1 s1 0 (by omega) 0 (by omega) 0 (by omega) _ _ _ (fun a _ => by rw [ent_drop]; congr 1; omega) (fun a _ => by rw [ent_drop]; congr 1; omega) (fun a _ => by rw [ent_drop]; congr 1; omega)
      have e2 : interp2 (fun j => ent (w1.drop (12 * ps.length + 2 * (e.n 0 + e.n 1) * i)) (e.n 0 + j)) (e.n 0) (ent (w1.drop (12 * ps.length + 2 * (e.n 0 + e.n 1) * i + 2 * e.n 0))) (e.n 1)
          (w1.drop (12 * ps.length + 2 * (e.n 0 + e.n 1) * ps.length + 2 * e.n 2 * ps.length + 2 * (e.n 0 * e.n 1) * i)) = tensor3 e (kv 0 1 0 0) (e.x d) p.r :=
        key w1 s1 1 (by omega) 0 (by omega) 0 (by omega) _ _ _ (fun a _ => by rw [ent_drop]; congr 1; omega) (fun a _ => by rw [ent_drop]; congr 1; omega) (fun a _ => by rw [ent_drop]; congr 1; omega)
      have e3 : interp2 (ent (w1.drop (12 * ps.length + 2 * (e.n 0 + e.n 1) * i))) (e.n 0) (fun j => ent (w1.drop (12 * ps.length + 2 * (e.n 0 + e.n 1) * i + 2 * e.n 0)) (e.n 1 + j)) (e.n 1)
          (w1.drop (12 * ps.length + 2 * (e.n 0 + e.n 1) * ps.length + 2 * e.n 2 * ps.length + 2 * (e.n 0 * e.n 1) * i)) = tensor3 e (kv 0 0 1 0) (e.x d) p.r :=
        key w1 s1 0 (by omega) 1 (by omega) 0 (by omega) _ _ _ (fun a _ => by rw [ent_drop]; congr 1; omega) (fun a _ => by rw [ent_drop]; congr 1; omega) (fun a _ => by rw [ent_drop]; congr 1; omega)
      rw [e1, e2, e3]
      obtain ⟨w2, f2, l2, o2, v2⟩ := store_mono (w := w1) (o := 3 * ps.length + (9 * i + 3 * d.val)) (v := [tensor3 e (kv 0 1 0 0) (e.x d) p.r, tensor3 e (kv 0 0 1 0) (e.x d) p.r]) (rjV e ps) (by simp; omega) (by
        intro j hj
        have hj2 : j = 0 ∨ j = 1 := by simp at hj; omega
        rcases hj2 with rfl | rfl
        · have := rjV_jac e ps hp d 0
          rw [elMap3_J] at this
          rw [Nat.add_assoc]; exact this.symm
        · have := rjV_jac e ps hp d 1
          rw [elMap3_J, show kv 1 1 0 0 = kv 0 0 1 0 from (kv_cyc 0 0 1 0).1] at this
          rw [Nat.add_assoc]; exact this.symm)
      rw [f2, Option.bind_some]
      obtain ⟨w3, f3, l3, o3, v3⟩ := store1_mono (w := w2) (o := 3 * i + d.val) (v := p.x d - tensor3 e (kv 0 0 0 0) (e.x d) p.r) (rjV e ps) (by omega) (by
        rw [rjV_resid e ps hp d]
        show _ = p.x d - (elMap3 e).X p.r d
        rw [elMap3_X, show kv 0 0 0 0 = (0 : Fin 3 → Nat) by funext x; fin_cases x <;> rfl])
      rw [f3, Option.bind_some]
      have s3 : ∀ a, 12 * ps.length ≤ a → ent w3 a = ent wb a := fun a ha => by rw [o3 a (by omega), o2 a (by simp; omega), s1 a ha]
      rw [tensor_i2_eq _ _ _ _ _ _ p0 (by simp; omega) (by simp; omega) (by simp; omega) (by simp; omega), Option.bind_some]
      have e4 : interp2 (ent (w3.drop (12 * ps.length + 2 * (e.n 0 + e.n 1) * i))) (e.n 0) (ent (w3.drop (12 * ps.length + 2 * (e.n 0 + e.n 1) * i + 2 * e.n 0))) (e.n 1)
          (w3.drop (12 * ps.length + 2 * (e.n 0 + e.n 1) * ps.length + 2 * e.n 2 * ps.length + 2 * (e.n 0 * e.n 1) * i + e.n 0 * e.n 1)) = tensor3 e (kv 0 0 0 1) (e.x d) p.r :=
        key w3 s3 0 (by omega) 0 (by omega) 1 (by omega) _ _ _ (fun a _ => by rw [ent_drop]; congr 1; omega) (fun a _ => by rw [ent_drop]; congr 1; omega) (fun a _ => by rw [ent_drop]; congr 1; omega)
      rw [e4]
      obtain ⟨w4, f4, l4, o4, v4⟩ := store1_mono (w := w3) (o := 3 * ps.length + (9 * i + 3 * d.val) + 2) (v := tensor3 e (kv 0 0 0 1) (e.x d) p.r) (rjV e ps) (by omega) (by
        have := rjV_jac e ps hp d 2
        rw [elMap3_J, show kv 2 1 0 0 = kv 0 0 0 1 from (kv_cyc 0 0 0 1).2] at this
        rw [Nat.add_assoc]; exact this.symm)
      refine ⟨w4, f4, ⟨by omega, fun a ha => by rw [o4 a (by omega), s3 a ha]⟩, ?_⟩
      intro a ha
      simp only [id] at ha ⊢
      rcases ha with (rfl | ⟨j, hj, rfl⟩) | ha
      · exact v4 _ (Or.inr (v3 _ (Or.inl rfl)))
      · rcases (by omega : j < 2 ∨ j = 2) with hj2 | rfl
        · exact v4 _ (Or.inr (v3 _ (Or.inr (v2 _ (Or.inl ⟨by omega, by simp; omega⟩)))))
        · exact v4 _ (Or.inl (by omega))
      · exact v4 _ (Or.inr (v3 _ (Or.inr (v2 _ (Or.inr ha))))))
  refine ⟨w', e', ⟨g1, wts w' fun a ha _ => g2 a ha⟩, ?_⟩
  intro a ha
  refine g3 a ?_
  rcases ha with ha | ⟨h3, ha⟩
  · exact Or.inl ha
  · exact Or.inr (by rw [id, hlow a (by omega), ha])

omit [LinearOrder K] in
theorem ent_out {l : List K} {a : Nat} (h : l.length ≤ a) : ent l a = 0 := by
  unfold ent; rw [List.getD_eq_default _ _ h]

/-- the weights of the points, row by row, `n` of them for each of `m+1` derivatives -/
theorem lagRows_run {e : El3 K} (he : El3Ok e) (ps : List (Pt K 3)) (dd : Fin 3) {m : Nat} (hm : m ≤ 2) (off str : Nat) (hstr : (m + 1) * e.n dd ≤ str) (f : Nat → Nat) (hf : ∀ i, f i = off + str * i) (w : List K) (hroom : off + str * ps.length ≤ w.length + (str - (m + 1) * e.n dd)) :
    ∃ w', forUp 0 ps.length (fun i w => (ps[i]?).bind fun p => store w (f i) (e.lag dd m (p.r dd))) w = some w' ∧ w'.length = w.length ∧
      (∀ (i : Nat) p, ps[i]? = some p → ∀ k, k ≤ m → ∀ j, j < e.n dd → ent w' (off + (str * i + (e.n dd * k + j))) = Lg e dd k j (p.r dd)) ∧
      ∀ a, (∀ i, i < ps.length → ∀ j, j < (m + 1) * e.n dd → a ≠ off + (str * i + j)) → ent w' a = ent w a := by
  have hget : ∀ i, i < ps.length → ps[i]? = some (ps.getD i noPt3) := fun i hi => by rw [List.getElem?_eq_getElem hi, List.getD_eq_getElem _ _ hi]
  obtain ⟨w', e1, h1, h2, h3⟩ := rowsS_run (n := ps.length) (body := fun i w => (ps[i]?).bind fun p => store w (f i) (e.lag dd m (p.r dd))) off ((m + 1) * e.n dd) str hstr (fun i => e.lag dd m ((ps.getD i noPt3).r dd))
    (fun i _ => by rw [(he.dir dd).lagLen m _ hm]) w (by
      intro i hi w _
      beta_reduce
      rw [hget i hi, Option.bind_some, hf]) (by
      intro i hi
      have : str * i + str ≤ str * ps.length := row_lt hi
      omega)
  refine ⟨w', e1, h1, ?_, h3⟩
  intro i p hp k hk j hj
  have hi : i < ps.length := (List.getElem?_eq_some_iff.1 hp).1
  have r := row_lt (len := e.n dd) (show k < m + 1 by omega)
  have hc : e.n dd * (m + 1) = (m + 1) * e.n dd := Nat.mul_comm _ _
  rw [h2 i hi _ (by omega), lag_ent (he.dir dd) hm _ hk hj, List.getD_eq_getElem?_getD, hp]
  rfl

/-- findpts_el_3.c:932-947 -/
theorem volWork_run {e : El3 K} (he : El3Ok e) {nptMax : Nat} {w : List K} (hw : w.length = workSize3 (e.n 0) (e.n 1) (e.n 2) nptMax) (ps : List (Pt K 3)) (hn : ps.length ≤ nptMax) :
    ∃ w', volWork e ps w = some w' ∧ w'.length = w.length ∧ ∀ a, a < 12 * ps.length → ent w' a = rjV e ps a := by
  obtain ⟨z1, z2⟩ := workSize3_vol (nr := e.n 0) (ns := e.n 1) (nt := e.n 2) hn
  have m1 : 2 * (e.n 0 + e.n 1) * ps.length = 2 * (e.n 0 * ps.length) + 2 * (e.n 1 * ps.length) := by ring
  have m2 : 2 * e.n 2 * ps.length = 2 * (e.n 2 * ps.length) := by ring
  have n1 : 2 * (e.n 0 + e.n 1) = 2 * e.n 0 + 2 * e.n 1 := by ring
  unfold volWork
  dsimp only
  obtain ⟨wa, ea, a1, a2, a3⟩ := lagRows_run he ps 0 (m := 1) (by omega) (12 * ps.length) (2 * (e.n 0 + e.n 1)) (by omega) (fun i => 12 * ps.length + 2 * i * (e.n 0 + e.n 1)) (fun i => by ring) w (by omega)
  obtain ⟨wb, eb, b1, b2, b3⟩ := lagRows_run he ps 1 (m := 1) (by omega) (12 * ps.length + 2 * e.n 0) (2 * (e.n 0 + e.n 1)) (by omega) (fun i => 12 * ps.length + 2 * i * (e.n 0 + e.n 1) + 2 * e.n 0) (fun i => by ring) wa (by omega)
  obtain ⟨wc, ec, c1, c2, c3⟩ := lagRows_run he ps 2 (m := 1) (by omega) (12 * ps.length + 2 * (e.n 0 + e.n 1) * ps.length) (2 * e.n 2) (by omega) (fun i => 12 * ps.length + 2 * (e.n 0 + e.n 1) * ps.length + 2 * i * e.n 2) (fun i => by ring) wb (by omega)
  rw [ea, Option.bind_some, eb, Option.bind_some, ec, Option.bind_some]
  have hwts : VolWts e ps wc := by
    constructor
    · intro i p hp k hk j hj
      have hi : i < ps.length := (List.getElem?_eq_some_iff.1 hp).1
      have r1 := row_lt (len := 2 * (e.n 0 + e.n 1)) hi
      have r2 := row_lt (len := e.n 0) hk
      rw [c3 _ (fun i' _ j' _ => by omega), b3 _ (fun i' hi' j' hj' => by
        rcases Nat.lt_trichotomy i i' with h | h | h
        · have := row_lt (len := 2 * (e.n 0 + e.n 1)) h; omega
        · subst h; omega
        · have := row_lt (len := 2 * (e.n 0 + e.n 1)) h; omega), a2 i p hp k (by omega) j hj]
    · intro i p hp k hk j hj
      have hi : i < ps.length := (List.getElem?_eq_some_iff.1 hp).1
      have r1 := row_lt (len := 2 * (e.n 0 + e.n 1)) hi
      have r2 := row_lt (len := e.n 1) hk
      have := b2 i p hp k (by omega) j hj
      rw [c3 _ (fun i' _ j' _ => by omega), ← this]
      congr 1; omega
    · intro i p hp k hk j hj
      exact c2 i p hp k (by omega) j hj
  obtain ⟨w', e', ⟨g1, -⟩, g3⟩ := mono_fin (n := 3) (body := volDim e ps.length ps) (fun w => (w.take (12 * ps.length))) (rjV e ps) (fun d a => a < 12 * ps.length ∧ ∃ i, i < ps.length ∧ (a = 3 * i + d.val ∨ ∃ j, j < 3 ∧ a = 3 * ps.length + (9 * i + 3 * d.val + j)))
    (fun _ (w' : List K) => w'.length = w.length ∧ VolWts e ps w') wc ⟨by omega, hwts⟩ (by
      intro d w1 ⟨l1, hw1⟩
      obtain ⟨w2, e2, ⟨l2, hw2⟩, h2⟩ := volDim_run he ps w1 (by omega) (by omega) hw1 d
      refine ⟨w2, e2, ⟨by omega, hw2⟩, fun a ha => ?_⟩
      by_cases hlt : a < 12 * ps.length
      · rw [ent_take hlt] at ha ⊢
        refine h2 a ?_
        rcases ha with ⟨-, ha⟩ | ha
        · exact Or.inl ha
        · exact Or.inr ⟨hlt, ha⟩
      · rcases ha with ⟨h, -⟩ | ha
        · exact absurd h hlt
        · rw [← ha, ent_out (by simp; omega), ent_out (by simp; omega)])
  refine ⟨w', e', by omega, ?_⟩
  intro a ha
  rw [← ent_take (l := w') ha]
  refine g3 a (Or.inl ?_)
  by_cases h : a < 3 * ps.length
  · exact ⟨⟨a % 3, by omega⟩, ha, a / 3, by omega, Or.inl (by show a = 3 * (a / 3) + a % 3; omega)⟩
  · exact ⟨⟨(a - 3 * ps.length) % 9 / 3, by omega⟩, ha, (a - 3 * ps.length) / 9, by omega, Or.inr ⟨(a - 3 * ps.length) % 3, by omega, by
      show a = 3 * ps.length + (9 * ((a - 3 * ps.length) / 9) + 3 * ((a - 3 * ps.length) % 9 / 3) + (a - 3 * ps.length) % 3); omega⟩⟩

/-- `resid` and `jac` of a point -/
theorem rj_vec {e : El3 K} {ps : List (Pt K 3)} {w : List K} (hl : 12 * ps.length ≤ w.length) (h : ∀ a, a < 12 * ps.length → ent w a = rjV e ps a) {i : Nat} {p : Pt K 3} (hp : ps[i]? = some p) :
    vecN 3 w (3 * i) = some ((elMap3 e).resid p.x p.r) ∧ mat3 w (3 * ps.length + 9 * i) = some ((elMap3 e).J p.r) := by
  have hi : i < ps.length := (List.getElem?_eq_some_iff.1 hp).1
  constructor
  · refine vecN_eq (by omega) fun d => ?_
    rw [h _ (by omega), rjV_resid e ps hp]
  · refine mat3_eq (by omega) fun d j => ?_
    have := d.isLt; have := j.isLt
    rw [h _ (by omega), ← rjV_jac e ps hp]
    congr 1; omega

/-- `findpt_vol` acts point by point -/
theorem findptVol_run {e : El3 K} (he : El3Ok e) {nptMax : Nat} (fuel : Nat) (big tol : K) {st : ElSt3 K} (hm : El3Mem e nptMax st) (ps : List (Pt K 3)) (hn : ps.length ≤ nptMax) (g : Pt K 3 → Pt K 3)
    (hg : ∀ p ∈ ps, volPoint fuel big tol ((elMap3 e).resid p.x p.r) ((elMap3 e).J p.r) p = some (g p)) :
    ∃ w, findptVol fuel big tol e st ps = some ({ st with work := w }, ps.map g) ∧ w.length = st.work.length := by
  obtain ⟨w, ew, h1, h2⟩ := volWork_run he hm.work ps hn
  have hl : 12 * ps.length ≤ w.length := by
    have := (workSize3_vol (nr := e.n 0) (ns := e.n 1) (nt := e.n 2) hn).1
    rw [h1, hm.work]; omega
  refine ⟨w, ?_, h1⟩
  unfold findptVol
  rw [ew, Option.bind_some, mapM_zipIdx (g := g) ps (by
    intro i p hp
    obtain ⟨q1, q2⟩ := rj_vec hl h2 hp
    dsimp only
    rw [q1, Option.bind_some, q2, Option.bind_some]
    exact hg p (List.mem_of_getElem? hp))]
  rfl

end Gslib.El
