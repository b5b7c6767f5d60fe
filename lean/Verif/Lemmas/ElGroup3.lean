import Verif.Spec.ElGroup3
import Verif.Lemmas.ElArea2
import Verif.Lemmas.ElSearch2
import Mathlib.Tactic.IntervalCases

/-!
# Helper lemmas: the 3D element kernels compute the interpolant
-/

namespace Gslib.El
open Gslib.Tensor Gslib.Num Gslib.Spec Gslib.Props Polynomial Finset

theorem foldlM_inv {S A : Type} {f : S → A → Option S} (P : Nat → S → Prop) : ∀ (l : List A) (j : Nat) (s : S), P j s → (∀ (k : Nat) a, l[k]? = some a → ∀ s, P (j + k) s → ∃ s', f s a = some s' ∧ P (j + k + 1) s') →
    ∃ s', l.foldlM f s = some s' ∧ P (j + l.length) s'
  | [], j, s, h, _ => ⟨s, rfl, h⟩
  | a :: l, j, s, h, step => by
    obtain ⟨s1, e1, h1⟩ := step 0 a rfl s h
    obtain ⟨s2, e2, h2⟩ := foldlM_inv P l (j + 1) s1 h1 (by
      intro k a' hk s hs
      have := step (k + 1) a' (by simpa using hk) s (by rwa [show j + (k + 1) = j + 1 + k by omega])
      rwa [show j + (k + 1) + 1 = j + 1 + k + 1 by omega] at this)
    refine ⟨s2, ?_, by rwa [List.length_cons, show j + (l.length + 1) = j + 1 + l.length by omega]⟩
    rw [List.foldlM_cons, e1]
    exact e2

theorem forFin_inv {S : Type} {n : Nat} {f : Fin n → S → Option S} (P : Nat → S → Prop) (s : S) (h0 : P 0 s) (step : ∀ i : Fin n, ∀ s, P i.val s → ∃ s', f i s = some s' ∧ P (i.val + 1) s') :
    ∃ s', forFin n f s = some s' ∧ P n s' := by
  obtain ⟨s', e, h⟩ := foldlM_inv (f := fun s i => f i s) P (List.finRange n) 0 s h0 (by
    intro k a hk s hs
    rw [zero_add] at hs ⊢
    have : a.val = k := by
      have hk' := (List.getElem?_eq_some_iff.1 hk).2
      rw [List.getElem_finRange] at hk'
      rw [← hk']; rfl
    rw [← this] at hs ⊢
    exact step a s hs)
  exact ⟨s', e, by simpa using h⟩

theorem allFin_eq {A : Type} : ∀ {n : Nat} {f : Fin n → Option A} {g : Fin n → A}, (∀ i, f i = some (g i)) → allFin n f = some g
  | 0, f, g, _ => by unfold allFin; congr 1; funext i; exact i.elim0
  | n + 1, f, g, h => by
    unfold allFin
    rw [h 0, Option.bind_some, allFin_eq (g := fun i => g i.succ) fun i => h i.succ, Option.map_some]
    congr 1
    funext i
    refine Fin.cases rfl (fun j => rfl) i

variable {K : Type} [Field K] [LinearOrder K]

omit [LinearOrder K] in
theorem vecN_eq {n : Nat} {w : List K} {o : Nat} {g : Fin n → K} (hl : o + n ≤ w.length) (h : ∀ i : Fin n, ent w (o + i.val) = g i) : vecN n w o = some g :=
  allFin_eq fun i => by rw [getElem?_ent (by omega), h i]

omit [LinearOrder K] in
theorem mat3_eq {w : List K} {o : Nat} {g : Fin 3 → Fin 3 → K} (hl : o + 9 ≤ w.length) (h : ∀ d j : Fin 3, ent w (o + (3 * d.val + j.val)) = g d j) : mat3 w o = some g :=
  allFin_eq fun d => vecN_eq (by omega) fun j => by rw [Nat.add_assoc, h d j]

omit [Field K] [LinearOrder K] in
theorem store_append (w : List K) (o : Nat) (a b : List K) : store w o (a ++ b) = (store w o a).bind fun w => store w (o + a.length) b := by
  unfold store
  by_cases h : o + a.length ≤ w.length
  · rw [if_pos h, Option.bind_some]
    have hl : (w.take o ++ a).length = o + a.length := by simp; omega
    by_cases h2 : o + (a ++ b).length ≤ w.length
    · rw [if_pos h2, if_pos (by simp at h2 ⊢; omega)]
      congr 1
      have t1 : (w.take o ++ a ++ w.drop (o + a.length)).take (o + a.length) = w.take o ++ a := by rw [← hl, List.take_left]
      have t2 : (w.take o ++ a ++ w.drop (o + a.length)).drop (o + a.length + b.length) = w.drop (o + (a ++ b).length) := by
        rw [← List.drop_drop, ← hl, List.drop_left, List.drop_drop, hl, List.length_append, Nat.add_assoc]
      rw [t1, t2]
      simp only [List.append_assoc]
    · rw [if_neg h2, if_neg (by simp at h2 ⊢; omega)]
  · rw [if_neg h, if_neg (by simp; omega)]; rfl

omit [LinearOrder K] in
theorem ent_append_left {a b : List K} {i : Nat} (h : i < a.length) : ent (a ++ b) i = ent a i := by
  unfold ent; rw [List.getD_append _ _ _ _ h]

omit [LinearOrder K] in
theorem ent_append_right {a b : List K} {i : Nat} : ent (a ++ b) (a.length + i) = ent b i := by
  unfold ent; rw [List.getD_append_right _ _ _ _ (by omega), Nat.add_sub_cancel_left]

/-- a loop that stores rows a fixed distance apart -/
theorem rowsS_run {n : Nat} {body : Nat → List K → Option (List K)} (off len str : Nat) (hls : len ≤ str) (v : Nat → List K) (hv : ∀ i, i < n → (v i).length = len) (w0 : List K)
    (hbody : ∀ i, i < n → ∀ w, w.length = w0.length → body i w = store w (off + str * i) (v i)) (hroom : ∀ i, i < n → off + str * i + len ≤ w0.length) :
    ∃ w', forUp 0 n body w0 = some w' ∧ w'.length = w0.length ∧ (∀ i, i < n → ∀ j, j < len → ent w' (off + (str * i + j)) = ent (v i) j) ∧
      ∀ a, (∀ i, i < n → ∀ j, j < len → a ≠ off + (str * i + j)) → ent w' a = ent w0 a := by
  obtain ⟨w', e, h1, h2, h3⟩ := scatter (body := body) (n := n) (fun i a => off + str * i ≤ a ∧ a < off + str * i + len) (fun i a => ent (v i) (a - (off + str * i))) w0 (by
      intro i hi w hw _
      obtain ⟨w', e, g1, g2, g3⟩ := store_eq (p := w) (off := off + str * i) (v := v i) (by rw [hv i hi, hw]; exact hroom i hi)
      refine ⟨w', by rw [hbody i hi w hw, e], g1, ?_, ?_⟩
      · intro a ha
        rw [← g2 (a - (off + str * i)) (by rw [hv i hi]; omega)]
        congr 1; omega
      · intro a ha
        rw [hv i hi] at g3
        exact g3 a (by omega))
    (by
      intro i i' a hi _ ha ha'
      have : str * i + str ≤ str * i' := by rw [← Nat.mul_succ]; exact Nat.mul_le_mul_left _ hi
      omega)
  refine ⟨w', e, h1, ?_, ?_⟩
  · intro i hi j hj
    rw [h2 i hi _ ⟨by omega, by omega⟩]
    congr 1; omega
  · intro a ha
    refine h3 a fun i hi => ?_
    intro hc
    exact ha i hi (a - (off + str * i)) (by omega) (by omega)

theorem workSize3_vol {nr ns nt nptMax pn : Nat} (h : pn ≤ nptMax) :
    12 * pn + 2 * (nr * pn) + 2 * (ns * pn) + 2 * (nt * pn) + 2 * (nr * ns * pn) + 2 * nr ≤ workSize3 nr ns nt nptMax ∧
    12 * pn + 2 * (nr * pn) + 2 * (ns * pn) + 2 * (nt * pn) + 2 * (nr * ns * pn) + ns ≤ workSize3 nr ns nt nptMax := by
  have h1 : (12 + 2 * (nr + ns + nt + nr * ns)) * pn ≤ (12 + 2 * (nr + ns + nt + nr * ns)) * nptMax := Nat.mul_le_mul_left _ h
  have e : (12 + 2 * (nr + ns + nt + nr * ns)) * pn = 12 * pn + 2 * (nr * pn) + 2 * (ns * pn) + 2 * (nt * pn) + 2 * (nr * ns * pn) := by ring
  have h2 : (12 + 2 * (nr + ns + nt + nr * ns)) * nptMax + (if ns < 2 * nr then 2 * nr else ns) ≤ workSize3 nr ns nt nptMax := by
    unfold workSize3
    dsimp only
    exact le_trans (le_max_left _ _) (le_trans (le_max_left _ _) (le_trans (le_max_left _ _) (le_max_left _ _)))
  split_ifs at h2 <;> constructor <;> omega

omit [LinearOrder K] in
/-- interpolation in the last direction first -/
theorem interp3_slice {Jr : Nat → K} {nr : Nat} {Js : Nat → K} {ns : Nat} {Jt : Nat → K} {nt : Nat} {u u' : List K} {Jr' Js' : Nat → K} (hr : ∀ i, i < nr → Jr' i = Jr i) (hs : ∀ j, j < ns → Js' j = Js j)
    (h : ∀ i, i < nr → ∀ j, j < ns → ent u' (i + nr * j) = ∑ k ∈ range nt, ent u (i + nr * j + nr * ns * k) * Jt k) : interp2 Jr' nr Js' ns u' = interp3 Jr nr Js ns Jt nt u := by
  unfold interp2 interp3
  refine sum_congr rfl fun i hi => sum_congr rfl fun j hj => ?_
  rw [h i (mem_range.1 hi) j (mem_range.1 hj), mul_sum, hr i (mem_range.1 hi), hs j (mem_range.1 hj)]
  refine sum_congr rfl fun k _ => ?_
  rw [show i + nr * (j + ns * k) = i + nr * j + nr * ns * k by ring]
  ring

/-- `findpts_el_eval_3` -/
theorem eval3_run {e : El3 K} (he : El3Ok e) {nptMax : Nat} {w : List K} (hw : w.length = workSize3 (e.n 0) (e.n 1) (e.n 2) nptMax) (inp : List K) (hin : e.n 0 * e.n 1 * e.n 2 ≤ inp.length) (rs : List (Fin 3 → K))
    (hn : rs.length ≤ nptMax) : ∃ w', findptsElEval3 e inp rs w = some (w', rs.map (tensor3 e 0 inp)) ∧ w'.length = w.length := by
  obtain ⟨z1, z2⟩ := workSize3_vol (nr := e.n 0) (ns := e.n 1) (nt := e.n 2) hn
  have l : ∀ d x, (e.lag d 0 x).length = e.n d := fun d x => by have := (he.dir d).lagLen 0 x (by omega); omega
  have v : ∀ d x i, i < e.n d → ent (e.lag d 0 x) i = lagD (e.n d) (ent (e.z d)) 0 i x := fun d x i hi => by
    have := (he.dir d).lagVal 0 x (by omega) 0 (by omega) i hi; rwa [zero_mul, zero_add] at this
  have p0 : 0 < e.n 0 := by have := (he.dir 0).two; omega
  unfold findptsElEval3 tensor3
  dsimp only
  have hget : ∀ i, i < rs.length → rs[i]? = some (rs.getD i 0) := fun i hi => by
    rw [List.getElem?_eq_getElem (by omega), List.getD_eq_getElem _ _ (by omega)]
  have m1 : (e.n 0 + e.n 1) * rs.length = e.n 0 * rs.length + e.n 1 * rs.length := by ring
  have m2 : rs.length * (e.n 0 * e.n 1) = e.n 0 * e.n 1 * rs.length := by ring
  obtain ⟨wa, ea, a1, a2, a3, a4⟩ := rows2_run (n := rs.length) (body := evalWts3 e rs) 0 (e.n 0 + e.n 1) ((e.n 0 + e.n 1) * rs.length) (e.n 2) (fun i => e.lag 0 0 (rs.getD i 0 0) ++ e.lag 1 0 (rs.getD i 0 1))
    (fun i => e.lag 2 0 (rs.getD i 0 2)) (fun i _ => by simp [l]) (fun i _ => l 2 _) w (by
      intro i hi w _
      unfold evalWts3
      rw [hget i hi, Option.bind_some, store_append, l, zero_add, Nat.mul_comm i (e.n 0 + e.n 1), Nat.mul_comm i (e.n 2)]
      cases store w ((e.n 0 + e.n 1) * i) (e.lag 0 0 (rs.getD i 0 0)) <;> rfl) (by omega) (by omega)
  obtain ⟨wb, eb, b1, b2, b3⟩ := mxmIn_eq (w := wa) (c := (e.n 0 + e.n 1) * rs.length + e.n 2 * rs.length) (nc := e.n 0 * e.n 1) (A := inp) (na := e.n 2) (b := (e.n 0 + e.n 1) * rs.length) (nb := rs.length) (Or.inr (le_refl _)) hin
    (by omega) (by omega)
  refine ⟨wb, ?_, by omega⟩
  rw [ea, Option.bind_some, eb, Option.bind_some]
  have : (List.range rs.length).mapM (fun i => i2 (wb.drop (i * (e.n 0 + e.n 1))) (e.n 0) (wb.drop (i * (e.n 0 + e.n 1) + e.n 0)) (e.n 1) (wb.drop ((e.n 0 + e.n 1) * rs.length + e.n 2 * rs.length + i * (e.n 0 * e.n 1)))
      (wb.drop ((e.n 0 + e.n 1) * rs.length + e.n 2 * rs.length + rs.length * (e.n 0 * e.n 1)))) = some ((List.range rs.length).map fun i => tensor3 e 0 inp (rs.getD i 0)) := by
    refine mapM_some _ fun i hi => ?_
    have hi := List.mem_range.1 hi
    have r1 := row_lt (len := e.n 0 + e.n 1) hi
    have r2 := row_lt (len := e.n 0 * e.n 1) hi
    have c1 : i * (e.n 0 + e.n 1) = (e.n 0 + e.n 1) * i := Nat.mul_comm _ _
    have c2 : i * (e.n 0 * e.n 1) = e.n 0 * e.n 1 * i := Nat.mul_comm _ _
    rw [c1, c2, tensor_i2_eq _ _ _ _ _ _ p0 (by simp; omega) (by simp; omega) (by simp; omega) (by simp; omega)]
    congr 1
    refine interp3_slice (fun a ha => ?_) (fun a ha => ?_) fun a ha b hb => ?_
    · rw [ent_drop, b3 _ (by omega)]
      have := a2 i hi a (by omega)
      rw [zero_add] at this
      rw [this, ent_append_left (by rw [l]; exact ha), v 0 _ _ ha]; rfl
    · rw [ent_drop, b3 _ (by omega)]
      have := a2 i hi (e.n 0 + a) (by omega)
      rw [zero_add, ← Nat.add_assoc] at this
      have h2 := ent_append_right (a := e.lag 0 0 (rs.getD i 0 0)) (b := e.lag 1 0 (rs.getD i 0 1)) (i := a)
      rw [l] at h2
      rw [this, h2, v 1 _ _ ha]; rfl
    · have hab := idx_lt ha hb
      rw [ent_drop, Nat.add_assoc, show e.n 0 * e.n 1 * i + (a + e.n 0 * b) = a + e.n 0 * b + e.n 0 * e.n 1 * i by ring, b2 _ hab i hi]
      refine sum_congr rfl fun k hk => ?_
      have hk := mem_range.1 hk
      rw [Nat.add_comm k (e.n 2 * i), a3 i hi k hk, v 2 _ _ hk]; rfl
  rw [this, Option.map_some]
  congr 2
  refine List.ext_getElem? fun i => ?_
  rw [List.getElem?_map, List.getElem?_map]
  rcases Nat.lt_or_ge i rs.length with hi | hi
  · rw [List.getElem?_range hi, hget i hi]; rfl
  · rw [List.getElem?_eq_none (by simpa using hi), List.getElem?_eq_none (by omega)]; rfl

end Gslib.El
