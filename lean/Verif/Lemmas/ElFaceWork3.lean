import Verif.Lemmas.ElPt3
import Verif.Props.Newton3

/-!
# Helper lemmas: `findpt_face`
-/

namespace Gslib.El
open Gslib.Tensor Gslib.Num Gslib.Spec Gslib.Props Polynomial Finset

variable {K : Type} [Field K] [LinearOrder K]

theorem workSize3_face (f : Fin 3 → Nat) (dn : Fin 3) {m pn : Nat} (h : pn ≤ m) :
    15 * pn + 3 * (f (dn + 1) * pn) + 3 * (f (dn + 2) * pn) + 3 * (f (dn + 1) * pn) ≤ workSize3 (f 0) (f 1) (f 2) m := by
  have key : ∀ a b : Nat, (15 + 3 * (2 * a + b)) * pn ≤ m * (15 + 3 * (2 * a + b)) := fun a b => by rw [Nat.mul_comm]; exact Nat.mul_le_mul_right _ h
  have big : ∀ a b N1 N2 : Nat, 2 * a + b ≤ 2 * N1 + N2 → 15 * pn + 3 * (a * pn) + 3 * (b * pn) + 3 * (a * pn) ≤ m * (15 + 3 * (2 * N1 + N2)) := by
    intro a b N1 N2 hab
    have h1 := key a b
    have h2 : m * (15 + 3 * (2 * a + b)) ≤ m * (15 + 3 * (2 * N1 + N2)) := Nat.mul_le_mul_left _ (by omega)
    have h3 : (15 + 3 * (2 * a + b)) * pn = 15 * pn + 3 * (a * pn) + 3 * (b * pn) + 3 * (a * pn) := by ring
    omega
  unfold workSize3
  dsimp only
  refine le_trans (big _ _ _ _ ?_) (le_max_right _ _)
  rcases fin3 dn with rfl | rfl | rfl
  · show 2 * f 1 + f 2 ≤ _; split_ifs <;> omega
  · show 2 * f 2 + f 0 ≤ _; split_ifs <;> omega
  · show 2 * f 0 + f 1 ≤ _; split_ifs <;> omega

omit [LinearOrder K] in
theorem addTo_run {w : List K} {a : Nat} (v : K) (h : a < w.length) :
    ∃ w', addTo w a v = some w' ∧ w'.length = w.length ∧ ent w' a = ent w a + v ∧ ∀ b, b ≠ a → ent w' b = ent w b := by
  obtain ⟨w', e, h1, h2, h3⟩ := store1 (w := w) (ent w a + v) h
  exact ⟨w', by unfold addTo; rw [getElem?_ent h, Option.bind_some, e], h1, h2, h3⟩

/-- what coordinate `d` contributes to the second derivatives 11, 12, 22 -/
noncomputable def hesT (e : El3 K) (dn : Fin 3) (p : Pt K 3) (d : Fin 3) (k : Nat) : K := (elMap3 e).resid p.x p.r d * tensor3 e (kv dn 0 (2 - k) k) (e.x d) p.r

/-- one point in the loop over `d` -/
theorem faceRow1_run {e : El3 K} {ps : List (Pt K 3)} {dn : Fin 3} {s i S : Nat} {p : Pt K 3} (hp : ps[i]? = some p) (hr : p.r dn = sideEnd K s) (d : Fin 3) (w : List K)
    (hS : 15 * ps.length + 3 * (e.n (dn + 1) * ps.length) ≤ S) (hl : S + 3 * (e.n (dn + 1) * ps.length) ≤ w.length)
    (hwt : ∀ k, k < 3 → ∀ j, j < e.n (dn + 1) → ent w (15 * ps.length + (3 * e.n (dn + 1) * i + (e.n (dn + 1) * k + j))) = Lg e (dn + 1) k j (p.r (dn + 1)))
    (hsl : ∀ b, b < 3 → ∀ j, j < e.n (dn + 1) → ent w (S + (3 * e.n (dn + 1) * i + (e.n (dn + 1) * b + j))) = ∑ l ∈ range (e.n (dn + 2)), faceA e dn s 0 d j l * Lg e (dn + 2) b l (p.r (dn + 2))) :
    ∃ w', faceRow1 ps.length (e.n (dn + 1)) S ps (dn + 1) (dn + 2) d i w = some w' ∧ w'.length = w.length ∧
      (∀ a, a < 12 * ps.length → (a = 3 * i + d.val ∨ a = 3 * ps.length + (9 * i + 3 * d.val + (dn + 1).val) ∨ a = 3 * ps.length + (9 * i + 3 * d.val + (dn + 2).val) ∨ ent w a = rjV e ps a) → ent w' a = rjV e ps a) ∧
      (∀ k, k < 3 → ent w' (12 * ps.length + (3 * i + k)) = ent w (12 * ps.length + (3 * i + k)) + hesT e dn p d k) ∧
      ∀ a, 12 * ps.length ≤ a → (∀ k, k < 3 → a ≠ 12 * ps.length + (3 * i + k)) → ent w' a = ent w a := by
  have hi : i < ps.length := (List.getElem?_eq_some_iff.1 hp).1
  have hd := d.isLt
  have h1 := (dn + 1).isLt
  have h2 := (dn + 2).isLt
  obtain ⟨ne1, ne2, ne3⟩ := neAll dn
  have hne : (dn + 1).val ≠ (dn + 2).val := fun h => ne3 (Fin.ext h.symm)
  have r1 := row_lt (len := 3 * e.n (dn + 1)) hi
  have m1 : 3 * e.n (dn + 1) * ps.length = 3 * (e.n (dn + 1) * ps.length) := by ring
  have m2 : 3 * i * e.n (dn + 1) = 3 * e.n (dn + 1) * i := by ring
  unfold faceRow1
  rw [hp, Option.bind_some, m2, mtxm_eq 3 _ _ (by rw [List.length_drop]; omega) 3 _ (by rw [List.length_drop]; omega), Option.bind_some]
  have hv : ∀ a, a < 3 → ∀ b, b < 3 → (tab2 3 3 fun i' j' => tmulEnt (e.n (dn + 1)) (w.drop (15 * ps.length + 3 * e.n (dn + 1) * i)) (w.drop (S + 3 * e.n (dn + 1) * i)) i' j')[a + 3 * b]? = some (tensor3 e (kv dn 0 a b) (e.x d) p.r) := by
    intro a ha b hb
    rw [getElem?_ent (by rw [tab2_length]; omega), ent_tab2 ha hb]
    unfold tmulEnt
    rw [← face_tensor e dn s 0 a b d p.r hr]
    congr 1
    refine sum_congr rfl fun j hj => ?_
    have hj := mem_range.1 hj
    rw [ent_drop, ent_drop, show 15 * ps.length + 3 * e.n (dn + 1) * i + (j + e.n (dn + 1) * a) = 15 * ps.length + (3 * e.n (dn + 1) * i + (e.n (dn + 1) * a + j)) by omega, hwt a ha j hj,
      show S + 3 * e.n (dn + 1) * i + (j + e.n (dn + 1) * b) = S + (3 * e.n (dn + 1) * i + (e.n (dn + 1) * b + j)) by omega, hsl b hb j hj]
  have v0 := hv 0 (by omega) 0 (by omega)
  have v1 := hv 1 (by omega) 0 (by omega)
  have v2 := hv 2 (by omega) 0 (by omega)
  have v3 := hv 0 (by omega) 1 (by omega)
  have v4 := hv 1 (by omega) 1 (by omega)
  have v6 := hv 0 (by omega) 2 (by omega)
  simp only [Nat.mul_zero, Nat.mul_one, Nat.add_zero, Nat.zero_add, Nat.reduceAdd, Nat.reduceMul] at v0 v1 v2 v3 v4 v6
  have eres : p.x d - tensor3 e (kv dn 0 0 0) (e.x d) p.r = (elMap3 e).resid p.x p.r d := by
    show _ = p.x d - (elMap3 e).X p.r d
    rw [elMap3_X, show kv dn 0 0 0 = (0 : Fin 3 → Nat) by funext x; simp [kv]]
  obtain ⟨wa, ea, la, oa, ma⟩ := store1_mono (w := w) (o := 3 * i + d.val) (v := p.x d - tensor3 e (kv dn 0 0 0) (e.x d) p.r) (rjV e ps) (by omega) (by rw [rjV_resid e ps hp d, eres])
  obtain ⟨wb, eb, lb, ob, mb⟩ := store1_mono (w := wa) (o := 3 * ps.length + (9 * i + 3 * d.val + (dn + 1).val)) (v := tensor3 e (kv dn 0 1 0) (e.x d) p.r) (rjV e ps) (by omega) (by
    rw [rjV_jac e ps hp d (dn + 1), elMap3_J, (kv_cyc dn 0 1 0).1])
  obtain ⟨wc, ec, lc, oc, mc⟩ := store1_mono (w := wb) (o := 3 * ps.length + (9 * i + 3 * d.val + (dn + 2).val)) (v := tensor3 e (kv dn 0 0 1) (e.x d) p.r) (rjV e ps) (by omega) (by
    rw [rjV_jac e ps hp d (dn + 2), elMap3_J, (kv_cyc dn 0 0 1).2])
  obtain ⟨wd, ed, ld, ad, od⟩ := addTo_run (w := wc) (a := 12 * ps.length + 3 * i) ((p.x d - tensor3 e (kv dn 0 0 0) (e.x d) p.r) * tensor3 e (kv dn 0 2 0) (e.x d) p.r) (by omega)
  obtain ⟨we, ee, le, ae, oe⟩ := addTo_run (w := wd) (a := 12 * ps.length + 3 * i + 1) ((p.x d - tensor3 e (kv dn 0 0 0) (e.x d) p.r) * tensor3 e (kv dn 0 1 1) (e.x d) p.r) (by omega)
  obtain ⟨wf, ef, lf, af, of⟩ := addTo_run (w := we) (a := 12 * ps.length + 3 * i + 2) ((p.x d - tensor3 e (kv dn 0 0 0) (e.x d) p.r) * tensor3 e (kv dn 0 0 2) (e.x d) p.r) (by omega)
  rw [v0, Option.bind_some, ea, Option.bind_some, v1, Option.bind_some, eb, Option.bind_some, v3, Option.bind_some, ec, Option.bind_some, v2, Option.bind_some, ed, Option.bind_some, v4, Option.bind_some, ee, Option.bind_some, v6, Option.bind_some]
  refine ⟨wf, ef, by omega, ?_, ?_, ?_⟩
  · intro a ha h
    rw [of a (by omega), oe a (by omega), od a (by omega)]
    rcases h with h | h | h | h
    · exact mc a (Or.inr (mb a (Or.inr (ma a (Or.inl h)))))
    · exact mc a (Or.inr (mb a (Or.inl h)))
    · exact mc a (Or.inl h)
    · exact mc a (Or.inr (mb a (Or.inr (ma a (Or.inr h)))))
  · intro k hk
    have low : ∀ a, 12 * ps.length ≤ a → ent wc a = ent w a := fun a ha => by rw [oc a (by omega), ob a (by omega), oa a (by omega)]
    unfold hesT
    rw [← eres]
    rcases (by omega : k = 0 ∨ k = 1 ∨ k = 2) with rfl | rfl | rfl
    · rw [Nat.add_zero, of _ (by omega), oe _ (by omega), ad, low _ (by omega)]
    · rw [← Nat.add_assoc, of _ (by omega), ae, od _ (by omega), low _ (by omega)]
    · rw [← Nat.add_assoc, af, oe _ (by omega), od _ (by omega), low _ (by omega)]
  · intro a ha h
    have q0 := h 0 (by omega); have q1 := h 1 (by omega); have q2 := h 2 (by omega)
    rw [of a (by omega), oe a (by omega), od a (by omega), oc a (by omega), ob a (by omega), oa a (by omega)]

/-- the weights of the points for `findpt_face` -/
structure FaceWts (e : El3 K) (ps : List (Pt K 3)) (dn : Fin 3) (w : List K) : Prop where
  a : ∀ (i : Nat) p, ps[i]? = some p → ∀ k, k < 3 → ∀ j, j < e.n (dn + 1) → ent w (15 * ps.length + (3 * e.n (dn + 1) * i + (e.n (dn + 1) * k + j))) = Lg e (dn + 1) k j (p.r (dn + 1))
  b : ∀ (i : Nat) p, ps[i]? = some p → ∀ k, k < 3 → ∀ j, j < e.n (dn + 2) → ent w (15 * ps.length + 3 * e.n (dn + 1) * ps.length + (3 * e.n (dn + 2) * i + (e.n (dn + 2) * k + j))) = Lg e (dn + 2) k j (p.r (dn + 2))

theorem FaceWts.keep {e : El3 K} {ps : List (Pt K 3)} {dn : Fin 3} {w w' : List K} (h : FaceWts e ps dn w)
    (hw : ∀ a, 15 * ps.length ≤ a → a < 15 * ps.length + 3 * e.n (dn + 1) * ps.length + 3 * e.n (dn + 2) * ps.length → ent w' a = ent w a) : FaceWts e ps dn w' := by
  constructor
  · intro i p hp k hk j hj
    have hi : i < ps.length := (List.getElem?_eq_some_iff.1 hp).1
    have r1 := row_lt (len := 3 * e.n (dn + 1)) hi
    have r2 := row_lt (len := e.n (dn + 1)) hk
    rw [hw _ (by omega) (by omega), h.a i p hp k hk j hj]
  · intro i p hp k hk j hj
    have hi : i < ps.length := (List.getElem?_eq_some_iff.1 hp).1
    have r1 := row_lt (len := 3 * e.n (dn + 2)) hi
    have r2 := row_lt (len := e.n (dn + 2)) hk
    rw [hw _ (by omega) (by omega), h.b i p hp k hk j hj]

/-- the sums over the first `D` coordinates -/
def HesAt (e : El3 K) (ps : List (Pt K 3)) (dn : Fin 3) (D : Nat) (w : List K) : Prop :=
  ∀ (i : Nat) p, ps[i]? = some p → ∀ k, k < 3 → ent w (12 * ps.length + (3 * i + k)) = ∑ d ∈ range D, hesT e dn p (Fin.ofNat 3 d) k

/-- the values of a face, or its normal derivatives -/
def FaceIn (e : El3 K) (dn : Fin 3) (s k : Nat) (x : Fin 3 → List K) : Prop := ∀ c, e.n (dn + 1) * e.n (dn + 2) ≤ (x c).length ∧ ∀ j, j < e.n (dn + 1) * e.n (dn + 2) → ent (x c) j = faceV e dn s k c j

theorem FaceIn.pair {e : El3 K} {dn : Fin 3} {s k : Nat} {x : Fin 3 → List K} (h : FaceIn e dn s k x) (c : Fin 3) {a b : Nat} (ha : a < e.n (dn + 1)) (hb : b < e.n (dn + 2)) : ent (x c) (a + e.n (dn + 1) * b) = faceA e dn s k c a b := by
  rw [(h c).2 _ (idx_lt ha hb), faceV_pair e dn s k c b ha]

/-- one round of the first loop over `d` in `findpt_face` -/
theorem faceDim1_run {e : El3 K} {ps : List (Pt K 3)} {dn : Fin 3} {s : Nat} (hr : ∀ p ∈ ps, p.r dn = sideEnd K s) {x : Fin 3 → List K} (hx : FaceIn e dn s 0 x) (d : Fin 3) (w : List K)
    (hl : 15 * ps.length + 3 * (e.n (dn + 1) * ps.length) + 3 * (e.n (dn + 2) * ps.length) + 3 * (e.n (dn + 1) * ps.length) ≤ w.length) (hw : FaceWts e ps dn w) (hh : HesAt e ps dn d.val w) :
    ∃ w', faceDim1 ps.length (e.n (dn + 1)) (e.n (dn + 2)) ps x (dn + 1) (dn + 2) d w = some w' ∧ (w'.length = w.length ∧ FaceWts e ps dn w' ∧ HesAt e ps dn (d.val + 1) w') ∧
      ∀ a, a < 12 * ps.length → ((∃ i, i < ps.length ∧ (a = 3 * i + d.val ∨ a = 3 * ps.length + (9 * i + 3 * d.val + (dn + 1).val) ∨ a = 3 * ps.length + (9 * i + 3 * d.val + (dn + 2).val))) ∨ ent w a = rjV e ps a) → ent w' a = rjV e ps a := by
  have m1 : 3 * e.n (dn + 1) * ps.length = 3 * (e.n (dn + 1) * ps.length) := by ring
  have m2 : 3 * e.n (dn + 2) * ps.length = 3 * (e.n (dn + 2) * ps.length) := by ring
  have m3 : e.n (dn + 2) * (3 * ps.length) = 3 * (e.n (dn + 2) * ps.length) := by ring
  have m4 : e.n (dn + 1) * (3 * ps.length) = 3 * (e.n (dn + 1) * ps.length) := by ring
  unfold faceDim1
  dsimp only
  obtain ⟨wb, eb, b1, b2, b3⟩ := mxmIn_eq (w := w) (c := 15 * ps.length + 3 * e.n (dn + 1) * ps.length + 3 * e.n (dn + 2) * ps.length) (nc := e.n (dn + 1)) (A := x d) (na := e.n (dn + 2)) (b := 15 * ps.length + 3 * e.n (dn + 1) * ps.length)
    (nb := 3 * ps.length) (Or.inr (by omega)) (hx d).1 (by omega) (by omega)
  rw [eb, Option.bind_some]
  have hlow : ∀ a, a < 15 * ps.length + 3 * e.n (dn + 1) * ps.length + 3 * e.n (dn + 2) * ps.length → ent wb a = ent w a := fun a ha => b3 a (Or.inl ha)
  have Wb : FaceWts e ps dn wb := hw.keep fun a _ h => hlow a h
  have hsl : ∀ (i : Nat) p, ps[i]? = some p → ∀ b, b < 3 → ∀ j, j < e.n (dn + 1) → ent wb (15 * ps.length + 3 * e.n (dn + 1) * ps.length + 3 * e.n (dn + 2) * ps.length + (3 * e.n (dn + 1) * i + (e.n (dn + 1) * b + j))) =
      ∑ l ∈ range (e.n (dn + 2)), faceA e dn s 0 d j l * Lg e (dn + 2) b l (p.r (dn + 2)) := by
    intro i p hp b hb j hj
    have hi : i < ps.length := (List.getElem?_eq_some_iff.1 hp).1
    rw [show 3 * e.n (dn + 1) * i + (e.n (dn + 1) * b + j) = j + e.n (dn + 1) * (3 * i + b) by ring, b2 j hj _ (by omega)]
    refine sum_congr rfl fun l hlm => ?_
    have hll := mem_range.1 hlm
    rw [hx.pair d hj hll, show l + e.n (dn + 2) * (3 * i + b) = 3 * e.n (dn + 2) * i + (e.n (dn + 2) * b + l) by ring, hw.b i p hp b hb l hll]
  obtain ⟨w', e', ⟨g1, g2, g3⟩, g4⟩ := mono_loop (n := ps.length)
    (body := faceRow1 ps.length (e.n (dn + 1)) (15 * ps.length + 3 * e.n (dn + 1) * ps.length + 3 * e.n (dn + 2) * ps.length) ps (dn + 1) (dn + 2) d) (fun w => w.take (12 * ps.length)) (rjV e ps)
    (fun i a => a < 12 * ps.length ∧ (a = 3 * i + d.val ∨ a = 3 * ps.length + (9 * i + 3 * d.val + (dn + 1).val) ∨ a = 3 * ps.length + (9 * i + 3 * d.val + (dn + 2).val)))
    (fun n (w' : List K) => w'.length = w.length ∧ (∀ a, 15 * ps.length ≤ a → ent w' a = ent wb a) ∧
      ∀ (i : Nat) p, ps[i]? = some p → ∀ k, k < 3 → ent w' (12 * ps.length + (3 * i + k)) = ent wb (12 * ps.length + (3 * i + k)) + if i < n then hesT e dn p d k else 0) wb
    ⟨b1, fun _ _ => rfl, fun i p _ k _ => by rw [if_neg (by omega), add_zero]⟩ (by
      intro i hi w1 ⟨l1, s1, t1⟩
      have hp : ps[i]? = some (ps.getD i noPt3) := by rw [List.getElem?_eq_getElem hi, List.getD_eq_getElem _ _ hi]
      generalize ps.getD i noPt3 = p at hp
      obtain ⟨w2, e2, l2, q1, q2, q3⟩ := faceRow1_run (e := e) hp (hr p (List.mem_of_getElem? hp)) d w1 (S := 15 * ps.length + 3 * e.n (dn + 1) * ps.length + 3 * e.n (dn + 2) * ps.length) (by omega) (by omega)
        (fun k hk j hj => by rw [s1 _ (by omega), Wb.a i p hp k hk j hj]) (fun b hb j hj => by rw [s1 _ (by omega), hsl i p hp b hb j hj])
      refine ⟨w2, e2, ⟨by omega, fun a ha => by rw [q3 a (by omega) (fun k hk => by omega), s1 a ha], ?_⟩, ?_⟩
      · intro i' p' hp' k hk
        by_cases hii : i' = i
        · subst hii
          obtain rfl : p' = p := by rw [hp] at hp'; exact (Option.some.inj hp').symm
          rw [q2 k hk, t1 _ _ hp k hk, if_neg (by omega), if_pos (by omega), add_zero]
        · rw [q3 _ (by omega) (fun k' hk' => by omega), t1 _ _ hp' k hk]
          congr 1
          by_cases hlt : i' < i
          · rw [if_pos hlt, if_pos (by omega)]
          · rw [if_neg hlt, if_neg (by omega)]
      · intro a ha
        by_cases hlt : a < 12 * ps.length
        · rw [ent_take hlt] at ha ⊢
          refine q1 a hlt ?_
          rcases ha with ⟨-, h | h | h⟩ | h
          · exact Or.inl h
          · exact Or.inr (Or.inl h)
          · exact Or.inr (Or.inr (Or.inl h))
          · exact Or.inr (Or.inr (Or.inr h))
        · rcases ha with ⟨h, -⟩ | ha
          · exact absurd h hlt
          · rw [← ha, ent_out (by simp; omega), ent_out (by simp; omega)])
  refine ⟨w', e', ⟨g1, Wb.keep fun a h _ => g2 a h, ?_⟩, ?_⟩
  · intro i p hp k hk
    have hi : i < ps.length := (List.getElem?_eq_some_iff.1 hp).1
    rw [g3 i p hp k hk, if_pos hi, hlow _ (by omega), hh i p hp k hk, sum_range_succ, finOf rfl]
  · intro a ha h
    rw [← ent_take (l := w') ha]
    refine g4 a ?_
    rcases h with ⟨i, hi, h⟩ | h
    · exact Or.inl ⟨i, hi, ha, h⟩
    · right
      rw [ent_take ha, hlow a (by omega), h]

/-- one round of the second loop over `d` in `findpt_face` -/
theorem faceDim2_run {e : El3 K} {ps : List (Pt K 3)} {dn : Fin 3} {s : Nat} (hr : ∀ p ∈ ps, p.r dn = sideEnd K s) {x : Fin 3 → List K} (hx : FaceIn e dn s 1 x) (d : Fin 3) (w : List K)
    (hl : 15 * ps.length + 3 * (e.n (dn + 1) * ps.length) + 3 * (e.n (dn + 2) * ps.length) + 3 * (e.n (dn + 1) * ps.length) ≤ w.length)
    (ha : ∀ (i : Nat) p, ps[i]? = some p → ∀ j, j < e.n (dn + 1) → ent w (15 * ps.length + (3 * e.n (dn + 1) * i + j)) = Lg e (dn + 1) 0 j (p.r (dn + 1)))
    (hb : ∀ (i : Nat) p, ps[i]? = some p → ∀ j, j < e.n (dn + 2) → ent w (15 * ps.length + 3 * e.n (dn + 1) * ps.length + (e.n (dn + 2) * i + j)) = Lg e (dn + 2) 0 j (p.r (dn + 2))) :
    ∃ w', faceDim2 ps.length (e.n (dn + 1)) (e.n (dn + 2)) x dn d w = some w' ∧ w'.length = w.length ∧
      (∀ a, 12 * ps.length ≤ a → a < 15 * ps.length + 3 * e.n (dn + 1) * ps.length + 3 * e.n (dn + 2) * ps.length → ent w' a = ent w a) ∧
      ∀ a, a < 12 * ps.length → ((∃ i, i < ps.length ∧ a = 3 * ps.length + (9 * i + 3 * d.val + dn.val)) ∨ ent w a = rjV e ps a) → ent w' a = rjV e ps a := by
  have hd := d.isLt
  have hdn := dn.isLt
  have m1 : 3 * e.n (dn + 1) * ps.length = 3 * (e.n (dn + 1) * ps.length) := by ring
  have m2 : 3 * e.n (dn + 2) * ps.length = 3 * (e.n (dn + 2) * ps.length) := by ring
  unfold faceDim2
  dsimp only
  obtain ⟨wb, eb, b1, b2, b3⟩ := mxmIn_eq (w := w) (c := 15 * ps.length + 3 * e.n (dn + 1) * ps.length + 3 * e.n (dn + 2) * ps.length) (nc := e.n (dn + 1)) (A := x d) (na := e.n (dn + 2)) (b := 15 * ps.length + 3 * e.n (dn + 1) * ps.length)
    (nb := ps.length) (Or.inr (by omega)) (hx d).1 (by omega) (by omega)
  rw [eb, Option.bind_some]
  have hlow : ∀ a, a < 15 * ps.length + 3 * e.n (dn + 1) * ps.length + 3 * e.n (dn + 2) * ps.length → ent wb a = ent w a := fun a ha => b3 a (Or.inl ha)
  obtain ⟨w', e', ⟨g1, g2⟩, g4⟩ := mono_loop (n := ps.length)
    (body := fun i w => (dot (w.drop (15 * ps.length + 3 * i * e.n (dn + 1))) (w.drop (15 * ps.length + 3 * e.n (dn + 1) * ps.length + 3 * e.n (dn + 2) * ps.length + i * e.n (dn + 1))) (e.n (dn + 1))).bind fun v =>
      store w (3 * ps.length + (9 * i + 3 * d.val + dn.val)) [v]) id (rjV e ps)
    (fun i a => a = 3 * ps.length + (9 * i + 3 * d.val + dn.val))
    (fun _ (w' : List K) => w'.length = w.length ∧ ∀ a, 12 * ps.length ≤ a → ent w' a = ent wb a) wb ⟨b1, fun _ _ => rfl⟩ (by
      intro i hi w1 ⟨l1, s1⟩
      have hp : ps[i]? = some (ps.getD i noPt3) := by rw [List.getElem?_eq_getElem hi, List.getD_eq_getElem _ _ hi]
      generalize ps.getD i noPt3 = p at hp
      have r1 := row_lt (len := 3 * e.n (dn + 1)) hi
      have r2 := row_lt (len := e.n (dn + 1)) hi
      have t1 : 3 * i * e.n (dn + 1) = 3 * e.n (dn + 1) * i := by ring
      have t2 : i * e.n (dn + 1) = e.n (dn + 1) * i := Nat.mul_comm _ _
      beta_reduce
      rw [t1, t2, dot_eq _ _ _ (by rw [List.length_drop]; omega) (by rw [List.length_drop]; omega), Option.bind_some]
      have ev : ∑ j ∈ range (e.n (dn + 1)), ent (w1.drop (15 * ps.length + 3 * e.n (dn + 1) * i)) j * ent (w1.drop (15 * ps.length + 3 * e.n (dn + 1) * ps.length + 3 * e.n (dn + 2) * ps.length + e.n (dn + 1) * i)) j = rjV e ps (3 * ps.length + (9 * i + 3 * d.val + dn.val)) := by
        rw [rjV_jac e ps hp d dn, elMap3_J, ← face_tensor e dn s 1 0 0 d p.r (hr p (List.mem_of_getElem? hp))]
        refine sum_congr rfl fun j hj => ?_
        have hj := mem_range.1 hj
        rw [ent_drop, ent_drop, s1 _ (by omega), s1 _ (by omega), hlow _ (by omega), Nat.add_assoc, ha i p hp j hj, Nat.add_assoc _ (e.n (dn + 1) * i) j, Nat.add_comm (e.n (dn + 1) * i) j, b2 j hj i hi]
        congr 1
        refine sum_congr rfl fun l hlm => ?_
        have hll := mem_range.1 hlm
        rw [hx.pair d hj hll, Nat.add_comm l, hb i p hp l hll]
      obtain ⟨w2, e2, l2, o2, v2⟩ := store1_mono (w := w1) (o := 3 * ps.length + (9 * i + 3 * d.val + dn.val)) (rjV e ps) (by omega) ev
      exact ⟨w2, e2, ⟨by omega, fun a ha => by rw [o2 a (by omega), s1 a ha]⟩, v2⟩)
  refine ⟨w', e', g1, fun a h1 h2 => by rw [g2 a h1, hlow a h2], fun a h1 h => g4 a ?_⟩
  rcases h with h | h
  · exact Or.inl h
  · right; rw [id, hlow a (by omega), h]

/-- findpts_el_3.c:1002: the second weights are moved together -/
theorem faceCompact_run {e : El3 K} {ps : List (Pt K 3)} {dn : Fin 3} (w : List K) (hl : 15 * ps.length + 3 * (e.n (dn + 1) * ps.length) + 3 * (e.n (dn + 2) * ps.length) ≤ w.length) (hw : FaceWts e ps dn w) :
    ∃ w', forUp 1 (ps.length - 1) (fun i w => cpyIn w (15 * ps.length + 3 * e.n (dn + 1) * ps.length + i * e.n (dn + 2)) (15 * ps.length + 3 * e.n (dn + 1) * ps.length + 3 * i * e.n (dn + 2)) (e.n (dn + 2))) w = some w' ∧
      w'.length = w.length ∧ (∀ a, a < 15 * ps.length + 3 * e.n (dn + 1) * ps.length → ent w' a = ent w a) ∧
      ∀ (i : Nat) p, ps[i]? = some p → ∀ j, j < e.n (dn + 2) → ent w' (15 * ps.length + 3 * e.n (dn + 1) * ps.length + (e.n (dn + 2) * i + j)) = Lg e (dn + 2) 0 j (p.r (dn + 2)) := by
  have m1 : 3 * e.n (dn + 1) * ps.length = 3 * (e.n (dn + 1) * ps.length) := by ring
  have m2 : 3 * e.n (dn + 2) * ps.length = 3 * (e.n (dn + 2) * ps.length) := by ring
  obtain ⟨w', e', h1, h2, h3⟩ := forUp_inv (fun k (w' : List K) => w'.length = w.length ∧ (∀ a, (a < 15 * ps.length + 3 * e.n (dn + 1) * ps.length ∨ 15 * ps.length + 3 * e.n (dn + 1) * ps.length + e.n (dn + 2) * k ≤ a) → ent w' a = ent w a) ∧
      ∀ (i : Nat) p, i < k → ps[i]? = some p → ∀ j, j < e.n (dn + 2) → ent w' (15 * ps.length + 3 * e.n (dn + 1) * ps.length + (e.n (dn + 2) * i + j)) = Lg e (dn + 2) 0 j (p.r (dn + 2)))
    (fun i w => cpyIn w (15 * ps.length + 3 * e.n (dn + 1) * ps.length + i * e.n (dn + 2)) (15 * ps.length + 3 * e.n (dn + 1) * ps.length + 3 * i * e.n (dn + 2)) (e.n (dn + 2))) (ps.length - 1) 1 w
    ⟨rfl, fun _ _ => rfl, fun i p hi hp j hj => by
      obtain rfl : i = 0 := by omega
      have := hw.b 0 p hp 0 (by omega) j hj
      simpa using this⟩ (by
      intro k hk1 hk w1 ⟨l1, s1, t1⟩
      have hkp : k < ps.length := by omega
      have r1 := row_lt (len := 3 * e.n (dn + 2)) hkp
      have t3 : 3 * k * e.n (dn + 2) = 3 * e.n (dn + 2) * k := by ring
      have t4 : k * e.n (dn + 2) = e.n (dn + 2) * k := Nat.mul_comm _ _
      have t5 : 3 * e.n (dn + 2) * k = 3 * (e.n (dn + 2) * k) := by ring
      have t6 : e.n (dn + 2) ≤ e.n (dn + 2) * k := Nat.le_mul_of_pos_right _ (by omega)
      have t7 : e.n (dn + 2) * (k + 1) = e.n (dn + 2) * k + e.n (dn + 2) := Nat.mul_succ _ _
      beta_reduce
      rw [t3, t4]
      obtain ⟨wd, ed, d1, d2, d3⟩ := cpy_eq (dst := w1) (o := 15 * ps.length + 3 * e.n (dn + 1) * ps.length + e.n (dn + 2) * k) (src := w1) (s := 15 * ps.length + 3 * e.n (dn + 1) * ps.length + 3 * e.n (dn + 2) * k) (len := e.n (dn + 2)) (by omega) (by omega)
      refine ⟨wd, by unfold cpyIn; rw [if_pos (by simp [disj]; omega), ed], by omega, fun a h => by rw [d3 a (by omega), s1 a (by omega)], ?_⟩
      intro i p hi hp j hj
      by_cases hik : i = k
      · subst hik
        have := d2 j hj
        have hb := hw.b i p hp 0 (by omega) j hj
        rw [← Nat.add_assoc, this, s1 _ (by omega), ← hb]
        congr 1; omega
      · have r2 := row_lt (len := e.n (dn + 2)) (show i < k by omega)
        rw [d3 _ (by omega), t1 i p (by omega) hp j hj])
  exact ⟨w', e', h1, fun a h => h2 a (Or.inl h), fun i p hp j hj => h3 i p (by have := (List.getElem?_eq_some_iff.1 hp).1; omega) hp j hj⟩

/-- findpts_el_3.c:982-1007 -/
theorem faceWork_run {e : El3 K} (he : El3Ok e) {nptMax : Nat} {w : List K} (hwl : w.length = workSize3 (e.n 0) (e.n 1) (e.n 2) nptMax) (ps : List (Pt K 3)) (hn : ps.length ≤ nptMax) (dn : Fin 3) {s : Nat} (hr : ∀ p ∈ ps, p.r dn = sideEnd K s)
    {x xn : Fin 3 → List K} (hx : FaceIn e dn s 0 x) (hxn : FaceIn e dn s 1 xn) :
    ∃ w', faceWork e ps x xn dn (dn + 1) (dn + 2) w = some w' ∧ w'.length = w.length ∧ (∀ a, a < 12 * ps.length → ent w' a = rjV e ps a) ∧ HesAt e ps dn 3 w' := by
  have z := workSize3_face e.n dn hn
  rw [← hwl] at z
  have m1 : 3 * e.n (dn + 1) * ps.length = 3 * (e.n (dn + 1) * ps.length) := by ring
  have m2 : 3 * e.n (dn + 2) * ps.length = 3 * (e.n (dn + 2) * ps.length) := by ring
  unfold faceWork
  dsimp only
  obtain ⟨wa, ea, a1, a2, a3⟩ := lagRows_run he ps (dn + 1) (m := 2) (by omega) (15 * ps.length) (3 * e.n (dn + 1)) (by omega) (fun i => 15 * ps.length + 3 * i * e.n (dn + 1)) (fun i => by ring) w (by omega)
  obtain ⟨wb, eb, b1, b2, b3⟩ := lagRows_run he ps (dn + 2) (m := 2) (by omega) (15 * ps.length + 3 * e.n (dn + 1) * ps.length) (3 * e.n (dn + 2)) (by omega) (fun i => 15 * ps.length + 3 * e.n (dn + 1) * ps.length + 3 * i * e.n (dn + 2)) (fun i => by ring) wa (by omega)
  rw [ea, Option.bind_some, eb, Option.bind_some]
  obtain ⟨wc, ec, c1, c2, c3⟩ := rowsS_run (n := 3 * ps.length) (body := fun i w => store w (12 * ps.length + i) [(0 : K)]) (12 * ps.length) 1 1 (by omega) (fun _ => [0]) (fun _ _ => rfl) wb (fun i _ w _ => by beta_reduce; rw [Nat.one_mul]) (by omega)
  rw [ec, Option.bind_some]
  have Wc : FaceWts e ps dn wc := by
    have keep : ∀ a, 15 * ps.length ≤ a → ent wc a = ent wb a := fun a ha => c3 a fun i hi j hj => by omega
    constructor
    · intro i p hp k hk j hj
      have hi : i < ps.length := (List.getElem?_eq_some_iff.1 hp).1
      have r1 := row_lt (len := 3 * e.n (dn + 1)) hi
      have r2 := row_lt (len := e.n (dn + 1)) hk
      rw [keep _ (by omega), b3 _ (fun i' _ j' _ => by omega), a2 i p hp k (by omega) j hj]
    · intro i p hp k hk j hj
      rw [keep _ (by omega), b2 i p hp k (by omega) j hj]
  have Hc : HesAt e ps dn 0 wc := by
    intro i p hp k hk
    have hi : i < ps.length := (List.getElem?_eq_some_iff.1 hp).1
    have := c2 (3 * i + k) (by omega) 0 (by omega)
    rw [Nat.one_mul, Nat.add_zero] at this
    rw [this, sum_range_zero]; rfl
  obtain ⟨wd, ed, ⟨d1, d2, d3⟩, d4⟩ := mono_fin (n := 3) (body := faceDim1 ps.length (e.n (dn + 1)) (e.n (dn + 2)) ps x (dn + 1) (dn + 2)) (fun w => (w.take (12 * ps.length))) (rjV e ps)
    (fun d a => a < 12 * ps.length ∧ ∃ i, i < ps.length ∧ (a = 3 * i + d.val ∨ a = 3 * ps.length + (9 * i + 3 * d.val + (dn + 1).val) ∨ a = 3 * ps.length + (9 * i + 3 * d.val + (dn + 2).val)))
    (fun D (w' : List K) => w'.length = w.length ∧ FaceWts e ps dn w' ∧ HesAt e ps dn D w') wc ⟨by omega, Wc, Hc⟩ (by
      intro d w1 ⟨l1, W1, H1⟩
      obtain ⟨w2, e2, ⟨l2, W2, H2⟩, h2⟩ := faceDim1_run hr hx d w1 (by omega) W1 H1
      refine ⟨w2, e2, ⟨by omega, W2, H2⟩, fun a ha => ?_⟩
      by_cases hlt : a < 12 * ps.length
      · rw [ent_take hlt] at ha ⊢
        refine h2 a hlt ?_
        rcases ha with ⟨-, ha⟩ | ha
        · exact Or.inl ha
        · exact Or.inr ha
      · rcases ha with ⟨h, -⟩ | ha
        · exact absurd h hlt
        · rw [← ha, ent_out (by simp; omega), ent_out (by simp; omega)])
  rw [ed, Option.bind_some]
  obtain ⟨we, ee, e1, e2, e3⟩ := faceCompact_run wd (by omega) d2
  rw [ee, Option.bind_some]
  obtain ⟨wf, ef, ⟨f1, f2⟩, f4⟩ := mono_fin (n := 3) (body := faceDim2 ps.length (e.n (dn + 1)) (e.n (dn + 2)) xn dn) (fun w => (w.take (12 * ps.length))) (rjV e ps)
    (fun d a => a < 12 * ps.length ∧ ∃ i, i < ps.length ∧ a = 3 * ps.length + (9 * i + 3 * d.val + dn.val))
    (fun _ (w' : List K) => w'.length = w.length ∧ ∀ a, 12 * ps.length ≤ a → a < 15 * ps.length + 3 * e.n (dn + 1) * ps.length + 3 * e.n (dn + 2) * ps.length → ent w' a = ent we a) we ⟨by omega, fun _ _ _ => rfl⟩ (by
      intro d w1 ⟨l1, s1⟩
      obtain ⟨w2, e2', l2, s2, h2⟩ := faceDim2_run hr hxn d w1 (by omega) (fun i p hp j hj => by
          have hi : i < ps.length := (List.getElem?_eq_some_iff.1 hp).1
          have r1 := row_lt (len := 3 * e.n (dn + 1)) hi
          have := d2.a i p hp 0 (by omega) j hj
          rw [Nat.mul_zero, Nat.zero_add] at this
          rw [s1 _ (by omega) (by omega), e2 _ (by omega), this]) (fun i p hp j hj => by
          have hi : i < ps.length := (List.getElem?_eq_some_iff.1 hp).1
          have r1 := row_lt (len := e.n (dn + 2)) hi
          rw [s1 _ (by omega) (by omega), e3 i p hp j hj])
      refine ⟨w2, e2', ⟨by omega, fun a h1 h2 => by rw [s2 a h1 h2, s1 a h1 h2]⟩, fun a ha => ?_⟩
      by_cases hlt : a < 12 * ps.length
      · rw [ent_take hlt] at ha ⊢
        refine h2 a hlt ?_
        rcases ha with ⟨-, ha⟩ | ha
        · exact Or.inl ha
        · exact Or.inr ha
      · rcases ha with ⟨h, -⟩ | ha
        · exact absurd h hlt
        · rw [← ha, ent_out (by simp; omega), ent_out (by simp; omega)])
  refine ⟨wf, ef, by omega, ?_, ?_⟩
  · intro a ha
    rw [← ent_take (l := wf) ha]
    refine f4 a ?_
    by_cases h : a < 3 * ps.length
    · right
      rw [ent_take ha, e2 a (by omega), ← ent_take (l := wd) ha]
      exact d4 a (Or.inl ⟨⟨a % 3, by omega⟩, ha, a / 3, by omega, Or.inl (by show a = 3 * (a / 3) + a % 3; omega)⟩)
    · have hj := fin3_cases dn ⟨(a - 3 * ps.length) % 3, by omega⟩
      have ea : a = 3 * ps.length + (9 * ((a - 3 * ps.length) / 9) + 3 * ((a - 3 * ps.length) % 9 / 3) + (a - 3 * ps.length) % 3) := by omega
      rcases hj with hj | hj | hj
      · left
        have hj' : (a - 3 * ps.length) % 3 = dn.val := congrArg Fin.val hj
        exact ⟨⟨(a - 3 * ps.length) % 9 / 3, by omega⟩, ha, (a - 3 * ps.length) / 9, by omega, by rw [← hj']; exact ea⟩
      · right
        have hj' : (a - 3 * ps.length) % 3 = (dn + 1).val := congrArg Fin.val hj
        rw [ent_take ha, e2 a (by omega), ← ent_take (l := wd) ha]
        exact d4 a (Or.inl ⟨⟨(a - 3 * ps.length) % 9 / 3, by omega⟩, ha, (a - 3 * ps.length) / 9, by omega, Or.inr (Or.inl (by rw [← hj']; exact ea))⟩)
      · right
        have hj' : (a - 3 * ps.length) % 3 = (dn + 2).val := congrArg Fin.val hj
        rw [ent_take ha, e2 a (by omega), ← ent_take (l := wd) ha]
        exact d4 a (Or.inl ⟨⟨(a - 3 * ps.length) % 9 / 3, by omega⟩, ha, (a - 3 * ps.length) / 9, by omega, Or.inr (Or.inr (by rw [← hj']; exact ea))⟩)
  · intro i p hp k hk
    have hi : i < ps.length := (List.getElem?_eq_some_iff.1 hp).1
    rw [f2 _ (by omega) (by omega), e2 _ (by omega), d3 i p hp k hk]

end Gslib.El
