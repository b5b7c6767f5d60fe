import Verif.Lemmas.ElFace3

/-!
# Helper lemmas: `compute_edge_data`, `get_edge` in 3D
-/

namespace Gslib.El
open Gslib.Tensor Gslib.Num Gslib.Spec Gslib.Props Polynomial Finset

variable {K : Type} [Field K] [LinearOrder K]

theorem dims3 (d : Fin 3) : dim3 (BitVec.ofNat 32 d.val) = some d ∧ dim3 (plus1mod3 (BitVec.ofNat 32 d.val)) = some (d + 1) ∧ dim3 (plus2mod3 (BitVec.ofNat 32 d.val)) = some (d + 2) ∧ (plus2mod3 (BitVec.ofNat 32 d.val)).toNat = (d + 2).val := by
  revert d; decide

/-- a face on side `s` of the direction after next -/
theorem face_get2 {e : El3 K} (he : El3Ok e) {sd : List K} (hl : sd.length = sidesSize3 e) (d : Fin 3) (hv : ∀ a, InFace e (d + 2) a → ent sd a = SV e a) {s : Nat} (hs : s < 2) (c : Fin 3) :
    e.n d * e.n (d + 1) ≤ ((facePtr e (d + 2) s c).get sd).length ∧ ∀ a, a < e.n d → ∀ b, b < e.n (d + 1) → ent ((facePtr e (d + 2) s c).get sd) (a + e.n d * b) = faceA e (d + 2) s 0 c a b := by
  obtain ⟨h1, h2⟩ := face_get he hl hv hs c
  obtain ⟨-, -, a3, a4⟩ := add12 d
  have hp := fun a b (ha : a < e.n (d + 2 + 1)) => faceV_pair e (d + 2) s 0 c b ha
  rw [a3, a4] at h1 h2
  rw [a3] at hp
  exact ⟨h1, fun a ha b hb => by rw [h2 _ (idx_lt ha hb), hp a b ha]⟩

theorem face_get1 {e : El3 K} (he : El3Ok e) {sd : List K} (hl : sd.length = sidesSize3 e) (d : Fin 3) (hv : ∀ a, InFace e (d + 1) a → ent sd a = SV e a) {s : Nat} (hs : s < 2) (c : Fin 3) :
    e.n (d + 2) * e.n d ≤ ((facePtr e (d + 1) s c).get sd).length ∧ ∀ a, a < e.n (d + 2) → ∀ b, b < e.n d → ent ((facePtr e (d + 1) s c).get sd) (a + e.n (d + 2) * b) = faceA e (d + 1) s 0 c a b := by
  obtain ⟨h1, h2⟩ := face_get he hl hv hs c
  obtain ⟨a1, a2, -, -⟩ := add12 d
  have hp := fun a b (ha : a < e.n (d + 1 + 1)) => faceV_pair e (d + 1) s 0 c b ha
  rw [a1, a2] at h1 h2
  rw [a1] at hp
  exact ⟨h1, fun a ha b hb => by rw [h2 _ (idx_lt ha hb), hp a b ha]⟩

theorem face_norm2 {e : El3 K} {sd : List K} (hl : sd.length = sidesSize3 e) (d : Fin 3) (hv : ∀ a, InFace e (d + 2) a → ent sd a = SV e a) {s : Nat} (hs : s < 2) (c : Fin 3) :
    faceN e (2 * (d + 2).val + s) c = some (faceAt e (d + 2) s 1 c) ∧ e.n d * e.n (d + 1) ≤ (sd.drop (faceAt e (d + 2) s 1 c)).length ∧
      ∀ a, a < e.n d → ∀ b, b < e.n (d + 1) → ent (sd.drop (faceAt e (d + 2) s 1 c)) (a + e.n d * b) = faceA e (d + 2) s 1 c a b := by
  obtain ⟨h0, h1, h2⟩ := face_norm hl hv hs c
  obtain ⟨-, -, a3, a4⟩ := add12 d
  have hp := fun a b (ha : a < e.n (d + 2 + 1)) => faceV_pair e (d + 2) s 1 c b ha
  rw [a3, a4] at h1 h2
  rw [a3] at hp
  exact ⟨h0, h1, fun a ha b hb => by rw [h2 _ (idx_lt ha hb), hp a b ha]⟩

/-- the node at an end of direction `d+1` -/
theorem edgeV_end {e : El3 K} (he : El3Ok e) (d : Fin 3) (s1 s2 k2 : Nat) (c : Fin 3) (j : Nat) : edgeV e d s1 0 s2 k2 c j = faceA e (d + 2) s2 k2 c j (if s1 = 0 then 0 else e.n (d + 1) - 1) := by
  unfold edgeV Lg
  exact sum_end (he.dir (d + 1)) (fun b => faceA e (d + 2) s2 k2 c j b)

/-- room for edge arrays -/
theorem edge_room (e : El3 K) (d : Fin 3) {i k : Nat} (c : Fin 3) (hi : i < 4) (hk : k < 3) : offE e d ≤ edgeD e d i k c ∧ edgeD e d i k c + e.n d ≤ offE e d + 36 * e.n d ∧ offE e d + 36 * e.n d ≤ sidesSize3 e := by
  have hc := c.isLt
  obtain ⟨o0, o1, o2, o3, o4⟩ := offE_vals e
  have : (9 * i + 3 * k + c.val) * e.n d + e.n d ≤ 36 * e.n d := by rw [← Nat.succ_mul]; exact Nat.mul_le_mul_right _ (by omega)
  refine ⟨by unfold edgeD; omega, by unfold edgeD; omega, ?_⟩
  rcases fin3 d with rfl | rfl | rfl <;> omega

theorem edgeRoom_work (e : El3 K) (m : Nat) (d : Fin 3) : 4 * (e.n (d + 1) + e.n d) ≤ workSize3 (e.n 0) (e.n 1) (e.n 2) m ∧ 4 * (e.n (d + 2) + e.n d) ≤ workSize3 (e.n 0) (e.n 1) (e.n 2) m := by
  obtain ⟨-, -, z1, z2, z3⟩ := workSize3_sides (e.n 0) (e.n 1) (e.n 2) m
  rcases fin3 d with rfl | rfl | rfl
  · show 4 * (e.n 1 + e.n 0) ≤ _ ∧ 4 * (e.n 2 + e.n 0) ≤ _; omega
  · show 4 * (e.n 2 + e.n 1) ≤ _ ∧ 4 * (e.n 0 + e.n 1) ≤ _; omega
  · show 4 * (e.n 0 + e.n 2) ≤ _ ∧ 4 * (e.n 1 + e.n 2) ≤ _; omega

/-- findpts_el_3.c:384-390 -/
theorem edgeN1d_run {e : El3 K} (he : El3Ok e) {nptMax : Nat} {st : ElSt3 K} (hm : El3Mem e nptMax st) (d : Fin 3) (hF : FaceDone e st (d + 2)) (i : Fin 2) (c : Fin 3) (w sd : List K) (hw : w.length = st.work.length) (hsd : sd.length = st.sides.length)
    (W : HasWts e (d + 1) 1 2 w) (hk : ∀ a, ent st.sides a = SV e a → ent sd a = SV e a) :
    ∃ s', edgeN1d e st d (d + 1) (d + 2) i c (w, sd) = some s' ∧ s'.1.length = st.work.length ∧ s'.2.length = st.sides.length ∧ HasWts e (d + 1) 1 2 s'.1 ∧
      ∀ a, ((∃ s1 k j, s1 < 2 ∧ k < 2 ∧ j < e.n d ∧ a = edgeD e d (2 * i.val + s1) k c + j) ∨ ent sd a = SV e a) → ent s'.2 a = SV e a := by
  have hi := i.isLt
  obtain ⟨z, -⟩ := edgeRoom_work e nptMax d
  rw [← hm.work] at z
  obtain ⟨g1, g2⟩ := face_get2 he (hsd.trans hm.sides') d (fun a ha => hk a (hF.val a ha)) hi c
  obtain ⟨v, ev, v1, v2, v3⟩ := mxmIn_eq (w := w) (c := 4 * e.n (d + 1)) (nc := e.n d) (A := (facePtr e (d + 2) i.val c).get sd) (na := e.n (d + 1)) (b := 0) (nb := 4) (Or.inr (by omega)) g1 (by omega) (by omega)
  have hv : ∀ s1, s1 < 2 → ∀ k, k < 2 → ∀ j, j < e.n d → ent v (4 * e.n (d + 1) + ((2 * s1 + k) * e.n d + j)) = SV e (edgeD e d (2 * i.val + s1) k c + j) := by
    intro s1 hs1 k hk j hj
    rw [SV_edge e d c (by omega) (by omega) hj, show (2 * i.val + s1) % 2 = s1 by omega, show (2 * i.val + s1) / 2 = i.val by omega, show (2 * s1 + k) * e.n d + j = j + e.n d * (2 * s1 + k) by ring, v2 j hj _ (by omega)]
    have hek : ek1 k = 1 + k ∧ ek2 k = 0 := by rcases (by omega : k = 0 ∨ k = 1) with rfl | rfl <;> decide
    rw [hek.1, hek.2]
    unfold edgeV
    refine sum_congr rfl fun b hb => ?_
    rw [g2 j hj b (mem_range.1 hb), W s1 hs1 k hk b (mem_range.1 hb)]
  unfold edgeN1d
  rw [face_ptr hF hi c, Option.bind_some]
  dsimp only
  rw [ev, Option.bind_some]
  have room : ∀ q, q < 4 → ∀ k, k < 2 → edgeD e d q k c + e.n d ≤ st.sides.length := by
    intro q hq k hk
    have := edge_room e d (i := q) (k := k) c hq (by omega)
    rw [hm.sides']; omega
  obtain ⟨d1, f1, l1, h1⟩ := cpy_mono (dst := sd) (src := v) (o := edgeD e d (2 * i.val) 0 c) (s := 4 * e.n (d + 1)) (len := e.n d) (SV e) (by omega) (by rw [hsd]; exact room _ (by omega) _ (by omega)) (fun j hj => by
    have := hv 0 (by omega) 0 (by omega) j hj; simpa using this)
  obtain ⟨d2, f2, l2, h2⟩ := cpy_mono (dst := d1) (src := v) (o := edgeD e d (2 * i.val) 1 c) (s := 4 * e.n (d + 1) + e.n d) (len := e.n d) (SV e) (by omega) (by rw [l1, hsd]; exact room _ (by omega) _ (by omega)) (fun j hj => by
    have := hv 0 (by omega) 1 (by omega) j hj
    simp only [Nat.mul_zero, Nat.zero_add, Nat.one_mul, Nat.add_zero] at this
    rw [← this]; congr 1; omega)
  obtain ⟨d3, f3, l3, h3⟩ := cpy_mono (dst := d2) (src := v) (o := edgeD e d (2 * i.val + 1) 0 c) (s := 4 * e.n (d + 1) + 2 * e.n d) (len := e.n d) (SV e) (by omega) (by rw [l2, l1, hsd]; exact room _ (by omega) _ (by omega)) (fun j hj => by
    have := hv 1 (by omega) 0 (by omega) j hj
    rw [← this]; congr 1; omega)
  obtain ⟨d4, f4, l4, h4⟩ := cpy_mono (dst := d3) (src := v) (o := edgeD e d (2 * i.val + 1) 1 c) (s := 4 * e.n (d + 1) + 3 * e.n d) (len := e.n d) (SV e) (by omega) (by rw [l3, l2, l1, hsd]; exact room _ (by omega) _ (by omega)) (fun j hj => by
    have := hv 1 (by omega) 1 (by omega) j hj
    rw [← this]; congr 1; omega)
  rw [f1, Option.bind_some, f2, Option.bind_some, f3, Option.bind_some, f4]
  refine ⟨(v, d4), rfl, by show v.length = _; omega, by show d4.length = _; omega, W.keep fun a ha => v3 a (by omega), ?_⟩
  intro a ha
  show ent d4 a = _
  rcases ha with ⟨s, k, j, hs, hk, hj, rfl⟩ | ha
  · rcases (by omega : (s = 0 ∧ k = 0) ∨ (s = 0 ∧ k = 1) ∨ (s = 1 ∧ k = 0) ∨ (s = 1 ∧ k = 1)) with ⟨rfl, rfl⟩ | ⟨rfl, rfl⟩ | ⟨rfl, rfl⟩ | ⟨rfl, rfl⟩
    · exact h4 _ (Or.inr (h3 _ (Or.inr (h2 _ (Or.inr (h1 _ (Or.inl ⟨by simp, by simp; omega⟩)))))))
    · exact h4 _ (Or.inr (h3 _ (Or.inr (h2 _ (Or.inl ⟨by simp, by simp; omega⟩)))))
    · exact h4 _ (Or.inr (h3 _ (Or.inl ⟨by simp, by omega⟩)))
    · exact h4 _ (Or.inl ⟨by simp, by omega⟩)
  · exact h4 _ (Or.inr (h3 _ (Or.inr (h2 _ (Or.inr (h1 _ (Or.inr ha)))))))

/-- findpts_el_3.c:393-397 -/
theorem edgeN2d_run {e : El3 K} (he : El3Ok e) {nptMax : Nat} {st : ElSt3 K} (hm : El3Mem e nptMax st) (d : Fin 3) (hF : FaceDone e st (d + 1)) (i : Fin 2) (c : Fin 3) (w sd : List K) (hw : w.length = st.work.length) (hsd : sd.length = st.sides.length)
    (W : HasWts e (d + 2) 2 1 w) (hk : ∀ a, ent st.sides a = SV e a → ent sd a = SV e a) :
    ∃ s', edgeN2d e st d (d + 1) (d + 2) i c (w, sd) = some s' ∧ s'.1.length = st.work.length ∧ s'.2.length = st.sides.length ∧ HasWts e (d + 2) 2 1 s'.1 ∧
      ∀ a, ((∃ s2 j, s2 < 2 ∧ j < e.n d ∧ a = edgeD e d (2 * s2 + i.val) 2 c + j) ∨ ent sd a = SV e a) → ent s'.2 a = SV e a := by
  have hi := i.isLt
  obtain ⟨-, z⟩ := edgeRoom_work e nptMax d
  rw [← hm.work] at z
  obtain ⟨g1, g2⟩ := face_get1 he (hsd.trans hm.sides') d (fun a ha => hk a (hF.val a ha)) hi c
  obtain ⟨v, ev, v1, v2, v3⟩ := mtxmIn_eq (w := w) (c := 2 * e.n (d + 2)) (nc := e.n d) (A := (facePtr e (d + 1) i.val c).get sd) (na := e.n (d + 2)) (b := 0) (nb := 2) (Or.inr (by omega)) g1 (by omega) (by omega)
  have hv : ∀ s2, s2 < 2 → ∀ j, j < e.n d → ent v (2 * e.n (d + 2) + (s2 * e.n d + j)) = SV e (edgeD e d (2 * s2 + i.val) 2 c + j) := by
    intro s2 hs2 j hj
    rw [SV_edge e d c (by omega) (by omega) hj, show (2 * s2 + i.val) % 2 = i.val by omega, show (2 * s2 + i.val) / 2 = s2 by omega, show s2 * e.n d + j = j + e.n d * s2 by ring, v2 j hj _ hs2, show ek1 2 = 0 from rfl, show ek2 2 = 2 from rfl,
      ← edgeV_alt]
    refine sum_congr rfl fun b hb => ?_
    have hW := W s2 hs2 0 (by omega) b (mem_range.1 hb)
    rw [Nat.one_mul, Nat.add_zero] at hW
    rw [g2 b (mem_range.1 hb) j hj, hW]
  unfold edgeN2d
  rw [face_ptr hF hi c, Option.bind_some]
  dsimp only
  rw [ev, Option.bind_some]
  have room : ∀ q, q < 4 → edgeD e d q 2 c + e.n d ≤ st.sides.length := by
    intro q hq
    have := edge_room e d (i := q) (k := 2) c hq (by omega)
    rw [hm.sides']; omega
  obtain ⟨d1, f1, l1, h1⟩ := cpy_mono (dst := sd) (src := v) (o := edgeD e d i.val 2 c) (s := 2 * e.n (d + 2)) (len := e.n d) (SV e) (by omega) (by rw [hsd]; exact room _ (by omega)) (fun j hj => by
    have := hv 0 (by omega) j hj; simpa using this)
  obtain ⟨d2, f2, l2, h2⟩ := cpy_mono (dst := d1) (src := v) (o := edgeD e d (2 + i.val) 2 c) (s := 2 * e.n (d + 2) + e.n d) (len := e.n d) (SV e) (by omega) (by rw [l1, hsd]; exact room _ (by omega)) (fun j hj => by
    have := hv 1 (by omega) j hj
    simp only [Nat.mul_one, Nat.one_mul] at this
    rw [← this]; congr 1; omega)
  rw [f1, Option.bind_some, f2]
  refine ⟨(v, d2), rfl, by show v.length = _; omega, by show d2.length = _; omega, W.keep fun a ha => v3 a (by omega), ?_⟩
  intro a ha
  show ent d2 a = _
  rcases ha with ⟨s, j, hs, hj, rfl⟩ | ha
  · rcases (by omega : s = 0 ∨ s = 1) with rfl | rfl
    · exact h2 _ (Or.inr (h1 _ (Or.inl ⟨by simp, by simp; omega⟩)))
    · exact h2 _ (Or.inl ⟨by simp, by simp; omega⟩)
  · exact h2 _ (Or.inr (h1 _ (Or.inr ha)))

theorem edgePtrs_eq {e : El3 K} {st : ElSt3 K} {d : Fin 3} (h : FaceDone e st (d + 2)) : edgePtrs e st d (d + 1) (d + 2) = some fun i c => edgePtr e d i.val c := by
  unfold edgePtrs
  refine allFin_eq fun i => allFin_eq fun c => ?_
  have hi := i.isLt
  rw [face_ptr h (by omega) c, Option.map_some]
  rfl

/-- two nested loops with literal bounds -/
theorem mono_fin2 {S : Type} {n m : Nat} {body : Fin n → Fin m → S → Option S} (g : S → List K) (V : Nat → K) (A : Fin n → Fin m → Nat → Prop) (Q : S → Prop) (s0 : S) (h0 : Q s0)
    (step : ∀ i j, ∀ s, Q s → ∃ s', body i j s = some s' ∧ Q s' ∧ ∀ a, (A i j a ∨ ent (g s) a = V a) → ent (g s') a = V a) :
    ∃ s', forFin n (fun i => forFin m (body i)) s0 = some s' ∧ Q s' ∧ ∀ a, ((∃ i j, A i j a) ∨ ent (g s0) a = V a) → ent (g s') a = V a :=
  mono_fin g V (fun i a => ∃ j, A i j a) (fun _ => Q) s0 h0 fun i s hs => mono_fin g V (A i) (fun _ => Q) s hs fun j s hs => step i j s hs

/-- `compute_edge_data` -/
theorem edgeData_run {e : El3 K} (he : El3Ok e) {nptMax : Nat} {st : ElSt3 K} (hm : Sides3 e nptMax st) (d : Fin 3) :
    ∃ st', edgeData e d st = some st' ∧ Sides3 e nptMax st' ∧ EdgeDone e st' d ∧ Keeps e st st' := by
  obtain ⟨-, t1, t2, -⟩ := dims3 d
  unfold edgeData
  rw [t1, Option.bind_some, t2, Option.bind_some]
  obtain ⟨s1, e1, m1, F2, k1⟩ := getFace_run he hm (d + 2)
  rw [e1, Option.bind_some]
  obtain ⟨s2, e2, m2, F1, k2⟩ := getFace_run he m1 (d + 1)
  have F2' := F2.keep k2
  rw [e2, Option.bind_some, edgePtrs_eq F2', Option.bind_some]
  obtain ⟨z1, z2⟩ := edgeRoom_work e nptMax d
  rw [← m2.mem.work] at z1 z2
  obtain ⟨wa, wb, ea, eb, lb, Wb⟩ := wtsLoad he (d + 1) 1 2 (by omega) (w := s2.work) (len := 2 * e.n (d + 1)) (s1 := e.n (d + 1)) (s2 := 4 * e.n (d + 1)) (by omega) (by omega) (by omega) (by omega)
  rw [ea, Option.bind_some, eb, Option.bind_some]
  obtain ⟨p, ep, ⟨p1, p2, -, p4⟩, p5⟩ := mono_fin2 (n := 2) (m := 3) (body := edgeN1d e s2 d (d + 1) (d + 2)) Prod.snd (SV e) (fun i c a => ∃ s1 k j, s1 < 2 ∧ k < 2 ∧ j < e.n d ∧ a = edgeD e d (2 * i.val + s1) k c + j)
    (fun s => s.1.length = s2.work.length ∧ s.2.length = s2.sides.length ∧ HasWts e (d + 1) 1 2 s.1 ∧ ∀ a, ent s2.sides a = SV e a → ent s.2 a = SV e a) (wb, s2.sides) ⟨lb, rfl, Wb, fun _ h => h⟩ (by
      intro i c ⟨w, sd⟩ ⟨hw, hsd, W, hk⟩
      obtain ⟨s', es, q1, q2, q3, q4⟩ := edgeN1d_run he m2.mem d F2' i c w sd hw hsd W hk
      exact ⟨s', es, ⟨q1, q2, q3, fun a ha => q4 a (Or.inr (hk a ha))⟩, q4⟩)
  rw [ep, Option.bind_some]
  obtain ⟨wc, wd, ec, ed, ld, Wd⟩ := wtsLoad he (d + 2) 2 1 (by omega) (w := p.1) (len := e.n (d + 2)) (s1 := 2 * e.n (d + 2)) (s2 := 5 * e.n (d + 2)) (by omega) (by omega) (by omega) (by omega)
  rw [ec, Option.bind_some, ed, Option.bind_some]
  obtain ⟨q, eq, ⟨q1, q2, -, q4⟩, q5⟩ := mono_fin2 (n := 2) (m := 3) (body := edgeN2d e s2 d (d + 1) (d + 2)) Prod.snd (SV e) (fun i c a => ∃ s2 j, s2 < 2 ∧ j < e.n d ∧ a = edgeD e d (2 * s2 + i.val) 2 c + j)
    (fun s => s.1.length = s2.work.length ∧ s.2.length = s2.sides.length ∧ HasWts e (d + 2) 2 1 s.1 ∧ ∀ a, ent s2.sides a = SV e a → ent s.2 a = SV e a) (wd, p.2) ⟨ld.trans p1, p2, Wd, p4⟩ (by
      intro i c ⟨w, sd⟩ ⟨hw, hsd, W, hk⟩
      obtain ⟨s', es, q1, q2, q3, q4⟩ := edgeN2d_run he m2.mem d F1 i c w sd hw hsd W hk
      exact ⟨s', es, ⟨q1, q2, q3, fun a ha => q4 a (Or.inr (hk a ha))⟩, q4⟩)
  rw [eq, Option.map_some]
  have kk : Keeps e s2 { s2 with work := q.1, sides := q.2, edgeX := fun d' => if d' = d then some fun i c => edgePtr e d i.val c else s2.edgeX d' } := by
    refine ⟨q4, fun h => h, fun d' h => ?_, fun _ h => h⟩
    dsimp only
    by_cases hd : d' = d
    · subst hd; rw [if_pos rfl]
    · rw [if_neg hd, h]
  refine ⟨_, rfl, ⟨⟨q2.trans m2.mem.sides, q1.trans m2.mem.work, m2.mem.pt⟩, fun dn h => (m2.face dn h).keep kk, fun d h => (m2.edge d h).keep kk, fun h => (m2.pt h).keep kk⟩, ⟨F2'.keep kk, ?_, by simp⟩, (k1.trans k2).trans kk⟩
  intro a ha1 ha2
  have h0 : 0 < e.n d := by omega
  generalize hb : a - offE e d = b
  have hq : b / e.n d < 36 := Nat.div_lt_of_lt_mul (by rw [Nat.mul_comm]; omega)
  have hdm := Nat.div_add_mod b (e.n d)
  have hm0 := Nat.mod_lt b h0
  -- the array `a` is in
  have ha : ∀ i k cc, 9 * i + 3 * k + cc = b / e.n d → ∀ hc : cc < 3, a = edgeD e d i k ⟨cc, hc⟩ + b % e.n d := by
    intro i k cc hi hc
    unfold edgeD
    show a = offE e d + (9 * i + 3 * k + cc) * e.n d + b % e.n d
    rw [hi, Nat.mul_comm]
    omega
  by_cases hk : b / e.n d % 9 / 3 = 2
  · refine q5 a (Or.inl ⟨⟨b / e.n d / 9 % 2, by omega⟩, ⟨b / e.n d % 3, by omega⟩, b / e.n d / 9 / 2, b % e.n d, by omega, hm0, ?_⟩)
    exact ha (2 * (b / e.n d / 9 / 2) + b / e.n d / 9 % 2) 2 (b / e.n d % 3) (by omega) _
  · refine q5 a (Or.inr (p5 a (Or.inl ⟨⟨b / e.n d / 9 / 2, by omega⟩, ⟨b / e.n d % 3, by omega⟩, b / e.n d / 9 % 2, b / e.n d % 9 / 3, b % e.n d, by omega, by omega, hm0, ?_⟩)))
    exact ha (2 * (b / e.n d / 9 / 2) + b / e.n d / 9 % 2) (b / e.n d % 9 / 3) (b / e.n d % 3) (by omega) _

/-- `get_edge` -/
theorem getEdge3_run {e : El3 K} (he : El3Ok e) {nptMax : Nat} {st : ElSt3 K} (hm : Sides3 e nptMax st) (d : Fin 3) :
    ∃ st', getEdge3 e d st = some st' ∧ Sides3 e nptMax st' ∧ EdgeDone e st' d ∧ Keeps e st st' := by
  unfold getEdge3
  by_cases hb : st.sideInit &&& ((8 : U32) <<< d.val) = 0
  · rw [if_pos hb]
    obtain ⟨s1, e1, m1, E1, k1⟩ := edgeData_run he hm d
    rw [e1, Option.map_some]
    have k2 : Keeps e s1 { s1 with sideInit := s1.sideInit ||| ((8 : U32) <<< d.val) } := ⟨fun _ h => h, fun h => h, fun _ h => h, fun _ h => h⟩
    refine ⟨_, rfl, ⟨⟨m1.mem.sides, m1.mem.work, m1.mem.pt⟩, ?_, ?_, ?_⟩, E1.keep k2, k1.trans k2⟩
    · intro dn h
      dsimp only at h
      rw [bit_or _ _ _ (masks d dn).2.2.2.1] at h
      exact (m1.face dn h).keep k2
    · intro d' h
      by_cases hd : d = d'
      · subst hd; exact E1.keep k2
      · dsimp only at h
        rw [bit_or _ _ _ ((masks d d').2.1 hd)] at h
        exact (m1.edge d' h).keep k2
    · intro h
      dsimp only at h
      rw [bit_or _ _ _ (masks d 0).2.2.2.2.2.1] at h
      exact (m1.pt h).keep k2
  · rw [if_neg hb]
    exact ⟨st, rfl, hm, hm.edge d hb, Keeps.refl e st⟩

end Gslib.El
