import Verif.Lemmas.ElEdge3

/-!
# Helper lemmas: `compute_pt_data`, `get_pt` in 3D
-/

namespace Gslib.El
open Gslib.Tensor Gslib.Num Gslib.Spec Gslib.Props Polynomial Finset

variable {K : Type} [Field K] [LinearOrder K]

theorem Ptr.get_add (sd : List K) (p : Ptr K) (k : Nat) : (p.add k).get sd = (p.get sd).drop k := by
  cases p <;> simp [Ptr.add, Ptr.get, List.drop_drop, Nat.add_comm]

/-- the arrays of an edge: `x`, `dxdn1`, `d2xdn1`, `d2xdn2` -/
theorem edge_get {e : El3 K} (he : El3Ok e) {st : ElSt3 K} (hl : st.sides.length = sidesSize3 e) {d : Fin 3} (h : EdgeDone e st d) {i : Nat} (hi : i < 4) (c : Fin 3) :
    (e.n d ≤ ((edgePtr e d i c).get st.sides).length ∧ ∀ j, j < e.n d → ent ((edgePtr e d i c).get st.sides) j = edgeV e d (i % 2) 0 (i / 2) 0 c j) ∧
    (∀ k, k < 3 → e.n d ≤ (st.sides.drop (edgeD e d i k c)).length ∧ ∀ j, j < e.n d → ent (st.sides.drop (edgeD e d i k c)) j = edgeV e d (i % 2) (ek1 k) (i / 2) (ek2 k) c j) := by
  constructor
  · obtain ⟨g1, g2⟩ := face_get2 he hl d h.face.val (s := i / 2) (by omega) c
    have h2 := (he.dir (d + 1)).two
    have hr : ∀ b, b < e.n (d + 1) → e.n d * b + e.n d ≤ e.n d * e.n (d + 1) := fun b hb => row_lt hb
    unfold edgePtr
    by_cases hb : i % 2 = 0
    · rw [if_pos hb]
      have r := hr 0 (by omega)
      refine ⟨by omega, fun j hj => ?_⟩
      have := g2 j hj 0 (by omega)
      rw [Nat.mul_zero, Nat.add_zero] at this
      rw [this, edgeV_end he, if_pos hb]
    · rw [if_neg hb, Ptr.get_add]
      have r := hr (e.n (d + 1) - 1) (by omega)
      refine ⟨by rw [List.length_drop]; omega, fun j hj => ?_⟩
      rw [ent_drop, Nat.add_comm, g2 j hj _ (by omega), edgeV_end he, if_neg hb]
  · intro k hk
    obtain ⟨r1, r2, r3⟩ := edge_room e d (i := i) (k := k) c hi hk
    refine ⟨by rw [List.length_drop]; omega, fun j hj => ?_⟩
    rw [ent_drop, h.val _ (by omega) (by omega), SV_edge e d c hi hk hj]

/-- `dxdn2` of an edge -/
theorem edge_norm2 {e : El3 K} (he : El3Ok e) {st : ElSt3 K} (hl : st.sides.length = sidesSize3 e) {d : Fin 3} (h : EdgeDone e st d) {i : Nat} (hi : i < 4) (c : Fin 3) :
    ∃ o, edgeN2 e d i c = some o ∧ e.n d ≤ (st.sides.drop o).length ∧ ∀ j, j < e.n d → ent (st.sides.drop o) j = edgeV e d (i % 2) 0 (i / 2) 1 c j := by
  obtain ⟨g0, g1, g2⟩ := face_norm2 hl d h.face.val (s := i / 2) (by omega) c
  obtain ⟨-, t1, -, t3⟩ := dims3 d
  have h2 := (he.dir (d + 1)).two
  have hr : ∀ b, b < e.n (d + 1) → e.n d * b + e.n d ≤ e.n d * e.n (d + 1) := fun b hb => row_lt hb
  unfold edgeN2
  rw [t1, Option.bind_some, t3, g0, Option.map_some]
  refine ⟨_, rfl, ?_⟩
  rw [List.length_drop] at g1
  by_cases hb : i % 2 = 0
  · rw [if_pos hb]
    have r := hr 0 (by omega)
    refine ⟨by rw [List.length_drop]; omega, fun j hj => ?_⟩
    have := g2 j hj 0 (by omega)
    rw [Nat.mul_zero, Nat.add_zero] at this
    rw [this, edgeV_end he, if_pos hb]
  · rw [if_neg hb]
    have r := hr (e.n (d + 1) - 1) (by omega)
    have hs : e.n d * (e.n (d + 1) - 1) = e.n d * e.n (d + 1) - e.n d := by rw [Nat.mul_sub, Nat.mul_one]
    refine ⟨by rw [List.length_drop]; omega, fun j hj => ?_⟩
    have := g2 j hj (e.n (d + 1) - 1) (by omega)
    rw [edgeV_end he, if_neg hb, ← this, ent_drop, ent_drop]
    congr 1; omega

section
omit [LinearOrder K]

theorem put_mono {l pt : List K} {a j : Nat} (V : Nat → K) (h1 : a < pt.length) (h2 : j < l.length) (hv : ent l j = V a) : ∃ pt', put a l j pt = some pt' ∧ pt'.length = pt.length ∧ ∀ x, (x = a ∨ ent pt x = V x) → ent pt' x = V x := by
  obtain ⟨pt', e', g1, -, g3⟩ := store1_mono (w := pt) (o := a) (v := ent l j) V h1 hv
  exact ⟨pt', by unfold put; rw [getElem?_ent h2, Option.bind_some, e'], g1, g3⟩

end

theorem PV_X (e : El3 K) (q : Nat) (c : Fin 3) : PV e (ptX q c) = tensor3 e (kv 0 0 0 0) (e.x c) (cornerR3 K q) := by
  have hc := c.isLt
  unfold PV ptX
  rw [show (30 * q + c.val) % 30 = c.val by omega, show (30 * q + c.val) / 30 = q by omega, if_pos hc, finOf rfl, elMap3_X, show kv 0 0 0 0 = (0 : Fin 3 → Nat) by funext x; fin_cases x <;> rfl]

theorem PV_J (e : El3 K) (q : Nat) (c j : Fin 3) : PV e (ptJ q c j.val) = tensor3 e (kv j 1 0 0) (e.x c) (cornerR3 K q) := by
  have hc := c.isLt
  have hj := j.isLt
  unfold PV ptJ
  rw [show (30 * q + 3 + (3 * c.val + j.val)) % 30 = 3 + (3 * c.val + j.val) by omega, show (30 * q + 3 + (3 * c.val + j.val)) / 30 = q by omega, if_neg (by omega), if_pos (by omega),
    finOf (show (3 + (3 * c.val + j.val) - 3) / 3 = c.val by omega), finOf (show (3 + (3 * c.val + j.val) - 3) % 3 = j.val by omega), elMap3_J]

theorem PV_H (e : El3 K) (q : Nat) (c i j : Fin 3) : PV e (ptH q c (hix i j).val) = tensor3 e (fun d => (if d = i then 1 else 0) + if d = j then 1 else 0) (e.x c) (cornerR3 K q) := by
  have hc := c.isLt
  have hj := (hix i j).isLt
  unfold PV ptH
  rw [show (30 * q + 12 + (6 * c.val + (hix i j).val)) % 30 = 12 + (6 * c.val + (hix i j).val) by omega, show (30 * q + 12 + (6 * c.val + (hix i j).val)) / 30 = q by omega, if_neg (by omega), if_neg (by omega),
    finOf (show (12 + (6 * c.val + (hix i j).val) - 12) / 6 = c.val by omega),
    show Fin.ofNat 6 ((12 + (6 * c.val + (hix i j).val) - 12) % 6) = hix i j by apply Fin.ext; show _ % 6 % 6 = _; omega, elMap3_H]

/-- the final contents by orders of derivative -/
theorem PV_vals (e : El3 K) (q : Nat) (c : Fin 3) : PV e (ptJ q c 0) = tensor3 e (kv 0 1 0 0) (e.x c) (cornerR3 K q) ∧ PV e (ptJ q c 1) = tensor3 e (kv 0 0 1 0) (e.x c) (cornerR3 K q) ∧ PV e (ptJ q c 2) = tensor3 e (kv 0 0 0 1) (e.x c) (cornerR3 K q) ∧
    PV e (ptH q c 0) = tensor3 e (kv 0 2 0 0) (e.x c) (cornerR3 K q) ∧ PV e (ptH q c 1) = tensor3 e (kv 0 1 1 0) (e.x c) (cornerR3 K q) ∧ PV e (ptH q c 2) = tensor3 e (kv 0 1 0 1) (e.x c) (cornerR3 K q) ∧
    PV e (ptH q c 3) = tensor3 e (kv 0 0 2 0) (e.x c) (cornerR3 K q) ∧ PV e (ptH q c 4) = tensor3 e (kv 2 1 0 1) (e.x c) (cornerR3 K q) ∧ PV e (ptH q c 5) = tensor3 e (kv 0 0 0 2) (e.x c) (cornerR3 K q) := by
  have hh : ∀ i j (k : Fin 3 → Nat) m, (hix i j).val = m → (fun d => (if d = i then 1 else 0) + if d = j then 1 else 0) = k → PV e (ptH q c m) = tensor3 e k (e.x c) (cornerR3 K q) := by
    intro i j k m h1 h2; rw [← h1, ← h2]; exact PV_H e q c i j
  refine ⟨PV_J e q c 0, ?_, ?_, hh 0 0 _ _ rfl (by decide), hh 0 1 _ _ rfl (by decide), hh 0 2 _ _ rfl (by decide), hh 1 1 _ _ rfl (by decide), hh 1 2 _ _ rfl (by decide), hh 2 2 _ _ rfl (by decide)⟩
  · rw [← show kv 1 1 0 0 = kv 0 0 1 0 from (kv_cyc 0 0 1 0).1]; exact PV_J e q c 1
  · rw [← show kv 2 1 0 0 = kv 0 0 0 1 from (kv_cyc 0 0 0 1).2]; exact PV_J e q c 2

/-- at a corner, from an edge along the first direction -/
theorem corner_r (e : El3 K) {i s : Nat} (hs : s < 2) (k k1 k2 : Nat) (c : Fin 3) :
    ∑ j ∈ range (e.n 0), Lg e 0 k j (sideEnd K s) * edgeV e 0 (i % 2) k1 (i / 2) k2 c j = tensor3 e (kv 0 k k1 k2) (e.x c) (cornerR3 K (2 * i + s)) := by
  rw [← edge_tensor e 0 (i % 2) k1 (i / 2) k2 k c (cornerR3 K (2 * i + s)) (by show sideEnd K ((2 * i + s) / 2 % 2) = _; congr 1; omega) (by show sideEnd K ((2 * i + s) / 4) = _; congr 1; omega)]
  refine sum_congr rfl fun j _ => ?_
  rw [show cornerR3 K (2 * i + s) 0 = sideEnd K s by show sideEnd K ((2 * i + s) % 2) = _; congr 1; omega]

theorem corner_t (e : El3 K) {i s : Nat} (hi : i < 4) (k k1 k2 : Nat) (c : Fin 3) :
    ∑ j ∈ range (e.n 2), Lg e 2 k j (sideEnd K s) * edgeV e 2 (i % 2) k1 (i / 2) k2 c j = tensor3 e (kv 2 k k1 k2) (e.x c) (cornerR3 K (4 * s + i)) := by
  rw [← edge_tensor e 2 (i % 2) k1 (i / 2) k2 k c (cornerR3 K (4 * s + i)) (by show sideEnd K ((4 * s + i) % 2) = _; congr 1; omega) (by show sideEnd K ((4 * s + i) / 2 % 2) = _; congr 1; omega)]
  refine sum_congr rfl fun j _ => ?_
  rw [show cornerR3 K (4 * s + i) 2 = sideEnd K s by show sideEnd K ((4 * s + i) / 4) = _; congr 1; omega]

theorem corner_end {e : El3 K} (he : El3Ok e) {i s : Nat} (hs : s < 2) (k1 k2 : Nat) (c : Fin 3) :
    edgeV e 0 (i % 2) k1 (i / 2) k2 c (if s = 0 then 0 else e.n 0 - 1) = tensor3 e (kv 0 0 k1 k2) (e.x c) (cornerR3 K (2 * i + s)) := by
  rw [← corner_r e hs, ← sum_end (he.dir 0) (s := s) (fun j => edgeV e 0 (i % 2) k1 (i / 2) k2 c j)]
  refine sum_congr rfl fun j _ => ?_
  unfold Lg; ring

/-- findpts_el_3.c:420-430 -/
theorem ptCopy_run {e : El3 K} (he : El3Ok e) {st : ElSt3 K} (hl : st.sides.length = sidesSize3 e) (h : EdgeDone e st 0) (i : Fin 4) (c : Fin 3) (pt : List K) (hpt : pt.length = 240) :
    ∃ pt', ptCopy e st.sides (fun i c => edgePtr e 0 i.val c) i c pt = some pt' ∧ pt'.length = 240 ∧
      ∀ a, ((a = ptX (2 * i.val) c ∨ a = ptJ (2 * i.val) c 1 ∨ a = ptJ (2 * i.val) c 2 ∨ a = ptH (2 * i.val) c 3 ∨ a = ptH (2 * i.val) c 5 ∨ a = ptX (2 * i.val + 1) c ∨ a = ptJ (2 * i.val + 1) c 1 ∨ a = ptJ (2 * i.val + 1) c 2 ∨ a = ptH (2 * i.val + 1) c 3 ∨ a = ptH (2 * i.val + 1) c 5) ∨ ent pt a = PV e a) → ent pt' a = PV e a := by
  have hi := i.isLt
  have hc := c.isLt
  have h2 := (he.dir 0).two
  obtain ⟨⟨lx, gx⟩, gk⟩ := edge_get he hl h hi c
  obtain ⟨y1, g1⟩ := gk 0 (by omega)
  obtain ⟨y11, g11⟩ := gk 1 (by omega)
  obtain ⟨y22, g22⟩ := gk 2 (by omega)
  obtain ⟨o, eo, y2, g2⟩ := edge_norm2 he hl h hi c
  unfold ptCopy
  rw [eo, Option.bind_some]
  dsimp only
  have hroom : 30 * i.val + 30 ≤ 120 ∧ pt.length = 240 := ⟨by omega, hpt⟩
  have cf : ∀ s, s < 2 → ∀ k1 k2, edgeV e 0 (i.val % 2) k1 (i.val / 2) k2 c (if s = 0 then 0 else e.n 0 - 1) = tensor3 e (kv 0 0 k1 k2) (e.x c) (cornerR3 K (2 * i.val + s)) := fun s hs k1 k2 => corner_end he hs k1 k2 c
  generalize (edgePtr e 0 i.val c).get st.sides = x at *
  generalize st.sides.drop (edgeD e 0 i.val 0 c) = x1 at *
  generalize st.sides.drop o = x2 at *
  generalize st.sides.drop (edgeD e 0 i.val 1 c) = x11 at *
  generalize st.sides.drop (edgeD e 0 i.val 2 c) = x22 at *
  obtain ⟨p1, f1, l1, h1⟩ := put_mono (l := x) (pt := pt) (a := ptX (2 * i.val) c) (j := 0) (PV e) (by have := hroom; unfold ptX; omega) (by omega) (by rw [gx _ (by omega), PV_X]; exact cf 0 (by omega) 0 0)
  obtain ⟨p2, f2, l2, h2⟩ := put_mono (l := x1) (pt := p1) (a := ptJ (2 * i.val) c 1) (j := 0) (PV e) (by have := hroom; unfold ptJ; omega) (by omega) (by rw [g1 _ (by omega), (PV_vals e _ c).2.1]; exact cf 0 (by omega) 1 0)
  obtain ⟨p3, f3, l3, h3⟩ := put_mono (l := x2) (pt := p2) (a := ptJ (2 * i.val) c 2) (j := 0) (PV e) (by have := hroom; unfold ptJ; omega) (by omega) (by rw [g2 _ (by omega), (PV_vals e _ c).2.2.1]; exact cf 0 (by omega) 0 1)
  obtain ⟨p4, f4, l4, h4⟩ := put_mono (l := x11) (pt := p3) (a := ptH (2 * i.val) c 3) (j := 0) (PV e) (by have := hroom; unfold ptH; omega) (by omega) (by rw [g11 _ (by omega), (PV_vals e _ c).2.2.2.2.2.2.1]; exact cf 0 (by omega) 2 0)
  obtain ⟨p5, f5, l5, h5⟩ := put_mono (l := x22) (pt := p4) (a := ptH (2 * i.val) c 5) (j := 0) (PV e) (by have := hroom; unfold ptH; omega) (by omega) (by rw [g22 _ (by omega), (PV_vals e _ c).2.2.2.2.2.2.2.2]; exact cf 0 (by omega) 0 2)
  obtain ⟨p6, f6, l6, h6⟩ := put_mono (l := x) (pt := p5) (a := ptX (2 * i.val + 1) c) (j := (e.n 0 - 1)) (PV e) (by have := hroom; unfold ptX; omega) (by omega) (by rw [gx _ (by omega), PV_X]; exact cf 1 (by omega) 0 0)
  obtain ⟨p7, f7, l7, h7⟩ := put_mono (l := x1) (pt := p6) (a := ptJ (2 * i.val + 1) c 1) (j := (e.n 0 - 1)) (PV e) (by have := hroom; unfold ptJ; omega) (by omega) (by rw [g1 _ (by omega), (PV_vals e _ c).2.1]; exact cf 1 (by omega) 1 0)
  obtain ⟨p8, f8, l8, h8⟩ := put_mono (l := x2) (pt := p7) (a := ptJ (2 * i.val + 1) c 2) (j := (e.n 0 - 1)) (PV e) (by have := hroom; unfold ptJ; omega) (by omega) (by rw [g2 _ (by omega), (PV_vals e _ c).2.2.1]; exact cf 1 (by omega) 0 1)
  obtain ⟨p9, f9, l9, h9⟩ := put_mono (l := x11) (pt := p8) (a := ptH (2 * i.val + 1) c 3) (j := (e.n 0 - 1)) (PV e) (by have := hroom; unfold ptH; omega) (by omega) (by rw [g11 _ (by omega), (PV_vals e _ c).2.2.2.2.2.2.1]; exact cf 1 (by omega) 2 0)
  obtain ⟨p10, f10, l10, h10⟩ := put_mono (l := x22) (pt := p9) (a := ptH (2 * i.val + 1) c 5) (j := (e.n 0 - 1)) (PV e) (by have := hroom; unfold ptH; omega) (by omega) (by rw [g22 _ (by omega), (PV_vals e _ c).2.2.2.2.2.2.2.2]; exact cf 1 (by omega) 0 2)
  rw [f1, Option.bind_some, f2, Option.bind_some, f3, Option.bind_some, f4, Option.bind_some, f5, Option.bind_some, f6, Option.bind_some, f7, Option.bind_some, f8, Option.bind_some, f9, Option.bind_some, f10]
  refine ⟨p10, rfl, by omega, ?_⟩
  intro a ha
  rcases ha with (rfl | rfl | rfl | rfl | rfl | rfl | rfl | rfl | rfl | rfl) | hx
  · exact h10 _ (Or.inr (h9 _ (Or.inr (h8 _ (Or.inr (h7 _ (Or.inr (h6 _ (Or.inr (h5 _ (Or.inr (h4 _ (Or.inr (h3 _ (Or.inr (h2 _ (Or.inr (h1 _ (Or.inl rfl)))))))))))))))))))
  · exact h10 _ (Or.inr (h9 _ (Or.inr (h8 _ (Or.inr (h7 _ (Or.inr (h6 _ (Or.inr (h5 _ (Or.inr (h4 _ (Or.inr (h3 _ (Or.inr (h2 _ (Or.inl rfl)))))))))))))))))
  · exact h10 _ (Or.inr (h9 _ (Or.inr (h8 _ (Or.inr (h7 _ (Or.inr (h6 _ (Or.inr (h5 _ (Or.inr (h4 _ (Or.inr (h3 _ (Or.inl rfl)))))))))))))))
  · exact h10 _ (Or.inr (h9 _ (Or.inr (h8 _ (Or.inr (h7 _ (Or.inr (h6 _ (Or.inr (h5 _ (Or.inr (h4 _ (Or.inl rfl)))))))))))))
  · exact h10 _ (Or.inr (h9 _ (Or.inr (h8 _ (Or.inr (h7 _ (Or.inr (h6 _ (Or.inr (h5 _ (Or.inl rfl)))))))))))
  · exact h10 _ (Or.inr (h9 _ (Or.inr (h8 _ (Or.inr (h7 _ (Or.inr (h6 _ (Or.inl rfl)))))))))
  · exact h10 _ (Or.inr (h9 _ (Or.inr (h8 _ (Or.inr (h7 _ (Or.inl rfl)))))))
  · exact h10 _ (Or.inr (h9 _ (Or.inr (h8 _ (Or.inl rfl)))))
  · exact h10 _ (Or.inr (h9 _ (Or.inl rfl)))
  · exact h10 _ (Or.inl rfl)
  · exact h10 _ (Or.inr (h9 _ (Or.inr (h8 _ (Or.inr (h7 _ (Or.inr (h6 _ (Or.inr (h5 _ (Or.inr (h4 _ (Or.inr (h3 _ (Or.inr (h2 _ (Or.inr (h1 _ (Or.inr hx)))))))))))))))))))

/-- findpts_el_3.c:433-439 -/
theorem ptR_run {e : El3 K} (he : El3Ok e) {st : ElSt3 K} (hl : st.sides.length = sidesSize3 e) (h : EdgeDone e st 0) (i : Fin 4) (c : Fin 3) (w0 pt : List K) (hpt : pt.length = 240) (hw : 4 * e.n 0 + 4 ≤ w0.length) (W : HasWts e 0 1 2 w0) :
    ∃ s', ptR e st.sides (fun i c => edgePtr e 0 i.val c) i c (w0, pt) = some s' ∧ s'.1.length = w0.length ∧ s'.2.length = 240 ∧ HasWts e 0 1 2 s'.1 ∧
      ∀ a, ((a = ptJ (2 * i.val) c 0 ∨ a = ptH (2 * i.val) c 0 ∨ a = ptJ (2 * i.val + 1) c 0 ∨ a = ptH (2 * i.val + 1) c 0) ∨ ent pt a = PV e a) → ent s'.2 a = PV e a := by
  have hi := i.isLt
  have hc := c.isLt
  have h2 := (he.dir 0).two
  obtain ⟨⟨lx, gx⟩, -⟩ := edge_get he hl h hi c
  obtain ⟨w, ew, w1, w2, w3⟩ := mtxvIn_eq (w := w0) (y := 4 * e.n 0) (ny := 4) (a := 0) (x := (edgePtr e 0 i.val c).get st.sides) (nx := e.n 0) (by omega) (Or.inr (by omega)) lx (by omega) (by omega)
  have hv : ∀ s, s < 2 → ∀ k, k < 2 → ent w (4 * e.n 0 + (2 * s + k)) = tensor3 e (kv 0 (1 + k) 0 0) (e.x c) (cornerR3 K (2 * i.val + s)) := by
    intro s hs k hk
    rw [w2 _ (by omega), ← corner_r e hs]
    refine sum_congr rfl fun j hj => ?_
    rw [W s hs k hk j (mem_range.1 hj), gx j (mem_range.1 hj)]
  unfold ptR
  dsimp only
  rw [ew, Option.bind_some]
  have hroom : 30 * i.val + 30 ≤ 120 ∧ pt.length = 240 := ⟨by omega, hpt⟩
  obtain ⟨p1, f1, l1, h1⟩ := put_mono (l := w) (pt := pt) (a := ptJ (2 * i.val) c 0) (j := (4 * e.n 0)) (PV e) (by have := hroom; unfold ptJ; omega) (by omega) (by rw [(PV_vals e _ c).1]; exact hv 0 (by omega) 0 (by omega))
  obtain ⟨p2, f2, l2, h2⟩ := put_mono (l := w) (pt := p1) (a := ptH (2 * i.val) c 0) (j := (4 * e.n 0 + 1)) (PV e) (by have := hroom; unfold ptH; omega) (by omega) (by rw [(PV_vals e _ c).2.2.2.1]; exact hv 0 (by omega) 1 (by omega))
  obtain ⟨p3, f3, l3, h3⟩ := put_mono (l := w) (pt := p2) (a := ptJ (2 * i.val + 1) c 0) (j := (4 * e.n 0 + 2)) (PV e) (by have := hroom; unfold ptJ; omega) (by omega) (by rw [(PV_vals e _ c).1]; exact hv 1 (by omega) 0 (by omega))
  obtain ⟨p4, f4, l4, h4⟩ := put_mono (l := w) (pt := p3) (a := ptH (2 * i.val + 1) c 0) (j := (4 * e.n 0 + 3)) (PV e) (by have := hroom; unfold ptH; omega) (by omega) (by rw [(PV_vals e _ c).2.2.2.1]; exact hv 1 (by omega) 1 (by omega))
  rw [f1, Option.bind_some, f2, Option.bind_some, f3, Option.bind_some, f4]
  refine ⟨(w, p4), rfl, w1, by show p4.length = _; omega, W.keep fun a ha => w3 a (by omega), ?_⟩
  intro a ha
  show ent p4 a = _
  rcases ha with (rfl | rfl | rfl | rfl) | hx
  · exact h4 _ (Or.inr (h3 _ (Or.inr (h2 _ (Or.inr (h1 _ (Or.inl rfl)))))))
  · exact h4 _ (Or.inr (h3 _ (Or.inr (h2 _ (Or.inl rfl)))))
  · exact h4 _ (Or.inr (h3 _ (Or.inl rfl)))
  · exact h4 _ (Or.inl rfl)
  · exact h4 _ (Or.inr (h3 _ (Or.inr (h2 _ (Or.inr (h1 _ (Or.inr hx)))))))

/-- findpts_el_3.c:441-448 -/
theorem ptRN_run {e : El3 K} (he : El3Ok e) {st : ElSt3 K} (hl : st.sides.length = sidesSize3 e) (h : EdgeDone e st 0) (i : Fin 4) (c : Fin 3) (w0 pt : List K) (hpt : pt.length = 240) (hw : 2 * e.n 0 + 2 ≤ w0.length) (W : HasWts e 0 1 1 w0) :
    ∃ s', ptRN e st.sides i c (w0, pt) = some s' ∧ s'.1.length = w0.length ∧ s'.2.length = 240 ∧ HasWts e 0 1 1 s'.1 ∧
      ∀ a, ((a = ptH (2 * i.val) c 1 ∨ a = ptH (2 * i.val + 1) c 1 ∨ a = ptH (2 * i.val) c 2 ∨ a = ptH (2 * i.val + 1) c 2) ∨ ent pt a = PV e a) → ent s'.2 a = PV e a := by
  have hi := i.isLt
  have hc := c.isLt
  have h2 := (he.dir 0).two
  obtain ⟨-, gk⟩ := edge_get he hl h hi c
  obtain ⟨y1, g1⟩ := gk 0 (by omega)
  obtain ⟨o, eo, y2, g2⟩ := edge_norm2 he hl h hi c
  obtain ⟨w, ew, w1, w2, w3⟩ := mtxvIn_eq (w := w0) (y := 2 * e.n 0) (ny := 2) (a := 0) (x := st.sides.drop (edgeD e 0 i.val 0 c)) (nx := e.n 0) (by omega) (Or.inr (by omega)) y1 (by omega) (by omega)
  have W1 : HasWts e 0 1 1 w := W.keep fun a ha => w3 a (by omega)
  obtain ⟨v, ev, v1, v2, v3⟩ := mtxvIn_eq (w := w) (y := 2 * e.n 0) (ny := 2) (a := 0) (x := st.sides.drop o) (nx := e.n 0) (by omega) (Or.inr (by omega)) y2 (by omega) (by omega)
  have hv : ∀ s, s < 2 → ent w (2 * e.n 0 + s) = tensor3 e (kv 0 1 1 0) (e.x c) (cornerR3 K (2 * i.val + s)) := by
    intro s hs
    rw [w2 _ (by omega), ← corner_r e hs]
    refine sum_congr rfl fun j hj => ?_
    have := W s hs 0 (by omega) j (mem_range.1 hj)
    rw [Nat.one_mul, Nat.add_zero] at this
    rw [this, g1 j (mem_range.1 hj)]; rfl
  have hv' : ∀ s, s < 2 → ent v (2 * e.n 0 + s) = tensor3 e (kv 0 1 0 1) (e.x c) (cornerR3 K (2 * i.val + s)) := by
    intro s hs
    rw [v2 _ (by omega), ← corner_r e hs]
    refine sum_congr rfl fun j hj => ?_
    have := W1 s hs 0 (by omega) j (mem_range.1 hj)
    rw [Nat.one_mul, Nat.add_zero] at this
    rw [this, g2 j (mem_range.1 hj)]
  unfold ptRN
  dsimp only
  rw [eo, Option.bind_some, ew, Option.bind_some]
  have hroom : 30 * i.val + 30 ≤ 120 ∧ pt.length = 240 := ⟨by omega, hpt⟩
  obtain ⟨p1, f1, l1, h1⟩ := put_mono (l := w) (pt := pt) (a := ptH (2 * i.val) c 1) (j := (2 * e.n 0)) (PV e) (by have := hroom; unfold ptH; omega) (by omega) (by rw [(PV_vals e _ c).2.2.2.2.1]; exact hv 0 (by omega))
  obtain ⟨p2, f2, l2, h2⟩ := put_mono (l := w) (pt := p1) (a := ptH (2 * i.val + 1) c 1) (j := (2 * e.n 0 + 1)) (PV e) (by have := hroom; unfold ptH; omega) (by omega) (by rw [(PV_vals e _ c).2.2.2.2.1]; exact hv 1 (by omega))
  obtain ⟨p3, f3, l3, h3⟩ := put_mono (l := v) (pt := p2) (a := ptH (2 * i.val) c 2) (j := (2 * e.n 0)) (PV e) (by have := hroom; unfold ptH; omega) (by omega) (by rw [(PV_vals e _ c).2.2.2.2.2.1]; exact hv' 0 (by omega))
  obtain ⟨p4, f4, l4, h4⟩ := put_mono (l := v) (pt := p3) (a := ptH (2 * i.val + 1) c 2) (j := (2 * e.n 0 + 1)) (PV e) (by have := hroom; unfold ptH; omega) (by omega) (by rw [(PV_vals e _ c).2.2.2.2.2.1]; exact hv' 1 (by omega))
  rw [f1, Option.bind_some, f2, Option.bind_some, ev, Option.bind_some, f3, Option.bind_some, f4]
  refine ⟨(v, p4), rfl, v1.trans w1, by show p4.length = _; omega, W1.keep fun a ha => v3 a (by omega), ?_⟩
  intro a ha
  show ent p4 a = _
  rcases ha with (rfl | rfl | rfl | rfl) | hx
  · exact h4 _ (Or.inr (h3 _ (Or.inr (h2 _ (Or.inr (h1 _ (Or.inl rfl)))))))
  · exact h4 _ (Or.inr (h3 _ (Or.inr (h2 _ (Or.inl rfl)))))
  · exact h4 _ (Or.inr (h3 _ (Or.inl rfl)))
  · exact h4 _ (Or.inl rfl)
  · exact h4 _ (Or.inr (h3 _ (Or.inr (h2 _ (Or.inr (h1 _ (Or.inr hx)))))))

/-- findpts_el_3.c:452-456 -/
theorem ptT_run {e : El3 K} (he : El3Ok e) {st : ElSt3 K} (hl : st.sides.length = sidesSize3 e) (h : EdgeDone e st 2) (i : Fin 4) (c : Fin 3) (w0 pt : List K) (hpt : pt.length = 240) (hw : 2 * e.n 2 + 2 ≤ w0.length) (W : HasWts e 2 1 1 w0) :
    ∃ s', ptT e st.sides i c (w0, pt) = some s' ∧ s'.1.length = w0.length ∧ s'.2.length = 240 ∧ HasWts e 2 1 1 s'.1 ∧
      ∀ a, ((a = ptH i.val c 4 ∨ a = ptH (4 + i.val) c 4) ∨ ent pt a = PV e a) → ent s'.2 a = PV e a := by
  have hi := i.isLt
  have hc := c.isLt
  have h2 := (he.dir 2).two
  obtain ⟨o, eo, y2, g2⟩ := edge_norm2 he hl h hi c
  obtain ⟨w, ew, w1, w2, w3⟩ := mtxvIn_eq (w := w0) (y := 2 * e.n 2) (ny := 2) (a := 0) (x := st.sides.drop o) (nx := e.n 2) (by omega) (Or.inr (by omega)) y2 (by omega) (by omega)
  have hv : ∀ s, s < 2 → ent w (2 * e.n 2 + s) = tensor3 e (kv 2 1 0 1) (e.x c) (cornerR3 K (4 * s + i.val)) := by
    intro s hs
    rw [w2 _ (by omega), ← corner_t e hi]
    refine sum_congr rfl fun j hj => ?_
    have := W s hs 0 (by omega) j (mem_range.1 hj)
    rw [Nat.one_mul, Nat.add_zero] at this
    rw [this, g2 j (mem_range.1 hj)]
  unfold ptT
  dsimp only
  rw [eo, Option.bind_some, ew, Option.bind_some]
  have hroom : 30 * i.val + 30 ≤ 120 ∧ pt.length = 240 := ⟨by omega, hpt⟩
  obtain ⟨p1, f1, l1, h1⟩ := put_mono (l := w) (pt := pt) (a := ptH i.val c 4) (j := (2 * e.n 2)) (PV e) (by have := hroom; unfold ptH; omega) (by omega) (by rw [(PV_vals e _ c).2.2.2.2.2.2.2.1]; have := hv 0 (by omega); rwa [Nat.mul_zero, Nat.zero_add, Nat.add_zero] at this)
  obtain ⟨p2, f2, l2, h2⟩ := put_mono (l := w) (pt := p1) (a := ptH (4 + i.val) c 4) (j := (2 * e.n 2 + 1)) (PV e) (by have := hroom; unfold ptH; omega) (by omega) (by rw [(PV_vals e _ c).2.2.2.2.2.2.2.1]; exact hv 1 (by omega))
  rw [f1, Option.bind_some, f2]
  refine ⟨(w, p2), rfl, w1, by show p2.length = _; omega, W.keep fun a ha => w3 a (by omega), ?_⟩
  intro a ha
  show ent p2 a = _
  rcases ha with (rfl | rfl) | hx
  · exact h2 _ (Or.inr (h1 _ (Or.inl rfl)))
  · exact h2 _ (Or.inl rfl)
  · exact h2 _ (Or.inr (h1 _ (Or.inr hx)))

theorem pt_addr {a : Nat} (h : a < 240) : ∃ (i : Fin 4) (s : Fin 2) (c : Fin 3), (a = ptX (2 * i.val + s.val) c ∨ ∃ j, j < 3 ∧ a = ptJ (2 * i.val + s.val) c j) ∨ ∃ k, k < 6 ∧ a = ptH (2 * i.val + s.val) c k := by
  have h3 : a % 30 < 3 ∨ (3 ≤ a % 30 ∧ a % 30 < 12) ∨ 12 ≤ a % 30 := by omega
  rcases h3 with h3 | h3 | h3
  · exact ⟨⟨a / 60, by omega⟩, ⟨a / 30 % 2, by omega⟩, ⟨a % 30, h3⟩, Or.inl (Or.inl (by show a = 30 * (2 * (a / 60) + a / 30 % 2) + a % 30; omega))⟩
  · exact ⟨⟨a / 60, by omega⟩, ⟨a / 30 % 2, by omega⟩, ⟨(a % 30 - 3) / 3, by omega⟩, Or.inl (Or.inr ⟨(a % 30 - 3) % 3, by omega, by show a = 30 * (2 * (a / 60) + a / 30 % 2) + 3 + (3 * ((a % 30 - 3) / 3) + (a % 30 - 3) % 3); omega⟩)⟩
  · exact ⟨⟨a / 60, by omega⟩, ⟨a / 30 % 2, by omega⟩, ⟨(a % 30 - 12) / 6, by omega⟩, Or.inr ⟨(a % 30 - 12) % 6, by omega, by show a = 30 * (2 * (a / 60) + a / 30 % 2) + 12 + (6 * ((a % 30 - 12) / 6) + (a % 30 - 12) % 6); omega⟩⟩

theorem ptH_four (i : Fin 4) (s : Fin 2) (c : Fin 3) : ∃ i' : Fin 4, ptH (2 * i.val + s.val) c 4 = ptH i'.val c 4 ∨ ptH (2 * i.val + s.val) c 4 = ptH (4 + i'.val) c 4 := by
  refine ⟨⟨(2 * i.val + s.val) % 4, by omega⟩, ?_⟩
  rcases (by omega : 2 * i.val + s.val = (2 * i.val + s.val) % 4 ∨ 2 * i.val + s.val = 4 + (2 * i.val + s.val) % 4) with h | h
  · left; exact congrArg (fun q => ptH q c 4) h
  · right; exact congrArg (fun q => ptH q c 4) h

theorem fin2 (s : Fin 2) : s = 0 ∨ s = 1 := by revert s; decide

theorem pt_cover {a : Nat} (hlt : a < 240) : (∃ (i : Fin 4) (c : Fin 3), a = ptX (2 * i.val) c ∨ a = ptJ (2 * i.val) c 1 ∨ a = ptJ (2 * i.val) c 2 ∨ a = ptH (2 * i.val) c 3 ∨ a = ptH (2 * i.val) c 5 ∨ a = ptX (2 * i.val + 1) c ∨ a = ptJ (2 * i.val + 1) c 1 ∨ a = ptJ (2 * i.val + 1) c 2 ∨ a = ptH (2 * i.val + 1) c 3 ∨ a = ptH (2 * i.val + 1) c 5) ∨ (∃ (i : Fin 4) (c : Fin 3), a = ptJ (2 * i.val) c 0 ∨ a = ptH (2 * i.val) c 0 ∨ a = ptJ (2 * i.val + 1) c 0 ∨ a = ptH (2 * i.val + 1) c 0) ∨ (∃ (i : Fin 4) (c : Fin 3), a = ptH (2 * i.val) c 1 ∨ a = ptH (2 * i.val + 1) c 1 ∨ a = ptH (2 * i.val) c 2 ∨ a = ptH (2 * i.val + 1) c 2) ∨ ∃ (i : Fin 4) (c : Fin 3), a = ptH i.val c 4 ∨ a = ptH (4 + i.val) c 4 := by
  obtain ⟨i, s, c, h⟩ := pt_addr hlt
  have hs : s = 0 ∨ s = 1 := fin2 s
  rcases h with (rfl | ⟨j, hj, rfl⟩) | ⟨k, hk, rfl⟩
  · left; exact ⟨i, c, by rcases hs with rfl | rfl <;> simp⟩
  · rcases (by omega : j = 0 ∨ j = 1 ∨ j = 2) with rfl | rfl | rfl
    · right; left; exact ⟨i, c, by rcases hs with rfl | rfl <;> simp⟩
    · left; exact ⟨i, c, by rcases hs with rfl | rfl <;> simp⟩
    · left; exact ⟨i, c, by rcases hs with rfl | rfl <;> simp⟩
  · rcases (by omega : k = 0 ∨ k = 1 ∨ k = 2 ∨ k = 3 ∨ k = 4 ∨ k = 5) with rfl | rfl | rfl | rfl | rfl | rfl
    · right; left; exact ⟨i, c, by rcases hs with rfl | rfl <;> simp⟩
    · right; right; left; exact ⟨i, c, by rcases hs with rfl | rfl <;> simp⟩
    · right; right; left; exact ⟨i, c, by rcases hs with rfl | rfl <;> simp⟩
    · left; exact ⟨i, c, by rcases hs with rfl | rfl <;> simp⟩
    · right; right; right
      obtain ⟨i', h⟩ := ptH_four i s c
      exact ⟨i', c, h⟩
    · left; exact ⟨i, c, by rcases hs with rfl | rfl <;> simp⟩

/-- `compute_pt_data` -/
theorem ptData3_run {e : El3 K} (he : El3Ok e) {nptMax : Nat} {st : ElSt3 K} (hm : Sides3 e nptMax st) :
    ∃ st', ptData3 e st = some st' ∧ Sides3 e nptMax st' ∧ PtDone e st' := by
  obtain ⟨s1, e1, m1, E0, -⟩ := getEdge3_run he hm 0
  unfold ptData3
  rw [e1, Option.bind_some, E0.x, Option.bind_some]
  have t0 := (he.dir 0).two
  have t1 := (he.dir 1).two
  have t2 := (he.dir 2).two
  obtain ⟨z1, z2⟩ := edgeRoom_work e nptMax 0
  obtain ⟨z3, z4⟩ := edgeRoom_work e nptMax 2
  rw [← m1.mem.work] at z1 z2 z3 z4
  have y1 : e.n (0 + 1) = e.n 1 := rfl
  have y2 : e.n (2 + 1) = e.n 0 := rfl
  rw [y1] at z1
  rw [y2] at z3
  obtain ⟨pa, ea, qa, ha⟩ := mono_fin2 (n := 4) (m := 3) (body := ptCopy e s1.sides (fun i c => edgePtr e 0 i.val c)) id (PV e) (fun i c a => a = ptX (2 * i.val) c ∨ a = ptJ (2 * i.val) c 1 ∨ a = ptJ (2 * i.val) c 2 ∨ a = ptH (2 * i.val) c 3 ∨ a = ptH (2 * i.val) c 5 ∨ a = ptX (2 * i.val + 1) c ∨ a = ptJ (2 * i.val + 1) c 1 ∨ a = ptJ (2 * i.val + 1) c 2 ∨ a = ptH (2 * i.val + 1) c 3 ∨ a = ptH (2 * i.val + 1) c 5)
    (fun pt => pt.length = 240) s1.pt m1.mem.pt (fun i c pt hpt => ptCopy_run he m1.mem.sides' E0 i c pt hpt)
  rw [ea, Option.bind_some]
  obtain ⟨wa, wb, fa, fb, lb, Wb⟩ := wtsLoad he 0 1 2 (by omega) (w := s1.work) (len := 2 * e.n 0) (s1 := e.n 0) (s2 := 4 * e.n 0) (by omega) (by omega) (by omega) (by omega)
  rw [fa, Option.bind_some, fb, Option.bind_some]
  obtain ⟨pb, eb, ⟨b1, b2, Wc⟩, hb⟩ := mono_fin2 (n := 4) (m := 3) (body := ptR e s1.sides (fun i c => edgePtr e 0 i.val c)) Prod.snd (PV e) (fun i c a => a = ptJ (2 * i.val) c 0 ∨ a = ptH (2 * i.val) c 0 ∨ a = ptJ (2 * i.val + 1) c 0 ∨ a = ptH (2 * i.val + 1) c 0)
    (fun s => s.1.length = s1.work.length ∧ s.2.length = 240 ∧ HasWts e 0 1 2 s.1) (wb, pa) ⟨lb, qa, Wb⟩ (by
      intro i c ⟨w, pt⟩ ⟨hw, hpt, W⟩
      dsimp only at hw hpt W
      obtain ⟨s', es, q1, q2, q3, q4⟩ := ptR_run he m1.mem.sides' E0 i c w pt hpt (by omega) W
      exact ⟨s', es, ⟨q1.trans hw, q2, q3⟩, q4⟩)
  rw [eb, Option.bind_some]
  obtain ⟨wd, ed, d1, d2, d3⟩ := cpy_eq (dst := pb.1) (o := e.n 0) (src := pb.1) (s := 2 * e.n 0) (len := e.n 0) (by omega) (by omega)
  have ecp : cpyIn pb.1 (e.n 0) (2 * e.n 0) (e.n 0) = some wd := by
    unfold cpyIn; rw [if_pos (by simp [disj]; omega), ed]
  have Wd : HasWts e 0 1 1 wd := by
    intro s hs k hk i hi
    obtain rfl : k = 0 := by omega
    rcases (by omega : s = 0 ∨ s = 1) with rfl | rfl
    · have := Wc 0 (by omega) 0 (by omega) i hi
      rw [← this, d3 _ (by simp; omega)]
    · have := Wc 1 (by omega) 0 (by omega) i hi
      rw [← this]
      have h := d2 i hi
      rw [show 0 + (i + e.n 0 * (1 * 1 + 0)) = e.n 0 + i by ring, h]
      congr 1; ring
  rw [ecp, Option.bind_some]
  obtain ⟨pc, ec, ⟨c1, c2, -⟩, hcc⟩ := mono_fin2 (n := 4) (m := 3) (body := ptRN e s1.sides) Prod.snd (PV e) (fun i c a => a = ptH (2 * i.val) c 1 ∨ a = ptH (2 * i.val + 1) c 1 ∨ a = ptH (2 * i.val) c 2 ∨ a = ptH (2 * i.val + 1) c 2)
    (fun s => s.1.length = s1.work.length ∧ s.2.length = 240 ∧ HasWts e 0 1 1 s.1) (wd, pb.2) ⟨d1.trans b1, b2, Wd⟩ (by
      intro i c ⟨w, pt⟩ ⟨hw, hpt, W⟩
      dsimp only at hw hpt W
      obtain ⟨s', es, q1, q2, q3, q4⟩ := ptRN_run he m1.mem.sides' E0 i c w pt hpt (by omega) W
      exact ⟨s', es, ⟨q1.trans hw, q2, q3⟩, q4⟩)
  rw [ec, Option.bind_some]
  have k2 : Keeps e s1 { s1 with work := pc.1, pt := pc.2 } := ⟨fun _ h => h, fun h => h, fun _ h => h, fun a h => hcc a (Or.inr (hb a (Or.inr (ha a (Or.inr h)))))⟩
  have m2 : Sides3 e nptMax { s1 with work := pc.1, pt := pc.2 } := ⟨⟨m1.mem.sides, c1.trans m1.mem.work, c2⟩, fun dn h => (m1.face dn h).keep k2, fun d h => (m1.edge d h).keep k2, fun h => (m1.pt h).keep k2⟩
  obtain ⟨s3, e3, m3, E2, k3⟩ := getEdge3_run he m2 2
  rw [e3, Option.bind_some]
  obtain ⟨we, wf, fe, ff, lf, Wf⟩ := wtsLoad he 2 1 1 (by omega) (w := s3.work) (len := e.n 2) (s1 := e.n 2) (s2 := 4 * e.n 2) (by omega) (by omega) (by omega) (by rw [m3.mem.work, ← m1.mem.work]; omega)
  rw [fe, Option.bind_some, ff, Option.bind_some]
  have hw3 : s3.work.length = s1.work.length := by rw [m3.mem.work, m1.mem.work]
  obtain ⟨pd, epd, ⟨p1, p2, -⟩, hd⟩ := mono_fin2 (n := 4) (m := 3) (body := ptT e s3.sides) Prod.snd (PV e) (fun i c a => a = ptH i.val c 4 ∨ a = ptH (4 + i.val) c 4)
    (fun s => s.1.length = s1.work.length ∧ s.2.length = 240 ∧ HasWts e 2 1 1 s.1) (wf, s3.pt) ⟨lf.trans hw3, m3.mem.pt, Wf⟩ (by
      intro i c ⟨w, pt⟩ ⟨hw, hpt, W⟩
      dsimp only at hw hpt W
      obtain ⟨s', es, q1, q2, q3, q4⟩ := ptT_run he m3.mem.sides' E2 i c w pt hpt (by omega) W
      exact ⟨s', es, ⟨q1.trans hw, q2, q3⟩, q4⟩)
  rw [epd, Option.map_some]
  have k4 : Keeps e s3 { s3 with work := pd.1, pt := pd.2 } := ⟨fun _ h => h, fun h => h, fun _ h => h, fun a h => hd a (Or.inr h)⟩
  refine ⟨_, rfl, ⟨⟨m3.mem.sides, p1.trans m1.mem.work, p2⟩, fun dn h => (m3.face dn h).keep k4, fun d h => (m3.edge d h).keep k4, fun h => (m3.pt h).keep k4⟩, ?_⟩
  intro a hlt
  show ent pd.2 a = PV e a
  have fromC : ent pc.2 a = PV e a → ent pd.2 a = PV e a := fun h => hd a (Or.inr (k3.pt a h))
  have fromB : ent pb.2 a = PV e a → ent pd.2 a = PV e a := fun h => fromC (hcc a (Or.inr h))
  have fromA : ent pa a = PV e a → ent pd.2 a = PV e a := fun h => fromB (hb a (Or.inr h))
  rcases pt_cover hlt with h | h | h | h
  · exact fromA (ha a (Or.inl h))
  · exact fromB (hb a (Or.inl h))
  · exact fromC (hcc a (Or.inl h))
  · exact hd a (Or.inl h)

/-- `get_pt` -/
theorem getPt3_run {e : El3 K} (he : El3Ok e) {nptMax : Nat} {st : ElSt3 K} (hm : Sides3 e nptMax st) :
    ∃ st', getPt3 e st = some st' ∧ Sides3 e nptMax st' ∧ PtDone e st' := by
  unfold getPt3
  by_cases hb : st.sideInit &&& 0x40 = 0
  · rw [if_pos hb]
    obtain ⟨s1, e1, m1, P1⟩ := ptData3_run he hm
    rw [e1, Option.map_some]
    have k2 : Keeps e s1 { s1 with sideInit := s1.sideInit ||| 0x40 } := ⟨fun _ h => h, fun h => h, fun _ h => h, fun _ h => h⟩
    refine ⟨_, rfl, ⟨⟨m1.mem.sides, m1.mem.work, m1.mem.pt⟩, ?_, ?_, fun _ => P1.keep k2⟩, P1.keep k2⟩
    · intro dn h
      dsimp only at h
      rw [bit_or _ _ _ (masks dn 0).2.2.2.2.2.2.1] at h
      exact (m1.face dn h).keep k2
    · intro d h
      dsimp only at h
      rw [bit_or _ _ _ (masks d 0).2.2.2.2.2.2.2] at h
      exact (m1.edge d h).keep k2
  · rw [if_neg hb]
    exact ⟨st, rfl, hm, hm.pt hb⟩

end Gslib.El
