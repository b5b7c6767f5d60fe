import Verif.Lemmas.ElEdge2
import Verif.Lemmas.ElArea2
import Verif.Props.Newton2

/-!
# Helper lemmas: a group of points with the same constraints in 2D
-/

namespace Gslib.El
open Gslib.Tensor Gslib.Num Gslib.Spec Gslib.Props Polynomial Finset

variable {K : Type} [Field K] [LinearOrder K]

theorem tensor2_alt0 (e : El2 K) (k0 k1 : Nat) (u : List K) (r : Fin 2 → K) : tensor2 e k0 k1 u r =
    ∑ j ∈ range (e.n 1), lagD (e.n 1) (ent (e.z 1)) k1 j (r 1) * ∑ i ∈ range (e.n 0), ent u (i + e.n 0 * j) * lagD (e.n 0) (ent (e.z 0)) k0 i (r 0) := interp2_alt _ _ _ _ _

/-- the data of the edges `r = -1` and `r = 1` -/
theorem edgeLists0 {e : El2 K} {st : ElSt2 K} (hl : st.sides.length = 8 * e.n 1 + 4 * e.n 0) (hS : ∀ c, HasS e st.sides c) {s : Nat} (hs : s < 2) (d : Fin 2) :
    ∃ xl nl, edgeXs e st s d = some xl ∧ edgeNs e st s d = some nl ∧ e.n 1 ≤ xl.length ∧ e.n 1 ≤ nl.length ∧ ∀ r : Fin 2 → K, r 0 = sideEnd K s →
      (∀ k, along (e.n 1) (ent (e.z 1)) k xl (r 1) = tensor2 e 0 k (e.x d) r) ∧ along (e.n 1) (ent (e.z 1)) 0 nl (r 1) = tensor2 e 1 0 (e.x d) r := by
  have hd := d.isLt
  have key : ∀ q, q < 4 → ∀ r : Fin 2 → K, r 0 = sideEnd K (q / 2) → ∀ k, along (e.n 1) (ent (e.z 1)) k (st.sides.drop ((2 * q + d.val) * e.n 1)) (r 1) = tensor2 e (q % 2) k (e.x d) r := by
    intro q hq r hr k
    rw [tensor2_alt0]
    unfold along
    refine sum_congr rfl fun j hj => ?_
    rw [ent_drop, hS d q hq j (mem_range.1 hj), hr]
    rfl
  have len : ∀ q, q < 4 → e.n 1 ≤ (st.sides.drop ((2 * q + d.val) * e.n 1)).length := by
    intro q hq
    have : (2 * q + d.val) * e.n 1 + e.n 1 ≤ 8 * e.n 1 := by
      calc (2 * q + d.val) * e.n 1 + e.n 1 = (2 * q + d.val + 1) * e.n 1 := by ring
        _ ≤ 8 * e.n 1 := Nat.mul_le_mul_right _ (by omega)
    rw [List.length_drop]; omega
  rcases (by omega : s = 0 ∨ s = 1) with rfl | rfl
  · refine ⟨st.sides.drop ((2 * 0 + d.val) * e.n 1), st.sides.drop ((2 * 1 + d.val) * e.n 1), by simp [edgeXs], by simp [edgeNs], len 0 (by omega), len 1 (by omega), fun r hr => ⟨fun k => key 0 (by omega) r hr k, key 1 (by omega) r hr 0⟩⟩
  · refine ⟨st.sides.drop ((2 * 2 + d.val) * e.n 1), st.sides.drop ((2 * 3 + d.val) * e.n 1), by simp [edgeXs], by simp [edgeNs], len 2 (by omega), len 3 (by omega), fun r hr => ⟨fun k => key 2 (by omega) r hr k, key 3 (by omega) r hr 0⟩⟩

/-- at the end of a direction only the node there counts -/
theorem sum_end {n : Nat} {z : List K} {lag : Nat → K → List K} {wt : List K} (h : DirOk n z lag wt) {s : Nat} (f : Nat → K) :
    ∑ j ∈ range n, f j * lagD n (ent z) 0 j (sideEnd K s) = f (if s = 0 then 0 else n - 1) := by
  have h2 := h.two
  have : sideEnd K s = ent z (if s = 0 then 0 else n - 1) := by
    unfold sideEnd; split_ifs
    · exact h.first.symm
    · exact h.last.symm
  have hlt : (if s = 0 then 0 else n - 1) < n := by split_ifs <;> omega
  rw [this, sum_eq_single_of_mem _ (mem_range.2 hlt)]
  · rw [lagD_node h.inj hlt hlt, if_pos rfl, mul_one]
  · intro j hj hne
    rw [lagD_node h.inj (mem_range.1 hj) hlt, if_neg hne, mul_zero]

/-- the data of the edges `s = -1` and `s = 1` -/
theorem edgeLists1 {e : El2 K} (he : El2Ok e) {st : ElSt2 K} (hl : st.sides.length = 8 * e.n 1 + 4 * e.n 0) (hx : st.edgeX = some e.x) (hR : ∀ c, HasR e st.sides c) {s : Nat} (hs : s < 2) (d : Fin 2) :
    ∃ xl nl, edgeXs e st (2 + s) d = some xl ∧ edgeNs e st (2 + s) d = some nl ∧ e.n 0 ≤ xl.length ∧ e.n 0 ≤ nl.length ∧ ∀ r : Fin 2 → K, r 1 = sideEnd K s →
      (∀ k, along (e.n 0) (ent (e.z 0)) k xl (r 0) = tensor2 e k 0 (e.x d) r) ∧ along (e.n 0) (ent (e.z 0)) 0 nl (r 0) = tensor2 e 0 1 (e.x d) r := by
  have hd := d.isLt
  have h2 := (he.dir 1).two
  have hxl := he.x d
  have kx : ∀ r : Fin 2 → K, r 1 = sideEnd K s → ∀ k, along (e.n 0) (ent (e.z 0)) k ((e.x d).drop (e.n 0 * (if s = 0 then 0 else e.n 1 - 1))) (r 0) = tensor2 e k 0 (e.x d) r := by
    intro r hr k
    rw [tensor2_alt]
    unfold along
    refine sum_congr rfl fun i hi => ?_
    rw [ent_drop, hr, sum_end (he.dir 1), Nat.add_comm]
  have kn : ∀ r : Fin 2 → K, r 1 = sideEnd K s → along (e.n 0) (ent (e.z 0)) 0 (st.sides.drop (8 * e.n 1 + (2 * s + d.val) * e.n 0)) (r 0) = tensor2 e 0 1 (e.x d) r := by
    intro r hr
    rw [tensor2_alt]
    unfold along
    refine sum_congr rfl fun i hi => ?_
    rw [ent_drop, hR d s hs i (mem_range.1 hi), hr]
    rfl
  have len : e.n 0 ≤ (st.sides.drop (8 * e.n 1 + (2 * s + d.val) * e.n 0)).length := by
    have : (2 * s + d.val) * e.n 0 + e.n 0 ≤ 4 * e.n 0 := by
      calc (2 * s + d.val) * e.n 0 + e.n 0 = (2 * s + d.val + 1) * e.n 0 := by ring
        _ ≤ 4 * e.n 0 := Nat.mul_le_mul_right _ (by omega)
    rw [List.length_drop]; omega
  have len' : e.n 0 ≤ ((e.x d).drop (e.n 0 * (if s = 0 then 0 else e.n 1 - 1))).length := by
    rw [List.length_drop, hxl, ← Nat.mul_sub]
    exact Nat.le_mul_of_pos_right _ (by split_ifs <;> omega)
  refine ⟨_, _, ?_, ?_, len', len, fun r hr => ⟨fun k => kx r hr k, kn r hr⟩⟩
  · rcases (by omega : s = 0 ∨ s = 1) with rfl | rfl <;> simp [edgeXs, hx]
  · rcases (by omega : s = 0 ∨ s = 1) with rfl | rfl <;> simp [edgeNs]

/-- `findpt_edge` acts point by point -/
theorem findptEdge_run {e : El2 K} (he : El2Ok e) {nptMax : Nat} (fuel : Nat) (big tol : K) {st : ElSt2 K} (hm : Sides2 e nptMax st) (ps : List (Pt K 2)) (hn : ps.length ≤ nptMax) (hne : ps ≠ []) (pf : U32) (hpf : ∀ p ∈ ps, p.flags &&& 0x1f = pf)
    {dn de : Fin 2} {s : Nat} (hs : s < 2) (hdd : dn.val = 1 - de.val) (h1 : dim2 (edgeIndex2 pf >>> 1) = some dn) (h2 : dim2 (plus1mod2 (edgeIndex2 pf >>> 1)) = some de) (h3 : (edgeIndex2 pf).toNat = 2 * dn.val + s)
    (hr : ∀ p ∈ ps, p.r dn = sideEnd K s) (g : Pt K 2 → Pt K 2)
    (hg : ∀ p ∈ ps, edgePoint fuel big tol ((elMap2 e).resid p.x p.r) ((elMap2 e).J p.r)
      ((elMap2 e).resid p.x p.r 0 * (elMap2 e).H p.r (col0 de) + (elMap2 e).resid p.x p.r 1 * (elMap2 e).H p.r (col1 de)) de dn pf p = some (g p)) :
    ∃ st', findptEdge fuel big tol e st ps = some (st', ps.map g) ∧ Sides2 e nptMax st' := by
  obtain ⟨p0, hp0⟩ : ∃ p0, ps[0]? = some p0 := ⟨_, List.getElem?_eq_getElem (List.length_pos_of_ne_nil hne)⟩
  obtain ⟨st1, e1, i1, a1, b1⟩ := getEdge_run he hm (k := dn.val) dn.isLt
  unfold findptEdge
  rw [hp0, Option.bind_some]
  dsimp only
  rw [hpf p0 (List.mem_of_getElem? hp0), h1, Option.bind_some, h2, Option.bind_some, h3, show (2 * dn.val + s) / 2 = dn.val by omega, e1, Option.bind_some]
  have hdn := dn.isLt
  have fin : ∀ xl nl : Fin 2 → List K, (∀ d, edgeXs e st1 (2 * dn.val + s) d = some (xl d)) → (∀ d, edgeNs e st1 (2 * dn.val + s) d = some (nl d)) → (∀ d, e.n de ≤ (xl d).length) → (∀ d, e.n de ≤ (nl d).length) →
      (∀ p ∈ ps, ∀ d : Fin 2, along (e.n de) (ent (e.z de)) 0 (xl d) (p.r de) = (elMap2 e).X p.r d ∧ along (e.n de) (ent (e.z de)) 1 (xl d) (p.r de) = (elMap2 e).J p.r ⟨2 * d.val + de.val, by omega⟩ ∧
        along (e.n de) (ent (e.z de)) 2 (xl d) (p.r de) = (elMap2 e).H p.r ⟨2 * d.val + de.val, by omega⟩ ∧ along (e.n de) (ent (e.z de)) 0 (nl d) (p.r de) = (elMap2 e).J p.r ⟨2 * d.val + dn.val, by omega⟩) →
      ∃ st', ((edgeWork e ps (2 * dn.val + s) st1 de dn st1.work).bind fun w =>
        (ps.zipIdx.mapM fun pi => (vec2 w (2 * pi.2)).bind fun resid => (vec4 w (2 * ps.length + 4 * pi.2)).bind fun jac => (w[6 * ps.length + pi.2]?).bind fun hes =>
          edgePoint fuel big tol resid jac hes de dn pf pi.1).map fun out => ({ st1 with work := w }, out)) = some (st', ps.map g) ∧ Sides2 e nptMax st' := by
    intro xl nl hx hN hxl hNl hv
    obtain ⟨w, ew, l, h⟩ := edgeWork_run he i1.mem.work ps hn de dn hdd (2 * dn.val + s) xl nl hx hxl hN hNl
    rw [ew, Option.bind_some]
    have hroom : 10 * ps.length ≤ w.length := by
      have := workSize2_edge (nr := e.n 0) (ns := e.n 1) (n := e.n 0) hn (Or.inl rfl)
      rw [l, i1.mem.work]; omega
    refine ⟨{ st1 with work := w }, ?_, ⟨i1.mem.sides, l.trans i1.mem.work⟩, i1.s, i1.r, i1.p⟩
    rw [mapM_zipIdx (g := g) ps (by
      intro i p hp
      have hi : i < ps.length := (List.getElem?_eq_some_iff.1 hp).1
      have hmem := List.mem_of_getElem? hp
      obtain ⟨q1, q2, q3, q4⟩ := h i p hp
      have v0 := hv p hmem 0
      have v1 := hv p hmem 1
      have eres : vec2 w (2 * i) = some ((elMap2 e).resid p.x p.r) := by
        unfold vec2
        have z0 := q1 0
        have z1 := q1 1
        simp only [Fin.val_zero, Fin.val_one, Nat.add_zero] at z0 z1
        rw [getElem?_ent (by omega), getElem?_ent (by omega), z0, z1, v0.1, v1.1]
        rfl
      have ejac : vec4 w (2 * ps.length + 4 * i) = some ((elMap2 e).J p.r) := by
        have hall : ∀ a : Fin 4, ent w (2 * ps.length + 4 * i + a.val) = (elMap2 e).J p.r a := by
          intro a
          obtain ⟨d, hda⟩ : ∃ d : Fin 2, d.val = a.val / 2 := ⟨⟨a.val / 2, by omega⟩, rfl⟩
          by_cases hc : a.val % 2 = de.val
          · have := q2 d
            rw [(hv p hmem d).2.1] at this
            rw [show 2 * ps.length + 4 * i + a.val = 2 * ps.length + (4 * i + 2 * d.val + de.val) by omega, this]
            congr 1; apply Fin.ext; show 2 * d.val + de.val = a.val; omega
          · have := q3 d
            rw [(hv p hmem d).2.2.2] at this
            rw [show 2 * ps.length + 4 * i + a.val = 2 * ps.length + (4 * i + 2 * d.val + dn.val) by omega, this]
            congr 1; apply Fin.ext; show 2 * d.val + dn.val = a.val; omega
        unfold vec4
        have y0 := hall 0; have y1 := hall 1; have y2 := hall 2; have y3 := hall 3
        have f2 : (2 : Fin 4).val = 2 := rfl
        have f3 : (3 : Fin 4).val = 3 := rfl
        simp only [Fin.val_zero, Fin.val_one, Nat.add_zero, f2, f3] at y0 y1 y2 y3
        rw [getElem?_ent (by omega), getElem?_ent (by omega), getElem?_ent (by omega), getElem?_ent (by omega), y0, y1, y2, y3]
        rfl
      have ehes : w[6 * ps.length + i]? = some ((elMap2 e).resid p.x p.r 0 * (elMap2 e).H p.r (col0 de) + (elMap2 e).resid p.x p.r 1 * (elMap2 e).H p.r (col1 de)) := by
        rw [getElem?_ent (by omega), q4, v0.1, v1.1, v0.2.2.1, v1.2.2.1]
        have c0 : (⟨2 * (0 : Fin 2).val + de.val, by have := de.isLt; omega⟩ : Fin 4) = col0 de := by apply Fin.ext; show 2 * 0 + de.val = de.val; omega
        have c1 : (⟨2 * (1 : Fin 2).val + de.val, by have := de.isLt; omega⟩ : Fin 4) = col1 de := by apply Fin.ext; show 2 * 1 + de.val = 2 + de.val; omega
        rw [c0, c1]
        rfl
      dsimp only
      rw [eres, Option.bind_some, ejac, Option.bind_some, ehes, Option.bind_some]
      exact hg p hmem)]
    rfl
  rcases (by omega : dn.val = 0 ∨ dn.val = 1) with hd0 | hd1
  · obtain rfl : dn = 0 := Fin.ext hd0
    obtain rfl : de = 1 := Fin.ext (by have := de.isLt; simp only [Fin.val_zero, Fin.val_one] at hdd ⊢; omega)
    have L := fun d => edgeLists0 (e := e) (st := st1) i1.mem.sides (a1 rfl) hs d
    choose xl nl hx hN hxl hNl hv using L
    refine fin xl nl (fun d => by rw [show 2 * (0 : Fin 2).val + s = s by simp]; exact hx d) (fun d => by rw [show 2 * (0 : Fin 2).val + s = s by simp]; exact hN d) hxl hNl ?_
    intro p hp d
    obtain ⟨y1, y2⟩ := hv d p.r (hr p hp)
    rw [y1, y1, y1, y2]
    fin_cases d <;> exact ⟨rfl, rfl, rfl, rfl⟩
  · obtain rfl : dn = 1 := Fin.ext hd1
    obtain rfl : de = 0 := Fin.ext (by have := de.isLt; simp only [Fin.val_zero, Fin.val_one] at hdd ⊢; omega)
    obtain ⟨hX, hR⟩ := b1 rfl
    have L := fun d => edgeLists1 he (st := st1) i1.mem.sides hX hR hs d
    choose xl nl hx hN hxl hNl hv using L
    refine fin xl nl hx hN hxl hNl ?_
    intro p hp d
    obtain ⟨y1, y2⟩ := hv d p.r (hr p hp)
    rw [y1, y1, y1, y2]
    fin_cases d <;> exact ⟨rfl, rfl, rfl, rfl⟩

/-- `findpt_pt` acts point by point -/
theorem findptPt_run {e : El2 K} (he : El2Ok e) {nptMax : Nat} (fuel : Nat) (big tol : K) {st : ElSt2 K} (hm : Sides2 e nptMax st) (ps : List (Pt K 2)) (hne : ps ≠ []) (pf : U32) (hpf : ∀ p ∈ ps, p.flags &&& 0x1f = pf)
    (q : Fin 4) (hq : (pointIndex2 pf).toNat = q.val) (hr : ∀ p ∈ ps, p.r = cornerR K q) (g : Pt K 2 → Pt K 2)
    (hg : ∀ p ∈ ps, ptPoint fuel big tol ((elMap2 e).X p.r) ((elMap2 e).J p.r) ((elMap2 e).H p.r) pf p = some (g p)) :
    ∃ st', findptPt fuel big tol e st ps = some (st', ps.map g) ∧ Sides2 e nptMax st' := by
  obtain ⟨p0, hp0⟩ : ∃ p0, ps[0]? = some p0 := ⟨_, List.getElem?_eq_getElem (List.length_pos_of_ne_nil hne)⟩
  obtain ⟨st1, e1, i1, c1⟩ := getPt_run he hm
  refine ⟨st1, ?_, i1⟩
  unfold findptPt
  rw [hp0, Option.bind_some]
  dsimp only
  rw [hpf p0 (List.mem_of_getElem? hp0), e1, Option.bind_some, c1, Option.bind_some, dif_pos (by rw [hq]; exact q.isLt)]
  have hfe : (⟨(pointIndex2 pf).toNat, by rw [hq]; exact q.isLt⟩ : Fin 4) = q := Fin.ext hq
  rw [hfe, mapM_some (g := g) ps (by
    intro p hp
    have := hg p hp
    rw [hr p hp] at this
    exact this)]
  rfl

section
variable [IsStrictOrderedRing K]

/-- the configuration of a group -/
theorem group2_run {e : El2 K} (he : El2Ok e) {nptMax : Nat} (fuel : Nat) (hf : 2 ≤ fuel) (big tol : K) {st : ElSt2 K} (hm : Sides2 e nptMax st) (ps : List (Pt K 2)) (hn : ps.length ≤ nptMax) (hne : ps ≠ []) (r s : Con)
    (hps : ∀ p ∈ ps, (Good2 (elMap2 e) big p ∧ Regular2 (elMap2 e) big p.x) ∧ p.flags &&& 0x1f = flags2 r s) :
    ∃ st', group2 fuel big tol e (r.held + s.held) st ps = some (st', ps.map (step2 (elMap2 e) fuel big tol)) ∧ Sides2 e nptMax st' := by
  have hconv : ∀ p ∈ ps, p.flags.getLsbD 4 = false := by
    intro p hp
    have h1 : (p.flags &&& 0x1f).getLsbD 4 = false := by rw [(hps p hp).2]; cases r <;> cases s <;> decide
    rw [BitVec.getLsbD_and] at h1
    simpa [show (0x1f : U32).getLsbD 4 = true by decide] using h1
  have hstep : ∀ p ∈ ps, stepPt2 (elMap2 e) fuel big tol p = some (step2 (elMap2 e) fuel big tol p) := by
    intro p hp
    obtain ⟨⟨h1, h2⟩, h3⟩ := hps p hp
    obtain ⟨p', e', -⟩ := stepPt2_run (elMap2 e) fuel hf big tol (big_nonneg _ big p.x h2) h2.det p h2.big h1 (hconv p hp)
    unfold step2; rw [e']; rfl
  have href : ∀ p ∈ ps, ∀ v : Fin 2 → Con, v = ![r, s] → RefPt p.r v := by
    intro p hp v hv
    obtain ⟨⟨⟨c, C, hfl, hr, -⟩, -⟩, h3⟩ := hps p hp
    have : c 0 = r ∧ c 1 = s := by
      rw [hfl] at h3
      unfold lowFlags at h3
      revert h3
      generalize c 0 = a; generalize c 1 = b
      cases C <;> cases a <;> cases b <;> cases r <;> cases s <;> decide
    obtain rfl : c = v := by
      rw [hv]; funext d; fin_cases d
      · exact this.1
      · exact this.2
    exact hr
  have hend : ∀ p ∈ ps, (r ≠ .free → p.r 0 = sideEnd K r.side) ∧ (s ≠ .free → p.r 1 = sideEnd K s.side) := by
    intro p hp
    have h := href p hp _ rfl
    obtain ⟨-, -, l0, h0⟩ := h 0
    obtain ⟨-, -, l1, h1⟩ := h 1
    constructor
    · intro hr
      cases r with
      | free => exact absurd rfl hr
      | lo => exact l0 rfl
      | hi => exact h0 rfl
    · intro hr
      cases s with
      | free => exact absurd rfl hr
      | lo => exact l1 rfl
      | hi => exact h1 rfl
  have hflag := el2_flags r s
  have hnum : ∀ k : Nat, k < 3 → r.held + s.held = k → numConstrained2 (flags2 r s) = BitVec.ofNat 32 k := by
    intro k hk h
    apply BitVec.eq_of_toNat_eq
    rw [hflag.1, h, BitVec.toNat_ofNat, Nat.mod_eq_of_lt (by omega)]
  have hside : ∀ c : Con, c.side < 2 := by intro c; cases c <;> decide
  by_cases hr : r = .free
  · by_cases hs : s = .free
    · subst hr hs
      show ∃ st', findptArea fuel big tol e st ps = _ ∧ _
      obtain ⟨w, ew, hl⟩ := findptArea_run he fuel big tol hm.mem ps hn (step2 (elMap2 e) fuel big tol) (by
        intro p hp
        have h := hstep p hp
        unfold stepPt2 at h
        rw [(hps p hp).2, if_pos (by decide)] at h
        exact h)
      exact ⟨_, ew, ⟨hm.mem.sides, hl.trans hm.mem.work⟩, hm.s, hm.r, hm.p⟩
    · subst hr
      have hh : Con.free.held + s.held = 1 := by cases s <;> first | exact absurd rfl hs | rfl
      rw [hh]
      show ∃ st', findptEdge fuel big tol e st ps = _ ∧ _
      have d1 : dim2 (edgeIndex2 (flags2 .free s) >>> 1) = some 1 ∧ dim2 (plus1mod2 (edgeIndex2 (flags2 .free s) >>> 1)) = some 0 := by cases s <;> first | exact absurd rfl hs | decide
      refine findptEdge_run he fuel big tol hm ps hn hne (flags2 .free s) (fun p hp => (hps p hp).2) (dn := 1) (de := 0) (hside s) (by decide) d1.1 d1.2 (hflag.2.2.2.2.2.2.1 rfl hs) (fun p hp => (hend p hp).2 hs) _ (by
        intro p hp
        have h := hstep p hp
        unfold stepPt2 at h
        rw [(hps p hp).2, hnum 1 (by omega) hh, if_neg (by decide), if_pos (by decide), d1.1, Option.bind_some, d1.2, Option.bind_some] at h
        exact h)
  · by_cases hs : s = .free
    · subst hs
      have hh : r.held + Con.free.held = 1 := by cases r <;> first | exact absurd rfl hr | rfl
      rw [hh]
      show ∃ st', findptEdge fuel big tol e st ps = _ ∧ _
      have d1 : dim2 (edgeIndex2 (flags2 r .free) >>> 1) = some 0 ∧ dim2 (plus1mod2 (edgeIndex2 (flags2 r .free) >>> 1)) = some 1 := by cases r <;> first | exact absurd rfl hr | decide
      refine findptEdge_run he fuel big tol hm ps hn hne (flags2 r .free) (fun p hp => (hps p hp).2) (dn := 0) (de := 1) (hside r) (by decide) d1.1 d1.2 (hflag.2.2.2.2.2.1 hr rfl) (fun p hp => (hend p hp).1 hr) _ (by
        intro p hp
        have h := hstep p hp
        unfold stepPt2 at h
        rw [(hps p hp).2, hnum 1 (by omega) hh, if_neg (by decide), if_pos (by decide), d1.1, Option.bind_some, d1.2, Option.bind_some] at h
        exact h)
    · have hh : r.held + s.held = 2 := by cases r <;> cases s <;> first | exact absurd rfl hr | exact absurd rfl hs | rfl
      rw [hh]
      show ∃ st', findptPt fuel big tol e st ps = _ ∧ _
      have s0 := hside r
      have s1 := hside s
      refine findptPt_run he fuel big tol hm ps hne (flags2 r s) (fun p hp => (hps p hp).2) ⟨r.side + 2 * s.side, by omega⟩ (hflag.2.2.2.2.2.2.2 hr hs) ?_ _ (by
        intro p hp
        have h := hstep p hp
        unfold stepPt2 at h
        rw [(hps p hp).2, hnum 2 (by omega) hh, if_neg (by decide), if_neg (by decide)] at h
        exact h)
      intro p hp
      obtain ⟨a, b⟩ := hend p hp
      funext d; fin_cases d
      · show p.r 0 = sideEnd K ((r.side + 2 * s.side) % 2)
        rw [a hr]; congr 1; omega
      · show p.r 1 = sideEnd K ((r.side + 2 * s.side) / 2)
        rw [b hs]; congr 1; omega

end

end Gslib.El
