import Verif.Lemmas.ElFaceWork3

/-!
# Helper lemmas: a group of points with the same constraints in 3D
-/

namespace Gslib.El
open Gslib.Tensor Gslib.Num Gslib.Spec Gslib.Props Polynomial Finset

variable {K : Type} [Field K] [LinearOrder K]

/-- the second derivatives, contracted with the residual -/
theorem rh_tensor (e : El3 K) (x r : Fin 3 → K) (i j : Fin 3) (k : Fin 3 → Nat) (hk : (fun d => (if d = i then 1 else 0) + if d = j then 1 else 0) = k) :
    ∑ d ∈ range 3, (elMap3 e).resid x r (Fin.ofNat 3 d) * tensor3 e k (e.x (Fin.ofNat 3 d)) r = (elMap3 e).rh x r i j := by
  unfold ElMap3.rh
  rw [elMap3_H, elMap3_H, elMap3_H, hk, sum_range_succ, sum_range_succ, sum_range_succ, sum_range_zero, zero_add]
  rfl

theorem kv11 (d : Fin 3) : (fun x => (if x = d + 1 then 1 else 0) + if x = d + 1 then 1 else 0) = kv d 0 2 0 := by revert d; decide
theorem kv12 (d : Fin 3) : (fun x => (if x = d + 1 then 1 else 0) + if x = d + 2 then 1 else 0) = kv d 0 1 1 := by revert d; decide
theorem kv22 (d : Fin 3) : (fun x => (if x = d + 2 then 1 else 0) + if x = d + 2 then 1 else 0) = kv d 0 0 2 := by revert d; decide
theorem kv00 (d : Fin 3) : (fun x => (if x = d then 1 else 0) + if x = d then 1 else 0) = kv d 2 0 0 := by revert d; decide
theorem kv01 (d : Fin 3) : (fun x => (if x = d then 1 else 0) + if x = d + 1 then 1 else 0) = kv d 1 1 0 := by revert d; decide
theorem kv02 (d : Fin 3) : (fun x => (if x = d then 1 else 0) + if x = d + 2 then 1 else 0) = kv d 1 0 1 := by revert d; decide

/-- `findpt_face` acts point by point -/
theorem findptFace_run {e : El3 K} (he : El3Ok e) {nptMax : Nat} (fuel : Nat) (big tol : K) {st : ElSt3 K} (hm : Sides3 e nptMax st) (ps : List (Pt K 3)) (hn : ps.length ≤ nptMax) (hne : ps ≠ []) (pf : U32) (hpf : ∀ p ∈ ps, p.flags &&& 0x7f = pf)
    {dn : Fin 3} {s : Nat} (hs : s < 2) (h1 : dim3 (faceIndex3 pf >>> 1) = some dn) (h2 : dim3 (plus1mod3 (faceIndex3 pf >>> 1)) = some (dn + 1)) (h3 : dim3 (plus2mod3 (faceIndex3 pf >>> 1)) = some (dn + 2))
    (h4 : (faceIndex3 pf).toNat = 2 * dn.val + s) (hr : ∀ p ∈ ps, p.r dn = sideEnd K s) (g : Pt K 3 → Pt K 3)
    (hg : ∀ p ∈ ps, facePoint fuel big tol ((elMap3 e).resid p.x p.r) ((elMap3 e).J p.r) ![(elMap3 e).rh p.x p.r (dn + 1) (dn + 1), (elMap3 e).rh p.x p.r (dn + 1) (dn + 2), (elMap3 e).rh p.x p.r (dn + 2) (dn + 2)] dn (dn + 1) (dn + 2) pf p = some (g p)) :
    ∃ st', findptFace fuel big tol e st ps = some (st', ps.map g) ∧ Sides3 e nptMax st' := by
  obtain ⟨p0, hp0⟩ : ∃ p0, ps[0]? = some p0 := ⟨_, List.getElem?_eq_getElem (List.length_pos_of_ne_nil hne)⟩
  obtain ⟨st1, e1, m1, F1, -⟩ := getFace_run he hm dn
  have hl := m1.mem.sides'
  unfold findptFace
  rw [hp0, Option.bind_some]
  dsimp only
  rw [hpf p0 (List.mem_of_getElem? hp0), h1, Option.bind_some, h2, Option.bind_some, h3, Option.bind_some, h4, show (2 * dn.val + s) / 2 = dn.val by omega, e1, Option.bind_some]
  rw [allFin_eq (g := fun c => (facePtr e dn s c).get st1.sides) (fun c => by rw [face_ptr F1 hs c]; rfl), Option.bind_some,
    allFin_eq (g := fun c => st1.sides.drop (faceAt e dn s 1 c)) (fun c => by rw [(face_norm hl F1.val hs c).1]; rfl), Option.bind_some]
  obtain ⟨w, ew, l, hrj, hh⟩ := faceWork_run he m1.mem.work ps hn dn hr (x := fun c => (facePtr e dn s c).get st1.sides) (xn := fun c => st1.sides.drop (faceAt e dn s 1 c)) (fun c => face_get he hl F1.val hs c) (fun c => (face_norm hl F1.val hs c).2)
  rw [ew, Option.bind_some]
  have hroom : 15 * ps.length ≤ w.length := by
    have := workSize3_face e.n dn hn
    rw [l, m1.mem.work]; omega
  have k2 : Keeps e st1 { st1 with work := w } := ⟨fun _ h => h, fun h => h, fun _ h => h, fun _ h => h⟩
  refine ⟨{ st1 with work := w }, ?_, ⟨⟨m1.mem.sides, l.trans m1.mem.work, m1.mem.pt⟩, fun d h => (m1.face d h).keep k2, fun d h => (m1.edge d h).keep k2, fun h => (m1.pt h).keep k2⟩⟩
  rw [mapM_zipIdx (g := g) ps (by
    intro i p hp
    have hi : i < ps.length := (List.getElem?_eq_some_iff.1 hp).1
    obtain ⟨q1, q2⟩ := rj_vec (by omega) hrj hp
    have q3 : vecN 3 w (12 * ps.length + 3 * i) = some ![(elMap3 e).rh p.x p.r (dn + 1) (dn + 1), (elMap3 e).rh p.x p.r (dn + 1) (dn + 2), (elMap3 e).rh p.x p.r (dn + 2) (dn + 2)] := by
      refine vecN_eq (by omega) fun k => ?_
      rw [Nat.add_assoc, hh i p hp k.val k.isLt]
      unfold hesT
      rcases fin3 k with rfl | rfl | rfl
      · exact rh_tensor e p.x p.r _ _ _ (kv11 dn)
      · exact rh_tensor e p.x p.r _ _ _ (kv12 dn)
      · exact rh_tensor e p.x p.r _ _ _ (kv22 dn)
    dsimp only
    rw [q1, Option.bind_some, q2, Option.bind_some, q3, Option.bind_some]
    exact hg p (List.mem_of_getElem? hp))]
  rfl

omit [Field K] [LinearOrder K] in
theorem edgeMany_run {f : Pt K 3 → List K → Option (List K × Pt K 3)} {g : Pt K 3 → Pt K 3} {L : Nat} : ∀ (ps : List (Pt K 3)) (w : List K), w.length = L → (∀ p ∈ ps, ∀ w : List K, w.length = L → ∃ w', f p w = some (w', g p) ∧ w'.length = L) →
    ∃ w', edgeMany f ps w = some (w', ps.map g) ∧ w'.length = L
  | [], w, hw, _ => ⟨w, rfl, hw⟩
  | p :: ps, w, hw, h => by
    obtain ⟨w1, e1, l1⟩ := h p (by simp) w hw
    obtain ⟨w2, e2, l2⟩ := edgeMany_run ps w1 l1 fun q hq => h q (by simp [hq])
    refine ⟨w2, ?_, l2⟩
    unfold edgeMany
    rw [e1, Option.bind_some, e2, Option.map_some]
    rfl

/-- what coordinate `d` contributes to the second derivatives -/
noncomputable def hesE (e : El3 K) (de : Fin 3) (p : Pt K 3) (d : Fin 3) (k : Fin 5) : K :=
  (elMap3 e).resid p.x p.r d * tensor3 e (![kv de 2 0 0, kv de 1 1 0, kv de 1 0 1, kv de 0 2 0, kv de 0 0 2] k) (e.x d) p.r

omit [Field K] [LinearOrder K] in
theorem setFin_same {A : Type} {n : Nat} (f : Fin n → A) (i : Fin n) (v : A) : setFin f i v i = v := if_pos rfl
omit [Field K] [LinearOrder K] in
theorem setFin_ne {A : Type} {n : Nat} (f : Fin n → A) {i j : Fin n} (v : A) (h : j ≠ i) : setFin f i v j = f j := if_neg h

/-- the arrays of an edge -/
structure EdgeIn (e : El3 K) (de : Fin 3) (s1 s2 : Nat) (x x1 x2 x11 x22 : Fin 3 → List K) : Prop where
  x : ∀ c, e.n de ≤ (x c).length ∧ ∀ j, j < e.n de → ent (x c) j = edgeV e de s1 0 s2 0 c j
  x1 : ∀ c, e.n de ≤ (x1 c).length ∧ ∀ j, j < e.n de → ent (x1 c) j = edgeV e de s1 1 s2 0 c j
  x2 : ∀ c, e.n de ≤ (x2 c).length ∧ ∀ j, j < e.n de → ent (x2 c) j = edgeV e de s1 0 s2 1 c j
  x11 : ∀ c, e.n de ≤ (x11 c).length ∧ ∀ j, j < e.n de → ent (x11 c) j = edgeV e de s1 2 s2 0 c j
  x22 : ∀ c, e.n de ≤ (x22 c).length ∧ ∀ j, j < e.n de → ent (x22 c) j = edgeV e de s1 0 s2 2 c j

/-- one round of the loop over `d` in `findpt_edge` -/
theorem edgeLocD_run {e : El3 K} (he : El3Ok e) {de : Fin 3} {s1 s2 : Nat} {x x1 x2 x11 x22 : Fin 3 → List K} (hx : EdgeIn e de s1 s2 x x1 x2 x11 x22) (p : Pt K 3) (h1 : p.r (de + 1) = sideEnd K s1) (h2 : p.r (de + 2) = sideEnd K s2)
    (w : List K) (hl : 3 * e.n de ≤ w.length) (hw : ∀ k, k < 3 → ∀ j, j < e.n de → ent w (j + e.n de * k) = Lg e de k j (p.r de)) (d : Fin 3) (s : EdgeLoc K) :
    ∃ s', edgeLocD w (e.n de) (x d) (x1 d) (x2 d) (x11 d) (x22 d) p de (de + 1) (de + 2) d s = some s' ∧ s'.resid d = (elMap3 e).resid p.x p.r d ∧ s'.jac d = (elMap3 e).J p.r d ∧ (∀ k, s'.hes k = s.hes k + hesE e de p d k) ∧
      ∀ d', d' ≠ d → s'.resid d' = s.resid d' ∧ s'.jac d' = s.jac d' := by
  have p0 : 0 < e.n de := by have := (he.dir de).two; omega
  have val : ∀ (u : List K) (k1 k2 : Nat), (∀ j, j < e.n de → ent u j = edgeV e de s1 k1 s2 k2 d j) → ∀ k, k < 3 → ∑ j ∈ range (e.n de), ent w (j + e.n de * k) * ent u j = tensor3 e (kv de k k1 k2) (e.x d) p.r := by
    intro u k1 k2 hu k hk
    rw [← edge_tensor e de s1 k1 s2 k2 k d p.r h1 h2]
    refine sum_congr rfl fun j hj => ?_
    have hj := mem_range.1 hj
    rw [hw k hk j hj, hu j hj]
  have va : mtxv 3 w (x d) (e.n de) = some (tab 3 fun k => tensor3 e (kv de k 0 0) (e.x d) p.r) := by
    rw [mtxv_eq 3 _ _ _ p0 (by omega) (hx.x d).1]
    congr 1
    refine List.ext_getElem (by simp [tab]) fun k hk _ => ?_
    simp [tab] at hk ⊢
    exact val _ 0 0 (hx.x d).2 k hk
  have vb : mtxv 2 w (x1 d) (e.n de) = some (tab 2 fun k => tensor3 e (kv de k 1 0) (e.x d) p.r) := by
    rw [mtxv_eq 2 _ _ _ p0 (by omega) (hx.x1 d).1]
    congr 1
    refine List.ext_getElem (by simp [tab]) fun k hk _ => ?_
    simp [tab] at hk ⊢
    exact val _ 1 0 (hx.x1 d).2 k (by omega)
  have vc : mtxv 2 w (x2 d) (e.n de) = some (tab 2 fun k => tensor3 e (kv de k 0 1) (e.x d) p.r) := by
    rw [mtxv_eq 2 _ _ _ p0 (by omega) (hx.x2 d).1]
    congr 1
    refine List.ext_getElem (by simp [tab]) fun k hk _ => ?_
    simp [tab] at hk ⊢
    exact val _ 0 1 (hx.x2 d).2 k (by omega)
  have vd : ∀ (u : List K) (k1 k2 : Nat), e.n de ≤ u.length → (∀ j, j < e.n de → ent u j = edgeV e de s1 k1 s2 k2 d j) → dot w u (e.n de) = some (tensor3 e (kv de 0 k1 k2) (e.x d) p.r) := by
    intro u k1 k2 hul hu
    rw [dot_eq _ _ _ (by omega) hul]
    have := val u k1 k2 hu 0 (by omega)
    simp only [Nat.mul_zero, Nat.add_zero] at this
    rw [this]
  have vec : ∀ (n : Nat) (f : Nat → K), vecN n (tab n f) 0 = some fun k => f k.val := fun n f => vecN_eq (by simp) fun k => by rw [Nat.zero_add, ent_tab k.isLt]
  have eres : p.x d - tensor3 e (kv de 0 0 0) (e.x d) p.r = (elMap3 e).resid p.x p.r d := by
    show _ = p.x d - (elMap3 e).X p.r d
    rw [elMap3_X, show kv de 0 0 0 = (0 : Fin 3 → Nat) by funext x; simp [kv]]
  unfold edgeLocD
  rw [va, Option.bind_some, vec, Option.bind_some]
  dsimp only
  rw [vb, Option.bind_some, vec, Option.bind_some, vc, Option.bind_some, vec, Option.bind_some, vd _ 2 0 (hx.x11 d).1 (hx.x11 d).2, Option.bind_some, vd _ 0 2 (hx.x22 d).1 (hx.x22 d).2, Option.map_some]
  refine ⟨_, rfl, ?_, ?_, ?_, fun d' hd' => ⟨setFin_ne _ _ hd', setFin_ne _ _ hd'⟩⟩
  · show setFin _ _ _ _ = _
    rw [setFin_same]; exact eres
  · show setFin _ _ _ _ = _
    rw [setFin_same]
    obtain ⟨n1, n2, n3⟩ := neAll de
    funext j
    rcases fin3_cases de j with rfl | rfl | rfl
    · rw [setFin_ne _ _ (Ne.symm n2), setFin_ne _ _ (Ne.symm n1), setFin_same, elMap3_J]; rfl
    · rw [setFin_ne _ _ (Ne.symm n3), setFin_same, elMap3_J, (kv_cyc de 0 1 0).1]; rfl
    · rw [setFin_same, elMap3_J, (kv_cyc de 0 0 1).2]; rfl
  · intro k
    unfold hesE
    rw [← eres]
    fin_cases k <;> rfl

/-- the local arrays of `findpt_edge` after the loop over `d` -/
theorem edgeLoc_run {e : El3 K} (he : El3Ok e) {de : Fin 3} {s1 s2 : Nat} {x x1 x2 x11 x22 : Fin 3 → List K} (hx : EdgeIn e de s1 s2 x x1 x2 x11 x22) (p : Pt K 3) (h1 : p.r (de + 1) = sideEnd K s1) (h2 : p.r (de + 2) = sideEnd K s2)
    (w : List K) (hl : 3 * e.n de ≤ w.length) (hw : ∀ k, k < 3 → ∀ j, j < e.n de → ent w (j + e.n de * k) = Lg e de k j (p.r de)) :
    forFin 3 (fun d => edgeLocD w (e.n de) (x d) (x1 d) (x2 d) (x11 d) (x22 d) p de (de + 1) (de + 2) d) ⟨0, 0, 0⟩ = some ⟨(elMap3 e).resid p.x p.r, (elMap3 e).J p.r,
      ![(elMap3 e).rh p.x p.r de de, (elMap3 e).rh p.x p.r de (de + 1), (elMap3 e).rh p.x p.r de (de + 2), (elMap3 e).rh p.x p.r (de + 1) (de + 1), (elMap3 e).rh p.x p.r (de + 2) (de + 2)]⟩ := by
  obtain ⟨s', es, g1, g2⟩ := forFin_inv (f := fun d => edgeLocD w (e.n de) (x d) (x1 d) (x2 d) (x11 d) (x22 d) p de (de + 1) (de + 2) d) (fun D s => (∀ d : Fin 3, d.val < D → s.resid d = (elMap3 e).resid p.x p.r d ∧ s.jac d = (elMap3 e).J p.r d) ∧
      ∀ k, s.hes k = ∑ d ∈ range D, hesE e de p (Fin.ofNat 3 d) k) ⟨0, 0, 0⟩ ⟨fun d hd => absurd hd (Nat.not_lt_zero _), fun k => by rw [sum_range_zero]; rfl⟩ (by
      intro d s ⟨q1, q2⟩
      obtain ⟨s', es, t1, t2, t3, t4⟩ := edgeLocD_run he hx p h1 h2 w hl hw d s
      refine ⟨s', es, fun d' hd' => ?_, fun k => by rw [t3 k, q2 k, sum_range_succ, finOf rfl]⟩
      by_cases hdd : d' = d
      · subst hdd; exact ⟨t1, t2⟩
      · obtain ⟨u1, u2⟩ := t4 d' hdd
        have hv : d'.val ≠ d.val := fun h => hdd (Fin.ext h)
        obtain ⟨v1, v2⟩ := q1 d' (by omega)
        exact ⟨u1.trans v1, u2.trans v2⟩)
  rw [es]
  congr 1
  obtain ⟨sr, sj, sh⟩ := s'
  congr 1
  · funext d; exact (g1 d d.isLt).1
  · funext d; exact (g1 d d.isLt).2
  · funext k
    have := g2 k
    dsimp only at this
    rw [this]
    unfold hesE
    fin_cases k
    · exact rh_tensor e p.x p.r _ _ _ (kv00 de)
    · exact rh_tensor e p.x p.r _ _ _ (kv01 de)
    · exact rh_tensor e p.x p.r _ _ _ (kv02 de)
    · exact rh_tensor e p.x p.r _ _ _ (kv11 de)
    · exact rh_tensor e p.x p.r _ _ _ (kv22 de)

/-- `findpt_edge` acts point by point -/
theorem findptEdge3_run {e : El3 K} (he : El3Ok e) {nptMax : Nat} (fuel : Nat) (big tol : K) {st : ElSt3 K} (hm : Sides3 e nptMax st) (ps : List (Pt K 3)) (hne : ps ≠ []) (pf : U32) (hpf : ∀ p ∈ ps, p.flags &&& 0x7f = pf)
    {de : Fin 3} {s1 s2 : Nat} (hs1 : s1 < 2) (hs2 : s2 < 2) (h1 : dim3 (edgeIndex3 pf >>> 2) = some de) (h2 : dim3 (plus1mod3 (edgeIndex3 pf >>> 2)) = some (de + 1)) (h3 : dim3 (plus2mod3 (edgeIndex3 pf >>> 2)) = some (de + 2))
    (h4 : (edgeIndex3 pf).toNat = 4 * de.val + s1 + 2 * s2) (hr : ∀ p ∈ ps, p.r (de + 1) = sideEnd K s1 ∧ p.r (de + 2) = sideEnd K s2) (g : Pt K 3 → Pt K 3)
    (hg : ∀ p ∈ ps, edgePoint3 fuel big tol ((elMap3 e).resid p.x p.r) ((elMap3 e).J p.r)
      ![(elMap3 e).rh p.x p.r de de, (elMap3 e).rh p.x p.r de (de + 1), (elMap3 e).rh p.x p.r de (de + 2), (elMap3 e).rh p.x p.r (de + 1) (de + 1), (elMap3 e).rh p.x p.r (de + 2) (de + 2)] de (de + 1) (de + 2) pf p = some (g p)) :
    ∃ st', findptEdge3 fuel big tol e st ps = some (st', ps.map g) ∧ Sides3 e nptMax st' := by
  obtain ⟨p0, hp0⟩ : ∃ p0, ps[0]? = some p0 := ⟨_, List.getElem?_eq_getElem (List.length_pos_of_ne_nil hne)⟩
  obtain ⟨st1, e1, m1, E1, -⟩ := getEdge3_run he hm de
  have hl := m1.mem.sides'
  have hi : s1 + 2 * s2 < 4 := by omega
  unfold findptEdge3
  rw [hp0, Option.bind_some]
  dsimp only
  rw [hpf p0 (List.mem_of_getElem? hp0), h1, Option.bind_some, h2, Option.bind_some, h3, Option.bind_some, h4, show (4 * de.val + s1 + 2 * s2) % 4 = s1 + 2 * s2 by omega, e1, Option.bind_some, E1.x, Option.bind_some]
  have N := fun c => edge_norm2 he hl E1 hi c
  choose o ho hol hov using N
  rw [allFin_eq (g := fun c => st1.sides.drop (o c)) (fun c => by rw [ho c]; rfl), Option.bind_some]
  have q1 : (s1 + 2 * s2) % 2 = s1 := by omega
  have q2 : (s1 + 2 * s2) / 2 = s2 := by omega
  have q3 : (Fin.ofNat 4 (s1 + 2 * s2)).val = s1 + 2 * s2 := by show (s1 + 2 * s2) % 4 = _; omega
  have hin : EdgeIn e de s1 s2 (fun c => (edgePtr e de (Fin.ofNat 4 (s1 + 2 * s2)).val c).get st1.sides) (fun c => st1.sides.drop (edgeD e de (s1 + 2 * s2) 0 c)) (fun c => st1.sides.drop (o c)) (fun c => st1.sides.drop (edgeD e de (s1 + 2 * s2) 1 c))
      (fun c => st1.sides.drop (edgeD e de (s1 + 2 * s2) 2 c)) := by
    have G := fun c => edge_get he hl E1 hi c
    rw [q1, q2] at G
    rw [q1, q2] at hov
    rw [q3]
    exact ⟨fun c => (G c).1, fun c => (G c).2 0 (by omega), fun c => ⟨hol c, hov c⟩, fun c => (G c).2 1 (by omega), fun c => (G c).2 2 (by omega)⟩
  have hroom : 3 * e.n de ≤ st1.work.length := by
    have := (edgeRoom_work e nptMax de).1
    rw [m1.mem.work]; omega
  obtain ⟨w, ew, l⟩ := edgeMany_run (f := edgeOne fuel big tol e (fun c => (edgePtr e de (Fin.ofNat 4 (s1 + 2 * s2)).val c).get st1.sides) (fun c => st1.sides.drop (edgeD e de (s1 + 2 * s2) 0 c)) (fun c => st1.sides.drop (o c))
    (fun c => st1.sides.drop (edgeD e de (s1 + 2 * s2) 1 c)) (fun c => st1.sides.drop (edgeD e de (s1 + 2 * s2) 2 c)) de (de + 1) (de + 2) pf) (g := g) (L := st1.work.length) ps st1.work rfl (by
      intro p hp w hw
      have ll := (he.dir de).lagLen 2 (p.r de) (by omega)
      obtain ⟨w', ew, l', g2, -⟩ := store_eq (p := w) (off := 0) (v := e.lag de 2 (p.r de)) (by omega)
      refine ⟨w', ?_, by omega⟩
      unfold edgeOne
      rw [ew, Option.bind_some, edgeLoc_run he hin p (hr p hp).1 (hr p hp).2 w' (by omega) (by
        intro k hk j hj
        have r := row_lt (len := e.n de) hk
        have hc : e.n de * 3 = 3 * e.n de := Nat.mul_comm _ _
        have := g2 (e.n de * k + j) (by omega)
        rw [lag_ent (he.dir de) (by omega) _ (by omega) hj, Nat.zero_add] at this
        rw [Nat.add_comm, this]; rfl), Option.bind_some]
      dsimp only
      rw [hg p hp]; rfl)
  rw [ew]
  have k2 : Keeps e st1 { st1 with work := w } := ⟨fun _ h => h, fun h => h, fun _ h => h, fun _ h => h⟩
  exact ⟨{ st1 with work := w }, rfl, ⟨⟨m1.mem.sides, l.trans m1.mem.work, m1.mem.pt⟩, fun d h => (m1.face d h).keep k2, fun d h => (m1.edge d h).keep k2, fun h => (m1.pt h).keep k2⟩⟩

/-- `findpt_pt` acts point by point -/
theorem findptPt3_run {e : El3 K} (he : El3Ok e) {nptMax : Nat} (fuel : Nat) (big tol : K) {st : ElSt3 K} (hm : Sides3 e nptMax st) (ps : List (Pt K 3)) (hne : ps ≠ []) (pf : U32) (hpf : ∀ p ∈ ps, p.flags &&& 0x7f = pf)
    {q : Nat} (hq8 : q < 8) (hq : (pointIndex3 pf).toNat = q) (hr : ∀ p ∈ ps, p.r = cornerR3 K q) (g : Pt K 3 → Pt K 3)
    (hg : ∀ p ∈ ps, ptPoint3 fuel big tol ((elMap3 e).X p.r) ((elMap3 e).J p.r) ((elMap3 e).H p.r) pf p = some (g p)) :
    ∃ st', findptPt3 fuel big tol e st ps = some (st', ps.map g) ∧ Sides3 e nptMax st' := by
  obtain ⟨p0, hp0⟩ : ∃ p0, ps[0]? = some p0 := ⟨_, List.getElem?_eq_getElem (List.length_pos_of_ne_nil hne)⟩
  obtain ⟨st1, e1, m1, P1⟩ := getPt3_run he hm
  have hl := m1.mem.pt
  refine ⟨st1, ?_, m1⟩
  unfold findptPt3
  rw [hp0, Option.bind_some]
  dsimp only
  rw [hpf p0 (List.mem_of_getElem? hp0), e1, Option.bind_some, hq]
  rw [vecN_eq (g := (elMap3 e).X (cornerR3 K q)) (by omega) (fun c => by
    have hc := c.isLt
    rw [P1 _ (by omega)]
    unfold PV
    rw [show (30 * q + c.val) % 30 = c.val by omega, show (30 * q + c.val) / 30 = q by omega, if_pos hc, finOf rfl]), Option.bind_some]
  rw [mat3_eq (g := (elMap3 e).J (cornerR3 K q)) (by omega) (fun c j => by
    have hc := c.isLt
    have hj := j.isLt
    rw [P1 _ (by omega)]
    unfold PV
    rw [show (30 * q + 3 + (3 * c.val + j.val)) % 30 = 3 + (3 * c.val + j.val) by omega, show (30 * q + 3 + (3 * c.val + j.val)) / 30 = q by omega, if_neg (by omega), if_pos (by omega), finOf (show (3 + (3 * c.val + j.val) - 3) / 3 = c.val by omega),
      finOf (show (3 + (3 * c.val + j.val) - 3) % 3 = j.val by omega)]), Option.bind_some]
  rw [allFin_eq (g := (elMap3 e).H (cornerR3 K q)) (fun c => vecN_eq (by omega) fun k => by
    have hc := c.isLt
    have hk := k.isLt
    rw [P1 _ (by omega)]
    unfold PV
    have hk6 : Fin.ofNat 6 ((12 + (6 * c.val + k.val) - 12) % 6) = k := by apply Fin.ext; show (12 + (6 * c.val + k.val) - 12) % 6 % 6 = k.val; omega
    rw [show (30 * q + 12 + 6 * c.val + k.val) % 30 = 12 + (6 * c.val + k.val) by omega, show (30 * q + 12 + 6 * c.val + k.val) / 30 = q by omega, if_neg (by omega), if_neg (by omega), finOf (show (12 + (6 * c.val + k.val) - 12) / 6 = c.val by omega), hk6]), Option.bind_some]
  rw [mapM_some (g := g) ps (by
    intro p hp
    have := hg p hp
    rw [hr p hp] at this
    exact this)]
  rfl

section
variable [IsStrictOrderedRing K]

/-- a group of points with the same constraints -/
theorem group3_run {e : El3 K} (he : El3Ok e) {nptMax : Nat} (fuel : Nat) (hf : 21 ≤ fuel) (big tol : K) {st : ElSt3 K} (hm : Sides3 e nptMax st) (ps : List (Pt K 3)) (hn : ps.length ≤ nptMax) (hne : ps ≠ []) (r s t : Con)
    (hps : ∀ p ∈ ps, (Good3 (elMap3 e) big p ∧ Regular3 (elMap3 e) big p.x) ∧ p.flags &&& 0x7f = flags3 r s t) :
    ∃ st', group3 fuel big tol e (r.held + s.held + t.held) st ps = some (st', ps.map (step3 (elMap3 e) fuel big tol)) ∧ Sides3 e nptMax st' := by
  have hconv : ∀ p ∈ ps, p.flags.getLsbD 6 = false := by
    intro p hp
    have h1 : (p.flags &&& 0x7f).getLsbD 6 = false := by rw [(hps p hp).2]; cases r <;> cases s <;> cases t <;> decide
    rw [BitVec.getLsbD_and] at h1
    simpa [show (0x7f : U32).getLsbD 6 = true by decide] using h1
  have hstep : ∀ p ∈ ps, stepPt3 (elMap3 e) fuel big tol p = some (step3 (elMap3 e) fuel big tol p) := by
    intro p hp
    obtain ⟨⟨h1, h2⟩, h3⟩ := hps p hp
    obtain ⟨p', e', -⟩ := stepPt3_run (elMap3 e) fuel hf big tol (big_nonneg3 _ big p.x h2) h2.det p h2.big h1 (hconv p hp)
    unfold step3; rw [e']; rfl
  have href : ∀ p ∈ ps, ∀ v : Fin 3 → Con, v = ![r, s, t] → RefPt3 p.r v := by
    intro p hp v hv
    obtain ⟨⟨⟨c, C, hfl, hr, -⟩, -⟩, h3⟩ := hps p hp
    have : c 0 = r ∧ c 1 = s ∧ c 2 = t := by
      rw [hfl] at h3
      unfold lowFlags3 at h3
      revert h3
      generalize c 0 = a; generalize c 1 = b; generalize c 2 = c'
      cases C <;> cases a <;> cases b <;> cases c' <;> cases r <;> cases s <;> cases t <;> decide
    obtain rfl : c = v := by
      rw [hv]; funext d
      rcases fin3 d with rfl | rfl | rfl
      · exact this.1
      · exact this.2.1
      · exact this.2.2
    exact hr
  have hend1 : ∀ p ∈ ps, ∀ d : Fin 3, ∀ c : Con, (![r, s, t] : Fin 3 → Con) d = c → c ≠ .free → p.r d = sideEnd K c.side := by
    intro p hp d c hd hc
    obtain ⟨-, -, l0, h0⟩ := href p hp _ rfl d
    rw [hd] at l0 h0
    cases c with
    | free => exact absurd rfl hc
    | lo => exact l0 rfl
    | hi => exact h0 rfl
  have er : ∀ p ∈ ps, r ≠ .free → p.r 0 = sideEnd K r.side := fun p hp h => hend1 p hp 0 r rfl h
  have es : ∀ p ∈ ps, s ≠ .free → p.r 1 = sideEnd K s.side := fun p hp h => hend1 p hp 1 s rfl h
  have et : ∀ p ∈ ps, t ≠ .free → p.r 2 = sideEnd K t.side := fun p hp h => hend1 p hp 2 t rfl h
  obtain ⟨hnum0, -, -, -, -, fr, fs, ft, xr, xs, xt, hpt⟩ := el3_flags r s t
  have hnum : ∀ k : Nat, k < 4 → r.held + s.held + t.held = k → numConstrained3 (flags3 r s t) = BitVec.ofNat 32 k := by
    intro k hk h
    apply BitVec.eq_of_toNat_eq
    rw [hnum0, h, BitVec.toNat_ofNat, Nat.mod_eq_of_lt (by omega)]
  have hside : ∀ c : Con, c.side < 2 := by intro c; cases c <;> decide
  -- a group on a face
  have face : ∀ (dn : Fin 3) (c : Con), r.held + s.held + t.held = 1 → dim3 (faceIndex3 (flags3 r s t) >>> 1) = some dn → dim3 (plus1mod3 (faceIndex3 (flags3 r s t) >>> 1)) = some (dn + 1) →
      dim3 (plus2mod3 (faceIndex3 (flags3 r s t) >>> 1)) = some (dn + 2) → (faceIndex3 (flags3 r s t)).toNat = 2 * dn.val + c.side → (∀ p ∈ ps, p.r dn = sideEnd K c.side) →
      ∃ st', group3 fuel big tol e (r.held + s.held + t.held) st ps = some (st', ps.map (step3 (elMap3 e) fuel big tol)) ∧ Sides3 e nptMax st' := by
    intro dn c hh h1 h2 h3 h4 hr
    rw [hh]
    show ∃ st', findptFace fuel big tol e st ps = _ ∧ _
    refine findptFace_run he fuel big tol hm ps hn hne (flags3 r s t) (fun p hp => (hps p hp).2) (hside c) h1 h2 h3 h4 hr _ ?_
    intro p hp
    have h := hstep p hp
    unfold stepPt3 at h
    dsimp only at h
    rw [(hps p hp).2, hnum 1 (by omega) hh, if_neg (by decide), if_pos (by decide), h1, Option.bind_some, h2, Option.bind_some, h3, Option.bind_some] at h
    exact h
  have edge : ∀ (de : Fin 3) (c1 c2 : Con), r.held + s.held + t.held = 2 → dim3 (edgeIndex3 (flags3 r s t) >>> 2) = some de → dim3 (plus1mod3 (edgeIndex3 (flags3 r s t) >>> 2)) = some (de + 1) →
      dim3 (plus2mod3 (edgeIndex3 (flags3 r s t) >>> 2)) = some (de + 2) → (edgeIndex3 (flags3 r s t)).toNat = 4 * de.val + c1.side + 2 * c2.side → (∀ p ∈ ps, p.r (de + 1) = sideEnd K c1.side ∧ p.r (de + 2) = sideEnd K c2.side) →
      ∃ st', group3 fuel big tol e (r.held + s.held + t.held) st ps = some (st', ps.map (step3 (elMap3 e) fuel big tol)) ∧ Sides3 e nptMax st' := by
    intro de c1 c2 hh h1 h2 h3 h4 hr
    rw [hh]
    show ∃ st', findptEdge3 fuel big tol e st ps = _ ∧ _
    refine findptEdge3_run he fuel big tol hm ps hne (flags3 r s t) (fun p hp => (hps p hp).2) (hside c1) (hside c2) h1 h2 h3 h4 hr _ ?_
    intro p hp
    have h := hstep p hp
    unfold stepPt3 at h
    dsimp only at h
    rw [(hps p hp).2, hnum 2 (by omega) hh, if_neg (by decide), if_neg (by decide), if_pos (by decide), h1, Option.bind_some, h2, Option.bind_some, h3, Option.bind_some] at h
    exact h
  have s0 := hside r
  have s1 := hside s
  have s2 := hside t
  by_cases hr : r = .free
  · by_cases hs : s = .free
    · by_cases ht : t = .free
      · subst hr hs ht
        show ∃ st', findptVol fuel big tol e st ps = _ ∧ _
        obtain ⟨w, ew, hl⟩ := findptVol_run he fuel big tol hm.mem ps hn (step3 (elMap3 e) fuel big tol) (by
          intro p hp
          have h := hstep p hp
          unfold stepPt3 at h
          rw [(hps p hp).2, if_pos (by decide)] at h
          exact h)
        have k2 : Keeps e st { st with work := w } := ⟨fun _ h => h, fun h => h, fun _ h => h, fun _ h => h⟩
        exact ⟨_, ew, ⟨hm.mem.sides, hl.trans hm.mem.work, hm.mem.pt⟩, fun d h => (hm.face d h).keep k2, fun d h => (hm.edge d h).keep k2, fun h => (hm.pt h).keep k2⟩
      · refine face 2 t ?_ ?_ ?_ ?_ (ft hr hs ht) (fun p hp => et p hp ht) <;> subst hr hs <;> cases t <;> first | exact absurd rfl ht | decide
    · by_cases ht : t = .free
      · refine face 1 s ?_ ?_ ?_ ?_ (fs hr hs ht) (fun p hp => es p hp hs) <;> subst hr ht <;> cases s <;> first | exact absurd rfl hs | decide
      · refine edge 0 s t ?_ ?_ ?_ ?_ (xr hr hs ht) (fun p hp => ⟨es p hp hs, et p hp ht⟩) <;> subst hr <;> cases s <;> cases t <;> first | exact absurd rfl hs | exact absurd rfl ht | decide
  · by_cases hs : s = .free
    · by_cases ht : t = .free
      · refine face 0 r ?_ ?_ ?_ ?_ (fr hr hs ht) (fun p hp => er p hp hr) <;> subst hs ht <;> cases r <;> first | exact absurd rfl hr | decide
      · refine edge 1 t r ?_ ?_ ?_ ?_ (xs hr hs ht) (fun p hp => ⟨et p hp ht, er p hp hr⟩) <;> subst hs <;> cases r <;> cases t <;> first | exact absurd rfl hr | exact absurd rfl ht | decide
    · by_cases ht : t = .free
      · refine edge 2 r s ?_ ?_ ?_ ?_ (xt hr hs ht) (fun p hp => ⟨er p hp hr, es p hp hs⟩) <;> subst ht <;> cases r <;> cases s <;> first | exact absurd rfl hr | exact absurd rfl hs | decide
      · have hh : r.held + s.held + t.held = 3 := by cases r <;> cases s <;> cases t <;> first | exact absurd rfl hr | exact absurd rfl hs | exact absurd rfl ht | rfl
        rw [hh]
        show ∃ st', findptPt3 fuel big tol e st ps = _ ∧ _
        refine findptPt3_run he fuel big tol hm ps hne (flags3 r s t) (fun p hp => (hps p hp).2) (q := r.side + 2 * s.side + 4 * t.side) (by omega) (hpt hr hs ht) ?_ _ (by
          intro p hp
          have h := hstep p hp
          unfold stepPt3 at h
          dsimp only at h
          rw [(hps p hp).2, hnum 3 (by omega) hh, if_neg (by decide), if_neg (by decide), if_neg (by decide)] at h
          exact h)
        intro p hp
        funext d
        rcases fin3 d with rfl | rfl | rfl
        · show p.r 0 = sideEnd K ((r.side + 2 * s.side + 4 * t.side) % 2)
          rw [er p hp hr]; congr 1; omega
        · show p.r 1 = sideEnd K ((r.side + 2 * s.side + 4 * t.side) / 2 % 2)
          rw [es p hp hs]; congr 1; omega
        · show p.r 2 = sideEnd K ((r.side + 2 * s.side + 4 * t.side) / 4)
          rw [et p hp ht]; congr 1; omega

end

end Gslib.El
