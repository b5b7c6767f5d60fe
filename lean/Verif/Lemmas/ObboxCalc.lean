import Verif.Lemmas.ObboxPoly
import Verif.Props.LobBnd
import Verif.Props.Tensor

/-!
# `obbox_calc` in terms of polynomials
-/

namespace Gslib.Obb
open Gslib.Num Gslib.Poly Gslib.Lob Gslib.Spec Finset Polynomial
variable {K : Type} [Field K] [LinearOrder K] [IsStrictOrderedRing K]

/-- `b` encloses the polynomial on [-1,1] -/
def P1 (n : Nat) (z : Nat → K) (u : Nat → K) (b : K × K) : Prop := ∀ x, -1 ≤ x → x ≤ 1 → b.1 ≤ poly1 n z u x ∧ poly1 n z u x ≤ b.2

/-- `b` encloses the polynomial on [-1,1]^2 -/
def P2 (nr : Nat) (zr : Nat → K) (ns : Nat) (zs : Nat → K) (u : Nat → K) (b : K × K) : Prop :=
  ∀ r s, -1 ≤ r → r ≤ 1 → -1 ≤ s → s ≤ 1 → b.1 ≤ poly2 nr zr ns zs u r s ∧ poly2 nr zr ns zs u r s ≤ b.2

omit [IsStrictOrderedRing K] in
theorem P1.mono {n : Nat} {z : Nat → K} (u : Nat → K) (a b : K × K) (h : Sub a b) (h' : P1 n z u a) : P1 n z u b :=
  fun x h1 h2 => ⟨h.1.trans (h' x h1 h2).1, (h' x h1 h2).2.trans h.2⟩

omit [IsStrictOrderedRing K] in
theorem P2.mono {nr : Nat} {zr : Nat → K} {ns : Nat} {zs : Nat → K} (u : Nat → K) (a b : K × K) (h : Sub a b) (h' : P2 nr zr ns zs u a) : P2 nr zr ns zs u b :=
  fun r s h1 h2 h3 h4 => ⟨h.1.trans (h' r s h1 h2 h3 h4).1, (h' r s h1 h2 h3 h4).2.trans h.2⟩

/-- what is known of one direction: nodes from -1 to 1, the table, the values at 0 -/
structure DirOk (n m : Nat) (I0 D : Mem K) (z : Nat → K) : Prop where
  two : 2 ≤ n
  inj : ∀ i < n, ∀ j < n, z i = z j → i = j
  first : z 0 = -1
  last : z (n - 1) = 1
  data : ∃ Q h lb, Data n m D z Q h lb ∧ ValidTable n m z h lb
  val : Has I0 0 n fun i => basisAt n z i 0
  der : Has I0 n n fun i => (derivative (Lagrange.basis (range n) z i)).eval 0

theorem bound1_ok {n m : Nat} {I0 D : Mem K} {z : Nat → K} (h : DirOk n m I0 D z) (wcap : Nat) : BndOk (bound1 n m D wcap) wcap n (2 * m) (P1 n z) := by
  intro s u wo w hs hw
  obtain ⟨Q, hh, lb, hD, hv⟩ := h.data
  obtain ⟨r, w', e, ho, hb⟩ := Props.lob_bnd_1_contains h.two hD h.inj hv hs.has hs.cap hw w
  refine ⟨r, w', ?_, hb, ho⟩
  rw [bound1, if_neg ?_, e]
  rintro ⟨h1, h2⟩
  exact h2 (hs.apart (Option.isNone_iff_eq_none.1 h1))

theorem bound2_ok {nr mr : Nat} {I0r Dr : Mem K} {zr : Nat → K} (hr : DirOk nr mr I0r Dr zr) {ns ms : Nat} {I0s Ds : Mem K} {zs : Nat → K} (hs : DirOk ns ms I0s Ds zs) (wcap : Nat) :
    BndOk (bound2 nr mr Dr ns ms Ds wcap) wcap (ns * nr) (2 * mr * (ms + 1 + ns)) (P2 nr zr ns zs) := by
  intro s u wo w h hw
  obtain ⟨Q, hh, lb, hD, hv⟩ := hr.data
  obtain ⟨Q', hh', lb', hD', hv'⟩ := hs.data
  obtain ⟨r, w', e, ho, hb⟩ := Props.lob_bnd_2_contains hr.two hD hr.inj hv hs.two hD' hs.inj hv' h.has h.cap hw w
  refine ⟨r, w', ?_, hb, ho⟩
  rw [bound2, if_neg ?_, e]
  rintro ⟨h1, h2⟩
  exact h2 (h.apart (Option.isNone_iff_eq_none.1 h1))

omit [LinearOrder K] [IsStrictOrderedRing K] in
theorem readAt_run {cap : Nat} {m : Mem K} {off k : Nat} {F : Nat → K} (h : Has m off k F) (hc : off + k ≤ cap) : readAt cap m off k = some ((List.range k).map F) := by
  unfold readAt
  refine readRow_run (n := k) (fun i hi => ?_) (by omega) k (Nat.le_refl _)
  rw [Nat.zero_add]; exact h i hi

omit [LinearOrder K] [IsStrictOrderedRing K] in
theorem ent_map {k : Nat} (F : Nat → K) {i : Nat} (hi : i < k) : ent ((List.range k).map F) i = F i := by
  unfold ent
  rw [List.getD_eq_getElem?_getD, List.getElem?_map, List.getElem?_range hi]
  rfl

/-- the values at 0 and the derivatives at 0 of the basis polynomials -/
noncomputable def zeroVals (n : Nat) (z : Nat → K) (i : Nat) : K := if i < n then basisAt n z i 0 else (derivative (Lagrange.basis (range n) z (i - n))).eval 0

theorem DirOk.has {n m : Nat} {I0 D : Mem K} {z : Nat → K} (h : DirOk n m I0 D z) : Has I0 0 (2 * n) (zeroVals n z) := by
  intro i hi
  unfold zeroVals
  split_ifs with h1
  · exact h.val i h1
  · have := h.der (i - n) (by omega)
    rw [show n + (i - n) = 0 + i by omega] at this
    exact this

/-- the sum over tensor-product nodes with factors `B`, `C` -/
def bil (nr : Nat) (B : Nat → K) (ns : Nat) (C : Nat → K) (u : Nat → K) : K := ∑ j ∈ range ns, (∑ i ∈ range nr, u (i + nr * j) * B i) * C j

/-- the sum over tensor-product nodes with factors `B`, `C`, `E` -/
def tril (nr : Nat) (B : Nat → K) (ns : Nat) (C : Nat → K) (nt : Nat) (E : Nat → K) (u : Nat → K) : K :=
  ∑ k ∈ range nt, (∑ j ∈ range ns, (∑ i ∈ range nr, u (i + nr * (j + ns * k)) * B i) * C j) * E k

/-- derivatives of the basis polynomials -/
noncomputable def dbasis (n : Nat) (z : Nat → K) (x : K) (i : Nat) : K := (derivative (Lagrange.basis (range n) z i)).eval x

omit [LinearOrder K] [IsStrictOrderedRing K] in
theorem interp2_bil {nr ns : Nat} {B B' C C' U : Nat → K} (hB : ∀ i < nr, B' i = B i) (hC : ∀ j < ns, C' j = C j) :
    interp2 B' nr C' ns ((List.range (nr * ns)).map U) = bil nr B ns C U := by
  unfold interp2 bil
  rw [sum_comm]
  refine sum_congr rfl fun j hj => ?_
  rw [sum_mul]
  refine sum_congr rfl fun i hi => ?_
  rw [ent_map U (Props.idx_lt (mem_range.1 hi) (mem_range.1 hj)), hB i (mem_range.1 hi), hC j (mem_range.1 hj)]
  ring

omit [LinearOrder K] [IsStrictOrderedRing K] in
theorem interp3_tril {nr ns nt : Nat} {B B' C C' E E' U : Nat → K} (hB : ∀ i < nr, B' i = B i) (hC : ∀ j < ns, C' j = C j) (hE : ∀ k < nt, E' k = E k) :
    interp3 B' nr C' ns E' nt ((List.range (nr * ns * nt)).map U) = tril nr B ns C nt E U := by
  unfold interp3 tril
  have e1 : ∀ i ∈ range nr, ∑ j ∈ range ns, ∑ k ∈ range nt, B' i * C' j * E' k * ent ((List.range (nr * ns * nt)).map U) (i + nr * (j + ns * k)) =
      ∑ k ∈ range nt, ∑ j ∈ range ns, U (i + nr * (j + ns * k)) * B i * C j * E k := by
    intro i hi
    rw [sum_comm]
    refine sum_congr rfl fun k hk => ?_
    refine sum_congr rfl fun j hj => ?_
    rw [ent_map U ?_, hB i (mem_range.1 hi), hC j (mem_range.1 hj), hE k (mem_range.1 hk)]
    · ring
    · have := Props.idx_lt (mem_range.1 hi) (Props.idx_lt (mem_range.1 hj) (mem_range.1 hk))
      rw [Nat.mul_assoc]; exact this
  rw [sum_congr rfl e1, sum_comm]
  refine sum_congr rfl fun k _ => ?_
  rw [sum_comm, sum_mul]
  refine sum_congr rfl fun j _ => ?_
  rw [sum_mul, sum_mul]

omit [IsStrictOrderedRing K] in
theorem zeroVals_lo (n : Nat) (z : Nat → K) : ∀ i < n, ent ((List.range (2 * n)).map (zeroVals n z)) i = basisAt n z i 0 := fun i hi => by
  rw [ent_map _ (by omega), zeroVals, if_pos hi]

omit [IsStrictOrderedRing K] in
theorem zeroVals_hi (n : Nat) (z : Nat → K) : ∀ i < n, ent ((List.range (2 * n)).map (zeroVals n z)) (n + i) = dbasis n z 0 i := fun i hi => by
  rw [ent_map _ (by omega), zeroVals, if_neg (by omega), show n + i - n = i by omega]; rfl

/-- `b` encloses the polynomial on the boundary of the square -/
def Bd2 (nr : Nat) (zr : Nat → K) (ns : Nat) (zs : Nat → K) (V : Nat → K) (b : K × K) : Prop :=
  ∀ r s, -1 ≤ r → r ≤ 1 → -1 ≤ s → s ≤ 1 → (r = -1 ∨ r = 1 ∨ s = -1 ∨ s = 1) → b.1 ≤ poly2 nr zr ns zs V r s ∧ poly2 nr zr ns zs V r s ≤ b.2

section two
variable {nr mr : Nat} {I0r Dr : Mem K} {zr : Nat → K} (hr : DirOk nr mr I0r Dr zr) {ns ms : Nat} {I0s Ds : Mem K} {zs : Nat → K} (hs : DirOk ns ms I0s Ds zs)
include hr hs

theorem edges2_bd {V : Nat → K} {b : K × K} (h1 : P1 nr zr (fun i => V (nr * 0 + i)) b) (h2 : P1 nr zr (fun i => V (nr * (ns - 1) + i)) b)
    (h3 : P1 ns zs (fun j => V (0 + nr * j)) b) (h4 : P1 ns zs (fun j => V (nr - 1 + nr * j)) b) : Bd2 nr zr ns zs V b := by
  intro r s a1 a2 a3 a4 h
  have n1 := hr.two
  have n2 := hs.two
  rcases h with h | h | h | h
  · rw [h, ← hr.first, poly2_col hr.inj V (by omega)]; exact h3 s a3 a4
  · rw [h, ← hr.last, poly2_col hr.inj V (by omega)]; exact h4 s a3 a4
  · rw [h, ← hs.first, poly2_row hs.inj V (by omega)]; exact h1 r a1 a2
  · rw [h, ← hs.last, poly2_row hs.inj V (by omega)]; exact h2 r a1 a2

/-- Jacobian at the centre -/
noncomputable def J2 (nr : Nat) (zr : Nat → K) (ns : Nat) (zs : Nat → K) (U : Nat → Nat → K) (r s : K) : Fin 4 → K :=
  ![bil nr (dbasis nr zr r) ns (fun j => basisAt ns zs j s) (U 0), bil nr (fun i => basisAt nr zr i r) ns (dbasis ns zs s) (U 0),
    bil nr (dbasis nr zr r) ns (fun j => basisAt ns zs j s) (U 1), bil nr (fun i => basisAt nr zr i r) ns (dbasis ns zs s) (U 1)]

theorem patches2 {ucap xo : Nat} {el : Nat → Mem K} {U : Nat → Nat → K} (hel : ∀ c < 2, Has (el c) xo (nr * ns) (U c)) (hc : xo + nr * ns ≤ ucap) (x0 : Nat → K) (Ji : Nat → Nat → K)
    {wcap : Nat} (hw : wcap = wsize2 nr mr ns ms) :
    ∃ st : St K, ((doPatch 2 nr (bound1 nr mr Dr wcap) wcap false x0 Ji (fun c => ⟨some (el c, ucap), xo⟩) 0 ⟨fun _ => none, fun _ => none, fun _ => none⟩).bind fun s =>
      (doPatch 2 nr (bound1 nr mr Dr wcap) wcap true x0 Ji (fun c => ⟨some (el c, ucap), xo + (nr * ns - nr)⟩) 0 s).bind fun s =>
      (getPatch 2 ns (bound1 ns ms Ds wcap) wcap x0 Ji ucap el (xo + 0) 1 nr ns s).bind fun s =>
      getPatch 2 ns (bound1 ns ms Ds wcap) wcap x0 Ji ucap el (xo + (nr - 1)) 1 nr ns s) = some st ∧
      ∀ c < 2, (∃ b, st.ab c = some b ∧ Bd2 nr zr ns zs (U c) b) ∧ ∃ b, st.tb c = some b ∧ Bd2 nr zr ns zs (tVal 2 x0 Ji U c) b := by
  have n1 := hr.two
  have n2 := hs.two
  have hw1 : 4 * ns + 2 * ms ≤ wcap := by rw [hw]; unfold wsize2; omega
  have hw2 : 2 * nr + 2 * mr ≤ wcap := by rw [hw]; unfold wsize2; omega
  have hrow : ∀ j < ns, nr * j + nr ≤ nr * ns := fun j hj => by
    have := Nat.mul_le_mul_left nr (show j + 1 ≤ ns by omega)
    rwa [Nat.mul_succ] at this
  have hsrc : ∀ (w : Mem K) (len : Nat), ∀ j < ns, ∀ c < 2, (⟨some (el c, ucap), xo + nr * j⟩ : Src K).Ok wcap w nr (fun i => U c (nr * j + i)) 0 len := by
    intro w len j hj c hc2
    have := hrow j hj
    refine ⟨fun i hi => ?_, show xo + nr * j + nr ≤ ucap by omega, fun h => absurd h (by simp)⟩
    show el c (xo + nr * j + i) = _
    rw [Nat.add_assoc]
    exact hel c hc2 _ (by omega)
  have hlast : nr * ns - nr = nr * (ns - 1) := by rw [Nat.mul_sub_one]
  have hcol : ∀ i0 < nr, ∀ c < 2, ∀ k < ns, ∀ i < 1, xo + i0 + k * (nr * 1) + i < ucap ∧ el c (xo + i0 + k * (nr * 1) + i) = some (U c (i0 + nr * (k * 1 + i))) := by
    intro i0 hi0 c hc2 k hk i hi
    have h1 := hrow k hk
    have : i = 0 := by omega
    subst this
    rw [Nat.mul_one, Nat.mul_one, Nat.add_zero, Nat.add_zero, Nat.mul_comm k nr, show xo + i0 + nr * k = xo + (i0 + nr * k) by omega]
    exact ⟨by omega, hel c hc2 _ (by omega)⟩
  obtain ⟨s1, e1, -, a1, t1⟩ := doPatch_run (d := 2) P1.mono (bound1_ok hr wcap) (wo := 0) (by omega) (x0 := x0) (Ji := Ji) (m := false) (src := fun c => ⟨some (el c, ucap), xo⟩)
    (U := fun c i => U c (nr * 0 + i)) ⟨fun _ => none, fun _ => none, fun _ => none⟩ (fun c hc2 => hsrc _ _ 0 (by omega) c hc2) (fun h => absurd h (by simp))
  obtain ⟨s2, e2, -, a2, t2⟩ := doPatch_run (d := 2) P1.mono (bound1_ok hr wcap) (wo := 0) (by omega) (x0 := x0) (Ji := Ji) (m := true) (src := fun c => ⟨some (el c, ucap), xo + (nr * ns - nr)⟩)
    (U := fun c i => U c (nr * (ns - 1) + i)) s1 (fun c hc2 => by rw [hlast]; exact hsrc _ _ (ns - 1) (by omega) c hc2)
    (fun _ c hc2 => ⟨by obtain ⟨b, hb, -⟩ := a1 c hc2; rw [hb]; simp, by obtain ⟨b, hb, -⟩ := t1 c hc2; rw [hb]; simp⟩)
  have hb : BndOk (bound1 ns ms Ds wcap) wcap (ns * 1) (2 * ms) (P1 ns zs) := by rw [Nat.mul_one]; exact bound1_ok hs wcap
  obtain ⟨s3, e3, a3, t3⟩ := getPatch_run (d := 2) (g := 1) (s := nr) (n := ns) (ucap := ucap) (io := xo + 0) P1.mono hb (by omega) (x0 := x0) (Ji := Ji) (el := el)
    (U := fun c j => U c (0 + nr * j)) s2 (fun c hc2 k hk i hi => hcol 0 (by omega) c hc2 k hk i hi)
    (fun c hc2 => ⟨by obtain ⟨b, hb, -⟩ := a2 c hc2; rw [hb]; simp, by obtain ⟨b, hb, -⟩ := t2 c hc2; rw [hb]; simp⟩)
  obtain ⟨s4, e4, a4, t4⟩ := getPatch_run (d := 2) (g := 1) (s := nr) (n := ns) (ucap := ucap) (io := xo + (nr - 1)) P1.mono hb (by omega) (x0 := x0) (Ji := Ji) (el := el)
    (U := fun c j => U c (nr - 1 + nr * j)) s3 (fun c hc2 k hk i hi => hcol (nr - 1) (by omega) c hc2 k hk i hi)
    (fun c hc2 => ⟨by obtain ⟨b, hb, -⟩ := a3 c hc2; rw [hb]; simp, by obtain ⟨b, hb, -⟩ := t3 c hc2; rw [hb]; simp⟩)
  rw [Nat.mul_one] at e3 e4
  refine ⟨s4, by rw [e1, Option.bind_some, e2, Option.bind_some, e3, Option.bind_some, e4], fun c hc2 => ⟨?_, ?_⟩⟩
  · obtain ⟨b1, h1, p1, -⟩ := a1 c hc2
    obtain ⟨b2, h2, p2, m2⟩ := a2 c hc2
    obtain ⟨b3, h3, p3, m3⟩ := a3 c hc2
    obtain ⟨b4, h4, p4, m4⟩ := a4 c hc2
    have m2 := m2 rfl b1 h1
    have m3 := m3 b2 h2
    have m4 := m4 b3 h3
    exact ⟨b4, h4, edges2_bd hr hs (P1.mono _ _ _ (m2.trans (m3.trans m4)) p1) (P1.mono _ _ _ (m3.trans m4) p2) (P1.mono _ _ _ m4 p3) p4⟩
  · obtain ⟨b1, h1, p1, -⟩ := t1 c hc2
    obtain ⟨b2, h2, p2, m2⟩ := t2 c hc2
    obtain ⟨b3, h3, p3, m3⟩ := t3 c hc2
    obtain ⟨b4, h4, p4, m4⟩ := t4 c hc2
    have m2 := m2 rfl b1 h1
    have m3 := m3 b2 h2
    have m4 := m4 b3 h3
    exact ⟨b4, h4, edges2_bd hr hs (P1.mono _ _ _ (m2.trans (m3.trans m4)) p1) (P1.mono _ _ _ (m3.trans m4) p2) (P1.mono _ _ _ m4 p3) p4⟩

theorem calcEl2_run {tol : K} {ucap xo : Nat} {el : Nat → Mem K} {U : Nat → Nat → K} (hel : ∀ c < 2, Has (el c) xo (nr * ns) (U c)) (hc : xo + nr * ns ≤ ucap) :
    ∃ ab tb : Nat → K × K,
      let x0 := fun c => if c = 0 then poly2 nr zr ns zs (U 0) 0 0 else poly2 nr zr ns zs (U 1) 0 0
      let J := J2 nr zr ns zs U 0 0
      let Ji := at2 (Lin.matInv2 J)
      calcEl2 nr mr I0r Dr ns ms I0s Ds tol ucap el xo =
        (if J 0 * J 3 - J 1 * J 2 = 0 then none else if (1 + tol) * ((tb 0).2 - (tb 0).1) = 0 ∨ (1 + tol) * ((tb 1).2 - (tb 1).1) = 0 then none else
          some (mkBox 2 x0 (at2 J) Ji ab tb tol)) ∧
      (∀ c < 2, Bd2 nr zr ns zs (U c) (ab c)) ∧ ∀ c < 2, Bd2 nr zr ns zs (tVal 2 x0 Ji U c) (tb c) := by
  have hw : 2 * nr ≤ wsize2 nr mr ns ms := by unfold wsize2; omega
  have er := readAt_run (cap := 2 * nr) hr.has (by omega)
  have es := readAt_run (cap := 2 * ns) hs.has (by omega)
  have ex := readAt_run (cap := ucap) (hel 0 (by omega)) hc
  have ey := readAt_run (cap := ucap) (hel 1 (by omega)) hc
  have ig : ∀ c, Tensor.ig2 ((List.range (2 * nr)).map (zeroVals nr zr)) nr ((List.range (2 * ns)).map (zeroVals ns zs)) ns ((List.range (nr * ns)).map (U c))
      (List.replicate (wsize2 nr mr ns ms) 0) = some (poly2 nr zr ns zs (U c) 0 0,
        [bil nr (dbasis nr zr 0) ns (fun j => basisAt ns zs j 0) (U c), bil nr (fun i => basisAt nr zr i 0) ns (dbasis ns zs 0) (U c)]) := by
    intro c
    rw [Props.tensor_ig2_eq _ _ _ _ _ _ (by simp) (by simp) (by simp) (by simpa using hw), interp2_bil (zeroVals_lo nr zr) (zeroVals_lo ns zs),
      interp2_bil (zeroVals_hi nr zr) (zeroVals_lo ns zs), interp2_bil (zeroVals_lo nr zr) (zeroVals_hi ns zs)]
    rfl
  obtain ⟨st, e, h⟩ := patches2 hr hs hel hc (fun c => if c = 0 then poly2 nr zr ns zs (U 0) 0 0 else poly2 nr zr ns zs (U 1) 0 0)
    (at2 (Lin.matInv2 (J2 nr zr ns zs U 0 0))) rfl
  obtain ⟨⟨a0, ha0, ga0⟩, ⟨b0, hb0, gb0⟩⟩ := h 0 (by omega)
  obtain ⟨⟨a1, ha1, ga1⟩, ⟨b1, hb1, gb1⟩⟩ := h 1 (by omega)
  refine ⟨fun c => if c = 0 then a0 else a1, fun c => if c = 0 then b0 else b1, ?_, fun c hc2 => ?_, fun c hc2 => ?_⟩
  · rw [calcEl2, er, Option.bind_some, es, Option.bind_some, ex, Option.bind_some, ey, Option.bind_some, ig 0, Option.bind_some, ig 1, Option.bind_some]
    show (if (J2 nr zr ns zs U 0 0) 0 * (J2 nr zr ns zs U 0 0) 3 - (J2 nr zr ns zs U 0 0) 1 * (J2 nr zr ns zs U 0 0) 2 = 0 then none else edges2 nr mr Dr ns ms Ds tol _ ucap el xo _ (at2 (J2 nr zr ns zs U 0 0)) _) = _
    congr 1
    rw [edges2]
    refine Eq.trans (congrArg (fun o => Option.bind o _) e) ?_
    rw [Option.bind_some, ha0, Option.bind_some, ha1, Option.bind_some, hb0, Option.bind_some, hb1, Option.bind_some]
    rfl
  · have : c = 0 ∨ c = 1 := by omega
    rcases this with rfl | rfl
    · exact ga0
    · exact ga1
  · have : c = 0 ∨ c = 1 := by omega
    rcases this with rfl | rfl
    · exact gb0
    · exact gb1
end two

end Gslib.Obb
