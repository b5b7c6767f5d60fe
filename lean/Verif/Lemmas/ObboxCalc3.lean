import Verif.Lemmas.ObboxCalc

/-!
# `obbox_calc_3` in terms of polynomials
-/

namespace Gslib.Obb
open Gslib.Num Gslib.Poly Gslib.Lob Gslib.Spec Finset Polynomial
variable {K : Type} [Field K] [LinearOrder K] [IsStrictOrderedRing K]

/-- `b` encloses the polynomial on the boundary of the cube -/
def Bd3 (nr : Nat) (zr : Nat → K) (ns : Nat) (zs : Nat → K) (nt : Nat) (zt : Nat → K) (V : Nat → K) (b : K × K) : Prop :=
  ∀ r s t, -1 ≤ r → r ≤ 1 → -1 ≤ s → s ≤ 1 → -1 ≤ t → t ≤ 1 → (r = -1 ∨ r = 1 ∨ s = -1 ∨ s = 1 ∨ t = -1 ∨ t = 1) →
    b.1 ≤ poly3 nr zr ns zs nt zt V r s t ∧ poly3 nr zr ns zs nt zt V r s t ≤ b.2

section three
variable {nr mr : Nat} {I0r Dr : Mem K} {zr : Nat → K} (hr : DirOk nr mr I0r Dr zr) {ns ms : Nat} {I0s Ds : Mem K} {zs : Nat → K} (hs : DirOk ns ms I0s Ds zs)
  {nt mt : Nat} {I0t Dt : Mem K} {zt : Nat → K} (ht : DirOk nt mt I0t Dt zt)
include hr hs ht

theorem faces3_bd {V : Nat → K} {b : K × K} (h1 : P2 nr zr ns zs (fun i => V (nr * ns * 0 + i)) b) (h2 : P2 nr zr ns zs (fun i => V (nr * ns * (nt - 1) + i)) b)
    (h3 : P2 nr zr nt zt (fun q => V (q / nr * (ns * nr) + q % nr + nr * 0)) b) (h4 : P2 nr zr nt zt (fun q => V (q / nr * (ns * nr) + q % nr + nr * (ns - 1))) b)
    (h5 : P2 ns zs nt zt (fun q => V (0 + nr * q)) b) (h6 : P2 ns zs nt zt (fun q => V (nr - 1 + nr * q)) b) : Bd3 nr zr ns zs nt zt V b := by
  intro r s t a1 a2 a3 a4 a5 a6 h
  have n1 := hr.two
  have n2 := hs.two
  have n3 := ht.two
  rcases h with h | h | h | h | h | h
  · rw [h, ← hr.first, poly3_st hr.inj V (by omega)]; exact h5 s t a3 a4 a5 a6
  · rw [h, ← hr.last, poly3_st hr.inj V (by omega)]; exact h6 s t a3 a4 a5 a6
  · rw [h, ← hs.first, poly3_rt hs.inj V (by omega)]; exact h3 r t a1 a2 a5 a6
  · rw [h, ← hs.last, poly3_rt hs.inj V (by omega)]; exact h4 r t a1 a2 a5 a6
  · rw [h, ← ht.first, poly3_rs ht.inj V (by omega)]; exact h1 r s a1 a2 a3 a4
  · rw [h, ← ht.last, poly3_rs ht.inj V (by omega)]; exact h2 r s a1 a2 a3 a4

/-- Jacobian at a point -/
noncomputable def J3 (nr : Nat) (zr : Nat → K) (ns : Nat) (zs : Nat → K) (nt : Nat) (zt : Nat → K) (U : Nat → Nat → K) (r s t : K) : Fin 9 → K :=
  ![tril nr (dbasis nr zr r) ns (fun j => basisAt ns zs j s) nt (fun k => basisAt nt zt k t) (U 0), tril nr (fun i => basisAt nr zr i r) ns (dbasis ns zs s) nt (fun k => basisAt nt zt k t) (U 0),
    tril nr (fun i => basisAt nr zr i r) ns (fun j => basisAt ns zs j s) nt (dbasis nt zt t) (U 0),
    tril nr (dbasis nr zr r) ns (fun j => basisAt ns zs j s) nt (fun k => basisAt nt zt k t) (U 1), tril nr (fun i => basisAt nr zr i r) ns (dbasis ns zs s) nt (fun k => basisAt nt zt k t) (U 1),
    tril nr (fun i => basisAt nr zr i r) ns (fun j => basisAt ns zs j s) nt (dbasis nt zt t) (U 1),
    tril nr (dbasis nr zr r) ns (fun j => basisAt ns zs j s) nt (fun k => basisAt nt zt k t) (U 2), tril nr (fun i => basisAt nr zr i r) ns (dbasis ns zs s) nt (fun k => basisAt nt zt k t) (U 2),
    tril nr (fun i => basisAt nr zr i r) ns (fun j => basisAt ns zs j s) nt (dbasis nt zt t) (U 2)]

theorem patches3 {ucap xo : Nat} {el : Nat → Mem K} {U : Nat → Nat → K} (hel : ∀ c < 3, Has (el c) xo (nr * ns * nt) (U c)) (hc : xo + nr * ns * nt ≤ ucap) (x0 : Nat → K) (Ji : Nat → Nat → K)
    {wcap : Nat} (hw : wcap = wsize3 nr mr ns ms nt mt) :
    ∃ st : St K, ((doPatch 3 (nr * ns) (bound2 nr mr Dr ns ms Ds wcap) wcap false x0 Ji (fun c => ⟨some (el c, ucap), xo⟩) 0 ⟨fun _ => none, fun _ => none, fun _ => none⟩).bind fun s =>
      (doPatch 3 (nr * ns) (bound2 nr mr Dr ns ms Ds wcap) wcap true x0 Ji (fun c => ⟨some (el c, ucap), xo + (nr * ns * nt - nr * ns)⟩) 0 s).bind fun s =>
      (getPatch 3 (nr * nt) (bound2 nr mr Dr nt mt Dt wcap) wcap x0 Ji ucap el (xo + 0) nr ns nt s).bind fun s =>
      (getPatch 3 (nr * nt) (bound2 nr mr Dr nt mt Dt wcap) wcap x0 Ji ucap el (xo + (nr * ns - nr)) nr ns nt s).bind fun s =>
      (getPatch 3 (ns * nt) (bound2 ns ms Ds nt mt Dt wcap) wcap x0 Ji ucap el (xo + 0) 1 nr (ns * nt) s).bind fun s =>
      getPatch 3 (ns * nt) (bound2 ns ms Ds nt mt Dt wcap) wcap x0 Ji ucap el (xo + (nr - 1)) 1 nr (ns * nt) s) = some st ∧
      ∀ c < 3, (∃ b, st.ab c = some b ∧ Bd3 nr zr ns zs nt zt (U c) b) ∧ ∃ b, st.tb c = some b ∧ Bd3 nr zr ns zs nt zt (tVal 3 x0 Ji U c) b := by
  have n1 := hr.two
  have n2 := hs.two
  have n3 := ht.two
  have hw1 : 3 * (nr * ns) + 2 * mr * (ms + 1 + ns) ≤ wcap := by
    have : 3 * nr * ns + 2 * mr * (ns + ms + 1) ≤ wcap := by rw [hw]; unfold wsize3; omega
    calc _ = 3 * nr * ns + 2 * mr * (ns + ms + 1) := by ring
      _ ≤ _ := this
  have hw2 : 2 * (3 * (nt * nr)) + 2 * mr * (mt + 1 + nt) ≤ wcap := by
    have : 6 * nr * nt + 2 * mr * (nt + mt + 1) ≤ wcap := by rw [hw]; unfold wsize3; omega
    calc _ = 6 * nr * nt + 2 * mr * (nt + mt + 1) := by ring
      _ ≤ _ := this
  have hw3 : 2 * (3 * (ns * nt * 1)) + 2 * ms * (mt + 1 + nt) ≤ wcap := by
    have : 6 * ns * nt + 2 * ms * (nt + mt + 1) ≤ wcap := by rw [hw]; unfold wsize3; omega
    calc _ = 6 * ns * nt + 2 * ms * (nt + mt + 1) := by ring
      _ ≤ _ := this
  have hsl : ∀ k < nt, nr * ns * k + nr * ns ≤ nr * ns * nt := fun k hk => by
    have := Nat.mul_le_mul_left (nr * ns) (show k + 1 ≤ nt by omega)
    rwa [Nat.mul_succ] at this
  have hrow : ∀ j < ns, nr * j + nr ≤ nr * ns := fun j hj => by
    have := Nat.mul_le_mul_left nr (show j + 1 ≤ ns by omega)
    rwa [Nat.mul_succ] at this
  have hsrc : ∀ (w : Mem K) (len : Nat), ∀ k < nt, ∀ c < 3, (⟨some (el c, ucap), xo + nr * ns * k⟩ : Src K).Ok wcap w (nr * ns) (fun i => U c (nr * ns * k + i)) 0 len := by
    intro w len k hk c hc2
    have := hsl k hk
    refine ⟨fun i hi => ?_, show xo + nr * ns * k + nr * ns ≤ ucap by omega, fun h => absurd h (by simp)⟩
    show el c (xo + nr * ns * k + i) = _
    rw [Nat.add_assoc]
    exact hel c hc2 _ (by omega)
  have hlast : nr * ns * nt - nr * ns = nr * ns * (nt - 1) := by rw [Nat.mul_sub_one]
  have hlast' : nr * ns - nr = nr * (ns - 1) := by rw [Nat.mul_sub_one]
  have hmid : ∀ j < ns, ∀ c < 3, ∀ k < nt, ∀ i < nr, xo + nr * j + k * (ns * nr) + i < ucap ∧
      el c (xo + nr * j + k * (ns * nr) + i) = some ((fun q => U c (q / nr * (ns * nr) + q % nr + nr * j)) (k * nr + i)) := by
    intro j hj c hc2 k hk i hi
    have h1 := hsl k hk
    have h2 := hrow j hj
    have h3 : k * (ns * nr) = nr * ns * k := by ring
    beta_reduce
    rw [(div_mod_at hi).1, (div_mod_at hi).2, show xo + nr * j + k * (ns * nr) + i = xo + (k * (ns * nr) + i + nr * j) by omega]
    exact ⟨by omega, hel c hc2 _ (by omega)⟩
  have hcol : ∀ i0 < nr, ∀ c < 3, ∀ k < ns * nt, ∀ i < 1, xo + i0 + k * (nr * 1) + i < ucap ∧ el c (xo + i0 + k * (nr * 1) + i) = some (U c (i0 + nr * (k * 1 + i))) := by
    intro i0 hi0 c hc2 k hk i hi
    have h1 : nr * k + nr ≤ nr * ns * nt := by
      have := Nat.mul_le_mul_left nr (show k + 1 ≤ ns * nt by omega)
      rwa [Nat.mul_succ, ← Nat.mul_assoc] at this
    have : i = 0 := by omega
    subst this
    rw [Nat.mul_one, Nat.mul_one, Nat.add_zero, Nat.add_zero, Nat.mul_comm k nr, show xo + i0 + nr * k = xo + (i0 + nr * k) by omega]
    exact ⟨by omega, hel c hc2 _ (by omega)⟩
  have hb1 : BndOk (bound2 nr mr Dr ns ms Ds wcap) wcap (nr * ns) (2 * mr * (ms + 1 + ns)) (P2 nr zr ns zs) := by rw [Nat.mul_comm nr ns]; exact bound2_ok hr hs wcap
  have hb2 : BndOk (bound2 nr mr Dr nt mt Dt wcap) wcap (nt * nr) (2 * mr * (mt + 1 + nt)) (P2 nr zr nt zt) := bound2_ok hr ht wcap
  have hb3 : BndOk (bound2 ns ms Ds nt mt Dt wcap) wcap (ns * nt * 1) (2 * ms * (mt + 1 + nt)) (P2 ns zs nt zt) := by rw [Nat.mul_one, Nat.mul_comm ns nt]; exact bound2_ok hs ht wcap
  obtain ⟨s1, e1, -, a1, t1⟩ := doPatch_run (d := 3) P2.mono hb1 (wo := 0) (by omega) (x0 := x0) (Ji := Ji) (m := false) (src := fun c => ⟨some (el c, ucap), xo⟩)
    (U := fun c i => U c (nr * ns * 0 + i)) ⟨fun _ => none, fun _ => none, fun _ => none⟩ (fun c hc2 => hsrc _ _ 0 (by omega) c hc2) (fun h => absurd h (by simp))
  obtain ⟨s2, e2, -, a2, t2⟩ := doPatch_run (d := 3) P2.mono hb1 (wo := 0) (by omega) (x0 := x0) (Ji := Ji) (m := true) (src := fun c => ⟨some (el c, ucap), xo + (nr * ns * nt - nr * ns)⟩)
    (U := fun c i => U c (nr * ns * (nt - 1) + i)) s1 (fun c hc2 => by rw [hlast]; exact hsrc _ _ (nt - 1) (by omega) c hc2)
    (fun _ c hc2 => ⟨by obtain ⟨b, hb, -⟩ := a1 c hc2; rw [hb]; simp, by obtain ⟨b, hb, -⟩ := t1 c hc2; rw [hb]; simp⟩)
  obtain ⟨s3, e3, a3, t3⟩ := getPatch_run (d := 3) (g := nr) (s := ns) (n := nt) (ucap := ucap) (io := xo + 0) P2.mono hb2 (by omega) (x0 := x0) (Ji := Ji) (el := el)
    (U := fun c q => U c (q / nr * (ns * nr) + q % nr + nr * 0)) s2 (fun c hc2 k hk i hi => hmid 0 (by omega) c hc2 k hk i hi)
    (fun c hc2 => ⟨by obtain ⟨b, hb, -⟩ := a2 c hc2; rw [hb]; simp, by obtain ⟨b, hb, -⟩ := t2 c hc2; rw [hb]; simp⟩)
  obtain ⟨s4, e4, a4, t4⟩ := getPatch_run (d := 3) (g := nr) (s := ns) (n := nt) (ucap := ucap) (io := xo + (nr * ns - nr)) P2.mono hb2 (by omega) (x0 := x0) (Ji := Ji) (el := el)
    (U := fun c q => U c (q / nr * (ns * nr) + q % nr + nr * (ns - 1))) s3 (fun c hc2 k hk i hi => by rw [hlast']; exact hmid (ns - 1) (by omega) c hc2 k hk i hi)
    (fun c hc2 => ⟨by obtain ⟨b, hb, -⟩ := a3 c hc2; rw [hb]; simp, by obtain ⟨b, hb, -⟩ := t3 c hc2; rw [hb]; simp⟩)
  obtain ⟨s5, e5, a5, t5⟩ := getPatch_run (d := 3) (g := 1) (s := nr) (n := ns * nt) (ucap := ucap) (io := xo + 0) P2.mono hb3 (by omega) (x0 := x0) (Ji := Ji) (el := el)
    (U := fun c q => U c (0 + nr * q)) s4 (fun c hc2 k hk i hi => hcol 0 (by omega) c hc2 k hk i hi)
    (fun c hc2 => ⟨by obtain ⟨b, hb, -⟩ := a4 c hc2; rw [hb]; simp, by obtain ⟨b, hb, -⟩ := t4 c hc2; rw [hb]; simp⟩)
  obtain ⟨s6, e6, a6, t6⟩ := getPatch_run (d := 3) (g := 1) (s := nr) (n := ns * nt) (ucap := ucap) (io := xo + (nr - 1)) P2.mono hb3 (by omega) (x0 := x0) (Ji := Ji) (el := el)
    (U := fun c q => U c (nr - 1 + nr * q)) s5 (fun c hc2 k hk i hi => hcol (nr - 1) (by omega) c hc2 k hk i hi)
    (fun c hc2 => ⟨by obtain ⟨b, hb, -⟩ := a5 c hc2; rw [hb]; simp, by obtain ⟨b, hb, -⟩ := t5 c hc2; rw [hb]; simp⟩)
  rw [Nat.mul_one] at e5 e6
  rw [Nat.mul_comm nt nr] at e3 e4
  refine ⟨s6, by rw [e1, Option.bind_some, e2, Option.bind_some, e3, Option.bind_some, e4, Option.bind_some, e5, Option.bind_some, e6], fun c hc2 => ⟨?_, ?_⟩⟩
  · obtain ⟨b1, h1, p1, -⟩ := a1 c hc2
    obtain ⟨b2, h2, p2, m2⟩ := a2 c hc2
    obtain ⟨b3, h3, p3, m3⟩ := a3 c hc2
    obtain ⟨b4, h4, p4, m4⟩ := a4 c hc2
    obtain ⟨b5, h5, p5, m5⟩ := a5 c hc2
    obtain ⟨b6, h6, p6, m6⟩ := a6 c hc2
    have m5 := (m5 b4 h4).trans (m6 b5 h5)
    have m4 := (m4 b3 h3).trans m5
    have m3 := (m3 b2 h2).trans m4
    have m2 := (m2 rfl b1 h1).trans m3
    exact ⟨b6, h6, faces3_bd hr hs ht (P2.mono _ _ _ m2 p1) (P2.mono _ _ _ m3 p2) (P2.mono _ _ _ m4 p3) (P2.mono _ _ _ m5 p4) (P2.mono _ _ _ (m6 b5 h5) p5) p6⟩
  · obtain ⟨b1, h1, p1, -⟩ := t1 c hc2
    obtain ⟨b2, h2, p2, m2⟩ := t2 c hc2
    obtain ⟨b3, h3, p3, m3⟩ := t3 c hc2
    obtain ⟨b4, h4, p4, m4⟩ := t4 c hc2
    obtain ⟨b5, h5, p5, m5⟩ := t5 c hc2
    obtain ⟨b6, h6, p6, m6⟩ := t6 c hc2
    have m5 := (m5 b4 h4).trans (m6 b5 h5)
    have m4 := (m4 b3 h3).trans m5
    have m3 := (m3 b2 h2).trans m4
    have m2 := (m2 rfl b1 h1).trans m3
    exact ⟨b6, h6, faces3_bd hr hs ht (P2.mono _ _ _ m2 p1) (P2.mono _ _ _ m3 p2) (P2.mono _ _ _ m4 p3) (P2.mono _ _ _ m5 p4) (P2.mono _ _ _ (m6 b5 h5) p5) p6⟩

theorem calcEl3_run {tol : K} {ucap xo : Nat} {el : Nat → Mem K} {U : Nat → Nat → K} (hel : ∀ c < 3, Has (el c) xo (nr * ns * nt) (U c)) (hc : xo + nr * ns * nt ≤ ucap) :
    ∃ ab tb : Nat → K × K,
      let x0 := fun c => if c = 0 then poly3 nr zr ns zs nt zt (U 0) 0 0 0 else if c = 1 then poly3 nr zr ns zs nt zt (U 1) 0 0 0 else poly3 nr zr ns zs nt zt (U 2) 0 0 0
      let J := J3 nr zr ns zs nt zt U 0 0 0
      let Ji := at3 (Lin.matInv3 J)
      calcEl3 nr mr I0r Dr ns ms I0s Ds nt mt I0t Dt tol ucap el xo =
        (if J 0 * (J 4 * J 8 - J 5 * J 7) + J 1 * (J 5 * J 6 - J 3 * J 8) + J 2 * (J 3 * J 7 - J 4 * J 6) = 0 then none else
          if (1 + tol) * ((tb 0).2 - (tb 0).1) = 0 ∨ (1 + tol) * ((tb 1).2 - (tb 1).1) = 0 ∨ (1 + tol) * ((tb 2).2 - (tb 2).1) = 0 then none else
          some (mkBox 3 x0 (at3 J) Ji ab tb tol)) ∧
      (∀ c < 3, Bd3 nr zr ns zs nt zt (U c) (ab c)) ∧ ∀ c < 3, Bd3 nr zr ns zs nt zt (tVal 3 x0 Ji U c) (tb c) := by
  have hw : 2 * (nr * ns) + 3 * nr ≤ wsize3 nr mr ns ms nt mt := by
    have : 2 * nr * ns + 3 * nr ≤ wsize3 nr mr ns ms nt mt := by unfold wsize3; omega
    rwa [Nat.mul_assoc] at this
  have er := readAt_run (cap := 2 * nr) hr.has (by omega)
  have es := readAt_run (cap := 2 * ns) hs.has (by omega)
  have et := readAt_run (cap := 2 * nt) ht.has (by omega)
  have ex := readAt_run (cap := ucap) (hel 0 (by omega)) hc
  have ey := readAt_run (cap := ucap) (hel 1 (by omega)) hc
  have ez := readAt_run (cap := ucap) (hel 2 (by omega)) hc
  have ig : ∀ c, Tensor.ig3 ((List.range (2 * nr)).map (zeroVals nr zr)) nr ((List.range (2 * ns)).map (zeroVals ns zs)) ns ((List.range (2 * nt)).map (zeroVals nt zt)) nt
      ((List.range (nr * ns * nt)).map (U c)) (List.replicate (wsize3 nr mr ns ms nt mt) 0) = some (poly3 nr zr ns zs nt zt (U c) 0 0 0,
        [tril nr (dbasis nr zr 0) ns (fun j => basisAt ns zs j 0) nt (fun k => basisAt nt zt k 0) (U c), tril nr (fun i => basisAt nr zr i 0) ns (dbasis ns zs 0) nt (fun k => basisAt nt zt k 0) (U c),
         tril nr (fun i => basisAt nr zr i 0) ns (fun j => basisAt ns zs j 0) nt (dbasis nt zt 0) (U c)]) := by
    intro c
    rw [Props.tensor_ig3_eq _ _ _ _ _ _ _ _ (by simp) (by simp) (by simp) (by simp) (by simpa using hw), interp3_tril (zeroVals_lo nr zr) (zeroVals_lo ns zs) (zeroVals_lo nt zt),
      interp3_tril (zeroVals_hi nr zr) (zeroVals_lo ns zs) (zeroVals_lo nt zt), interp3_tril (zeroVals_lo nr zr) (zeroVals_hi ns zs) (zeroVals_lo nt zt),
      interp3_tril (zeroVals_lo nr zr) (zeroVals_lo ns zs) (zeroVals_hi nt zt)]
    rfl
  obtain ⟨st, e, h⟩ := patches3 hr hs ht hel hc
    (fun c => if c = 0 then poly3 nr zr ns zs nt zt (U 0) 0 0 0 else if c = 1 then poly3 nr zr ns zs nt zt (U 1) 0 0 0 else poly3 nr zr ns zs nt zt (U 2) 0 0 0)
    (at3 (Lin.matInv3 (J3 nr zr ns zs nt zt U 0 0 0))) rfl
  obtain ⟨⟨a0, ha0, ga0⟩, ⟨b0, hb0, gb0⟩⟩ := h 0 (by omega)
  obtain ⟨⟨a1, ha1, ga1⟩, ⟨b1, hb1, gb1⟩⟩ := h 1 (by omega)
  obtain ⟨⟨a2, ha2, ga2⟩, ⟨b2, hb2, gb2⟩⟩ := h 2 (by omega)
  refine ⟨fun c => if c = 0 then a0 else if c = 1 then a1 else a2, fun c => if c = 0 then b0 else if c = 1 then b1 else b2, ?_, fun c hc2 => ?_, fun c hc2 => ?_⟩
  · rw [calcEl3, er, Option.bind_some, es, Option.bind_some, et, Option.bind_some, ex, Option.bind_some, ey, Option.bind_some, ez, Option.bind_some, ig 0, Option.bind_some, ig 1, Option.bind_some,
      ig 2, Option.bind_some]
    generalize hJ : J3 nr zr ns zs nt zt U 0 0 0 = J at *
    show (if (![_, _, _, _, _, _, _, _, _] : Fin 9 → K) 0 * _ + _ + _ = 0 then none else faces3 nr mr Dr ns ms Ds nt mt Dt tol _ ucap el xo _ _ _) = _
    unfold J3 at hJ
    simp only [List.getD_cons_zero, List.getD_cons_succ]
    rw [hJ]
    congr 1
    rw [faces3]
    refine Eq.trans (congrArg (fun o => Option.bind o _) e) ?_
    rw [Option.bind_some, ha0, Option.bind_some, ha1, Option.bind_some, ha2, Option.bind_some, hb0, Option.bind_some, hb1, Option.bind_some, hb2, Option.bind_some]
    rfl
  · have : c = 0 ∨ c = 1 ∨ c = 2 := by omega
    rcases this with rfl | rfl | rfl
    · exact ga0
    · exact ga1
    · exact ga2
  · have : c = 0 ∨ c = 1 ∨ c = 2 := by omega
    rcases this with rfl | rfl | rfl
    · exact gb0
    · exact gb1
    · exact gb2
end three

end Gslib.Obb
