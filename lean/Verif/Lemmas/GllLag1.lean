import Verif.Model.GllLag
import Verif.Lemmas.GllBase

/-!
# The unrolled functions compute the closed form

Generated proofs: every intermediate constant is identified with a value of the recurrences `U0`, `U1`, `U2`.
-/

namespace Gslib.Poly
variable {K : Type} [Field K]

theorem gllLag02_eq (g w : Nat → K) (xh : K) : gllLag02 g w xh = rowLists 2 w (dx (gnode 2 g) xh) := by
  unfold gllLag02
  extract_lets x d00 d01 u0_01 v0_00
  generalize hd : dx (gnode 2 g) xh = d
  have hd00 : d00 = d 0 := by
    rw [← hd]; show xh * 2 + 2 = 2 * (xh - (-1)); ring
  have hd01 : d01 = d 1 := by
    rw [← hd]; show xh * 2 - 2 = 2 * (xh - (1)); ring
  have hu0_01 : u0_01 = U0 d 1 := by
    show 1 * d00 = U0 d 0 * d 0
    rw [hd00]
    gll_close
  have hv0_00 : v0_00 = U0 (rev 2 d) 1 := by
    show d01 * 1 = U0 (rev 2 d) 0 * d 1
    rw [hd01]
    gll_close
  have r0_0 : w 0 * 1 * v0_00 = row0 2 w d 0 := by
    show w 0 * 1 * v0_00 = w 0 * U0 d 0 * U0 (rev 2 d) 1
    rw [hv0_00]
    gll_close
  have r0_1 : w 1 * u0_01 * 1 = row0 2 w d 1 := by
    show w 1 * u0_01 * 1 = w 1 * U0 d 1 * U0 (rev 2 d) 0
    rw [hu0_01]
    gll_close
  have r1_0 : 2 * w 0 * (1) = row1 2 w d 0 := by
    show 2 * w 0 * (1) = 2 * w 0 * (U1 d 0 * U0 (rev 2 d) 1 + U0 d 0 * U1 (rev 2 d) 1)
    gll_close
  have r1_1 : 2 * w 1 * (1) = row1 2 w d 1 := by
    show 2 * w 1 * (1) = 2 * w 1 * (U1 d 1 * U0 (rev 2 d) 0 + U0 d 1 * U1 (rev 2 d) 0)
    gll_close
  have r2_0 : 0 = row2 2 w d 0 := by
    show 0 = 4 * w 0 * (U2 d 0 * U0 (rev 2 d) 1 + 2 * U1 d 0 * U1 (rev 2 d) 1 + U0 d 0 * U2 (rev 2 d) 1)
    gll_close
  have r2_1 : 0 = row2 2 w d 1 := by
    show 0 = 4 * w 1 * (U2 d 1 * U0 (rev 2 d) 0 + 2 * U1 d 1 * U1 (rev 2 d) 0 + U0 d 1 * U2 (rev 2 d) 0)
    gll_close
  have L0 : [w 0 * 1 * v0_00, w 1 * u0_01 * 1] = (List.range 2).map (row0 2 w d) :=
    (congrArg₂ List.cons r0_0 (congrArg₂ List.cons r0_1 rfl))
  have L1 : [2 * w 0 * (1), 2 * w 1 * (1)] = (List.range 2).map (row1 2 w d) :=
    (congrArg₂ List.cons r1_0 (congrArg₂ List.cons r1_1 rfl))
  have L2 : [0, 0] = (List.range 2).map (row2 2 w d) :=
    (congrArg₂ List.cons r2_0 (congrArg₂ List.cons r2_1 rfl))
  exact congrArg₂ Prod.mk L0 (congrArg₂ Prod.mk L1 L2)

theorem gllLag03_eq (g w : Nat → K) (xh : K) : gllLag03 g w xh = rowLists 3 w (dx (gnode 3 g) xh) := by
  unfold gllLag03
  extract_lets x d00 d01 d02 u0_01 u0_02 v0_01 v0_00 u1_02 v1_00
  generalize hd : dx (gnode 3 g) xh = d
  have hd00 : d00 = d 0 := by
    rw [← hd]; show xh * 2 + 2 = 2 * (xh - (-1)); ring
  have hd01 : d01 = d 1 := by
    rw [← hd]; show xh * 2 = 2 * (xh - (0)); ring
  have hd02 : d02 = d 2 := by
    rw [← hd]; show xh * 2 - 2 = 2 * (xh - (1)); ring
  have hu0_01 : u0_01 = U0 d 1 := by
    show 1 * d00 = U0 d 0 * d 0
    rw [hd00]
    gll_close
  have hu0_02 : u0_02 = U0 d 2 := by
    show u0_01 * d01 = U0 d 1 * d 1
    rw [hd01, hu0_01]
    gll_close
  have hv0_01 : v0_01 = U0 (rev 3 d) 1 := by
    show d02 * 1 = U0 (rev 3 d) 0 * d 2
    rw [hd02]
    gll_close
  have hv0_00 : v0_00 = U0 (rev 3 d) 2 := by
    show d01 * v0_01 = U0 (rev 3 d) 1 * d 1
    rw [hd01, hv0_01]
    gll_close
  have hu1_02 : u1_02 = U1 d 2 := by
    show 1 * d01 + u0_01 = U1 d 1 * d 1 + U0 d 1
    rw [hd01, hu0_01]
    gll_close
  have hv1_00 : v1_00 = U1 (rev 3 d) 2 := by
    show d01 * 1 + v0_01 = U1 (rev 3 d) 1 * d 1 + U0 (rev 3 d) 1
    rw [hd01, hv0_01]
    gll_close
  have r0_0 : w 0 * 1 * v0_00 = row0 3 w d 0 := by
    show w 0 * 1 * v0_00 = w 0 * U0 d 0 * U0 (rev 3 d) 2
    rw [hv0_00]
    gll_close
  have r0_1 : w 1 * u0_01 * v0_01 = row0 3 w d 1 := by
    show w 1 * u0_01 * v0_01 = w 1 * U0 d 1 * U0 (rev 3 d) 1
    rw [hu0_01, hv0_01]
    gll_close
  have r0_2 : w 2 * u0_02 * 1 = row0 3 w d 2 := by
    show w 2 * u0_02 * 1 = w 2 * U0 d 2 * U0 (rev 3 d) 0
    rw [hu0_02]
    gll_close
  have r1_0 : 2 * w 0 * (v1_00) = row1 3 w d 0 := by
    show 2 * w 0 * (v1_00) = 2 * w 0 * (U1 d 0 * U0 (rev 3 d) 2 + U0 d 0 * U1 (rev 3 d) 2)
    rw [hv1_00]
    gll_close
  have r1_1 : 2 * w 1 * (1 * v0_01 + u0_01 * 1) = row1 3 w d 1 := by
    show 2 * w 1 * (1 * v0_01 + u0_01 * 1) = 2 * w 1 * (U1 d 1 * U0 (rev 3 d) 1 + U0 d 1 * U1 (rev 3 d) 1)
    rw [hu0_01, hv0_01]
    gll_close
  have r1_2 : 2 * w 2 * (u1_02) = row1 3 w d 2 := by
    show 2 * w 2 * (u1_02) = 2 * w 2 * (U1 d 2 * U0 (rev 3 d) 0 + U0 d 2 * U1 (rev 3 d) 0)
    rw [hu1_02]
    gll_close
  have r2_0 : 4 * w 0 * (1 * 2) = row2 3 w d 0 := by
    show 4 * w 0 * (1 * 2) = 4 * w 0 * (U2 d 0 * U0 (rev 3 d) 2 + 2 * U1 d 0 * U1 (rev 3 d) 2 + U0 d 0 * U2 (rev 3 d) 2)
    gll_close
  have r2_1 : 4 * w 1 * (2 * 1 * 1) = row2 3 w d 1 := by
    show 4 * w 1 * (2 * 1 * 1) = 4 * w 1 * (U2 d 1 * U0 (rev 3 d) 1 + 2 * U1 d 1 * U1 (rev 3 d) 1 + U0 d 1 * U2 (rev 3 d) 1)
    gll_close
  have r2_2 : 4 * w 2 * (2 * 1) = row2 3 w d 2 := by
    show 4 * w 2 * (2 * 1) = 4 * w 2 * (U2 d 2 * U0 (rev 3 d) 0 + 2 * U1 d 2 * U1 (rev 3 d) 0 + U0 d 2 * U2 (rev 3 d) 0)
    gll_close
  have L0 : [w 0 * 1 * v0_00, w 1 * u0_01 * v0_01, w 2 * u0_02 * 1] = (List.range 3).map (row0 3 w d) :=
    (congrArg₂ List.cons r0_0 (congrArg₂ List.cons r0_1 (congrArg₂ List.cons r0_2 rfl)))
  have L1 : [2 * w 0 * (v1_00), 2 * w 1 * (1 * v0_01 + u0_01 * 1), 2 * w 2 * (u1_02)] = (List.range 3).map (row1 3 w d) :=
    (congrArg₂ List.cons r1_0 (congrArg₂ List.cons r1_1 (congrArg₂ List.cons r1_2 rfl)))
  have L2 : [4 * w 0 * (1 * 2), 4 * w 1 * (2 * 1 * 1), 4 * w 2 * (2 * 1)] = (List.range 3).map (row2 3 w d) :=
    (congrArg₂ List.cons r2_0 (congrArg₂ List.cons r2_1 (congrArg₂ List.cons r2_2 rfl)))
  exact congrArg₂ Prod.mk L0 (congrArg₂ Prod.mk L1 L2)

theorem gllLag04_eq (g w : Nat → K) (xh : K) : gllLag04 g w xh = rowLists 4 w (dx (gnode 4 g) xh) := by
  unfold gllLag04
  extract_lets x d00 d01 d02 d03 u0_01 u0_02 u0_03 v0_02 v0_01 v0_00 u1_02 u1_03 v1_01 v1_00 u2_03 v2_00
  generalize hd : dx (gnode 4 g) xh = d
  have hd00 : d00 = d 0 := by
    rw [← hd]; show xh * 2 + 2 = 2 * (xh - (-1)); ring
  have hd01 : d01 = d 1 := by
    rw [← hd]; show xh * 2 + 2 * g 0 = 2 * (xh - (-g 0)); ring
  have hd02 : d02 = d 2 := by
    rw [← hd]; show xh * 2 - 2 * g 0 = 2 * (xh - (g 0)); ring
  have hd03 : d03 = d 3 := by
    rw [← hd]; show xh * 2 - 2 = 2 * (xh - (1)); ring
  have hu0_01 : u0_01 = U0 d 1 := by
    show 1 * d00 = U0 d 0 * d 0
    rw [hd00]
    gll_close
  have hu0_02 : u0_02 = U0 d 2 := by
    show u0_01 * d01 = U0 d 1 * d 1
    rw [hd01, hu0_01]
    gll_close
  have hu0_03 : u0_03 = U0 d 3 := by
    show u0_02 * d02 = U0 d 2 * d 2
    rw [hd02, hu0_02]
    gll_close
  have hv0_02 : v0_02 = U0 (rev 4 d) 1 := by
    show d03 * 1 = U0 (rev 4 d) 0 * d 3
    rw [hd03]
    gll_close
  have hv0_01 : v0_01 = U0 (rev 4 d) 2 := by
    show d02 * v0_02 = U0 (rev 4 d) 1 * d 2
    rw [hd02, hv0_02]
    gll_close
  have hv0_00 : v0_00 = U0 (rev 4 d) 3 := by
    show d01 * v0_01 = U0 (rev 4 d) 2 * d 1
    rw [hd01, hv0_01]
    gll_close
  have hu1_02 : u1_02 = U1 d 2 := by
    show 1 * d01 + u0_01 = U1 d 1 * d 1 + U0 d 1
    rw [hd01, hu0_01]
    gll_close
  have hu1_03 : u1_03 = U1 d 3 := by
    show u1_02 * d02 + u0_02 = U1 d 2 * d 2 + U0 d 2
    rw [hd02, hu0_02, hu1_02]
    gll_close
  have hv1_01 : v1_01 = U1 (rev 4 d) 2 := by
    show d02 * 1 + v0_02 = U1 (rev 4 d) 1 * d 2 + U0 (rev 4 d) 1
    rw [hd02, hv0_02]
    gll_close
  have hv1_00 : v1_00 = U1 (rev 4 d) 3 := by
    show d01 * v1_01 + v0_01 = U1 (rev 4 d) 2 * d 1 + U0 (rev 4 d) 2
    rw [hd01, hv0_01, hv1_01]
    gll_close
  have hu2_03 : u2_03 = U2 d 3 := by
    show 2 * d02 + 2 * u1_02 = U2 d 2 * d 2 + 2 * U1 d 2
    rw [hd02, hu1_02]
    gll_close
  have hv2_00 : v2_00 = U2 (rev 4 d) 3 := by
    show d01 * 2 + 2 * v1_01 = U2 (rev 4 d) 2 * d 1 + 2 * U1 (rev 4 d) 2
    rw [hd01, hv1_01]
    gll_close
  have r0_0 : w 0 * 1 * v0_00 = row0 4 w d 0 := by
    show w 0 * 1 * v0_00 = w 0 * U0 d 0 * U0 (rev 4 d) 3
    rw [hv0_00]
    gll_close
  have r0_1 : w 1 * u0_01 * v0_01 = row0 4 w d 1 := by
    show w 1 * u0_01 * v0_01 = w 1 * U0 d 1 * U0 (rev 4 d) 2
    rw [hu0_01, hv0_01]
    gll_close
  have r0_2 : w 2 * u0_02 * v0_02 = row0 4 w d 2 := by
    show w 2 * u0_02 * v0_02 = w 2 * U0 d 2 * U0 (rev 4 d) 1
    rw [hu0_02, hv0_02]
    gll_close
  have r0_3 : w 3 * u0_03 * 1 = row0 4 w d 3 := by
    show w 3 * u0_03 * 1 = w 3 * U0 d 3 * U0 (rev 4 d) 0
    rw [hu0_03]
    gll_close
  have r1_0 : 2 * w 0 * (v1_00) = row1 4 w d 0 := by
    show 2 * w 0 * (v1_00) = 2 * w 0 * (U1 d 0 * U0 (rev 4 d) 3 + U0 d 0 * U1 (rev 4 d) 3)
    rw [hv1_00]
    gll_close
  have r1_1 : 2 * w 1 * (1 * v0_01 + u0_01 * v1_01) = row1 4 w d 1 := by
    show 2 * w 1 * (1 * v0_01 + u0_01 * v1_01) = 2 * w 1 * (U1 d 1 * U0 (rev 4 d) 2 + U0 d 1 * U1 (rev 4 d) 2)
    rw [hu0_01, hv0_01, hv1_01]
    gll_close
  have r1_2 : 2 * w 2 * (u1_02 * v0_02 + u0_02 * 1) = row1 4 w d 2 := by
    show 2 * w 2 * (u1_02 * v0_02 + u0_02 * 1) = 2 * w 2 * (U1 d 2 * U0 (rev 4 d) 1 + U0 d 2 * U1 (rev 4 d) 1)
    rw [hu0_02, hu1_02, hv0_02]
    gll_close
  have r1_3 : 2 * w 3 * (u1_03) = row1 4 w d 3 := by
    show 2 * w 3 * (u1_03) = 2 * w 3 * (U1 d 3 * U0 (rev 4 d) 0 + U0 d 3 * U1 (rev 4 d) 0)
    rw [hu1_03]
    gll_close
  have r2_0 : 4 * w 0 * (1 * v2_00) = row2 4 w d 0 := by
    show 4 * w 0 * (1 * v2_00) = 4 * w 0 * (U2 d 0 * U0 (rev 4 d) 3 + 2 * U1 d 0 * U1 (rev 4 d) 3 + U0 d 0 * U2 (rev 4 d) 3)
    rw [hv2_00]
    gll_close
  have r2_1 : 4 * w 1 * (2 * 1 * v1_01 + u0_01 * 2) = row2 4 w d 1 := by
    show 4 * w 1 * (2 * 1 * v1_01 + u0_01 * 2) = 4 * w 1 * (U2 d 1 * U0 (rev 4 d) 2 + 2 * U1 d 1 * U1 (rev 4 d) 2 + U0 d 1 * U2 (rev 4 d) 2)
    rw [hu0_01, hv1_01]
    gll_close
  have r2_2 : 4 * w 2 * (2 * v0_02 + 2 * u1_02 * 1) = row2 4 w d 2 := by
    show 4 * w 2 * (2 * v0_02 + 2 * u1_02 * 1) = 4 * w 2 * (U2 d 2 * U0 (rev 4 d) 1 + 2 * U1 d 2 * U1 (rev 4 d) 1 + U0 d 2 * U2 (rev 4 d) 1)
    rw [hu1_02, hv0_02]
    gll_close
  have r2_3 : 4 * w 3 * (u2_03 * 1) = row2 4 w d 3 := by
    show 4 * w 3 * (u2_03 * 1) = 4 * w 3 * (U2 d 3 * U0 (rev 4 d) 0 + 2 * U1 d 3 * U1 (rev 4 d) 0 + U0 d 3 * U2 (rev 4 d) 0)
    rw [hu2_03]
    gll_close
  have L0 : [w 0 * 1 * v0_00, w 1 * u0_01 * v0_01, w 2 * u0_02 * v0_02, w 3 * u0_03 * 1] = (List.range 4).map (row0 4 w d) :=
    (congrArg₂ List.cons r0_0 (congrArg₂ List.cons r0_1 (congrArg₂ List.cons r0_2 (congrArg₂ List.cons r0_3 rfl))))
  have L1 : [2 * w 0 * (v1_00), 2 * w 1 * (1 * v0_01 + u0_01 * v1_01), 2 * w 2 * (u1_02 * v0_02 + u0_02 * 1), 2 * w 3 * (u1_03)] = (List.range 4).map (row1 4 w d) :=
    (congrArg₂ List.cons r1_0 (congrArg₂ List.cons r1_1 (congrArg₂ List.cons r1_2 (congrArg₂ List.cons r1_3 rfl))))
  have L2 : [4 * w 0 * (1 * v2_00), 4 * w 1 * (2 * 1 * v1_01 + u0_01 * 2), 4 * w 2 * (2 * v0_02 + 2 * u1_02 * 1), 4 * w 3 * (u2_03 * 1)] = (List.range 4).map (row2 4 w d) :=
    (congrArg₂ List.cons r2_0 (congrArg₂ List.cons r2_1 (congrArg₂ List.cons r2_2 (congrArg₂ List.cons r2_3 rfl))))
  exact congrArg₂ Prod.mk L0 (congrArg₂ Prod.mk L1 L2)

theorem gllLag05_eq (g w : Nat → K) (xh : K) : gllLag05 g w xh = rowLists 5 w (dx (gnode 5 g) xh) := by
  unfold gllLag05
  extract_lets x d00 d01 d02 d03 d04 u0_01 u0_02 u0_03 u0_04 v0_03 v0_02 v0_01 v0_00 u1_02 u1_03 u1_04 v1_02 v1_01 v1_00 u2_03 u2_04 v2_01 v2_00
  generalize hd : dx (gnode 5 g) xh = d
  have hd00 : d00 = d 0 := by
    rw [← hd]; show xh * 2 + 2 = 2 * (xh - (-1)); ring
  have hd01 : d01 = d 1 := by
    rw [← hd]; show xh * 2 + 2 * g 0 = 2 * (xh - (-g 0)); ring
  have hd02 : d02 = d 2 := by
    rw [← hd]; show xh * 2 = 2 * (xh - (0)); ring
  have hd03 : d03 = d 3 := by
    rw [← hd]; show xh * 2 - 2 * g 0 = 2 * (xh - (g 0)); ring
  have hd04 : d04 = d 4 := by
    rw [← hd]; show xh * 2 - 2 = 2 * (xh - (1)); ring
  have hu0_01 : u0_01 = U0 d 1 := by
    show 1 * d00 = U0 d 0 * d 0
    rw [hd00]
    gll_close
  have hu0_02 : u0_02 = U0 d 2 := by
    show u0_01 * d01 = U0 d 1 * d 1
    rw [hd01, hu0_01]
    gll_close
  have hu0_03 : u0_03 = U0 d 3 := by
    show u0_02 * d02 = U0 d 2 * d 2
    rw [hd02, hu0_02]
    gll_close
  have hu0_04 : u0_04 = U0 d 4 := by
    show u0_03 * d03 = U0 d 3 * d 3
    rw [hd03, hu0_03]
    gll_close
  have hv0_03 : v0_03 = U0 (rev 5 d) 1 := by
    show d04 * 1 = U0 (rev 5 d) 0 * d 4
    rw [hd04]
    gll_close
  have hv0_02 : v0_02 = U0 (rev 5 d) 2 := by
    show d03 * v0_03 = U0 (rev 5 d) 1 * d 3
    rw [hd03, hv0_03]
    gll_close
  have hv0_01 : v0_01 = U0 (rev 5 d) 3 := by
    show d02 * v0_02 = U0 (rev 5 d) 2 * d 2
    rw [hd02, hv0_02]
    gll_close
  have hv0_00 : v0_00 = U0 (rev 5 d) 4 := by
    show d01 * v0_01 = U0 (rev 5 d) 3 * d 1
    rw [hd01, hv0_01]
    gll_close
  have hu1_02 : u1_02 = U1 d 2 := by
    show 1 * d01 + u0_01 = U1 d 1 * d 1 + U0 d 1
    rw [hd01, hu0_01]
    gll_close
  have hu1_03 : u1_03 = U1 d 3 := by
    show u1_02 * d02 + u0_02 = U1 d 2 * d 2 + U0 d 2
    rw [hd02, hu0_02, hu1_02]
    gll_close
  have hu1_04 : u1_04 = U1 d 4 := by
    show u1_03 * d03 + u0_03 = U1 d 3 * d 3 + U0 d 3
    rw [hd03, hu0_03, hu1_03]
    gll_close
  have hv1_02 : v1_02 = U1 (rev 5 d) 2 := by
    show d03 * 1 + v0_03 = U1 (rev 5 d) 1 * d 3 + U0 (rev 5 d) 1
    rw [hd03, hv0_03]
    gll_close
  have hv1_01 : v1_01 = U1 (rev 5 d) 3 := by
    show d02 * v1_02 + v0_02 = U1 (rev 5 d) 2 * d 2 + U0 (rev 5 d) 2
    rw [hd02, hv0_02, hv1_02]
    gll_close
  have hv1_00 : v1_00 = U1 (rev 5 d) 4 := by
    show d01 * v1_01 + v0_01 = U1 (rev 5 d) 3 * d 1 + U0 (rev 5 d) 3
    rw [hd01, hv0_01, hv1_01]
    gll_close
  have hu2_03 : u2_03 = U2 d 3 := by
    show 2 * d02 + 2 * u1_02 = U2 d 2 * d 2 + 2 * U1 d 2
    rw [hd02, hu1_02]
    gll_close
  have hu2_04 : u2_04 = U2 d 4 := by
    show u2_03 * d03 + 2 * u1_03 = U2 d 3 * d 3 + 2 * U1 d 3
    rw [hd03, hu1_03, hu2_03]
    gll_close
  have hv2_01 : v2_01 = U2 (rev 5 d) 3 := by
    show d02 * 2 + 2 * v1_02 = U2 (rev 5 d) 2 * d 2 + 2 * U1 (rev 5 d) 2
    rw [hd02, hv1_02]
    gll_close
  have hv2_00 : v2_00 = U2 (rev 5 d) 4 := by
    show d01 * v2_01 + 2 * v1_01 = U2 (rev 5 d) 3 * d 1 + 2 * U1 (rev 5 d) 3
    rw [hd01, hv1_01, hv2_01]
    gll_close
  have r0_0 : w 0 * 1 * v0_00 = row0 5 w d 0 := by
    show w 0 * 1 * v0_00 = w 0 * U0 d 0 * U0 (rev 5 d) 4
    rw [hv0_00]
    gll_close
  have r0_1 : w 1 * u0_01 * v0_01 = row0 5 w d 1 := by
    show w 1 * u0_01 * v0_01 = w 1 * U0 d 1 * U0 (rev 5 d) 3
    rw [hu0_01, hv0_01]
    gll_close
  have r0_2 : w 2 * u0_02 * v0_02 = row0 5 w d 2 := by
    show w 2 * u0_02 * v0_02 = w 2 * U0 d 2 * U0 (rev 5 d) 2
    rw [hu0_02, hv0_02]
    gll_close
  have r0_3 : w 3 * u0_03 * v0_03 = row0 5 w d 3 := by
    show w 3 * u0_03 * v0_03 = w 3 * U0 d 3 * U0 (rev 5 d) 1
    rw [hu0_03, hv0_03]
    gll_close
  have r0_4 : w 4 * u0_04 * 1 = row0 5 w d 4 := by
    show w 4 * u0_04 * 1 = w 4 * U0 d 4 * U0 (rev 5 d) 0
    rw [hu0_04]
    gll_close
  have r1_0 : 2 * w 0 * (v1_00) = row1 5 w d 0 := by
    show 2 * w 0 * (v1_00) = 2 * w 0 * (U1 d 0 * U0 (rev 5 d) 4 + U0 d 0 * U1 (rev 5 d) 4)
    rw [hv1_00]
    gll_close
  have r1_1 : 2 * w 1 * (1 * v0_01 + u0_01 * v1_01) = row1 5 w d 1 := by
    show 2 * w 1 * (1 * v0_01 + u0_01 * v1_01) = 2 * w 1 * (U1 d 1 * U0 (rev 5 d) 3 + U0 d 1 * U1 (rev 5 d) 3)
    rw [hu0_01, hv0_01, hv1_01]
    gll_close
  have r1_2 : 2 * w 2 * (u1_02 * v0_02 + u0_02 * v1_02) = row1 5 w d 2 := by
    show 2 * w 2 * (u1_02 * v0_02 + u0_02 * v1_02) = 2 * w 2 * (U1 d 2 * U0 (rev 5 d) 2 + U0 d 2 * U1 (rev 5 d) 2)
    rw [hu0_02, hu1_02, hv0_02, hv1_02]
    gll_close
  have r1_3 : 2 * w 3 * (u1_03 * v0_03 + u0_03 * 1) = row1 5 w d 3 := by
    show 2 * w 3 * (u1_03 * v0_03 + u0_03 * 1) = 2 * w 3 * (U1 d 3 * U0 (rev 5 d) 1 + U0 d 3 * U1 (rev 5 d) 1)
    rw [hu0_03, hu1_03, hv0_03]
    gll_close
  have r1_4 : 2 * w 4 * (u1_04) = row1 5 w d 4 := by
    show 2 * w 4 * (u1_04) = 2 * w 4 * (U1 d 4 * U0 (rev 5 d) 0 + U0 d 4 * U1 (rev 5 d) 0)
    rw [hu1_04]
    gll_close
  have r2_0 : 4 * w 0 * (1 * v2_00) = row2 5 w d 0 := by
    show 4 * w 0 * (1 * v2_00) = 4 * w 0 * (U2 d 0 * U0 (rev 5 d) 4 + 2 * U1 d 0 * U1 (rev 5 d) 4 + U0 d 0 * U2 (rev 5 d) 4)
    rw [hv2_00]
    gll_close
  have r2_1 : 4 * w 1 * (2 * 1 * v1_01 + u0_01 * v2_01) = row2 5 w d 1 := by
    show 4 * w 1 * (2 * 1 * v1_01 + u0_01 * v2_01) = 4 * w 1 * (U2 d 1 * U0 (rev 5 d) 3 + 2 * U1 d 1 * U1 (rev 5 d) 3 + U0 d 1 * U2 (rev 5 d) 3)
    rw [hu0_01, hv1_01, hv2_01]
    gll_close
  have r2_2 : 4 * w 2 * (2 * v0_02 + 2 * u1_02 * v1_02 + u0_02 * 2) = row2 5 w d 2 := by
    show 4 * w 2 * (2 * v0_02 + 2 * u1_02 * v1_02 + u0_02 * 2) = 4 * w 2 * (U2 d 2 * U0 (rev 5 d) 2 + 2 * U1 d 2 * U1 (rev 5 d) 2 + U0 d 2 * U2 (rev 5 d) 2)
    rw [hu0_02, hu1_02, hv0_02, hv1_02]
    gll_close
  have r2_3 : 4 * w 3 * (u2_03 * v0_03 + 2 * u1_03 * 1) = row2 5 w d 3 := by
    show 4 * w 3 * (u2_03 * v0_03 + 2 * u1_03 * 1) = 4 * w 3 * (U2 d 3 * U0 (rev 5 d) 1 + 2 * U1 d 3 * U1 (rev 5 d) 1 + U0 d 3 * U2 (rev 5 d) 1)
    rw [hu1_03, hu2_03, hv0_03]
    gll_close
  have r2_4 : 4 * w 4 * (u2_04 * 1) = row2 5 w d 4 := by
    show 4 * w 4 * (u2_04 * 1) = 4 * w 4 * (U2 d 4 * U0 (rev 5 d) 0 + 2 * U1 d 4 * U1 (rev 5 d) 0 + U0 d 4 * U2 (rev 5 d) 0)
    rw [hu2_04]
    gll_close
  have L0 : [w 0 * 1 * v0_00, w 1 * u0_01 * v0_01, w 2 * u0_02 * v0_02, w 3 * u0_03 * v0_03, w 4 * u0_04 * 1] = (List.range 5).map (row0 5 w d) :=
    (congrArg₂ List.cons r0_0 (congrArg₂ List.cons r0_1 (congrArg₂ List.cons r0_2 (congrArg₂ List.cons r0_3 (congrArg₂ List.cons r0_4 rfl)))))
  have L1 : [2 * w 0 * (v1_00), 2 * w 1 * (1 * v0_01 + u0_01 * v1_01), 2 * w 2 * (u1_02 * v0_02 + u0_02 * v1_02), 2 * w 3 * (u1_03 * v0_03 + u0_03 * 1), 2 * w 4 * (u1_04)] = (List.range 5).map (row1 5 w d) :=
    (congrArg₂ List.cons r1_0 (congrArg₂ List.cons r1_1 (congrArg₂ List.cons r1_2 (congrArg₂ List.cons r1_3 (congrArg₂ List.cons r1_4 rfl)))))
  have L2 : [4 * w 0 * (1 * v2_00), 4 * w 1 * (2 * 1 * v1_01 + u0_01 * v2_01), 4 * w 2 * (2 * v0_02 + 2 * u1_02 * v1_02 + u0_02 * 2), 4 * w 3 * (u2_03 * v0_03 + 2 * u1_03 * 1), 4 * w 4 * (u2_04 * 1)] = (List.range 5).map (row2 5 w d) :=
    (congrArg₂ List.cons r2_0 (congrArg₂ List.cons r2_1 (congrArg₂ List.cons r2_2 (congrArg₂ List.cons r2_3 (congrArg₂ List.cons r2_4 rfl)))))
  exact congrArg₂ Prod.mk L0 (congrArg₂ Prod.mk L1 L2)

theorem gllLag06_eq (g w : Nat → K) (xh : K) : gllLag06 g w xh = rowLists 6 w (dx (gnode 6 g) xh) := by
  unfold gllLag06
  extract_lets x d00 d01 d02 d03 d04 d05 u0_01 u0_02 u0_03 u0_04 u0_05 v0_04 v0_03 v0_02 v0_01 v0_00 u1_02 u1_03 u1_04 u1_05 v1_03 v1_02 v1_01 v1_00 u2_03 u2_04 u2_05 v2_02 v2_01 v2_00
  generalize hd : dx (gnode 6 g) xh = d
  have hd00 : d00 = d 0 := by
    rw [← hd]; show xh * 2 + 2 = 2 * (xh - (-1)); ring
  have hd01 : d01 = d 1 := by
    rw [← hd]; show xh * 2 + 2 * g 0 = 2 * (xh - (-g 0)); ring
  have hd02 : d02 = d 2 := by
    rw [← hd]; show xh * 2 + 2 * g 1 = 2 * (xh - (-g 1)); ring
  have hd03 : d03 = d 3 := by
    rw [← hd]; show xh * 2 - 2 * g 1 = 2 * (xh - (g 1)); ring
  have hd04 : d04 = d 4 := by
    rw [← hd]; show xh * 2 - 2 * g 0 = 2 * (xh - (g 0)); ring
  have hd05 : d05 = d 5 := by
    rw [← hd]; show xh * 2 - 2 = 2 * (xh - (1)); ring
  have hu0_01 : u0_01 = U0 d 1 := by
    show 1 * d00 = U0 d 0 * d 0
    rw [hd00]
    gll_close
  have hu0_02 : u0_02 = U0 d 2 := by
    show u0_01 * d01 = U0 d 1 * d 1
    rw [hd01, hu0_01]
    gll_close
  have hu0_03 : u0_03 = U0 d 3 := by
    show u0_02 * d02 = U0 d 2 * d 2
    rw [hd02, hu0_02]
    gll_close
  have hu0_04 : u0_04 = U0 d 4 := by
    show u0_03 * d03 = U0 d 3 * d 3
    rw [hd03, hu0_03]
    gll_close
  have hu0_05 : u0_05 = U0 d 5 := by
    show u0_04 * d04 = U0 d 4 * d 4
    rw [hd04, hu0_04]
    gll_close
  have hv0_04 : v0_04 = U0 (rev 6 d) 1 := by
    show d05 * 1 = U0 (rev 6 d) 0 * d 5
    rw [hd05]
    gll_close
  have hv0_03 : v0_03 = U0 (rev 6 d) 2 := by
    show d04 * v0_04 = U0 (rev 6 d) 1 * d 4
    rw [hd04, hv0_04]
    gll_close
  have hv0_02 : v0_02 = U0 (rev 6 d) 3 := by
    show d03 * v0_03 = U0 (rev 6 d) 2 * d 3
    rw [hd03, hv0_03]
    gll_close
  have hv0_01 : v0_01 = U0 (rev 6 d) 4 := by
    show d02 * v0_02 = U0 (rev 6 d) 3 * d 2
    rw [hd02, hv0_02]
    gll_close
  have hv0_00 : v0_00 = U0 (rev 6 d) 5 := by
    show d01 * v0_01 = U0 (rev 6 d) 4 * d 1
    rw [hd01, hv0_01]
    gll_close
  have hu1_02 : u1_02 = U1 d 2 := by
    show 1 * d01 + u0_01 = U1 d 1 * d 1 + U0 d 1
    rw [hd01, hu0_01]
    gll_close
  have hu1_03 : u1_03 = U1 d 3 := by
    show u1_02 * d02 + u0_02 = U1 d 2 * d 2 + U0 d 2
    rw [hd02, hu0_02, hu1_02]
    gll_close
  have hu1_04 : u1_04 = U1 d 4 := by
    show u1_03 * d03 + u0_03 = U1 d 3 * d 3 + U0 d 3
    rw [hd03, hu0_03, hu1_03]
    gll_close
  have hu1_05 : u1_05 = U1 d 5 := by
    show u1_04 * d04 + u0_04 = U1 d 4 * d 4 + U0 d 4
    rw [hd04, hu0_04, hu1_04]
    gll_close
  have hv1_03 : v1_03 = U1 (rev 6 d) 2 := by
    show d04 * 1 + v0_04 = U1 (rev 6 d) 1 * d 4 + U0 (rev 6 d) 1
    rw [hd04, hv0_04]
    gll_close
  have hv1_02 : v1_02 = U1 (rev 6 d) 3 := by
    show d03 * v1_03 + v0_03 = U1 (rev 6 d) 2 * d 3 + U0 (rev 6 d) 2
    rw [hd03, hv0_03, hv1_03]
    gll_close
  have hv1_01 : v1_01 = U1 (rev 6 d) 4 := by
    show d02 * v1_02 + v0_02 = U1 (rev 6 d) 3 * d 2 + U0 (rev 6 d) 3
    rw [hd02, hv0_02, hv1_02]
    gll_close
  have hv1_00 : v1_00 = U1 (rev 6 d) 5 := by
    show d01 * v1_01 + v0_01 = U1 (rev 6 d) 4 * d 1 + U0 (rev 6 d) 4
    rw [hd01, hv0_01, hv1_01]
    gll_close
  have hu2_03 : u2_03 = U2 d 3 := by
    show 2 * d02 + 2 * u1_02 = U2 d 2 * d 2 + 2 * U1 d 2
    rw [hd02, hu1_02]
    gll_close
  have hu2_04 : u2_04 = U2 d 4 := by
    show u2_03 * d03 + 2 * u1_03 = U2 d 3 * d 3 + 2 * U1 d 3
    rw [hd03, hu1_03, hu2_03]
    gll_close
  have hu2_05 : u2_05 = U2 d 5 := by
    show u2_04 * d04 + 2 * u1_04 = U2 d 4 * d 4 + 2 * U1 d 4
    rw [hd04, hu1_04, hu2_04]
    gll_close
  have hv2_02 : v2_02 = U2 (rev 6 d) 3 := by
    show d03 * 2 + 2 * v1_03 = U2 (rev 6 d) 2 * d 3 + 2 * U1 (rev 6 d) 2
    rw [hd03, hv1_03]
    gll_close
  have hv2_01 : v2_01 = U2 (rev 6 d) 4 := by
    show d02 * v2_02 + 2 * v1_02 = U2 (rev 6 d) 3 * d 2 + 2 * U1 (rev 6 d) 3
    rw [hd02, hv1_02, hv2_02]
    gll_close
  have hv2_00 : v2_00 = U2 (rev 6 d) 5 := by
    show d01 * v2_01 + 2 * v1_01 = U2 (rev 6 d) 4 * d 1 + 2 * U1 (rev 6 d) 4
    rw [hd01, hv1_01, hv2_01]
    gll_close
  have r0_0 : w 0 * 1 * v0_00 = row0 6 w d 0 := by
    show w 0 * 1 * v0_00 = w 0 * U0 d 0 * U0 (rev 6 d) 5
    rw [hv0_00]
    gll_close
  have r0_1 : w 1 * u0_01 * v0_01 = row0 6 w d 1 := by
    show w 1 * u0_01 * v0_01 = w 1 * U0 d 1 * U0 (rev 6 d) 4
    rw [hu0_01, hv0_01]
    gll_close
  have r0_2 : w 2 * u0_02 * v0_02 = row0 6 w d 2 := by
    show w 2 * u0_02 * v0_02 = w 2 * U0 d 2 * U0 (rev 6 d) 3
    rw [hu0_02, hv0_02]
    gll_close
  have r0_3 : w 3 * u0_03 * v0_03 = row0 6 w d 3 := by
    show w 3 * u0_03 * v0_03 = w 3 * U0 d 3 * U0 (rev 6 d) 2
    rw [hu0_03, hv0_03]
    gll_close
  have r0_4 : w 4 * u0_04 * v0_04 = row0 6 w d 4 := by
    show w 4 * u0_04 * v0_04 = w 4 * U0 d 4 * U0 (rev 6 d) 1
    rw [hu0_04, hv0_04]
    gll_close
  have r0_5 : w 5 * u0_05 * 1 = row0 6 w d 5 := by
    show w 5 * u0_05 * 1 = w 5 * U0 d 5 * U0 (rev 6 d) 0
    rw [hu0_05]
    gll_close
  have r1_0 : 2 * w 0 * (v1_00) = row1 6 w d 0 := by
    show 2 * w 0 * (v1_00) = 2 * w 0 * (U1 d 0 * U0 (rev 6 d) 5 + U0 d 0 * U1 (rev 6 d) 5)
    rw [hv1_00]
    gll_close
  have r1_1 : 2 * w 1 * (1 * v0_01 + u0_01 * v1_01) = row1 6 w d 1 := by
    show 2 * w 1 * (1 * v0_01 + u0_01 * v1_01) = 2 * w 1 * (U1 d 1 * U0 (rev 6 d) 4 + U0 d 1 * U1 (rev 6 d) 4)
    rw [hu0_01, hv0_01, hv1_01]
    gll_close
  have r1_2 : 2 * w 2 * (u1_02 * v0_02 + u0_02 * v1_02) = row1 6 w d 2 := by
    show 2 * w 2 * (u1_02 * v0_02 + u0_02 * v1_02) = 2 * w 2 * (U1 d 2 * U0 (rev 6 d) 3 + U0 d 2 * U1 (rev 6 d) 3)
    rw [hu0_02, hu1_02, hv0_02, hv1_02]
    gll_close
  have r1_3 : 2 * w 3 * (u1_03 * v0_03 + u0_03 * v1_03) = row1 6 w d 3 := by
    show 2 * w 3 * (u1_03 * v0_03 + u0_03 * v1_03) = 2 * w 3 * (U1 d 3 * U0 (rev 6 d) 2 + U0 d 3 * U1 (rev 6 d) 2)
    rw [hu0_03, hu1_03, hv0_03, hv1_03]
    gll_close
  have r1_4 : 2 * w 4 * (u1_04 * v0_04 + u0_04 * 1) = row1 6 w d 4 := by
    show 2 * w 4 * (u1_04 * v0_04 + u0_04 * 1) = 2 * w 4 * (U1 d 4 * U0 (rev 6 d) 1 + U0 d 4 * U1 (rev 6 d) 1)
    rw [hu0_04, hu1_04, hv0_04]
    gll_close
  have r1_5 : 2 * w 5 * (u1_05) = row1 6 w d 5 := by
    show 2 * w 5 * (u1_05) = 2 * w 5 * (U1 d 5 * U0 (rev 6 d) 0 + U0 d 5 * U1 (rev 6 d) 0)
    rw [hu1_05]
    gll_close
  have r2_0 : 4 * w 0 * (1 * v2_00) = row2 6 w d 0 := by
    show 4 * w 0 * (1 * v2_00) = 4 * w 0 * (U2 d 0 * U0 (rev 6 d) 5 + 2 * U1 d 0 * U1 (rev 6 d) 5 + U0 d 0 * U2 (rev 6 d) 5)
    rw [hv2_00]
    gll_close
  have r2_1 : 4 * w 1 * (2 * 1 * v1_01 + u0_01 * v2_01) = row2 6 w d 1 := by
    show 4 * w 1 * (2 * 1 * v1_01 + u0_01 * v2_01) = 4 * w 1 * (U2 d 1 * U0 (rev 6 d) 4 + 2 * U1 d 1 * U1 (rev 6 d) 4 + U0 d 1 * U2 (rev 6 d) 4)
    rw [hu0_01, hv1_01, hv2_01]
    gll_close
  have r2_2 : 4 * w 2 * (2 * v0_02 + 2 * u1_02 * v1_02 + u0_02 * v2_02) = row2 6 w d 2 := by
    show 4 * w 2 * (2 * v0_02 + 2 * u1_02 * v1_02 + u0_02 * v2_02) = 4 * w 2 * (U2 d 2 * U0 (rev 6 d) 3 + 2 * U1 d 2 * U1 (rev 6 d) 3 + U0 d 2 * U2 (rev 6 d) 3)
    rw [hu0_02, hu1_02, hv0_02, hv1_02, hv2_02]
    gll_close
  have r2_3 : 4 * w 3 * (u2_03 * v0_03 + 2 * u1_03 * v1_03 + u0_03 * 2) = row2 6 w d 3 := by
    show 4 * w 3 * (u2_03 * v0_03 + 2 * u1_03 * v1_03 + u0_03 * 2) = 4 * w 3 * (U2 d 3 * U0 (rev 6 d) 2 + 2 * U1 d 3 * U1 (rev 6 d) 2 + U0 d 3 * U2 (rev 6 d) 2)
    rw [hu0_03, hu1_03, hu2_03, hv0_03, hv1_03]
    gll_close
  have r2_4 : 4 * w 4 * (u2_04 * v0_04 + 2 * u1_04 * 1) = row2 6 w d 4 := by
    show 4 * w 4 * (u2_04 * v0_04 + 2 * u1_04 * 1) = 4 * w 4 * (U2 d 4 * U0 (rev 6 d) 1 + 2 * U1 d 4 * U1 (rev 6 d) 1 + U0 d 4 * U2 (rev 6 d) 1)
    rw [hu1_04, hu2_04, hv0_04]
    gll_close
  have r2_5 : 4 * w 5 * (u2_05 * 1) = row2 6 w d 5 := by
    show 4 * w 5 * (u2_05 * 1) = 4 * w 5 * (U2 d 5 * U0 (rev 6 d) 0 + 2 * U1 d 5 * U1 (rev 6 d) 0 + U0 d 5 * U2 (rev 6 d) 0)
    rw [hu2_05]
    gll_close
  have L0 : [w 0 * 1 * v0_00, w 1 * u0_01 * v0_01, w 2 * u0_02 * v0_02, w 3 * u0_03 * v0_03, w 4 * u0_04 * v0_04, w 5 * u0_05 * 1] = (List.range 6).map (row0 6 w d) :=
    (congrArg₂ List.cons r0_0 (congrArg₂ List.cons r0_1 (congrArg₂ List.cons r0_2 (congrArg₂ List.cons r0_3 (congrArg₂ List.cons r0_4 (congrArg₂ List.cons r0_5 rfl))))))
  have L1 : [2 * w 0 * (v1_00), 2 * w 1 * (1 * v0_01 + u0_01 * v1_01), 2 * w 2 * (u1_02 * v0_02 + u0_02 * v1_02), 2 * w 3 * (u1_03 * v0_03 + u0_03 * v1_03), 2 * w 4 * (u1_04 * v0_04 + u0_04 * 1), 2 * w 5 * (u1_05)] = (List.range 6).map (row1 6 w d) :=
    (congrArg₂ List.cons r1_0 (congrArg₂ List.cons r1_1 (congrArg₂ List.cons r1_2 (congrArg₂ List.cons r1_3 (congrArg₂ List.cons r1_4 (congrArg₂ List.cons r1_5 rfl))))))
  have L2 : [4 * w 0 * (1 * v2_00), 4 * w 1 * (2 * 1 * v1_01 + u0_01 * v2_01), 4 * w 2 * (2 * v0_02 + 2 * u1_02 * v1_02 + u0_02 * v2_02), 4 * w 3 * (u2_03 * v0_03 + 2 * u1_03 * v1_03 + u0_03 * 2), 4 * w 4 * (u2_04 * v0_04 + 2 * u1_04 * 1), 4 * w 5 * (u2_05 * 1)] = (List.range 6).map (row2 6 w d) :=
    (congrArg₂ List.cons r2_0 (congrArg₂ List.cons r2_1 (congrArg₂ List.cons r2_2 (congrArg₂ List.cons r2_3 (congrArg₂ List.cons r2_4 (congrArg₂ List.cons r2_5 rfl))))))
  exact congrArg₂ Prod.mk L0 (congrArg₂ Prod.mk L1 L2)

theorem gllLag07_eq (g w : Nat → K) (xh : K) : gllLag07 g w xh = rowLists 7 w (dx (gnode 7 g) xh) := by
  unfold gllLag07
  extract_lets x d00 d01 d02 d03 d04 d05 d06 u0_01 u0_02 u0_03 u0_04 u0_05 u0_06 v0_05 v0_04 v0_03 v0_02 v0_01 v0_00 u1_02 u1_03 u1_04 u1_05 u1_06 v1_04 v1_03 v1_02 v1_01 v1_00 u2_03 u2_04 u2_05 u2_06 v2_03 v2_02 v2_01 v2_00
  generalize hd : dx (gnode 7 g) xh = d
  have hd00 : d00 = d 0 := by
    rw [← hd]; show xh * 2 + 2 = 2 * (xh - (-1)); ring
  have hd01 : d01 = d 1 := by
    rw [← hd]; show xh * 2 + 2 * g 0 = 2 * (xh - (-g 0)); ring
  have hd02 : d02 = d 2 := by
    rw [← hd]; show xh * 2 + 2 * g 1 = 2 * (xh - (-g 1)); ring
  have hd03 : d03 = d 3 := by
    rw [← hd]; show xh * 2 = 2 * (xh - (0)); ring
  have hd04 : d04 = d 4 := by
    rw [← hd]; show xh * 2 - 2 * g 1 = 2 * (xh - (g 1)); ring
  have hd05 : d05 = d 5 := by
    rw [← hd]; show xh * 2 - 2 * g 0 = 2 * (xh - (g 0)); ring
  have hd06 : d06 = d 6 := by
    rw [← hd]; show xh * 2 - 2 = 2 * (xh - (1)); ring
  have hu0_01 : u0_01 = U0 d 1 := by
    show 1 * d00 = U0 d 0 * d 0
    rw [hd00]
    gll_close
  have hu0_02 : u0_02 = U0 d 2 := by
    show u0_01 * d01 = U0 d 1 * d 1
    rw [hd01, hu0_01]
    gll_close
  have hu0_03 : u0_03 = U0 d 3 := by
    show u0_02 * d02 = U0 d 2 * d 2
    rw [hd02, hu0_02]
    gll_close
  have hu0_04 : u0_04 = U0 d 4 := by
    show u0_03 * d03 = U0 d 3 * d 3
    rw [hd03, hu0_03]
    gll_close
  have hu0_05 : u0_05 = U0 d 5 := by
    show u0_04 * d04 = U0 d 4 * d 4
    rw [hd04, hu0_04]
    gll_close
  have hu0_06 : u0_06 = U0 d 6 := by
    show u0_05 * d05 = U0 d 5 * d 5
    rw [hd05, hu0_05]
    gll_close
  have hv0_05 : v0_05 = U0 (rev 7 d) 1 := by
    show d06 * 1 = U0 (rev 7 d) 0 * d 6
    rw [hd06]
    gll_close
  have hv0_04 : v0_04 = U0 (rev 7 d) 2 := by
    show d05 * v0_05 = U0 (rev 7 d) 1 * d 5
    rw [hd05, hv0_05]
    gll_close
  have hv0_03 : v0_03 = U0 (rev 7 d) 3 := by
    show d04 * v0_04 = U0 (rev 7 d) 2 * d 4
    rw [hd04, hv0_04]
    gll_close
  have hv0_02 : v0_02 = U0 (rev 7 d) 4 := by
    show d03 * v0_03 = U0 (rev 7 d) 3 * d 3
    rw [hd03, hv0_03]
    gll_close
  have hv0_01 : v0_01 = U0 (rev 7 d) 5 := by
    show d02 * v0_02 = U0 (rev 7 d) 4 * d 2
    rw [hd02, hv0_02]
    gll_close
  have hv0_00 : v0_00 = U0 (rev 7 d) 6 := by
    show d01 * v0_01 = U0 (rev 7 d) 5 * d 1
    rw [hd01, hv0_01]
    gll_close
  have hu1_02 : u1_02 = U1 d 2 := by
    show 1 * d01 + u0_01 = U1 d 1 * d 1 + U0 d 1
    rw [hd01, hu0_01]
    gll_close
  have hu1_03 : u1_03 = U1 d 3 := by
    show u1_02 * d02 + u0_02 = U1 d 2 * d 2 + U0 d 2
    rw [hd02, hu0_02, hu1_02]
    gll_close
  have hu1_04 : u1_04 = U1 d 4 := by
    show u1_03 * d03 + u0_03 = U1 d 3 * d 3 + U0 d 3
    rw [hd03, hu0_03, hu1_03]
    gll_close
  have hu1_05 : u1_05 = U1 d 5 := by
    show u1_04 * d04 + u0_04 = U1 d 4 * d 4 + U0 d 4
    rw [hd04, hu0_04, hu1_04]
    gll_close
  have hu1_06 : u1_06 = U1 d 6 := by
    show u1_05 * d05 + u0_05 = U1 d 5 * d 5 + U0 d 5
    rw [hd05, hu0_05, hu1_05]
    gll_close
  have hv1_04 : v1_04 = U1 (rev 7 d) 2 := by
    show d05 * 1 + v0_05 = U1 (rev 7 d) 1 * d 5 + U0 (rev 7 d) 1
    rw [hd05, hv0_05]
    gll_close
  have hv1_03 : v1_03 = U1 (rev 7 d) 3 := by
    show d04 * v1_04 + v0_04 = U1 (rev 7 d) 2 * d 4 + U0 (rev 7 d) 2
    rw [hd04, hv0_04, hv1_04]
    gll_close
  have hv1_02 : v1_02 = U1 (rev 7 d) 4 := by
    show d03 * v1_03 + v0_03 = U1 (rev 7 d) 3 * d 3 + U0 (rev 7 d) 3
    rw [hd03, hv0_03, hv1_03]
    gll_close
  have hv1_01 : v1_01 = U1 (rev 7 d) 5 := by
    show d02 * v1_02 + v0_02 = U1 (rev 7 d) 4 * d 2 + U0 (rev 7 d) 4
    rw [hd02, hv0_02, hv1_02]
    gll_close
  have hv1_00 : v1_00 = U1 (rev 7 d) 6 := by
    show d01 * v1_01 + v0_01 = U1 (rev 7 d) 5 * d 1 + U0 (rev 7 d) 5
    rw [hd01, hv0_01, hv1_01]
    gll_close
  have hu2_03 : u2_03 = U2 d 3 := by
    show 2 * d02 + 2 * u1_02 = U2 d 2 * d 2 + 2 * U1 d 2
    rw [hd02, hu1_02]
    gll_close
  have hu2_04 : u2_04 = U2 d 4 := by
    show u2_03 * d03 + 2 * u1_03 = U2 d 3 * d 3 + 2 * U1 d 3
    rw [hd03, hu1_03, hu2_03]
    gll_close
  have hu2_05 : u2_05 = U2 d 5 := by
    show u2_04 * d04 + 2 * u1_04 = U2 d 4 * d 4 + 2 * U1 d 4
    rw [hd04, hu1_04, hu2_04]
    gll_close
  have hu2_06 : u2_06 = U2 d 6 := by
    show u2_05 * d05 + 2 * u1_05 = U2 d 5 * d 5 + 2 * U1 d 5
    rw [hd05, hu1_05, hu2_05]
    gll_close
  have hv2_03 : v2_03 = U2 (rev 7 d) 3 := by
    show d04 * 2 + 2 * v1_04 = U2 (rev 7 d) 2 * d 4 + 2 * U1 (rev 7 d) 2
    rw [hd04, hv1_04]
    gll_close
  have hv2_02 : v2_02 = U2 (rev 7 d) 4 := by
    show d03 * v2_03 + 2 * v1_03 = U2 (rev 7 d) 3 * d 3 + 2 * U1 (rev 7 d) 3
    rw [hd03, hv1_03, hv2_03]
    gll_close
  have hv2_01 : v2_01 = U2 (rev 7 d) 5 := by
    show d02 * v2_02 + 2 * v1_02 = U2 (rev 7 d) 4 * d 2 + 2 * U1 (rev 7 d) 4
    rw [hd02, hv1_02, hv2_02]
    gll_close
  have hv2_00 : v2_00 = U2 (rev 7 d) 6 := by
    show d01 * v2_01 + 2 * v1_01 = U2 (rev 7 d) 5 * d 1 + 2 * U1 (rev 7 d) 5
    rw [hd01, hv1_01, hv2_01]
    gll_close
  have r0_0 : w 0 * 1 * v0_00 = row0 7 w d 0 := by
    show w 0 * 1 * v0_00 = w 0 * U0 d 0 * U0 (rev 7 d) 6
    rw [hv0_00]
    gll_close
  have r0_1 : w 1 * u0_01 * v0_01 = row0 7 w d 1 := by
    show w 1 * u0_01 * v0_01 = w 1 * U0 d 1 * U0 (rev 7 d) 5
    rw [hu0_01, hv0_01]
    gll_close
  have r0_2 : w 2 * u0_02 * v0_02 = row0 7 w d 2 := by
    show w 2 * u0_02 * v0_02 = w 2 * U0 d 2 * U0 (rev 7 d) 4
    rw [hu0_02, hv0_02]
    gll_close
  have r0_3 : w 3 * u0_03 * v0_03 = row0 7 w d 3 := by
    show w 3 * u0_03 * v0_03 = w 3 * U0 d 3 * U0 (rev 7 d) 3
    rw [hu0_03, hv0_03]
    gll_close
  have r0_4 : w 4 * u0_04 * v0_04 = row0 7 w d 4 := by
    show w 4 * u0_04 * v0_04 = w 4 * U0 d 4 * U0 (rev 7 d) 2
    rw [hu0_04, hv0_04]
    gll_close
  have r0_5 : w 5 * u0_05 * v0_05 = row0 7 w d 5 := by
    show w 5 * u0_05 * v0_05 = w 5 * U0 d 5 * U0 (rev 7 d) 1
    rw [hu0_05, hv0_05]
    gll_close
  have r0_6 : w 6 * u0_06 * 1 = row0 7 w d 6 := by
    show w 6 * u0_06 * 1 = w 6 * U0 d 6 * U0 (rev 7 d) 0
    rw [hu0_06]
    gll_close
  have r1_0 : 2 * w 0 * (v1_00) = row1 7 w d 0 := by
    show 2 * w 0 * (v1_00) = 2 * w 0 * (U1 d 0 * U0 (rev 7 d) 6 + U0 d 0 * U1 (rev 7 d) 6)
    rw [hv1_00]
    gll_close
  have r1_1 : 2 * w 1 * (1 * v0_01 + u0_01 * v1_01) = row1 7 w d 1 := by
    show 2 * w 1 * (1 * v0_01 + u0_01 * v1_01) = 2 * w 1 * (U1 d 1 * U0 (rev 7 d) 5 + U0 d 1 * U1 (rev 7 d) 5)
    rw [hu0_01, hv0_01, hv1_01]
    gll_close
  have r1_2 : 2 * w 2 * (u1_02 * v0_02 + u0_02 * v1_02) = row1 7 w d 2 := by
    show 2 * w 2 * (u1_02 * v0_02 + u0_02 * v1_02) = 2 * w 2 * (U1 d 2 * U0 (rev 7 d) 4 + U0 d 2 * U1 (rev 7 d) 4)
    rw [hu0_02, hu1_02, hv0_02, hv1_02]
    gll_close
  have r1_3 : 2 * w 3 * (u1_03 * v0_03 + u0_03 * v1_03) = row1 7 w d 3 := by
    show 2 * w 3 * (u1_03 * v0_03 + u0_03 * v1_03) = 2 * w 3 * (U1 d 3 * U0 (rev 7 d) 3 + U0 d 3 * U1 (rev 7 d) 3)
    rw [hu0_03, hu1_03, hv0_03, hv1_03]
    gll_close
  have r1_4 : 2 * w 4 * (u1_04 * v0_04 + u0_04 * v1_04) = row1 7 w d 4 := by
    show 2 * w 4 * (u1_04 * v0_04 + u0_04 * v1_04) = 2 * w 4 * (U1 d 4 * U0 (rev 7 d) 2 + U0 d 4 * U1 (rev 7 d) 2)
    rw [hu0_04, hu1_04, hv0_04, hv1_04]
    gll_close
  have r1_5 : 2 * w 5 * (u1_05 * v0_05 + u0_05 * 1) = row1 7 w d 5 := by
    show 2 * w 5 * (u1_05 * v0_05 + u0_05 * 1) = 2 * w 5 * (U1 d 5 * U0 (rev 7 d) 1 + U0 d 5 * U1 (rev 7 d) 1)
    rw [hu0_05, hu1_05, hv0_05]
    gll_close
  have r1_6 : 2 * w 6 * (u1_06) = row1 7 w d 6 := by
    show 2 * w 6 * (u1_06) = 2 * w 6 * (U1 d 6 * U0 (rev 7 d) 0 + U0 d 6 * U1 (rev 7 d) 0)
    rw [hu1_06]
    gll_close
  have r2_0 : 4 * w 0 * (1 * v2_00) = row2 7 w d 0 := by
    show 4 * w 0 * (1 * v2_00) = 4 * w 0 * (U2 d 0 * U0 (rev 7 d) 6 + 2 * U1 d 0 * U1 (rev 7 d) 6 + U0 d 0 * U2 (rev 7 d) 6)
    rw [hv2_00]
    gll_close
  have r2_1 : 4 * w 1 * (2 * 1 * v1_01 + u0_01 * v2_01) = row2 7 w d 1 := by
    show 4 * w 1 * (2 * 1 * v1_01 + u0_01 * v2_01) = 4 * w 1 * (U2 d 1 * U0 (rev 7 d) 5 + 2 * U1 d 1 * U1 (rev 7 d) 5 + U0 d 1 * U2 (rev 7 d) 5)
    rw [hu0_01, hv1_01, hv2_01]
    gll_close
  have r2_2 : 4 * w 2 * (2 * v0_02 + 2 * u1_02 * v1_02 + u0_02 * v2_02) = row2 7 w d 2 := by
    show 4 * w 2 * (2 * v0_02 + 2 * u1_02 * v1_02 + u0_02 * v2_02) = 4 * w 2 * (U2 d 2 * U0 (rev 7 d) 4 + 2 * U1 d 2 * U1 (rev 7 d) 4 + U0 d 2 * U2 (rev 7 d) 4)
    rw [hu0_02, hu1_02, hv0_02, hv1_02, hv2_02]
    gll_close
  have r2_3 : 4 * w 3 * (u2_03 * v0_03 + 2 * u1_03 * v1_03 + u0_03 * v2_03) = row2 7 w d 3 := by
    show 4 * w 3 * (u2_03 * v0_03 + 2 * u1_03 * v1_03 + u0_03 * v2_03) = 4 * w 3 * (U2 d 3 * U0 (rev 7 d) 3 + 2 * U1 d 3 * U1 (rev 7 d) 3 + U0 d 3 * U2 (rev 7 d) 3)
    rw [hu0_03, hu1_03, hu2_03, hv0_03, hv1_03, hv2_03]
    gll_close
  have r2_4 : 4 * w 4 * (u2_04 * v0_04 + 2 * u1_04 * v1_04 + u0_04 * 2) = row2 7 w d 4 := by
    show 4 * w 4 * (u2_04 * v0_04 + 2 * u1_04 * v1_04 + u0_04 * 2) = 4 * w 4 * (U2 d 4 * U0 (rev 7 d) 2 + 2 * U1 d 4 * U1 (rev 7 d) 2 + U0 d 4 * U2 (rev 7 d) 2)
    rw [hu0_04, hu1_04, hu2_04, hv0_04, hv1_04]
    gll_close
  have r2_5 : 4 * w 5 * (u2_05 * v0_05 + 2 * u1_05 * 1) = row2 7 w d 5 := by
    show 4 * w 5 * (u2_05 * v0_05 + 2 * u1_05 * 1) = 4 * w 5 * (U2 d 5 * U0 (rev 7 d) 1 + 2 * U1 d 5 * U1 (rev 7 d) 1 + U0 d 5 * U2 (rev 7 d) 1)
    rw [hu1_05, hu2_05, hv0_05]
    gll_close
  have r2_6 : 4 * w 6 * (u2_06 * 1) = row2 7 w d 6 := by
    show 4 * w 6 * (u2_06 * 1) = 4 * w 6 * (U2 d 6 * U0 (rev 7 d) 0 + 2 * U1 d 6 * U1 (rev 7 d) 0 + U0 d 6 * U2 (rev 7 d) 0)
    rw [hu2_06]
    gll_close
  have L0 : [w 0 * 1 * v0_00, w 1 * u0_01 * v0_01, w 2 * u0_02 * v0_02, w 3 * u0_03 * v0_03, w 4 * u0_04 * v0_04, w 5 * u0_05 * v0_05, w 6 * u0_06 * 1] = (List.range 7).map (row0 7 w d) :=
    (congrArg₂ List.cons r0_0 (congrArg₂ List.cons r0_1 (congrArg₂ List.cons r0_2 (congrArg₂ List.cons r0_3 (congrArg₂ List.cons r0_4 (congrArg₂ List.cons r0_5 (congrArg₂ List.cons r0_6 rfl)))))))
  have L1 : [2 * w 0 * (v1_00), 2 * w 1 * (1 * v0_01 + u0_01 * v1_01), 2 * w 2 * (u1_02 * v0_02 + u0_02 * v1_02), 2 * w 3 * (u1_03 * v0_03 + u0_03 * v1_03), 2 * w 4 * (u1_04 * v0_04 + u0_04 * v1_04), 2 * w 5 * (u1_05 * v0_05 + u0_05 * 1), 2 * w 6 * (u1_06)] = (List.range 7).map (row1 7 w d) :=
    (congrArg₂ List.cons r1_0 (congrArg₂ List.cons r1_1 (congrArg₂ List.cons r1_2 (congrArg₂ List.cons r1_3 (congrArg₂ List.cons r1_4 (congrArg₂ List.cons r1_5 (congrArg₂ List.cons r1_6 rfl)))))))
  have L2 : [4 * w 0 * (1 * v2_00), 4 * w 1 * (2 * 1 * v1_01 + u0_01 * v2_01), 4 * w 2 * (2 * v0_02 + 2 * u1_02 * v1_02 + u0_02 * v2_02), 4 * w 3 * (u2_03 * v0_03 + 2 * u1_03 * v1_03 + u0_03 * v2_03), 4 * w 4 * (u2_04 * v0_04 + 2 * u1_04 * v1_04 + u0_04 * 2), 4 * w 5 * (u2_05 * v0_05 + 2 * u1_05 * 1), 4 * w 6 * (u2_06 * 1)] = (List.range 7).map (row2 7 w d) :=
    (congrArg₂ List.cons r2_0 (congrArg₂ List.cons r2_1 (congrArg₂ List.cons r2_2 (congrArg₂ List.cons r2_3 (congrArg₂ List.cons r2_4 (congrArg₂ List.cons r2_5 (congrArg₂ List.cons r2_6 rfl)))))))
  exact congrArg₂ Prod.mk L0 (congrArg₂ Prod.mk L1 L2)

theorem gllLag08_eq (g w : Nat → K) (xh : K) : gllLag08 g w xh = rowLists 8 w (dx (gnode 8 g) xh) := by
  unfold gllLag08
  extract_lets x d00 d01 d02 d03 d04 d05 d06 d07 u0_01 u0_02 u0_03 u0_04 u0_05 u0_06 u0_07 v0_06 v0_05 v0_04 v0_03 v0_02 v0_01 v0_00 u1_02 u1_03 u1_04 u1_05 u1_06 u1_07 v1_05 v1_04 v1_03 v1_02 v1_01 v1_00 u2_03 u2_04 u2_05 u2_06 u2_07 v2_04 v2_03 v2_02 v2_01 v2_00
  generalize hd : dx (gnode 8 g) xh = d
  have hd00 : d00 = d 0 := by
    rw [← hd]; show xh * 2 + 2 = 2 * (xh - (-1)); ring
  have hd01 : d01 = d 1 := by
    rw [← hd]; show xh * 2 + 2 * g 0 = 2 * (xh - (-g 0)); ring
  have hd02 : d02 = d 2 := by
    rw [← hd]; show xh * 2 + 2 * g 1 = 2 * (xh - (-g 1)); ring
  have hd03 : d03 = d 3 := by
    rw [← hd]; show xh * 2 + 2 * g 2 = 2 * (xh - (-g 2)); ring
  have hd04 : d04 = d 4 := by
    rw [← hd]; show xh * 2 - 2 * g 2 = 2 * (xh - (g 2)); ring
  have hd05 : d05 = d 5 := by
    rw [← hd]; show xh * 2 - 2 * g 1 = 2 * (xh - (g 1)); ring
  have hd06 : d06 = d 6 := by
    rw [← hd]; show xh * 2 - 2 * g 0 = 2 * (xh - (g 0)); ring
  have hd07 : d07 = d 7 := by
    rw [← hd]; show xh * 2 - 2 = 2 * (xh - (1)); ring
  have hu0_01 : u0_01 = U0 d 1 := by
    show 1 * d00 = U0 d 0 * d 0
    rw [hd00]
    gll_close
  have hu0_02 : u0_02 = U0 d 2 := by
    show u0_01 * d01 = U0 d 1 * d 1
    rw [hd01, hu0_01]
    gll_close
  have hu0_03 : u0_03 = U0 d 3 := by
    show u0_02 * d02 = U0 d 2 * d 2
    rw [hd02, hu0_02]
    gll_close
  have hu0_04 : u0_04 = U0 d 4 := by
    show u0_03 * d03 = U0 d 3 * d 3
    rw [hd03, hu0_03]
    gll_close
  have hu0_05 : u0_05 = U0 d 5 := by
    show u0_04 * d04 = U0 d 4 * d 4
    rw [hd04, hu0_04]
    gll_close
  have hu0_06 : u0_06 = U0 d 6 := by
    show u0_05 * d05 = U0 d 5 * d 5
    rw [hd05, hu0_05]
    gll_close
  have hu0_07 : u0_07 = U0 d 7 := by
    show u0_06 * d06 = U0 d 6 * d 6
    rw [hd06, hu0_06]
    gll_close
  have hv0_06 : v0_06 = U0 (rev 8 d) 1 := by
    show d07 * 1 = U0 (rev 8 d) 0 * d 7
    rw [hd07]
    gll_close
  have hv0_05 : v0_05 = U0 (rev 8 d) 2 := by
    show d06 * v0_06 = U0 (rev 8 d) 1 * d 6
    rw [hd06, hv0_06]
    gll_close
  have hv0_04 : v0_04 = U0 (rev 8 d) 3 := by
    show d05 * v0_05 = U0 (rev 8 d) 2 * d 5
    rw [hd05, hv0_05]
    gll_close
  have hv0_03 : v0_03 = U0 (rev 8 d) 4 := by
    show d04 * v0_04 = U0 (rev 8 d) 3 * d 4
    rw [hd04, hv0_04]
    gll_close
  have hv0_02 : v0_02 = U0 (rev 8 d) 5 := by
    show d03 * v0_03 = U0 (rev 8 d) 4 * d 3
    rw [hd03, hv0_03]
    gll_close
  have hv0_01 : v0_01 = U0 (rev 8 d) 6 := by
    show d02 * v0_02 = U0 (rev 8 d) 5 * d 2
    rw [hd02, hv0_02]
    gll_close
  have hv0_00 : v0_00 = U0 (rev 8 d) 7 := by
    show d01 * v0_01 = U0 (rev 8 d) 6 * d 1
    rw [hd01, hv0_01]
    gll_close
  have hu1_02 : u1_02 = U1 d 2 := by
    show 1 * d01 + u0_01 = U1 d 1 * d 1 + U0 d 1
    rw [hd01, hu0_01]
    gll_close
  have hu1_03 : u1_03 = U1 d 3 := by
    show u1_02 * d02 + u0_02 = U1 d 2 * d 2 + U0 d 2
    rw [hd02, hu0_02, hu1_02]
    gll_close
  have hu1_04 : u1_04 = U1 d 4 := by
    show u1_03 * d03 + u0_03 = U1 d 3 * d 3 + U0 d 3
    rw [hd03, hu0_03, hu1_03]
    gll_close
  have hu1_05 : u1_05 = U1 d 5 := by
    show u1_04 * d04 + u0_04 = U1 d 4 * d 4 + U0 d 4
    rw [hd04, hu0_04, hu1_04]
    gll_close
  have hu1_06 : u1_06 = U1 d 6 := by
    show u1_05 * d05 + u0_05 = U1 d 5 * d 5 + U0 d 5
    rw [hd05, hu0_05, hu1_05]
    gll_close
  have hu1_07 : u1_07 = U1 d 7 := by
    show u1_06 * d06 + u0_06 = U1 d 6 * d 6 + U0 d 6
    rw [hd06, hu0_06, hu1_06]
    gll_close
  have hv1_05 : v1_05 = U1 (rev 8 d) 2 := by
    show d06 * 1 + v0_06 = U1 (rev 8 d) 1 * d 6 + U0 (rev 8 d) 1
    rw [hd06, hv0_06]
    gll_close
  have hv1_04 : v1_04 = U1 (rev 8 d) 3 := by
    show d05 * v1_05 + v0_05 = U1 (rev 8 d) 2 * d 5 + U0 (rev 8 d) 2
    rw [hd05, hv0_05, hv1_05]
    gll_close
  have hv1_03 : v1_03 = U1 (rev 8 d) 4 := by
    show d04 * v1_04 + v0_04 = U1 (rev 8 d) 3 * d 4 + U0 (rev 8 d) 3
    rw [hd04, hv0_04, hv1_04]
    gll_close
  have hv1_02 : v1_02 = U1 (rev 8 d) 5 := by
    show d03 * v1_03 + v0_03 = U1 (rev 8 d) 4 * d 3 + U0 (rev 8 d) 4
    rw [hd03, hv0_03, hv1_03]
    gll_close
  have hv1_01 : v1_01 = U1 (rev 8 d) 6 := by
    show d02 * v1_02 + v0_02 = U1 (rev 8 d) 5 * d 2 + U0 (rev 8 d) 5
    rw [hd02, hv0_02, hv1_02]
    gll_close
  have hv1_00 : v1_00 = U1 (rev 8 d) 7 := by
    show d01 * v1_01 + v0_01 = U1 (rev 8 d) 6 * d 1 + U0 (rev 8 d) 6
    rw [hd01, hv0_01, hv1_01]
    gll_close
  have hu2_03 : u2_03 = U2 d 3 := by
    show 2 * d02 + 2 * u1_02 = U2 d 2 * d 2 + 2 * U1 d 2
    rw [hd02, hu1_02]
    gll_close
  have hu2_04 : u2_04 = U2 d 4 := by
    show u2_03 * d03 + 2 * u1_03 = U2 d 3 * d 3 + 2 * U1 d 3
    rw [hd03, hu1_03, hu2_03]
    gll_close
  have hu2_05 : u2_05 = U2 d 5 := by
    show u2_04 * d04 + 2 * u1_04 = U2 d 4 * d 4 + 2 * U1 d 4
    rw [hd04, hu1_04, hu2_04]
    gll_close
  have hu2_06 : u2_06 = U2 d 6 := by
    show u2_05 * d05 + 2 * u1_05 = U2 d 5 * d 5 + 2 * U1 d 5
    rw [hd05, hu1_05, hu2_05]
    gll_close
  have hu2_07 : u2_07 = U2 d 7 := by
    show u2_06 * d06 + 2 * u1_06 = U2 d 6 * d 6 + 2 * U1 d 6
    rw [hd06, hu1_06, hu2_06]
    gll_close
  have hv2_04 : v2_04 = U2 (rev 8 d) 3 := by
    show d05 * 2 + 2 * v1_05 = U2 (rev 8 d) 2 * d 5 + 2 * U1 (rev 8 d) 2
    rw [hd05, hv1_05]
    gll_close
  have hv2_03 : v2_03 = U2 (rev 8 d) 4 := by
    show d04 * v2_04 + 2 * v1_04 = U2 (rev 8 d) 3 * d 4 + 2 * U1 (rev 8 d) 3
    rw [hd04, hv1_04, hv2_04]
    gll_close
  have hv2_02 : v2_02 = U2 (rev 8 d) 5 := by
    show d03 * v2_03 + 2 * v1_03 = U2 (rev 8 d) 4 * d 3 + 2 * U1 (rev 8 d) 4
    rw [hd03, hv1_03, hv2_03]
    gll_close
  have hv2_01 : v2_01 = U2 (rev 8 d) 6 := by
    show d02 * v2_02 + 2 * v1_02 = U2 (rev 8 d) 5 * d 2 + 2 * U1 (rev 8 d) 5
    rw [hd02, hv1_02, hv2_02]
    gll_close
  have hv2_00 : v2_00 = U2 (rev 8 d) 7 := by
    show d01 * v2_01 + 2 * v1_01 = U2 (rev 8 d) 6 * d 1 + 2 * U1 (rev 8 d) 6
    rw [hd01, hv1_01, hv2_01]
    gll_close
  have r0_0 : w 0 * 1 * v0_00 = row0 8 w d 0 := by
    show w 0 * 1 * v0_00 = w 0 * U0 d 0 * U0 (rev 8 d) 7
    rw [hv0_00]
    gll_close
  have r0_1 : w 1 * u0_01 * v0_01 = row0 8 w d 1 := by
    show w 1 * u0_01 * v0_01 = w 1 * U0 d 1 * U0 (rev 8 d) 6
    rw [hu0_01, hv0_01]
    gll_close
  have r0_2 : w 2 * u0_02 * v0_02 = row0 8 w d 2 := by
    show w 2 * u0_02 * v0_02 = w 2 * U0 d 2 * U0 (rev 8 d) 5
    rw [hu0_02, hv0_02]
    gll_close
  have r0_3 : w 3 * u0_03 * v0_03 = row0 8 w d 3 := by
    show w 3 * u0_03 * v0_03 = w 3 * U0 d 3 * U0 (rev 8 d) 4
    rw [hu0_03, hv0_03]
    gll_close
  have r0_4 : w 4 * u0_04 * v0_04 = row0 8 w d 4 := by
    show w 4 * u0_04 * v0_04 = w 4 * U0 d 4 * U0 (rev 8 d) 3
    rw [hu0_04, hv0_04]
    gll_close
  have r0_5 : w 5 * u0_05 * v0_05 = row0 8 w d 5 := by
    show w 5 * u0_05 * v0_05 = w 5 * U0 d 5 * U0 (rev 8 d) 2
    rw [hu0_05, hv0_05]
    gll_close
  have r0_6 : w 6 * u0_06 * v0_06 = row0 8 w d 6 := by
    show w 6 * u0_06 * v0_06 = w 6 * U0 d 6 * U0 (rev 8 d) 1
    rw [hu0_06, hv0_06]
    gll_close
  have r0_7 : w 7 * u0_07 * 1 = row0 8 w d 7 := by
    show w 7 * u0_07 * 1 = w 7 * U0 d 7 * U0 (rev 8 d) 0
    rw [hu0_07]
    gll_close
  have r1_0 : 2 * w 0 * (v1_00) = row1 8 w d 0 := by
    show 2 * w 0 * (v1_00) = 2 * w 0 * (U1 d 0 * U0 (rev 8 d) 7 + U0 d 0 * U1 (rev 8 d) 7)
    rw [hv1_00]
    gll_close
  have r1_1 : 2 * w 1 * (1 * v0_01 + u0_01 * v1_01) = row1 8 w d 1 := by
    show 2 * w 1 * (1 * v0_01 + u0_01 * v1_01) = 2 * w 1 * (U1 d 1 * U0 (rev 8 d) 6 + U0 d 1 * U1 (rev 8 d) 6)
    rw [hu0_01, hv0_01, hv1_01]
    gll_close
  have r1_2 : 2 * w 2 * (u1_02 * v0_02 + u0_02 * v1_02) = row1 8 w d 2 := by
    show 2 * w 2 * (u1_02 * v0_02 + u0_02 * v1_02) = 2 * w 2 * (U1 d 2 * U0 (rev 8 d) 5 + U0 d 2 * U1 (rev 8 d) 5)
    rw [hu0_02, hu1_02, hv0_02, hv1_02]
    gll_close
  have r1_3 : 2 * w 3 * (u1_03 * v0_03 + u0_03 * v1_03) = row1 8 w d 3 := by
    show 2 * w 3 * (u1_03 * v0_03 + u0_03 * v1_03) = 2 * w 3 * (U1 d 3 * U0 (rev 8 d) 4 + U0 d 3 * U1 (rev 8 d) 4)
    rw [hu0_03, hu1_03, hv0_03, hv1_03]
    gll_close
  have r1_4 : 2 * w 4 * (u1_04 * v0_04 + u0_04 * v1_04) = row1 8 w d 4 := by
    show 2 * w 4 * (u1_04 * v0_04 + u0_04 * v1_04) = 2 * w 4 * (U1 d 4 * U0 (rev 8 d) 3 + U0 d 4 * U1 (rev 8 d) 3)
    rw [hu0_04, hu1_04, hv0_04, hv1_04]
    gll_close
  have r1_5 : 2 * w 5 * (u1_05 * v0_05 + u0_05 * v1_05) = row1 8 w d 5 := by
    show 2 * w 5 * (u1_05 * v0_05 + u0_05 * v1_05) = 2 * w 5 * (U1 d 5 * U0 (rev 8 d) 2 + U0 d 5 * U1 (rev 8 d) 2)
    rw [hu0_05, hu1_05, hv0_05, hv1_05]
    gll_close
  have r1_6 : 2 * w 6 * (u1_06 * v0_06 + u0_06 * 1) = row1 8 w d 6 := by
    show 2 * w 6 * (u1_06 * v0_06 + u0_06 * 1) = 2 * w 6 * (U1 d 6 * U0 (rev 8 d) 1 + U0 d 6 * U1 (rev 8 d) 1)
    rw [hu0_06, hu1_06, hv0_06]
    gll_close
  have r1_7 : 2 * w 7 * (u1_07) = row1 8 w d 7 := by
    show 2 * w 7 * (u1_07) = 2 * w 7 * (U1 d 7 * U0 (rev 8 d) 0 + U0 d 7 * U1 (rev 8 d) 0)
    rw [hu1_07]
    gll_close
  have r2_0 : 4 * w 0 * (1 * v2_00) = row2 8 w d 0 := by
    show 4 * w 0 * (1 * v2_00) = 4 * w 0 * (U2 d 0 * U0 (rev 8 d) 7 + 2 * U1 d 0 * U1 (rev 8 d) 7 + U0 d 0 * U2 (rev 8 d) 7)
    rw [hv2_00]
    gll_close
  have r2_1 : 4 * w 1 * (2 * 1 * v1_01 + u0_01 * v2_01) = row2 8 w d 1 := by
    show 4 * w 1 * (2 * 1 * v1_01 + u0_01 * v2_01) = 4 * w 1 * (U2 d 1 * U0 (rev 8 d) 6 + 2 * U1 d 1 * U1 (rev 8 d) 6 + U0 d 1 * U2 (rev 8 d) 6)
    rw [hu0_01, hv1_01, hv2_01]
    gll_close
  have r2_2 : 4 * w 2 * (2 * v0_02 + 2 * u1_02 * v1_02 + u0_02 * v2_02) = row2 8 w d 2 := by
    show 4 * w 2 * (2 * v0_02 + 2 * u1_02 * v1_02 + u0_02 * v2_02) = 4 * w 2 * (U2 d 2 * U0 (rev 8 d) 5 + 2 * U1 d 2 * U1 (rev 8 d) 5 + U0 d 2 * U2 (rev 8 d) 5)
    rw [hu0_02, hu1_02, hv0_02, hv1_02, hv2_02]
    gll_close
  have r2_3 : 4 * w 3 * (u2_03 * v0_03 + 2 * u1_03 * v1_03 + u0_03 * v2_03) = row2 8 w d 3 := by
    show 4 * w 3 * (u2_03 * v0_03 + 2 * u1_03 * v1_03 + u0_03 * v2_03) = 4 * w 3 * (U2 d 3 * U0 (rev 8 d) 4 + 2 * U1 d 3 * U1 (rev 8 d) 4 + U0 d 3 * U2 (rev 8 d) 4)
    rw [hu0_03, hu1_03, hu2_03, hv0_03, hv1_03, hv2_03]
    gll_close
  have r2_4 : 4 * w 4 * (u2_04 * v0_04 + 2 * u1_04 * v1_04 + u0_04 * v2_04) = row2 8 w d 4 := by
    show 4 * w 4 * (u2_04 * v0_04 + 2 * u1_04 * v1_04 + u0_04 * v2_04) = 4 * w 4 * (U2 d 4 * U0 (rev 8 d) 3 + 2 * U1 d 4 * U1 (rev 8 d) 3 + U0 d 4 * U2 (rev 8 d) 3)
    rw [hu0_04, hu1_04, hu2_04, hv0_04, hv1_04, hv2_04]
    gll_close
  have r2_5 : 4 * w 5 * (u2_05 * v0_05 + 2 * u1_05 * v1_05 + u0_05 * 2) = row2 8 w d 5 := by
    show 4 * w 5 * (u2_05 * v0_05 + 2 * u1_05 * v1_05 + u0_05 * 2) = 4 * w 5 * (U2 d 5 * U0 (rev 8 d) 2 + 2 * U1 d 5 * U1 (rev 8 d) 2 + U0 d 5 * U2 (rev 8 d) 2)
    rw [hu0_05, hu1_05, hu2_05, hv0_05, hv1_05]
    gll_close
  have r2_6 : 4 * w 6 * (u2_06 * v0_06 + 2 * u1_06 * 1) = row2 8 w d 6 := by
    show 4 * w 6 * (u2_06 * v0_06 + 2 * u1_06 * 1) = 4 * w 6 * (U2 d 6 * U0 (rev 8 d) 1 + 2 * U1 d 6 * U1 (rev 8 d) 1 + U0 d 6 * U2 (rev 8 d) 1)
    rw [hu1_06, hu2_06, hv0_06]
    gll_close
  have r2_7 : 4 * w 7 * (u2_07 * 1) = row2 8 w d 7 := by
    show 4 * w 7 * (u2_07 * 1) = 4 * w 7 * (U2 d 7 * U0 (rev 8 d) 0 + 2 * U1 d 7 * U1 (rev 8 d) 0 + U0 d 7 * U2 (rev 8 d) 0)
    rw [hu2_07]
    gll_close
  have L0 : [w 0 * 1 * v0_00, w 1 * u0_01 * v0_01, w 2 * u0_02 * v0_02, w 3 * u0_03 * v0_03, w 4 * u0_04 * v0_04, w 5 * u0_05 * v0_05, w 6 * u0_06 * v0_06, w 7 * u0_07 * 1] = (List.range 8).map (row0 8 w d) :=
    (congrArg₂ List.cons r0_0 (congrArg₂ List.cons r0_1 (congrArg₂ List.cons r0_2 (congrArg₂ List.cons r0_3 (congrArg₂ List.cons r0_4 (congrArg₂ List.cons r0_5 (congrArg₂ List.cons r0_6 (congrArg₂ List.cons r0_7 rfl))))))))
  have L1 : [2 * w 0 * (v1_00), 2 * w 1 * (1 * v0_01 + u0_01 * v1_01), 2 * w 2 * (u1_02 * v0_02 + u0_02 * v1_02), 2 * w 3 * (u1_03 * v0_03 + u0_03 * v1_03), 2 * w 4 * (u1_04 * v0_04 + u0_04 * v1_04), 2 * w 5 * (u1_05 * v0_05 + u0_05 * v1_05), 2 * w 6 * (u1_06 * v0_06 + u0_06 * 1), 2 * w 7 * (u1_07)] = (List.range 8).map (row1 8 w d) :=
    (congrArg₂ List.cons r1_0 (congrArg₂ List.cons r1_1 (congrArg₂ List.cons r1_2 (congrArg₂ List.cons r1_3 (congrArg₂ List.cons r1_4 (congrArg₂ List.cons r1_5 (congrArg₂ List.cons r1_6 (congrArg₂ List.cons r1_7 rfl))))))))
  have L2 : [4 * w 0 * (1 * v2_00), 4 * w 1 * (2 * 1 * v1_01 + u0_01 * v2_01), 4 * w 2 * (2 * v0_02 + 2 * u1_02 * v1_02 + u0_02 * v2_02), 4 * w 3 * (u2_03 * v0_03 + 2 * u1_03 * v1_03 + u0_03 * v2_03), 4 * w 4 * (u2_04 * v0_04 + 2 * u1_04 * v1_04 + u0_04 * v2_04), 4 * w 5 * (u2_05 * v0_05 + 2 * u1_05 * v1_05 + u0_05 * 2), 4 * w 6 * (u2_06 * v0_06 + 2 * u1_06 * 1), 4 * w 7 * (u2_07 * 1)] = (List.range 8).map (row2 8 w d) :=
    (congrArg₂ List.cons r2_0 (congrArg₂ List.cons r2_1 (congrArg₂ List.cons r2_2 (congrArg₂ List.cons r2_3 (congrArg₂ List.cons r2_4 (congrArg₂ List.cons r2_5 (congrArg₂ List.cons r2_6 (congrArg₂ List.cons r2_7 rfl))))))))
  exact congrArg₂ Prod.mk L0 (congrArg₂ Prod.mk L1 L2)

theorem gllLag09_eq (g w : Nat → K) (xh : K) : gllLag09 g w xh = rowLists 9 w (dx (gnode 9 g) xh) := by
  unfold gllLag09
  extract_lets x d00 d01 d02 d03 d04 d05 d06 d07 d08 u0_01 u0_02 u0_03 u0_04 u0_05 u0_06 u0_07 u0_08 v0_07 v0_06 v0_05 v0_04 v0_03 v0_02 v0_01 v0_00 u1_02 u1_03 u1_04 u1_05 u1_06 u1_07 u1_08 v1_06 v1_05 v1_04 v1_03 v1_02 v1_01 v1_00 u2_03 u2_04 u2_05 u2_06 u2_07 u2_08 v2_05 v2_04 v2_03 v2_02 v2_01 v2_00
  generalize hd : dx (gnode 9 g) xh = d
  have hd00 : d00 = d 0 := by
    rw [← hd]; show xh * 2 + 2 = 2 * (xh - (-1)); ring
  have hd01 : d01 = d 1 := by
    rw [← hd]; show xh * 2 + 2 * g 0 = 2 * (xh - (-g 0)); ring
  have hd02 : d02 = d 2 := by
    rw [← hd]; show xh * 2 + 2 * g 1 = 2 * (xh - (-g 1)); ring
  have hd03 : d03 = d 3 := by
    rw [← hd]; show xh * 2 + 2 * g 2 = 2 * (xh - (-g 2)); ring
  have hd04 : d04 = d 4 := by
    rw [← hd]; show xh * 2 = 2 * (xh - (0)); ring
  have hd05 : d05 = d 5 := by
    rw [← hd]; show xh * 2 - 2 * g 2 = 2 * (xh - (g 2)); ring
  have hd06 : d06 = d 6 := by
    rw [← hd]; show xh * 2 - 2 * g 1 = 2 * (xh - (g 1)); ring
  have hd07 : d07 = d 7 := by
    rw [← hd]; show xh * 2 - 2 * g 0 = 2 * (xh - (g 0)); ring
  have hd08 : d08 = d 8 := by
    rw [← hd]; show xh * 2 - 2 = 2 * (xh - (1)); ring
  have hu0_01 : u0_01 = U0 d 1 := by
    show 1 * d00 = U0 d 0 * d 0
    rw [hd00]
    gll_close
  have hu0_02 : u0_02 = U0 d 2 := by
    show u0_01 * d01 = U0 d 1 * d 1
    rw [hd01, hu0_01]
    gll_close
  have hu0_03 : u0_03 = U0 d 3 := by
    show u0_02 * d02 = U0 d 2 * d 2
    rw [hd02, hu0_02]
    gll_close
  have hu0_04 : u0_04 = U0 d 4 := by
    show u0_03 * d03 = U0 d 3 * d 3
    rw [hd03, hu0_03]
    gll_close
  have hu0_05 : u0_05 = U0 d 5 := by
    show u0_04 * d04 = U0 d 4 * d 4
    rw [hd04, hu0_04]
    gll_close
  have hu0_06 : u0_06 = U0 d 6 := by
    show u0_05 * d05 = U0 d 5 * d 5
    rw [hd05, hu0_05]
    gll_close
  have hu0_07 : u0_07 = U0 d 7 := by
    show u0_06 * d06 = U0 d 6 * d 6
    rw [hd06, hu0_06]
    gll_close
  have hu0_08 : u0_08 = U0 d 8 := by
    show u0_07 * d07 = U0 d 7 * d 7
    rw [hd07, hu0_07]
    gll_close
  have hv0_07 : v0_07 = U0 (rev 9 d) 1 := by
    show d08 * 1 = U0 (rev 9 d) 0 * d 8
    rw [hd08]
    gll_close
  have hv0_06 : v0_06 = U0 (rev 9 d) 2 := by
    show d07 * v0_07 = U0 (rev 9 d) 1 * d 7
    rw [hd07, hv0_07]
    gll_close
  have hv0_05 : v0_05 = U0 (rev 9 d) 3 := by
    show d06 * v0_06 = U0 (rev 9 d) 2 * d 6
    rw [hd06, hv0_06]
    gll_close
  have hv0_04 : v0_04 = U0 (rev 9 d) 4 := by
    show d05 * v0_05 = U0 (rev 9 d) 3 * d 5
    rw [hd05, hv0_05]
    gll_close
  have hv0_03 : v0_03 = U0 (rev 9 d) 5 := by
    show d04 * v0_04 = U0 (rev 9 d) 4 * d 4
    rw [hd04, hv0_04]
    gll_close
  have hv0_02 : v0_02 = U0 (rev 9 d) 6 := by
    show d03 * v0_03 = U0 (rev 9 d) 5 * d 3
    rw [hd03, hv0_03]
    gll_close
  have hv0_01 : v0_01 = U0 (rev 9 d) 7 := by
    show d02 * v0_02 = U0 (rev 9 d) 6 * d 2
    rw [hd02, hv0_02]
    gll_close
  have hv0_00 : v0_00 = U0 (rev 9 d) 8 := by
    show d01 * v0_01 = U0 (rev 9 d) 7 * d 1
    rw [hd01, hv0_01]
    gll_close
  have hu1_02 : u1_02 = U1 d 2 := by
    show 1 * d01 + u0_01 = U1 d 1 * d 1 + U0 d 1
    rw [hd01, hu0_01]
    gll_close
  have hu1_03 : u1_03 = U1 d 3 := by
    show u1_02 * d02 + u0_02 = U1 d 2 * d 2 + U0 d 2
    rw [hd02, hu0_02, hu1_02]
    gll_close
  have hu1_04 : u1_04 = U1 d 4 := by
    show u1_03 * d03 + u0_03 = U1 d 3 * d 3 + U0 d 3
    rw [hd03, hu0_03, hu1_03]
    gll_close
  have hu1_05 : u1_05 = U1 d 5 := by
    show u1_04 * d04 + u0_04 = U1 d 4 * d 4 + U0 d 4
    rw [hd04, hu0_04, hu1_04]
    gll_close
  have hu1_06 : u1_06 = U1 d 6 := by
    show u1_05 * d05 + u0_05 = U1 d 5 * d 5 + U0 d 5
    rw [hd05, hu0_05, hu1_05]
    gll_close
  have hu1_07 : u1_07 = U1 d 7 := by
    show u1_06 * d06 + u0_06 = U1 d 6 * d 6 + U0 d 6
    rw [hd06, hu0_06, hu1_06]
    gll_close
  have hu1_08 : u1_08 = U1 d 8 := by
    show u1_07 * d07 + u0_07 = U1 d 7 * d 7 + U0 d 7
    rw [hd07, hu0_07, hu1_07]
    gll_close
  have hv1_06 : v1_06 = U1 (rev 9 d) 2 := by
    show d07 * 1 + v0_07 = U1 (rev 9 d) 1 * d 7 + U0 (rev 9 d) 1
    rw [hd07, hv0_07]
    gll_close
  have hv1_05 : v1_05 = U1 (rev 9 d) 3 := by
    show d06 * v1_06 + v0_06 = U1 (rev 9 d) 2 * d 6 + U0 (rev 9 d) 2
    rw [hd06, hv0_06, hv1_06]
    gll_close
  have hv1_04 : v1_04 = U1 (rev 9 d) 4 := by
    show d05 * v1_05 + v0_05 = U1 (rev 9 d) 3 * d 5 + U0 (rev 9 d) 3
    rw [hd05, hv0_05, hv1_05]
    gll_close
  have hv1_03 : v1_03 = U1 (rev 9 d) 5 := by
    show d04 * v1_04 + v0_04 = U1 (rev 9 d) 4 * d 4 + U0 (rev 9 d) 4
    rw [hd04, hv0_04, hv1_04]
    gll_close
  have hv1_02 : v1_02 = U1 (rev 9 d) 6 := by
    show d03 * v1_03 + v0_03 = U1 (rev 9 d) 5 * d 3 + U0 (rev 9 d) 5
    rw [hd03, hv0_03, hv1_03]
    gll_close
  have hv1_01 : v1_01 = U1 (rev 9 d) 7 := by
    show d02 * v1_02 + v0_02 = U1 (rev 9 d) 6 * d 2 + U0 (rev 9 d) 6
    rw [hd02, hv0_02, hv1_02]
    gll_close
  have hv1_00 : v1_00 = U1 (rev 9 d) 8 := by
    show d01 * v1_01 + v0_01 = U1 (rev 9 d) 7 * d 1 + U0 (rev 9 d) 7
    rw [hd01, hv0_01, hv1_01]
    gll_close
  have hu2_03 : u2_03 = U2 d 3 := by
    show 2 * d02 + 2 * u1_02 = U2 d 2 * d 2 + 2 * U1 d 2
    rw [hd02, hu1_02]
    gll_close
  have hu2_04 : u2_04 = U2 d 4 := by
    show u2_03 * d03 + 2 * u1_03 = U2 d 3 * d 3 + 2 * U1 d 3
    rw [hd03, hu1_03, hu2_03]
    gll_close
  have hu2_05 : u2_05 = U2 d 5 := by
    show u2_04 * d04 + 2 * u1_04 = U2 d 4 * d 4 + 2 * U1 d 4
    rw [hd04, hu1_04, hu2_04]
    gll_close
  have hu2_06 : u2_06 = U2 d 6 := by
    show u2_05 * d05 + 2 * u1_05 = U2 d 5 * d 5 + 2 * U1 d 5
    rw [hd05, hu1_05, hu2_05]
    gll_close
  have hu2_07 : u2_07 = U2 d 7 := by
    show u2_06 * d06 + 2 * u1_06 = U2 d 6 * d 6 + 2 * U1 d 6
    rw [hd06, hu1_06, hu2_06]
    gll_close
  have hu2_08 : u2_08 = U2 d 8 := by
    show u2_07 * d07 + 2 * u1_07 = U2 d 7 * d 7 + 2 * U1 d 7
    rw [hd07, hu1_07, hu2_07]
    gll_close
  have hv2_05 : v2_05 = U2 (rev 9 d) 3 := by
    show d06 * 2 + 2 * v1_06 = U2 (rev 9 d) 2 * d 6 + 2 * U1 (rev 9 d) 2
    rw [hd06, hv1_06]
    gll_close
  have hv2_04 : v2_04 = U2 (rev 9 d) 4 := by
    show d05 * v2_05 + 2 * v1_05 = U2 (rev 9 d) 3 * d 5 + 2 * U1 (rev 9 d) 3
    rw [hd05, hv1_05, hv2_05]
    gll_close
  have hv2_03 : v2_03 = U2 (rev 9 d) 5 := by
    show d04 * v2_04 + 2 * v1_04 = U2 (rev 9 d) 4 * d 4 + 2 * U1 (rev 9 d) 4
    rw [hd04, hv1_04, hv2_04]
    gll_close
  have hv2_02 : v2_02 = U2 (rev 9 d) 6 := by
    show d03 * v2_03 + 2 * v1_03 = U2 (rev 9 d) 5 * d 3 + 2 * U1 (rev 9 d) 5
    rw [hd03, hv1_03, hv2_03]
    gll_close
  have hv2_01 : v2_01 = U2 (rev 9 d) 7 := by
    show d02 * v2_02 + 2 * v1_02 = U2 (rev 9 d) 6 * d 2 + 2 * U1 (rev 9 d) 6
    rw [hd02, hv1_02, hv2_02]
    gll_close
  have hv2_00 : v2_00 = U2 (rev 9 d) 8 := by
    show d01 * v2_01 + 2 * v1_01 = U2 (rev 9 d) 7 * d 1 + 2 * U1 (rev 9 d) 7
    rw [hd01, hv1_01, hv2_01]
    gll_close
  have r0_0 : w 0 * 1 * v0_00 = row0 9 w d 0 := by
    show w 0 * 1 * v0_00 = w 0 * U0 d 0 * U0 (rev 9 d) 8
    rw [hv0_00]
    gll_close
  have r0_1 : w 1 * u0_01 * v0_01 = row0 9 w d 1 := by
    show w 1 * u0_01 * v0_01 = w 1 * U0 d 1 * U0 (rev 9 d) 7
    rw [hu0_01, hv0_01]
    gll_close
  have r0_2 : w 2 * u0_02 * v0_02 = row0 9 w d 2 := by
    show w 2 * u0_02 * v0_02 = w 2 * U0 d 2 * U0 (rev 9 d) 6
    rw [hu0_02, hv0_02]
    gll_close
  have r0_3 : w 3 * u0_03 * v0_03 = row0 9 w d 3 := by
    show w 3 * u0_03 * v0_03 = w 3 * U0 d 3 * U0 (rev 9 d) 5
    rw [hu0_03, hv0_03]
    gll_close
  have r0_4 : w 4 * u0_04 * v0_04 = row0 9 w d 4 := by
    show w 4 * u0_04 * v0_04 = w 4 * U0 d 4 * U0 (rev 9 d) 4
    rw [hu0_04, hv0_04]
    gll_close
  have r0_5 : w 5 * u0_05 * v0_05 = row0 9 w d 5 := by
    show w 5 * u0_05 * v0_05 = w 5 * U0 d 5 * U0 (rev 9 d) 3
    rw [hu0_05, hv0_05]
    gll_close
  have r0_6 : w 6 * u0_06 * v0_06 = row0 9 w d 6 := by
    show w 6 * u0_06 * v0_06 = w 6 * U0 d 6 * U0 (rev 9 d) 2
    rw [hu0_06, hv0_06]
    gll_close
  have r0_7 : w 7 * u0_07 * v0_07 = row0 9 w d 7 := by
    show w 7 * u0_07 * v0_07 = w 7 * U0 d 7 * U0 (rev 9 d) 1
    rw [hu0_07, hv0_07]
    gll_close
  have r0_8 : w 8 * u0_08 * 1 = row0 9 w d 8 := by
    show w 8 * u0_08 * 1 = w 8 * U0 d 8 * U0 (rev 9 d) 0
    rw [hu0_08]
    gll_close
  have r1_0 : 2 * w 0 * (v1_00) = row1 9 w d 0 := by
    show 2 * w 0 * (v1_00) = 2 * w 0 * (U1 d 0 * U0 (rev 9 d) 8 + U0 d 0 * U1 (rev 9 d) 8)
    rw [hv1_00]
    gll_close
  have r1_1 : 2 * w 1 * (1 * v0_01 + u0_01 * v1_01) = row1 9 w d 1 := by
    show 2 * w 1 * (1 * v0_01 + u0_01 * v1_01) = 2 * w 1 * (U1 d 1 * U0 (rev 9 d) 7 + U0 d 1 * U1 (rev 9 d) 7)
    rw [hu0_01, hv0_01, hv1_01]
    gll_close
  have r1_2 : 2 * w 2 * (u1_02 * v0_02 + u0_02 * v1_02) = row1 9 w d 2 := by
    show 2 * w 2 * (u1_02 * v0_02 + u0_02 * v1_02) = 2 * w 2 * (U1 d 2 * U0 (rev 9 d) 6 + U0 d 2 * U1 (rev 9 d) 6)
    rw [hu0_02, hu1_02, hv0_02, hv1_02]
    gll_close
  have r1_3 : 2 * w 3 * (u1_03 * v0_03 + u0_03 * v1_03) = row1 9 w d 3 := by
    show 2 * w 3 * (u1_03 * v0_03 + u0_03 * v1_03) = 2 * w 3 * (U1 d 3 * U0 (rev 9 d) 5 + U0 d 3 * U1 (rev 9 d) 5)
    rw [hu0_03, hu1_03, hv0_03, hv1_03]
    gll_close
  have r1_4 : 2 * w 4 * (u1_04 * v0_04 + u0_04 * v1_04) = row1 9 w d 4 := by
    show 2 * w 4 * (u1_04 * v0_04 + u0_04 * v1_04) = 2 * w 4 * (U1 d 4 * U0 (rev 9 d) 4 + U0 d 4 * U1 (rev 9 d) 4)
    rw [hu0_04, hu1_04, hv0_04, hv1_04]
    gll_close
  have r1_5 : 2 * w 5 * (u1_05 * v0_05 + u0_05 * v1_05) = row1 9 w d 5 := by
    show 2 * w 5 * (u1_05 * v0_05 + u0_05 * v1_05) = 2 * w 5 * (U1 d 5 * U0 (rev 9 d) 3 + U0 d 5 * U1 (rev 9 d) 3)
    rw [hu0_05, hu1_05, hv0_05, hv1_05]
    gll_close
  have r1_6 : 2 * w 6 * (u1_06 * v0_06 + u0_06 * v1_06) = row1 9 w d 6 := by
    show 2 * w 6 * (u1_06 * v0_06 + u0_06 * v1_06) = 2 * w 6 * (U1 d 6 * U0 (rev 9 d) 2 + U0 d 6 * U1 (rev 9 d) 2)
    rw [hu0_06, hu1_06, hv0_06, hv1_06]
    gll_close
  have r1_7 : 2 * w 7 * (u1_07 * v0_07 + u0_07 * 1) = row1 9 w d 7 := by
    show 2 * w 7 * (u1_07 * v0_07 + u0_07 * 1) = 2 * w 7 * (U1 d 7 * U0 (rev 9 d) 1 + U0 d 7 * U1 (rev 9 d) 1)
    rw [hu0_07, hu1_07, hv0_07]
    gll_close
  have r1_8 : 2 * w 8 * (u1_08) = row1 9 w d 8 := by
    show 2 * w 8 * (u1_08) = 2 * w 8 * (U1 d 8 * U0 (rev 9 d) 0 + U0 d 8 * U1 (rev 9 d) 0)
    rw [hu1_08]
    gll_close
  have r2_0 : 4 * w 0 * (1 * v2_00) = row2 9 w d 0 := by
    show 4 * w 0 * (1 * v2_00) = 4 * w 0 * (U2 d 0 * U0 (rev 9 d) 8 + 2 * U1 d 0 * U1 (rev 9 d) 8 + U0 d 0 * U2 (rev 9 d) 8)
    rw [hv2_00]
    gll_close
  have r2_1 : 4 * w 1 * (2 * 1 * v1_01 + u0_01 * v2_01) = row2 9 w d 1 := by
    show 4 * w 1 * (2 * 1 * v1_01 + u0_01 * v2_01) = 4 * w 1 * (U2 d 1 * U0 (rev 9 d) 7 + 2 * U1 d 1 * U1 (rev 9 d) 7 + U0 d 1 * U2 (rev 9 d) 7)
    rw [hu0_01, hv1_01, hv2_01]
    gll_close
  have r2_2 : 4 * w 2 * (2 * v0_02 + 2 * u1_02 * v1_02 + u0_02 * v2_02) = row2 9 w d 2 := by
    show 4 * w 2 * (2 * v0_02 + 2 * u1_02 * v1_02 + u0_02 * v2_02) = 4 * w 2 * (U2 d 2 * U0 (rev 9 d) 6 + 2 * U1 d 2 * U1 (rev 9 d) 6 + U0 d 2 * U2 (rev 9 d) 6)
    rw [hu0_02, hu1_02, hv0_02, hv1_02, hv2_02]
    gll_close
  have r2_3 : 4 * w 3 * (u2_03 * v0_03 + 2 * u1_03 * v1_03 + u0_03 * v2_03) = row2 9 w d 3 := by
    show 4 * w 3 * (u2_03 * v0_03 + 2 * u1_03 * v1_03 + u0_03 * v2_03) = 4 * w 3 * (U2 d 3 * U0 (rev 9 d) 5 + 2 * U1 d 3 * U1 (rev 9 d) 5 + U0 d 3 * U2 (rev 9 d) 5)
    rw [hu0_03, hu1_03, hu2_03, hv0_03, hv1_03, hv2_03]
    gll_close
  have r2_4 : 4 * w 4 * (u2_04 * v0_04 + 2 * u1_04 * v1_04 + u0_04 * v2_04) = row2 9 w d 4 := by
    show 4 * w 4 * (u2_04 * v0_04 + 2 * u1_04 * v1_04 + u0_04 * v2_04) = 4 * w 4 * (U2 d 4 * U0 (rev 9 d) 4 + 2 * U1 d 4 * U1 (rev 9 d) 4 + U0 d 4 * U2 (rev 9 d) 4)
    rw [hu0_04, hu1_04, hu2_04, hv0_04, hv1_04, hv2_04]
    gll_close
  have r2_5 : 4 * w 5 * (u2_05 * v0_05 + 2 * u1_05 * v1_05 + u0_05 * v2_05) = row2 9 w d 5 := by
    show 4 * w 5 * (u2_05 * v0_05 + 2 * u1_05 * v1_05 + u0_05 * v2_05) = 4 * w 5 * (U2 d 5 * U0 (rev 9 d) 3 + 2 * U1 d 5 * U1 (rev 9 d) 3 + U0 d 5 * U2 (rev 9 d) 3)
    rw [hu0_05, hu1_05, hu2_05, hv0_05, hv1_05, hv2_05]
    gll_close
  have r2_6 : 4 * w 6 * (u2_06 * v0_06 + 2 * u1_06 * v1_06 + u0_06 * 2) = row2 9 w d 6 := by
    show 4 * w 6 * (u2_06 * v0_06 + 2 * u1_06 * v1_06 + u0_06 * 2) = 4 * w 6 * (U2 d 6 * U0 (rev 9 d) 2 + 2 * U1 d 6 * U1 (rev 9 d) 2 + U0 d 6 * U2 (rev 9 d) 2)
    rw [hu0_06, hu1_06, hu2_06, hv0_06, hv1_06]
    gll_close
  have r2_7 : 4 * w 7 * (u2_07 * v0_07 + 2 * u1_07 * 1) = row2 9 w d 7 := by
    show 4 * w 7 * (u2_07 * v0_07 + 2 * u1_07 * 1) = 4 * w 7 * (U2 d 7 * U0 (rev 9 d) 1 + 2 * U1 d 7 * U1 (rev 9 d) 1 + U0 d 7 * U2 (rev 9 d) 1)
    rw [hu1_07, hu2_07, hv0_07]
    gll_close
  have r2_8 : 4 * w 8 * (u2_08 * 1) = row2 9 w d 8 := by
    show 4 * w 8 * (u2_08 * 1) = 4 * w 8 * (U2 d 8 * U0 (rev 9 d) 0 + 2 * U1 d 8 * U1 (rev 9 d) 0 + U0 d 8 * U2 (rev 9 d) 0)
    rw [hu2_08]
    gll_close
  have L0 : [w 0 * 1 * v0_00, w 1 * u0_01 * v0_01, w 2 * u0_02 * v0_02, w 3 * u0_03 * v0_03, w 4 * u0_04 * v0_04, w 5 * u0_05 * v0_05, w 6 * u0_06 * v0_06, w 7 * u0_07 * v0_07, w 8 * u0_08 * 1] = (List.range 9).map (row0 9 w d) :=
    (congrArg₂ List.cons r0_0 (congrArg₂ List.cons r0_1 (congrArg₂ List.cons r0_2 (congrArg₂ List.cons r0_3 (congrArg₂ List.cons r0_4 (congrArg₂ List.cons r0_5 (congrArg₂ List.cons r0_6 (congrArg₂ List.cons r0_7 (congrArg₂ List.cons r0_8 rfl)))))))))
  have L1 : [2 * w 0 * (v1_00), 2 * w 1 * (1 * v0_01 + u0_01 * v1_01), 2 * w 2 * (u1_02 * v0_02 + u0_02 * v1_02), 2 * w 3 * (u1_03 * v0_03 + u0_03 * v1_03), 2 * w 4 * (u1_04 * v0_04 + u0_04 * v1_04), 2 * w 5 * (u1_05 * v0_05 + u0_05 * v1_05), 2 * w 6 * (u1_06 * v0_06 + u0_06 * v1_06), 2 * w 7 * (u1_07 * v0_07 + u0_07 * 1), 2 * w 8 * (u1_08)] = (List.range 9).map (row1 9 w d) :=
    (congrArg₂ List.cons r1_0 (congrArg₂ List.cons r1_1 (congrArg₂ List.cons r1_2 (congrArg₂ List.cons r1_3 (congrArg₂ List.cons r1_4 (congrArg₂ List.cons r1_5 (congrArg₂ List.cons r1_6 (congrArg₂ List.cons r1_7 (congrArg₂ List.cons r1_8 rfl)))))))))
  have L2 : [4 * w 0 * (1 * v2_00), 4 * w 1 * (2 * 1 * v1_01 + u0_01 * v2_01), 4 * w 2 * (2 * v0_02 + 2 * u1_02 * v1_02 + u0_02 * v2_02), 4 * w 3 * (u2_03 * v0_03 + 2 * u1_03 * v1_03 + u0_03 * v2_03), 4 * w 4 * (u2_04 * v0_04 + 2 * u1_04 * v1_04 + u0_04 * v2_04), 4 * w 5 * (u2_05 * v0_05 + 2 * u1_05 * v1_05 + u0_05 * v2_05), 4 * w 6 * (u2_06 * v0_06 + 2 * u1_06 * v1_06 + u0_06 * 2), 4 * w 7 * (u2_07 * v0_07 + 2 * u1_07 * 1), 4 * w 8 * (u2_08 * 1)] = (List.range 9).map (row2 9 w d) :=
    (congrArg₂ List.cons r2_0 (congrArg₂ List.cons r2_1 (congrArg₂ List.cons r2_2 (congrArg₂ List.cons r2_3 (congrArg₂ List.cons r2_4 (congrArg₂ List.cons r2_5 (congrArg₂ List.cons r2_6 (congrArg₂ List.cons r2_7 (congrArg₂ List.cons r2_8 rfl)))))))))
  exact congrArg₂ Prod.mk L0 (congrArg₂ Prod.mk L1 L2)

theorem gllLag10_eq (g w : Nat → K) (xh : K) : gllLag10 g w xh = rowLists 10 w (dx (gnode 10 g) xh) := by
  unfold gllLag10
  extract_lets x d00 d01 d02 d03 d04 d05 d06 d07 d08 d09 u0_01 u0_02 u0_03 u0_04 u0_05 u0_06 u0_07 u0_08 u0_09 v0_08 v0_07 v0_06 v0_05 v0_04 v0_03 v0_02 v0_01 v0_00 u1_02 u1_03 u1_04 u1_05 u1_06 u1_07 u1_08 u1_09 v1_07 v1_06 v1_05 v1_04 v1_03 v1_02 v1_01 v1_00 u2_03 u2_04 u2_05 u2_06 u2_07 u2_08 u2_09 v2_06 v2_05 v2_04 v2_03 v2_02 v2_01 v2_00
  generalize hd : dx (gnode 10 g) xh = d
  have hd00 : d00 = d 0 := by
    rw [← hd]; show xh * 2 + 2 = 2 * (xh - (-1)); ring
  have hd01 : d01 = d 1 := by
    rw [← hd]; show xh * 2 + 2 * g 0 = 2 * (xh - (-g 0)); ring
  have hd02 : d02 = d 2 := by
    rw [← hd]; show xh * 2 + 2 * g 1 = 2 * (xh - (-g 1)); ring
  have hd03 : d03 = d 3 := by
    rw [← hd]; show xh * 2 + 2 * g 2 = 2 * (xh - (-g 2)); ring
  have hd04 : d04 = d 4 := by
    rw [← hd]; show xh * 2 + 2 * g 3 = 2 * (xh - (-g 3)); ring
  have hd05 : d05 = d 5 := by
    rw [← hd]; show xh * 2 - 2 * g 3 = 2 * (xh - (g 3)); ring
  have hd06 : d06 = d 6 := by
    rw [← hd]; show xh * 2 - 2 * g 2 = 2 * (xh - (g 2)); ring
  have hd07 : d07 = d 7 := by
    rw [← hd]; show xh * 2 - 2 * g 1 = 2 * (xh - (g 1)); ring
  have hd08 : d08 = d 8 := by
    rw [← hd]; show xh * 2 - 2 * g 0 = 2 * (xh - (g 0)); ring
  have hd09 : d09 = d 9 := by
    rw [← hd]; show xh * 2 - 2 = 2 * (xh - (1)); ring
  have hu0_01 : u0_01 = U0 d 1 := by
    show 1 * d00 = U0 d 0 * d 0
    rw [hd00]
    gll_close
  have hu0_02 : u0_02 = U0 d 2 := by
    show u0_01 * d01 = U0 d 1 * d 1
    rw [hd01, hu0_01]
    gll_close
  have hu0_03 : u0_03 = U0 d 3 := by
    show u0_02 * d02 = U0 d 2 * d 2
    rw [hd02, hu0_02]
    gll_close
  have hu0_04 : u0_04 = U0 d 4 := by
    show u0_03 * d03 = U0 d 3 * d 3
    rw [hd03, hu0_03]
    gll_close
  have hu0_05 : u0_05 = U0 d 5 := by
    show u0_04 * d04 = U0 d 4 * d 4
    rw [hd04, hu0_04]
    gll_close
  have hu0_06 : u0_06 = U0 d 6 := by
    show u0_05 * d05 = U0 d 5 * d 5
    rw [hd05, hu0_05]
    gll_close
  have hu0_07 : u0_07 = U0 d 7 := by
    show u0_06 * d06 = U0 d 6 * d 6
    rw [hd06, hu0_06]
    gll_close
  have hu0_08 : u0_08 = U0 d 8 := by
    show u0_07 * d07 = U0 d 7 * d 7
    rw [hd07, hu0_07]
    gll_close
  have hu0_09 : u0_09 = U0 d 9 := by
    show u0_08 * d08 = U0 d 8 * d 8
    rw [hd08, hu0_08]
    gll_close
  have hv0_08 : v0_08 = U0 (rev 10 d) 1 := by
    show d09 * 1 = U0 (rev 10 d) 0 * d 9
    rw [hd09]
    gll_close
  have hv0_07 : v0_07 = U0 (rev 10 d) 2 := by
    show d08 * v0_08 = U0 (rev 10 d) 1 * d 8
    rw [hd08, hv0_08]
    gll_close
  have hv0_06 : v0_06 = U0 (rev 10 d) 3 := by
    show d07 * v0_07 = U0 (rev 10 d) 2 * d 7
    rw [hd07, hv0_07]
    gll_close
  have hv0_05 : v0_05 = U0 (rev 10 d) 4 := by
    show d06 * v0_06 = U0 (rev 10 d) 3 * d 6
    rw [hd06, hv0_06]
    gll_close
  have hv0_04 : v0_04 = U0 (rev 10 d) 5 := by
    show d05 * v0_05 = U0 (rev 10 d) 4 * d 5
    rw [hd05, hv0_05]
    gll_close
  have hv0_03 : v0_03 = U0 (rev 10 d) 6 := by
    show d04 * v0_04 = U0 (rev 10 d) 5 * d 4
    rw [hd04, hv0_04]
    gll_close
  have hv0_02 : v0_02 = U0 (rev 10 d) 7 := by
    show d03 * v0_03 = U0 (rev 10 d) 6 * d 3
    rw [hd03, hv0_03]
    gll_close
  have hv0_01 : v0_01 = U0 (rev 10 d) 8 := by
    show d02 * v0_02 = U0 (rev 10 d) 7 * d 2
    rw [hd02, hv0_02]
    gll_close
  have hv0_00 : v0_00 = U0 (rev 10 d) 9 := by
    show d01 * v0_01 = U0 (rev 10 d) 8 * d 1
    rw [hd01, hv0_01]
    gll_close
  have hu1_02 : u1_02 = U1 d 2 := by
    show 1 * d01 + u0_01 = U1 d 1 * d 1 + U0 d 1
    rw [hd01, hu0_01]
    gll_close
  have hu1_03 : u1_03 = U1 d 3 := by
    show u1_02 * d02 + u0_02 = U1 d 2 * d 2 + U0 d 2
    rw [hd02, hu0_02, hu1_02]
    gll_close
  have hu1_04 : u1_04 = U1 d 4 := by
    show u1_03 * d03 + u0_03 = U1 d 3 * d 3 + U0 d 3
    rw [hd03, hu0_03, hu1_03]
    gll_close
  have hu1_05 : u1_05 = U1 d 5 := by
    show u1_04 * d04 + u0_04 = U1 d 4 * d 4 + U0 d 4
    rw [hd04, hu0_04, hu1_04]
    gll_close
  have hu1_06 : u1_06 = U1 d 6 := by
    show u1_05 * d05 + u0_05 = U1 d 5 * d 5 + U0 d 5
    rw [hd05, hu0_05, hu1_05]
    gll_close
  have hu1_07 : u1_07 = U1 d 7 := by
    show u1_06 * d06 + u0_06 = U1 d 6 * d 6 + U0 d 6
    rw [hd06, hu0_06, hu1_06]
    gll_close
  have hu1_08 : u1_08 = U1 d 8 := by
    show u1_07 * d07 + u0_07 = U1 d 7 * d 7 + U0 d 7
    rw [hd07, hu0_07, hu1_07]
    gll_close
  have hu1_09 : u1_09 = U1 d 9 := by
    show u1_08 * d08 + u0_08 = U1 d 8 * d 8 + U0 d 8
    rw [hd08, hu0_08, hu1_08]
    gll_close
  have hv1_07 : v1_07 = U1 (rev 10 d) 2 := by
    show d08 * 1 + v0_08 = U1 (rev 10 d) 1 * d 8 + U0 (rev 10 d) 1
    rw [hd08, hv0_08]
    gll_close
  have hv1_06 : v1_06 = U1 (rev 10 d) 3 := by
    show d07 * v1_07 + v0_07 = U1 (rev 10 d) 2 * d 7 + U0 (rev 10 d) 2
    rw [hd07, hv0_07, hv1_07]
    gll_close
  have hv1_05 : v1_05 = U1 (rev 10 d) 4 := by
    show d06 * v1_06 + v0_06 = U1 (rev 10 d) 3 * d 6 + U0 (rev 10 d) 3
    rw [hd06, hv0_06, hv1_06]
    gll_close
  have hv1_04 : v1_04 = U1 (rev 10 d) 5 := by
    show d05 * v1_05 + v0_05 = U1 (rev 10 d) 4 * d 5 + U0 (rev 10 d) 4
    rw [hd05, hv0_05, hv1_05]
    gll_close
  have hv1_03 : v1_03 = U1 (rev 10 d) 6 := by
    show d04 * v1_04 + v0_04 = U1 (rev 10 d) 5 * d 4 + U0 (rev 10 d) 5
    rw [hd04, hv0_04, hv1_04]
    gll_close
  have hv1_02 : v1_02 = U1 (rev 10 d) 7 := by
    show d03 * v1_03 + v0_03 = U1 (rev 10 d) 6 * d 3 + U0 (rev 10 d) 6
    rw [hd03, hv0_03, hv1_03]
    gll_close
  have hv1_01 : v1_01 = U1 (rev 10 d) 8 := by
    show d02 * v1_02 + v0_02 = U1 (rev 10 d) 7 * d 2 + U0 (rev 10 d) 7
    rw [hd02, hv0_02, hv1_02]
    gll_close
  have hv1_00 : v1_00 = U1 (rev 10 d) 9 := by
    show d01 * v1_01 + v0_01 = U1 (rev 10 d) 8 * d 1 + U0 (rev 10 d) 8
    rw [hd01, hv0_01, hv1_01]
    gll_close
  have hu2_03 : u2_03 = U2 d 3 := by
    show 2 * d02 + 2 * u1_02 = U2 d 2 * d 2 + 2 * U1 d 2
    rw [hd02, hu1_02]
    gll_close
  have hu2_04 : u2_04 = U2 d 4 := by
    show u2_03 * d03 + 2 * u1_03 = U2 d 3 * d 3 + 2 * U1 d 3
    rw [hd03, hu1_03, hu2_03]
    gll_close
  have hu2_05 : u2_05 = U2 d 5 := by
    show u2_04 * d04 + 2 * u1_04 = U2 d 4 * d 4 + 2 * U1 d 4
    rw [hd04, hu1_04, hu2_04]
    gll_close
  have hu2_06 : u2_06 = U2 d 6 := by
    show u2_05 * d05 + 2 * u1_05 = U2 d 5 * d 5 + 2 * U1 d 5
    rw [hd05, hu1_05, hu2_05]
    gll_close
  have hu2_07 : u2_07 = U2 d 7 := by
    show u2_06 * d06 + 2 * u1_06 = U2 d 6 * d 6 + 2 * U1 d 6
    rw [hd06, hu1_06, hu2_06]
    gll_close
  have hu2_08 : u2_08 = U2 d 8 := by
    show u2_07 * d07 + 2 * u1_07 = U2 d 7 * d 7 + 2 * U1 d 7
    rw [hd07, hu1_07, hu2_07]
    gll_close
  have hu2_09 : u2_09 = U2 d 9 := by
    show u2_08 * d08 + 2 * u1_08 = U2 d 8 * d 8 + 2 * U1 d 8
    rw [hd08, hu1_08, hu2_08]
    gll_close
  have hv2_06 : v2_06 = U2 (rev 10 d) 3 := by
    show d07 * 2 + 2 * v1_07 = U2 (rev 10 d) 2 * d 7 + 2 * U1 (rev 10 d) 2
    rw [hd07, hv1_07]
    gll_close
  have hv2_05 : v2_05 = U2 (rev 10 d) 4 := by
    show d06 * v2_06 + 2 * v1_06 = U2 (rev 10 d) 3 * d 6 + 2 * U1 (rev 10 d) 3
    rw [hd06, hv1_06, hv2_06]
    gll_close
  have hv2_04 : v2_04 = U2 (rev 10 d) 5 := by
    show d05 * v2_05 + 2 * v1_05 = U2 (rev 10 d) 4 * d 5 + 2 * U1 (rev 10 d) 4
    rw [hd05, hv1_05, hv2_05]
    gll_close
  have hv2_03 : v2_03 = U2 (rev 10 d) 6 := by
    show d04 * v2_04 + 2 * v1_04 = U2 (rev 10 d) 5 * d 4 + 2 * U1 (rev 10 d) 5
    rw [hd04, hv1_04, hv2_04]
    gll_close
  have hv2_02 : v2_02 = U2 (rev 10 d) 7 := by
    show d03 * v2_03 + 2 * v1_03 = U2 (rev 10 d) 6 * d 3 + 2 * U1 (rev 10 d) 6
    rw [hd03, hv1_03, hv2_03]
    gll_close
  have hv2_01 : v2_01 = U2 (rev 10 d) 8 := by
    show d02 * v2_02 + 2 * v1_02 = U2 (rev 10 d) 7 * d 2 + 2 * U1 (rev 10 d) 7
    rw [hd02, hv1_02, hv2_02]
    gll_close
  have hv2_00 : v2_00 = U2 (rev 10 d) 9 := by
    show d01 * v2_01 + 2 * v1_01 = U2 (rev 10 d) 8 * d 1 + 2 * U1 (rev 10 d) 8
    rw [hd01, hv1_01, hv2_01]
    gll_close
  have r0_0 : w 0 * 1 * v0_00 = row0 10 w d 0 := by
    show w 0 * 1 * v0_00 = w 0 * U0 d 0 * U0 (rev 10 d) 9
    rw [hv0_00]
    gll_close
  have r0_1 : w 1 * u0_01 * v0_01 = row0 10 w d 1 := by
    show w 1 * u0_01 * v0_01 = w 1 * U0 d 1 * U0 (rev 10 d) 8
    rw [hu0_01, hv0_01]
    gll_close
  have r0_2 : w 2 * u0_02 * v0_02 = row0 10 w d 2 := by
    show w 2 * u0_02 * v0_02 = w 2 * U0 d 2 * U0 (rev 10 d) 7
    rw [hu0_02, hv0_02]
    gll_close
  have r0_3 : w 3 * u0_03 * v0_03 = row0 10 w d 3 := by
    show w 3 * u0_03 * v0_03 = w 3 * U0 d 3 * U0 (rev 10 d) 6
    rw [hu0_03, hv0_03]
    gll_close
  have r0_4 : w 4 * u0_04 * v0_04 = row0 10 w d 4 := by
    show w 4 * u0_04 * v0_04 = w 4 * U0 d 4 * U0 (rev 10 d) 5
    rw [hu0_04, hv0_04]
    gll_close
  have r0_5 : w 5 * u0_05 * v0_05 = row0 10 w d 5 := by
    show w 5 * u0_05 * v0_05 = w 5 * U0 d 5 * U0 (rev 10 d) 4
    rw [hu0_05, hv0_05]
    gll_close
  have r0_6 : w 6 * u0_06 * v0_06 = row0 10 w d 6 := by
    show w 6 * u0_06 * v0_06 = w 6 * U0 d 6 * U0 (rev 10 d) 3
    rw [hu0_06, hv0_06]
    gll_close
  have r0_7 : w 7 * u0_07 * v0_07 = row0 10 w d 7 := by
    show w 7 * u0_07 * v0_07 = w 7 * U0 d 7 * U0 (rev 10 d) 2
    rw [hu0_07, hv0_07]
    gll_close
  have r0_8 : w 8 * u0_08 * v0_08 = row0 10 w d 8 := by
    show w 8 * u0_08 * v0_08 = w 8 * U0 d 8 * U0 (rev 10 d) 1
    rw [hu0_08, hv0_08]
    gll_close
  have r0_9 : w 9 * u0_09 * 1 = row0 10 w d 9 := by
    show w 9 * u0_09 * 1 = w 9 * U0 d 9 * U0 (rev 10 d) 0
    rw [hu0_09]
    gll_close
  have r1_0 : 2 * w 0 * (v1_00) = row1 10 w d 0 := by
    show 2 * w 0 * (v1_00) = 2 * w 0 * (U1 d 0 * U0 (rev 10 d) 9 + U0 d 0 * U1 (rev 10 d) 9)
    rw [hv1_00]
    gll_close
  have r1_1 : 2 * w 1 * (1 * v0_01 + u0_01 * v1_01) = row1 10 w d 1 := by
    show 2 * w 1 * (1 * v0_01 + u0_01 * v1_01) = 2 * w 1 * (U1 d 1 * U0 (rev 10 d) 8 + U0 d 1 * U1 (rev 10 d) 8)
    rw [hu0_01, hv0_01, hv1_01]
    gll_close
  have r1_2 : 2 * w 2 * (u1_02 * v0_02 + u0_02 * v1_02) = row1 10 w d 2 := by
    show 2 * w 2 * (u1_02 * v0_02 + u0_02 * v1_02) = 2 * w 2 * (U1 d 2 * U0 (rev 10 d) 7 + U0 d 2 * U1 (rev 10 d) 7)
    rw [hu0_02, hu1_02, hv0_02, hv1_02]
    gll_close
  have r1_3 : 2 * w 3 * (u1_03 * v0_03 + u0_03 * v1_03) = row1 10 w d 3 := by
    show 2 * w 3 * (u1_03 * v0_03 + u0_03 * v1_03) = 2 * w 3 * (U1 d 3 * U0 (rev 10 d) 6 + U0 d 3 * U1 (rev 10 d) 6)
    rw [hu0_03, hu1_03, hv0_03, hv1_03]
    gll_close
  have r1_4 : 2 * w 4 * (u1_04 * v0_04 + u0_04 * v1_04) = row1 10 w d 4 := by
    show 2 * w 4 * (u1_04 * v0_04 + u0_04 * v1_04) = 2 * w 4 * (U1 d 4 * U0 (rev 10 d) 5 + U0 d 4 * U1 (rev 10 d) 5)
    rw [hu0_04, hu1_04, hv0_04, hv1_04]
    gll_close
  have r1_5 : 2 * w 5 * (u1_05 * v0_05 + u0_05 * v1_05) = row1 10 w d 5 := by
    show 2 * w 5 * (u1_05 * v0_05 + u0_05 * v1_05) = 2 * w 5 * (U1 d 5 * U0 (rev 10 d) 4 + U0 d 5 * U1 (rev 10 d) 4)
    rw [hu0_05, hu1_05, hv0_05, hv1_05]
    gll_close
  have r1_6 : 2 * w 6 * (u1_06 * v0_06 + u0_06 * v1_06) = row1 10 w d 6 := by
    show 2 * w 6 * (u1_06 * v0_06 + u0_06 * v1_06) = 2 * w 6 * (U1 d 6 * U0 (rev 10 d) 3 + U0 d 6 * U1 (rev 10 d) 3)
    rw [hu0_06, hu1_06, hv0_06, hv1_06]
    gll_close
  have r1_7 : 2 * w 7 * (u1_07 * v0_07 + u0_07 * v1_07) = row1 10 w d 7 := by
    show 2 * w 7 * (u1_07 * v0_07 + u0_07 * v1_07) = 2 * w 7 * (U1 d 7 * U0 (rev 10 d) 2 + U0 d 7 * U1 (rev 10 d) 2)
    rw [hu0_07, hu1_07, hv0_07, hv1_07]
    gll_close
  have r1_8 : 2 * w 8 * (u1_08 * v0_08 + u0_08 * 1) = row1 10 w d 8 := by
    show 2 * w 8 * (u1_08 * v0_08 + u0_08 * 1) = 2 * w 8 * (U1 d 8 * U0 (rev 10 d) 1 + U0 d 8 * U1 (rev 10 d) 1)
    rw [hu0_08, hu1_08, hv0_08]
    gll_close
  have r1_9 : 2 * w 9 * (u1_09) = row1 10 w d 9 := by
    show 2 * w 9 * (u1_09) = 2 * w 9 * (U1 d 9 * U0 (rev 10 d) 0 + U0 d 9 * U1 (rev 10 d) 0)
    rw [hu1_09]
    gll_close
  have r2_0 : 4 * w 0 * (1 * v2_00) = row2 10 w d 0 := by
    show 4 * w 0 * (1 * v2_00) = 4 * w 0 * (U2 d 0 * U0 (rev 10 d) 9 + 2 * U1 d 0 * U1 (rev 10 d) 9 + U0 d 0 * U2 (rev 10 d) 9)
    rw [hv2_00]
    gll_close
  have r2_1 : 4 * w 1 * (2 * 1 * v1_01 + u0_01 * v2_01) = row2 10 w d 1 := by
    show 4 * w 1 * (2 * 1 * v1_01 + u0_01 * v2_01) = 4 * w 1 * (U2 d 1 * U0 (rev 10 d) 8 + 2 * U1 d 1 * U1 (rev 10 d) 8 + U0 d 1 * U2 (rev 10 d) 8)
    rw [hu0_01, hv1_01, hv2_01]
    gll_close
  have r2_2 : 4 * w 2 * (2 * v0_02 + 2 * u1_02 * v1_02 + u0_02 * v2_02) = row2 10 w d 2 := by
    show 4 * w 2 * (2 * v0_02 + 2 * u1_02 * v1_02 + u0_02 * v2_02) = 4 * w 2 * (U2 d 2 * U0 (rev 10 d) 7 + 2 * U1 d 2 * U1 (rev 10 d) 7 + U0 d 2 * U2 (rev 10 d) 7)
    rw [hu0_02, hu1_02, hv0_02, hv1_02, hv2_02]
    gll_close
  have r2_3 : 4 * w 3 * (u2_03 * v0_03 + 2 * u1_03 * v1_03 + u0_03 * v2_03) = row2 10 w d 3 := by
    show 4 * w 3 * (u2_03 * v0_03 + 2 * u1_03 * v1_03 + u0_03 * v2_03) = 4 * w 3 * (U2 d 3 * U0 (rev 10 d) 6 + 2 * U1 d 3 * U1 (rev 10 d) 6 + U0 d 3 * U2 (rev 10 d) 6)
    rw [hu0_03, hu1_03, hu2_03, hv0_03, hv1_03, hv2_03]
    gll_close
  have r2_4 : 4 * w 4 * (u2_04 * v0_04 + 2 * u1_04 * v1_04 + u0_04 * v2_04) = row2 10 w d 4 := by
    show 4 * w 4 * (u2_04 * v0_04 + 2 * u1_04 * v1_04 + u0_04 * v2_04) = 4 * w 4 * (U2 d 4 * U0 (rev 10 d) 5 + 2 * U1 d 4 * U1 (rev 10 d) 5 + U0 d 4 * U2 (rev 10 d) 5)
    rw [hu0_04, hu1_04, hu2_04, hv0_04, hv1_04, hv2_04]
    gll_close
  have r2_5 : 4 * w 5 * (u2_05 * v0_05 + 2 * u1_05 * v1_05 + u0_05 * v2_05) = row2 10 w d 5 := by
    show 4 * w 5 * (u2_05 * v0_05 + 2 * u1_05 * v1_05 + u0_05 * v2_05) = 4 * w 5 * (U2 d 5 * U0 (rev 10 d) 4 + 2 * U1 d 5 * U1 (rev 10 d) 4 + U0 d 5 * U2 (rev 10 d) 4)
    rw [hu0_05, hu1_05, hu2_05, hv0_05, hv1_05, hv2_05]
    gll_close
  have r2_6 : 4 * w 6 * (u2_06 * v0_06 + 2 * u1_06 * v1_06 + u0_06 * v2_06) = row2 10 w d 6 := by
    show 4 * w 6 * (u2_06 * v0_06 + 2 * u1_06 * v1_06 + u0_06 * v2_06) = 4 * w 6 * (U2 d 6 * U0 (rev 10 d) 3 + 2 * U1 d 6 * U1 (rev 10 d) 3 + U0 d 6 * U2 (rev 10 d) 3)
    rw [hu0_06, hu1_06, hu2_06, hv0_06, hv1_06, hv2_06]
    gll_close
  have r2_7 : 4 * w 7 * (u2_07 * v0_07 + 2 * u1_07 * v1_07 + u0_07 * 2) = row2 10 w d 7 := by
    show 4 * w 7 * (u2_07 * v0_07 + 2 * u1_07 * v1_07 + u0_07 * 2) = 4 * w 7 * (U2 d 7 * U0 (rev 10 d) 2 + 2 * U1 d 7 * U1 (rev 10 d) 2 + U0 d 7 * U2 (rev 10 d) 2)
    rw [hu0_07, hu1_07, hu2_07, hv0_07, hv1_07]
    gll_close
  have r2_8 : 4 * w 8 * (u2_08 * v0_08 + 2 * u1_08 * 1) = row2 10 w d 8 := by
    show 4 * w 8 * (u2_08 * v0_08 + 2 * u1_08 * 1) = 4 * w 8 * (U2 d 8 * U0 (rev 10 d) 1 + 2 * U1 d 8 * U1 (rev 10 d) 1 + U0 d 8 * U2 (rev 10 d) 1)
    rw [hu1_08, hu2_08, hv0_08]
    gll_close
  have r2_9 : 4 * w 9 * (u2_09 * 1) = row2 10 w d 9 := by
    show 4 * w 9 * (u2_09 * 1) = 4 * w 9 * (U2 d 9 * U0 (rev 10 d) 0 + 2 * U1 d 9 * U1 (rev 10 d) 0 + U0 d 9 * U2 (rev 10 d) 0)
    rw [hu2_09]
    gll_close
  have L0 : [w 0 * 1 * v0_00, w 1 * u0_01 * v0_01, w 2 * u0_02 * v0_02, w 3 * u0_03 * v0_03, w 4 * u0_04 * v0_04, w 5 * u0_05 * v0_05, w 6 * u0_06 * v0_06, w 7 * u0_07 * v0_07, w 8 * u0_08 * v0_08, w 9 * u0_09 * 1] = (List.range 10).map (row0 10 w d) :=
    (congrArg₂ List.cons r0_0 (congrArg₂ List.cons r0_1 (congrArg₂ List.cons r0_2 (congrArg₂ List.cons r0_3 (congrArg₂ List.cons r0_4 (congrArg₂ List.cons r0_5 (congrArg₂ List.cons r0_6 (congrArg₂ List.cons r0_7 (congrArg₂ List.cons r0_8 (congrArg₂ List.cons r0_9 rfl))))))))))
  have L1 : [2 * w 0 * (v1_00), 2 * w 1 * (1 * v0_01 + u0_01 * v1_01), 2 * w 2 * (u1_02 * v0_02 + u0_02 * v1_02), 2 * w 3 * (u1_03 * v0_03 + u0_03 * v1_03), 2 * w 4 * (u1_04 * v0_04 + u0_04 * v1_04), 2 * w 5 * (u1_05 * v0_05 + u0_05 * v1_05), 2 * w 6 * (u1_06 * v0_06 + u0_06 * v1_06), 2 * w 7 * (u1_07 * v0_07 + u0_07 * v1_07), 2 * w 8 * (u1_08 * v0_08 + u0_08 * 1), 2 * w 9 * (u1_09)] = (List.range 10).map (row1 10 w d) :=
    (congrArg₂ List.cons r1_0 (congrArg₂ List.cons r1_1 (congrArg₂ List.cons r1_2 (congrArg₂ List.cons r1_3 (congrArg₂ List.cons r1_4 (congrArg₂ List.cons r1_5 (congrArg₂ List.cons r1_6 (congrArg₂ List.cons r1_7 (congrArg₂ List.cons r1_8 (congrArg₂ List.cons r1_9 rfl))))))))))
  have L2 : [4 * w 0 * (1 * v2_00), 4 * w 1 * (2 * 1 * v1_01 + u0_01 * v2_01), 4 * w 2 * (2 * v0_02 + 2 * u1_02 * v1_02 + u0_02 * v2_02), 4 * w 3 * (u2_03 * v0_03 + 2 * u1_03 * v1_03 + u0_03 * v2_03), 4 * w 4 * (u2_04 * v0_04 + 2 * u1_04 * v1_04 + u0_04 * v2_04), 4 * w 5 * (u2_05 * v0_05 + 2 * u1_05 * v1_05 + u0_05 * v2_05), 4 * w 6 * (u2_06 * v0_06 + 2 * u1_06 * v1_06 + u0_06 * v2_06), 4 * w 7 * (u2_07 * v0_07 + 2 * u1_07 * v1_07 + u0_07 * 2), 4 * w 8 * (u2_08 * v0_08 + 2 * u1_08 * 1), 4 * w 9 * (u2_09 * 1)] = (List.range 10).map (row2 10 w d) :=
    (congrArg₂ List.cons r2_0 (congrArg₂ List.cons r2_1 (congrArg₂ List.cons r2_2 (congrArg₂ List.cons r2_3 (congrArg₂ List.cons r2_4 (congrArg₂ List.cons r2_5 (congrArg₂ List.cons r2_6 (congrArg₂ List.cons r2_7 (congrArg₂ List.cons r2_8 (congrArg₂ List.cons r2_9 rfl))))))))))
  exact congrArg₂ Prod.mk L0 (congrArg₂ Prod.mk L1 L2)

theorem gllLag11_eq (g w : Nat → K) (xh : K) : gllLag11 g w xh = rowLists 11 w (dx (gnode 11 g) xh) := by
  unfold gllLag11
  extract_lets x d00 d01 d02 d03 d04 d05 d06 d07 d08 d09 d10 u0_01 u0_02 u0_03 u0_04 u0_05 u0_06 u0_07 u0_08 u0_09 u0_10 v0_09 v0_08 v0_07 v0_06 v0_05 v0_04 v0_03 v0_02 v0_01 v0_00 u1_02 u1_03 u1_04 u1_05 u1_06 u1_07 u1_08 u1_09 u1_10 v1_08 v1_07 v1_06 v1_05 v1_04 v1_03 v1_02 v1_01 v1_00 u2_03 u2_04 u2_05 u2_06 u2_07 u2_08 u2_09 u2_10 v2_07 v2_06 v2_05 v2_04 v2_03 v2_02 v2_01 v2_00
  generalize hd : dx (gnode 11 g) xh = d
  have hd00 : d00 = d 0 := by
    rw [← hd]; show xh * 2 + 2 = 2 * (xh - (-1)); ring
  have hd01 : d01 = d 1 := by
    rw [← hd]; show xh * 2 + 2 * g 0 = 2 * (xh - (-g 0)); ring
  have hd02 : d02 = d 2 := by
    rw [← hd]; show xh * 2 + 2 * g 1 = 2 * (xh - (-g 1)); ring
  have hd03 : d03 = d 3 := by
    rw [← hd]; show xh * 2 + 2 * g 2 = 2 * (xh - (-g 2)); ring
  have hd04 : d04 = d 4 := by
    rw [← hd]; show xh * 2 + 2 * g 3 = 2 * (xh - (-g 3)); ring
  have hd05 : d05 = d 5 := by
    rw [← hd]; show xh * 2 = 2 * (xh - (0)); ring
  have hd06 : d06 = d 6 := by
    rw [← hd]; show xh * 2 - 2 * g 3 = 2 * (xh - (g 3)); ring
  have hd07 : d07 = d 7 := by
    rw [← hd]; show xh * 2 - 2 * g 2 = 2 * (xh - (g 2)); ring
  have hd08 : d08 = d 8 := by
    rw [← hd]; show xh * 2 - 2 * g 1 = 2 * (xh - (g 1)); ring
  have hd09 : d09 = d 9 := by
    rw [← hd]; show xh * 2 - 2 * g 0 = 2 * (xh - (g 0)); ring
  have hd10 : d10 = d 10 := by
    rw [← hd]; show xh * 2 - 2 = 2 * (xh - (1)); ring
  have hu0_01 : u0_01 = U0 d 1 := by
    show 1 * d00 = U0 d 0 * d 0
    rw [hd00]
    gll_close
  have hu0_02 : u0_02 = U0 d 2 := by
    show u0_01 * d01 = U0 d 1 * d 1
    rw [hd01, hu0_01]
    gll_close
  have hu0_03 : u0_03 = U0 d 3 := by
    show u0_02 * d02 = U0 d 2 * d 2
    rw [hd02, hu0_02]
    gll_close
  have hu0_04 : u0_04 = U0 d 4 := by
    show u0_03 * d03 = U0 d 3 * d 3
    rw [hd03, hu0_03]
    gll_close
  have hu0_05 : u0_05 = U0 d 5 := by
    show u0_04 * d04 = U0 d 4 * d 4
    rw [hd04, hu0_04]
    gll_close
  have hu0_06 : u0_06 = U0 d 6 := by
    show u0_05 * d05 = U0 d 5 * d 5
    rw [hd05, hu0_05]
    gll_close
  have hu0_07 : u0_07 = U0 d 7 := by
    show u0_06 * d06 = U0 d 6 * d 6
    rw [hd06, hu0_06]
    gll_close
  have hu0_08 : u0_08 = U0 d 8 := by
    show u0_07 * d07 = U0 d 7 * d 7
    rw [hd07, hu0_07]
    gll_close
  have hu0_09 : u0_09 = U0 d 9 := by
    show u0_08 * d08 = U0 d 8 * d 8
    rw [hd08, hu0_08]
    gll_close
  have hu0_10 : u0_10 = U0 d 10 := by
    show u0_09 * d09 = U0 d 9 * d 9
    rw [hd09, hu0_09]
    gll_close
  have hv0_09 : v0_09 = U0 (rev 11 d) 1 := by
    show d10 * 1 = U0 (rev 11 d) 0 * d 10
    rw [hd10]
    gll_close
  have hv0_08 : v0_08 = U0 (rev 11 d) 2 := by
    show d09 * v0_09 = U0 (rev 11 d) 1 * d 9
    rw [hd09, hv0_09]
    gll_close
  have hv0_07 : v0_07 = U0 (rev 11 d) 3 := by
    show d08 * v0_08 = U0 (rev 11 d) 2 * d 8
    rw [hd08, hv0_08]
    gll_close
  have hv0_06 : v0_06 = U0 (rev 11 d) 4 := by
    show d07 * v0_07 = U0 (rev 11 d) 3 * d 7
    rw [hd07, hv0_07]
    gll_close
  have hv0_05 : v0_05 = U0 (rev 11 d) 5 := by
    show d06 * v0_06 = U0 (rev 11 d) 4 * d 6
    rw [hd06, hv0_06]
    gll_close
  have hv0_04 : v0_04 = U0 (rev 11 d) 6 := by
    show d05 * v0_05 = U0 (rev 11 d) 5 * d 5
    rw [hd05, hv0_05]
    gll_close
  have hv0_03 : v0_03 = U0 (rev 11 d) 7 := by
    show d04 * v0_04 = U0 (rev 11 d) 6 * d 4
    rw [hd04, hv0_04]
    gll_close
  have hv0_02 : v0_02 = U0 (rev 11 d) 8 := by
    show d03 * v0_03 = U0 (rev 11 d) 7 * d 3
    rw [hd03, hv0_03]
    gll_close
  have hv0_01 : v0_01 = U0 (rev 11 d) 9 := by
    show d02 * v0_02 = U0 (rev 11 d) 8 * d 2
    rw [hd02, hv0_02]
    gll_close
  have hv0_00 : v0_00 = U0 (rev 11 d) 10 := by
    show d01 * v0_01 = U0 (rev 11 d) 9 * d 1
    rw [hd01, hv0_01]
    gll_close
  have hu1_02 : u1_02 = U1 d 2 := by
    show 1 * d01 + u0_01 = U1 d 1 * d 1 + U0 d 1
    rw [hd01, hu0_01]
    gll_close
  have hu1_03 : u1_03 = U1 d 3 := by
    show u1_02 * d02 + u0_02 = U1 d 2 * d 2 + U0 d 2
    rw [hd02, hu0_02, hu1_02]
    gll_close
  have hu1_04 : u1_04 = U1 d 4 := by
    show u1_03 * d03 + u0_03 = U1 d 3 * d 3 + U0 d 3
    rw [hd03, hu0_03, hu1_03]
    gll_close
  have hu1_05 : u1_05 = U1 d 5 := by
    show u1_04 * d04 + u0_04 = U1 d 4 * d 4 + U0 d 4
    rw [hd04, hu0_04, hu1_04]
    gll_close
  have hu1_06 : u1_06 = U1 d 6 := by
    show u1_05 * d05 + u0_05 = U1 d 5 * d 5 + U0 d 5
    rw [hd05, hu0_05, hu1_05]
    gll_close
  have hu1_07 : u1_07 = U1 d 7 := by
    show u1_06 * d06 + u0_06 = U1 d 6 * d 6 + U0 d 6
    rw [hd06, hu0_06, hu1_06]
    gll_close
  have hu1_08 : u1_08 = U1 d 8 := by
    show u1_07 * d07 + u0_07 = U1 d 7 * d 7 + U0 d 7
    rw [hd07, hu0_07, hu1_07]
    gll_close
  have hu1_09 : u1_09 = U1 d 9 := by
    show u1_08 * d08 + u0_08 = U1 d 8 * d 8 + U0 d 8
    rw [hd08, hu0_08, hu1_08]
    gll_close
  have hu1_10 : u1_10 = U1 d 10 := by
    show u1_09 * d09 + u0_09 = U1 d 9 * d 9 + U0 d 9
    rw [hd09, hu0_09, hu1_09]
    gll_close
  have hv1_08 : v1_08 = U1 (rev 11 d) 2 := by
    show d09 * 1 + v0_09 = U1 (rev 11 d) 1 * d 9 + U0 (rev 11 d) 1
    rw [hd09, hv0_09]
    gll_close
  have hv1_07 : v1_07 = U1 (rev 11 d) 3 := by
    show d08 * v1_08 + v0_08 = U1 (rev 11 d) 2 * d 8 + U0 (rev 11 d) 2
    rw [hd08, hv0_08, hv1_08]
    gll_close
  have hv1_06 : v1_06 = U1 (rev 11 d) 4 := by
    show d07 * v1_07 + v0_07 = U1 (rev 11 d) 3 * d 7 + U0 (rev 11 d) 3
    rw [hd07, hv0_07, hv1_07]
    gll_close
  have hv1_05 : v1_05 = U1 (rev 11 d) 5 := by
    show d06 * v1_06 + v0_06 = U1 (rev 11 d) 4 * d 6 + U0 (rev 11 d) 4
    rw [hd06, hv0_06, hv1_06]
    gll_close
  have hv1_04 : v1_04 = U1 (rev 11 d) 6 := by
    show d05 * v1_05 + v0_05 = U1 (rev 11 d) 5 * d 5 + U0 (rev 11 d) 5
    rw [hd05, hv0_05, hv1_05]
    gll_close
  have hv1_03 : v1_03 = U1 (rev 11 d) 7 := by
    show d04 * v1_04 + v0_04 = U1 (rev 11 d) 6 * d 4 + U0 (rev 11 d) 6
    rw [hd04, hv0_04, hv1_04]
    gll_close
  have hv1_02 : v1_02 = U1 (rev 11 d) 8 := by
    show d03 * v1_03 + v0_03 = U1 (rev 11 d) 7 * d 3 + U0 (rev 11 d) 7
    rw [hd03, hv0_03, hv1_03]
    gll_close
  have hv1_01 : v1_01 = U1 (rev 11 d) 9 := by
    show d02 * v1_02 + v0_02 = U1 (rev 11 d) 8 * d 2 + U0 (rev 11 d) 8
    rw [hd02, hv0_02, hv1_02]
    gll_close
  have hv1_00 : v1_00 = U1 (rev 11 d) 10 := by
    show d01 * v1_01 + v0_01 = U1 (rev 11 d) 9 * d 1 + U0 (rev 11 d) 9
    rw [hd01, hv0_01, hv1_01]
    gll_close
  have hu2_03 : u2_03 = U2 d 3 := by
    show 2 * d02 + 2 * u1_02 = U2 d 2 * d 2 + 2 * U1 d 2
    rw [hd02, hu1_02]
    gll_close
  have hu2_04 : u2_04 = U2 d 4 := by
    show u2_03 * d03 + 2 * u1_03 = U2 d 3 * d 3 + 2 * U1 d 3
    rw [hd03, hu1_03, hu2_03]
    gll_close
  have hu2_05 : u2_05 = U2 d 5 := by
    show u2_04 * d04 + 2 * u1_04 = U2 d 4 * d 4 + 2 * U1 d 4
    rw [hd04, hu1_04, hu2_04]
    gll_close
  have hu2_06 : u2_06 = U2 d 6 := by
    show u2_05 * d05 + 2 * u1_05 = U2 d 5 * d 5 + 2 * U1 d 5
    rw [hd05, hu1_05, hu2_05]
    gll_close
  have hu2_07 : u2_07 = U2 d 7 := by
    show u2_06 * d06 + 2 * u1_06 = U2 d 6 * d 6 + 2 * U1 d 6
    rw [hd06, hu1_06, hu2_06]
    gll_close
  have hu2_08 : u2_08 = U2 d 8 := by
    show u2_07 * d07 + 2 * u1_07 = U2 d 7 * d 7 + 2 * U1 d 7
    rw [hd07, hu1_07, hu2_07]
    gll_close
  have hu2_09 : u2_09 = U2 d 9 := by
    show u2_08 * d08 + 2 * u1_08 = U2 d 8 * d 8 + 2 * U1 d 8
    rw [hd08, hu1_08, hu2_08]
    gll_close
  have hu2_10 : u2_10 = U2 d 10 := by
    show u2_09 * d09 + 2 * u1_09 = U2 d 9 * d 9 + 2 * U1 d 9
    rw [hd09, hu1_09, hu2_09]
    gll_close
  have hv2_07 : v2_07 = U2 (rev 11 d) 3 := by
    show d08 * 2 + 2 * v1_08 = U2 (rev 11 d) 2 * d 8 + 2 * U1 (rev 11 d) 2
    rw [hd08, hv1_08]
    gll_close
  have hv2_06 : v2_06 = U2 (rev 11 d) 4 := by
    show d07 * v2_07 + 2 * v1_07 = U2 (rev 11 d) 3 * d 7 + 2 * U1 (rev 11 d) 3
    rw [hd07, hv1_07, hv2_07]
    gll_close
  have hv2_05 : v2_05 = U2 (rev 11 d) 5 := by
    show d06 * v2_06 + 2 * v1_06 = U2 (rev 11 d) 4 * d 6 + 2 * U1 (rev 11 d) 4
    rw [hd06, hv1_06, hv2_06]
    gll_close
  have hv2_04 : v2_04 = U2 (rev 11 d) 6 := by
    show d05 * v2_05 + 2 * v1_05 = U2 (rev 11 d) 5 * d 5 + 2 * U1 (rev 11 d) 5
    rw [hd05, hv1_05, hv2_05]
    gll_close
  have hv2_03 : v2_03 = U2 (rev 11 d) 7 := by
    show d04 * v2_04 + 2 * v1_04 = U2 (rev 11 d) 6 * d 4 + 2 * U1 (rev 11 d) 6
    rw [hd04, hv1_04, hv2_04]
    gll_close
  have hv2_02 : v2_02 = U2 (rev 11 d) 8 := by
    show d03 * v2_03 + 2 * v1_03 = U2 (rev 11 d) 7 * d 3 + 2 * U1 (rev 11 d) 7
    rw [hd03, hv1_03, hv2_03]
    gll_close
  have hv2_01 : v2_01 = U2 (rev 11 d) 9 := by
    show d02 * v2_02 + 2 * v1_02 = U2 (rev 11 d) 8 * d 2 + 2 * U1 (rev 11 d) 8
    rw [hd02, hv1_02, hv2_02]
    gll_close
  have hv2_00 : v2_00 = U2 (rev 11 d) 10 := by
    show d01 * v2_01 + 2 * v1_01 = U2 (rev 11 d) 9 * d 1 + 2 * U1 (rev 11 d) 9
    rw [hd01, hv1_01, hv2_01]
    gll_close
  have r0_0 : w 0 * 1 * v0_00 = row0 11 w d 0 := by
    show w 0 * 1 * v0_00 = w 0 * U0 d 0 * U0 (rev 11 d) 10
    rw [hv0_00]
    gll_close
  have r0_1 : w 1 * u0_01 * v0_01 = row0 11 w d 1 := by
    show w 1 * u0_01 * v0_01 = w 1 * U0 d 1 * U0 (rev 11 d) 9
    rw [hu0_01, hv0_01]
    gll_close
  have r0_2 : w 2 * u0_02 * v0_02 = row0 11 w d 2 := by
    show w 2 * u0_02 * v0_02 = w 2 * U0 d 2 * U0 (rev 11 d) 8
    rw [hu0_02, hv0_02]
    gll_close
  have r0_3 : w 3 * u0_03 * v0_03 = row0 11 w d 3 := by
    show w 3 * u0_03 * v0_03 = w 3 * U0 d 3 * U0 (rev 11 d) 7
    rw [hu0_03, hv0_03]
    gll_close
  have r0_4 : w 4 * u0_04 * v0_04 = row0 11 w d 4 := by
    show w 4 * u0_04 * v0_04 = w 4 * U0 d 4 * U0 (rev 11 d) 6
    rw [hu0_04, hv0_04]
    gll_close
  have r0_5 : w 5 * u0_05 * v0_05 = row0 11 w d 5 := by
    show w 5 * u0_05 * v0_05 = w 5 * U0 d 5 * U0 (rev 11 d) 5
    rw [hu0_05, hv0_05]
    gll_close
  have r0_6 : w 6 * u0_06 * v0_06 = row0 11 w d 6 := by
    show w 6 * u0_06 * v0_06 = w 6 * U0 d 6 * U0 (rev 11 d) 4
    rw [hu0_06, hv0_06]
    gll_close
  have r0_7 : w 7 * u0_07 * v0_07 = row0 11 w d 7 := by
    show w 7 * u0_07 * v0_07 = w 7 * U0 d 7 * U0 (rev 11 d) 3
    rw [hu0_07, hv0_07]
    gll_close
  have r0_8 : w 8 * u0_08 * v0_08 = row0 11 w d 8 := by
    show w 8 * u0_08 * v0_08 = w 8 * U0 d 8 * U0 (rev 11 d) 2
    rw [hu0_08, hv0_08]
    gll_close
  have r0_9 : w 9 * u0_09 * v0_09 = row0 11 w d 9 := by
    show w 9 * u0_09 * v0_09 = w 9 * U0 d 9 * U0 (rev 11 d) 1
    rw [hu0_09, hv0_09]
    gll_close
  have r0_10 : w 10 * u0_10 * 1 = row0 11 w d 10 := by
    show w 10 * u0_10 * 1 = w 10 * U0 d 10 * U0 (rev 11 d) 0
    rw [hu0_10]
    gll_close
  have r1_0 : 2 * w 0 * (v1_00) = row1 11 w d 0 := by
    show 2 * w 0 * (v1_00) = 2 * w 0 * (U1 d 0 * U0 (rev 11 d) 10 + U0 d 0 * U1 (rev 11 d) 10)
    rw [hv1_00]
    gll_close
  have r1_1 : 2 * w 1 * (1 * v0_01 + u0_01 * v1_01) = row1 11 w d 1 := by
    show 2 * w 1 * (1 * v0_01 + u0_01 * v1_01) = 2 * w 1 * (U1 d 1 * U0 (rev 11 d) 9 + U0 d 1 * U1 (rev 11 d) 9)
    rw [hu0_01, hv0_01, hv1_01]
    gll_close
  have r1_2 : 2 * w 2 * (u1_02 * v0_02 + u0_02 * v1_02) = row1 11 w d 2 := by
    show 2 * w 2 * (u1_02 * v0_02 + u0_02 * v1_02) = 2 * w 2 * (U1 d 2 * U0 (rev 11 d) 8 + U0 d 2 * U1 (rev 11 d) 8)
    rw [hu0_02, hu1_02, hv0_02, hv1_02]
    gll_close
  have r1_3 : 2 * w 3 * (u1_03 * v0_03 + u0_03 * v1_03) = row1 11 w d 3 := by
    show 2 * w 3 * (u1_03 * v0_03 + u0_03 * v1_03) = 2 * w 3 * (U1 d 3 * U0 (rev 11 d) 7 + U0 d 3 * U1 (rev 11 d) 7)
    rw [hu0_03, hu1_03, hv0_03, hv1_03]
    gll_close
  have r1_4 : 2 * w 4 * (u1_04 * v0_04 + u0_04 * v1_04) = row1 11 w d 4 := by
    show 2 * w 4 * (u1_04 * v0_04 + u0_04 * v1_04) = 2 * w 4 * (U1 d 4 * U0 (rev 11 d) 6 + U0 d 4 * U1 (rev 11 d) 6)
    rw [hu0_04, hu1_04, hv0_04, hv1_04]
    gll_close
  have r1_5 : 2 * w 5 * (u1_05 * v0_05 + u0_05 * v1_05) = row1 11 w d 5 := by
    show 2 * w 5 * (u1_05 * v0_05 + u0_05 * v1_05) = 2 * w 5 * (U1 d 5 * U0 (rev 11 d) 5 + U0 d 5 * U1 (rev 11 d) 5)
    rw [hu0_05, hu1_05, hv0_05, hv1_05]
    gll_close
  have r1_6 : 2 * w 6 * (u1_06 * v0_06 + u0_06 * v1_06) = row1 11 w d 6 := by
    show 2 * w 6 * (u1_06 * v0_06 + u0_06 * v1_06) = 2 * w 6 * (U1 d 6 * U0 (rev 11 d) 4 + U0 d 6 * U1 (rev 11 d) 4)
    rw [hu0_06, hu1_06, hv0_06, hv1_06]
    gll_close
  have r1_7 : 2 * w 7 * (u1_07 * v0_07 + u0_07 * v1_07) = row1 11 w d 7 := by
    show 2 * w 7 * (u1_07 * v0_07 + u0_07 * v1_07) = 2 * w 7 * (U1 d 7 * U0 (rev 11 d) 3 + U0 d 7 * U1 (rev 11 d) 3)
    rw [hu0_07, hu1_07, hv0_07, hv1_07]
    gll_close
  have r1_8 : 2 * w 8 * (u1_08 * v0_08 + u0_08 * v1_08) = row1 11 w d 8 := by
    show 2 * w 8 * (u1_08 * v0_08 + u0_08 * v1_08) = 2 * w 8 * (U1 d 8 * U0 (rev 11 d) 2 + U0 d 8 * U1 (rev 11 d) 2)
    rw [hu0_08, hu1_08, hv0_08, hv1_08]
    gll_close
  have r1_9 : 2 * w 9 * (u1_09 * v0_09 + u0_09 * 1) = row1 11 w d 9 := by
    show 2 * w 9 * (u1_09 * v0_09 + u0_09 * 1) = 2 * w 9 * (U1 d 9 * U0 (rev 11 d) 1 + U0 d 9 * U1 (rev 11 d) 1)
    rw [hu0_09, hu1_09, hv0_09]
    gll_close
  have r1_10 : 2 * w 10 * (u1_10) = row1 11 w d 10 := by
    show 2 * w 10 * (u1_10) = 2 * w 10 * (U1 d 10 * U0 (rev 11 d) 0 + U0 d 10 * U1 (rev 11 d) 0)
    rw [hu1_10]
    gll_close
  have r2_0 : 4 * w 0 * (1 * v2_00) = row2 11 w d 0 := by
    show 4 * w 0 * (1 * v2_00) = 4 * w 0 * (U2 d 0 * U0 (rev 11 d) 10 + 2 * U1 d 0 * U1 (rev 11 d) 10 + U0 d 0 * U2 (rev 11 d) 10)
    rw [hv2_00]
    gll_close
  have r2_1 : 4 * w 1 * (2 * 1 * v1_01 + u0_01 * v2_01) = row2 11 w d 1 := by
    show 4 * w 1 * (2 * 1 * v1_01 + u0_01 * v2_01) = 4 * w 1 * (U2 d 1 * U0 (rev 11 d) 9 + 2 * U1 d 1 * U1 (rev 11 d) 9 + U0 d 1 * U2 (rev 11 d) 9)
    rw [hu0_01, hv1_01, hv2_01]
    gll_close
  have r2_2 : 4 * w 2 * (2 * v0_02 + 2 * u1_02 * v1_02 + u0_02 * v2_02) = row2 11 w d 2 := by
    show 4 * w 2 * (2 * v0_02 + 2 * u1_02 * v1_02 + u0_02 * v2_02) = 4 * w 2 * (U2 d 2 * U0 (rev 11 d) 8 + 2 * U1 d 2 * U1 (rev 11 d) 8 + U0 d 2 * U2 (rev 11 d) 8)
    rw [hu0_02, hu1_02, hv0_02, hv1_02, hv2_02]
    gll_close
  have r2_3 : 4 * w 3 * (u2_03 * v0_03 + 2 * u1_03 * v1_03 + u0_03 * v2_03) = row2 11 w d 3 := by
    show 4 * w 3 * (u2_03 * v0_03 + 2 * u1_03 * v1_03 + u0_03 * v2_03) = 4 * w 3 * (U2 d 3 * U0 (rev 11 d) 7 + 2 * U1 d 3 * U1 (rev 11 d) 7 + U0 d 3 * U2 (rev 11 d) 7)
    rw [hu0_03, hu1_03, hu2_03, hv0_03, hv1_03, hv2_03]
    gll_close
  have r2_4 : 4 * w 4 * (u2_04 * v0_04 + 2 * u1_04 * v1_04 + u0_04 * v2_04) = row2 11 w d 4 := by
    show 4 * w 4 * (u2_04 * v0_04 + 2 * u1_04 * v1_04 + u0_04 * v2_04) = 4 * w 4 * (U2 d 4 * U0 (rev 11 d) 6 + 2 * U1 d 4 * U1 (rev 11 d) 6 + U0 d 4 * U2 (rev 11 d) 6)
    rw [hu0_04, hu1_04, hu2_04, hv0_04, hv1_04, hv2_04]
    gll_close
  have r2_5 : 4 * w 5 * (u2_05 * v0_05 + 2 * u1_05 * v1_05 + u0_05 * v2_05) = row2 11 w d 5 := by
    show 4 * w 5 * (u2_05 * v0_05 + 2 * u1_05 * v1_05 + u0_05 * v2_05) = 4 * w 5 * (U2 d 5 * U0 (rev 11 d) 5 + 2 * U1 d 5 * U1 (rev 11 d) 5 + U0 d 5 * U2 (rev 11 d) 5)
    rw [hu0_05, hu1_05, hu2_05, hv0_05, hv1_05, hv2_05]
    gll_close
  have r2_6 : 4 * w 6 * (u2_06 * v0_06 + 2 * u1_06 * v1_06 + u0_06 * v2_06) = row2 11 w d 6 := by
    show 4 * w 6 * (u2_06 * v0_06 + 2 * u1_06 * v1_06 + u0_06 * v2_06) = 4 * w 6 * (U2 d 6 * U0 (rev 11 d) 4 + 2 * U1 d 6 * U1 (rev 11 d) 4 + U0 d 6 * U2 (rev 11 d) 4)
    rw [hu0_06, hu1_06, hu2_06, hv0_06, hv1_06, hv2_06]
    gll_close
  have r2_7 : 4 * w 7 * (u2_07 * v0_07 + 2 * u1_07 * v1_07 + u0_07 * v2_07) = row2 11 w d 7 := by
    show 4 * w 7 * (u2_07 * v0_07 + 2 * u1_07 * v1_07 + u0_07 * v2_07) = 4 * w 7 * (U2 d 7 * U0 (rev 11 d) 3 + 2 * U1 d 7 * U1 (rev 11 d) 3 + U0 d 7 * U2 (rev 11 d) 3)
    rw [hu0_07, hu1_07, hu2_07, hv0_07, hv1_07, hv2_07]
    gll_close
  have r2_8 : 4 * w 8 * (u2_08 * v0_08 + 2 * u1_08 * v1_08 + u0_08 * 2) = row2 11 w d 8 := by
    show 4 * w 8 * (u2_08 * v0_08 + 2 * u1_08 * v1_08 + u0_08 * 2) = 4 * w 8 * (U2 d 8 * U0 (rev 11 d) 2 + 2 * U1 d 8 * U1 (rev 11 d) 2 + U0 d 8 * U2 (rev 11 d) 2)
    rw [hu0_08, hu1_08, hu2_08, hv0_08, hv1_08]
    gll_close
  have r2_9 : 4 * w 9 * (u2_09 * v0_09 + 2 * u1_09 * 1) = row2 11 w d 9 := by
    show 4 * w 9 * (u2_09 * v0_09 + 2 * u1_09 * 1) = 4 * w 9 * (U2 d 9 * U0 (rev 11 d) 1 + 2 * U1 d 9 * U1 (rev 11 d) 1 + U0 d 9 * U2 (rev 11 d) 1)
    rw [hu1_09, hu2_09, hv0_09]
    gll_close
  have r2_10 : 4 * w 10 * (u2_10 * 1) = row2 11 w d 10 := by
    show 4 * w 10 * (u2_10 * 1) = 4 * w 10 * (U2 d 10 * U0 (rev 11 d) 0 + 2 * U1 d 10 * U1 (rev 11 d) 0 + U0 d 10 * U2 (rev 11 d) 0)
    rw [hu2_10]
    gll_close
  have L0 : [w 0 * 1 * v0_00, w 1 * u0_01 * v0_01, w 2 * u0_02 * v0_02, w 3 * u0_03 * v0_03, w 4 * u0_04 * v0_04, w 5 * u0_05 * v0_05, w 6 * u0_06 * v0_06, w 7 * u0_07 * v0_07, w 8 * u0_08 * v0_08, w 9 * u0_09 * v0_09, w 10 * u0_10 * 1] = (List.range 11).map (row0 11 w d) :=
    (congrArg₂ List.cons r0_0 (congrArg₂ List.cons r0_1 (congrArg₂ List.cons r0_2 (congrArg₂ List.cons r0_3 (congrArg₂ List.cons r0_4 (congrArg₂ List.cons r0_5 (congrArg₂ List.cons r0_6 (congrArg₂ List.cons r0_7 (congrArg₂ List.cons r0_8 (congrArg₂ List.cons r0_9 (congrArg₂ List.cons r0_10 rfl)))))))))))
  have L1 : [2 * w 0 * (v1_00), 2 * w 1 * (1 * v0_01 + u0_01 * v1_01), 2 * w 2 * (u1_02 * v0_02 + u0_02 * v1_02), 2 * w 3 * (u1_03 * v0_03 + u0_03 * v1_03), 2 * w 4 * (u1_04 * v0_04 + u0_04 * v1_04), 2 * w 5 * (u1_05 * v0_05 + u0_05 * v1_05), 2 * w 6 * (u1_06 * v0_06 + u0_06 * v1_06), 2 * w 7 * (u1_07 * v0_07 + u0_07 * v1_07), 2 * w 8 * (u1_08 * v0_08 + u0_08 * v1_08), 2 * w 9 * (u1_09 * v0_09 + u0_09 * 1), 2 * w 10 * (u1_10)] = (List.range 11).map (row1 11 w d) :=
    (congrArg₂ List.cons r1_0 (congrArg₂ List.cons r1_1 (congrArg₂ List.cons r1_2 (congrArg₂ List.cons r1_3 (congrArg₂ List.cons r1_4 (congrArg₂ List.cons r1_5 (congrArg₂ List.cons r1_6 (congrArg₂ List.cons r1_7 (congrArg₂ List.cons r1_8 (congrArg₂ List.cons r1_9 (congrArg₂ List.cons r1_10 rfl)))))))))))
  have L2 : [4 * w 0 * (1 * v2_00), 4 * w 1 * (2 * 1 * v1_01 + u0_01 * v2_01), 4 * w 2 * (2 * v0_02 + 2 * u1_02 * v1_02 + u0_02 * v2_02), 4 * w 3 * (u2_03 * v0_03 + 2 * u1_03 * v1_03 + u0_03 * v2_03), 4 * w 4 * (u2_04 * v0_04 + 2 * u1_04 * v1_04 + u0_04 * v2_04), 4 * w 5 * (u2_05 * v0_05 + 2 * u1_05 * v1_05 + u0_05 * v2_05), 4 * w 6 * (u2_06 * v0_06 + 2 * u1_06 * v1_06 + u0_06 * v2_06), 4 * w 7 * (u2_07 * v0_07 + 2 * u1_07 * v1_07 + u0_07 * v2_07), 4 * w 8 * (u2_08 * v0_08 + 2 * u1_08 * v1_08 + u0_08 * 2), 4 * w 9 * (u2_09 * v0_09 + 2 * u1_09 * 1), 4 * w 10 * (u2_10 * 1)] = (List.range 11).map (row2 11 w d) :=
    (congrArg₂ List.cons r2_0 (congrArg₂ List.cons r2_1 (congrArg₂ List.cons r2_2 (congrArg₂ List.cons r2_3 (congrArg₂ List.cons r2_4 (congrArg₂ List.cons r2_5 (congrArg₂ List.cons r2_6 (congrArg₂ List.cons r2_7 (congrArg₂ List.cons r2_8 (congrArg₂ List.cons r2_9 (congrArg₂ List.cons r2_10 rfl)))))))))))
  exact congrArg₂ Prod.mk L0 (congrArg₂ Prod.mk L1 L2)

end Gslib.Poly
