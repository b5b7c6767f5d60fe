import Verif.Model.GllLag
import Verif.Lemmas.GllBase

/-!
# The unrolled functions compute the closed form

Generated proofs: every intermediate constant is identified with a value of the recurrences `U0`, `U1`, `U2`.
-/

namespace Gslib.Poly
variable {K : Type} [Field K]

theorem gllLag12_eq (g w : Nat → K) (xh : K) : gllLag12 g w xh = rowLists 12 w (dx (gnode 12 g) xh) := by
  unfold gllLag12
  extract_lets x d00 d01 d02 d03 d04 d05 d06 d07 d08 d09 d10 d11 u0_01 u0_02 u0_03 u0_04 u0_05 u0_06 u0_07 u0_08 u0_09 u0_10 u0_11 v0_10 v0_09 v0_08 v0_07 v0_06 v0_05 v0_04 v0_03 v0_02 v0_01 v0_00 u1_02 u1_03 u1_04 u1_05 u1_06 u1_07 u1_08 u1_09 u1_10 u1_11 v1_09 v1_08 v1_07 v1_06 v1_05 v1_04 v1_03 v1_02 v1_01 v1_00 u2_03 u2_04 u2_05 u2_06 u2_07 u2_08 u2_09 u2_10 u2_11 v2_08 v2_07 v2_06 v2_05 v2_04 v2_03 v2_02 v2_01 v2_00
  generalize hd : dx (gnode 12 g) xh = d
  have hd00 : d00 = d 0 := by
    rw [← hd]; show xh * 2 + 2 = 2 * (xh - (-1)); ring
  have hd01 : d01 = d 1 := by
    rw [← hd]; show xh * 2 + 2 * g 0 = 2 * (xh - (-g 0)); ring
  have hd02 : d02 = d 2 := by
    rw [← hd]; show xh * 2 + 2 * g 1 = 2 * (xh - (-g 1)); ring
  have hd03 : d03 = d 3 := by
    rw [← hd]; show xh * 2 + 2 * g 2 = 2 * (xh - (-g 2)); ring
  have hd04 : d04 = d 4 := by
    rw [← hd]; show xh * 2 + 2 * g 3 = 2 * (xh - (-g 3)); ring
  have hd05 : d05 = d 5 := by
    rw [← hd]; show xh * 2 + 2 * g 4 = 2 * (xh - (-g 4)); ring
  have hd06 : d06 = d 6 := by
    rw [← hd]; show xh * 2 - 2 * g 4 = 2 * (xh - (g 4)); ring
  have hd07 : d07 = d 7 := by
    rw [← hd]; show xh * 2 - 2 * g 3 = 2 * (xh - (g 3)); ring
  have hd08 : d08 = d 8 := by
    rw [← hd]; show xh * 2 - 2 * g 2 = 2 * (xh - (g 2)); ring
  have hd09 : d09 = d 9 := by
    rw [← hd]; show xh * 2 - 2 * g 1 = 2 * (xh - (g 1)); ring
  have hd10 : d10 = d 10 := by
    rw [← hd]; show xh * 2 - 2 * g 0 = 2 * (xh - (g 0)); ring
  have hd11 : d11 = d 11 := by
    rw [← hd]; show xh * 2 - 2 = 2 * (xh - (1)); ring
  have hu0_01 : u0_01 = U0 d 1 := by
    show 1 * d00 = U0 d 0 * d 0
    rw [hd00]
    gll_close
  have hu0_02 : u0_02 = U0 d 2 := by
    show u0_01 * d01 = U0 d 1 * d 1
    rw [hd01, hu0_01]
    gll_close
  have hu0_03 : u0_03 = U0 d 3 := by
    show u0_02 * d02 = U0 d 2 * d 2
    rw [hd02, hu0_02]
    gll_close
  have hu0_04 : u0_04 = U0 d 4 := by
    show u0_03 * d03 = U0 d 3 * d 3
    rw [hd03, hu0_03]
    gll_close
  have hu0_05 : u0_05 = U0 d 5 := by
    show u0_04 * d04 = U0 d 4 * d 4
    rw [hd04, hu0_04]
    gll_close
  have hu0_06 : u0_06 = U0 d 6 := by
    show u0_05 * d05 = U0 d 5 * d 5
    rw [hd05, hu0_05]
    gll_close
  have hu0_07 : u0_07 = U0 d 7 := by
    show u0_06 * d06 = U0 d 6 * d 6
    rw [hd06, hu0_06]
    gll_close
  have hu0_08 : u0_08 = U0 d 8 := by
    show u0_07 * d07 = U0 d 7 * d 7
    rw [hd07, hu0_07]
    gll_close
  have hu0_09 : u0_09 = U0 d 9 := by
    show u0_08 * d08 = U0 d 8 * d 8
    rw [hd08, hu0_08]
    gll_close
  have hu0_10 : u0_10 = U0 d 10 := by
    show u0_09 * d09 = U0 d 9 * d 9
    rw [hd09, hu0_09]
    gll_close
  have hu0_11 : u0_11 = U0 d 11 := by
    show u0_10 * d10 = U0 d 10 * d 10
    rw [hd10, hu0_10]
    gll_close
  have hv0_10 : v0_10 = U0 (rev 12 d) 1 := by
    show d11 * 1 = U0 (rev 12 d) 0 * d 11
    rw [hd11]
    gll_close
  have hv0_09 : v0_09 = U0 (rev 12 d) 2 := by
    show d10 * v0_10 = U0 (rev 12 d) 1 * d 10
    rw [hd10, hv0_10]
    gll_close
  have hv0_08 : v0_08 = U0 (rev 12 d) 3 := by
    show d09 * v0_09 = U0 (rev 12 d) 2 * d 9
    rw [hd09, hv0_09]
    gll_close
  have hv0_07 : v0_07 = U0 (rev 12 d) 4 := by
    show d08 * v0_08 = U0 (rev 12 d) 3 * d 8
    rw [hd08, hv0_08]
    gll_close
  have hv0_06 : v0_06 = U0 (rev 12 d) 5 := by
    show d07 * v0_07 = U0 (rev 12 d) 4 * d 7
    rw [hd07, hv0_07]
    gll_close
  have hv0_05 : v0_05 = U0 (rev 12 d) 6 := by
    show d06 * v0_06 = U0 (rev 12 d) 5 * d 6
    rw [hd06, hv0_06]
    gll_close
  have hv0_04 : v0_04 = U0 (rev 12 d) 7 := by
    show d05 * v0_05 = U0 (rev 12 d) 6 * d 5
    rw [hd05, hv0_05]
    gll_close
  have hv0_03 : v0_03 = U0 (rev 12 d) 8 := by
    show d04 * v0_04 = U0 (rev 12 d) 7 * d 4
    rw [hd04, hv0_04]
    gll_close
  have hv0_02 : v0_02 = U0 (rev 12 d) 9 := by
    show d03 * v0_03 = U0 (rev 12 d) 8 * d 3
    rw [hd03, hv0_03]
    gll_close
  have hv0_01 : v0_01 = U0 (rev 12 d) 10 := by
    show d02 * v0_02 = U0 (rev 12 d) 9 * d 2
    rw [hd02, hv0_02]
    gll_close
  have hv0_00 : v0_00 = U0 (rev 12 d) 11 := by
    show d01 * v0_01 = U0 (rev 12 d) 10 * d 1
    rw [hd01, hv0_01]
    gll_close
  have hu1_02 : u1_02 = U1 d 2 := by
    show 1 * d01 + u0_01 = U1 d 1 * d 1 + U0 d 1
    rw [hd01, hu0_01]
    gll_close
  have hu1_03 : u1_03 = U1 d 3 := by
    show u1_02 * d02 + u0_02 = U1 d 2 * d 2 + U0 d 2
    rw [hd02, hu0_02, hu1_02]
    gll_close
  have hu1_04 : u1_04 = U1 d 4 := by
    show u1_03 * d03 + u0_03 = U1 d 3 * d 3 + U0 d 3
    rw [hd03, hu0_03, hu1_03]
    gll_close
  have hu1_05 : u1_05 = U1 d 5 := by
    show u1_04 * d04 + u0_04 = U1 d 4 * d 4 + U0 d 4
    rw [hd04, hu0_04, hu1_04]
    gll_close
  have hu1_06 : u1_06 = U1 d 6 := by
    show u1_05 * d05 + u0_05 = U1 d 5 * d 5 + U0 d 5
    rw [hd05, hu0_05, hu1_05]
    gll_close
  have hu1_07 : u1_07 = U1 d 7 := by
    show u1_06 * d06 + u0_06 = U1 d 6 * d 6 + U0 d 6
    rw [hd06, hu0_06, hu1_06]
    gll_close
  have hu1_08 : u1_08 = U1 d 8 := by
    show u1_07 * d07 + u0_07 = U1 d 7 * d 7 + U0 d 7
    rw [hd07, hu0_07, hu1_07]
    gll_close
  have hu1_09 : u1_09 = U1 d 9 := by
    show u1_08 * d08 + u0_08 = U1 d 8 * d 8 + U0 d 8
    rw [hd08, hu0_08, hu1_08]
    gll_close
  have hu1_10 : u1_10 = U1 d 10 := by
    show u1_09 * d09 + u0_09 = U1 d 9 * d 9 + U0 d 9
    rw [hd09, hu0_09, hu1_09]
    gll_close
  have hu1_11 : u1_11 = U1 d 11 := by
    show u1_10 * d10 + u0_10 = U1 d 10 * d 10 + U0 d 10
    rw [hd10, hu0_10, hu1_10]
    gll_close
  have hv1_09 : v1_09 = U1 (rev 12 d) 2 := by
    show d10 * 1 + v0_10 = U1 (rev 12 d) 1 * d 10 + U0 (rev 12 d) 1
    rw [hd10, hv0_10]
    gll_close
  have hv1_08 : v1_08 = U1 (rev 12 d) 3 := by
    show d09 * v1_09 + v0_09 = U1 (rev 12 d) 2 * d 9 + U0 (rev 12 d) 2
    rw [hd09, hv0_09, hv1_09]
    gll_close
  have hv1_07 : v1_07 = U1 (rev 12 d) 4 := by
    show d08 * v1_08 + v0_08 = U1 (rev 12 d) 3 * d 8 + U0 (rev 12 d) 3
    rw [hd08, hv0_08, hv1_08]
    gll_close
  have hv1_06 : v1_06 = U1 (rev 12 d) 5 := by
    show d07 * v1_07 + v0_07 = U1 (rev 12 d) 4 * d 7 + U0 (rev 12 d) 4
    rw [hd07, hv0_07, hv1_07]
    gll_close
  have hv1_05 : v1_05 = U1 (rev 12 d) 6 := by
    show d06 * v1_06 + v0_06 = U1 (rev 12 d) 5 * d 6 + U0 (rev 12 d) 5
    rw [hd06, hv0_06, hv1_06]
    gll_close
  have hv1_04 : v1_04 = U1 (rev 12 d) 7 := by
    show d05 * v1_05 + v0_05 = U1 (rev 12 d) 6 * d 5 + U0 (rev 12 d) 6
    rw [hd05, hv0_05, hv1_05]
    gll_close
  have hv1_03 : v1_03 = U1 (rev 12 d) 8 := by
    show d04 * v1_04 + v0_04 = U1 (rev 12 d) 7 * d 4 + U0 (rev 12 d) 7
    rw [hd04, hv0_04, hv1_04]
    gll_close
  have hv1_02 : v1_02 = U1 (rev 12 d) 9 := by
    show d03 * v1_03 + v0_03 = U1 (rev 12 d) 8 * d 3 + U0 (rev 12 d) 8
    rw [hd03, hv0_03, hv1_03]
    gll_close
  have hv1_01 : v1_01 = U1 (rev 12 d) 10 := by
    show d02 * v1_02 + v0_02 = U1 (rev 12 d) 9 * d 2 + U0 (rev 12 d) 9
    rw [hd02, hv0_02, hv1_02]
    gll_close
  have hv1_00 : v1_00 = U1 (rev 12 d) 11 := by
    show d01 * v1_01 + v0_01 = U1 (rev 12 d) 10 * d 1 + U0 (rev 12 d) 10
    rw [hd01, hv0_01, hv1_01]
    gll_close
  have hu2_03 : u2_03 = U2 d 3 := by
    show 2 * d02 + 2 * u1_02 = U2 d 2 * d 2 + 2 * U1 d 2
    rw [hd02, hu1_02]
    gll_close
  have hu2_04 : u2_04 = U2 d 4 := by
    show u2_03 * d03 + 2 * u1_03 = U2 d 3 * d 3 + 2 * U1 d 3
    rw [hd03, hu1_03, hu2_03]
    gll_close
  have hu2_05 : u2_05 = U2 d 5 := by
    show u2_04 * d04 + 2 * u1_04 = U2 d 4 * d 4 + 2 * U1 d 4
    rw [hd04, hu1_04, hu2_04]
    gll_close
  have hu2_06 : u2_06 = U2 d 6 := by
    show u2_05 * d05 + 2 * u1_05 = U2 d 5 * d 5 + 2 * U1 d 5
    rw [hd05, hu1_05, hu2_05]
    gll_close
  have hu2_07 : u2_07 = U2 d 7 := by
    show u2_06 * d06 + 2 * u1_06 = U2 d 6 * d 6 + 2 * U1 d 6
    rw [hd06, hu1_06, hu2_06]
    gll_close
  have hu2_08 : u2_08 = U2 d 8 := by
    show u2_07 * d07 + 2 * u1_07 = U2 d 7 * d 7 + 2 * U1 d 7
    rw [hd07, hu1_07, hu2_07]
    gll_close
  have hu2_09 : u2_09 = U2 d 9 := by
    show u2_08 * d08 + 2 * u1_08 = U2 d 8 * d 8 + 2 * U1 d 8
    rw [hd08, hu1_08, hu2_08]
    gll_close
  have hu2_10 : u2_10 = U2 d 10 := by
    show u2_09 * d09 + 2 * u1_09 = U2 d 9 * d 9 + 2 * U1 d 9
    rw [hd09, hu1_09, hu2_09]
    gll_close
  have hu2_11 : u2_11 = U2 d 11 := by
    show u2_10 * d10 + 2 * u1_10 = U2 d 10 * d 10 + 2 * U1 d 10
    rw [hd10, hu1_10, hu2_10]
    gll_close
  have hv2_08 : v2_08 = U2 (rev 12 d) 3 := by
    show d09 * 2 + 2 * v1_09 = U2 (rev 12 d) 2 * d 9 + 2 * U1 (rev 12 d) 2
    rw [hd09, hv1_09]
    gll_close
  have hv2_07 : v2_07 = U2 (rev 12 d) 4 := by
    show d08 * v2_08 + 2 * v1_08 = U2 (rev 12 d) 3 * d 8 + 2 * U1 (rev 12 d) 3
    rw [hd08, hv1_08, hv2_08]
    gll_close
  have hv2_06 : v2_06 = U2 (rev 12 d) 5 := by
    show d07 * v2_07 + 2 * v1_07 = U2 (rev 12 d) 4 * d 7 + 2 * U1 (rev 12 d) 4
    rw [hd07, hv1_07, hv2_07]
    gll_close
  have hv2_05 : v2_05 = U2 (rev 12 d) 6 := by
    show d06 * v2_06 + 2 * v1_06 = U2 (rev 12 d) 5 * d 6 + 2 * U1 (rev 12 d) 5
    rw [hd06, hv1_06, hv2_06]
    gll_close
  have hv2_04 : v2_04 = U2 (rev 12 d) 7 := by
    show d05 * v2_05 + 2 * v1_05 = U2 (rev 12 d) 6 * d 5 + 2 * U1 (rev 12 d) 6
    rw [hd05, hv1_05, hv2_05]
    gll_close
  have hv2_03 : v2_03 = U2 (rev 12 d) 8 := by
    show d04 * v2_04 + 2 * v1_04 = U2 (rev 12 d) 7 * d 4 + 2 * U1 (rev 12 d) 7
    rw [hd04, hv1_04, hv2_04]
    gll_close
  have hv2_02 : v2_02 = U2 (rev 12 d) 9 := by
    show d03 * v2_03 + 2 * v1_03 = U2 (rev 12 d) 8 * d 3 + 2 * U1 (rev 12 d) 8
    rw [hd03, hv1_03, hv2_03]
    gll_close
  have hv2_01 : v2_01 = U2 (rev 12 d) 10 := by
    show d02 * v2_02 + 2 * v1_02 = U2 (rev 12 d) 9 * d 2 + 2 * U1 (rev 12 d) 9
    rw [hd02, hv1_02, hv2_02]
    gll_close
  have hv2_00 : v2_00 = U2 (rev 12 d) 11 := by
    show d01 * v2_01 + 2 * v1_01 = U2 (rev 12 d) 10 * d 1 + 2 * U1 (rev 12 d) 10
    rw [hd01, hv1_01, hv2_01]
    gll_close
  have r0_0 : w 0 * 1 * v0_00 = row0 12 w d 0 := by
    show w 0 * 1 * v0_00 = w 0 * U0 d 0 * U0 (rev 12 d) 11
    rw [hv0_00]
    gll_close
  have r0_1 : w 1 * u0_01 * v0_01 = row0 12 w d 1 := by
    show w 1 * u0_01 * v0_01 = w 1 * U0 d 1 * U0 (rev 12 d) 10
    rw [hu0_01, hv0_01]
    gll_close
  have r0_2 : w 2 * u0_02 * v0_02 = row0 12 w d 2 := by
    show w 2 * u0_02 * v0_02 = w 2 * U0 d 2 * U0 (rev 12 d) 9
    rw [hu0_02, hv0_02]
    gll_close
  have r0_3 : w 3 * u0_03 * v0_03 = row0 12 w d 3 := by
    show w 3 * u0_03 * v0_03 = w 3 * U0 d 3 * U0 (rev 12 d) 8
    rw [hu0_03, hv0_03]
    gll_close
  have r0_4 : w 4 * u0_04 * v0_04 = row0 12 w d 4 := by
    show w 4 * u0_04 * v0_04 = w 4 * U0 d 4 * U0 (rev 12 d) 7
    rw [hu0_04, hv0_04]
    gll_close
  have r0_5 : w 5 * u0_05 * v0_05 = row0 12 w d 5 := by
    show w 5 * u0_05 * v0_05 = w 5 * U0 d 5 * U0 (rev 12 d) 6
    rw [hu0_05, hv0_05]
    gll_close
  have r0_6 : w 6 * u0_06 * v0_06 = row0 12 w d 6 := by
    show w 6 * u0_06 * v0_06 = w 6 * U0 d 6 * U0 (rev 12 d) 5
    rw [hu0_06, hv0_06]
    gll_close
  have r0_7 : w 7 * u0_07 * v0_07 = row0 12 w d 7 := by
    show w 7 * u0_07 * v0_07 = w 7 * U0 d 7 * U0 (rev 12 d) 4
    rw [hu0_07, hv0_07]
    gll_close
  have r0_8 : w 8 * u0_08 * v0_08 = row0 12 w d 8 := by
    show w 8 * u0_08 * v0_08 = w 8 * U0 d 8 * U0 (rev 12 d) 3
    rw [hu0_08, hv0_08]
    gll_close
  have r0_9 : w 9 * u0_09 * v0_09 = row0 12 w d 9 := by
    show w 9 * u0_09 * v0_09 = w 9 * U0 d 9 * U0 (rev 12 d) 2
    rw [hu0_09, hv0_09]
    gll_close
  have r0_10 : w 10 * u0_10 * v0_10 = row0 12 w d 10 := by
    show w 10 * u0_10 * v0_10 = w 10 * U0 d 10 * U0 (rev 12 d) 1
    rw [hu0_10, hv0_10]
    gll_close
  have r0_11 : w 11 * u0_11 * 1 = row0 12 w d 11 := by
    show w 11 * u0_11 * 1 = w 11 * U0 d 11 * U0 (rev 12 d) 0
    rw [hu0_11]
    gll_close
  have r1_0 : 2 * w 0 * (v1_00) = row1 12 w d 0 := by
    show 2 * w 0 * (v1_00) = 2 * w 0 * (U1 d 0 * U0 (rev 12 d) 11 + U0 d 0 * U1 (rev 12 d) 11)
    rw [hv1_00]
    gll_close
  have r1_1 : 2 * w 1 * (1 * v0_01 + u0_01 * v1_01) = row1 12 w d 1 := by
    show 2 * w 1 * (1 * v0_01 + u0_01 * v1_01) = 2 * w 1 * (U1 d 1 * U0 (rev 12 d) 10 + U0 d 1 * U1 (rev 12 d) 10)
    rw [hu0_01, hv0_01, hv1_01]
    gll_close
  have r1_2 : 2 * w 2 * (u1_02 * v0_02 + u0_02 * v1_02) = row1 12 w d 2 := by
    show 2 * w 2 * (u1_02 * v0_02 + u0_02 * v1_02) = 2 * w 2 * (U1 d 2 * U0 (rev 12 d) 9 + U0 d 2 * U1 (rev 12 d) 9)
    rw [hu0_02, hu1_02, hv0_02, hv1_02]
    gll_close
  have r1_3 : 2 * w 3 * (u1_03 * v0_03 + u0_03 * v1_03) = row1 12 w d 3 := by
    show 2 * w 3 * (u1_03 * v0_03 + u0_03 * v1_03) = 2 * w 3 * (U1 d 3 * U0 (rev 12 d) 8 + U0 d 3 * U1 (rev 12 d) 8)
    rw [hu0_03, hu1_03, hv0_03, hv1_03]
    gll_close
  have r1_4 : 2 * w 4 * (u1_04 * v0_04 + u0_04 * v1_04) = row1 12 w d 4 := by
    show 2 * w 4 * (u1_04 * v0_04 + u0_04 * v1_04) = 2 * w 4 * (U1 d 4 * U0 (rev 12 d) 7 + U0 d 4 * U1 (rev 12 d) 7)
    rw [hu0_04, hu1_04, hv0_04, hv1_04]
    gll_close
  have r1_5 : 2 * w 5 * (u1_05 * v0_05 + u0_05 * v1_05) = row1 12 w d 5 := by
    show 2 * w 5 * (u1_05 * v0_05 + u0_05 * v1_05) = 2 * w 5 * (U1 d 5 * U0 (rev 12 d) 6 + U0 d 5 * U1 (rev 12 d) 6)
    rw [hu0_05, hu1_05, hv0_05, hv1_05]
    gll_close
  have r1_6 : 2 * w 6 * (u1_06 * v0_06 + u0_06 * v1_06) = row1 12 w d 6 := by
    show 2 * w 6 * (u1_06 * v0_06 + u0_06 * v1_06) = 2 * w 6 * (U1 d 6 * U0 (rev 12 d) 5 + U0 d 6 * U1 (rev 12 d) 5)
    rw [hu0_06, hu1_06, hv0_06, hv1_06]
    gll_close
  have r1_7 : 2 * w 7 * (u1_07 * v0_07 + u0_07 * v1_07) = row1 12 w d 7 := by
    show 2 * w 7 * (u1_07 * v0_07 + u0_07 * v1_07) = 2 * w 7 * (U1 d 7 * U0 (rev 12 d) 4 + U0 d 7 * U1 (rev 12 d) 4)
    rw [hu0_07, hu1_07, hv0_07, hv1_07]
    gll_close
  have r1_8 : 2 * w 8 * (u1_08 * v0_08 + u0_08 * v1_08) = row1 12 w d 8 := by
    show 2 * w 8 * (u1_08 * v0_08 + u0_08 * v1_08) = 2 * w 8 * (U1 d 8 * U0 (rev 12 d) 3 + U0 d 8 * U1 (rev 12 d) 3)
    rw [hu0_08, hu1_08, hv0_08, hv1_08]
    gll_close
  have r1_9 : 2 * w 9 * (u1_09 * v0_09 + u0_09 * v1_09) = row1 12 w d 9 := by
    show 2 * w 9 * (u1_09 * v0_09 + u0_09 * v1_09) = 2 * w 9 * (U1 d 9 * U0 (rev 12 d) 2 + U0 d 9 * U1 (rev 12 d) 2)
    rw [hu0_09, hu1_09, hv0_09, hv1_09]
    gll_close
  have r1_10 : 2 * w 10 * (u1_10 * v0_10 + u0_10 * 1) = row1 12 w d 10 := by
    show 2 * w 10 * (u1_10 * v0_10 + u0_10 * 1) = 2 * w 10 * (U1 d 10 * U0 (rev 12 d) 1 + U0 d 10 * U1 (rev 12 d) 1)
    rw [hu0_10, hu1_10, hv0_10]
    gll_close
  have r1_11 : 2 * w 11 * (u1_11) = row1 12 w d 11 := by
    show 2 * w 11 * (u1_11) = 2 * w 11 * (U1 d 11 * U0 (rev 12 d) 0 + U0 d 11 * U1 (rev 12 d) 0)
    rw [hu1_11]
    gll_close
  have r2_0 : 4 * w 0 * (1 * v2_00) = row2 12 w d 0 := by
    show 4 * w 0 * (1 * v2_00) = 4 * w 0 * (U2 d 0 * U0 (rev 12 d) 11 + 2 * U1 d 0 * U1 (rev 12 d) 11 + U0 d 0 * U2 (rev 12 d) 11)
    rw [hv2_00]
    gll_close
  have r2_1 : 4 * w 1 * (2 * 1 * v1_01 + u0_01 * v2_01) = row2 12 w d 1 := by
    show 4 * w 1 * (2 * 1 * v1_01 + u0_01 * v2_01) = 4 * w 1 * (U2 d 1 * U0 (rev 12 d) 10 + 2 * U1 d 1 * U1 (rev 12 d) 10 + U0 d 1 * U2 (rev 12 d) 10)
    rw [hu0_01, hv1_01, hv2_01]
    gll_close
  have r2_2 : 4 * w 2 * (2 * v0_02 + 2 * u1_02 * v1_02 + u0_02 * v2_02) = row2 12 w d 2 := by
    show 4 * w 2 * (2 * v0_02 + 2 * u1_02 * v1_02 + u0_02 * v2_02) = 4 * w 2 * (U2 d 2 * U0 (rev 12 d) 9 + 2 * U1 d 2 * U1 (rev 12 d) 9 + U0 d 2 * U2 (rev 12 d) 9)
    rw [hu0_02, hu1_02, hv0_02, hv1_02, hv2_02]
    gll_close
  have r2_3 : 4 * w 3 * (u2_03 * v0_03 + 2 * u1_03 * v1_03 + u0_03 * v2_03) = row2 12 w d 3 := by
    show 4 * w 3 * (u2_03 * v0_03 + 2 * u1_03 * v1_03 + u0_03 * v2_03) = 4 * w 3 * (U2 d 3 * U0 (rev 12 d) 8 + 2 * U1 d 3 * U1 (rev 12 d) 8 + U0 d 3 * U2 (rev 12 d) 8)
    rw [hu0_03, hu1_03, hu2_03, hv0_03, hv1_03, hv2_03]
    gll_close
  have r2_4 : 4 * w 4 * (u2_04 * v0_04 + 2 * u1_04 * v1_04 + u0_04 * v2_04) = row2 12 w d 4 := by
    show 4 * w 4 * (u2_04 * v0_04 + 2 * u1_04 * v1_04 + u0_04 * v2_04) = 4 * w 4 * (U2 d 4 * U0 (rev 12 d) 7 + 2 * U1 d 4 * U1 (rev 12 d) 7 + U0 d 4 * U2 (rev 12 d) 7)
    rw [hu0_04, hu1_04, hu2_04, hv0_04, hv1_04, hv2_04]
    gll_close
  have r2_5 : 4 * w 5 * (u2_05 * v0_05 + 2 * u1_05 * v1_05 + u0_05 * v2_05) = row2 12 w d 5 := by
    show 4 * w 5 * (u2_05 * v0_05 + 2 * u1_05 * v1_05 + u0_05 * v2_05) = 4 * w 5 * (U2 d 5 * U0 (rev 12 d) 6 + 2 * U1 d 5 * U1 (rev 12 d) 6 + U0 d 5 * U2 (rev 12 d) 6)
    rw [hu0_05, hu1_05, hu2_05, hv0_05, hv1_05, hv2_05]
    gll_close
  have r2_6 : 4 * w 6 * (u2_06 * v0_06 + 2 * u1_06 * v1_06 + u0_06 * v2_06) = row2 12 w d 6 := by
    show 4 * w 6 * (u2_06 * v0_06 + 2 * u1_06 * v1_06 + u0_06 * v2_06) = 4 * w 6 * (U2 d 6 * U0 (rev 12 d) 5 + 2 * U1 d 6 * U1 (rev 12 d) 5 + U0 d 6 * U2 (rev 12 d) 5)
    rw [hu0_06, hu1_06, hu2_06, hv0_06, hv1_06, hv2_06]
    gll_close
  have r2_7 : 4 * w 7 * (u2_07 * v0_07 + 2 * u1_07 * v1_07 + u0_07 * v2_07) = row2 12 w d 7 := by
    show 4 * w 7 * (u2_07 * v0_07 + 2 * u1_07 * v1_07 + u0_07 * v2_07) = 4 * w 7 * (U2 d 7 * U0 (rev 12 d) 4 + 2 * U1 d 7 * U1 (rev 12 d) 4 + U0 d 7 * U2 (rev 12 d) 4)
    rw [hu0_07, hu1_07, hu2_07, hv0_07, hv1_07, hv2_07]
    gll_close
  have r2_8 : 4 * w 8 * (u2_08 * v0_08 + 2 * u1_08 * v1_08 + u0_08 * v2_08) = row2 12 w d 8 := by
    show 4 * w 8 * (u2_08 * v0_08 + 2 * u1_08 * v1_08 + u0_08 * v2_08) = 4 * w 8 * (U2 d 8 * U0 (rev 12 d) 3 + 2 * U1 d 8 * U1 (rev 12 d) 3 + U0 d 8 * U2 (rev 12 d) 3)
    rw [hu0_08, hu1_08, hu2_08, hv0_08, hv1_08, hv2_08]
    gll_close
  have r2_9 : 4 * w 9 * (u2_09 * v0_09 + 2 * u1_09 * v1_09 + u0_09 * 2) = row2 12 w d 9 := by
    show 4 * w 9 * (u2_09 * v0_09 + 2 * u1_09 * v1_09 + u0_09 * 2) = 4 * w 9 * (U2 d 9 * U0 (rev 12 d) 2 + 2 * U1 d 9 * U1 (rev 12 d) 2 + U0 d 9 * U2 (rev 12 d) 2)
    rw [hu0_09, hu1_09, hu2_09, hv0_09, hv1_09]
    gll_close
  have r2_10 : 4 * w 10 * (u2_10 * v0_10 + 2 * u1_10 * 1) = row2 12 w d 10 := by
    show 4 * w 10 * (u2_10 * v0_10 + 2 * u1_10 * 1) = 4 * w 10 * (U2 d 10 * U0 (rev 12 d) 1 + 2 * U1 d 10 * U1 (rev 12 d) 1 + U0 d 10 * U2 (rev 12 d) 1)
    rw [hu1_10, hu2_10, hv0_10]
    gll_close
  have r2_11 : 4 * w 11 * (u2_11 * 1) = row2 12 w d 11 := by
    show 4 * w 11 * (u2_11 * 1) = 4 * w 11 * (U2 d 11 * U0 (rev 12 d) 0 + 2 * U1 d 11 * U1 (rev 12 d) 0 + U0 d 11 * U2 (rev 12 d) 0)
    rw [hu2_11]
    gll_close
  have L0 : [w 0 * 1 * v0_00, w 1 * u0_01 * v0_01, w 2 * u0_02 * v0_02, w 3 * u0_03 * v0_03, w 4 * u0_04 * v0_04, w 5 * u0_05 * v0_05, w 6 * u0_06 * v0_06, w 7 * u0_07 * v0_07, w 8 * u0_08 * v0_08, w 9 * u0_09 * v0_09, w 10 * u0_10 * v0_10, w 11 * u0_11 * 1] = (List.range 12).map (row0 12 w d) :=
    (congrArg₂ List.cons r0_0 (congrArg₂ List.cons r0_1 (congrArg₂ List.cons r0_2 (congrArg₂ List.cons r0_3 (congrArg₂ List.cons r0_4 (congrArg₂ List.cons r0_5 (congrArg₂ List.cons r0_6 (congrArg₂ List.cons r0_7 (congrArg₂ List.cons r0_8 (congrArg₂ List.cons r0_9 (congrArg₂ List.cons r0_10 (congrArg₂ List.cons r0_11 rfl))))))))))))
  have L1 : [2 * w 0 * (v1_00), 2 * w 1 * (1 * v0_01 + u0_01 * v1_01), 2 * w 2 * (u1_02 * v0_02 + u0_02 * v1_02), 2 * w 3 * (u1_03 * v0_03 + u0_03 * v1_03), 2 * w 4 * (u1_04 * v0_04 + u0_04 * v1_04), 2 * w 5 * (u1_05 * v0_05 + u0_05 * v1_05), 2 * w 6 * (u1_06 * v0_06 + u0_06 * v1_06), 2 * w 7 * (u1_07 * v0_07 + u0_07 * v1_07), 2 * w 8 * (u1_08 * v0_08 + u0_08 * v1_08), 2 * w 9 * (u1_09 * v0_09 + u0_09 * v1_09), 2 * w 10 * (u1_10 * v0_10 + u0_10 * 1), 2 * w 11 * (u1_11)] = (List.range 12).map (row1 12 w d) :=
    (congrArg₂ List.cons r1_0 (congrArg₂ List.cons r1_1 (congrArg₂ List.cons r1_2 (congrArg₂ List.cons r1_3 (congrArg₂ List.cons r1_4 (congrArg₂ List.cons r1_5 (congrArg₂ List.cons r1_6 (congrArg₂ List.cons r1_7 (congrArg₂ List.cons r1_8 (congrArg₂ List.cons r1_9 (congrArg₂ List.cons r1_10 (congrArg₂ List.cons r1_11 rfl))))))))))))
  have L2 : [4 * w 0 * (1 * v2_00), 4 * w 1 * (2 * 1 * v1_01 + u0_01 * v2_01), 4 * w 2 * (2 * v0_02 + 2 * u1_02 * v1_02 + u0_02 * v2_02), 4 * w 3 * (u2_03 * v0_03 + 2 * u1_03 * v1_03 + u0_03 * v2_03), 4 * w 4 * (u2_04 * v0_04 + 2 * u1_04 * v1_04 + u0_04 * v2_04), 4 * w 5 * (u2_05 * v0_05 + 2 * u1_05 * v1_05 + u0_05 * v2_05), 4 * w 6 * (u2_06 * v0_06 + 2 * u1_06 * v1_06 + u0_06 * v2_06), 4 * w 7 * (u2_07 * v0_07 + 2 * u1_07 * v1_07 + u0_07 * v2_07), 4 * w 8 * (u2_08 * v0_08 + 2 * u1_08 * v1_08 + u0_08 * v2_08), 4 * w 9 * (u2_09 * v0_09 + 2 * u1_09 * v1_09 + u0_09 * 2), 4 * w 10 * (u2_10 * v0_10 + 2 * u1_10 * 1), 4 * w 11 * (u2_11 * 1)] = (List.range 12).map (row2 12 w d) :=
    (congrArg₂ List.cons r2_0 (congrArg₂ List.cons r2_1 (congrArg₂ List.cons r2_2 (congrArg₂ List.cons r2_3 (congrArg₂ List.cons r2_4 (congrArg₂ List.cons r2_5 (congrArg₂ List.cons r2_6 (congrArg₂ List.cons r2_7 (congrArg₂ List.cons r2_8 (congrArg₂ List.cons r2_9 (congrArg₂ List.cons r2_10 (congrArg₂ List.cons r2_11 rfl))))))))))))
  exact congrArg₂ Prod.mk L0 (congrArg₂ Prod.mk L1 L2)

theorem gllLag13_eq (g w : Nat → K) (xh : K) : gllLag13 g w xh = rowLists 13 w (dx (gnode 13 g) xh) := by
  unfold gllLag13
  extract_lets x d00 d01 d02 d03 d04 d05 d06 d07 d08 d09 d10 d11 d12 u0_01 u0_02 u0_03 u0_04 u0_05 u0_06 u0_07 u0_08 u0_09 u0_10 u0_11 u0_12 v0_11 v0_10 v0_09 v0_08 v0_07 v0_06 v0_05 v0_04 v0_03 v0_02 v0_01 v0_00 u1_02 u1_03 u1_04 u1_05 u1_06 u1_07 u1_08 u1_09 u1_10 u1_11 u1_12 v1_10 v1_09 v1_08 v1_07 v1_06 v1_05 v1_04 v1_03 v1_02 v1_01 v1_00 u2_03 u2_04 u2_05 u2_06 u2_07 u2_08 u2_09 u2_10 u2_11 u2_12 v2_09 v2_08 v2_07 v2_06 v2_05 v2_04 v2_03 v2_02 v2_01 v2_00
  generalize hd : dx (gnode 13 g) xh = d
  have hd00 : d00 = d 0 := by
    rw [← hd]; show xh * 2 + 2 = 2 * (xh - (-1)); ring
  have hd01 : d01 = d 1 := by
    rw [← hd]; show xh * 2 + 2 * g 0 = 2 * (xh - (-g 0)); ring
  have hd02 : d02 = d 2 := by
    rw [← hd]; show xh * 2 + 2 * g 1 = 2 * (xh - (-g 1)); ring
  have hd03 : d03 = d 3 := by
    rw [← hd]; show xh * 2 + 2 * g 2 = 2 * (xh - (-g 2)); ring
  have hd04 : d04 = d 4 := by
    rw [← hd]; show xh * 2 + 2 * g 3 = 2 * (xh - (-g 3)); ring
  have hd05 : d05 = d 5 := by
    rw [← hd]; show xh * 2 + 2 * g 4 = 2 * (xh - (-g 4)); ring
  have hd06 : d06 = d 6 := by
    rw [← hd]; show xh * 2 = 2 * (xh - (0)); ring
  have hd07 : d07 = d 7 := by
    rw [← hd]; show xh * 2 - 2 * g 4 = 2 * (xh - (g 4)); ring
  have hd08 : d08 = d 8 := by
    rw [← hd]; show xh * 2 - 2 * g 3 = 2 * (xh - (g 3)); ring
  have hd09 : d09 = d 9 := by
    rw [← hd]; show xh * 2 - 2 * g 2 = 2 * (xh - (g 2)); ring
  have hd10 : d10 = d 10 := by
    rw [← hd]; show xh * 2 - 2 * g 1 = 2 * (xh - (g 1)); ring
  have hd11 : d11 = d 11 := by
    rw [← hd]; show xh * 2 - 2 * g 0 = 2 * (xh - (g 0)); ring
  have hd12 : d12 = d 12 := by
    rw [← hd]; show xh * 2 - 2 = 2 * (xh - (1)); ring
  have hu0_01 : u0_01 = U0 d 1 := by
    show 1 * d00 = U0 d 0 * d 0
    rw [hd00]
    gll_close
  have hu0_02 : u0_02 = U0 d 2 := by
    show u0_01 * d01 = U0 d 1 * d 1
    rw [hd01, hu0_01]
    gll_close
  have hu0_03 : u0_03 = U0 d 3 := by
    show u0_02 * d02 = U0 d 2 * d 2
    rw [hd02, hu0_02]
    gll_close
  have hu0_04 : u0_04 = U0 d 4 := by
    show u0_03 * d03 = U0 d 3 * d 3
    rw [hd03, hu0_03]
    gll_close
  have hu0_05 : u0_05 = U0 d 5 := by
    show u0_04 * d04 = U0 d 4 * d 4
    rw [hd04, hu0_04]
    gll_close
  have hu0_06 : u0_06 = U0 d 6 := by
    show u0_05 * d05 = U0 d 5 * d 5
    rw [hd05, hu0_05]
    gll_close
  have hu0_07 : u0_07 = U0 d 7 := by
    show u0_06 * d06 = U0 d 6 * d 6
    rw [hd06, hu0_06]
    gll_close
  have hu0_08 : u0_08 = U0 d 8 := by
    show u0_07 * d07 = U0 d 7 * d 7
    rw [hd07, hu0_07]
    gll_close
  have hu0_09 : u0_09 = U0 d 9 := by
    show u0_08 * d08 = U0 d 8 * d 8
    rw [hd08, hu0_08]
    gll_close
  have hu0_10 : u0_10 = U0 d 10 := by
    show u0_09 * d09 = U0 d 9 * d 9
    rw [hd09, hu0_09]
    gll_close
  have hu0_11 : u0_11 = U0 d 11 := by
    show u0_10 * d10 = U0 d 10 * d 10
    rw [hd10, hu0_10]
    gll_close
  have hu0_12 : u0_12 = U0 d 12 := by
    show u0_11 * d11 = U0 d 11 * d 11
    rw [hd11, hu0_11]
    gll_close
  have hv0_11 : v0_11 = U0 (rev 13 d) 1 := by
    show d12 * 1 = U0 (rev 13 d) 0 * d 12
    rw [hd12]
    gll_close
  have hv0_10 : v0_10 = U0 (rev 13 d) 2 := by
    show d11 * v0_11 = U0 (rev 13 d) 1 * d 11
    rw [hd11, hv0_11]
    gll_close
  have hv0_09 : v0_09 = U0 (rev 13 d) 3 := by
    show d10 * v0_10 = U0 (rev 13 d) 2 * d 10
    rw [hd10, hv0_10]
    gll_close
  have hv0_08 : v0_08 = U0 (rev 13 d) 4 := by
    show d09 * v0_09 = U0 (rev 13 d) 3 * d 9
    rw [hd09, hv0_09]
    gll_close
  have hv0_07 : v0_07 = U0 (rev 13 d) 5 := by
    show d08 * v0_08 = U0 (rev 13 d) 4 * d 8
    rw [hd08, hv0_08]
    gll_close
  have hv0_06 : v0_06 = U0 (rev 13 d) 6 := by
    show d07 * v0_07 = U0 (rev 13 d) 5 * d 7
    rw [hd07, hv0_07]
    gll_close
  have hv0_05 : v0_05 = U0 (rev 13 d) 7 := by
    show d06 * v0_06 = U0 (rev 13 d) 6 * d 6
    rw [hd06, hv0_06]
    gll_close
  have hv0_04 : v0_04 = U0 (rev 13 d) 8 := by
    show d05 * v0_05 = U0 (rev 13 d) 7 * d 5
    rw [hd05, hv0_05]
    gll_close
  have hv0_03 : v0_03 = U0 (rev 13 d) 9 := by
    show d04 * v0_04 = U0 (rev 13 d) 8 * d 4
    rw [hd04, hv0_04]
    gll_close
  have hv0_02 : v0_02 = U0 (rev 13 d) 10 := by
    show d03 * v0_03 = U0 (rev 13 d) 9 * d 3
    rw [hd03, hv0_03]
    gll_close
  have hv0_01 : v0_01 = U0 (rev 13 d) 11 := by
    show d02 * v0_02 = U0 (rev 13 d) 10 * d 2
    rw [hd02, hv0_02]
    gll_close
  have hv0_00 : v0_00 = U0 (rev 13 d) 12 := by
    show d01 * v0_01 = U0 (rev 13 d) 11 * d 1
    rw [hd01, hv0_01]
    gll_close
  have hu1_02 : u1_02 = U1 d 2 := by
    show 1 * d01 + u0_01 = U1 d 1 * d 1 + U0 d 1
    rw [hd01, hu0_01]
    gll_close
  have hu1_03 : u1_03 = U1 d 3 := by
    show u1_02 * d02 + u0_02 = U1 d 2 * d 2 + U0 d 2
    rw [hd02, hu0_02, hu1_02]
    gll_close
  have hu1_04 : u1_04 = U1 d 4 := by
    show u1_03 * d03 + u0_03 = U1 d 3 * d 3 + U0 d 3
    rw [hd03, hu0_03, hu1_03]
    gll_close
  have hu1_05 : u1_05 = U1 d 5 := by
    show u1_04 * d04 + u0_04 = U1 d 4 * d 4 + U0 d 4
    rw [hd04, hu0_04, hu1_04]
    gll_close
  have hu1_06 : u1_06 = U1 d 6 := by
    show u1_05 * d05 + u0_05 = U1 d 5 * d 5 + U0 d 5
    rw [hd05, hu0_05, hu1_05]
    gll_close
  have hu1_07 : u1_07 = U1 d 7 := by
    show u1_06 * d06 + u0_06 = U1 d 6 * d 6 + U0 d 6
    rw [hd06, hu0_06, hu1_06]
    gll_close
  have hu1_08 : u1_08 = U1 d 8 := by
    show u1_07 * d07 + u0_07 = U1 d 7 * d 7 + U0 d 7
    rw [hd07, hu0_07, hu1_07]
    gll_close
  have hu1_09 : u1_09 = U1 d 9 := by
    show u1_08 * d08 + u0_08 = U1 d 8 * d 8 + U0 d 8
    rw [hd08, hu0_08, hu1_08]
    gll_close
  have hu1_10 : u1_10 = U1 d 10 := by
    show u1_09 * d09 + u0_09 = U1 d 9 * d 9 + U0 d 9
    rw [hd09, hu0_09, hu1_09]
    gll_close
  have hu1_11 : u1_11 = U1 d 11 := by
    show u1_10 * d10 + u0_10 = U1 d 10 * d 10 + U0 d 10
    rw [hd10, hu0_10, hu1_10]
    gll_close
  have hu1_12 : u1_12 = U1 d 12 := by
    show u1_11 * d11 + u0_11 = U1 d 11 * d 11 + U0 d 11
    rw [hd11, hu0_11, hu1_11]
    gll_close
  have hv1_10 : v1_10 = U1 (rev 13 d) 2 := by
    show d11 * 1 + v0_11 = U1 (rev 13 d) 1 * d 11 + U0 (rev 13 d) 1
    rw [hd11, hv0_11]
    gll_close
  have hv1_09 : v1_09 = U1 (rev 13 d) 3 := by
    show d10 * v1_10 + v0_10 = U1 (rev 13 d) 2 * d 10 + U0 (rev 13 d) 2
    rw [hd10, hv0_10, hv1_10]
    gll_close
  have hv1_08 : v1_08 = U1 (rev 13 d) 4 := by
    show d09 * v1_09 + v0_09 = U1 (rev 13 d) 3 * d 9 + U0 (rev 13 d) 3
    rw [hd09, hv0_09, hv1_09]
    gll_close
  have hv1_07 : v1_07 = U1 (rev 13 d) 5 := by
    show d08 * v1_08 + v0_08 = U1 (rev 13 d) 4 * d 8 + U0 (rev 13 d) 4
    rw [hd08, hv0_08, hv1_08]
    gll_close
  have hv1_06 : v1_06 = U1 (rev 13 d) 6 := by
    show d07 * v1_07 + v0_07 = U1 (rev 13 d) 5 * d 7 + U0 (rev 13 d) 5
    rw [hd07, hv0_07, hv1_07]
    gll_close
  have hv1_05 : v1_05 = U1 (rev 13 d) 7 := by
    show d06 * v1_06 + v0_06 = U1 (rev 13 d) 6 * d 6 + U0 (rev 13 d) 6
    rw [hd06, hv0_06, hv1_06]
    gll_close
  have hv1_04 : v1_04 = U1 (rev 13 d) 8 := by
    show d05 * v1_05 + v0_05 = U1 (rev 13 d) 7 * d 5 + U0 (rev 13 d) 7
    rw [hd05, hv0_05, hv1_05]
    gll_close
  have hv1_03 : v1_03 = U1 (rev 13 d) 9 := by
    show d04 * v1_04 + v0_04 = U1 (rev 13 d) 8 * d 4 + U0 (rev 13 d) 8
    rw [hd04, hv0_04, hv1_04]
    gll_close
  have hv1_02 : v1_02 = U1 (rev 13 d) 10 := by
    show d03 * v1_03 + v0_03 = U1 (rev 13 d) 9 * d 3 + U0 (rev 13 d) 9
    rw [hd03, hv0_03, hv1_03]
    gll_close
  have hv1_01 : v1_01 = U1 (rev 13 d) 11 := by
    show d02 * v1_02 + v0_02 = U1 (rev 13 d) 10 * d 2 + U0 (rev 13 d) 10
    rw [hd02, hv0_02, hv1_02]
    gll_close
  have hv1_00 : v1_00 = U1 (rev 13 d) 12 := by
    show d01 * v1_01 + v0_01 = U1 (rev 13 d) 11 * d 1 + U0 (rev 13 d) 11
    rw [hd01, hv0_01, hv1_01]
    gll_close
  have hu2_03 : u2_03 = U2 d 3 := by
    show 2 * d02 + 2 * u1_02 = U2 d 2 * d 2 + 2 * U1 d 2
    rw [hd02, hu1_02]
    gll_close
  have hu2_04 : u2_04 = U2 d 4 := by
    show u2_03 * d03 + 2 * u1_03 = U2 d 3 * d 3 + 2 * U1 d 3
    rw [hd03, hu1_03, hu2_03]
    gll_close
  have hu2_05 : u2_05 = U2 d 5 := by
    show u2_04 * d04 + 2 * u1_04 = U2 d 4 * d 4 + 2 * U1 d 4
    rw [hd04, hu1_04, hu2_04]
    gll_close
  have hu2_06 : u2_06 = U2 d 6 := by
    show u2_05 * d05 + 2 * u1_05 = U2 d 5 * d 5 + 2 * U1 d 5
    rw [hd05, hu1_05, hu2_05]
    gll_close
  have hu2_07 : u2_07 = U2 d 7 := by
    show u2_06 * d06 + 2 * u1_06 = U2 d 6 * d 6 + 2 * U1 d 6
    rw [hd06, hu1_06, hu2_06]
    gll_close
  have hu2_08 : u2_08 = U2 d 8 := by
    show u2_07 * d07 + 2 * u1_07 = U2 d 7 * d 7 + 2 * U1 d 7
    rw [hd07, hu1_07, hu2_07]
    gll_close
  have hu2_09 : u2_09 = U2 d 9 := by
    show u2_08 * d08 + 2 * u1_08 = U2 d 8 * d 8 + 2 * U1 d 8
    rw [hd08, hu1_08, hu2_08]
    gll_close
  have hu2_10 : u2_10 = U2 d 10 := by
    show u2_09 * d09 + 2 * u1_09 = U2 d 9 * d 9 + 2 * U1 d 9
    rw [hd09, hu1_09, hu2_09]
    gll_close
  have hu2_11 : u2_11 = U2 d 11 := by
    show u2_10 * d10 + 2 * u1_10 = U2 d 10 * d 10 + 2 * U1 d 10
    rw [hd10, hu1_10, hu2_10]
    gll_close
  have hu2_12 : u2_12 = U2 d 12 := by
    show u2_11 * d11 + 2 * u1_11 = U2 d 11 * d 11 + 2 * U1 d 11
    rw [hd11, hu1_11, hu2_11]
    gll_close
  have hv2_09 : v2_09 = U2 (rev 13 d) 3 := by
    show d10 * 2 + 2 * v1_10 = U2 (rev 13 d) 2 * d 10 + 2 * U1 (rev 13 d) 2
    rw [hd10, hv1_10]
    gll_close
  have hv2_08 : v2_08 = U2 (rev 13 d) 4 := by
    show d09 * v2_09 + 2 * v1_09 = U2 (rev 13 d) 3 * d 9 + 2 * U1 (rev 13 d) 3
    rw [hd09, hv1_09, hv2_09]
    gll_close
  have hv2_07 : v2_07 = U2 (rev 13 d) 5 := by
    show d08 * v2_08 + 2 * v1_08 = U2 (rev 13 d) 4 * d 8 + 2 * U1 (rev 13 d) 4
    rw [hd08, hv1_08, hv2_08]
    gll_close
  have hv2_06 : v2_06 = U2 (rev 13 d) 6 := by
    show d07 * v2_07 + 2 * v1_07 = U2 (rev 13 d) 5 * d 7 + 2 * U1 (rev 13 d) 5
    rw [hd07, hv1_07, hv2_07]
    gll_close
  have hv2_05 : v2_05 = U2 (rev 13 d) 7 := by
    show d06 * v2_06 + 2 * v1_06 = U2 (rev 13 d) 6 * d 6 + 2 * U1 (rev 13 d) 6
    rw [hd06, hv1_06, hv2_06]
    gll_close
  have hv2_04 : v2_04 = U2 (rev 13 d) 8 := by
    show d05 * v2_05 + 2 * v1_05 = U2 (rev 13 d) 7 * d 5 + 2 * U1 (rev 13 d) 7
    rw [hd05, hv1_05, hv2_05]
    gll_close
  have hv2_03 : v2_03 = U2 (rev 13 d) 9 := by
    show d04 * v2_04 + 2 * v1_04 = U2 (rev 13 d) 8 * d 4 + 2 * U1 (rev 13 d) 8
    rw [hd04, hv1_04, hv2_04]
    gll_close
  have hv2_02 : v2_02 = U2 (rev 13 d) 10 := by
    show d03 * v2_03 + 2 * v1_03 = U2 (rev 13 d) 9 * d 3 + 2 * U1 (rev 13 d) 9
    rw [hd03, hv1_03, hv2_03]
    gll_close
  have hv2_01 : v2_01 = U2 (rev 13 d) 11 := by
    show d02 * v2_02 + 2 * v1_02 = U2 (rev 13 d) 10 * d 2 + 2 * U1 (rev 13 d) 10
    rw [hd02, hv1_02, hv2_02]
    gll_close
  have hv2_00 : v2_00 = U2 (rev 13 d) 12 := by
    show d01 * v2_01 + 2 * v1_01 = U2 (rev 13 d) 11 * d 1 + 2 * U1 (rev 13 d) 11
    rw [hd01, hv1_01, hv2_01]
    gll_close
  have r0_0 : w 0 * 1 * v0_00 = row0 13 w d 0 := by
    show w 0 * 1 * v0_00 = w 0 * U0 d 0 * U0 (rev 13 d) 12
    rw [hv0_00]
    gll_close
  have r0_1 : w 1 * u0_01 * v0_01 = row0 13 w d 1 := by
    show w 1 * u0_01 * v0_01 = w 1 * U0 d 1 * U0 (rev 13 d) 11
    rw [hu0_01, hv0_01]
    gll_close
  have r0_2 : w 2 * u0_02 * v0_02 = row0 13 w d 2 := by
    show w 2 * u0_02 * v0_02 = w 2 * U0 d 2 * U0 (rev 13 d) 10
    rw [hu0_02, hv0_02]
    gll_close
  have r0_3 : w 3 * u0_03 * v0_03 = row0 13 w d 3 := by
    show w 3 * u0_03 * v0_03 = w 3 * U0 d 3 * U0 (rev 13 d) 9
    rw [hu0_03, hv0_03]
    gll_close
  have r0_4 : w 4 * u0_04 * v0_04 = row0 13 w d 4 := by
    show w 4 * u0_04 * v0_04 = w 4 * U0 d 4 * U0 (rev 13 d) 8
    rw [hu0_04, hv0_04]
    gll_close
  have r0_5 : w 5 * u0_05 * v0_05 = row0 13 w d 5 := by
    show w 5 * u0_05 * v0_05 = w 5 * U0 d 5 * U0 (rev 13 d) 7
    rw [hu0_05, hv0_05]
    gll_close
  have r0_6 : w 6 * u0_06 * v0_06 = row0 13 w d 6 := by
    show w 6 * u0_06 * v0_06 = w 6 * U0 d 6 * U0 (rev 13 d) 6
    rw [hu0_06, hv0_06]
    gll_close
  have r0_7 : w 7 * u0_07 * v0_07 = row0 13 w d 7 := by
    show w 7 * u0_07 * v0_07 = w 7 * U0 d 7 * U0 (rev 13 d) 5
    rw [hu0_07, hv0_07]
    gll_close
  have r0_8 : w 8 * u0_08 * v0_08 = row0 13 w d 8 := by
    show w 8 * u0_08 * v0_08 = w 8 * U0 d 8 * U0 (rev 13 d) 4
    rw [hu0_08, hv0_08]
    gll_close
  have r0_9 : w 9 * u0_09 * v0_09 = row0 13 w d 9 := by
    show w 9 * u0_09 * v0_09 = w 9 * U0 d 9 * U0 (rev 13 d) 3
    rw [hu0_09, hv0_09]
    gll_close
  have r0_10 : w 10 * u0_10 * v0_10 = row0 13 w d 10 := by
    show w 10 * u0_10 * v0_10 = w 10 * U0 d 10 * U0 (rev 13 d) 2
    rw [hu0_10, hv0_10]
    gll_close
  have r0_11 : w 11 * u0_11 * v0_11 = row0 13 w d 11 := by
    show w 11 * u0_11 * v0_11 = w 11 * U0 d 11 * U0 (rev 13 d) 1
    rw [hu0_11, hv0_11]
    gll_close
  have r0_12 : w 12 * u0_12 * 1 = row0 13 w d 12 := by
    show w 12 * u0_12 * 1 = w 12 * U0 d 12 * U0 (rev 13 d) 0
    rw [hu0_12]
    gll_close
  have r1_0 : 2 * w 0 * (v1_00) = row1 13 w d 0 := by
    show 2 * w 0 * (v1_00) = 2 * w 0 * (U1 d 0 * U0 (rev 13 d) 12 + U0 d 0 * U1 (rev 13 d) 12)
    rw [hv1_00]
    gll_close
  have r1_1 : 2 * w 1 * (1 * v0_01 + u0_01 * v1_01) = row1 13 w d 1 := by
    show 2 * w 1 * (1 * v0_01 + u0_01 * v1_01) = 2 * w 1 * (U1 d 1 * U0 (rev 13 d) 11 + U0 d 1 * U1 (rev 13 d) 11)
    rw [hu0_01, hv0_01, hv1_01]
    gll_close
  have r1_2 : 2 * w 2 * (u1_02 * v0_02 + u0_02 * v1_02) = row1 13 w d 2 := by
    show 2 * w 2 * (u1_02 * v0_02 + u0_02 * v1_02) = 2 * w 2 * (U1 d 2 * U0 (rev 13 d) 10 + U0 d 2 * U1 (rev 13 d) 10)
    rw [hu0_02, hu1_02, hv0_02, hv1_02]
    gll_close
  have r1_3 : 2 * w 3 * (u1_03 * v0_03 + u0_03 * v1_03) = row1 13 w d 3 := by
    show 2 * w 3 * (u1_03 * v0_03 + u0_03 * v1_03) = 2 * w 3 * (U1 d 3 * U0 (rev 13 d) 9 + U0 d 3 * U1 (rev 13 d) 9)
    rw [hu0_03, hu1_03, hv0_03, hv1_03]
    gll_close
  have r1_4 : 2 * w 4 * (u1_04 * v0_04 + u0_04 * v1_04) = row1 13 w d 4 := by
    show 2 * w 4 * (u1_04 * v0_04 + u0_04 * v1_04) = 2 * w 4 * (U1 d 4 * U0 (rev 13 d) 8 + U0 d 4 * U1 (rev 13 d) 8)
    rw [hu0_04, hu1_04, hv0_04, hv1_04]
    gll_close
  have r1_5 : 2 * w 5 * (u1_05 * v0_05 + u0_05 * v1_05) = row1 13 w d 5 := by
    show 2 * w 5 * (u1_05 * v0_05 + u0_05 * v1_05) = 2 * w 5 * (U1 d 5 * U0 (rev 13 d) 7 + U0 d 5 * U1 (rev 13 d) 7)
    rw [hu0_05, hu1_05, hv0_05, hv1_05]
    gll_close
  have r1_6 : 2 * w 6 * (u1_06 * v0_06 + u0_06 * v1_06) = row1 13 w d 6 := by
    show 2 * w 6 * (u1_06 * v0_06 + u0_06 * v1_06) = 2 * w 6 * (U1 d 6 * U0 (rev 13 d) 6 + U0 d 6 * U1 (rev 13 d) 6)
    rw [hu0_06, hu1_06, hv0_06, hv1_06]
    gll_close
  have r1_7 : 2 * w 7 * (u1_07 * v0_07 + u0_07 * v1_07) = row1 13 w d 7 := by
    show 2 * w 7 * (u1_07 * v0_07 + u0_07 * v1_07) = 2 * w 7 * (U1 d 7 * U0 (rev 13 d) 5 + U0 d 7 * U1 (rev 13 d) 5)
    rw [hu0_07, hu1_07, hv0_07, hv1_07]
    gll_close
  have r1_8 : 2 * w 8 * (u1_08 * v0_08 + u0_08 * v1_08) = row1 13 w d 8 := by
    show 2 * w 8 * (u1_08 * v0_08 + u0_08 * v1_08) = 2 * w 8 * (U1 d 8 * U0 (rev 13 d) 4 + U0 d 8 * U1 (rev 13 d) 4)
    rw [hu0_08, hu1_08, hv0_08, hv1_08]
    gll_close
  have r1_9 : 2 * w 9 * (u1_09 * v0_09 + u0_09 * v1_09) = row1 13 w d 9 := by
    show 2 * w 9 * (u1_09 * v0_09 + u0_09 * v1_09) = 2 * w 9 * (U1 d 9 * U0 (rev 13 d) 3 + U0 d 9 * U1 (rev 13 d) 3)
    rw [hu0_09, hu1_09, hv0_09, hv1_09]
    gll_close
  have r1_10 : 2 * w 10 * (u1_10 * v0_10 + u0_10 * v1_10) = row1 13 w d 10 := by
    show 2 * w 10 * (u1_10 * v0_10 + u0_10 * v1_10) = 2 * w 10 * (U1 d 10 * U0 (rev 13 d) 2 + U0 d 10 * U1 (rev 13 d) 2)
    rw [hu0_10, hu1_10, hv0_10, hv1_10]
    gll_close
  have r1_11 : 2 * w 11 * (u1_11 * v0_11 + u0_11 * 1) = row1 13 w d 11 := by
    show 2 * w 11 * (u1_11 * v0_11 + u0_11 * 1) = 2 * w 11 * (U1 d 11 * U0 (rev 13 d) 1 + U0 d 11 * U1 (rev 13 d) 1)
    rw [hu0_11, hu1_11, hv0_11]
    gll_close
  have r1_12 : 2 * w 12 * (u1_12) = row1 13 w d 12 := by
    show 2 * w 12 * (u1_12) = 2 * w 12 * (U1 d 12 * U0 (rev 13 d) 0 + U0 d 12 * U1 (rev 13 d) 0)
    rw [hu1_12]
    gll_close
  have r2_0 : 4 * w 0 * (1 * v2_00) = row2 13 w d 0 := by
    show 4 * w 0 * (1 * v2_00) = 4 * w 0 * (U2 d 0 * U0 (rev 13 d) 12 + 2 * U1 d 0 * U1 (rev 13 d) 12 + U0 d 0 * U2 (rev 13 d) 12)
    rw [hv2_00]
    gll_close
  have r2_1 : 4 * w 1 * (2 * 1 * v1_01 + u0_01 * v2_01) = row2 13 w d 1 := by
    show 4 * w 1 * (2 * 1 * v1_01 + u0_01 * v2_01) = 4 * w 1 * (U2 d 1 * U0 (rev 13 d) 11 + 2 * U1 d 1 * U1 (rev 13 d) 11 + U0 d 1 * U2 (rev 13 d) 11)
    rw [hu0_01, hv1_01, hv2_01]
    gll_close
  have r2_2 : 4 * w 2 * (2 * v0_02 + 2 * u1_02 * v1_02 + u0_02 * v2_02) = row2 13 w d 2 := by
    show 4 * w 2 * (2 * v0_02 + 2 * u1_02 * v1_02 + u0_02 * v2_02) = 4 * w 2 * (U2 d 2 * U0 (rev 13 d) 10 + 2 * U1 d 2 * U1 (rev 13 d) 10 + U0 d 2 * U2 (rev 13 d) 10)
    rw [hu0_02, hu1_02, hv0_02, hv1_02, hv2_02]
    gll_close
  have r2_3 : 4 * w 3 * (u2_03 * v0_03 + 2 * u1_03 * v1_03 + u0_03 * v2_03) = row2 13 w d 3 := by
    show 4 * w 3 * (u2_03 * v0_03 + 2 * u1_03 * v1_03 + u0_03 * v2_03) = 4 * w 3 * (U2 d 3 * U0 (rev 13 d) 9 + 2 * U1 d 3 * U1 (rev 13 d) 9 + U0 d 3 * U2 (rev 13 d) 9)
    rw [hu0_03, hu1_03, hu2_03, hv0_03, hv1_03, hv2_03]
    gll_close
  have r2_4 : 4 * w 4 * (u2_04 * v0_04 + 2 * u1_04 * v1_04 + u0_04 * v2_04) = row2 13 w d 4 := by
    show 4 * w 4 * (u2_04 * v0_04 + 2 * u1_04 * v1_04 + u0_04 * v2_04) = 4 * w 4 * (U2 d 4 * U0 (rev 13 d) 8 + 2 * U1 d 4 * U1 (rev 13 d) 8 + U0 d 4 * U2 (rev 13 d) 8)
    rw [hu0_04, hu1_04, hu2_04, hv0_04, hv1_04, hv2_04]
    gll_close
  have r2_5 : 4 * w 5 * (u2_05 * v0_05 + 2 * u1_05 * v1_05 + u0_05 * v2_05) = row2 13 w d 5 := by
    show 4 * w 5 * (u2_05 * v0_05 + 2 * u1_05 * v1_05 + u0_05 * v2_05) = 4 * w 5 * (U2 d 5 * U0 (rev 13 d) 7 + 2 * U1 d 5 * U1 (rev 13 d) 7 + U0 d 5 * U2 (rev 13 d) 7)
    rw [hu0_05, hu1_05, hu2_05, hv0_05, hv1_05, hv2_05]
    gll_close
  have r2_6 : 4 * w 6 * (u2_06 * v0_06 + 2 * u1_06 * v1_06 + u0_06 * v2_06) = row2 13 w d 6 := by
    show 4 * w 6 * (u2_06 * v0_06 + 2 * u1_06 * v1_06 + u0_06 * v2_06) = 4 * w 6 * (U2 d 6 * U0 (rev 13 d) 6 + 2 * U1 d 6 * U1 (rev 13 d) 6 + U0 d 6 * U2 (rev 13 d) 6)
    rw [hu0_06, hu1_06, hu2_06, hv0_06, hv1_06, hv2_06]
    gll_close
  have r2_7 : 4 * w 7 * (u2_07 * v0_07 + 2 * u1_07 * v1_07 + u0_07 * v2_07) = row2 13 w d 7 := by
    show 4 * w 7 * (u2_07 * v0_07 + 2 * u1_07 * v1_07 + u0_07 * v2_07) = 4 * w 7 * (U2 d 7 * U0 (rev 13 d) 5 + 2 * U1 d 7 * U1 (rev 13 d) 5 + U0 d 7 * U2 (rev 13 d) 5)
    rw [hu0_07, hu1_07, hu2_07, hv0_07, hv1_07, hv2_07]
    gll_close
  have r2_8 : 4 * w 8 * (u2_08 * v0_08 + 2 * u1_08 * v1_08 + u0_08 * v2_08) = row2 13 w d 8 := by
    show 4 * w 8 * (u2_08 * v0_08 + 2 * u1_08 * v1_08 + u0_08 * v2_08) = 4 * w 8 * (U2 d 8 * U0 (rev 13 d) 4 + 2 * U1 d 8 * U1 (rev 13 d) 4 + U0 d 8 * U2 (rev 13 d) 4)
    rw [hu0_08, hu1_08, hu2_08, hv0_08, hv1_08, hv2_08]
    gll_close
  have r2_9 : 4 * w 9 * (u2_09 * v0_09 + 2 * u1_09 * v1_09 + u0_09 * v2_09) = row2 13 w d 9 := by
    show 4 * w 9 * (u2_09 * v0_09 + 2 * u1_09 * v1_09 + u0_09 * v2_09) = 4 * w 9 * (U2 d 9 * U0 (rev 13 d) 3 + 2 * U1 d 9 * U1 (rev 13 d) 3 + U0 d 9 * U2 (rev 13 d) 3)
    rw [hu0_09, hu1_09, hu2_09, hv0_09, hv1_09, hv2_09]
    gll_close
  have r2_10 : 4 * w 10 * (u2_10 * v0_10 + 2 * u1_10 * v1_10 + u0_10 * 2) = row2 13 w d 10 := by
    show 4 * w 10 * (u2_10 * v0_10 + 2 * u1_10 * v1_10 + u0_10 * 2) = 4 * w 10 * (U2 d 10 * U0 (rev 13 d) 2 + 2 * U1 d 10 * U1 (rev 13 d) 2 + U0 d 10 * U2 (rev 13 d) 2)
    rw [hu0_10, hu1_10, hu2_10, hv0_10, hv1_10]
    gll_close
  have r2_11 : 4 * w 11 * (u2_11 * v0_11 + 2 * u1_11 * 1) = row2 13 w d 11 := by
    show 4 * w 11 * (u2_11 * v0_11 + 2 * u1_11 * 1) = 4 * w 11 * (U2 d 11 * U0 (rev 13 d) 1 + 2 * U1 d 11 * U1 (rev 13 d) 1 + U0 d 11 * U2 (rev 13 d) 1)
    rw [hu1_11, hu2_11, hv0_11]
    gll_close
  have r2_12 : 4 * w 12 * (u2_12 * 1) = row2 13 w d 12 := by
    show 4 * w 12 * (u2_12 * 1) = 4 * w 12 * (U2 d 12 * U0 (rev 13 d) 0 + 2 * U1 d 12 * U1 (rev 13 d) 0 + U0 d 12 * U2 (rev 13 d) 0)
    rw [hu2_12]
    gll_close
  have L0 : [w 0 * 1 * v0_00, w 1 * u0_01 * v0_01, w 2 * u0_02 * v0_02, w 3 * u0_03 * v0_03, w 4 * u0_04 * v0_04, w 5 * u0_05 * v0_05, w 6 * u0_06 * v0_06, w 7 * u0_07 * v0_07, w 8 * u0_08 * v0_08, w 9 * u0_09 * v0_09, w 10 * u0_10 * v0_10, w 11 * u0_11 * v0_11, w 12 * u0_12 * 1] = (List.range 13).map (row0 13 w d) :=
    (congrArg₂ List.cons r0_0 (congrArg₂ List.cons r0_1 (congrArg₂ List.cons r0_2 (congrArg₂ List.cons r0_3 (congrArg₂ List.cons r0_4 (congrArg₂ List.cons r0_5 (congrArg₂ List.cons r0_6 (congrArg₂ List.cons r0_7 (congrArg₂ List.cons r0_8 (congrArg₂ List.cons r0_9 (congrArg₂ List.cons r0_10 (congrArg₂ List.cons r0_11 (congrArg₂ List.cons r0_12 rfl)))))))))))))
  have L1 : [2 * w 0 * (v1_00), 2 * w 1 * (1 * v0_01 + u0_01 * v1_01), 2 * w 2 * (u1_02 * v0_02 + u0_02 * v1_02), 2 * w 3 * (u1_03 * v0_03 + u0_03 * v1_03), 2 * w 4 * (u1_04 * v0_04 + u0_04 * v1_04), 2 * w 5 * (u1_05 * v0_05 + u0_05 * v1_05), 2 * w 6 * (u1_06 * v0_06 + u0_06 * v1_06), 2 * w 7 * (u1_07 * v0_07 + u0_07 * v1_07), 2 * w 8 * (u1_08 * v0_08 + u0_08 * v1_08), 2 * w 9 * (u1_09 * v0_09 + u0_09 * v1_09), 2 * w 10 * (u1_10 * v0_10 + u0_10 * v1_10), 2 * w 11 * (u1_11 * v0_11 + u0_11 * 1), 2 * w 12 * (u1_12)] = (List.range 13).map (row1 13 w d) :=
    (congrArg₂ List.cons r1_0 (congrArg₂ List.cons r1_1 (congrArg₂ List.cons r1_2 (congrArg₂ List.cons r1_3 (congrArg₂ List.cons r1_4 (congrArg₂ List.cons r1_5 (congrArg₂ List.cons r1_6 (congrArg₂ List.cons r1_7 (congrArg₂ List.cons r1_8 (congrArg₂ List.cons r1_9 (congrArg₂ List.cons r1_10 (congrArg₂ List.cons r1_11 (congrArg₂ List.cons r1_12 rfl)))))))))))))
  have L2 : [4 * w 0 * (1 * v2_00), 4 * w 1 * (2 * 1 * v1_01 + u0_01 * v2_01), 4 * w 2 * (2 * v0_02 + 2 * u1_02 * v1_02 + u0_02 * v2_02), 4 * w 3 * (u2_03 * v0_03 + 2 * u1_03 * v1_03 + u0_03 * v2_03), 4 * w 4 * (u2_04 * v0_04 + 2 * u1_04 * v1_04 + u0_04 * v2_04), 4 * w 5 * (u2_05 * v0_05 + 2 * u1_05 * v1_05 + u0_05 * v2_05), 4 * w 6 * (u2_06 * v0_06 + 2 * u1_06 * v1_06 + u0_06 * v2_06), 4 * w 7 * (u2_07 * v0_07 + 2 * u1_07 * v1_07 + u0_07 * v2_07), 4 * w 8 * (u2_08 * v0_08 + 2 * u1_08 * v1_08 + u0_08 * v2_08), 4 * w 9 * (u2_09 * v0_09 + 2 * u1_09 * v1_09 + u0_09 * v2_09), 4 * w 10 * (u2_10 * v0_10 + 2 * u1_10 * v1_10 + u0_10 * 2), 4 * w 11 * (u2_11 * v0_11 + 2 * u1_11 * 1), 4 * w 12 * (u2_12 * 1)] = (List.range 13).map (row2 13 w d) :=
    (congrArg₂ List.cons r2_0 (congrArg₂ List.cons r2_1 (congrArg₂ List.cons r2_2 (congrArg₂ List.cons r2_3 (congrArg₂ List.cons r2_4 (congrArg₂ List.cons r2_5 (congrArg₂ List.cons r2_6 (congrArg₂ List.cons r2_7 (congrArg₂ List.cons r2_8 (congrArg₂ List.cons r2_9 (congrArg₂ List.cons r2_10 (congrArg₂ List.cons r2_11 (congrArg₂ List.cons r2_12 rfl)))))))))))))
  exact congrArg₂ Prod.mk L0 (congrArg₂ Prod.mk L1 L2)

theorem gllLag14_eq (g w : Nat → K) (xh : K) : gllLag14 g w xh = rowLists 14 w (dx (gnode 14 g) xh) := by
  unfold gllLag14
  extract_lets x d00 d01 d02 d03 d04 d05 d06 d07 d08 d09 d10 d11 d12 d13 u0_01 u0_02 u0_03 u0_04 u0_05 u0_06 u0_07 u0_08 u0_09 u0_10 u0_11 u0_12 u0_13 v0_12 v0_11 v0_10 v0_09 v0_08 v0_07 v0_06 v0_05 v0_04 v0_03 v0_02 v0_01 v0_00 u1_02 u1_03 u1_04 u1_05 u1_06 u1_07 u1_08 u1_09 u1_10 u1_11 u1_12 u1_13 v1_11 v1_10 v1_09 v1_08 v1_07 v1_06 v1_05 v1_04 v1_03 v1_02 v1_01 v1_00 u2_03 u2_04 u2_05 u2_06 u2_07 u2_08 u2_09 u2_10 u2_11 u2_12 u2_13 v2_10 v2_09 v2_08 v2_07 v2_06 v2_05 v2_04 v2_03 v2_02 v2_01 v2_00
  generalize hd : dx (gnode 14 g) xh = d
  have hd00 : d00 = d 0 := by
    rw [← hd]; show xh * 2 + 2 = 2 * (xh - (-1)); ring
  have hd01 : d01 = d 1 := by
    rw [← hd]; show xh * 2 + 2 * g 0 = 2 * (xh - (-g 0)); ring
  have hd02 : d02 = d 2 := by
    rw [← hd]; show xh * 2 + 2 * g 1 = 2 * (xh - (-g 1)); ring
  have hd03 : d03 = d 3 := by
    rw [← hd]; show xh * 2 + 2 * g 2 = 2 * (xh - (-g 2)); ring
  have hd04 : d04 = d 4 := by
    rw [← hd]; show xh * 2 + 2 * g 3 = 2 * (xh - (-g 3)); ring
  have hd05 : d05 = d 5 := by
    rw [← hd]; show xh * 2 + 2 * g 4 = 2 * (xh - (-g 4)); ring
  have hd06 : d06 = d 6 := by
    rw [← hd]; show xh * 2 + 2 * g 5 = 2 * (xh - (-g 5)); ring
  have hd07 : d07 = d 7 := by
    rw [← hd]; show xh * 2 - 2 * g 5 = 2 * (xh - (g 5)); ring
  have hd08 : d08 = d 8 := by
    rw [← hd]; show xh * 2 - 2 * g 4 = 2 * (xh - (g 4)); ring
  have hd09 : d09 = d 9 := by
    rw [← hd]; show xh * 2 - 2 * g 3 = 2 * (xh - (g 3)); ring
  have hd10 : d10 = d 10 := by
    rw [← hd]; show xh * 2 - 2 * g 2 = 2 * (xh - (g 2)); ring
  have hd11 : d11 = d 11 := by
    rw [← hd]; show xh * 2 - 2 * g 1 = 2 * (xh - (g 1)); ring
  have hd12 : d12 = d 12 := by
    rw [← hd]; show xh * 2 - 2 * g 0 = 2 * (xh - (g 0)); ring
  have hd13 : d13 = d 13 := by
    rw [← hd]; show xh * 2 - 2 = 2 * (xh - (1)); ring
  have hu0_01 : u0_01 = U0 d 1 := by
    show 1 * d00 = U0 d 0 * d 0
    rw [hd00]
    gll_close
  have hu0_02 : u0_02 = U0 d 2 := by
    show u0_01 * d01 = U0 d 1 * d 1
    rw [hd01, hu0_01]
    gll_close
  have hu0_03 : u0_03 = U0 d 3 := by
    show u0_02 * d02 = U0 d 2 * d 2
    rw [hd02, hu0_02]
    gll_close
  have hu0_04 : u0_04 = U0 d 4 := by
    show u0_03 * d03 = U0 d 3 * d 3
    rw [hd03, hu0_03]
    gll_close
  have hu0_05 : u0_05 = U0 d 5 := by
    show u0_04 * d04 = U0 d 4 * d 4
    rw [hd04, hu0_04]
    gll_close
  have hu0_06 : u0_06 = U0 d 6 := by
    show u0_05 * d05 = U0 d 5 * d 5
    rw [hd05, hu0_05]
    gll_close
  have hu0_07 : u0_07 = U0 d 7 := by
    show u0_06 * d06 = U0 d 6 * d 6
    rw [hd06, hu0_06]
    gll_close
  have hu0_08 : u0_08 = U0 d 8 := by
    show u0_07 * d07 = U0 d 7 * d 7
    rw [hd07, hu0_07]
    gll_close
  have hu0_09 : u0_09 = U0 d 9 := by
    show u0_08 * d08 = U0 d 8 * d 8
    rw [hd08, hu0_08]
    gll_close
  have hu0_10 : u0_10 = U0 d 10 := by
    show u0_09 * d09 = U0 d 9 * d 9
    rw [hd09, hu0_09]
    gll_close
  have hu0_11 : u0_11 = U0 d 11 := by
    show u0_10 * d10 = U0 d 10 * d 10
    rw [hd10, hu0_10]
    gll_close
  have hu0_12 : u0_12 = U0 d 12 := by
    show u0_11 * d11 = U0 d 11 * d 11
    rw [hd11, hu0_11]
    gll_close
  have hu0_13 : u0_13 = U0 d 13 := by
    show u0_12 * d12 = U0 d 12 * d 12
    rw [hd12, hu0_12]
    gll_close
  have hv0_12 : v0_12 = U0 (rev 14 d) 1 := by
    show d13 * 1 = U0 (rev 14 d) 0 * d 13
    rw [hd13]
    gll_close
  have hv0_11 : v0_11 = U0 (rev 14 d) 2 := by
    show d12 * v0_12 = U0 (rev 14 d) 1 * d 12
    rw [hd12, hv0_12]
    gll_close
  have hv0_10 : v0_10 = U0 (rev 14 d) 3 := by
    show d11 * v0_11 = U0 (rev 14 d) 2 * d 11
    rw [hd11, hv0_11]
    gll_close
  have hv0_09 : v0_09 = U0 (rev 14 d) 4 := by
    show d10 * v0_10 = U0 (rev 14 d) 3 * d 10
    rw [hd10, hv0_10]
    gll_close
  have hv0_08 : v0_08 = U0 (rev 14 d) 5 := by
    show d09 * v0_09 = U0 (rev 14 d) 4 * d 9
    rw [hd09, hv0_09]
    gll_close
  have hv0_07 : v0_07 = U0 (rev 14 d) 6 := by
    show d08 * v0_08 = U0 (rev 14 d) 5 * d 8
    rw [hd08, hv0_08]
    gll_close
  have hv0_06 : v0_06 = U0 (rev 14 d) 7 := by
    show d07 * v0_07 = U0 (rev 14 d) 6 * d 7
    rw [hd07, hv0_07]
    gll_close
  have hv0_05 : v0_05 = U0 (rev 14 d) 8 := by
    show d06 * v0_06 = U0 (rev 14 d) 7 * d 6
    rw [hd06, hv0_06]
    gll_close
  have hv0_04 : v0_04 = U0 (rev 14 d) 9 := by
    show d05 * v0_05 = U0 (rev 14 d) 8 * d 5
    rw [hd05, hv0_05]
    gll_close
  have hv0_03 : v0_03 = U0 (rev 14 d) 10 := by
    show d04 * v0_04 = U0 (rev 14 d) 9 * d 4
    rw [hd04, hv0_04]
    gll_close
  have hv0_02 : v0_02 = U0 (rev 14 d) 11 := by
    show d03 * v0_03 = U0 (rev 14 d) 10 * d 3
    rw [hd03, hv0_03]
    gll_close
  have hv0_01 : v0_01 = U0 (rev 14 d) 12 := by
    show d02 * v0_02 = U0 (rev 14 d) 11 * d 2
    rw [hd02, hv0_02]
    gll_close
  have hv0_00 : v0_00 = U0 (rev 14 d) 13 := by
    show d01 * v0_01 = U0 (rev 14 d) 12 * d 1
    rw [hd01, hv0_01]
    gll_close
  have hu1_02 : u1_02 = U1 d 2 := by
    show 1 * d01 + u0_01 = U1 d 1 * d 1 + U0 d 1
    rw [hd01, hu0_01]
    gll_close
  have hu1_03 : u1_03 = U1 d 3 := by
    show u1_02 * d02 + u0_02 = U1 d 2 * d 2 + U0 d 2
    rw [hd02, hu0_02, hu1_02]
    gll_close
  have hu1_04 : u1_04 = U1 d 4 := by
    show u1_03 * d03 + u0_03 = U1 d 3 * d 3 + U0 d 3
    rw [hd03, hu0_03, hu1_03]
    gll_close
  have hu1_05 : u1_05 = U1 d 5 := by
    show u1_04 * d04 + u0_04 = U1 d 4 * d 4 + U0 d 4
    rw [hd04, hu0_04, hu1_04]
    gll_close
  have hu1_06 : u1_06 = U1 d 6 := by
    show u1_05 * d05 + u0_05 = U1 d 5 * d 5 + U0 d 5
    rw [hd05, hu0_05, hu1_05]
    gll_close
  have hu1_07 : u1_07 = U1 d 7 := by
    show u1_06 * d06 + u0_06 = U1 d 6 * d 6 + U0 d 6
    rw [hd06, hu0_06, hu1_06]
    gll_close
  have hu1_08 : u1_08 = U1 d 8 := by
    show u1_07 * d07 + u0_07 = U1 d 7 * d 7 + U0 d 7
    rw [hd07, hu0_07, hu1_07]
    gll_close
  have hu1_09 : u1_09 = U1 d 9 := by
    show u1_08 * d08 + u0_08 = U1 d 8 * d 8 + U0 d 8
    rw [hd08, hu0_08, hu1_08]
    gll_close
  have hu1_10 : u1_10 = U1 d 10 := by
    show u1_09 * d09 + u0_09 = U1 d 9 * d 9 + U0 d 9
    rw [hd09, hu0_09, hu1_09]
    gll_close
  have hu1_11 : u1_11 = U1 d 11 := by
    show u1_10 * d10 + u0_10 = U1 d 10 * d 10 + U0 d 10
    rw [hd10, hu0_10, hu1_10]
    gll_close
  have hu1_12 : u1_12 = U1 d 12 := by
    show u1_11 * d11 + u0_11 = U1 d 11 * d 11 + U0 d 11
    rw [hd11, hu0_11, hu1_11]
    gll_close
  have hu1_13 : u1_13 = U1 d 13 := by
    show u1_12 * d12 + u0_12 = U1 d 12 * d 12 + U0 d 12
    rw [hd12, hu0_12, hu1_12]
    gll_close
  have hv1_11 : v1_11 = U1 (rev 14 d) 2 := by
    show d12 * 1 + v0_12 = U1 (rev 14 d) 1 * d 12 + U0 (rev 14 d) 1
    rw [hd12, hv0_12]
    gll_close
  have hv1_10 : v1_10 = U1 (rev 14 d) 3 := by
    show d11 * v1_11 + v0_11 = U1 (rev 14 d) 2 * d 11 + U0 (rev 14 d) 2
    rw [hd11, hv0_11, hv1_11]
    gll_close
  have hv1_09 : v1_09 = U1 (rev 14 d) 4 := by
    show d10 * v1_10 + v0_10 = U1 (rev 14 d) 3 * d 10 + U0 (rev 14 d) 3
    rw [hd10, hv0_10, hv1_10]
    gll_close
  have hv1_08 : v1_08 = U1 (rev 14 d) 5 := by
    show d09 * v1_09 + v0_09 = U1 (rev 14 d) 4 * d 9 + U0 (rev 14 d) 4
    rw [hd09, hv0_09, hv1_09]
    gll_close
  have hv1_07 : v1_07 = U1 (rev 14 d) 6 := by
    show d08 * v1_08 + v0_08 = U1 (rev 14 d) 5 * d 8 + U0 (rev 14 d) 5
    rw [hd08, hv0_08, hv1_08]
    gll_close
  have hv1_06 : v1_06 = U1 (rev 14 d) 7 := by
    show d07 * v1_07 + v0_07 = U1 (rev 14 d) 6 * d 7 + U0 (rev 14 d) 6
    rw [hd07, hv0_07, hv1_07]
    gll_close
  have hv1_05 : v1_05 = U1 (rev 14 d) 8 := by
    show d06 * v1_06 + v0_06 = U1 (rev 14 d) 7 * d 6 + U0 (rev 14 d) 7
    rw [hd06, hv0_06, hv1_06]
    gll_close
  have hv1_04 : v1_04 = U1 (rev 14 d) 9 := by
    show d05 * v1_05 + v0_05 = U1 (rev 14 d) 8 * d 5 + U0 (rev 14 d) 8
    rw [hd05, hv0_05, hv1_05]
    gll_close
  have hv1_03 : v1_03 = U1 (rev 14 d) 10 := by
    show d04 * v1_04 + v0_04 = U1 (rev 14 d) 9 * d 4 + U0 (rev 14 d) 9
    rw [hd04, hv0_04, hv1_04]
    gll_close
  have hv1_02 : v1_02 = U1 (rev 14 d) 11 := by
    show d03 * v1_03 + v0_03 = U1 (rev 14 d) 10 * d 3 + U0 (rev 14 d) 10
    rw [hd03, hv0_03, hv1_03]
    gll_close
  have hv1_01 : v1_01 = U1 (rev 14 d) 12 := by
    show d02 * v1_02 + v0_02 = U1 (rev 14 d) 11 * d 2 + U0 (rev 14 d) 11
    rw [hd02, hv0_02, hv1_02]
    gll_close
  have hv1_00 : v1_00 = U1 (rev 14 d) 13 := by
    show d01 * v1_01 + v0_01 = U1 (rev 14 d) 12 * d 1 + U0 (rev 14 d) 12
    rw [hd01, hv0_01, hv1_01]
    gll_close
  have hu2_03 : u2_03 = U2 d 3 := by
    show 2 * d02 + 2 * u1_02 = U2 d 2 * d 2 + 2 * U1 d 2
    rw [hd02, hu1_02]
    gll_close
  have hu2_04 : u2_04 = U2 d 4 := by
    show u2_03 * d03 + 2 * u1_03 = U2 d 3 * d 3 + 2 * U1 d 3
    rw [hd03, hu1_03, hu2_03]
    gll_close
  have hu2_05 : u2_05 = U2 d 5 := by
    show u2_04 * d04 + 2 * u1_04 = U2 d 4 * d 4 + 2 * U1 d 4
    rw [hd04, hu1_04, hu2_04]
    gll_close
  have hu2_06 : u2_06 = U2 d 6 := by
    show u2_05 * d05 + 2 * u1_05 = U2 d 5 * d 5 + 2 * U1 d 5
    rw [hd05, hu1_05, hu2_05]
    gll_close
  have hu2_07 : u2_07 = U2 d 7 := by
    show u2_06 * d06 + 2 * u1_06 = U2 d 6 * d 6 + 2 * U1 d 6
    rw [hd06, hu1_06, hu2_06]
    gll_close
  have hu2_08 : u2_08 = U2 d 8 := by
    show u2_07 * d07 + 2 * u1_07 = U2 d 7 * d 7 + 2 * U1 d 7
    rw [hd07, hu1_07, hu2_07]
    gll_close
  have hu2_09 : u2_09 = U2 d 9 := by
    show u2_08 * d08 + 2 * u1_08 = U2 d 8 * d 8 + 2 * U1 d 8
    rw [hd08, hu1_08, hu2_08]
    gll_close
  have hu2_10 : u2_10 = U2 d 10 := by
    show u2_09 * d09 + 2 * u1_09 = U2 d 9 * d 9 + 2 * U1 d 9
    rw [hd09, hu1_09, hu2_09]
    gll_close
  have hu2_11 : u2_11 = U2 d 11 := by
    show u2_10 * d10 + 2 * u1_10 = U2 d 10 * d 10 + 2 * U1 d 10
    rw [hd10, hu1_10, hu2_10]
    gll_close
  have hu2_12 : u2_12 = U2 d 12 := by
    show u2_11 * d11 + 2 * u1_11 = U2 d 11 * d 11 + 2 * U1 d 11
    rw [hd11, hu1_11, hu2_11]
    gll_close
  have hu2_13 : u2_13 = U2 d 13 := by
    show u2_12 * d12 + 2 * u1_12 = U2 d 12 * d 12 + 2 * U1 d 12
    rw [hd12, hu1_12, hu2_12]
    gll_close
  have hv2_10 : v2_10 = U2 (rev 14 d) 3 := by
    show d11 * 2 + 2 * v1_11 = U2 (rev 14 d) 2 * d 11 + 2 * U1 (rev 14 d) 2
    rw [hd11, hv1_11]
    gll_close
  have hv2_09 : v2_09 = U2 (rev 14 d) 4 := by
    show d10 * v2_10 + 2 * v1_10 = U2 (rev 14 d) 3 * d 10 + 2 * U1 (rev 14 d) 3
    rw [hd10, hv1_10, hv2_10]
    gll_close
  have hv2_08 : v2_08 = U2 (rev 14 d) 5 := by
    show d09 * v2_09 + 2 * v1_09 = U2 (rev 14 d) 4 * d 9 + 2 * U1 (rev 14 d) 4
    rw [hd09, hv1_09, hv2_09]
    gll_close
  have hv2_07 : v2_07 = U2 (rev 14 d) 6 := by
    show d08 * v2_08 + 2 * v1_08 = U2 (rev 14 d) 5 * d 8 + 2 * U1 (rev 14 d) 5
    rw [hd08, hv1_08, hv2_08]
    gll_close
  have hv2_06 : v2_06 = U2 (rev 14 d) 7 := by
    show d07 * v2_07 + 2 * v1_07 = U2 (rev 14 d) 6 * d 7 + 2 * U1 (rev 14 d) 6
    rw [hd07, hv1_07, hv2_07]
    gll_close
  have hv2_05 : v2_05 = U2 (rev 14 d) 8 := by
    show d06 * v2_06 + 2 * v1_06 = U2 (rev 14 d) 7 * d 6 + 2 * U1 (rev 14 d) 7
    rw [hd06, hv1_06, hv2_06]
    gll_close
  have hv2_04 : v2_04 = U2 (rev 14 d) 9 := by
    show d05 * v2_05 + 2 * v1_05 = U2 (rev 14 d) 8 * d 5 + 2 * U1 (rev 14 d) 8
    rw [hd05, hv1_05, hv2_05]
    gll_close
  have hv2_03 : v2_03 = U2 (rev 14 d) 10 := by
    show d04 * v2_04 + 2 * v1_04 = U2 (rev 14 d) 9 * d 4 + 2 * U1 (rev 14 d) 9
    rw [hd04, hv1_04, hv2_04]
    gll_close
  have hv2_02 : v2_02 = U2 (rev 14 d) 11 := by
    show d03 * v2_03 + 2 * v1_03 = U2 (rev 14 d) 10 * d 3 + 2 * U1 (rev 14 d) 10
    rw [hd03, hv1_03, hv2_03]
    gll_close
  have hv2_01 : v2_01 = U2 (rev 14 d) 12 := by
    show d02 * v2_02 + 2 * v1_02 = U2 (rev 14 d) 11 * d 2 + 2 * U1 (rev 14 d) 11
    rw [hd02, hv1_02, hv2_02]
    gll_close
  have hv2_00 : v2_00 = U2 (rev 14 d) 13 := by
    show d01 * v2_01 + 2 * v1_01 = U2 (rev 14 d) 12 * d 1 + 2 * U1 (rev 14 d) 12
    rw [hd01, hv1_01, hv2_01]
    gll_close
  have r0_0 : w 0 * 1 * v0_00 = row0 14 w d 0 := by
    show w 0 * 1 * v0_00 = w 0 * U0 d 0 * U0 (rev 14 d) 13
    rw [hv0_00]
    gll_close
  have r0_1 : w 1 * u0_01 * v0_01 = row0 14 w d 1 := by
    show w 1 * u0_01 * v0_01 = w 1 * U0 d 1 * U0 (rev 14 d) 12
    rw [hu0_01, hv0_01]
    gll_close
  have r0_2 : w 2 * u0_02 * v0_02 = row0 14 w d 2 := by
    show w 2 * u0_02 * v0_02 = w 2 * U0 d 2 * U0 (rev 14 d) 11
    rw [hu0_02, hv0_02]
    gll_close
  have r0_3 : w 3 * u0_03 * v0_03 = row0 14 w d 3 := by
    show w 3 * u0_03 * v0_03 = w 3 * U0 d 3 * U0 (rev 14 d) 10
    rw [hu0_03, hv0_03]
    gll_close
  have r0_4 : w 4 * u0_04 * v0_04 = row0 14 w d 4 := by
    show w 4 * u0_04 * v0_04 = w 4 * U0 d 4 * U0 (rev 14 d) 9
    rw [hu0_04, hv0_04]
    gll_close
  have r0_5 : w 5 * u0_05 * v0_05 = row0 14 w d 5 := by
    show w 5 * u0_05 * v0_05 = w 5 * U0 d 5 * U0 (rev 14 d) 8
    rw [hu0_05, hv0_05]
    gll_close
  have r0_6 : w 6 * u0_06 * v0_06 = row0 14 w d 6 := by
    show w 6 * u0_06 * v0_06 = w 6 * U0 d 6 * U0 (rev 14 d) 7
    rw [hu0_06, hv0_06]
    gll_close
  have r0_7 : w 7 * u0_07 * v0_07 = row0 14 w d 7 := by
    show w 7 * u0_07 * v0_07 = w 7 * U0 d 7 * U0 (rev 14 d) 6
    rw [hu0_07, hv0_07]
    gll_close
  have r0_8 : w 8 * u0_08 * v0_08 = row0 14 w d 8 := by
    show w 8 * u0_08 * v0_08 = w 8 * U0 d 8 * U0 (rev 14 d) 5
    rw [hu0_08, hv0_08]
    gll_close
  have r0_9 : w 9 * u0_09 * v0_09 = row0 14 w d 9 := by
    show w 9 * u0_09 * v0_09 = w 9 * U0 d 9 * U0 (rev 14 d) 4
    rw [hu0_09, hv0_09]
    gll_close
  have r0_10 : w 10 * u0_10 * v0_10 = row0 14 w d 10 := by
    show w 10 * u0_10 * v0_10 = w 10 * U0 d 10 * U0 (rev 14 d) 3
    rw [hu0_10, hv0_10]
    gll_close
  have r0_11 : w 11 * u0_11 * v0_11 = row0 14 w d 11 := by
    show w 11 * u0_11 * v0_11 = w 11 * U0 d 11 * U0 (rev 14 d) 2
    rw [hu0_11, hv0_11]
    gll_close
  have r0_12 : w 12 * u0_12 * v0_12 = row0 14 w d 12 := by
    show w 12 * u0_12 * v0_12 = w 12 * U0 d 12 * U0 (rev 14 d) 1
    rw [hu0_12, hv0_12]
    gll_close
  have r0_13 : w 13 * u0_13 * 1 = row0 14 w d 13 := by
    show w 13 * u0_13 * 1 = w 13 * U0 d 13 * U0 (rev 14 d) 0
    rw [hu0_13]
    gll_close
  have r1_0 : 2 * w 0 * (v1_00) = row1 14 w d 0 := by
    show 2 * w 0 * (v1_00) = 2 * w 0 * (U1 d 0 * U0 (rev 14 d) 13 + U0 d 0 * U1 (rev 14 d) 13)
    rw [hv1_00]
    gll_close
  have r1_1 : 2 * w 1 * (1 * v0_01 + u0_01 * v1_01) = row1 14 w d 1 := by
    show 2 * w 1 * (1 * v0_01 + u0_01 * v1_01) = 2 * w 1 * (U1 d 1 * U0 (rev 14 d) 12 + U0 d 1 * U1 (rev 14 d) 12)
    rw [hu0_01, hv0_01, hv1_01]
    gll_close
  have r1_2 : 2 * w 2 * (u1_02 * v0_02 + u0_02 * v1_02) = row1 14 w d 2 := by
    show 2 * w 2 * (u1_02 * v0_02 + u0_02 * v1_02) = 2 * w 2 * (U1 d 2 * U0 (rev 14 d) 11 + U0 d 2 * U1 (rev 14 d) 11)
    rw [hu0_02, hu1_02, hv0_02, hv1_02]
    gll_close
  have r1_3 : 2 * w 3 * (u1_03 * v0_03 + u0_03 * v1_03) = row1 14 w d 3 := by
    show 2 * w 3 * (u1_03 * v0_03 + u0_03 * v1_03) = 2 * w 3 * (U1 d 3 * U0 (rev 14 d) 10 + U0 d 3 * U1 (rev 14 d) 10)
    rw [hu0_03, hu1_03, hv0_03, hv1_03]
    gll_close
  have r1_4 : 2 * w 4 * (u1_04 * v0_04 + u0_04 * v1_04) = row1 14 w d 4 := by
    show 2 * w 4 * (u1_04 * v0_04 + u0_04 * v1_04) = 2 * w 4 * (U1 d 4 * U0 (rev 14 d) 9 + U0 d 4 * U1 (rev 14 d) 9)
    rw [hu0_04, hu1_04, hv0_04, hv1_04]
    gll_close
  have r1_5 : 2 * w 5 * (u1_05 * v0_05 + u0_05 * v1_05) = row1 14 w d 5 := by
    show 2 * w 5 * (u1_05 * v0_05 + u0_05 * v1_05) = 2 * w 5 * (U1 d 5 * U0 (rev 14 d) 8 + U0 d 5 * U1 (rev 14 d) 8)
    rw [hu0_05, hu1_05, hv0_05, hv1_05]
    gll_close
  have r1_6 : 2 * w 6 * (u1_06 * v0_06 + u0_06 * v1_06) = row1 14 w d 6 := by
    show 2 * w 6 * (u1_06 * v0_06 + u0_06 * v1_06) = 2 * w 6 * (U1 d 6 * U0 (rev 14 d) 7 + U0 d 6 * U1 (rev 14 d) 7)
    rw [hu0_06, hu1_06, hv0_06, hv1_06]
    gll_close
  have r1_7 : 2 * w 7 * (u1_07 * v0_07 + u0_07 * v1_07) = row1 14 w d 7 := by
    show 2 * w 7 * (u1_07 * v0_07 + u0_07 * v1_07) = 2 * w 7 * (U1 d 7 * U0 (rev 14 d) 6 + U0 d 7 * U1 (rev 14 d) 6)
    rw [hu0_07, hu1_07, hv0_07, hv1_07]
    gll_close
  have r1_8 : 2 * w 8 * (u1_08 * v0_08 + u0_08 * v1_08) = row1 14 w d 8 := by
    show 2 * w 8 * (u1_08 * v0_08 + u0_08 * v1_08) = 2 * w 8 * (U1 d 8 * U0 (rev 14 d) 5 + U0 d 8 * U1 (rev 14 d) 5)
    rw [hu0_08, hu1_08, hv0_08, hv1_08]
    gll_close
  have r1_9 : 2 * w 9 * (u1_09 * v0_09 + u0_09 * v1_09) = row1 14 w d 9 := by
    show 2 * w 9 * (u1_09 * v0_09 + u0_09 * v1_09) = 2 * w 9 * (U1 d 9 * U0 (rev 14 d) 4 + U0 d 9 * U1 (rev 14 d) 4)
    rw [hu0_09, hu1_09, hv0_09, hv1_09]
    gll_close
  have r1_10 : 2 * w 10 * (u1_10 * v0_10 + u0_10 * v1_10) = row1 14 w d 10 := by
    show 2 * w 10 * (u1_10 * v0_10 + u0_10 * v1_10) = 2 * w 10 * (U1 d 10 * U0 (rev 14 d) 3 + U0 d 10 * U1 (rev 14 d) 3)
    rw [hu0_10, hu1_10, hv0_10, hv1_10]
    gll_close
  have r1_11 : 2 * w 11 * (u1_11 * v0_11 + u0_11 * v1_11) = row1 14 w d 11 := by
    show 2 * w 11 * (u1_11 * v0_11 + u0_11 * v1_11) = 2 * w 11 * (U1 d 11 * U0 (rev 14 d) 2 + U0 d 11 * U1 (rev 14 d) 2)
    rw [hu0_11, hu1_11, hv0_11, hv1_11]
    gll_close
  have r1_12 : 2 * w 12 * (u1_12 * v0_12 + u0_12 * 1) = row1 14 w d 12 := by
    show 2 * w 12 * (u1_12 * v0_12 + u0_12 * 1) = 2 * w 12 * (U1 d 12 * U0 (rev 14 d) 1 + U0 d 12 * U1 (rev 14 d) 1)
    rw [hu0_12, hu1_12, hv0_12]
    gll_close
  have r1_13 : 2 * w 13 * (u1_13) = row1 14 w d 13 := by
    show 2 * w 13 * (u1_13) = 2 * w 13 * (U1 d 13 * U0 (rev 14 d) 0 + U0 d 13 * U1 (rev 14 d) 0)
    rw [hu1_13]
    gll_close
  have r2_0 : 4 * w 0 * (1 * v2_00) = row2 14 w d 0 := by
    show 4 * w 0 * (1 * v2_00) = 4 * w 0 * (U2 d 0 * U0 (rev 14 d) 13 + 2 * U1 d 0 * U1 (rev 14 d) 13 + U0 d 0 * U2 (rev 14 d) 13)
    rw [hv2_00]
    gll_close
  have r2_1 : 4 * w 1 * (2 * 1 * v1_01 + u0_01 * v2_01) = row2 14 w d 1 := by
    show 4 * w 1 * (2 * 1 * v1_01 + u0_01 * v2_01) = 4 * w 1 * (U2 d 1 * U0 (rev 14 d) 12 + 2 * U1 d 1 * U1 (rev 14 d) 12 + U0 d 1 * U2 (rev 14 d) 12)
    rw [hu0_01, hv1_01, hv2_01]
    gll_close
  have r2_2 : 4 * w 2 * (2 * v0_02 + 2 * u1_02 * v1_02 + u0_02 * v2_02) = row2 14 w d 2 := by
    show 4 * w 2 * (2 * v0_02 + 2 * u1_02 * v1_02 + u0_02 * v2_02) = 4 * w 2 * (U2 d 2 * U0 (rev 14 d) 11 + 2 * U1 d 2 * U1 (rev 14 d) 11 + U0 d 2 * U2 (rev 14 d) 11)
    rw [hu0_02, hu1_02, hv0_02, hv1_02, hv2_02]
    gll_close
  have r2_3 : 4 * w 3 * (u2_03 * v0_03 + 2 * u1_03 * v1_03 + u0_03 * v2_03) = row2 14 w d 3 := by
    show 4 * w 3 * (u2_03 * v0_03 + 2 * u1_03 * v1_03 + u0_03 * v2_03) = 4 * w 3 * (U2 d 3 * U0 (rev 14 d) 10 + 2 * U1 d 3 * U1 (rev 14 d) 10 + U0 d 3 * U2 (rev 14 d) 10)
    rw [hu0_03, hu1_03, hu2_03, hv0_03, hv1_03, hv2_03]
    gll_close
  have r2_4 : 4 * w 4 * (u2_04 * v0_04 + 2 * u1_04 * v1_04 + u0_04 * v2_04) = row2 14 w d 4 := by
    show 4 * w 4 * (u2_04 * v0_04 + 2 * u1_04 * v1_04 + u0_04 * v2_04) = 4 * w 4 * (U2 d 4 * U0 (rev 14 d) 9 + 2 * U1 d 4 * U1 (rev 14 d) 9 + U0 d 4 * U2 (rev 14 d) 9)
    rw [hu0_04, hu1_04, hu2_04, hv0_04, hv1_04, hv2_04]
    gll_close
  have r2_5 : 4 * w 5 * (u2_05 * v0_05 + 2 * u1_05 * v1_05 + u0_05 * v2_05) = row2 14 w d 5 := by
    show 4 * w 5 * (u2_05 * v0_05 + 2 * u1_05 * v1_05 + u0_05 * v2_05) = 4 * w 5 * (U2 d 5 * U0 (rev 14 d) 8 + 2 * U1 d 5 * U1 (rev 14 d) 8 + U0 d 5 * U2 (rev 14 d) 8)
    rw [hu0_05, hu1_05, hu2_05, hv0_05, hv1_05, hv2_05]
    gll_close
  have r2_6 : 4 * w 6 * (u2_06 * v0_06 + 2 * u1_06 * v1_06 + u0_06 * v2_06) = row2 14 w d 6 := by
    show 4 * w 6 * (u2_06 * v0_06 + 2 * u1_06 * v1_06 + u0_06 * v2_06) = 4 * w 6 * (U2 d 6 * U0 (rev 14 d) 7 + 2 * U1 d 6 * U1 (rev 14 d) 7 + U0 d 6 * U2 (rev 14 d) 7)
    rw [hu0_06, hu1_06, hu2_06, hv0_06, hv1_06, hv2_06]
    gll_close
  have r2_7 : 4 * w 7 * (u2_07 * v0_07 + 2 * u1_07 * v1_07 + u0_07 * v2_07) = row2 14 w d 7 := by
    show 4 * w 7 * (u2_07 * v0_07 + 2 * u1_07 * v1_07 + u0_07 * v2_07) = 4 * w 7 * (U2 d 7 * U0 (rev 14 d) 6 + 2 * U1 d 7 * U1 (rev 14 d) 6 + U0 d 7 * U2 (rev 14 d) 6)
    rw [hu0_07, hu1_07, hu2_07, hv0_07, hv1_07, hv2_07]
    gll_close
  have r2_8 : 4 * w 8 * (u2_08 * v0_08 + 2 * u1_08 * v1_08 + u0_08 * v2_08) = row2 14 w d 8 := by
    show 4 * w 8 * (u2_08 * v0_08 + 2 * u1_08 * v1_08 + u0_08 * v2_08) = 4 * w 8 * (U2 d 8 * U0 (rev 14 d) 5 + 2 * U1 d 8 * U1 (rev 14 d) 5 + U0 d 8 * U2 (rev 14 d) 5)
    rw [hu0_08, hu1_08, hu2_08, hv0_08, hv1_08, hv2_08]
    gll_close
  have r2_9 : 4 * w 9 * (u2_09 * v0_09 + 2 * u1_09 * v1_09 + u0_09 * v2_09) = row2 14 w d 9 := by
    show 4 * w 9 * (u2_09 * v0_09 + 2 * u1_09 * v1_09 + u0_09 * v2_09) = 4 * w 9 * (U2 d 9 * U0 (rev 14 d) 4 + 2 * U1 d 9 * U1 (rev 14 d) 4 + U0 d 9 * U2 (rev 14 d) 4)
    rw [hu0_09, hu1_09, hu2_09, hv0_09, hv1_09, hv2_09]
    gll_close
  have r2_10 : 4 * w 10 * (u2_10 * v0_10 + 2 * u1_10 * v1_10 + u0_10 * v2_10) = row2 14 w d 10 := by
    show 4 * w 10 * (u2_10 * v0_10 + 2 * u1_10 * v1_10 + u0_10 * v2_10) = 4 * w 10 * (U2 d 10 * U0 (rev 14 d) 3 + 2 * U1 d 10 * U1 (rev 14 d) 3 + U0 d 10 * U2 (rev 14 d) 3)
    rw [hu0_10, hu1_10, hu2_10, hv0_10, hv1_10, hv2_10]
    gll_close
  have r2_11 : 4 * w 11 * (u2_11 * v0_11 + 2 * u1_11 * v1_11 + u0_11 * 2) = row2 14 w d 11 := by
    show 4 * w 11 * (u2_11 * v0_11 + 2 * u1_11 * v1_11 + u0_11 * 2) = 4 * w 11 * (U2 d 11 * U0 (rev 14 d) 2 + 2 * U1 d 11 * U1 (rev 14 d) 2 + U0 d 11 * U2 (rev 14 d) 2)
    rw [hu0_11, hu1_11, hu2_11, hv0_11, hv1_11]
    gll_close
  have r2_12 : 4 * w 12 * (u2_12 * v0_12 + 2 * u1_12 * 1) = row2 14 w d 12 := by
    show 4 * w 12 * (u2_12 * v0_12 + 2 * u1_12 * 1) = 4 * w 12 * (U2 d 12 * U0 (rev 14 d) 1 + 2 * U1 d 12 * U1 (rev 14 d) 1 + U0 d 12 * U2 (rev 14 d) 1)
    rw [hu1_12, hu2_12, hv0_12]
    gll_close
  have r2_13 : 4 * w 13 * (u2_13 * 1) = row2 14 w d 13 := by
    show 4 * w 13 * (u2_13 * 1) = 4 * w 13 * (U2 d 13 * U0 (rev 14 d) 0 + 2 * U1 d 13 * U1 (rev 14 d) 0 + U0 d 13 * U2 (rev 14 d) 0)
    rw [hu2_13]
    gll_close
  have L0 : [w 0 * 1 * v0_00, w 1 * u0_01 * v0_01, w 2 * u0_02 * v0_02, w 3 * u0_03 * v0_03, w 4 * u0_04 * v0_04, w 5 * u0_05 * v0_05, w 6 * u0_06 * v0_06, w 7 * u0_07 * v0_07, w 8 * u0_08 * v0_08, w 9 * u0_09 * v0_09, w 10 * u0_10 * v0_10, w 11 * u0_11 * v0_11, w 12 * u0_12 * v0_12, w 13 * u0_13 * 1] = (List.range 14).map (row0 14 w d) :=
    (congrArg₂ List.cons r0_0 (congrArg₂ List.cons r0_1 (congrArg₂ List.cons r0_2 (congrArg₂ List.cons r0_3 (congrArg₂ List.cons r0_4 (congrArg₂ List.cons r0_5 (congrArg₂ List.cons r0_6 (congrArg₂ List.cons r0_7 (congrArg₂ List.cons r0_8 (congrArg₂ List.cons r0_9 (congrArg₂ List.cons r0_10 (congrArg₂ List.cons r0_11 (congrArg₂ List.cons r0_12 (congrArg₂ List.cons r0_13 rfl))))))))))))))
  have L1 : [2 * w 0 * (v1_00), 2 * w 1 * (1 * v0_01 + u0_01 * v1_01), 2 * w 2 * (u1_02 * v0_02 + u0_02 * v1_02), 2 * w 3 * (u1_03 * v0_03 + u0_03 * v1_03), 2 * w 4 * (u1_04 * v0_04 + u0_04 * v1_04), 2 * w 5 * (u1_05 * v0_05 + u0_05 * v1_05), 2 * w 6 * (u1_06 * v0_06 + u0_06 * v1_06), 2 * w 7 * (u1_07 * v0_07 + u0_07 * v1_07), 2 * w 8 * (u1_08 * v0_08 + u0_08 * v1_08), 2 * w 9 * (u1_09 * v0_09 + u0_09 * v1_09), 2 * w 10 * (u1_10 * v0_10 + u0_10 * v1_10), 2 * w 11 * (u1_11 * v0_11 + u0_11 * v1_11), 2 * w 12 * (u1_12 * v0_12 + u0_12 * 1), 2 * w 13 * (u1_13)] = (List.range 14).map (row1 14 w d) :=
    (congrArg₂ List.cons r1_0 (congrArg₂ List.cons r1_1 (congrArg₂ List.cons r1_2 (congrArg₂ List.cons r1_3 (congrArg₂ List.cons r1_4 (congrArg₂ List.cons r1_5 (congrArg₂ List.cons r1_6 (congrArg₂ List.cons r1_7 (congrArg₂ List.cons r1_8 (congrArg₂ List.cons r1_9 (congrArg₂ List.cons r1_10 (congrArg₂ List.cons r1_11 (congrArg₂ List.cons r1_12 (congrArg₂ List.cons r1_13 rfl))))))))))))))
  have L2 : [4 * w 0 * (1 * v2_00), 4 * w 1 * (2 * 1 * v1_01 + u0_01 * v2_01), 4 * w 2 * (2 * v0_02 + 2 * u1_02 * v1_02 + u0_02 * v2_02), 4 * w 3 * (u2_03 * v0_03 + 2 * u1_03 * v1_03 + u0_03 * v2_03), 4 * w 4 * (u2_04 * v0_04 + 2 * u1_04 * v1_04 + u0_04 * v2_04), 4 * w 5 * (u2_05 * v0_05 + 2 * u1_05 * v1_05 + u0_05 * v2_05), 4 * w 6 * (u2_06 * v0_06 + 2 * u1_06 * v1_06 + u0_06 * v2_06), 4 * w 7 * (u2_07 * v0_07 + 2 * u1_07 * v1_07 + u0_07 * v2_07), 4 * w 8 * (u2_08 * v0_08 + 2 * u1_08 * v1_08 + u0_08 * v2_08), 4 * w 9 * (u2_09 * v0_09 + 2 * u1_09 * v1_09 + u0_09 * v2_09), 4 * w 10 * (u2_10 * v0_10 + 2 * u1_10 * v1_10 + u0_10 * v2_10), 4 * w 11 * (u2_11 * v0_11 + 2 * u1_11 * v1_11 + u0_11 * 2), 4 * w 12 * (u2_12 * v0_12 + 2 * u1_12 * 1), 4 * w 13 * (u2_13 * 1)] = (List.range 14).map (row2 14 w d) :=
    (congrArg₂ List.cons r2_0 (congrArg₂ List.cons r2_1 (congrArg₂ List.cons r2_2 (congrArg₂ List.cons r2_3 (congrArg₂ List.cons r2_4 (congrArg₂ List.cons r2_5 (congrArg₂ List.cons r2_6 (congrArg₂ List.cons r2_7 (congrArg₂ List.cons r2_8 (congrArg₂ List.cons r2_9 (congrArg₂ List.cons r2_10 (congrArg₂ List.cons r2_11 (congrArg₂ List.cons r2_12 (congrArg₂ List.cons r2_13 rfl))))))))))))))
  exact congrArg₂ Prod.mk L0 (congrArg₂ Prod.mk L1 L2)

theorem gllLag15_eq (g w : Nat → K) (xh : K) : gllLag15 g w xh = rowLists 15 w (dx (gnode 15 g) xh) := by
  unfold gllLag15
  extract_lets x d00 d01 d02 d03 d04 d05 d06 d07 d08 d09 d10 d11 d12 d13 d14 u0_01 u0_02 u0_03 u0_04 u0_05 u0_06 u0_07 u0_08 u0_09 u0_10 u0_11 u0_12 u0_13 u0_14 v0_13 v0_12 v0_11 v0_10 v0_09 v0_08 v0_07 v0_06 v0_05 v0_04 v0_03 v0_02 v0_01 v0_00 u1_02 u1_03 u1_04 u1_05 u1_06 u1_07 u1_08 u1_09 u1_10 u1_11 u1_12 u1_13 u1_14 v1_12 v1_11 v1_10 v1_09 v1_08 v1_07 v1_06 v1_05 v1_04 v1_03 v1_02 v1_01 v1_00 u2_03 u2_04 u2_05 u2_06 u2_07 u2_08 u2_09 u2_10 u2_11 u2_12 u2_13 u2_14 v2_11 v2_10 v2_09 v2_08 v2_07 v2_06 v2_05 v2_04 v2_03 v2_02 v2_01 v2_00
  generalize hd : dx (gnode 15 g) xh = d
  have hd00 : d00 = d 0 := by
    rw [← hd]; show xh * 2 + 2 = 2 * (xh - (-1)); ring
  have hd01 : d01 = d 1 := by
    rw [← hd]; show xh * 2 + 2 * g 0 = 2 * (xh - (-g 0)); ring
  have hd02 : d02 = d 2 := by
    rw [← hd]; show xh * 2 + 2 * g 1 = 2 * (xh - (-g 1)); ring
  have hd03 : d03 = d 3 := by
    rw [← hd]; show xh * 2 + 2 * g 2 = 2 * (xh - (-g 2)); ring
  have hd04 : d04 = d 4 := by
    rw [← hd]; show xh * 2 + 2 * g 3 = 2 * (xh - (-g 3)); ring
  have hd05 : d05 = d 5 := by
    rw [← hd]; show xh * 2 + 2 * g 4 = 2 * (xh - (-g 4)); ring
  have hd06 : d06 = d 6 := by
    rw [← hd]; show xh * 2 + 2 * g 5 = 2 * (xh - (-g 5)); ring
  have hd07 : d07 = d 7 := by
    rw [← hd]; show xh * 2 = 2 * (xh - (0)); ring
  have hd08 : d08 = d 8 := by
    rw [← hd]; show xh * 2 - 2 * g 5 = 2 * (xh - (g 5)); ring
  have hd09 : d09 = d 9 := by
    rw [← hd]; show xh * 2 - 2 * g 4 = 2 * (xh - (g 4)); ring
  have hd10 : d10 = d 10 := by
    rw [← hd]; show xh * 2 - 2 * g 3 = 2 * (xh - (g 3)); ring
  have hd11 : d11 = d 11 := by
    rw [← hd]; show xh * 2 - 2 * g 2 = 2 * (xh - (g 2)); ring
  have hd12 : d12 = d 12 := by
    rw [← hd]; show xh * 2 - 2 * g 1 = 2 * (xh - (g 1)); ring
  have hd13 : d13 = d 13 := by
    rw [← hd]; show xh * 2 - 2 * g 0 = 2 * (xh - (g 0)); ring
  have hd14 : d14 = d 14 := by
    rw [← hd]; show xh * 2 - 2 = 2 * (xh - (1)); ring
  have hu0_01 : u0_01 = U0 d 1 := by
    show 1 * d00 = U0 d 0 * d 0
    rw [hd00]
    gll_close
  have hu0_02 : u0_02 = U0 d 2 := by
    show u0_01 * d01 = U0 d 1 * d 1
    rw [hd01, hu0_01]
    gll_close
  have hu0_03 : u0_03 = U0 d 3 := by
    show u0_02 * d02 = U0 d 2 * d 2
    rw [hd02, hu0_02]
    gll_close
  have hu0_04 : u0_04 = U0 d 4 := by
    show u0_03 * d03 = U0 d 3 * d 3
    rw [hd03, hu0_03]
    gll_close
  have hu0_05 : u0_05 = U0 d 5 := by
    show u0_04 * d04 = U0 d 4 * d 4
    rw [hd04, hu0_04]
    gll_close
  have hu0_06 : u0_06 = U0 d 6 := by
    show u0_05 * d05 = U0 d 5 * d 5
    rw [hd05, hu0_05]
    gll_close
  have hu0_07 : u0_07 = U0 d 7 := by
    show u0_06 * d06 = U0 d 6 * d 6
    rw [hd06, hu0_06]
    gll_close
  have hu0_08 : u0_08 = U0 d 8 := by
    show u0_07 * d07 = U0 d 7 * d 7
    rw [hd07, hu0_07]
    gll_close
  have hu0_09 : u0_09 = U0 d 9 := by
    show u0_08 * d08 = U0 d 8 * d 8
    rw [hd08, hu0_08]
    gll_close
  have hu0_10 : u0_10 = U0 d 10 := by
    show u0_09 * d09 = U0 d 9 * d 9
    rw [hd09, hu0_09]
    gll_close
  have hu0_11 : u0_11 = U0 d 11 := by
    show u0_10 * d10 = U0 d 10 * d 10
    rw [hd10, hu0_10]
    gll_close
  have hu0_12 : u0_12 = U0 d 12 := by
    show u0_11 * d11 = U0 d 11 * d 11
    rw [hd11, hu0_11]
    gll_close
  have hu0_13 : u0_13 = U0 d 13 := by
    show u0_12 * d12 = U0 d 12 * d 12
    rw [hd12, hu0_12]
    gll_close
  have hu0_14 : u0_14 = U0 d 14 := by
    show u0_13 * d13 = U0 d 13 * d 13
    rw [hd13, hu0_13]
    gll_close
  have hv0_13 : v0_13 = U0 (rev 15 d) 1 := by
    show d14 * 1 = U0 (rev 15 d) 0 * d 14
    rw [hd14]
    gll_close
  have hv0_12 : v0_12 = U0 (rev 15 d) 2 := by
    show d13 * v0_13 = U0 (rev 15 d) 1 * d 13
    rw [hd13, hv0_13]
    gll_close
  have hv0_11 : v0_11 = U0 (rev 15 d) 3 := by
    show d12 * v0_12 = U0 (rev 15 d) 2 * d 12
    rw [hd12, hv0_12]
    gll_close
  have hv0_10 : v0_10 = U0 (rev 15 d) 4 := by
    show d11 * v0_11 = U0 (rev 15 d) 3 * d 11
    rw [hd11, hv0_11]
    gll_close
  have hv0_09 : v0_09 = U0 (rev 15 d) 5 := by
    show d10 * v0_10 = U0 (rev 15 d) 4 * d 10
    rw [hd10, hv0_10]
    gll_close
  have hv0_08 : v0_08 = U0 (rev 15 d) 6 := by
    show d09 * v0_09 = U0 (rev 15 d) 5 * d 9
    rw [hd09, hv0_09]
    gll_close
  have hv0_07 : v0_07 = U0 (rev 15 d) 7 := by
    show d08 * v0_08 = U0 (rev 15 d) 6 * d 8
    rw [hd08, hv0_08]
    gll_close
  have hv0_06 : v0_06 = U0 (rev 15 d) 8 := by
    show d07 * v0_07 = U0 (rev 15 d) 7 * d 7
    rw [hd07, hv0_07]
    gll_close
  have hv0_05 : v0_05 = U0 (rev 15 d) 9 := by
    show d06 * v0_06 = U0 (rev 15 d) 8 * d 6
    rw [hd06, hv0_06]
    gll_close
  have hv0_04 : v0_04 = U0 (rev 15 d) 10 := by
    show d05 * v0_05 = U0 (rev 15 d) 9 * d 5
    rw [hd05, hv0_05]
    gll_close
  have hv0_03 : v0_03 = U0 (rev 15 d) 11 := by
    show d04 * v0_04 = U0 (rev 15 d) 10 * d 4
    rw [hd04, hv0_04]
    gll_close
  have hv0_02 : v0_02 = U0 (rev 15 d) 12 := by
    show d03 * v0_03 = U0 (rev 15 d) 11 * d 3
    rw [hd03, hv0_03]
    gll_close
  have hv0_01 : v0_01 = U0 (rev 15 d) 13 := by
    show d02 * v0_02 = U0 (rev 15 d) 12 * d 2
    rw [hd02, hv0_02]
    gll_close
  have hv0_00 : v0_00 = U0 (rev 15 d) 14 := by
    show d01 * v0_01 = U0 (rev 15 d) 13 * d 1
    rw [hd01, hv0_01]
    gll_close
  have hu1_02 : u1_02 = U1 d 2 := by
    show 1 * d01 + u0_01 = U1 d 1 * d 1 + U0 d 1
    rw [hd01, hu0_01]
    gll_close
  have hu1_03 : u1_03 = U1 d 3 := by
    show u1_02 * d02 + u0_02 = U1 d 2 * d 2 + U0 d 2
    rw [hd02, hu0_02, hu1_02]
    gll_close
  have hu1_04 : u1_04 = U1 d 4 := by
    show u1_03 * d03 + u0_03 = U1 d 3 * d 3 + U0 d 3
    rw [hd03, hu0_03, hu1_03]
    gll_close
  have hu1_05 : u1_05 = U1 d 5 := by
    show u1_04 * d04 + u0_04 = U1 d 4 * d 4 + U0 d 4
    rw [hd04, hu0_04, hu1_04]
    gll_close
  have hu1_06 : u1_06 = U1 d 6 := by
    show u1_05 * d05 + u0_05 = U1 d 5 * d 5 + U0 d 5
    rw [hd05, hu0_05, hu1_05]
    gll_close
  have hu1_07 : u1_07 = U1 d 7 := by
    show u1_06 * d06 + u0_06 = U1 d 6 * d 6 + U0 d 6
    rw [hd06, hu0_06, hu1_06]
    gll_close
  have hu1_08 : u1_08 = U1 d 8 := by
    show u1_07 * d07 + u0_07 = U1 d 7 * d 7 + U0 d 7
    rw [hd07, hu0_07, hu1_07]
    gll_close
  have hu1_09 : u1_09 = U1 d 9 := by
    show u1_08 * d08 + u0_08 = U1 d 8 * d 8 + U0 d 8
    rw [hd08, hu0_08, hu1_08]
    gll_close
  have hu1_10 : u1_10 = U1 d 10 := by
    show u1_09 * d09 + u0_09 = U1 d 9 * d 9 + U0 d 9
    rw [hd09, hu0_09, hu1_09]
    gll_close
  have hu1_11 : u1_11 = U1 d 11 := by
    show u1_10 * d10 + u0_10 = U1 d 10 * d 10 + U0 d 10
    rw [hd10, hu0_10, hu1_10]
    gll_close
  have hu1_12 : u1_12 = U1 d 12 := by
    show u1_11 * d11 + u0_11 = U1 d 11 * d 11 + U0 d 11
    rw [hd11, hu0_11, hu1_11]
    gll_close
  have hu1_13 : u1_13 = U1 d 13 := by
    show u1_12 * d12 + u0_12 = U1 d 12 * d 12 + U0 d 12
    rw [hd12, hu0_12, hu1_12]
    gll_close
  have hu1_14 : u1_14 = U1 d 14 := by
    show u1_13 * d13 + u0_13 = U1 d 13 * d 13 + U0 d 13
    rw [hd13, hu0_13, hu1_13]
    gll_close
  have hv1_12 : v1_12 = U1 (rev 15 d) 2 := by
    show d13 * 1 + v0_13 = U1 (rev 15 d) 1 * d 13 + U0 (rev 15 d) 1
    rw [hd13, hv0_13]
    gll_close
  have hv1_11 : v1_11 = U1 (rev 15 d) 3 := by
    show d12 * v1_12 + v0_12 = U1 (rev 15 d) 2 * d 12 + U0 (rev 15 d) 2
    rw [hd12, hv0_12, hv1_12]
    gll_close
  have hv1_10 : v1_10 = U1 (rev 15 d) 4 := by
    show d11 * v1_11 + v0_11 = U1 (rev 15 d) 3 * d 11 + U0 (rev 15 d) 3
    rw [hd11, hv0_11, hv1_11]
    gll_close
  have hv1_09 : v1_09 = U1 (rev 15 d) 5 := by
    show d10 * v1_10 + v0_10 = U1 (rev 15 d) 4 * d 10 + U0 (rev 15 d) 4
    rw [hd10, hv0_10, hv1_10]
    gll_close
  have hv1_08 : v1_08 = U1 (rev 15 d) 6 := by
    show d09 * v1_09 + v0_09 = U1 (rev 15 d) 5 * d 9 + U0 (rev 15 d) 5
    rw [hd09, hv0_09, hv1_09]
    gll_close
  have hv1_07 : v1_07 = U1 (rev 15 d) 7 := by
    show d08 * v1_08 + v0_08 = U1 (rev 15 d) 6 * d 8 + U0 (rev 15 d) 6
    rw [hd08, hv0_08, hv1_08]
    gll_close
  have hv1_06 : v1_06 = U1 (rev 15 d) 8 := by
    show d07 * v1_07 + v0_07 = U1 (rev 15 d) 7 * d 7 + U0 (rev 15 d) 7
    rw [hd07, hv0_07, hv1_07]
    gll_close
  have hv1_05 : v1_05 = U1 (rev 15 d) 9 := by
    show d06 * v1_06 + v0_06 = U1 (rev 15 d) 8 * d 6 + U0 (rev 15 d) 8
    rw [hd06, hv0_06, hv1_06]
    gll_close
  have hv1_04 : v1_04 = U1 (rev 15 d) 10 := by
    show d05 * v1_05 + v0_05 = U1 (rev 15 d) 9 * d 5 + U0 (rev 15 d) 9
    rw [hd05, hv0_05, hv1_05]
    gll_close
  have hv1_03 : v1_03 = U1 (rev 15 d) 11 := by
    show d04 * v1_04 + v0_04 = U1 (rev 15 d) 10 * d 4 + U0 (rev 15 d) 10
    rw [hd04, hv0_04, hv1_04]
    gll_close
  have hv1_02 : v1_02 = U1 (rev 15 d) 12 := by
    show d03 * v1_03 + v0_03 = U1 (rev 15 d) 11 * d 3 + U0 (rev 15 d) 11
    rw [hd03, hv0_03, hv1_03]
    gll_close
  have hv1_01 : v1_01 = U1 (rev 15 d) 13 := by
    show d02 * v1_02 + v0_02 = U1 (rev 15 d) 12 * d 2 + U0 (rev 15 d) 12
    rw [hd02, hv0_02, hv1_02]
    gll_close
  have hv1_00 : v1_00 = U1 (rev 15 d) 14 := by
    show d01 * v1_01 + v0_01 = U1 (rev 15 d) 13 * d 1 + U0 (rev 15 d) 13
    rw [hd01, hv0_01, hv1_01]
    gll_close
  have hu2_03 : u2_03 = U2 d 3 := by
    show 2 * d02 + 2 * u1_02 = U2 d 2 * d 2 + 2 * U1 d 2
    rw [hd02, hu1_02]
    gll_close
  have hu2_04 : u2_04 = U2 d 4 := by
    show u2_03 * d03 + 2 * u1_03 = U2 d 3 * d 3 + 2 * U1 d 3
    rw [hd03, hu1_03, hu2_03]
    gll_close
  have hu2_05 : u2_05 = U2 d 5 := by
    show u2_04 * d04 + 2 * u1_04 = U2 d 4 * d 4 + 2 * U1 d 4
    rw [hd04, hu1_04, hu2_04]
    gll_close
  have hu2_06 : u2_06 = U2 d 6 := by
    show u2_05 * d05 + 2 * u1_05 = U2 d 5 * d 5 + 2 * U1 d 5
    rw [hd05, hu1_05, hu2_05]
    gll_close
  have hu2_07 : u2_07 = U2 d 7 := by
    show u2_06 * d06 + 2 * u1_06 = U2 d 6 * d 6 + 2 * U1 d 6
    rw [hd06, hu1_06, hu2_06]
    gll_close
  have hu2_08 : u2_08 = U2 d 8 := by
    show u2_07 * d07 + 2 * u1_07 = U2 d 7 * d 7 + 2 * U1 d 7
    rw [hd07, hu1_07, hu2_07]
    gll_close
  have hu2_09 : u2_09 = U2 d 9 := by
    show u2_08 * d08 + 2 * u1_08 = U2 d 8 * d 8 + 2 * U1 d 8
    rw [hd08, hu1_08, hu2_08]
    gll_close
  have hu2_10 : u2_10 = U2 d 10 := by
    show u2_09 * d09 + 2 * u1_09 = U2 d 9 * d 9 + 2 * U1 d 9
    rw [hd09, hu1_09, hu2_09]
    gll_close
  have hu2_11 : u2_11 = U2 d 11 := by
    show u2_10 * d10 + 2 * u1_10 = U2 d 10 * d 10 + 2 * U1 d 10
    rw [hd10, hu1_10, hu2_10]
    gll_close
  have hu2_12 : u2_12 = U2 d 12 := by
    show u2_11 * d11 + 2 * u1_11 = U2 d 11 * d 11 + 2 * U1 d 11
    rw [hd11, hu1_11, hu2_11]
    gll_close
  have hu2_13 : u2_13 = U2 d 13 := by
    show u2_12 * d12 + 2 * u1_12 = U2 d 12 * d 12 + 2 * U1 d 12
    rw [hd12, hu1_12, hu2_12]
    gll_close
  have hu2_14 : u2_14 = U2 d 14 := by
    show u2_13 * d13 + 2 * u1_13 = U2 d 13 * d 13 + 2 * U1 d 13
    rw [hd13, hu1_13, hu2_13]
    gll_close
  have hv2_11 : v2_11 = U2 (rev 15 d) 3 := by
    show d12 * 2 + 2 * v1_12 = U2 (rev 15 d) 2 * d 12 + 2 * U1 (rev 15 d) 2
    rw [hd12, hv1_12]
    gll_close
  have hv2_10 : v2_10 = U2 (rev 15 d) 4 := by
    show d11 * v2_11 + 2 * v1_11 = U2 (rev 15 d) 3 * d 11 + 2 * U1 (rev 15 d) 3
    rw [hd11, hv1_11, hv2_11]
    gll_close
  have hv2_09 : v2_09 = U2 (rev 15 d) 5 := by
    show d10 * v2_10 + 2 * v1_10 = U2 (rev 15 d) 4 * d 10 + 2 * U1 (rev 15 d) 4
    rw [hd10, hv1_10, hv2_10]
    gll_close
  have hv2_08 : v2_08 = U2 (rev 15 d) 6 := by
    show d09 * v2_09 + 2 * v1_09 = U2 (rev 15 d) 5 * d 9 + 2 * U1 (rev 15 d) 5
    rw [hd09, hv1_09, hv2_09]
    gll_close
  have hv2_07 : v2_07 = U2 (rev 15 d) 7 := by
    show d08 * v2_08 + 2 * v1_08 = U2 (rev 15 d) 6 * d 8 + 2 * U1 (rev 15 d) 6
    rw [hd08, hv1_08, hv2_08]
    gll_close
  have hv2_06 : v2_06 = U2 (rev 15 d) 8 := by
    show d07 * v2_07 + 2 * v1_07 = U2 (rev 15 d) 7 * d 7 + 2 * U1 (rev 15 d) 7
    rw [hd07, hv1_07, hv2_07]
    gll_close
  have hv2_05 : v2_05 = U2 (rev 15 d) 9 := by
    show d06 * v2_06 + 2 * v1_06 = U2 (rev 15 d) 8 * d 6 + 2 * U1 (rev 15 d) 8
    rw [hd06, hv1_06, hv2_06]
    gll_close
  have hv2_04 : v2_04 = U2 (rev 15 d) 10 := by
    show d05 * v2_05 + 2 * v1_05 = U2 (rev 15 d) 9 * d 5 + 2 * U1 (rev 15 d) 9
    rw [hd05, hv1_05, hv2_05]
    gll_close
  have hv2_03 : v2_03 = U2 (rev 15 d) 11 := by
    show d04 * v2_04 + 2 * v1_04 = U2 (rev 15 d) 10 * d 4 + 2 * U1 (rev 15 d) 10
    rw [hd04, hv1_04, hv2_04]
    gll_close
  have hv2_02 : v2_02 = U2 (rev 15 d) 12 := by
    show d03 * v2_03 + 2 * v1_03 = U2 (rev 15 d) 11 * d 3 + 2 * U1 (rev 15 d) 11
    rw [hd03, hv1_03, hv2_03]
    gll_close
  have hv2_01 : v2_01 = U2 (rev 15 d) 13 := by
    show d02 * v2_02 + 2 * v1_02 = U2 (rev 15 d) 12 * d 2 + 2 * U1 (rev 15 d) 12
    rw [hd02, hv1_02, hv2_02]
    gll_close
  have hv2_00 : v2_00 = U2 (rev 15 d) 14 := by
    show d01 * v2_01 + 2 * v1_01 = U2 (rev 15 d) 13 * d 1 + 2 * U1 (rev 15 d) 13
    rw [hd01, hv1_01, hv2_01]
    gll_close
  have r0_0 : w 0 * 1 * v0_00 = row0 15 w d 0 := by
    show w 0 * 1 * v0_00 = w 0 * U0 d 0 * U0 (rev 15 d) 14
    rw [hv0_00]
    gll_close
  have r0_1 : w 1 * u0_01 * v0_01 = row0 15 w d 1 := by
    show w 1 * u0_01 * v0_01 = w 1 * U0 d 1 * U0 (rev 15 d) 13
    rw [hu0_01, hv0_01]
    gll_close
  have r0_2 : w 2 * u0_02 * v0_02 = row0 15 w d 2 := by
    show w 2 * u0_02 * v0_02 = w 2 * U0 d 2 * U0 (rev 15 d) 12
    rw [hu0_02, hv0_02]
    gll_close
  have r0_3 : w 3 * u0_03 * v0_03 = row0 15 w d 3 := by
    show w 3 * u0_03 * v0_03 = w 3 * U0 d 3 * U0 (rev 15 d) 11
    rw [hu0_03, hv0_03]
    gll_close
  have r0_4 : w 4 * u0_04 * v0_04 = row0 15 w d 4 := by
    show w 4 * u0_04 * v0_04 = w 4 * U0 d 4 * U0 (rev 15 d) 10
    rw [hu0_04, hv0_04]
    gll_close
  have r0_5 : w 5 * u0_05 * v0_05 = row0 15 w d 5 := by
    show w 5 * u0_05 * v0_05 = w 5 * U0 d 5 * U0 (rev 15 d) 9
    rw [hu0_05, hv0_05]
    gll_close
  have r0_6 : w 6 * u0_06 * v0_06 = row0 15 w d 6 := by
    show w 6 * u0_06 * v0_06 = w 6 * U0 d 6 * U0 (rev 15 d) 8
    rw [hu0_06, hv0_06]
    gll_close
  have r0_7 : w 7 * u0_07 * v0_07 = row0 15 w d 7 := by
    show w 7 * u0_07 * v0_07 = w 7 * U0 d 7 * U0 (rev 15 d) 7
    rw [hu0_07, hv0_07]
    gll_close
  have r0_8 : w 8 * u0_08 * v0_08 = row0 15 w d 8 := by
    show w 8 * u0_08 * v0_08 = w 8 * U0 d 8 * U0 (rev 15 d) 6
    rw [hu0_08, hv0_08]
    gll_close
  have r0_9 : w 9 * u0_09 * v0_09 = row0 15 w d 9 := by
    show w 9 * u0_09 * v0_09 = w 9 * U0 d 9 * U0 (rev 15 d) 5
    rw [hu0_09, hv0_09]
    gll_close
  have r0_10 : w 10 * u0_10 * v0_10 = row0 15 w d 10 := by
    show w 10 * u0_10 * v0_10 = w 10 * U0 d 10 * U0 (rev 15 d) 4
    rw [hu0_10, hv0_10]
    gll_close
  have r0_11 : w 11 * u0_11 * v0_11 = row0 15 w d 11 := by
    show w 11 * u0_11 * v0_11 = w 11 * U0 d 11 * U0 (rev 15 d) 3
    rw [hu0_11, hv0_11]
    gll_close
  have r0_12 : w 12 * u0_12 * v0_12 = row0 15 w d 12 := by
    show w 12 * u0_12 * v0_12 = w 12 * U0 d 12 * U0 (rev 15 d) 2
    rw [hu0_12, hv0_12]
    gll_close
  have r0_13 : w 13 * u0_13 * v0_13 = row0 15 w d 13 := by
    show w 13 * u0_13 * v0_13 = w 13 * U0 d 13 * U0 (rev 15 d) 1
    rw [hu0_13, hv0_13]
    gll_close
  have r0_14 : w 14 * u0_14 * 1 = row0 15 w d 14 := by
    show w 14 * u0_14 * 1 = w 14 * U0 d 14 * U0 (rev 15 d) 0
    rw [hu0_14]
    gll_close
  have r1_0 : 2 * w 0 * (v1_00) = row1 15 w d 0 := by
    show 2 * w 0 * (v1_00) = 2 * w 0 * (U1 d 0 * U0 (rev 15 d) 14 + U0 d 0 * U1 (rev 15 d) 14)
    rw [hv1_00]
    gll_close
  have r1_1 : 2 * w 1 * (1 * v0_01 + u0_01 * v1_01) = row1 15 w d 1 := by
    show 2 * w 1 * (1 * v0_01 + u0_01 * v1_01) = 2 * w 1 * (U1 d 1 * U0 (rev 15 d) 13 + U0 d 1 * U1 (rev 15 d) 13)
    rw [hu0_01, hv0_01, hv1_01]
    gll_close
  have r1_2 : 2 * w 2 * (u1_02 * v0_02 + u0_02 * v1_02) = row1 15 w d 2 := by
    show 2 * w 2 * (u1_02 * v0_02 + u0_02 * v1_02) = 2 * w 2 * (U1 d 2 * U0 (rev 15 d) 12 + U0 d 2 * U1 (rev 15 d) 12)
    rw [hu0_02, hu1_02, hv0_02, hv1_02]
    gll_close
  have r1_3 : 2 * w 3 * (u1_03 * v0_03 + u0_03 * v1_03) = row1 15 w d 3 := by
    show 2 * w 3 * (u1_03 * v0_03 + u0_03 * v1_03) = 2 * w 3 * (U1 d 3 * U0 (rev 15 d) 11 + U0 d 3 * U1 (rev 15 d) 11)
    rw [hu0_03, hu1_03, hv0_03, hv1_03]
    gll_close
  have r1_4 : 2 * w 4 * (u1_04 * v0_04 + u0_04 * v1_04) = row1 15 w d 4 := by
    show 2 * w 4 * (u1_04 * v0_04 + u0_04 * v1_04) = 2 * w 4 * (U1 d 4 * U0 (rev 15 d) 10 + U0 d 4 * U1 (rev 15 d) 10)
    rw [hu0_04, hu1_04, hv0_04, hv1_04]
    gll_close
  have r1_5 : 2 * w 5 * (u1_05 * v0_05 + u0_05 * v1_05) = row1 15 w d 5 := by
    show 2 * w 5 * (u1_05 * v0_05 + u0_05 * v1_05) = 2 * w 5 * (U1 d 5 * U0 (rev 15 d) 9 + U0 d 5 * U1 (rev 15 d) 9)
    rw [hu0_05, hu1_05, hv0_05, hv1_05]
    gll_close
  have r1_6 : 2 * w 6 * (u1_06 * v0_06 + u0_06 * v1_06) = row1 15 w d 6 := by
    show 2 * w 6 * (u1_06 * v0_06 + u0_06 * v1_06) = 2 * w 6 * (U1 d 6 * U0 (rev 15 d) 8 + U0 d 6 * U1 (rev 15 d) 8)
    rw [hu0_06, hu1_06, hv0_06, hv1_06]
    gll_close
  have r1_7 : 2 * w 7 * (u1_07 * v0_07 + u0_07 * v1_07) = row1 15 w d 7 := by
    show 2 * w 7 * (u1_07 * v0_07 + u0_07 * v1_07) = 2 * w 7 * (U1 d 7 * U0 (rev 15 d) 7 + U0 d 7 * U1 (rev 15 d) 7)
    rw [hu0_07, hu1_07, hv0_07, hv1_07]
    gll_close
  have r1_8 : 2 * w 8 * (u1_08 * v0_08 + u0_08 * v1_08) = row1 15 w d 8 := by
    show 2 * w 8 * (u1_08 * v0_08 + u0_08 * v1_08) = 2 * w 8 * (U1 d 8 * U0 (rev 15 d) 6 + U0 d 8 * U1 (rev 15 d) 6)
    rw [hu0_08, hu1_08, hv0_08, hv1_08]
    gll_close
  have r1_9 : 2 * w 9 * (u1_09 * v0_09 + u0_09 * v1_09) = row1 15 w d 9 := by
    show 2 * w 9 * (u1_09 * v0_09 + u0_09 * v1_09) = 2 * w 9 * (U1 d 9 * U0 (rev 15 d) 5 + U0 d 9 * U1 (rev 15 d) 5)
    rw [hu0_09, hu1_09, hv0_09, hv1_09]
    gll_close
  have r1_10 : 2 * w 10 * (u1_10 * v0_10 + u0_10 * v1_10) = row1 15 w d 10 := by
    show 2 * w 10 * (u1_10 * v0_10 + u0_10 * v1_10) = 2 * w 10 * (U1 d 10 * U0 (rev 15 d) 4 + U0 d 10 * U1 (rev 15 d) 4)
    rw [hu0_10, hu1_10, hv0_10, hv1_10]
    gll_close
  have r1_11 : 2 * w 11 * (u1_11 * v0_11 + u0_11 * v1_11) = row1 15 w d 11 := by
    show 2 * w 11 * (u1_11 * v0_11 + u0_11 * v1_11) = 2 * w 11 * (U1 d 11 * U0 (rev 15 d) 3 + U0 d 11 * U1 (rev 15 d) 3)
    rw [hu0_11, hu1_11, hv0_11, hv1_11]
    gll_close
  have r1_12 : 2 * w 12 * (u1_12 * v0_12 + u0_12 * v1_12) = row1 15 w d 12 := by
    show 2 * w 12 * (u1_12 * v0_12 + u0_12 * v1_12) = 2 * w 12 * (U1 d 12 * U0 (rev 15 d) 2 + U0 d 12 * U1 (rev 15 d) 2)
    rw [hu0_12, hu1_12, hv0_12, hv1_12]
    gll_close
  have r1_13 : 2 * w 13 * (u1_13 * v0_13 + u0_13 * 1) = row1 15 w d 13 := by
    show 2 * w 13 * (u1_13 * v0_13 + u0_13 * 1) = 2 * w 13 * (U1 d 13 * U0 (rev 15 d) 1 + U0 d 13 * U1 (rev 15 d) 1)
    rw [hu0_13, hu1_13, hv0_13]
    gll_close
  have r1_14 : 2 * w 14 * (u1_14) = row1 15 w d 14 := by
    show 2 * w 14 * (u1_14) = 2 * w 14 * (U1 d 14 * U0 (rev 15 d) 0 + U0 d 14 * U1 (rev 15 d) 0)
    rw [hu1_14]
    gll_close
  have r2_0 : 4 * w 0 * (1 * v2_00) = row2 15 w d 0 := by
    show 4 * w 0 * (1 * v2_00) = 4 * w 0 * (U2 d 0 * U0 (rev 15 d) 14 + 2 * U1 d 0 * U1 (rev 15 d) 14 + U0 d 0 * U2 (rev 15 d) 14)
    rw [hv2_00]
    gll_close
  have r2_1 : 4 * w 1 * (2 * 1 * v1_01 + u0_01 * v2_01) = row2 15 w d 1 := by
    show 4 * w 1 * (2 * 1 * v1_01 + u0_01 * v2_01) = 4 * w 1 * (U2 d 1 * U0 (rev 15 d) 13 + 2 * U1 d 1 * U1 (rev 15 d) 13 + U0 d 1 * U2 (rev 15 d) 13)
    rw [hu0_01, hv1_01, hv2_01]
    gll_close
  have r2_2 : 4 * w 2 * (2 * v0_02 + 2 * u1_02 * v1_02 + u0_02 * v2_02) = row2 15 w d 2 := by
    show 4 * w 2 * (2 * v0_02 + 2 * u1_02 * v1_02 + u0_02 * v2_02) = 4 * w 2 * (U2 d 2 * U0 (rev 15 d) 12 + 2 * U1 d 2 * U1 (rev 15 d) 12 + U0 d 2 * U2 (rev 15 d) 12)
    rw [hu0_02, hu1_02, hv0_02, hv1_02, hv2_02]
    gll_close
  have r2_3 : 4 * w 3 * (u2_03 * v0_03 + 2 * u1_03 * v1_03 + u0_03 * v2_03) = row2 15 w d 3 := by
    show 4 * w 3 * (u2_03 * v0_03 + 2 * u1_03 * v1_03 + u0_03 * v2_03) = 4 * w 3 * (U2 d 3 * U0 (rev 15 d) 11 + 2 * U1 d 3 * U1 (rev 15 d) 11 + U0 d 3 * U2 (rev 15 d) 11)
    rw [hu0_03, hu1_03, hu2_03, hv0_03, hv1_03, hv2_03]
    gll_close
  have r2_4 : 4 * w 4 * (u2_04 * v0_04 + 2 * u1_04 * v1_04 + u0_04 * v2_04) = row2 15 w d 4 := by
    show 4 * w 4 * (u2_04 * v0_04 + 2 * u1_04 * v1_04 + u0_04 * v2_04) = 4 * w 4 * (U2 d 4 * U0 (rev 15 d) 10 + 2 * U1 d 4 * U1 (rev 15 d) 10 + U0 d 4 * U2 (rev 15 d) 10)
    rw [hu0_04, hu1_04, hu2_04, hv0_04, hv1_04, hv2_04]
    gll_close
  have r2_5 : 4 * w 5 * (u2_05 * v0_05 + 2 * u1_05 * v1_05 + u0_05 * v2_05) = row2 15 w d 5 := by
    show 4 * w 5 * (u2_05 * v0_05 + 2 * u1_05 * v1_05 + u0_05 * v2_05) = 4 * w 5 * (U2 d 5 * U0 (rev 15 d) 9 + 2 * U1 d 5 * U1 (rev 15 d) 9 + U0 d 5 * U2 (rev 15 d) 9)
    rw [hu0_05, hu1_05, hu2_05, hv0_05, hv1_05, hv2_05]
    gll_close
  have r2_6 : 4 * w 6 * (u2_06 * v0_06 + 2 * u1_06 * v1_06 + u0_06 * v2_06) = row2 15 w d 6 := by
    show 4 * w 6 * (u2_06 * v0_06 + 2 * u1_06 * v1_06 + u0_06 * v2_06) = 4 * w 6 * (U2 d 6 * U0 (rev 15 d) 8 + 2 * U1 d 6 * U1 (rev 15 d) 8 + U0 d 6 * U2 (rev 15 d) 8)
    rw [hu0_06, hu1_06, hu2_06, hv0_06, hv1_06, hv2_06]
    gll_close
  have r2_7 : 4 * w 7 * (u2_07 * v0_07 + 2 * u1_07 * v1_07 + u0_07 * v2_07) = row2 15 w d 7 := by
    show 4 * w 7 * (u2_07 * v0_07 + 2 * u1_07 * v1_07 + u0_07 * v2_07) = 4 * w 7 * (U2 d 7 * U0 (rev 15 d) 7 + 2 * U1 d 7 * U1 (rev 15 d) 7 + U0 d 7 * U2 (rev 15 d) 7)
    rw [hu0_07, hu1_07, hu2_07, hv0_07, hv1_07, hv2_07]
    gll_close
  have r2_8 : 4 * w 8 * (u2_08 * v0_08 + 2 * u1_08 * v1_08 + u0_08 * v2_08) = row2 15 w d 8 := by
    show 4 * w 8 * (u2_08 * v0_08 + 2 * u1_08 * v1_08 + u0_08 * v2_08) = 4 * w 8 * (U2 d 8 * U0 (rev 15 d) 6 + 2 * U1 d 8 * U1 (rev 15 d) 6 + U0 d 8 * U2 (rev 15 d) 6)
    rw [hu0_08, hu1_08, hu2_08, hv0_08, hv1_08, hv2_08]
    gll_close
  have r2_9 : 4 * w 9 * (u2_09 * v0_09 + 2 * u1_09 * v1_09 + u0_09 * v2_09) = row2 15 w d 9 := by
    show 4 * w 9 * (u2_09 * v0_09 + 2 * u1_09 * v1_09 + u0_09 * v2_09) = 4 * w 9 * (U2 d 9 * U0 (rev 15 d) 5 + 2 * U1 d 9 * U1 (rev 15 d) 5 + U0 d 9 * U2 (rev 15 d) 5)
    rw [hu0_09, hu1_09, hu2_09, hv0_09, hv1_09, hv2_09]
    gll_close
  have r2_10 : 4 * w 10 * (u2_10 * v0_10 + 2 * u1_10 * v1_10 + u0_10 * v2_10) = row2 15 w d 10 := by
    show 4 * w 10 * (u2_10 * v0_10 + 2 * u1_10 * v1_10 + u0_10 * v2_10) = 4 * w 10 * (U2 d 10 * U0 (rev 15 d) 4 + 2 * U1 d 10 * U1 (rev 15 d) 4 + U0 d 10 * U2 (rev 15 d) 4)
    rw [hu0_10, hu1_10, hu2_10, hv0_10, hv1_10, hv2_10]
    gll_close
  have r2_11 : 4 * w 11 * (u2_11 * v0_11 + 2 * u1_11 * v1_11 + u0_11 * v2_11) = row2 15 w d 11 := by
    show 4 * w 11 * (u2_11 * v0_11 + 2 * u1_11 * v1_11 + u0_11 * v2_11) = 4 * w 11 * (U2 d 11 * U0 (rev 15 d) 3 + 2 * U1 d 11 * U1 (rev 15 d) 3 + U0 d 11 * U2 (rev 15 d) 3)
    rw [hu0_11, hu1_11, hu2_11, hv0_11, hv1_11, hv2_11]
    gll_close
  have r2_12 : 4 * w 12 * (u2_12 * v0_12 + 2 * u1_12 * v1_12 + u0_12 * 2) = row2 15 w d 12 := by
    show 4 * w 12 * (u2_12 * v0_12 + 2 * u1_12 * v1_12 + u0_12 * 2) = 4 * w 12 * (U2 d 12 * U0 (rev 15 d) 2 + 2 * U1 d 12 * U1 (rev 15 d) 2 + U0 d 12 * U2 (rev 15 d) 2)
    rw [hu0_12, hu1_12, hu2_12, hv0_12, hv1_12]
    gll_close
  have r2_13 : 4 * w 13 * (u2_13 * v0_13 + 2 * u1_13 * 1) = row2 15 w d 13 := by
    show 4 * w 13 * (u2_13 * v0_13 + 2 * u1_13 * 1) = 4 * w 13 * (U2 d 13 * U0 (rev 15 d) 1 + 2 * U1 d 13 * U1 (rev 15 d) 1 + U0 d 13 * U2 (rev 15 d) 1)
    rw [hu1_13, hu2_13, hv0_13]
    gll_close
  have r2_14 : 4 * w 14 * (u2_14 * 1) = row2 15 w d 14 := by
    show 4 * w 14 * (u2_14 * 1) = 4 * w 14 * (U2 d 14 * U0 (rev 15 d) 0 + 2 * U1 d 14 * U1 (rev 15 d) 0 + U0 d 14 * U2 (rev 15 d) 0)
    rw [hu2_14]
    gll_close
  have L0 : [w 0 * 1 * v0_00, w 1 * u0_01 * v0_01, w 2 * u0_02 * v0_02, w 3 * u0_03 * v0_03, w 4 * u0_04 * v0_04, w 5 * u0_05 * v0_05, w 6 * u0_06 * v0_06, w 7 * u0_07 * v0_07, w 8 * u0_08 * v0_08, w 9 * u0_09 * v0_09, w 10 * u0_10 * v0_10, w 11 * u0_11 * v0_11, w 12 * u0_12 * v0_12, w 13 * u0_13 * v0_13, w 14 * u0_14 * 1] = (List.range 15).map (row0 15 w d) :=
    (congrArg₂ List.cons r0_0 (congrArg₂ List.cons r0_1 (congrArg₂ List.cons r0_2 (congrArg₂ List.cons r0_3 (congrArg₂ List.cons r0_4 (congrArg₂ List.cons r0_5 (congrArg₂ List.cons r0_6 (congrArg₂ List.cons r0_7 (congrArg₂ List.cons r0_8 (congrArg₂ List.cons r0_9 (congrArg₂ List.cons r0_10 (congrArg₂ List.cons r0_11 (congrArg₂ List.cons r0_12 (congrArg₂ List.cons r0_13 (congrArg₂ List.cons r0_14 rfl)))))))))))))))
  have L1 : [2 * w 0 * (v1_00), 2 * w 1 * (1 * v0_01 + u0_01 * v1_01), 2 * w 2 * (u1_02 * v0_02 + u0_02 * v1_02), 2 * w 3 * (u1_03 * v0_03 + u0_03 * v1_03), 2 * w 4 * (u1_04 * v0_04 + u0_04 * v1_04), 2 * w 5 * (u1_05 * v0_05 + u0_05 * v1_05), 2 * w 6 * (u1_06 * v0_06 + u0_06 * v1_06), 2 * w 7 * (u1_07 * v0_07 + u0_07 * v1_07), 2 * w 8 * (u1_08 * v0_08 + u0_08 * v1_08), 2 * w 9 * (u1_09 * v0_09 + u0_09 * v1_09), 2 * w 10 * (u1_10 * v0_10 + u0_10 * v1_10), 2 * w 11 * (u1_11 * v0_11 + u0_11 * v1_11), 2 * w 12 * (u1_12 * v0_12 + u0_12 * v1_12), 2 * w 13 * (u1_13 * v0_13 + u0_13 * 1), 2 * w 14 * (u1_14)] = (List.range 15).map (row1 15 w d) :=
    (congrArg₂ List.cons r1_0 (congrArg₂ List.cons r1_1 (congrArg₂ List.cons r1_2 (congrArg₂ List.cons r1_3 (congrArg₂ List.cons r1_4 (congrArg₂ List.cons r1_5 (congrArg₂ List.cons r1_6 (congrArg₂ List.cons r1_7 (congrArg₂ List.cons r1_8 (congrArg₂ List.cons r1_9 (congrArg₂ List.cons r1_10 (congrArg₂ List.cons r1_11 (congrArg₂ List.cons r1_12 (congrArg₂ List.cons r1_13 (congrArg₂ List.cons r1_14 rfl)))))))))))))))
  have L2 : [4 * w 0 * (1 * v2_00), 4 * w 1 * (2 * 1 * v1_01 + u0_01 * v2_01), 4 * w 2 * (2 * v0_02 + 2 * u1_02 * v1_02 + u0_02 * v2_02), 4 * w 3 * (u2_03 * v0_03 + 2 * u1_03 * v1_03 + u0_03 * v2_03), 4 * w 4 * (u2_04 * v0_04 + 2 * u1_04 * v1_04 + u0_04 * v2_04), 4 * w 5 * (u2_05 * v0_05 + 2 * u1_05 * v1_05 + u0_05 * v2_05), 4 * w 6 * (u2_06 * v0_06 + 2 * u1_06 * v1_06 + u0_06 * v2_06), 4 * w 7 * (u2_07 * v0_07 + 2 * u1_07 * v1_07 + u0_07 * v2_07), 4 * w 8 * (u2_08 * v0_08 + 2 * u1_08 * v1_08 + u0_08 * v2_08), 4 * w 9 * (u2_09 * v0_09 + 2 * u1_09 * v1_09 + u0_09 * v2_09), 4 * w 10 * (u2_10 * v0_10 + 2 * u1_10 * v1_10 + u0_10 * v2_10), 4 * w 11 * (u2_11 * v0_11 + 2 * u1_11 * v1_11 + u0_11 * v2_11), 4 * w 12 * (u2_12 * v0_12 + 2 * u1_12 * v1_12 + u0_12 * 2), 4 * w 13 * (u2_13 * v0_13 + 2 * u1_13 * 1), 4 * w 14 * (u2_14 * 1)] = (List.range 15).map (row2 15 w d) :=
    (congrArg₂ List.cons r2_0 (congrArg₂ List.cons r2_1 (congrArg₂ List.cons r2_2 (congrArg₂ List.cons r2_3 (congrArg₂ List.cons r2_4 (congrArg₂ List.cons r2_5 (congrArg₂ List.cons r2_6 (congrArg₂ List.cons r2_7 (congrArg₂ List.cons r2_8 (congrArg₂ List.cons r2_9 (congrArg₂ List.cons r2_10 (congrArg₂ List.cons r2_11 (congrArg₂ List.cons r2_12 (congrArg₂ List.cons r2_13 (congrArg₂ List.cons r2_14 rfl)))))))))))))))
  exact congrArg₂ Prod.mk L0 (congrArg₂ Prod.mk L1 L2)

theorem gllLag16_eq (g w : Nat → K) (xh : K) : gllLag16 g w xh = rowLists 16 w (dx (gnode 16 g) xh) := by
  unfold gllLag16
  extract_lets x d00 d01 d02 d03 d04 d05 d06 d07 d08 d09 d10 d11 d12 d13 d14 d15 u0_01 u0_02 u0_03 u0_04 u0_05 u0_06 u0_07 u0_08 u0_09 u0_10 u0_11 u0_12 u0_13 u0_14 u0_15 v0_14 v0_13 v0_12 v0_11 v0_10 v0_09 v0_08 v0_07 v0_06 v0_05 v0_04 v0_03 v0_02 v0_01 v0_00 u1_02 u1_03 u1_04 u1_05 u1_06 u1_07 u1_08 u1_09 u1_10 u1_11 u1_12 u1_13 u1_14 u1_15 v1_13 v1_12 v1_11 v1_10 v1_09 v1_08 v1_07 v1_06 v1_05 v1_04 v1_03 v1_02 v1_01 v1_00 u2_03 u2_04 u2_05 u2_06 u2_07 u2_08 u2_09 u2_10 u2_11 u2_12 u2_13 u2_14 u2_15 v2_12 v2_11 v2_10 v2_09 v2_08 v2_07 v2_06 v2_05 v2_04 v2_03 v2_02 v2_01 v2_00
  generalize hd : dx (gnode 16 g) xh = d
  have hd00 : d00 = d 0 := by
    rw [← hd]; show xh * 2 + 2 = 2 * (xh - (-1)); ring
  have hd01 : d01 = d 1 := by
    rw [← hd]; show xh * 2 + 2 * g 0 = 2 * (xh - (-g 0)); ring
  have hd02 : d02 = d 2 := by
    rw [← hd]; show xh * 2 + 2 * g 1 = 2 * (xh - (-g 1)); ring
  have hd03 : d03 = d 3 := by
    rw [← hd]; show xh * 2 + 2 * g 2 = 2 * (xh - (-g 2)); ring
  have hd04 : d04 = d 4 := by
    rw [← hd]; show xh * 2 + 2 * g 3 = 2 * (xh - (-g 3)); ring
  have hd05 : d05 = d 5 := by
    rw [← hd]; show xh * 2 + 2 * g 4 = 2 * (xh - (-g 4)); ring
  have hd06 : d06 = d 6 := by
    rw [← hd]; show xh * 2 + 2 * g 5 = 2 * (xh - (-g 5)); ring
  have hd07 : d07 = d 7 := by
    rw [← hd]; show xh * 2 + 2 * g 6 = 2 * (xh - (-g 6)); ring
  have hd08 : d08 = d 8 := by
    rw [← hd]; show xh * 2 - 2 * g 6 = 2 * (xh - (g 6)); ring
  have hd09 : d09 = d 9 := by
    rw [← hd]; show xh * 2 - 2 * g 5 = 2 * (xh - (g 5)); ring
  have hd10 : d10 = d 10 := by
    rw [← hd]; show xh * 2 - 2 * g 4 = 2 * (xh - (g 4)); ring
  have hd11 : d11 = d 11 := by
    rw [← hd]; show xh * 2 - 2 * g 3 = 2 * (xh - (g 3)); ring
  have hd12 : d12 = d 12 := by
    rw [← hd]; show xh * 2 - 2 * g 2 = 2 * (xh - (g 2)); ring
  have hd13 : d13 = d 13 := by
    rw [← hd]; show xh * 2 - 2 * g 1 = 2 * (xh - (g 1)); ring
  have hd14 : d14 = d 14 := by
    rw [← hd]; show xh * 2 - 2 * g 0 = 2 * (xh - (g 0)); ring
  have hd15 : d15 = d 15 := by
    rw [← hd]; show xh * 2 - 2 = 2 * (xh - (1)); ring
  have hu0_01 : u0_01 = U0 d 1 := by
    show 1 * d00 = U0 d 0 * d 0
    rw [hd00]
    gll_close
  have hu0_02 : u0_02 = U0 d 2 := by
    show u0_01 * d01 = U0 d 1 * d 1
    rw [hd01, hu0_01]
    gll_close
  have hu0_03 : u0_03 = U0 d 3 := by
    show u0_02 * d02 = U0 d 2 * d 2
    rw [hd02, hu0_02]
    gll_close
  have hu0_04 : u0_04 = U0 d 4 := by
    show u0_03 * d03 = U0 d 3 * d 3
    rw [hd03, hu0_03]
    gll_close
  have hu0_05 : u0_05 = U0 d 5 := by
    show u0_04 * d04 = U0 d 4 * d 4
    rw [hd04, hu0_04]
    gll_close
  have hu0_06 : u0_06 = U0 d 6 := by
    show u0_05 * d05 = U0 d 5 * d 5
    rw [hd05, hu0_05]
    gll_close
  have hu0_07 : u0_07 = U0 d 7 := by
    show u0_06 * d06 = U0 d 6 * d 6
    rw [hd06, hu0_06]
    gll_close
  have hu0_08 : u0_08 = U0 d 8 := by
    show u0_07 * d07 = U0 d 7 * d 7
    rw [hd07, hu0_07]
    gll_close
  have hu0_09 : u0_09 = U0 d 9 := by
    show u0_08 * d08 = U0 d 8 * d 8
    rw [hd08, hu0_08]
    gll_close
  have hu0_10 : u0_10 = U0 d 10 := by
    show u0_09 * d09 = U0 d 9 * d 9
    rw [hd09, hu0_09]
    gll_close
  have hu0_11 : u0_11 = U0 d 11 := by
    show u0_10 * d10 = U0 d 10 * d 10
    rw [hd10, hu0_10]
    gll_close
  have hu0_12 : u0_12 = U0 d 12 := by
    show u0_11 * d11 = U0 d 11 * d 11
    rw [hd11, hu0_11]
    gll_close
  have hu0_13 : u0_13 = U0 d 13 := by
    show u0_12 * d12 = U0 d 12 * d 12
    rw [hd12, hu0_12]
    gll_close
  have hu0_14 : u0_14 = U0 d 14 := by
    show u0_13 * d13 = U0 d 13 * d 13
    rw [hd13, hu0_13]
    gll_close
  have hu0_15 : u0_15 = U0 d 15 := by
    show u0_14 * d14 = U0 d 14 * d 14
    rw [hd14, hu0_14]
    gll_close
  have hv0_14 : v0_14 = U0 (rev 16 d) 1 := by
    show d15 * 1 = U0 (rev 16 d) 0 * d 15
    rw [hd15]
    gll_close
  have hv0_13 : v0_13 = U0 (rev 16 d) 2 := by
    show d14 * v0_14 = U0 (rev 16 d) 1 * d 14
    rw [hd14, hv0_14]
    gll_close
  have hv0_12 : v0_12 = U0 (rev 16 d) 3 := by
    show d13 * v0_13 = U0 (rev 16 d) 2 * d 13
    rw [hd13, hv0_13]
    gll_close
  have hv0_11 : v0_11 = U0 (rev 16 d) 4 := by
    show d12 * v0_12 = U0 (rev 16 d) 3 * d 12
    rw [hd12, hv0_12]
    gll_close
  have hv0_10 : v0_10 = U0 (rev 16 d) 5 := by
    show d11 * v0_11 = U0 (rev 16 d) 4 * d 11
    rw [hd11, hv0_11]
    gll_close
  have hv0_09 : v0_09 = U0 (rev 16 d) 6 := by
    show d10 * v0_10 = U0 (rev 16 d) 5 * d 10
    rw [hd10, hv0_10]
    gll_close
  have hv0_08 : v0_08 = U0 (rev 16 d) 7 := by
    show d09 * v0_09 = U0 (rev 16 d) 6 * d 9
    rw [hd09, hv0_09]
    gll_close
  have hv0_07 : v0_07 = U0 (rev 16 d) 8 := by
    show d08 * v0_08 = U0 (rev 16 d) 7 * d 8
    rw [hd08, hv0_08]
    gll_close
  have hv0_06 : v0_06 = U0 (rev 16 d) 9 := by
    show d07 * v0_07 = U0 (rev 16 d) 8 * d 7
    rw [hd07, hv0_07]
    gll_close
  have hv0_05 : v0_05 = U0 (rev 16 d) 10 := by
    show d06 * v0_06 = U0 (rev 16 d) 9 * d 6
    rw [hd06, hv0_06]
    gll_close
  have hv0_04 : v0_04 = U0 (rev 16 d) 11 := by
    show d05 * v0_05 = U0 (rev 16 d) 10 * d 5
    rw [hd05, hv0_05]
    gll_close
  have hv0_03 : v0_03 = U0 (rev 16 d) 12 := by
    show d04 * v0_04 = U0 (rev 16 d) 11 * d 4
    rw [hd04, hv0_04]
    gll_close
  have hv0_02 : v0_02 = U0 (rev 16 d) 13 := by
    show d03 * v0_03 = U0 (rev 16 d) 12 * d 3
    rw [hd03, hv0_03]
    gll_close
  have hv0_01 : v0_01 = U0 (rev 16 d) 14 := by
    show d02 * v0_02 = U0 (rev 16 d) 13 * d 2
    rw [hd02, hv0_02]
    gll_close
  have hv0_00 : v0_00 = U0 (rev 16 d) 15 := by
    show d01 * v0_01 = U0 (rev 16 d) 14 * d 1
    rw [hd01, hv0_01]
    gll_close
  have hu1_02 : u1_02 = U1 d 2 := by
    show 1 * d01 + u0_01 = U1 d 1 * d 1 + U0 d 1
    rw [hd01, hu0_01]
    gll_close
  have hu1_03 : u1_03 = U1 d 3 := by
    show u1_02 * d02 + u0_02 = U1 d 2 * d 2 + U0 d 2
    rw [hd02, hu0_02, hu1_02]
    gll_close
  have hu1_04 : u1_04 = U1 d 4 := by
    show u1_03 * d03 + u0_03 = U1 d 3 * d 3 + U0 d 3
    rw [hd03, hu0_03, hu1_03]
    gll_close
  have hu1_05 : u1_05 = U1 d 5 := by
    show u1_04 * d04 + u0_04 = U1 d 4 * d 4 + U0 d 4
    rw [hd04, hu0_04, hu1_04]
    gll_close
  have hu1_06 : u1_06 = U1 d 6 := by
    show u1_05 * d05 + u0_05 = U1 d 5 * d 5 + U0 d 5
    rw [hd05, hu0_05, hu1_05]
    gll_close
  have hu1_07 : u1_07 = U1 d 7 := by
    show u1_06 * d06 + u0_06 = U1 d 6 * d 6 + U0 d 6
    rw [hd06, hu0_06, hu1_06]
    gll_close
  have hu1_08 : u1_08 = U1 d 8 := by
    show u1_07 * d07 + u0_07 = U1 d 7 * d 7 + U0 d 7
    rw [hd07, hu0_07, hu1_07]
    gll_close
  have hu1_09 : u1_09 = U1 d 9 := by
    show u1_08 * d08 + u0_08 = U1 d 8 * d 8 + U0 d 8
    rw [hd08, hu0_08, hu1_08]
    gll_close
  have hu1_10 : u1_10 = U1 d 10 := by
    show u1_09 * d09 + u0_09 = U1 d 9 * d 9 + U0 d 9
    rw [hd09, hu0_09, hu1_09]
    gll_close
  have hu1_11 : u1_11 = U1 d 11 := by
    show u1_10 * d10 + u0_10 = U1 d 10 * d 10 + U0 d 10
    rw [hd10, hu0_10, hu1_10]
    gll_close
  have hu1_12 : u1_12 = U1 d 12 := by
    show u1_11 * d11 + u0_11 = U1 d 11 * d 11 + U0 d 11
    rw [hd11, hu0_11, hu1_11]
    gll_close
  have hu1_13 : u1_13 = U1 d 13 := by
    show u1_12 * d12 + u0_12 = U1 d 12 * d 12 + U0 d 12
    rw [hd12, hu0_12, hu1_12]
    gll_close
  have hu1_14 : u1_14 = U1 d 14 := by
    show u1_13 * d13 + u0_13 = U1 d 13 * d 13 + U0 d 13
    rw [hd13, hu0_13, hu1_13]
    gll_close
  have hu1_15 : u1_15 = U1 d 15 := by
    show u1_14 * d14 + u0_14 = U1 d 14 * d 14 + U0 d 14
    rw [hd14, hu0_14, hu1_14]
    gll_close
  have hv1_13 : v1_13 = U1 (rev 16 d) 2 := by
    show d14 * 1 + v0_14 = U1 (rev 16 d) 1 * d 14 + U0 (rev 16 d) 1
    rw [hd14, hv0_14]
    gll_close
  have hv1_12 : v1_12 = U1 (rev 16 d) 3 := by
    show d13 * v1_13 + v0_13 = U1 (rev 16 d) 2 * d 13 + U0 (rev 16 d) 2
    rw [hd13, hv0_13, hv1_13]
    gll_close
  have hv1_11 : v1_11 = U1 (rev 16 d) 4 := by
    show d12 * v1_12 + v0_12 = U1 (rev 16 d) 3 * d 12 + U0 (rev 16 d) 3
    rw [hd12, hv0_12, hv1_12]
    gll_close
  have hv1_10 : v1_10 = U1 (rev 16 d) 5 := by
    show d11 * v1_11 + v0_11 = U1 (rev 16 d) 4 * d 11 + U0 (rev 16 d) 4
    rw [hd11, hv0_11, hv1_11]
    gll_close
  have hv1_09 : v1_09 = U1 (rev 16 d) 6 := by
    show d10 * v1_10 + v0_10 = U1 (rev 16 d) 5 * d 10 + U0 (rev 16 d) 5
    rw [hd10, hv0_10, hv1_10]
    gll_close
  have hv1_08 : v1_08 = U1 (rev 16 d) 7 := by
    show d09 * v1_09 + v0_09 = U1 (rev 16 d) 6 * d 9 + U0 (rev 16 d) 6
    rw [hd09, hv0_09, hv1_09]
    gll_close
  have hv1_07 : v1_07 = U1 (rev 16 d) 8 := by
    show d08 * v1_08 + v0_08 = U1 (rev 16 d) 7 * d 8 + U0 (rev 16 d) 7
    rw [hd08, hv0_08, hv1_08]
    gll_close
  have hv1_06 : v1_06 = U1 (rev 16 d) 9 := by
    show d07 * v1_07 + v0_07 = U1 (rev 16 d) 8 * d 7 + U0 (rev 16 d) 8
    rw [hd07, hv0_07, hv1_07]
    gll_close
  have hv1_05 : v1_05 = U1 (rev 16 d) 10 := by
    show d06 * v1_06 + v0_06 = U1 (rev 16 d) 9 * d 6 + U0 (rev 16 d) 9
    rw [hd06, hv0_06, hv1_06]
    gll_close
  have hv1_04 : v1_04 = U1 (rev 16 d) 11 := by
    show d05 * v1_05 + v0_05 = U1 (rev 16 d) 10 * d 5 + U0 (rev 16 d) 10
    rw [hd05, hv0_05, hv1_05]
    gll_close
  have hv1_03 : v1_03 = U1 (rev 16 d) 12 := by
    show d04 * v1_04 + v0_04 = U1 (rev 16 d) 11 * d 4 + U0 (rev 16 d) 11
    rw [hd04, hv0_04, hv1_04]
    gll_close
  have hv1_02 : v1_02 = U1 (rev 16 d) 13 := by
    show d03 * v1_03 + v0_03 = U1 (rev 16 d) 12 * d 3 + U0 (rev 16 d) 12
    rw [hd03, hv0_03, hv1_03]
    gll_close
  have hv1_01 : v1_01 = U1 (rev 16 d) 14 := by
    show d02 * v1_02 + v0_02 = U1 (rev 16 d) 13 * d 2 + U0 (rev 16 d) 13
    rw [hd02, hv0_02, hv1_02]
    gll_close
  have hv1_00 : v1_00 = U1 (rev 16 d) 15 := by
    show d01 * v1_01 + v0_01 = U1 (rev 16 d) 14 * d 1 + U0 (rev 16 d) 14
    rw [hd01, hv0_01, hv1_01]
    gll_close
  have hu2_03 : u2_03 = U2 d 3 := by
    show 2 * d02 + 2 * u1_02 = U2 d 2 * d 2 + 2 * U1 d 2
    rw [hd02, hu1_02]
    gll_close
  have hu2_04 : u2_04 = U2 d 4 := by
    show u2_03 * d03 + 2 * u1_03 = U2 d 3 * d 3 + 2 * U1 d 3
    rw [hd03, hu1_03, hu2_03]
    gll_close
  have hu2_05 : u2_05 = U2 d 5 := by
    show u2_04 * d04 + 2 * u1_04 = U2 d 4 * d 4 + 2 * U1 d 4
    rw [hd04, hu1_04, hu2_04]
    gll_close
  have hu2_06 : u2_06 = U2 d 6 := by
    show u2_05 * d05 + 2 * u1_05 = U2 d 5 * d 5 + 2 * U1 d 5
    rw [hd05, hu1_05, hu2_05]
    gll_close
  have hu2_07 : u2_07 = U2 d 7 := by
    show u2_06 * d06 + 2 * u1_06 = U2 d 6 * d 6 + 2 * U1 d 6
    rw [hd06, hu1_06, hu2_06]
    gll_close
  have hu2_08 : u2_08 = U2 d 8 := by
    show u2_07 * d07 + 2 * u1_07 = U2 d 7 * d 7 + 2 * U1 d 7
    rw [hd07, hu1_07, hu2_07]
    gll_close
  have hu2_09 : u2_09 = U2 d 9 := by
    show u2_08 * d08 + 2 * u1_08 = U2 d 8 * d 8 + 2 * U1 d 8
    rw [hd08, hu1_08, hu2_08]
    gll_close
  have hu2_10 : u2_10 = U2 d 10 := by
    show u2_09 * d09 + 2 * u1_09 = U2 d 9 * d 9 + 2 * U1 d 9
    rw [hd09, hu1_09, hu2_09]
    gll_close
  have hu2_11 : u2_11 = U2 d 11 := by
    show u2_10 * d10 + 2 * u1_10 = U2 d 10 * d 10 + 2 * U1 d 10
    rw [hd10, hu1_10, hu2_10]
    gll_close
  have hu2_12 : u2_12 = U2 d 12 := by
    show u2_11 * d11 + 2 * u1_11 = U2 d 11 * d 11 + 2 * U1 d 11
    rw [hd11, hu1_11, hu2_11]
    gll_close
  have hu2_13 : u2_13 = U2 d 13 := by
    show u2_12 * d12 + 2 * u1_12 = U2 d 12 * d 12 + 2 * U1 d 12
    rw [hd12, hu1_12, hu2_12]
    gll_close
  have hu2_14 : u2_14 = U2 d 14 := by
    show u2_13 * d13 + 2 * u1_13 = U2 d 13 * d 13 + 2 * U1 d 13
    rw [hd13, hu1_13, hu2_13]
    gll_close
  have hu2_15 : u2_15 = U2 d 15 := by
    show u2_14 * d14 + 2 * u1_14 = U2 d 14 * d 14 + 2 * U1 d 14
    rw [hd14, hu1_14, hu2_14]
    gll_close
  have hv2_12 : v2_12 = U2 (rev 16 d) 3 := by
    show d13 * 2 + 2 * v1_13 = U2 (rev 16 d) 2 * d 13 + 2 * U1 (rev 16 d) 2
    rw [hd13, hv1_13]
    gll_close
  have hv2_11 : v2_11 = U2 (rev 16 d) 4 := by
    show d12 * v2_12 + 2 * v1_12 = U2 (rev 16 d) 3 * d 12 + 2 * U1 (rev 16 d) 3
    rw [hd12, hv1_12, hv2_12]
    gll_close
  have hv2_10 : v2_10 = U2 (rev 16 d) 5 := by
    show d11 * v2_11 + 2 * v1_11 = U2 (rev 16 d) 4 * d 11 + 2 * U1 (rev 16 d) 4
    rw [hd11, hv1_11, hv2_11]
    gll_close
  have hv2_09 : v2_09 = U2 (rev 16 d) 6 := by
    show d10 * v2_10 + 2 * v1_10 = U2 (rev 16 d) 5 * d 10 + 2 * U1 (rev 16 d) 5
    rw [hd10, hv1_10, hv2_10]
    gll_close
  have hv2_08 : v2_08 = U2 (rev 16 d) 7 := by
    show d09 * v2_09 + 2 * v1_09 = U2 (rev 16 d) 6 * d 9 + 2 * U1 (rev 16 d) 6
    rw [hd09, hv1_09, hv2_09]
    gll_close
  have hv2_07 : v2_07 = U2 (rev 16 d) 8 := by
    show d08 * v2_08 + 2 * v1_08 = U2 (rev 16 d) 7 * d 8 + 2 * U1 (rev 16 d) 7
    rw [hd08, hv1_08, hv2_08]
    gll_close
  have hv2_06 : v2_06 = U2 (rev 16 d) 9 := by
    show d07 * v2_07 + 2 * v1_07 = U2 (rev 16 d) 8 * d 7 + 2 * U1 (rev 16 d) 8
    rw [hd07, hv1_07, hv2_07]
    gll_close
  have hv2_05 : v2_05 = U2 (rev 16 d) 10 := by
    show d06 * v2_06 + 2 * v1_06 = U2 (rev 16 d) 9 * d 6 + 2 * U1 (rev 16 d) 9
    rw [hd06, hv1_06, hv2_06]
    gll_close
  have hv2_04 : v2_04 = U2 (rev 16 d) 11 := by
    show d05 * v2_05 + 2 * v1_05 = U2 (rev 16 d) 10 * d 5 + 2 * U1 (rev 16 d) 10
    rw [hd05, hv1_05, hv2_05]
    gll_close
  have hv2_03 : v2_03 = U2 (rev 16 d) 12 := by
    show d04 * v2_04 + 2 * v1_04 = U2 (rev 16 d) 11 * d 4 + 2 * U1 (rev 16 d) 11
    rw [hd04, hv1_04, hv2_04]
    gll_close
  have hv2_02 : v2_02 = U2 (rev 16 d) 13 := by
    show d03 * v2_03 + 2 * v1_03 = U2 (rev 16 d) 12 * d 3 + 2 * U1 (rev 16 d) 12
    rw [hd03, hv1_03, hv2_03]
    gll_close
  have hv2_01 : v2_01 = U2 (rev 16 d) 14 := by
    show d02 * v2_02 + 2 * v1_02 = U2 (rev 16 d) 13 * d 2 + 2 * U1 (rev 16 d) 13
    rw [hd02, hv1_02, hv2_02]
    gll_close
  have hv2_00 : v2_00 = U2 (rev 16 d) 15 := by
    show d01 * v2_01 + 2 * v1_01 = U2 (rev 16 d) 14 * d 1 + 2 * U1 (rev 16 d) 14
    rw [hd01, hv1_01, hv2_01]
    gll_close
  have r0_0 : w 0 * 1 * v0_00 = row0 16 w d 0 := by
    show w 0 * 1 * v0_00 = w 0 * U0 d 0 * U0 (rev 16 d) 15
    rw [hv0_00]
    gll_close
  have r0_1 : w 1 * u0_01 * v0_01 = row0 16 w d 1 := by
    show w 1 * u0_01 * v0_01 = w 1 * U0 d 1 * U0 (rev 16 d) 14
    rw [hu0_01, hv0_01]
    gll_close
  have r0_2 : w 2 * u0_02 * v0_02 = row0 16 w d 2 := by
    show w 2 * u0_02 * v0_02 = w 2 * U0 d 2 * U0 (rev 16 d) 13
    rw [hu0_02, hv0_02]
    gll_close
  have r0_3 : w 3 * u0_03 * v0_03 = row0 16 w d 3 := by
    show w 3 * u0_03 * v0_03 = w 3 * U0 d 3 * U0 (rev 16 d) 12
    rw [hu0_03, hv0_03]
    gll_close
  have r0_4 : w 4 * u0_04 * v0_04 = row0 16 w d 4 := by
    show w 4 * u0_04 * v0_04 = w 4 * U0 d 4 * U0 (rev 16 d) 11
    rw [hu0_04, hv0_04]
    gll_close
  have r0_5 : w 5 * u0_05 * v0_05 = row0 16 w d 5 := by
    show w 5 * u0_05 * v0_05 = w 5 * U0 d 5 * U0 (rev 16 d) 10
    rw [hu0_05, hv0_05]
    gll_close
  have r0_6 : w 6 * u0_06 * v0_06 = row0 16 w d 6 := by
    show w 6 * u0_06 * v0_06 = w 6 * U0 d 6 * U0 (rev 16 d) 9
    rw [hu0_06, hv0_06]
    gll_close
  have r0_7 : w 7 * u0_07 * v0_07 = row0 16 w d 7 := by
    show w 7 * u0_07 * v0_07 = w 7 * U0 d 7 * U0 (rev 16 d) 8
    rw [hu0_07, hv0_07]
    gll_close
  have r0_8 : w 8 * u0_08 * v0_08 = row0 16 w d 8 := by
    show w 8 * u0_08 * v0_08 = w 8 * U0 d 8 * U0 (rev 16 d) 7
    rw [hu0_08, hv0_08]
    gll_close
  have r0_9 : w 9 * u0_09 * v0_09 = row0 16 w d 9 := by
    show w 9 * u0_09 * v0_09 = w 9 * U0 d 9 * U0 (rev 16 d) 6
    rw [hu0_09, hv0_09]
    gll_close
  have r0_10 : w 10 * u0_10 * v0_10 = row0 16 w d 10 := by
    show w 10 * u0_10 * v0_10 = w 10 * U0 d 10 * U0 (rev 16 d) 5
    rw [hu0_10, hv0_10]
    gll_close
  have r0_11 : w 11 * u0_11 * v0_11 = row0 16 w d 11 := by
    show w 11 * u0_11 * v0_11 = w 11 * U0 d 11 * U0 (rev 16 d) 4
    rw [hu0_11, hv0_11]
    gll_close
  have r0_12 : w 12 * u0_12 * v0_12 = row0 16 w d 12 := by
    show w 12 * u0_12 * v0_12 = w 12 * U0 d 12 * U0 (rev 16 d) 3
    rw [hu0_12, hv0_12]
    gll_close
  have r0_13 : w 13 * u0_13 * v0_13 = row0 16 w d 13 := by
    show w 13 * u0_13 * v0_13 = w 13 * U0 d 13 * U0 (rev 16 d) 2
    rw [hu0_13, hv0_13]
    gll_close
  have r0_14 : w 14 * u0_14 * v0_14 = row0 16 w d 14 := by
    show w 14 * u0_14 * v0_14 = w 14 * U0 d 14 * U0 (rev 16 d) 1
    rw [hu0_14, hv0_14]
    gll_close
  have r0_15 : w 15 * u0_15 * 1 = row0 16 w d 15 := by
    show w 15 * u0_15 * 1 = w 15 * U0 d 15 * U0 (rev 16 d) 0
    rw [hu0_15]
    gll_close
  have r1_0 : 2 * w 0 * (v1_00) = row1 16 w d 0 := by
    show 2 * w 0 * (v1_00) = 2 * w 0 * (U1 d 0 * U0 (rev 16 d) 15 + U0 d 0 * U1 (rev 16 d) 15)
    rw [hv1_00]
    gll_close
  have r1_1 : 2 * w 1 * (1 * v0_01 + u0_01 * v1_01) = row1 16 w d 1 := by
    show 2 * w 1 * (1 * v0_01 + u0_01 * v1_01) = 2 * w 1 * (U1 d 1 * U0 (rev 16 d) 14 + U0 d 1 * U1 (rev 16 d) 14)
    rw [hu0_01, hv0_01, hv1_01]
    gll_close
  have r1_2 : 2 * w 2 * (u1_02 * v0_02 + u0_02 * v1_02) = row1 16 w d 2 := by
    show 2 * w 2 * (u1_02 * v0_02 + u0_02 * v1_02) = 2 * w 2 * (U1 d 2 * U0 (rev 16 d) 13 + U0 d 2 * U1 (rev 16 d) 13)
    rw [hu0_02, hu1_02, hv0_02, hv1_02]
    gll_close
  have r1_3 : 2 * w 3 * (u1_03 * v0_03 + u0_03 * v1_03) = row1 16 w d 3 := by
    show 2 * w 3 * (u1_03 * v0_03 + u0_03 * v1_03) = 2 * w 3 * (U1 d 3 * U0 (rev 16 d) 12 + U0 d 3 * U1 (rev 16 d) 12)
    rw [hu0_03, hu1_03, hv0_03, hv1_03]
    gll_close
  have r1_4 : 2 * w 4 * (u1_04 * v0_04 + u0_04 * v1_04) = row1 16 w d 4 := by
    show 2 * w 4 * (u1_04 * v0_04 + u0_04 * v1_04) = 2 * w 4 * (U1 d 4 * U0 (rev 16 d) 11 + U0 d 4 * U1 (rev 16 d) 11)
    rw [hu0_04, hu1_04, hv0_04, hv1_04]
    gll_close
  have r1_5 : 2 * w 5 * (u1_05 * v0_05 + u0_05 * v1_05) = row1 16 w d 5 := by
    show 2 * w 5 * (u1_05 * v0_05 + u0_05 * v1_05) = 2 * w 5 * (U1 d 5 * U0 (rev 16 d) 10 + U0 d 5 * U1 (rev 16 d) 10)
    rw [hu0_05, hu1_05, hv0_05, hv1_05]
    gll_close
  have r1_6 : 2 * w 6 * (u1_06 * v0_06 + u0_06 * v1_06) = row1 16 w d 6 := by
    show 2 * w 6 * (u1_06 * v0_06 + u0_06 * v1_06) = 2 * w 6 * (U1 d 6 * U0 (rev 16 d) 9 + U0 d 6 * U1 (rev 16 d) 9)
    rw [hu0_06, hu1_06, hv0_06, hv1_06]
    gll_close
  have r1_7 : 2 * w 7 * (u1_07 * v0_07 + u0_07 * v1_07) = row1 16 w d 7 := by
    show 2 * w 7 * (u1_07 * v0_07 + u0_07 * v1_07) = 2 * w 7 * (U1 d 7 * U0 (rev 16 d) 8 + U0 d 7 * U1 (rev 16 d) 8)
    rw [hu0_07, hu1_07, hv0_07, hv1_07]
    gll_close
  have r1_8 : 2 * w 8 * (u1_08 * v0_08 + u0_08 * v1_08) = row1 16 w d 8 := by
    show 2 * w 8 * (u1_08 * v0_08 + u0_08 * v1_08) = 2 * w 8 * (U1 d 8 * U0 (rev 16 d) 7 + U0 d 8 * U1 (rev 16 d) 7)
    rw [hu0_08, hu1_08, hv0_08, hv1_08]
    gll_close
  have r1_9 : 2 * w 9 * (u1_09 * v0_09 + u0_09 * v1_09) = row1 16 w d 9 := by
    show 2 * w 9 * (u1_09 * v0_09 + u0_09 * v1_09) = 2 * w 9 * (U1 d 9 * U0 (rev 16 d) 6 + U0 d 9 * U1 (rev 16 d) 6)
    rw [hu0_09, hu1_09, hv0_09, hv1_09]
    gll_close
  have r1_10 : 2 * w 10 * (u1_10 * v0_10 + u0_10 * v1_10) = row1 16 w d 10 := by
    show 2 * w 10 * (u1_10 * v0_10 + u0_10 * v1_10) = 2 * w 10 * (U1 d 10 * U0 (rev 16 d) 5 + U0 d 10 * U1 (rev 16 d) 5)
    rw [hu0_10, hu1_10, hv0_10, hv1_10]
    gll_close
  have r1_11 : 2 * w 11 * (u1_11 * v0_11 + u0_11 * v1_11) = row1 16 w d 11 := by
    show 2 * w 11 * (u1_11 * v0_11 + u0_11 * v1_11) = 2 * w 11 * (U1 d 11 * U0 (rev 16 d) 4 + U0 d 11 * U1 (rev 16 d) 4)
    rw [hu0_11, hu1_11, hv0_11, hv1_11]
    gll_close
  have r1_12 : 2 * w 12 * (u1_12 * v0_12 + u0_12 * v1_12) = row1 16 w d 12 := by
    show 2 * w 12 * (u1_12 * v0_12 + u0_12 * v1_12) = 2 * w 12 * (U1 d 12 * U0 (rev 16 d) 3 + U0 d 12 * U1 (rev 16 d) 3)
    rw [hu0_12, hu1_12, hv0_12, hv1_12]
    gll_close
  have r1_13 : 2 * w 13 * (u1_13 * v0_13 + u0_13 * v1_13) = row1 16 w d 13 := by
    show 2 * w 13 * (u1_13 * v0_13 + u0_13 * v1_13) = 2 * w 13 * (U1 d 13 * U0 (rev 16 d) 2 + U0 d 13 * U1 (rev 16 d) 2)
    rw [hu0_13, hu1_13, hv0_13, hv1_13]
    gll_close
  have r1_14 : 2 * w 14 * (u1_14 * v0_14 + u0_14 * 1) = row1 16 w d 14 := by
    show 2 * w 14 * (u1_14 * v0_14 + u0_14 * 1) = 2 * w 14 * (U1 d 14 * U0 (rev 16 d) 1 + U0 d 14 * U1 (rev 16 d) 1)
    rw [hu0_14, hu1_14, hv0_14]
    gll_close
  have r1_15 : 2 * w 15 * (u1_15) = row1 16 w d 15 := by
    show 2 * w 15 * (u1_15) = 2 * w 15 * (U1 d 15 * U0 (rev 16 d) 0 + U0 d 15 * U1 (rev 16 d) 0)
    rw [hu1_15]
    gll_close
  have r2_0 : 4 * w 0 * (1 * v2_00) = row2 16 w d 0 := by
    show 4 * w 0 * (1 * v2_00) = 4 * w 0 * (U2 d 0 * U0 (rev 16 d) 15 + 2 * U1 d 0 * U1 (rev 16 d) 15 + U0 d 0 * U2 (rev 16 d) 15)
    rw [hv2_00]
    gll_close
  have r2_1 : 4 * w 1 * (2 * 1 * v1_01 + u0_01 * v2_01) = row2 16 w d 1 := by
    show 4 * w 1 * (2 * 1 * v1_01 + u0_01 * v2_01) = 4 * w 1 * (U2 d 1 * U0 (rev 16 d) 14 + 2 * U1 d 1 * U1 (rev 16 d) 14 + U0 d 1 * U2 (rev 16 d) 14)
    rw [hu0_01, hv1_01, hv2_01]
    gll_close
  have r2_2 : 4 * w 2 * (2 * v0_02 + 2 * u1_02 * v1_02 + u0_02 * v2_02) = row2 16 w d 2 := by
    show 4 * w 2 * (2 * v0_02 + 2 * u1_02 * v1_02 + u0_02 * v2_02) = 4 * w 2 * (U2 d 2 * U0 (rev 16 d) 13 + 2 * U1 d 2 * U1 (rev 16 d) 13 + U0 d 2 * U2 (rev 16 d) 13)
    rw [hu0_02, hu1_02, hv0_02, hv1_02, hv2_02]
    gll_close
  have r2_3 : 4 * w 3 * (u2_03 * v0_03 + 2 * u1_03 * v1_03 + u0_03 * v2_03) = row2 16 w d 3 := by
    show 4 * w 3 * (u2_03 * v0_03 + 2 * u1_03 * v1_03 + u0_03 * v2_03) = 4 * w 3 * (U2 d 3 * U0 (rev 16 d) 12 + 2 * U1 d 3 * U1 (rev 16 d) 12 + U0 d 3 * U2 (rev 16 d) 12)
    rw [hu0_03, hu1_03, hu2_03, hv0_03, hv1_03, hv2_03]
    gll_close
  have r2_4 : 4 * w 4 * (u2_04 * v0_04 + 2 * u1_04 * v1_04 + u0_04 * v2_04) = row2 16 w d 4 := by
    show 4 * w 4 * (u2_04 * v0_04 + 2 * u1_04 * v1_04 + u0_04 * v2_04) = 4 * w 4 * (U2 d 4 * U0 (rev 16 d) 11 + 2 * U1 d 4 * U1 (rev 16 d) 11 + U0 d 4 * U2 (rev 16 d) 11)
    rw [hu0_04, hu1_04, hu2_04, hv0_04, hv1_04, hv2_04]
    gll_close
  have r2_5 : 4 * w 5 * (u2_05 * v0_05 + 2 * u1_05 * v1_05 + u0_05 * v2_05) = row2 16 w d 5 := by
    show 4 * w 5 * (u2_05 * v0_05 + 2 * u1_05 * v1_05 + u0_05 * v2_05) = 4 * w 5 * (U2 d 5 * U0 (rev 16 d) 10 + 2 * U1 d 5 * U1 (rev 16 d) 10 + U0 d 5 * U2 (rev 16 d) 10)
    rw [hu0_05, hu1_05, hu2_05, hv0_05, hv1_05, hv2_05]
    gll_close
  have r2_6 : 4 * w 6 * (u2_06 * v0_06 + 2 * u1_06 * v1_06 + u0_06 * v2_06) = row2 16 w d 6 := by
    show 4 * w 6 * (u2_06 * v0_06 + 2 * u1_06 * v1_06 + u0_06 * v2_06) = 4 * w 6 * (U2 d 6 * U0 (rev 16 d) 9 + 2 * U1 d 6 * U1 (rev 16 d) 9 + U0 d 6 * U2 (rev 16 d) 9)
    rw [hu0_06, hu1_06, hu2_06, hv0_06, hv1_06, hv2_06]
    gll_close
  have r2_7 : 4 * w 7 * (u2_07 * v0_07 + 2 * u1_07 * v1_07 + u0_07 * v2_07) = row2 16 w d 7 := by
    show 4 * w 7 * (u2_07 * v0_07 + 2 * u1_07 * v1_07 + u0_07 * v2_07) = 4 * w 7 * (U2 d 7 * U0 (rev 16 d) 8 + 2 * U1 d 7 * U1 (rev 16 d) 8 + U0 d 7 * U2 (rev 16 d) 8)
    rw [hu0_07, hu1_07, hu2_07, hv0_07, hv1_07, hv2_07]
    gll_close
  have r2_8 : 4 * w 8 * (u2_08 * v0_08 + 2 * u1_08 * v1_08 + u0_08 * v2_08) = row2 16 w d 8 := by
    show 4 * w 8 * (u2_08 * v0_08 + 2 * u1_08 * v1_08 + u0_08 * v2_08) = 4 * w 8 * (U2 d 8 * U0 (rev 16 d) 7 + 2 * U1 d 8 * U1 (rev 16 d) 7 + U0 d 8 * U2 (rev 16 d) 7)
    rw [hu0_08, hu1_08, hu2_08, hv0_08, hv1_08, hv2_08]
    gll_close
  have r2_9 : 4 * w 9 * (u2_09 * v0_09 + 2 * u1_09 * v1_09 + u0_09 * v2_09) = row2 16 w d 9 := by
    show 4 * w 9 * (u2_09 * v0_09 + 2 * u1_09 * v1_09 + u0_09 * v2_09) = 4 * w 9 * (U2 d 9 * U0 (rev 16 d) 6 + 2 * U1 d 9 * U1 (rev 16 d) 6 + U0 d 9 * U2 (rev 16 d) 6)
    rw [hu0_09, hu1_09, hu2_09, hv0_09, hv1_09, hv2_09]
    gll_close
  have r2_10 : 4 * w 10 * (u2_10 * v0_10 + 2 * u1_10 * v1_10 + u0_10 * v2_10) = row2 16 w d 10 := by
    show 4 * w 10 * (u2_10 * v0_10 + 2 * u1_10 * v1_10 + u0_10 * v2_10) = 4 * w 10 * (U2 d 10 * U0 (rev 16 d) 5 + 2 * U1 d 10 * U1 (rev 16 d) 5 + U0 d 10 * U2 (rev 16 d) 5)
    rw [hu0_10, hu1_10, hu2_10, hv0_10, hv1_10, hv2_10]
    gll_close
  have r2_11 : 4 * w 11 * (u2_11 * v0_11 + 2 * u1_11 * v1_11 + u0_11 * v2_11) = row2 16 w d 11 := by
    show 4 * w 11 * (u2_11 * v0_11 + 2 * u1_11 * v1_11 + u0_11 * v2_11) = 4 * w 11 * (U2 d 11 * U0 (rev 16 d) 4 + 2 * U1 d 11 * U1 (rev 16 d) 4 + U0 d 11 * U2 (rev 16 d) 4)
    rw [hu0_11, hu1_11, hu2_11, hv0_11, hv1_11, hv2_11]
    gll_close
  have r2_12 : 4 * w 12 * (u2_12 * v0_12 + 2 * u1_12 * v1_12 + u0_12 * v2_12) = row2 16 w d 12 := by
    show 4 * w 12 * (u2_12 * v0_12 + 2 * u1_12 * v1_12 + u0_12 * v2_12) = 4 * w 12 * (U2 d 12 * U0 (rev 16 d) 3 + 2 * U1 d 12 * U1 (rev 16 d) 3 + U0 d 12 * U2 (rev 16 d) 3)
    rw [hu0_12, hu1_12, hu2_12, hv0_12, hv1_12, hv2_12]
    gll_close
  have r2_13 : 4 * w 13 * (u2_13 * v0_13 + 2 * u1_13 * v1_13 + u0_13 * 2) = row2 16 w d 13 := by
    show 4 * w 13 * (u2_13 * v0_13 + 2 * u1_13 * v1_13 + u0_13 * 2) = 4 * w 13 * (U2 d 13 * U0 (rev 16 d) 2 + 2 * U1 d 13 * U1 (rev 16 d) 2 + U0 d 13 * U2 (rev 16 d) 2)
    rw [hu0_13, hu1_13, hu2_13, hv0_13, hv1_13]
    gll_close
  have r2_14 : 4 * w 14 * (u2_14 * v0_14 + 2 * u1_14 * 1) = row2 16 w d 14 := by
    show 4 * w 14 * (u2_14 * v0_14 + 2 * u1_14 * 1) = 4 * w 14 * (U2 d 14 * U0 (rev 16 d) 1 + 2 * U1 d 14 * U1 (rev 16 d) 1 + U0 d 14 * U2 (rev 16 d) 1)
    rw [hu1_14, hu2_14, hv0_14]
    gll_close
  have r2_15 : 4 * w 15 * (u2_15 * 1) = row2 16 w d 15 := by
    show 4 * w 15 * (u2_15 * 1) = 4 * w 15 * (U2 d 15 * U0 (rev 16 d) 0 + 2 * U1 d 15 * U1 (rev 16 d) 0 + U0 d 15 * U2 (rev 16 d) 0)
    rw [hu2_15]
    gll_close
  have L0 : [w 0 * 1 * v0_00, w 1 * u0_01 * v0_01, w 2 * u0_02 * v0_02, w 3 * u0_03 * v0_03, w 4 * u0_04 * v0_04, w 5 * u0_05 * v0_05, w 6 * u0_06 * v0_06, w 7 * u0_07 * v0_07, w 8 * u0_08 * v0_08, w 9 * u0_09 * v0_09, w 10 * u0_10 * v0_10, w 11 * u0_11 * v0_11, w 12 * u0_12 * v0_12, w 13 * u0_13 * v0_13, w 14 * u0_14 * v0_14, w 15 * u0_15 * 1] = (List.range 16).map (row0 16 w d) :=
    (congrArg₂ List.cons r0_0 (congrArg₂ List.cons r0_1 (congrArg₂ List.cons r0_2 (congrArg₂ List.cons r0_3 (congrArg₂ List.cons r0_4 (congrArg₂ List.cons r0_5 (congrArg₂ List.cons r0_6 (congrArg₂ List.cons r0_7 (congrArg₂ List.cons r0_8 (congrArg₂ List.cons r0_9 (congrArg₂ List.cons r0_10 (congrArg₂ List.cons r0_11 (congrArg₂ List.cons r0_12 (congrArg₂ List.cons r0_13 (congrArg₂ List.cons r0_14 (congrArg₂ List.cons r0_15 rfl))))))))))))))))
  have L1 : [2 * w 0 * (v1_00), 2 * w 1 * (1 * v0_01 + u0_01 * v1_01), 2 * w 2 * (u1_02 * v0_02 + u0_02 * v1_02), 2 * w 3 * (u1_03 * v0_03 + u0_03 * v1_03), 2 * w 4 * (u1_04 * v0_04 + u0_04 * v1_04), 2 * w 5 * (u1_05 * v0_05 + u0_05 * v1_05), 2 * w 6 * (u1_06 * v0_06 + u0_06 * v1_06), 2 * w 7 * (u1_07 * v0_07 + u0_07 * v1_07), 2 * w 8 * (u1_08 * v0_08 + u0_08 * v1_08), 2 * w 9 * (u1_09 * v0_09 + u0_09 * v1_09), 2 * w 10 * (u1_10 * v0_10 + u0_10 * v1_10), 2 * w 11 * (u1_11 * v0_11 + u0_11 * v1_11), 2 * w 12 * (u1_12 * v0_12 + u0_12 * v1_12), 2 * w 13 * (u1_13 * v0_13 + u0_13 * v1_13), 2 * w 14 * (u1_14 * v0_14 + u0_14 * 1), 2 * w 15 * (u1_15)] = (List.range 16).map (row1 16 w d) :=
    (congrArg₂ List.cons r1_0 (congrArg₂ List.cons r1_1 (congrArg₂ List.cons r1_2 (congrArg₂ List.cons r1_3 (congrArg₂ List.cons r1_4 (congrArg₂ List.cons r1_5 (congrArg₂ List.cons r1_6 (congrArg₂ List.cons r1_7 (congrArg₂ List.cons r1_8 (congrArg₂ List.cons r1_9 (congrArg₂ List.cons r1_10 (congrArg₂ List.cons r1_11 (congrArg₂ List.cons r1_12 (congrArg₂ List.cons r1_13 (congrArg₂ List.cons r1_14 (congrArg₂ List.cons r1_15 rfl))))))))))))))))
  have L2 : [4 * w 0 * (1 * v2_00), 4 * w 1 * (2 * 1 * v1_01 + u0_01 * v2_01), 4 * w 2 * (2 * v0_02 + 2 * u1_02 * v1_02 + u0_02 * v2_02), 4 * w 3 * (u2_03 * v0_03 + 2 * u1_03 * v1_03 + u0_03 * v2_03), 4 * w 4 * (u2_04 * v0_04 + 2 * u1_04 * v1_04 + u0_04 * v2_04), 4 * w 5 * (u2_05 * v0_05 + 2 * u1_05 * v1_05 + u0_05 * v2_05), 4 * w 6 * (u2_06 * v0_06 + 2 * u1_06 * v1_06 + u0_06 * v2_06), 4 * w 7 * (u2_07 * v0_07 + 2 * u1_07 * v1_07 + u0_07 * v2_07), 4 * w 8 * (u2_08 * v0_08 + 2 * u1_08 * v1_08 + u0_08 * v2_08), 4 * w 9 * (u2_09 * v0_09 + 2 * u1_09 * v1_09 + u0_09 * v2_09), 4 * w 10 * (u2_10 * v0_10 + 2 * u1_10 * v1_10 + u0_10 * v2_10), 4 * w 11 * (u2_11 * v0_11 + 2 * u1_11 * v1_11 + u0_11 * v2_11), 4 * w 12 * (u2_12 * v0_12 + 2 * u1_12 * v1_12 + u0_12 * v2_12), 4 * w 13 * (u2_13 * v0_13 + 2 * u1_13 * v1_13 + u0_13 * 2), 4 * w 14 * (u2_14 * v0_14 + 2 * u1_14 * 1), 4 * w 15 * (u2_15 * 1)] = (List.range 16).map (row2 16 w d) :=
    (congrArg₂ List.cons r2_0 (congrArg₂ List.cons r2_1 (congrArg₂ List.cons r2_2 (congrArg₂ List.cons r2_3 (congrArg₂ List.cons r2_4 (congrArg₂ List.cons r2_5 (congrArg₂ List.cons r2_6 (congrArg₂ List.cons r2_7 (congrArg₂ List.cons r2_8 (congrArg₂ List.cons r2_9 (congrArg₂ List.cons r2_10 (congrArg₂ List.cons r2_11 (congrArg₂ List.cons r2_12 (congrArg₂ List.cons r2_13 (congrArg₂ List.cons r2_14 (congrArg₂ List.cons r2_15 rfl))))))))))))))))
  exact congrArg₂ Prod.mk L0 (congrArg₂ Prod.mk L1 L2)

end Gslib.Poly
