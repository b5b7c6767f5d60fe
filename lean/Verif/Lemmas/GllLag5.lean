import Verif.Model.GllLag
import Verif.Lemmas.GllBase

/-!
# The unrolled functions compute the closed form

Generated proofs: every intermediate constant is identified with a value of the recurrences `U0`, `U1`, `U2`.
-/

namespace Gslib.Poly
variable {K : Type} [Field K]

theorem gllLag22_eq (g w : Nat → K) (xh : K) : gllLag22 g w xh = rowLists 22 w (dx (gnode 22 g) xh) := by
  unfold gllLag22
  extract_lets x d00 d01 d02 d03 d04 d05 d06 d07 d08 d09 d10 d11 d12 d13 d14 d15 d16 d17 d18 d19 d20 d21 u0_01 u0_02 u0_03 u0_04 u0_05 u0_06 u0_07 u0_08 u0_09 u0_10 u0_11 u0_12 u0_13 u0_14 u0_15 u0_16 u0_17 u0_18 u0_19 u0_20 u0_21 v0_20 v0_19 v0_18 v0_17 v0_16 v0_15 v0_14 v0_13 v0_12 v0_11 v0_10 v0_09 v0_08 v0_07 v0_06 v0_05 v0_04 v0_03 v0_02 v0_01 v0_00 u1_02 u1_03 u1_04 u1_05 u1_06 u1_07 u1_08 u1_09 u1_10 u1_11 u1_12 u1_13 u1_14 u1_15 u1_16 u1_17 u1_18 u1_19 u1_20 u1_21 v1_19 v1_18 v1_17 v1_16 v1_15 v1_14 v1_13 v1_12 v1_11 v1_10 v1_09 v1_08 v1_07 v1_06 v1_05 v1_04 v1_03 v1_02 v1_01 v1_00 u2_03 u2_04 u2_05 u2_06 u2_07 u2_08 u2_09 u2_10 u2_11 u2_12 u2_13 u2_14 u2_15 u2_16 u2_17 u2_18 u2_19 u2_20 u2_21 v2_18 v2_17 v2_16 v2_15 v2_14 v2_13 v2_12 v2_11 v2_10 v2_09 v2_08 v2_07 v2_06 v2_05 v2_04 v2_03 v2_02 v2_01 v2_00
  generalize hd : dx (gnode 22 g) xh = d
  have hd00 : d00 = d 0 := by
    rw [← hd]; show xh * 2 + 2 = 2 * (xh - (-1)); ring
  have hd01 : d01 = d 1 := by
    rw [← hd]; show xh * 2 + 2 * g 0 = 2 * (xh - (-g 0)); ring
  have hd02 : d02 = d 2 := by
    rw [← hd]; show xh * 2 + 2 * g 1 = 2 * (xh - (-g 1)); ring
  have hd03 : d03 = d 3 := by
    rw [← hd]; show xh * 2 + 2 * g 2 = 2 * (xh - (-g 2)); ring
  have hd04 : d04 = d 4 := by
    rw [← hd]; show xh * 2 + 2 * g 3 = 2 * (xh - (-g 3)); ring
  have hd05 : d05 = d 5 := by
    rw [← hd]; show xh * 2 + 2 * g 4 = 2 * (xh - (-g 4)); ring
  have hd06 : d06 = d 6 := by
    rw [← hd]; show xh * 2 + 2 * g 5 = 2 * (xh - (-g 5)); ring
  have hd07 : d07 = d 7 := by
    rw [← hd]; show xh * 2 + 2 * g 6 = 2 * (xh - (-g 6)); ring
  have hd08 : d08 = d 8 := by
    rw [← hd]; show xh * 2 + 2 * g 7 = 2 * (xh - (-g 7)); ring
  have hd09 : d09 = d 9 := by
    rw [← hd]; show xh * 2 + 2 * g 8 = 2 * (xh - (-g 8)); ring
  have hd10 : d10 = d 10 := by
    rw [← hd]; show xh * 2 + 2 * g 9 = 2 * (xh - (-g 9)); ring
  have hd11 : d11 = d 11 := by
    rw [← hd]; show xh * 2 - 2 * g 9 = 2 * (xh - (g 9)); ring
  have hd12 : d12 = d 12 := by
    rw [← hd]; show xh * 2 - 2 * g 8 = 2 * (xh - (g 8)); ring
  have hd13 : d13 = d 13 := by
    rw [← hd]; show xh * 2 - 2 * g 7 = 2 * (xh - (g 7)); ring
  have hd14 : d14 = d 14 := by
    rw [← hd]; show xh * 2 - 2 * g 6 = 2 * (xh - (g 6)); ring
  have hd15 : d15 = d 15 := by
    rw [← hd]; show xh * 2 - 2 * g 5 = 2 * (xh - (g 5)); ring
  have hd16 : d16 = d 16 := by
    rw [← hd]; show xh * 2 - 2 * g 4 = 2 * (xh - (g 4)); ring
  have hd17 : d17 = d 17 := by
    rw [← hd]; show xh * 2 - 2 * g 3 = 2 * (xh - (g 3)); ring
  have hd18 : d18 = d 18 := by
    rw [← hd]; show xh * 2 - 2 * g 2 = 2 * (xh - (g 2)); ring
  have hd19 : d19 = d 19 := by
    rw [← hd]; show xh * 2 - 2 * g 1 = 2 * (xh - (g 1)); ring
  have hd20 : d20 = d 20 := by
    rw [← hd]; show xh * 2 - 2 * g 0 = 2 * (xh - (g 0)); ring
  have hd21 : d21 = d 21 := by
    rw [← hd]; show xh * 2 - 2 = 2 * (xh - (1)); ring
  have hu0_01 : u0_01 = U0 d 1 := by
    show 1 * d00 = U0 d 0 * d 0
    rw [hd00]
    gll_close
  have hu0_02 : u0_02 = U0 d 2 := by
    show u0_01 * d01 = U0 d 1 * d 1
    rw [hd01, hu0_01]
    gll_close
  have hu0_03 : u0_03 = U0 d 3 := by
    show u0_02 * d02 = U0 d 2 * d 2
    rw [hd02, hu0_02]
    gll_close
  have hu0_04 : u0_04 = U0 d 4 := by
    show u0_03 * d03 = U0 d 3 * d 3
    rw [hd03, hu0_03]
    gll_close
  have hu0_05 : u0_05 = U0 d 5 := by
    show u0_04 * d04 = U0 d 4 * d 4
    rw [hd04, hu0_04]
    gll_close
  have hu0_06 : u0_06 = U0 d 6 := by
    show u0_05 * d05 = U0 d 5 * d 5
    rw [hd05, hu0_05]
    gll_close
  have hu0_07 : u0_07 = U0 d 7 := by
    show u0_06 * d06 = U0 d 6 * d 6
    rw [hd06, hu0_06]
    gll_close
  have hu0_08 : u0_08 = U0 d 8 := by
    show u0_07 * d07 = U0 d 7 * d 7
    rw [hd07, hu0_07]
    gll_close
  have hu0_09 : u0_09 = U0 d 9 := by
    show u0_08 * d08 = U0 d 8 * d 8
    rw [hd08, hu0_08]
    gll_close
  have hu0_10 : u0_10 = U0 d 10 := by
    show u0_09 * d09 = U0 d 9 * d 9
    rw [hd09, hu0_09]
    gll_close
  have hu0_11 : u0_11 = U0 d 11 := by
    show u0_10 * d10 = U0 d 10 * d 10
    rw [hd10, hu0_10]
    gll_close
  have hu0_12 : u0_12 = U0 d 12 := by
    show u0_11 * d11 = U0 d 11 * d 11
    rw [hd11, hu0_11]
    gll_close
  have hu0_13 : u0_13 = U0 d 13 := by
    show u0_12 * d12 = U0 d 12 * d 12
    rw [hd12, hu0_12]
    gll_close
  have hu0_14 : u0_14 = U0 d 14 := by
    show u0_13 * d13 = U0 d 13 * d 13
    rw [hd13, hu0_13]
    gll_close
  have hu0_15 : u0_15 = U0 d 15 := by
    show u0_14 * d14 = U0 d 14 * d 14
    rw [hd14, hu0_14]
    gll_close
  have hu0_16 : u0_16 = U0 d 16 := by
    show u0_15 * d15 = U0 d 15 * d 15
    rw [hd15, hu0_15]
    gll_close
  have hu0_17 : u0_17 = U0 d 17 := by
    show u0_16 * d16 = U0 d 16 * d 16
    rw [hd16, hu0_16]
    gll_close
  have hu0_18 : u0_18 = U0 d 18 := by
    show u0_17 * d17 = U0 d 17 * d 17
    rw [hd17, hu0_17]
    gll_close
  have hu0_19 : u0_19 = U0 d 19 := by
    show u0_18 * d18 = U0 d 18 * d 18
    rw [hd18, hu0_18]
    gll_close
  have hu0_20 : u0_20 = U0 d 20 := by
    show u0_19 * d19 = U0 d 19 * d 19
    rw [hd19, hu0_19]
    gll_close
  have hu0_21 : u0_21 = U0 d 21 := by
    show u0_20 * d20 = U0 d 20 * d 20
    rw [hd20, hu0_20]
    gll_close
  have hv0_20 : v0_20 = U0 (rev 22 d) 1 := by
    show d21 * 1 = U0 (rev 22 d) 0 * d 21
    rw [hd21]
    gll_close
  have hv0_19 : v0_19 = U0 (rev 22 d) 2 := by
    show d20 * v0_20 = U0 (rev 22 d) 1 * d 20
    rw [hd20, hv0_20]
    gll_close
  have hv0_18 : v0_18 = U0 (rev 22 d) 3 := by
    show d19 * v0_19 = U0 (rev 22 d) 2 * d 19
    rw [hd19, hv0_19]
    gll_close
  have hv0_17 : v0_17 = U0 (rev 22 d) 4 := by
    show d18 * v0_18 = U0 (rev 22 d) 3 * d 18
    rw [hd18, hv0_18]
    gll_close
  have hv0_16 : v0_16 = U0 (rev 22 d) 5 := by
    show d17 * v0_17 = U0 (rev 22 d) 4 * d 17
    rw [hd17, hv0_17]
    gll_close
  have hv0_15 : v0_15 = U0 (rev 22 d) 6 := by
    show d16 * v0_16 = U0 (rev 22 d) 5 * d 16
    rw [hd16, hv0_16]
    gll_close
  have hv0_14 : v0_14 = U0 (rev 22 d) 7 := by
    show d15 * v0_15 = U0 (rev 22 d) 6 * d 15
    rw [hd15, hv0_15]
    gll_close
  have hv0_13 : v0_13 = U0 (rev 22 d) 8 := by
    show d14 * v0_14 = U0 (rev 22 d) 7 * d 14
    rw [hd14, hv0_14]
    gll_close
  have hv0_12 : v0_12 = U0 (rev 22 d) 9 := by
    show d13 * v0_13 = U0 (rev 22 d) 8 * d 13
    rw [hd13, hv0_13]
    gll_close
  have hv0_11 : v0_11 = U0 (rev 22 d) 10 := by
    show d12 * v0_12 = U0 (rev 22 d) 9 * d 12
    rw [hd12, hv0_12]
    gll_close
  have hv0_10 : v0_10 = U0 (rev 22 d) 11 := by
    show d11 * v0_11 = U0 (rev 22 d) 10 * d 11
    rw [hd11, hv0_11]
    gll_close
  have hv0_09 : v0_09 = U0 (rev 22 d) 12 := by
    show d10 * v0_10 = U0 (rev 22 d) 11 * d 10
    rw [hd10, hv0_10]
    gll_close
  have hv0_08 : v0_08 = U0 (rev 22 d) 13 := by
    show d09 * v0_09 = U0 (rev 22 d) 12 * d 9
    rw [hd09, hv0_09]
    gll_close
  have hv0_07 : v0_07 = U0 (rev 22 d) 14 := by
    show d08 * v0_08 = U0 (rev 22 d) 13 * d 8
    rw [hd08, hv0_08]
    gll_close
  have hv0_06 : v0_06 = U0 (rev 22 d) 15 := by
    show d07 * v0_07 = U0 (rev 22 d) 14 * d 7
    rw [hd07, hv0_07]
    gll_close
  have hv0_05 : v0_05 = U0 (rev 22 d) 16 := by
    show d06 * v0_06 = U0 (rev 22 d) 15 * d 6
    rw [hd06, hv0_06]
    gll_close
  have hv0_04 : v0_04 = U0 (rev 22 d) 17 := by
    show d05 * v0_05 = U0 (rev 22 d) 16 * d 5
    rw [hd05, hv0_05]
    gll_close
  have hv0_03 : v0_03 = U0 (rev 22 d) 18 := by
    show d04 * v0_04 = U0 (rev 22 d) 17 * d 4
    rw [hd04, hv0_04]
    gll_close
  have hv0_02 : v0_02 = U0 (rev 22 d) 19 := by
    show d03 * v0_03 = U0 (rev 22 d) 18 * d 3
    rw [hd03, hv0_03]
    gll_close
  have hv0_01 : v0_01 = U0 (rev 22 d) 20 := by
    show d02 * v0_02 = U0 (rev 22 d) 19 * d 2
    rw [hd02, hv0_02]
    gll_close
  have hv0_00 : v0_00 = U0 (rev 22 d) 21 := by
    show d01 * v0_01 = U0 (rev 22 d) 20 * d 1
    rw [hd01, hv0_01]
    gll_close
  have hu1_02 : u1_02 = U1 d 2 := by
    show 1 * d01 + u0_01 = U1 d 1 * d 1 + U0 d 1
    rw [hd01, hu0_01]
    gll_close
  have hu1_03 : u1_03 = U1 d 3 := by
    show u1_02 * d02 + u0_02 = U1 d 2 * d 2 + U0 d 2
    rw [hd02, hu0_02, hu1_02]
    gll_close
  have hu1_04 : u1_04 = U1 d 4 := by
    show u1_03 * d03 + u0_03 = U1 d 3 * d 3 + U0 d 3
    rw [hd03, hu0_03, hu1_03]
    gll_close
  have hu1_05 : u1_05 = U1 d 5 := by
    show u1_04 * d04 + u0_04 = U1 d 4 * d 4 + U0 d 4
    rw [hd04, hu0_04, hu1_04]
    gll_close
  have hu1_06 : u1_06 = U1 d 6 := by
    show u1_05 * d05 + u0_05 = U1 d 5 * d 5 + U0 d 5
    rw [hd05, hu0_05, hu1_05]
    gll_close
  have hu1_07 : u1_07 = U1 d 7 := by
    show u1_06 * d06 + u0_06 = U1 d 6 * d 6 + U0 d 6
    rw [hd06, hu0_06, hu1_06]
    gll_close
  have hu1_08 : u1_08 = U1 d 8 := by
    show u1_07 * d07 + u0_07 = U1 d 7 * d 7 + U0 d 7
    rw [hd07, hu0_07, hu1_07]
    gll_close
  have hu1_09 : u1_09 = U1 d 9 := by
    show u1_08 * d08 + u0_08 = U1 d 8 * d 8 + U0 d 8
    rw [hd08, hu0_08, hu1_08]
    gll_close
  have hu1_10 : u1_10 = U1 d 10 := by
    show u1_09 * d09 + u0_09 = U1 d 9 * d 9 + U0 d 9
    rw [hd09, hu0_09, hu1_09]
    gll_close
  have hu1_11 : u1_11 = U1 d 11 := by
    show u1_10 * d10 + u0_10 = U1 d 10 * d 10 + U0 d 10
    rw [hd10, hu0_10, hu1_10]
    gll_close
  have hu1_12 : u1_12 = U1 d 12 := by
    show u1_11 * d11 + u0_11 = U1 d 11 * d 11 + U0 d 11
    rw [hd11, hu0_11, hu1_11]
    gll_close
  have hu1_13 : u1_13 = U1 d 13 := by
    show u1_12 * d12 + u0_12 = U1 d 12 * d 12 + U0 d 12
    rw [hd12, hu0_12, hu1_12]
    gll_close
  have hu1_14 : u1_14 = U1 d 14 := by
    show u1_13 * d13 + u0_13 = U1 d 13 * d 13 + U0 d 13
    rw [hd13, hu0_13, hu1_13]
    gll_close
  have hu1_15 : u1_15 = U1 d 15 := by
    show u1_14 * d14 + u0_14 = U1 d 14 * d 14 + U0 d 14
    rw [hd14, hu0_14, hu1_14]
    gll_close
  have hu1_16 : u1_16 = U1 d 16 := by
    show u1_15 * d15 + u0_15 = U1 d 15 * d 15 + U0 d 15
    rw [hd15, hu0_15, hu1_15]
    gll_close
  have hu1_17 : u1_17 = U1 d 17 := by
    show u1_16 * d16 + u0_16 = U1 d 16 * d 16 + U0 d 16
    rw [hd16, hu0_16, hu1_16]
    gll_close
  have hu1_18 : u1_18 = U1 d 18 := by
    show u1_17 * d17 + u0_17 = U1 d 17 * d 17 + U0 d 17
    rw [hd17, hu0_17, hu1_17]
    gll_close
  have hu1_19 : u1_19 = U1 d 19 := by
    show u1_18 * d18 + u0_18 = U1 d 18 * d 18 + U0 d 18
    rw [hd18, hu0_18, hu1_18]
    gll_close
  have hu1_20 : u1_20 = U1 d 20 := by
    show u1_19 * d19 + u0_19 = U1 d 19 * d 19 + U0 d 19
    rw [hd19, hu0_19, hu1_19]
    gll_close
  have hu1_21 : u1_21 = U1 d 21 := by
    show u1_20 * d20 + u0_20 = U1 d 20 * d 20 + U0 d 20
    rw [hd20, hu0_20, hu1_20]
    gll_close
  have hv1_19 : v1_19 = U1 (rev 22 d) 2 := by
    show d20 * 1 + v0_20 = U1 (rev 22 d) 1 * d 20 + U0 (rev 22 d) 1
    rw [hd20, hv0_20]
    gll_close
  have hv1_18 : v1_18 = U1 (rev 22 d) 3 := by
    show d19 * v1_19 + v0_19 = U1 (rev 22 d) 2 * d 19 + U0 (rev 22 d) 2
    rw [hd19, hv0_19, hv1_19]
    gll_close
  have hv1_17 : v1_17 = U1 (rev 22 d) 4 := by
    show d18 * v1_18 + v0_18 = U1 (rev 22 d) 3 * d 18 + U0 (rev 22 d) 3
    rw [hd18, hv0_18, hv1_18]
    gll_close
  have hv1_16 : v1_16 = U1 (rev 22 d) 5 := by
    show d17 * v1_17 + v0_17 = U1 (rev 22 d) 4 * d 17 + U0 (rev 22 d) 4
    rw [hd17, hv0_17, hv1_17]
    gll_close
  have hv1_15 : v1_15 = U1 (rev 22 d) 6 := by
    show d16 * v1_16 + v0_16 = U1 (rev 22 d) 5 * d 16 + U0 (rev 22 d) 5
    rw [hd16, hv0_16, hv1_16]
    gll_close
  have hv1_14 : v1_14 = U1 (rev 22 d) 7 := by
    show d15 * v1_15 + v0_15 = U1 (rev 22 d) 6 * d 15 + U0 (rev 22 d) 6
    rw [hd15, hv0_15, hv1_15]
    gll_close
  have hv1_13 : v1_13 = U1 (rev 22 d) 8 := by
    show d14 * v1_14 + v0_14 = U1 (rev 22 d) 7 * d 14 + U0 (rev 22 d) 7
    rw [hd14, hv0_14, hv1_14]
    gll_close
  have hv1_12 : v1_12 = U1 (rev 22 d) 9 := by
    show d13 * v1_13 + v0_13 = U1 (rev 22 d) 8 * d 13 + U0 (rev 22 d) 8
    rw [hd13, hv0_13, hv1_13]
    gll_close
  have hv1_11 : v1_11 = U1 (rev 22 d) 10 := by
    show d12 * v1_12 + v0_12 = U1 (rev 22 d) 9 * d 12 + U0 (rev 22 d) 9
    rw [hd12, hv0_12, hv1_12]
    gll_close
  have hv1_10 : v1_10 = U1 (rev 22 d) 11 := by
    show d11 * v1_11 + v0_11 = U1 (rev 22 d) 10 * d 11 + U0 (rev 22 d) 10
    rw [hd11, hv0_11, hv1_11]
    gll_close
  have hv1_09 : v1_09 = U1 (rev 22 d) 12 := by
    show d10 * v1_10 + v0_10 = U1 (rev 22 d) 11 * d 10 + U0 (rev 22 d) 11
    rw [hd10, hv0_10, hv1_10]
    gll_close
  have hv1_08 : v1_08 = U1 (rev 22 d) 13 := by
    show d09 * v1_09 + v0_09 = U1 (rev 22 d) 12 * d 9 + U0 (rev 22 d) 12
    rw [hd09, hv0_09, hv1_09]
    gll_close
  have hv1_07 : v1_07 = U1 (rev 22 d) 14 := by
    show d08 * v1_08 + v0_08 = U1 (rev 22 d) 13 * d 8 + U0 (rev 22 d) 13
    rw [hd08, hv0_08, hv1_08]
    gll_close
  have hv1_06 : v1_06 = U1 (rev 22 d) 15 := by
    show d07 * v1_07 + v0_07 = U1 (rev 22 d) 14 * d 7 + U0 (rev 22 d) 14
    rw [hd07, hv0_07, hv1_07]
    gll_close
  have hv1_05 : v1_05 = U1 (rev 22 d) 16 := by
    show d06 * v1_06 + v0_06 = U1 (rev 22 d) 15 * d 6 + U0 (rev 22 d) 15
    rw [hd06, hv0_06, hv1_06]
    gll_close
  have hv1_04 : v1_04 = U1 (rev 22 d) 17 := by
    show d05 * v1_05 + v0_05 = U1 (rev 22 d) 16 * d 5 + U0 (rev 22 d) 16
    rw [hd05, hv0_05, hv1_05]
    gll_close
  have hv1_03 : v1_03 = U1 (rev 22 d) 18 := by
    show d04 * v1_04 + v0_04 = U1 (rev 22 d) 17 * d 4 + U0 (rev 22 d) 17
    rw [hd04, hv0_04, hv1_04]
    gll_close
  have hv1_02 : v1_02 = U1 (rev 22 d) 19 := by
    show d03 * v1_03 + v0_03 = U1 (rev 22 d) 18 * d 3 + U0 (rev 22 d) 18
    rw [hd03, hv0_03, hv1_03]
    gll_close
  have hv1_01 : v1_01 = U1 (rev 22 d) 20 := by
    show d02 * v1_02 + v0_02 = U1 (rev 22 d) 19 * d 2 + U0 (rev 22 d) 19
    rw [hd02, hv0_02, hv1_02]
    gll_close
  have hv1_00 : v1_00 = U1 (rev 22 d) 21 := by
    show d01 * v1_01 + v0_01 = U1 (rev 22 d) 20 * d 1 + U0 (rev 22 d) 20
    rw [hd01, hv0_01, hv1_01]
    gll_close
  have hu2_03 : u2_03 = U2 d 3 := by
    show 2 * d02 + 2 * u1_02 = U2 d 2 * d 2 + 2 * U1 d 2
    rw [hd02, hu1_02]
    gll_close
  have hu2_04 : u2_04 = U2 d 4 := by
    show u2_03 * d03 + 2 * u1_03 = U2 d 3 * d 3 + 2 * U1 d 3
    rw [hd03, hu1_03, hu2_03]
    gll_close
  have hu2_05 : u2_05 = U2 d 5 := by
    show u2_04 * d04 + 2 * u1_04 = U2 d 4 * d 4 + 2 * U1 d 4
    rw [hd04, hu1_04, hu2_04]
    gll_close
  have hu2_06 : u2_06 = U2 d 6 := by
    show u2_05 * d05 + 2 * u1_05 = U2 d 5 * d 5 + 2 * U1 d 5
    rw [hd05, hu1_05, hu2_05]
    gll_close
  have hu2_07 : u2_07 = U2 d 7 := by
    show u2_06 * d06 + 2 * u1_06 = U2 d 6 * d 6 + 2 * U1 d 6
    rw [hd06, hu1_06, hu2_06]
    gll_close
  have hu2_08 : u2_08 = U2 d 8 := by
    show u2_07 * d07 + 2 * u1_07 = U2 d 7 * d 7 + 2 * U1 d 7
    rw [hd07, hu1_07, hu2_07]
    gll_close
  have hu2_09 : u2_09 = U2 d 9 := by
    show u2_08 * d08 + 2 * u1_08 = U2 d 8 * d 8 + 2 * U1 d 8
    rw [hd08, hu1_08, hu2_08]
    gll_close
  have hu2_10 : u2_10 = U2 d 10 := by
    show u2_09 * d09 + 2 * u1_09 = U2 d 9 * d 9 + 2 * U1 d 9
    rw [hd09, hu1_09, hu2_09]
    gll_close
  have hu2_11 : u2_11 = U2 d 11 := by
    show u2_10 * d10 + 2 * u1_10 = U2 d 10 * d 10 + 2 * U1 d 10
    rw [hd10, hu1_10, hu2_10]
    gll_close
  have hu2_12 : u2_12 = U2 d 12 := by
    show u2_11 * d11 + 2 * u1_11 = U2 d 11 * d 11 + 2 * U1 d 11
    rw [hd11, hu1_11, hu2_11]
    gll_close
  have hu2_13 : u2_13 = U2 d 13 := by
    show u2_12 * d12 + 2 * u1_12 = U2 d 12 * d 12 + 2 * U1 d 12
    rw [hd12, hu1_12, hu2_12]
    gll_close
  have hu2_14 : u2_14 = U2 d 14 := by
    show u2_13 * d13 + 2 * u1_13 = U2 d 13 * d 13 + 2 * U1 d 13
    rw [hd13, hu1_13, hu2_13]
    gll_close
  have hu2_15 : u2_15 = U2 d 15 := by
    show u2_14 * d14 + 2 * u1_14 = U2 d 14 * d 14 + 2 * U1 d 14
    rw [hd14, hu1_14, hu2_14]
    gll_close
  have hu2_16 : u2_16 = U2 d 16 := by
    show u2_15 * d15 + 2 * u1_15 = U2 d 15 * d 15 + 2 * U1 d 15
    rw [hd15, hu1_15, hu2_15]
    gll_close
  have hu2_17 : u2_17 = U2 d 17 := by
    show u2_16 * d16 + 2 * u1_16 = U2 d 16 * d 16 + 2 * U1 d 16
    rw [hd16, hu1_16, hu2_16]
    gll_close
  have hu2_18 : u2_18 = U2 d 18 := by
    show u2_17 * d17 + 2 * u1_17 = U2 d 17 * d 17 + 2 * U1 d 17
    rw [hd17, hu1_17, hu2_17]
    gll_close
  have hu2_19 : u2_19 = U2 d 19 := by
    show u2_18 * d18 + 2 * u1_18 = U2 d 18 * d 18 + 2 * U1 d 18
    rw [hd18, hu1_18, hu2_18]
    gll_close
  have hu2_20 : u2_20 = U2 d 20 := by
    show u2_19 * d19 + 2 * u1_19 = U2 d 19 * d 19 + 2 * U1 d 19
    rw [hd19, hu1_19, hu2_19]
    gll_close
  have hu2_21 : u2_21 = U2 d 21 := by
    show u2_20 * d20 + 2 * u1_20 = U2 d 20 * d 20 + 2 * U1 d 20
    rw [hd20, hu1_20, hu2_20]
    gll_close
  have hv2_18 : v2_18 = U2 (rev 22 d) 3 := by
    show d19 * 2 + 2 * v1_19 = U2 (rev 22 d) 2 * d 19 + 2 * U1 (rev 22 d) 2
    rw [hd19, hv1_19]
    gll_close
  have hv2_17 : v2_17 = U2 (rev 22 d) 4 := by
    show d18 * v2_18 + 2 * v1_18 = U2 (rev 22 d) 3 * d 18 + 2 * U1 (rev 22 d) 3
    rw [hd18, hv1_18, hv2_18]
    gll_close
  have hv2_16 : v2_16 = U2 (rev 22 d) 5 := by
    show d17 * v2_17 + 2 * v1_17 = U2 (rev 22 d) 4 * d 17 + 2 * U1 (rev 22 d) 4
    rw [hd17, hv1_17, hv2_17]
    gll_close
  have hv2_15 : v2_15 = U2 (rev 22 d) 6 := by
    show d16 * v2_16 + 2 * v1_16 = U2 (rev 22 d) 5 * d 16 + 2 * U1 (rev 22 d) 5
    rw [hd16, hv1_16, hv2_16]
    gll_close
  have hv2_14 : v2_14 = U2 (rev 22 d) 7 := by
    show d15 * v2_15 + 2 * v1_15 = U2 (rev 22 d) 6 * d 15 + 2 * U1 (rev 22 d) 6
    rw [hd15, hv1_15, hv2_15]
    gll_close
  have hv2_13 : v2_13 = U2 (rev 22 d) 8 := by
    show d14 * v2_14 + 2 * v1_14 = U2 (rev 22 d) 7 * d 14 + 2 * U1 (rev 22 d) 7
    rw [hd14, hv1_14, hv2_14]
    gll_close
  have hv2_12 : v2_12 = U2 (rev 22 d) 9 := by
    show d13 * v2_13 + 2 * v1_13 = U2 (rev 22 d) 8 * d 13 + 2 * U1 (rev 22 d) 8
    rw [hd13, hv1_13, hv2_13]
    gll_close
  have hv2_11 : v2_11 = U2 (rev 22 d) 10 := by
    show d12 * v2_12 + 2 * v1_12 = U2 (rev 22 d) 9 * d 12 + 2 * U1 (rev 22 d) 9
    rw [hd12, hv1_12, hv2_12]
    gll_close
  have hv2_10 : v2_10 = U2 (rev 22 d) 11 := by
    show d11 * v2_11 + 2 * v1_11 = U2 (rev 22 d) 10 * d 11 + 2 * U1 (rev 22 d) 10
    rw [hd11, hv1_11, hv2_11]
    gll_close
  have hv2_09 : v2_09 = U2 (rev 22 d) 12 := by
    show d10 * v2_10 + 2 * v1_10 = U2 (rev 22 d) 11 * d 10 + 2 * U1 (rev 22 d) 11
    rw [hd10, hv1_10, hv2_10]
    gll_close
  have hv2_08 : v2_08 = U2 (rev 22 d) 13 := by
    show d09 * v2_09 + 2 * v1_09 = U2 (rev 22 d) 12 * d 9 + 2 * U1 (rev 22 d) 12
    rw [hd09, hv1_09, hv2_09]
    gll_close
  have hv2_07 : v2_07 = U2 (rev 22 d) 14 := by
    show d08 * v2_08 + 2 * v1_08 = U2 (rev 22 d) 13 * d 8 + 2 * U1 (rev 22 d) 13
    rw [hd08, hv1_08, hv2_08]
    gll_close
  have hv2_06 : v2_06 = U2 (rev 22 d) 15 := by
    show d07 * v2_07 + 2 * v1_07 = U2 (rev 22 d) 14 * d 7 + 2 * U1 (rev 22 d) 14
    rw [hd07, hv1_07, hv2_07]
    gll_close
  have hv2_05 : v2_05 = U2 (rev 22 d) 16 := by
    show d06 * v2_06 + 2 * v1_06 = U2 (rev 22 d) 15 * d 6 + 2 * U1 (rev 22 d) 15
    rw [hd06, hv1_06, hv2_06]
    gll_close
  have hv2_04 : v2_04 = U2 (rev 22 d) 17 := by
    show d05 * v2_05 + 2 * v1_05 = U2 (rev 22 d) 16 * d 5 + 2 * U1 (rev 22 d) 16
    rw [hd05, hv1_05, hv2_05]
    gll_close
  have hv2_03 : v2_03 = U2 (rev 22 d) 18 := by
    show d04 * v2_04 + 2 * v1_04 = U2 (rev 22 d) 17 * d 4 + 2 * U1 (rev 22 d) 17
    rw [hd04, hv1_04, hv2_04]
    gll_close
  have hv2_02 : v2_02 = U2 (rev 22 d) 19 := by
    show d03 * v2_03 + 2 * v1_03 = U2 (rev 22 d) 18 * d 3 + 2 * U1 (rev 22 d) 18
    rw [hd03, hv1_03, hv2_03]
    gll_close
  have hv2_01 : v2_01 = U2 (rev 22 d) 20 := by
    show d02 * v2_02 + 2 * v1_02 = U2 (rev 22 d) 19 * d 2 + 2 * U1 (rev 22 d) 19
    rw [hd02, hv1_02, hv2_02]
    gll_close
  have hv2_00 : v2_00 = U2 (rev 22 d) 21 := by
    show d01 * v2_01 + 2 * v1_01 = U2 (rev 22 d) 20 * d 1 + 2 * U1 (rev 22 d) 20
    rw [hd01, hv1_01, hv2_01]
    gll_close
  have r0_0 : w 0 * 1 * v0_00 = row0 22 w d 0 := by
    show w 0 * 1 * v0_00 = w 0 * U0 d 0 * U0 (rev 22 d) 21
    rw [hv0_00]
    gll_close
  have r0_1 : w 1 * u0_01 * v0_01 = row0 22 w d 1 := by
    show w 1 * u0_01 * v0_01 = w 1 * U0 d 1 * U0 (rev 22 d) 20
    rw [hu0_01, hv0_01]
    gll_close
  have r0_2 : w 2 * u0_02 * v0_02 = row0 22 w d 2 := by
    show w 2 * u0_02 * v0_02 = w 2 * U0 d 2 * U0 (rev 22 d) 19
    rw [hu0_02, hv0_02]
    gll_close
  have r0_3 : w 3 * u0_03 * v0_03 = row0 22 w d 3 := by
    show w 3 * u0_03 * v0_03 = w 3 * U0 d 3 * U0 (rev 22 d) 18
    rw [hu0_03, hv0_03]
    gll_close
  have r0_4 : w 4 * u0_04 * v0_04 = row0 22 w d 4 := by
    show w 4 * u0_04 * v0_04 = w 4 * U0 d 4 * U0 (rev 22 d) 17
    rw [hu0_04, hv0_04]
    gll_close
  have r0_5 : w 5 * u0_05 * v0_05 = row0 22 w d 5 := by
    show w 5 * u0_05 * v0_05 = w 5 * U0 d 5 * U0 (rev 22 d) 16
    rw [hu0_05, hv0_05]
    gll_close
  have r0_6 : w 6 * u0_06 * v0_06 = row0 22 w d 6 := by
    show w 6 * u0_06 * v0_06 = w 6 * U0 d 6 * U0 (rev 22 d) 15
    rw [hu0_06, hv0_06]
    gll_close
  have r0_7 : w 7 * u0_07 * v0_07 = row0 22 w d 7 := by
    show w 7 * u0_07 * v0_07 = w 7 * U0 d 7 * U0 (rev 22 d) 14
    rw [hu0_07, hv0_07]
    gll_close
  have r0_8 : w 8 * u0_08 * v0_08 = row0 22 w d 8 := by
    show w 8 * u0_08 * v0_08 = w 8 * U0 d 8 * U0 (rev 22 d) 13
    rw [hu0_08, hv0_08]
    gll_close
  have r0_9 : w 9 * u0_09 * v0_09 = row0 22 w d 9 := by
    show w 9 * u0_09 * v0_09 = w 9 * U0 d 9 * U0 (rev 22 d) 12
    rw [hu0_09, hv0_09]
    gll_close
  have r0_10 : w 10 * u0_10 * v0_10 = row0 22 w d 10 := by
    show w 10 * u0_10 * v0_10 = w 10 * U0 d 10 * U0 (rev 22 d) 11
    rw [hu0_10, hv0_10]
    gll_close
  have r0_11 : w 11 * u0_11 * v0_11 = row0 22 w d 11 := by
    show w 11 * u0_11 * v0_11 = w 11 * U0 d 11 * U0 (rev 22 d) 10
    rw [hu0_11, hv0_11]
    gll_close
  have r0_12 : w 12 * u0_12 * v0_12 = row0 22 w d 12 := by
    show w 12 * u0_12 * v0_12 = w 12 * U0 d 12 * U0 (rev 22 d) 9
    rw [hu0_12, hv0_12]
    gll_close
  have r0_13 : w 13 * u0_13 * v0_13 = row0 22 w d 13 := by
    show w 13 * u0_13 * v0_13 = w 13 * U0 d 13 * U0 (rev 22 d) 8
    rw [hu0_13, hv0_13]
    gll_close
  have r0_14 : w 14 * u0_14 * v0_14 = row0 22 w d 14 := by
    show w 14 * u0_14 * v0_14 = w 14 * U0 d 14 * U0 (rev 22 d) 7
    rw [hu0_14, hv0_14]
    gll_close
  have r0_15 : w 15 * u0_15 * v0_15 = row0 22 w d 15 := by
    show w 15 * u0_15 * v0_15 = w 15 * U0 d 15 * U0 (rev 22 d) 6
    rw [hu0_15, hv0_15]
    gll_close
  have r0_16 : w 16 * u0_16 * v0_16 = row0 22 w d 16 := by
    show w 16 * u0_16 * v0_16 = w 16 * U0 d 16 * U0 (rev 22 d) 5
    rw [hu0_16, hv0_16]
    gll_close
  have r0_17 : w 17 * u0_17 * v0_17 = row0 22 w d 17 := by
    show w 17 * u0_17 * v0_17 = w 17 * U0 d 17 * U0 (rev 22 d) 4
    rw [hu0_17, hv0_17]
    gll_close
  have r0_18 : w 18 * u0_18 * v0_18 = row0 22 w d 18 := by
    show w 18 * u0_18 * v0_18 = w 18 * U0 d 18 * U0 (rev 22 d) 3
    rw [hu0_18, hv0_18]
    gll_close
  have r0_19 : w 19 * u0_19 * v0_19 = row0 22 w d 19 := by
    show w 19 * u0_19 * v0_19 = w 19 * U0 d 19 * U0 (rev 22 d) 2
    rw [hu0_19, hv0_19]
    gll_close
  have r0_20 : w 20 * u0_20 * v0_20 = row0 22 w d 20 := by
    show w 20 * u0_20 * v0_20 = w 20 * U0 d 20 * U0 (rev 22 d) 1
    rw [hu0_20, hv0_20]
    gll_close
  have r0_21 : w 21 * u0_21 * 1 = row0 22 w d 21 := by
    show w 21 * u0_21 * 1 = w 21 * U0 d 21 * U0 (rev 22 d) 0
    rw [hu0_21]
    gll_close
  have r1_0 : 2 * w 0 * (v1_00) = row1 22 w d 0 := by
    show 2 * w 0 * (v1_00) = 2 * w 0 * (U1 d 0 * U0 (rev 22 d) 21 + U0 d 0 * U1 (rev 22 d) 21)
    rw [hv1_00]
    gll_close
  have r1_1 : 2 * w 1 * (1 * v0_01 + u0_01 * v1_01) = row1 22 w d 1 := by
    show 2 * w 1 * (1 * v0_01 + u0_01 * v1_01) = 2 * w 1 * (U1 d 1 * U0 (rev 22 d) 20 + U0 d 1 * U1 (rev 22 d) 20)
    rw [hu0_01, hv0_01, hv1_01]
    gll_close
  have r1_2 : 2 * w 2 * (u1_02 * v0_02 + u0_02 * v1_02) = row1 22 w d 2 := by
    show 2 * w 2 * (u1_02 * v0_02 + u0_02 * v1_02) = 2 * w 2 * (U1 d 2 * U0 (rev 22 d) 19 + U0 d 2 * U1 (rev 22 d) 19)
    rw [hu0_02, hu1_02, hv0_02, hv1_02]
    gll_close
  have r1_3 : 2 * w 3 * (u1_03 * v0_03 + u0_03 * v1_03) = row1 22 w d 3 := by
    show 2 * w 3 * (u1_03 * v0_03 + u0_03 * v1_03) = 2 * w 3 * (U1 d 3 * U0 (rev 22 d) 18 + U0 d 3 * U1 (rev 22 d) 18)
    rw [hu0_03, hu1_03, hv0_03, hv1_03]
    gll_close
  have r1_4 : 2 * w 4 * (u1_04 * v0_04 + u0_04 * v1_04) = row1 22 w d 4 := by
    show 2 * w 4 * (u1_04 * v0_04 + u0_04 * v1_04) = 2 * w 4 * (U1 d 4 * U0 (rev 22 d) 17 + U0 d 4 * U1 (rev 22 d) 17)
    rw [hu0_04, hu1_04, hv0_04, hv1_04]
    gll_close
  have r1_5 : 2 * w 5 * (u1_05 * v0_05 + u0_05 * v1_05) = row1 22 w d 5 := by
    show 2 * w 5 * (u1_05 * v0_05 + u0_05 * v1_05) = 2 * w 5 * (U1 d 5 * U0 (rev 22 d) 16 + U0 d 5 * U1 (rev 22 d) 16)
    rw [hu0_05, hu1_05, hv0_05, hv1_05]
    gll_close
  have r1_6 : 2 * w 6 * (u1_06 * v0_06 + u0_06 * v1_06) = row1 22 w d 6 := by
    show 2 * w 6 * (u1_06 * v0_06 + u0_06 * v1_06) = 2 * w 6 * (U1 d 6 * U0 (rev 22 d) 15 + U0 d 6 * U1 (rev 22 d) 15)
    rw [hu0_06, hu1_06, hv0_06, hv1_06]
    gll_close
  have r1_7 : 2 * w 7 * (u1_07 * v0_07 + u0_07 * v1_07) = row1 22 w d 7 := by
    show 2 * w 7 * (u1_07 * v0_07 + u0_07 * v1_07) = 2 * w 7 * (U1 d 7 * U0 (rev 22 d) 14 + U0 d 7 * U1 (rev 22 d) 14)
    rw [hu0_07, hu1_07, hv0_07, hv1_07]
    gll_close
  have r1_8 : 2 * w 8 * (u1_08 * v0_08 + u0_08 * v1_08) = row1 22 w d 8 := by
    show 2 * w 8 * (u1_08 * v0_08 + u0_08 * v1_08) = 2 * w 8 * (U1 d 8 * U0 (rev 22 d) 13 + U0 d 8 * U1 (rev 22 d) 13)
    rw [hu0_08, hu1_08, hv0_08, hv1_08]
    gll_close
  have r1_9 : 2 * w 9 * (u1_09 * v0_09 + u0_09 * v1_09) = row1 22 w d 9 := by
    show 2 * w 9 * (u1_09 * v0_09 + u0_09 * v1_09) = 2 * w 9 * (U1 d 9 * U0 (rev 22 d) 12 + U0 d 9 * U1 (rev 22 d) 12)
    rw [hu0_09, hu1_09, hv0_09, hv1_09]
    gll_close
  have r1_10 : 2 * w 10 * (u1_10 * v0_10 + u0_10 * v1_10) = row1 22 w d 10 := by
    show 2 * w 10 * (u1_10 * v0_10 + u0_10 * v1_10) = 2 * w 10 * (U1 d 10 * U0 (rev 22 d) 11 + U0 d 10 * U1 (rev 22 d) 11)
    rw [hu0_10, hu1_10, hv0_10, hv1_10]
    gll_close
  have r1_11 : 2 * w 11 * (u1_11 * v0_11 + u0_11 * v1_11) = row1 22 w d 11 := by
    show 2 * w 11 * (u1_11 * v0_11 + u0_11 * v1_11) = 2 * w 11 * (U1 d 11 * U0 (rev 22 d) 10 + U0 d 11 * U1 (rev 22 d) 10)
    rw [hu0_11, hu1_11, hv0_11, hv1_11]
    gll_close
  have r1_12 : 2 * w 12 * (u1_12 * v0_12 + u0_12 * v1_12) = row1 22 w d 12 := by
    show 2 * w 12 * (u1_12 * v0_12 + u0_12 * v1_12) = 2 * w 12 * (U1 d 12 * U0 (rev 22 d) 9 + U0 d 12 * U1 (rev 22 d) 9)
    rw [hu0_12, hu1_12, hv0_12, hv1_12]
    gll_close
  have r1_13 : 2 * w 13 * (u1_13 * v0_13 + u0_13 * v1_13) = row1 22 w d 13 := by
    show 2 * w 13 * (u1_13 * v0_13 + u0_13 * v1_13) = 2 * w 13 * (U1 d 13 * U0 (rev 22 d) 8 + U0 d 13 * U1 (rev 22 d) 8)
    rw [hu0_13, hu1_13, hv0_13, hv1_13]
    gll_close
  have r1_14 : 2 * w 14 * (u1_14 * v0_14 + u0_14 * v1_14) = row1 22 w d 14 := by
    show 2 * w 14 * (u1_14 * v0_14 + u0_14 * v1_14) = 2 * w 14 * (U1 d 14 * U0 (rev 22 d) 7 + U0 d 14 * U1 (rev 22 d) 7)
    rw [hu0_14, hu1_14, hv0_14, hv1_14]
    gll_close
  have r1_15 : 2 * w 15 * (u1_15 * v0_15 + u0_15 * v1_15) = row1 22 w d 15 := by
    show 2 * w 15 * (u1_15 * v0_15 + u0_15 * v1_15) = 2 * w 15 * (U1 d 15 * U0 (rev 22 d) 6 + U0 d 15 * U1 (rev 22 d) 6)
    rw [hu0_15, hu1_15, hv0_15, hv1_15]
    gll_close
  have r1_16 : 2 * w 16 * (u1_16 * v0_16 + u0_16 * v1_16) = row1 22 w d 16 := by
    show 2 * w 16 * (u1_16 * v0_16 + u0_16 * v1_16) = 2 * w 16 * (U1 d 16 * U0 (rev 22 d) 5 + U0 d 16 * U1 (rev 22 d) 5)
    rw [hu0_16, hu1_16, hv0_16, hv1_16]
    gll_close
  have r1_17 : 2 * w 17 * (u1_17 * v0_17 + u0_17 * v1_17) = row1 22 w d 17 := by
    show 2 * w 17 * (u1_17 * v0_17 + u0_17 * v1_17) = 2 * w 17 * (U1 d 17 * U0 (rev 22 d) 4 + U0 d 17 * U1 (rev 22 d) 4)
    rw [hu0_17, hu1_17, hv0_17, hv1_17]
    gll_close
  have r1_18 : 2 * w 18 * (u1_18 * v0_18 + u0_18 * v1_18) = row1 22 w d 18 := by
    show 2 * w 18 * (u1_18 * v0_18 + u0_18 * v1_18) = 2 * w 18 * (U1 d 18 * U0 (rev 22 d) 3 + U0 d 18 * U1 (rev 22 d) 3)
    rw [hu0_18, hu1_18, hv0_18, hv1_18]
    gll_close
  have r1_19 : 2 * w 19 * (u1_19 * v0_19 + u0_19 * v1_19) = row1 22 w d 19 := by
    show 2 * w 19 * (u1_19 * v0_19 + u0_19 * v1_19) = 2 * w 19 * (U1 d 19 * U0 (rev 22 d) 2 + U0 d 19 * U1 (rev 22 d) 2)
    rw [hu0_19, hu1_19, hv0_19, hv1_19]
    gll_close
  have r1_20 : 2 * w 20 * (u1_20 * v0_20 + u0_20 * 1) = row1 22 w d 20 := by
    show 2 * w 20 * (u1_20 * v0_20 + u0_20 * 1) = 2 * w 20 * (U1 d 20 * U0 (rev 22 d) 1 + U0 d 20 * U1 (rev 22 d) 1)
    rw [hu0_20, hu1_20, hv0_20]
    gll_close
  have r1_21 : 2 * w 21 * (u1_21) = row1 22 w d 21 := by
    show 2 * w 21 * (u1_21) = 2 * w 21 * (U1 d 21 * U0 (rev 22 d) 0 + U0 d 21 * U1 (rev 22 d) 0)
    rw [hu1_21]
    gll_close
  have r2_0 : 4 * w 0 * (1 * v2_00) = row2 22 w d 0 := by
    show 4 * w 0 * (1 * v2_00) = 4 * w 0 * (U2 d 0 * U0 (rev 22 d) 21 + 2 * U1 d 0 * U1 (rev 22 d) 21 + U0 d 0 * U2 (rev 22 d) 21)
    rw [hv2_00]
    gll_close
  have r2_1 : 4 * w 1 * (2 * 1 * v1_01 + u0_01 * v2_01) = row2 22 w d 1 := by
    show 4 * w 1 * (2 * 1 * v1_01 + u0_01 * v2_01) = 4 * w 1 * (U2 d 1 * U0 (rev 22 d) 20 + 2 * U1 d 1 * U1 (rev 22 d) 20 + U0 d 1 * U2 (rev 22 d) 20)
    rw [hu0_01, hv1_01, hv2_01]
    gll_close
  have r2_2 : 4 * w 2 * (2 * v0_02 + 2 * u1_02 * v1_02 + u0_02 * v2_02) = row2 22 w d 2 := by
    show 4 * w 2 * (2 * v0_02 + 2 * u1_02 * v1_02 + u0_02 * v2_02) = 4 * w 2 * (U2 d 2 * U0 (rev 22 d) 19 + 2 * U1 d 2 * U1 (rev 22 d) 19 + U0 d 2 * U2 (rev 22 d) 19)
    rw [hu0_02, hu1_02, hv0_02, hv1_02, hv2_02]
    gll_close
  have r2_3 : 4 * w 3 * (u2_03 * v0_03 + 2 * u1_03 * v1_03 + u0_03 * v2_03) = row2 22 w d 3 := by
    show 4 * w 3 * (u2_03 * v0_03 + 2 * u1_03 * v1_03 + u0_03 * v2_03) = 4 * w 3 * (U2 d 3 * U0 (rev 22 d) 18 + 2 * U1 d 3 * U1 (rev 22 d) 18 + U0 d 3 * U2 (rev 22 d) 18)
    rw [hu0_03, hu1_03, hu2_03, hv0_03, hv1_03, hv2_03]
    gll_close
  have r2_4 : 4 * w 4 * (u2_04 * v0_04 + 2 * u1_04 * v1_04 + u0_04 * v2_04) = row2 22 w d 4 := by
    show 4 * w 4 * (u2_04 * v0_04 + 2 * u1_04 * v1_04 + u0_04 * v2_04) = 4 * w 4 * (U2 d 4 * U0 (rev 22 d) 17 + 2 * U1 d 4 * U1 (rev 22 d) 17 + U0 d 4 * U2 (rev 22 d) 17)
    rw [hu0_04, hu1_04, hu2_04, hv0_04, hv1_04, hv2_04]
    gll_close
  have r2_5 : 4 * w 5 * (u2_05 * v0_05 + 2 * u1_05 * v1_05 + u0_05 * v2_05) = row2 22 w d 5 := by
    show 4 * w 5 * (u2_05 * v0_05 + 2 * u1_05 * v1_05 + u0_05 * v2_05) = 4 * w 5 * (U2 d 5 * U0 (rev 22 d) 16 + 2 * U1 d 5 * U1 (rev 22 d) 16 + U0 d 5 * U2 (rev 22 d) 16)
    rw [hu0_05, hu1_05, hu2_05, hv0_05, hv1_05, hv2_05]
    gll_close
  have r2_6 : 4 * w 6 * (u2_06 * v0_06 + 2 * u1_06 * v1_06 + u0_06 * v2_06) = row2 22 w d 6 := by
    show 4 * w 6 * (u2_06 * v0_06 + 2 * u1_06 * v1_06 + u0_06 * v2_06) = 4 * w 6 * (U2 d 6 * U0 (rev 22 d) 15 + 2 * U1 d 6 * U1 (rev 22 d) 15 + U0 d 6 * U2 (rev 22 d) 15)
    rw [hu0_06, hu1_06, hu2_06, hv0_06, hv1_06, hv2_06]
    gll_close
  have r2_7 : 4 * w 7 * (u2_07 * v0_07 + 2 * u1_07 * v1_07 + u0_07 * v2_07) = row2 22 w d 7 := by
    show 4 * w 7 * (u2_07 * v0_07 + 2 * u1_07 * v1_07 + u0_07 * v2_07) = 4 * w 7 * (U2 d 7 * U0 (rev 22 d) 14 + 2 * U1 d 7 * U1 (rev 22 d) 14 + U0 d 7 * U2 (rev 22 d) 14)
    rw [hu0_07, hu1_07, hu2_07, hv0_07, hv1_07, hv2_07]
    gll_close
  have r2_8 : 4 * w 8 * (u2_08 * v0_08 + 2 * u1_08 * v1_08 + u0_08 * v2_08) = row2 22 w d 8 := by
    show 4 * w 8 * (u2_08 * v0_08 + 2 * u1_08 * v1_08 + u0_08 * v2_08) = 4 * w 8 * (U2 d 8 * U0 (rev 22 d) 13 + 2 * U1 d 8 * U1 (rev 22 d) 13 + U0 d 8 * U2 (rev 22 d) 13)
    rw [hu0_08, hu1_08, hu2_08, hv0_08, hv1_08, hv2_08]
    gll_close
  have r2_9 : 4 * w 9 * (u2_09 * v0_09 + 2 * u1_09 * v1_09 + u0_09 * v2_09) = row2 22 w d 9 := by
    show 4 * w 9 * (u2_09 * v0_09 + 2 * u1_09 * v1_09 + u0_09 * v2_09) = 4 * w 9 * (U2 d 9 * U0 (rev 22 d) 12 + 2 * U1 d 9 * U1 (rev 22 d) 12 + U0 d 9 * U2 (rev 22 d) 12)
    rw [hu0_09, hu1_09, hu2_09, hv0_09, hv1_09, hv2_09]
    gll_close
  have r2_10 : 4 * w 10 * (u2_10 * v0_10 + 2 * u1_10 * v1_10 + u0_10 * v2_10) = row2 22 w d 10 := by
    show 4 * w 10 * (u2_10 * v0_10 + 2 * u1_10 * v1_10 + u0_10 * v2_10) = 4 * w 10 * (U2 d 10 * U0 (rev 22 d) 11 + 2 * U1 d 10 * U1 (rev 22 d) 11 + U0 d 10 * U2 (rev 22 d) 11)
    rw [hu0_10, hu1_10, hu2_10, hv0_10, hv1_10, hv2_10]
    gll_close
  have r2_11 : 4 * w 11 * (u2_11 * v0_11 + 2 * u1_11 * v1_11 + u0_11 * v2_11) = row2 22 w d 11 := by
    show 4 * w 11 * (u2_11 * v0_11 + 2 * u1_11 * v1_11 + u0_11 * v2_11) = 4 * w 11 * (U2 d 11 * U0 (rev 22 d) 10 + 2 * U1 d 11 * U1 (rev 22 d) 10 + U0 d 11 * U2 (rev 22 d) 10)
    rw [hu0_11, hu1_11, hu2_11, hv0_11, hv1_11, hv2_11]
    gll_close
  have r2_12 : 4 * w 12 * (u2_12 * v0_12 + 2 * u1_12 * v1_12 + u0_12 * v2_12) = row2 22 w d 12 := by
    show 4 * w 12 * (u2_12 * v0_12 + 2 * u1_12 * v1_12 + u0_12 * v2_12) = 4 * w 12 * (U2 d 12 * U0 (rev 22 d) 9 + 2 * U1 d 12 * U1 (rev 22 d) 9 + U0 d 12 * U2 (rev 22 d) 9)
    rw [hu0_12, hu1_12, hu2_12, hv0_12, hv1_12, hv2_12]
    gll_close
  have r2_13 : 4 * w 13 * (u2_13 * v0_13 + 2 * u1_13 * v1_13 + u0_13 * v2_13) = row2 22 w d 13 := by
    show 4 * w 13 * (u2_13 * v0_13 + 2 * u1_13 * v1_13 + u0_13 * v2_13) = 4 * w 13 * (U2 d 13 * U0 (rev 22 d) 8 + 2 * U1 d 13 * U1 (rev 22 d) 8 + U0 d 13 * U2 (rev 22 d) 8)
    rw [hu0_13, hu1_13, hu2_13, hv0_13, hv1_13, hv2_13]
    gll_close
  have r2_14 : 4 * w 14 * (u2_14 * v0_14 + 2 * u1_14 * v1_14 + u0_14 * v2_14) = row2 22 w d 14 := by
    show 4 * w 14 * (u2_14 * v0_14 + 2 * u1_14 * v1_14 + u0_14 * v2_14) = 4 * w 14 * (U2 d 14 * U0 (rev 22 d) 7 + 2 * U1 d 14 * U1 (rev 22 d) 7 + U0 d 14 * U2 (rev 22 d) 7)
    rw [hu0_14, hu1_14, hu2_14, hv0_14, hv1_14, hv2_14]
    gll_close
  have r2_15 : 4 * w 15 * (u2_15 * v0_15 + 2 * u1_15 * v1_15 + u0_15 * v2_15) = row2 22 w d 15 := by
    show 4 * w 15 * (u2_15 * v0_15 + 2 * u1_15 * v1_15 + u0_15 * v2_15) = 4 * w 15 * (U2 d 15 * U0 (rev 22 d) 6 + 2 * U1 d 15 * U1 (rev 22 d) 6 + U0 d 15 * U2 (rev 22 d) 6)
    rw [hu0_15, hu1_15, hu2_15, hv0_15, hv1_15, hv2_15]
    gll_close
  have r2_16 : 4 * w 16 * (u2_16 * v0_16 + 2 * u1_16 * v1_16 + u0_16 * v2_16) = row2 22 w d 16 := by
    show 4 * w 16 * (u2_16 * v0_16 + 2 * u1_16 * v1_16 + u0_16 * v2_16) = 4 * w 16 * (U2 d 16 * U0 (rev 22 d) 5 + 2 * U1 d 16 * U1 (rev 22 d) 5 + U0 d 16 * U2 (rev 22 d) 5)
    rw [hu0_16, hu1_16, hu2_16, hv0_16, hv1_16, hv2_16]
    gll_close
  have r2_17 : 4 * w 17 * (u2_17 * v0_17 + 2 * u1_17 * v1_17 + u0_17 * v2_17) = row2 22 w d 17 := by
    show 4 * w 17 * (u2_17 * v0_17 + 2 * u1_17 * v1_17 + u0_17 * v2_17) = 4 * w 17 * (U2 d 17 * U0 (rev 22 d) 4 + 2 * U1 d 17 * U1 (rev 22 d) 4 + U0 d 17 * U2 (rev 22 d) 4)
    rw [hu0_17, hu1_17, hu2_17, hv0_17, hv1_17, hv2_17]
    gll_close
  have r2_18 : 4 * w 18 * (u2_18 * v0_18 + 2 * u1_18 * v1_18 + u0_18 * v2_18) = row2 22 w d 18 := by
    show 4 * w 18 * (u2_18 * v0_18 + 2 * u1_18 * v1_18 + u0_18 * v2_18) = 4 * w 18 * (U2 d 18 * U0 (rev 22 d) 3 + 2 * U1 d 18 * U1 (rev 22 d) 3 + U0 d 18 * U2 (rev 22 d) 3)
    rw [hu0_18, hu1_18, hu2_18, hv0_18, hv1_18, hv2_18]
    gll_close
  have r2_19 : 4 * w 19 * (u2_19 * v0_19 + 2 * u1_19 * v1_19 + u0_19 * 2) = row2 22 w d 19 := by
    show 4 * w 19 * (u2_19 * v0_19 + 2 * u1_19 * v1_19 + u0_19 * 2) = 4 * w 19 * (U2 d 19 * U0 (rev 22 d) 2 + 2 * U1 d 19 * U1 (rev 22 d) 2 + U0 d 19 * U2 (rev 22 d) 2)
    rw [hu0_19, hu1_19, hu2_19, hv0_19, hv1_19]
    gll_close
  have r2_20 : 4 * w 20 * (u2_20 * v0_20 + 2 * u1_20 * 1) = row2 22 w d 20 := by
    show 4 * w 20 * (u2_20 * v0_20 + 2 * u1_20 * 1) = 4 * w 20 * (U2 d 20 * U0 (rev 22 d) 1 + 2 * U1 d 20 * U1 (rev 22 d) 1 + U0 d 20 * U2 (rev 22 d) 1)
    rw [hu1_20, hu2_20, hv0_20]
    gll_close
  have r2_21 : 4 * w 21 * (u2_21 * 1) = row2 22 w d 21 := by
    show 4 * w 21 * (u2_21 * 1) = 4 * w 21 * (U2 d 21 * U0 (rev 22 d) 0 + 2 * U1 d 21 * U1 (rev 22 d) 0 + U0 d 21 * U2 (rev 22 d) 0)
    rw [hu2_21]
    gll_close
  have L0 : [w 0 * 1 * v0_00, w 1 * u0_01 * v0_01, w 2 * u0_02 * v0_02, w 3 * u0_03 * v0_03, w 4 * u0_04 * v0_04, w 5 * u0_05 * v0_05, w 6 * u0_06 * v0_06, w 7 * u0_07 * v0_07, w 8 * u0_08 * v0_08, w 9 * u0_09 * v0_09, w 10 * u0_10 * v0_10, w 11 * u0_11 * v0_11, w 12 * u0_12 * v0_12, w 13 * u0_13 * v0_13, w 14 * u0_14 * v0_14, w 15 * u0_15 * v0_15, w 16 * u0_16 * v0_16, w 17 * u0_17 * v0_17, w 18 * u0_18 * v0_18, w 19 * u0_19 * v0_19, w 20 * u0_20 * v0_20, w 21 * u0_21 * 1] = (List.range 22).map (row0 22 w d) :=
    (congrArg₂ List.cons r0_0 (congrArg₂ List.cons r0_1 (congrArg₂ List.cons r0_2 (congrArg₂ List.cons r0_3 (congrArg₂ List.cons r0_4 (congrArg₂ List.cons r0_5 (congrArg₂ List.cons r0_6 (congrArg₂ List.cons r0_7 (congrArg₂ List.cons r0_8 (congrArg₂ List.cons r0_9 (congrArg₂ List.cons r0_10 (congrArg₂ List.cons r0_11 (congrArg₂ List.cons r0_12 (congrArg₂ List.cons r0_13 (congrArg₂ List.cons r0_14 (congrArg₂ List.cons r0_15 (congrArg₂ List.cons r0_16 (congrArg₂ List.cons r0_17 (congrArg₂ List.cons r0_18 (congrArg₂ List.cons r0_19 (congrArg₂ List.cons r0_20 (congrArg₂ List.cons r0_21 rfl))))))))))))))))))))))
  have L1 : [2 * w 0 * (v1_00), 2 * w 1 * (1 * v0_01 + u0_01 * v1_01), 2 * w 2 * (u1_02 * v0_02 + u0_02 * v1_02), 2 * w 3 * (u1_03 * v0_03 + u0_03 * v1_03), 2 * w 4 * (u1_04 * v0_04 + u0_04 * v1_04), 2 * w 5 * (u1_05 * v0_05 + u0_05 * v1_05), 2 * w 6 * (u1_06 * v0_06 + u0_06 * v1_06), 2 * w 7 * (u1_07 * v0_07 + u0_07 * v1_07), 2 * w 8 * (u1_08 * v0_08 + u0_08 * v1_08), 2 * w 9 * (u1_09 * v0_09 + u0_09 * v1_09), 2 * w 10 * (u1_10 * v0_10 + u0_10 * v1_10), 2 * w 11 * (u1_11 * v0_11 + u0_11 * v1_11), 2 * w 12 * (u1_12 * v0_12 + u0_12 * v1_12), 2 * w 13 * (u1_13 * v0_13 + u0_13 * v1_13), 2 * w 14 * (u1_14 * v0_14 + u0_14 * v1_14), 2 * w 15 * (u1_15 * v0_15 + u0_15 * v1_15), 2 * w 16 * (u1_16 * v0_16 + u0_16 * v1_16), 2 * w 17 * (u1_17 * v0_17 + u0_17 * v1_17), 2 * w 18 * (u1_18 * v0_18 + u0_18 * v1_18), 2 * w 19 * (u1_19 * v0_19 + u0_19 * v1_19), 2 * w 20 * (u1_20 * v0_20 + u0_20 * 1), 2 * w 21 * (u1_21)] = (List.range 22).map (row1 22 w d) :=
    (congrArg₂ List.cons r1_0 (congrArg₂ List.cons r1_1 (congrArg₂ List.cons r1_2 (congrArg₂ List.cons r1_3 (congrArg₂ List.cons r1_4 (congrArg₂ List.cons r1_5 (congrArg₂ List.cons r1_6 (congrArg₂ List.cons r1_7 (congrArg₂ List.cons r1_8 (congrArg₂ List.cons r1_9 (congrArg₂ List.cons r1_10 (congrArg₂ List.cons r1_11 (congrArg₂ List.cons r1_12 (congrArg₂ List.cons r1_13 (congrArg₂ List.cons r1_14 (congrArg₂ List.cons r1_15 (congrArg₂ List.cons r1_16 (congrArg₂ List.cons r1_17 (congrArg₂ List.cons r1_18 (congrArg₂ List.cons r1_19 (congrArg₂ List.cons r1_20 (congrArg₂ List.cons r1_21 rfl))))))))))))))))))))))
  have L2 : [4 * w 0 * (1 * v2_00), 4 * w 1 * (2 * 1 * v1_01 + u0_01 * v2_01), 4 * w 2 * (2 * v0_02 + 2 * u1_02 * v1_02 + u0_02 * v2_02), 4 * w 3 * (u2_03 * v0_03 + 2 * u1_03 * v1_03 + u0_03 * v2_03), 4 * w 4 * (u2_04 * v0_04 + 2 * u1_04 * v1_04 + u0_04 * v2_04), 4 * w 5 * (u2_05 * v0_05 + 2 * u1_05 * v1_05 + u0_05 * v2_05), 4 * w 6 * (u2_06 * v0_06 + 2 * u1_06 * v1_06 + u0_06 * v2_06), 4 * w 7 * (u2_07 * v0_07 + 2 * u1_07 * v1_07 + u0_07 * v2_07), 4 * w 8 * (u2_08 * v0_08 + 2 * u1_08 * v1_08 + u0_08 * v2_08), 4 * w 9 * (u2_09 * v0_09 + 2 * u1_09 * v1_09 + u0_09 * v2_09), 4 * w 10 * (u2_10 * v0_10 + 2 * u1_10 * v1_10 + u0_10 * v2_10), 4 * w 11 * (u2_11 * v0_11 + 2 * u1_11 * v1_11 + u0_11 * v2_11), 4 * w 12 * (u2_12 * v0_12 + 2 * u1_12 * v1_12 + u0_12 * v2_12), 4 * w 13 * (u2_13 * v0_13 + 2 * u1_13 * v1_13 + u0_13 * v2_13), 4 * w 14 * (u2_14 * v0_14 + 2 * u1_14 * v1_14 + u0_14 * v2_14), 4 * w 15 * (u2_15 * v0_15 + 2 * u1_15 * v1_15 + u0_15 * v2_15), 4 * w 16 * (u2_16 * v0_16 + 2 * u1_16 * v1_16 + u0_16 * v2_16), 4 * w 17 * (u2_17 * v0_17 + 2 * u1_17 * v1_17 + u0_17 * v2_17), 4 * w 18 * (u2_18 * v0_18 + 2 * u1_18 * v1_18 + u0_18 * v2_18), 4 * w 19 * (u2_19 * v0_19 + 2 * u1_19 * v1_19 + u0_19 * 2), 4 * w 20 * (u2_20 * v0_20 + 2 * u1_20 * 1), 4 * w 21 * (u2_21 * 1)] = (List.range 22).map (row2 22 w d) :=
    (congrArg₂ List.cons r2_0 (congrArg₂ List.cons r2_1 (congrArg₂ List.cons r2_2 (congrArg₂ List.cons r2_3 (congrArg₂ List.cons r2_4 (congrArg₂ List.cons r2_5 (congrArg₂ List.cons r2_6 (congrArg₂ List.cons r2_7 (congrArg₂ List.cons r2_8 (congrArg₂ List.cons r2_9 (congrArg₂ List.cons r2_10 (congrArg₂ List.cons r2_11 (congrArg₂ List.cons r2_12 (congrArg₂ List.cons r2_13 (congrArg₂ List.cons r2_14 (congrArg₂ List.cons r2_15 (congrArg₂ List.cons r2_16 (congrArg₂ List.cons r2_17 (congrArg₂ List.cons r2_18 (congrArg₂ List.cons r2_19 (congrArg₂ List.cons r2_20 (congrArg₂ List.cons r2_21 rfl))))))))))))))))))))))
  exact congrArg₂ Prod.mk L0 (congrArg₂ Prod.mk L1 L2)

theorem gllLag23_eq (g w : Nat → K) (xh : K) : gllLag23 g w xh = rowLists 23 w (dx (gnode 23 g) xh) := by
  unfold gllLag23
  extract_lets x d00 d01 d02 d03 d04 d05 d06 d07 d08 d09 d10 d11 d12 d13 d14 d15 d16 d17 d18 d19 d20 d21 d22 u0_01 u0_02 u0_03 u0_04 u0_05 u0_06 u0_07 u0_08 u0_09 u0_10 u0_11 u0_12 u0_13 u0_14 u0_15 u0_16 u0_17 u0_18 u0_19 u0_20 u0_21 u0_22 v0_21 v0_20 v0_19 v0_18 v0_17 v0_16 v0_15 v0_14 v0_13 v0_12 v0_11 v0_10 v0_09 v0_08 v0_07 v0_06 v0_05 v0_04 v0_03 v0_02 v0_01 v0_00 u1_02 u1_03 u1_04 u1_05 u1_06 u1_07 u1_08 u1_09 u1_10 u1_11 u1_12 u1_13 u1_14 u1_15 u1_16 u1_17 u1_18 u1_19 u1_20 u1_21 u1_22 v1_20 v1_19 v1_18 v1_17 v1_16 v1_15 v1_14 v1_13 v1_12 v1_11 v1_10 v1_09 v1_08 v1_07 v1_06 v1_05 v1_04 v1_03 v1_02 v1_01 v1_00 u2_03 u2_04 u2_05 u2_06 u2_07 u2_08 u2_09 u2_10 u2_11 u2_12 u2_13 u2_14 u2_15 u2_16 u2_17 u2_18 u2_19 u2_20 u2_21 u2_22 v2_19 v2_18 v2_17 v2_16 v2_15 v2_14 v2_13 v2_12 v2_11 v2_10 v2_09 v2_08 v2_07 v2_06 v2_05 v2_04 v2_03 v2_02 v2_01 v2_00
  generalize hd : dx (gnode 23 g) xh = d
  have hd00 : d00 = d 0 := by
    rw [← hd]; show xh * 2 + 2 = 2 * (xh - (-1)); ring
  have hd01 : d01 = d 1 := by
    rw [← hd]; show xh * 2 + 2 * g 0 = 2 * (xh - (-g 0)); ring
  have hd02 : d02 = d 2 := by
    rw [← hd]; show xh * 2 + 2 * g 1 = 2 * (xh - (-g 1)); ring
  have hd03 : d03 = d 3 := by
    rw [← hd]; show xh * 2 + 2 * g 2 = 2 * (xh - (-g 2)); ring
  have hd04 : d04 = d 4 := by
    rw [← hd]; show xh * 2 + 2 * g 3 = 2 * (xh - (-g 3)); ring
  have hd05 : d05 = d 5 := by
    rw [← hd]; show xh * 2 + 2 * g 4 = 2 * (xh - (-g 4)); ring
  have hd06 : d06 = d 6 := by
    rw [← hd]; show xh * 2 + 2 * g 5 = 2 * (xh - (-g 5)); ring
  have hd07 : d07 = d 7 := by
    rw [← hd]; show xh * 2 + 2 * g 6 = 2 * (xh - (-g 6)); ring
  have hd08 : d08 = d 8 := by
    rw [← hd]; show xh * 2 + 2 * g 7 = 2 * (xh - (-g 7)); ring
  have hd09 : d09 = d 9 := by
    rw [← hd]; show xh * 2 + 2 * g 8 = 2 * (xh - (-g 8)); ring
  have hd10 : d10 = d 10 := by
    rw [← hd]; show xh * 2 + 2 * g 9 = 2 * (xh - (-g 9)); ring
  have hd11 : d11 = d 11 := by
    rw [← hd]; show xh * 2 = 2 * (xh - (0)); ring
  have hd12 : d12 = d 12 := by
    rw [← hd]; show xh * 2 - 2 * g 9 = 2 * (xh - (g 9)); ring
  have hd13 : d13 = d 13 := by
    rw [← hd]; show xh * 2 - 2 * g 8 = 2 * (xh - (g 8)); ring
  have hd14 : d14 = d 14 := by
    rw [← hd]; show xh * 2 - 2 * g 7 = 2 * (xh - (g 7)); ring
  have hd15 : d15 = d 15 := by
    rw [← hd]; show xh * 2 - 2 * g 6 = 2 * (xh - (g 6)); ring
  have hd16 : d16 = d 16 := by
    rw [← hd]; show xh * 2 - 2 * g 5 = 2 * (xh - (g 5)); ring
  have hd17 : d17 = d 17 := by
    rw [← hd]; show xh * 2 - 2 * g 4 = 2 * (xh - (g 4)); ring
  have hd18 : d18 = d 18 := by
    rw [← hd]; show xh * 2 - 2 * g 3 = 2 * (xh - (g 3)); ring
  have hd19 : d19 = d 19 := by
    rw [← hd]; show xh * 2 - 2 * g 2 = 2 * (xh - (g 2)); ring
  have hd20 : d20 = d 20 := by
    rw [← hd]; show xh * 2 - 2 * g 1 = 2 * (xh - (g 1)); ring
  have hd21 : d21 = d 21 := by
    rw [← hd]; show xh * 2 - 2 * g 0 = 2 * (xh - (g 0)); ring
  have hd22 : d22 = d 22 := by
    rw [← hd]; show xh * 2 - 2 = 2 * (xh - (1)); ring
  have hu0_01 : u0_01 = U0 d 1 := by
    show 1 * d00 = U0 d 0 * d 0
    rw [hd00]
    gll_close
  have hu0_02 : u0_02 = U0 d 2 := by
    show u0_01 * d01 = U0 d 1 * d 1
    rw [hd01, hu0_01]
    gll_close
  have hu0_03 : u0_03 = U0 d 3 := by
    show u0_02 * d02 = U0 d 2 * d 2
    rw [hd02, hu0_02]
    gll_close
  have hu0_04 : u0_04 = U0 d 4 := by
    show u0_03 * d03 = U0 d 3 * d 3
    rw [hd03, hu0_03]
    gll_close
  have hu0_05 : u0_05 = U0 d 5 := by
    show u0_04 * d04 = U0 d 4 * d 4
    rw [hd04, hu0_04]
    gll_close
  have hu0_06 : u0_06 = U0 d 6 := by
    show u0_05 * d05 = U0 d 5 * d 5
    rw [hd05, hu0_05]
    gll_close
  have hu0_07 : u0_07 = U0 d 7 := by
    show u0_06 * d06 = U0 d 6 * d 6
    rw [hd06, hu0_06]
    gll_close
  have hu0_08 : u0_08 = U0 d 8 := by
    show u0_07 * d07 = U0 d 7 * d 7
    rw [hd07, hu0_07]
    gll_close
  have hu0_09 : u0_09 = U0 d 9 := by
    show u0_08 * d08 = U0 d 8 * d 8
    rw [hd08, hu0_08]
    gll_close
  have hu0_10 : u0_10 = U0 d 10 := by
    show u0_09 * d09 = U0 d 9 * d 9
    rw [hd09, hu0_09]
    gll_close
  have hu0_11 : u0_11 = U0 d 11 := by
    show u0_10 * d10 = U0 d 10 * d 10
    rw [hd10, hu0_10]
    gll_close
  have hu0_12 : u0_12 = U0 d 12 := by
    show u0_11 * d11 = U0 d 11 * d 11
    rw [hd11, hu0_11]
    gll_close
  have hu0_13 : u0_13 = U0 d 13 := by
    show u0_12 * d12 = U0 d 12 * d 12
    rw [hd12, hu0_12]
    gll_close
  have hu0_14 : u0_14 = U0 d 14 := by
    show u0_13 * d13 = U0 d 13 * d 13
    rw [hd13, hu0_13]
    gll_close
  have hu0_15 : u0_15 = U0 d 15 := by
    show u0_14 * d14 = U0 d 14 * d 14
    rw [hd14, hu0_14]
    gll_close
  have hu0_16 : u0_16 = U0 d 16 := by
    show u0_15 * d15 = U0 d 15 * d 15
    rw [hd15, hu0_15]
    gll_close
  have hu0_17 : u0_17 = U0 d 17 := by
    show u0_16 * d16 = U0 d 16 * d 16
    rw [hd16, hu0_16]
    gll_close
  have hu0_18 : u0_18 = U0 d 18 := by
    show u0_17 * d17 = U0 d 17 * d 17
    rw [hd17, hu0_17]
    gll_close
  have hu0_19 : u0_19 = U0 d 19 := by
    show u0_18 * d18 = U0 d 18 * d 18
    rw [hd18, hu0_18]
    gll_close
  have hu0_20 : u0_20 = U0 d 20 := by
    show u0_19 * d19 = U0 d 19 * d 19
    rw [hd19, hu0_19]
    gll_close
  have hu0_21 : u0_21 = U0 d 21 := by
    show u0_20 * d20 = U0 d 20 * d 20
    rw [hd20, hu0_20]
    gll_close
  have hu0_22 : u0_22 = U0 d 22 := by
    show u0_21 * d21 = U0 d 21 * d 21
    rw [hd21, hu0_21]
    gll_close
  have hv0_21 : v0_21 = U0 (rev 23 d) 1 := by
    show d22 * 1 = U0 (rev 23 d) 0 * d 22
    rw [hd22]
    gll_close
  have hv0_20 : v0_20 = U0 (rev 23 d) 2 := by
    show d21 * v0_21 = U0 (rev 23 d) 1 * d 21
    rw [hd21, hv0_21]
    gll_close
  have hv0_19 : v0_19 = U0 (rev 23 d) 3 := by
    show d20 * v0_20 = U0 (rev 23 d) 2 * d 20
    rw [hd20, hv0_20]
    gll_close
  have hv0_18 : v0_18 = U0 (rev 23 d) 4 := by
    show d19 * v0_19 = U0 (rev 23 d) 3 * d 19
    rw [hd19, hv0_19]
    gll_close
  have hv0_17 : v0_17 = U0 (rev 23 d) 5 := by
    show d18 * v0_18 = U0 (rev 23 d) 4 * d 18
    rw [hd18, hv0_18]
    gll_close
  have hv0_16 : v0_16 = U0 (rev 23 d) 6 := by
    show d17 * v0_17 = U0 (rev 23 d) 5 * d 17
    rw [hd17, hv0_17]
    gll_close
  have hv0_15 : v0_15 = U0 (rev 23 d) 7 := by
    show d16 * v0_16 = U0 (rev 23 d) 6 * d 16
    rw [hd16, hv0_16]
    gll_close
  have hv0_14 : v0_14 = U0 (rev 23 d) 8 := by
    show d15 * v0_15 = U0 (rev 23 d) 7 * d 15
    rw [hd15, hv0_15]
    gll_close
  have hv0_13 : v0_13 = U0 (rev 23 d) 9 := by
    show d14 * v0_14 = U0 (rev 23 d) 8 * d 14
    rw [hd14, hv0_14]
    gll_close
  have hv0_12 : v0_12 = U0 (rev 23 d) 10 := by
    show d13 * v0_13 = U0 (rev 23 d) 9 * d 13
    rw [hd13, hv0_13]
    gll_close
  have hv0_11 : v0_11 = U0 (rev 23 d) 11 := by
    show d12 * v0_12 = U0 (rev 23 d) 10 * d 12
    rw [hd12, hv0_12]
    gll_close
  have hv0_10 : v0_10 = U0 (rev 23 d) 12 := by
    show d11 * v0_11 = U0 (rev 23 d) 11 * d 11
    rw [hd11, hv0_11]
    gll_close
  have hv0_09 : v0_09 = U0 (rev 23 d) 13 := by
    show d10 * v0_10 = U0 (rev 23 d) 12 * d 10
    rw [hd10, hv0_10]
    gll_close
  have hv0_08 : v0_08 = U0 (rev 23 d) 14 := by
    show d09 * v0_09 = U0 (rev 23 d) 13 * d 9
    rw [hd09, hv0_09]
    gll_close
  have hv0_07 : v0_07 = U0 (rev 23 d) 15 := by
    show d08 * v0_08 = U0 (rev 23 d) 14 * d 8
    rw [hd08, hv0_08]
    gll_close
  have hv0_06 : v0_06 = U0 (rev 23 d) 16 := by
    show d07 * v0_07 = U0 (rev 23 d) 15 * d 7
    rw [hd07, hv0_07]
    gll_close
  have hv0_05 : v0_05 = U0 (rev 23 d) 17 := by
    show d06 * v0_06 = U0 (rev 23 d) 16 * d 6
    rw [hd06, hv0_06]
    gll_close
  have hv0_04 : v0_04 = U0 (rev 23 d) 18 := by
    show d05 * v0_05 = U0 (rev 23 d) 17 * d 5
    rw [hd05, hv0_05]
    gll_close
  have hv0_03 : v0_03 = U0 (rev 23 d) 19 := by
    show d04 * v0_04 = U0 (rev 23 d) 18 * d 4
    rw [hd04, hv0_04]
    gll_close
  have hv0_02 : v0_02 = U0 (rev 23 d) 20 := by
    show d03 * v0_03 = U0 (rev 23 d) 19 * d 3
    rw [hd03, hv0_03]
    gll_close
  have hv0_01 : v0_01 = U0 (rev 23 d) 21 := by
    show d02 * v0_02 = U0 (rev 23 d) 20 * d 2
    rw [hd02, hv0_02]
    gll_close
  have hv0_00 : v0_00 = U0 (rev 23 d) 22 := by
    show d01 * v0_01 = U0 (rev 23 d) 21 * d 1
    rw [hd01, hv0_01]
    gll_close
  have hu1_02 : u1_02 = U1 d 2 := by
    show 1 * d01 + u0_01 = U1 d 1 * d 1 + U0 d 1
    rw [hd01, hu0_01]
    gll_close
  have hu1_03 : u1_03 = U1 d 3 := by
    show u1_02 * d02 + u0_02 = U1 d 2 * d 2 + U0 d 2
    rw [hd02, hu0_02, hu1_02]
    gll_close
  have hu1_04 : u1_04 = U1 d 4 := by
    show u1_03 * d03 + u0_03 = U1 d 3 * d 3 + U0 d 3
    rw [hd03, hu0_03, hu1_03]
    gll_close
  have hu1_05 : u1_05 = U1 d 5 := by
    show u1_04 * d04 + u0_04 = U1 d 4 * d 4 + U0 d 4
    rw [hd04, hu0_04, hu1_04]
    gll_close
  have hu1_06 : u1_06 = U1 d 6 := by
    show u1_05 * d05 + u0_05 = U1 d 5 * d 5 + U0 d 5
    rw [hd05, hu0_05, hu1_05]
    gll_close
  have hu1_07 : u1_07 = U1 d 7 := by
    show u1_06 * d06 + u0_06 = U1 d 6 * d 6 + U0 d 6
    rw [hd06, hu0_06, hu1_06]
    gll_close
  have hu1_08 : u1_08 = U1 d 8 := by
    show u1_07 * d07 + u0_07 = U1 d 7 * d 7 + U0 d 7
    rw [hd07, hu0_07, hu1_07]
    gll_close
  have hu1_09 : u1_09 = U1 d 9 := by
    show u1_08 * d08 + u0_08 = U1 d 8 * d 8 + U0 d 8
    rw [hd08, hu0_08, hu1_08]
    gll_close
  have hu1_10 : u1_10 = U1 d 10 := by
    show u1_09 * d09 + u0_09 = U1 d 9 * d 9 + U0 d 9
    rw [hd09, hu0_09, hu1_09]
    gll_close
  have hu1_11 : u1_11 = U1 d 11 := by
    show u1_10 * d10 + u0_10 = U1 d 10 * d 10 + U0 d 10
    rw [hd10, hu0_10, hu1_10]
    gll_close
  have hu1_12 : u1_12 = U1 d 12 := by
    show u1_11 * d11 + u0_11 = U1 d 11 * d 11 + U0 d 11
    rw [hd11, hu0_11, hu1_11]
    gll_close
  have hu1_13 : u1_13 = U1 d 13 := by
    show u1_12 * d12 + u0_12 = U1 d 12 * d 12 + U0 d 12
    rw [hd12, hu0_12, hu1_12]
    gll_close
  have hu1_14 : u1_14 = U1 d 14 := by
    show u1_13 * d13 + u0_13 = U1 d 13 * d 13 + U0 d 13
    rw [hd13, hu0_13, hu1_13]
    gll_close
  have hu1_15 : u1_15 = U1 d 15 := by
    show u1_14 * d14 + u0_14 = U1 d 14 * d 14 + U0 d 14
    rw [hd14, hu0_14, hu1_14]
    gll_close
  have hu1_16 : u1_16 = U1 d 16 := by
    show u1_15 * d15 + u0_15 = U1 d 15 * d 15 + U0 d 15
    rw [hd15, hu0_15, hu1_15]
    gll_close
  have hu1_17 : u1_17 = U1 d 17 := by
    show u1_16 * d16 + u0_16 = U1 d 16 * d 16 + U0 d 16
    rw [hd16, hu0_16, hu1_16]
    gll_close
  have hu1_18 : u1_18 = U1 d 18 := by
    show u1_17 * d17 + u0_17 = U1 d 17 * d 17 + U0 d 17
    rw [hd17, hu0_17, hu1_17]
    gll_close
  have hu1_19 : u1_19 = U1 d 19 := by
    show u1_18 * d18 + u0_18 = U1 d 18 * d 18 + U0 d 18
    rw [hd18, hu0_18, hu1_18]
    gll_close
  have hu1_20 : u1_20 = U1 d 20 := by
    show u1_19 * d19 + u0_19 = U1 d 19 * d 19 + U0 d 19
    rw [hd19, hu0_19, hu1_19]
    gll_close
  have hu1_21 : u1_21 = U1 d 21 := by
    show u1_20 * d20 + u0_20 = U1 d 20 * d 20 + U0 d 20
    rw [hd20, hu0_20, hu1_20]
    gll_close
  have hu1_22 : u1_22 = U1 d 22 := by
    show u1_21 * d21 + u0_21 = U1 d 21 * d 21 + U0 d 21
    rw [hd21, hu0_21, hu1_21]
    gll_close
  have hv1_20 : v1_20 = U1 (rev 23 d) 2 := by
    show d21 * 1 + v0_21 = U1 (rev 23 d) 1 * d 21 + U0 (rev 23 d) 1
    rw [hd21, hv0_21]
    gll_close
  have hv1_19 : v1_19 = U1 (rev 23 d) 3 := by
    show d20 * v1_20 + v0_20 = U1 (rev 23 d) 2 * d 20 + U0 (rev 23 d) 2
    rw [hd20, hv0_20, hv1_20]
    gll_close
  have hv1_18 : v1_18 = U1 (rev 23 d) 4 := by
    show d19 * v1_19 + v0_19 = U1 (rev 23 d) 3 * d 19 + U0 (rev 23 d) 3
    rw [hd19, hv0_19, hv1_19]
    gll_close
  have hv1_17 : v1_17 = U1 (rev 23 d) 5 := by
    show d18 * v1_18 + v0_18 = U1 (rev 23 d) 4 * d 18 + U0 (rev 23 d) 4
    rw [hd18, hv0_18, hv1_18]
    gll_close
  have hv1_16 : v1_16 = U1 (rev 23 d) 6 := by
    show d17 * v1_17 + v0_17 = U1 (rev 23 d) 5 * d 17 + U0 (rev 23 d) 5
    rw [hd17, hv0_17, hv1_17]
    gll_close
  have hv1_15 : v1_15 = U1 (rev 23 d) 7 := by
    show d16 * v1_16 + v0_16 = U1 (rev 23 d) 6 * d 16 + U0 (rev 23 d) 6
    rw [hd16, hv0_16, hv1_16]
    gll_close
  have hv1_14 : v1_14 = U1 (rev 23 d) 8 := by
    show d15 * v1_15 + v0_15 = U1 (rev 23 d) 7 * d 15 + U0 (rev 23 d) 7
    rw [hd15, hv0_15, hv1_15]
    gll_close
  have hv1_13 : v1_13 = U1 (rev 23 d) 9 := by
    show d14 * v1_14 + v0_14 = U1 (rev 23 d) 8 * d 14 + U0 (rev 23 d) 8
    rw [hd14, hv0_14, hv1_14]
    gll_close
  have hv1_12 : v1_12 = U1 (rev 23 d) 10 := by
    show d13 * v1_13 + v0_13 = U1 (rev 23 d) 9 * d 13 + U0 (rev 23 d) 9
    rw [hd13, hv0_13, hv1_13]
    gll_close
  have hv1_11 : v1_11 = U1 (rev 23 d) 11 := by
    show d12 * v1_12 + v0_12 = U1 (rev 23 d) 10 * d 12 + U0 (rev 23 d) 10
    rw [hd12, hv0_12, hv1_12]
    gll_close
  have hv1_10 : v1_10 = U1 (rev 23 d) 12 := by
    show d11 * v1_11 + v0_11 = U1 (rev 23 d) 11 * d 11 + U0 (rev 23 d) 11
    rw [hd11, hv0_11, hv1_11]
    gll_close
  have hv1_09 : v1_09 = U1 (rev 23 d) 13 := by
    show d10 * v1_10 + v0_10 = U1 (rev 23 d) 12 * d 10 + U0 (rev 23 d) 12
    rw [hd10, hv0_10, hv1_10]
    gll_close
  have hv1_08 : v1_08 = U1 (rev 23 d) 14 := by
    show d09 * v1_09 + v0_09 = U1 (rev 23 d) 13 * d 9 + U0 (rev 23 d) 13
    rw [hd09, hv0_09, hv1_09]
    gll_close
  have hv1_07 : v1_07 = U1 (rev 23 d) 15 := by
    show d08 * v1_08 + v0_08 = U1 (rev 23 d) 14 * d 8 + U0 (rev 23 d) 14
    rw [hd08, hv0_08, hv1_08]
    gll_close
  have hv1_06 : v1_06 = U1 (rev 23 d) 16 := by
    show d07 * v1_07 + v0_07 = U1 (rev 23 d) 15 * d 7 + U0 (rev 23 d) 15
    rw [hd07, hv0_07, hv1_07]
    gll_close
  have hv1_05 : v1_05 = U1 (rev 23 d) 17 := by
    show d06 * v1_06 + v0_06 = U1 (rev 23 d) 16 * d 6 + U0 (rev 23 d) 16
    rw [hd06, hv0_06, hv1_06]
    gll_close
  have hv1_04 : v1_04 = U1 (rev 23 d) 18 := by
    show d05 * v1_05 + v0_05 = U1 (rev 23 d) 17 * d 5 + U0 (rev 23 d) 17
    rw [hd05, hv0_05, hv1_05]
    gll_close
  have hv1_03 : v1_03 = U1 (rev 23 d) 19 := by
    show d04 * v1_04 + v0_04 = U1 (rev 23 d) 18 * d 4 + U0 (rev 23 d) 18
    rw [hd04, hv0_04, hv1_04]
    gll_close
  have hv1_02 : v1_02 = U1 (rev 23 d) 20 := by
    show d03 * v1_03 + v0_03 = U1 (rev 23 d) 19 * d 3 + U0 (rev 23 d) 19
    rw [hd03, hv0_03, hv1_03]
    gll_close
  have hv1_01 : v1_01 = U1 (rev 23 d) 21 := by
    show d02 * v1_02 + v0_02 = U1 (rev 23 d) 20 * d 2 + U0 (rev 23 d) 20
    rw [hd02, hv0_02, hv1_02]
    gll_close
  have hv1_00 : v1_00 = U1 (rev 23 d) 22 := by
    show d01 * v1_01 + v0_01 = U1 (rev 23 d) 21 * d 1 + U0 (rev 23 d) 21
    rw [hd01, hv0_01, hv1_01]
    gll_close
  have hu2_03 : u2_03 = U2 d 3 := by
    show 2 * d02 + 2 * u1_02 = U2 d 2 * d 2 + 2 * U1 d 2
    rw [hd02, hu1_02]
    gll_close
  have hu2_04 : u2_04 = U2 d 4 := by
    show u2_03 * d03 + 2 * u1_03 = U2 d 3 * d 3 + 2 * U1 d 3
    rw [hd03, hu1_03, hu2_03]
    gll_close
  have hu2_05 : u2_05 = U2 d 5 := by
    show u2_04 * d04 + 2 * u1_04 = U2 d 4 * d 4 + 2 * U1 d 4
    rw [hd04, hu1_04, hu2_04]
    gll_close
  have hu2_06 : u2_06 = U2 d 6 := by
    show u2_05 * d05 + 2 * u1_05 = U2 d 5 * d 5 + 2 * U1 d 5
    rw [hd05, hu1_05, hu2_05]
    gll_close
  have hu2_07 : u2_07 = U2 d 7 := by
    show u2_06 * d06 + 2 * u1_06 = U2 d 6 * d 6 + 2 * U1 d 6
    rw [hd06, hu1_06, hu2_06]
    gll_close
  have hu2_08 : u2_08 = U2 d 8 := by
    show u2_07 * d07 + 2 * u1_07 = U2 d 7 * d 7 + 2 * U1 d 7
    rw [hd07, hu1_07, hu2_07]
    gll_close
  have hu2_09 : u2_09 = U2 d 9 := by
    show u2_08 * d08 + 2 * u1_08 = U2 d 8 * d 8 + 2 * U1 d 8
    rw [hd08, hu1_08, hu2_08]
    gll_close
  have hu2_10 : u2_10 = U2 d 10 := by
    show u2_09 * d09 + 2 * u1_09 = U2 d 9 * d 9 + 2 * U1 d 9
    rw [hd09, hu1_09, hu2_09]
    gll_close
  have hu2_11 : u2_11 = U2 d 11 := by
    show u2_10 * d10 + 2 * u1_10 = U2 d 10 * d 10 + 2 * U1 d 10
    rw [hd10, hu1_10, hu2_10]
    gll_close
  have hu2_12 : u2_12 = U2 d 12 := by
    show u2_11 * d11 + 2 * u1_11 = U2 d 11 * d 11 + 2 * U1 d 11
    rw [hd11, hu1_11, hu2_11]
    gll_close
  have hu2_13 : u2_13 = U2 d 13 := by
    show u2_12 * d12 + 2 * u1_12 = U2 d 12 * d 12 + 2 * U1 d 12
    rw [hd12, hu1_12, hu2_12]
    gll_close
  have hu2_14 : u2_14 = U2 d 14 := by
    show u2_13 * d13 + 2 * u1_13 = U2 d 13 * d 13 + 2 * U1 d 13
    rw [hd13, hu1_13, hu2_13]
    gll_close
  have hu2_15 : u2_15 = U2 d 15 := by
    show u2_14 * d14 + 2 * u1_14 = U2 d 14 * d 14 + 2 * U1 d 14
    rw [hd14, hu1_14, hu2_14]
    gll_close
  have hu2_16 : u2_16 = U2 d 16 := by
    show u2_15 * d15 + 2 * u1_15 = U2 d 15 * d 15 + 2 * U1 d 15
    rw [hd15, hu1_15, hu2_15]
    gll_close
  have hu2_17 : u2_17 = U2 d 17 := by
    show u2_16 * d16 + 2 * u1_16 = U2 d 16 * d 16 + 2 * U1 d 16
    rw [hd16, hu1_16, hu2_16]
    gll_close
  have hu2_18 : u2_18 = U2 d 18 := by
    show u2_17 * d17 + 2 * u1_17 = U2 d 17 * d 17 + 2 * U1 d 17
    rw [hd17, hu1_17, hu2_17]
    gll_close
  have hu2_19 : u2_19 = U2 d 19 := by
    show u2_18 * d18 + 2 * u1_18 = U2 d 18 * d 18 + 2 * U1 d 18
    rw [hd18, hu1_18, hu2_18]
    gll_close
  have hu2_20 : u2_20 = U2 d 20 := by
    show u2_19 * d19 + 2 * u1_19 = U2 d 19 * d 19 + 2 * U1 d 19
    rw [hd19, hu1_19, hu2_19]
    gll_close
  have hu2_21 : u2_21 = U2 d 21 := by
    show u2_20 * d20 + 2 * u1_20 = U2 d 20 * d 20 + 2 * U1 d 20
    rw [hd20, hu1_20, hu2_20]
    gll_close
  have hu2_22 : u2_22 = U2 d 22 := by
    show u2_21 * d21 + 2 * u1_21 = U2 d 21 * d 21 + 2 * U1 d 21
    rw [hd21, hu1_21, hu2_21]
    gll_close
  have hv2_19 : v2_19 = U2 (rev 23 d) 3 := by
    show d20 * 2 + 2 * v1_20 = U2 (rev 23 d) 2 * d 20 + 2 * U1 (rev 23 d) 2
    rw [hd20, hv1_20]
    gll_close
  have hv2_18 : v2_18 = U2 (rev 23 d) 4 := by
    show d19 * v2_19 + 2 * v1_19 = U2 (rev 23 d) 3 * d 19 + 2 * U1 (rev 23 d) 3
    rw [hd19, hv1_19, hv2_19]
    gll_close
  have hv2_17 : v2_17 = U2 (rev 23 d) 5 := by
    show d18 * v2_18 + 2 * v1_18 = U2 (rev 23 d) 4 * d 18 + 2 * U1 (rev 23 d) 4
    rw [hd18, hv1_18, hv2_18]
    gll_close
  have hv2_16 : v2_16 = U2 (rev 23 d) 6 := by
    show d17 * v2_17 + 2 * v1_17 = U2 (rev 23 d) 5 * d 17 + 2 * U1 (rev 23 d) 5
    rw [hd17, hv1_17, hv2_17]
    gll_close
  have hv2_15 : v2_15 = U2 (rev 23 d) 7 := by
    show d16 * v2_16 + 2 * v1_16 = U2 (rev 23 d) 6 * d 16 + 2 * U1 (rev 23 d) 6
    rw [hd16, hv1_16, hv2_16]
    gll_close
  have hv2_14 : v2_14 = U2 (rev 23 d) 8 := by
    show d15 * v2_15 + 2 * v1_15 = U2 (rev 23 d) 7 * d 15 + 2 * U1 (rev 23 d) 7
    rw [hd15, hv1_15, hv2_15]
    gll_close
  have hv2_13 : v2_13 = U2 (rev 23 d) 9 := by
    show d14 * v2_14 + 2 * v1_14 = U2 (rev 23 d) 8 * d 14 + 2 * U1 (rev 23 d) 8
    rw [hd14, hv1_14, hv2_14]
    gll_close
  have hv2_12 : v2_12 = U2 (rev 23 d) 10 := by
    show d13 * v2_13 + 2 * v1_13 = U2 (rev 23 d) 9 * d 13 + 2 * U1 (rev 23 d) 9
    rw [hd13, hv1_13, hv2_13]
    gll_close
  have hv2_11 : v2_11 = U2 (rev 23 d) 11 := by
    show d12 * v2_12 + 2 * v1_12 = U2 (rev 23 d) 10 * d 12 + 2 * U1 (rev 23 d) 10
    rw [hd12, hv1_12, hv2_12]
    gll_close
  have hv2_10 : v2_10 = U2 (rev 23 d) 12 := by
    show d11 * v2_11 + 2 * v1_11 = U2 (rev 23 d) 11 * d 11 + 2 * U1 (rev 23 d) 11
    rw [hd11, hv1_11, hv2_11]
    gll_close
  have hv2_09 : v2_09 = U2 (rev 23 d) 13 := by
    show d10 * v2_10 + 2 * v1_10 = U2 (rev 23 d) 12 * d 10 + 2 * U1 (rev 23 d) 12
    rw [hd10, hv1_10, hv2_10]
    gll_close
  have hv2_08 : v2_08 = U2 (rev 23 d) 14 := by
    show d09 * v2_09 + 2 * v1_09 = U2 (rev 23 d) 13 * d 9 + 2 * U1 (rev 23 d) 13
    rw [hd09, hv1_09, hv2_09]
    gll_close
  have hv2_07 : v2_07 = U2 (rev 23 d) 15 := by
    show d08 * v2_08 + 2 * v1_08 = U2 (rev 23 d) 14 * d 8 + 2 * U1 (rev 23 d) 14
    rw [hd08, hv1_08, hv2_08]
    gll_close
  have hv2_06 : v2_06 = U2 (rev 23 d) 16 := by
    show d07 * v2_07 + 2 * v1_07 = U2 (rev 23 d) 15 * d 7 + 2 * U1 (rev 23 d) 15
    rw [hd07, hv1_07, hv2_07]
    gll_close
  have hv2_05 : v2_05 = U2 (rev 23 d) 17 := by
    show d06 * v2_06 + 2 * v1_06 = U2 (rev 23 d) 16 * d 6 + 2 * U1 (rev 23 d) 16
    rw [hd06, hv1_06, hv2_06]
    gll_close
  have hv2_04 : v2_04 = U2 (rev 23 d) 18 := by
    show d05 * v2_05 + 2 * v1_05 = U2 (rev 23 d) 17 * d 5 + 2 * U1 (rev 23 d) 17
    rw [hd05, hv1_05, hv2_05]
    gll_close
  have hv2_03 : v2_03 = U2 (rev 23 d) 19 := by
    show d04 * v2_04 + 2 * v1_04 = U2 (rev 23 d) 18 * d 4 + 2 * U1 (rev 23 d) 18
    rw [hd04, hv1_04, hv2_04]
    gll_close
  have hv2_02 : v2_02 = U2 (rev 23 d) 20 := by
    show d03 * v2_03 + 2 * v1_03 = U2 (rev 23 d) 19 * d 3 + 2 * U1 (rev 23 d) 19
    rw [hd03, hv1_03, hv2_03]
    gll_close
  have hv2_01 : v2_01 = U2 (rev 23 d) 21 := by
    show d02 * v2_02 + 2 * v1_02 = U2 (rev 23 d) 20 * d 2 + 2 * U1 (rev 23 d) 20
    rw [hd02, hv1_02, hv2_02]
    gll_close
  have hv2_00 : v2_00 = U2 (rev 23 d) 22 := by
    show d01 * v2_01 + 2 * v1_01 = U2 (rev 23 d) 21 * d 1 + 2 * U1 (rev 23 d) 21
    rw [hd01, hv1_01, hv2_01]
    gll_close
  have r0_0 : w 0 * 1 * v0_00 = row0 23 w d 0 := by
    show w 0 * 1 * v0_00 = w 0 * U0 d 0 * U0 (rev 23 d) 22
    rw [hv0_00]
    gll_close
  have r0_1 : w 1 * u0_01 * v0_01 = row0 23 w d 1 := by
    show w 1 * u0_01 * v0_01 = w 1 * U0 d 1 * U0 (rev 23 d) 21
    rw [hu0_01, hv0_01]
    gll_close
  have r0_2 : w 2 * u0_02 * v0_02 = row0 23 w d 2 := by
    show w 2 * u0_02 * v0_02 = w 2 * U0 d 2 * U0 (rev 23 d) 20
    rw [hu0_02, hv0_02]
    gll_close
  have r0_3 : w 3 * u0_03 * v0_03 = row0 23 w d 3 := by
    show w 3 * u0_03 * v0_03 = w 3 * U0 d 3 * U0 (rev 23 d) 19
    rw [hu0_03, hv0_03]
    gll_close
  have r0_4 : w 4 * u0_04 * v0_04 = row0 23 w d 4 := by
    show w 4 * u0_04 * v0_04 = w 4 * U0 d 4 * U0 (rev 23 d) 18
    rw [hu0_04, hv0_04]
    gll_close
  have r0_5 : w 5 * u0_05 * v0_05 = row0 23 w d 5 := by
    show w 5 * u0_05 * v0_05 = w 5 * U0 d 5 * U0 (rev 23 d) 17
    rw [hu0_05, hv0_05]
    gll_close
  have r0_6 : w 6 * u0_06 * v0_06 = row0 23 w d 6 := by
    show w 6 * u0_06 * v0_06 = w 6 * U0 d 6 * U0 (rev 23 d) 16
    rw [hu0_06, hv0_06]
    gll_close
  have r0_7 : w 7 * u0_07 * v0_07 = row0 23 w d 7 := by
    show w 7 * u0_07 * v0_07 = w 7 * U0 d 7 * U0 (rev 23 d) 15
    rw [hu0_07, hv0_07]
    gll_close
  have r0_8 : w 8 * u0_08 * v0_08 = row0 23 w d 8 := by
    show w 8 * u0_08 * v0_08 = w 8 * U0 d 8 * U0 (rev 23 d) 14
    rw [hu0_08, hv0_08]
    gll_close
  have r0_9 : w 9 * u0_09 * v0_09 = row0 23 w d 9 := by
    show w 9 * u0_09 * v0_09 = w 9 * U0 d 9 * U0 (rev 23 d) 13
    rw [hu0_09, hv0_09]
    gll_close
  have r0_10 : w 10 * u0_10 * v0_10 = row0 23 w d 10 := by
    show w 10 * u0_10 * v0_10 = w 10 * U0 d 10 * U0 (rev 23 d) 12
    rw [hu0_10, hv0_10]
    gll_close
  have r0_11 : w 11 * u0_11 * v0_11 = row0 23 w d 11 := by
    show w 11 * u0_11 * v0_11 = w 11 * U0 d 11 * U0 (rev 23 d) 11
    rw [hu0_11, hv0_11]
    gll_close
  have r0_12 : w 12 * u0_12 * v0_12 = row0 23 w d 12 := by
    show w 12 * u0_12 * v0_12 = w 12 * U0 d 12 * U0 (rev 23 d) 10
    rw [hu0_12, hv0_12]
    gll_close
  have r0_13 : w 13 * u0_13 * v0_13 = row0 23 w d 13 := by
    show w 13 * u0_13 * v0_13 = w 13 * U0 d 13 * U0 (rev 23 d) 9
    rw [hu0_13, hv0_13]
    gll_close
  have r0_14 : w 14 * u0_14 * v0_14 = row0 23 w d 14 := by
    show w 14 * u0_14 * v0_14 = w 14 * U0 d 14 * U0 (rev 23 d) 8
    rw [hu0_14, hv0_14]
    gll_close
  have r0_15 : w 15 * u0_15 * v0_15 = row0 23 w d 15 := by
    show w 15 * u0_15 * v0_15 = w 15 * U0 d 15 * U0 (rev 23 d) 7
    rw [hu0_15, hv0_15]
    gll_close
  have r0_16 : w 16 * u0_16 * v0_16 = row0 23 w d 16 := by
    show w 16 * u0_16 * v0_16 = w 16 * U0 d 16 * U0 (rev 23 d) 6
    rw [hu0_16, hv0_16]
    gll_close
  have r0_17 : w 17 * u0_17 * v0_17 = row0 23 w d 17 := by
    show w 17 * u0_17 * v0_17 = w 17 * U0 d 17 * U0 (rev 23 d) 5
    rw [hu0_17, hv0_17]
    gll_close
  have r0_18 : w 18 * u0_18 * v0_18 = row0 23 w d 18 := by
    show w 18 * u0_18 * v0_18 = w 18 * U0 d 18 * U0 (rev 23 d) 4
    rw [hu0_18, hv0_18]
    gll_close
  have r0_19 : w 19 * u0_19 * v0_19 = row0 23 w d 19 := by
    show w 19 * u0_19 * v0_19 = w 19 * U0 d 19 * U0 (rev 23 d) 3
    rw [hu0_19, hv0_19]
    gll_close
  have r0_20 : w 20 * u0_20 * v0_20 = row0 23 w d 20 := by
    show w 20 * u0_20 * v0_20 = w 20 * U0 d 20 * U0 (rev 23 d) 2
    rw [hu0_20, hv0_20]
    gll_close
  have r0_21 : w 21 * u0_21 * v0_21 = row0 23 w d 21 := by
    show w 21 * u0_21 * v0_21 = w 21 * U0 d 21 * U0 (rev 23 d) 1
    rw [hu0_21, hv0_21]
    gll_close
  have r0_22 : w 22 * u0_22 * 1 = row0 23 w d 22 := by
    show w 22 * u0_22 * 1 = w 22 * U0 d 22 * U0 (rev 23 d) 0
    rw [hu0_22]
    gll_close
  have r1_0 : 2 * w 0 * (v1_00) = row1 23 w d 0 := by
    show 2 * w 0 * (v1_00) = 2 * w 0 * (U1 d 0 * U0 (rev 23 d) 22 + U0 d 0 * U1 (rev 23 d) 22)
    rw [hv1_00]
    gll_close
  have r1_1 : 2 * w 1 * (1 * v0_01 + u0_01 * v1_01) = row1 23 w d 1 := by
    show 2 * w 1 * (1 * v0_01 + u0_01 * v1_01) = 2 * w 1 * (U1 d 1 * U0 (rev 23 d) 21 + U0 d 1 * U1 (rev 23 d) 21)
    rw [hu0_01, hv0_01, hv1_01]
    gll_close
  have r1_2 : 2 * w 2 * (u1_02 * v0_02 + u0_02 * v1_02) = row1 23 w d 2 := by
    show 2 * w 2 * (u1_02 * v0_02 + u0_02 * v1_02) = 2 * w 2 * (U1 d 2 * U0 (rev 23 d) 20 + U0 d 2 * U1 (rev 23 d) 20)
    rw [hu0_02, hu1_02, hv0_02, hv1_02]
    gll_close
  have r1_3 : 2 * w 3 * (u1_03 * v0_03 + u0_03 * v1_03) = row1 23 w d 3 := by
    show 2 * w 3 * (u1_03 * v0_03 + u0_03 * v1_03) = 2 * w 3 * (U1 d 3 * U0 (rev 23 d) 19 + U0 d 3 * U1 (rev 23 d) 19)
    rw [hu0_03, hu1_03, hv0_03, hv1_03]
    gll_close
  have r1_4 : 2 * w 4 * (u1_04 * v0_04 + u0_04 * v1_04) = row1 23 w d 4 := by
    show 2 * w 4 * (u1_04 * v0_04 + u0_04 * v1_04) = 2 * w 4 * (U1 d 4 * U0 (rev 23 d) 18 + U0 d 4 * U1 (rev 23 d) 18)
    rw [hu0_04, hu1_04, hv0_04, hv1_04]
    gll_close
  have r1_5 : 2 * w 5 * (u1_05 * v0_05 + u0_05 * v1_05) = row1 23 w d 5 := by
    show 2 * w 5 * (u1_05 * v0_05 + u0_05 * v1_05) = 2 * w 5 * (U1 d 5 * U0 (rev 23 d) 17 + U0 d 5 * U1 (rev 23 d) 17)
    rw [hu0_05, hu1_05, hv0_05, hv1_05]
    gll_close
  have r1_6 : 2 * w 6 * (u1_06 * v0_06 + u0_06 * v1_06) = row1 23 w d 6 := by
    show 2 * w 6 * (u1_06 * v0_06 + u0_06 * v1_06) = 2 * w 6 * (U1 d 6 * U0 (rev 23 d) 16 + U0 d 6 * U1 (rev 23 d) 16)
    rw [hu0_06, hu1_06, hv0_06, hv1_06]
    gll_close
  have r1_7 : 2 * w 7 * (u1_07 * v0_07 + u0_07 * v1_07) = row1 23 w d 7 := by
    show 2 * w 7 * (u1_07 * v0_07 + u0_07 * v1_07) = 2 * w 7 * (U1 d 7 * U0 (rev 23 d) 15 + U0 d 7 * U1 (rev 23 d) 15)
    rw [hu0_07, hu1_07, hv0_07, hv1_07]
    gll_close
  have r1_8 : 2 * w 8 * (u1_08 * v0_08 + u0_08 * v1_08) = row1 23 w d 8 := by
    show 2 * w 8 * (u1_08 * v0_08 + u0_08 * v1_08) = 2 * w 8 * (U1 d 8 * U0 (rev 23 d) 14 + U0 d 8 * U1 (rev 23 d) 14)
    rw [hu0_08, hu1_08, hv0_08, hv1_08]
    gll_close
  have r1_9 : 2 * w 9 * (u1_09 * v0_09 + u0_09 * v1_09) = row1 23 w d 9 := by
    show 2 * w 9 * (u1_09 * v0_09 + u0_09 * v1_09) = 2 * w 9 * (U1 d 9 * U0 (rev 23 d) 13 + U0 d 9 * U1 (rev 23 d) 13)
    rw [hu0_09, hu1_09, hv0_09, hv1_09]
    gll_close
  have r1_10 : 2 * w 10 * (u1_10 * v0_10 + u0_10 * v1_10) = row1 23 w d 10 := by
    show 2 * w 10 * (u1_10 * v0_10 + u0_10 * v1_10) = 2 * w 10 * (U1 d 10 * U0 (rev 23 d) 12 + U0 d 10 * U1 (rev 23 d) 12)
    rw [hu0_10, hu1_10, hv0_10, hv1_10]
    gll_close
  have r1_11 : 2 * w 11 * (u1_11 * v0_11 + u0_11 * v1_11) = row1 23 w d 11 := by
    show 2 * w 11 * (u1_11 * v0_11 + u0_11 * v1_11) = 2 * w 11 * (U1 d 11 * U0 (rev 23 d) 11 + U0 d 11 * U1 (rev 23 d) 11)
    rw [hu0_11, hu1_11, hv0_11, hv1_11]
    gll_close
  have r1_12 : 2 * w 12 * (u1_12 * v0_12 + u0_12 * v1_12) = row1 23 w d 12 := by
    show 2 * w 12 * (u1_12 * v0_12 + u0_12 * v1_12) = 2 * w 12 * (U1 d 12 * U0 (rev 23 d) 10 + U0 d 12 * U1 (rev 23 d) 10)
    rw [hu0_12, hu1_12, hv0_12, hv1_12]
    gll_close
  have r1_13 : 2 * w 13 * (u1_13 * v0_13 + u0_13 * v1_13) = row1 23 w d 13 := by
    show 2 * w 13 * (u1_13 * v0_13 + u0_13 * v1_13) = 2 * w 13 * (U1 d 13 * U0 (rev 23 d) 9 + U0 d 13 * U1 (rev 23 d) 9)
    rw [hu0_13, hu1_13, hv0_13, hv1_13]
    gll_close
  have r1_14 : 2 * w 14 * (u1_14 * v0_14 + u0_14 * v1_14) = row1 23 w d 14 := by
    show 2 * w 14 * (u1_14 * v0_14 + u0_14 * v1_14) = 2 * w 14 * (U1 d 14 * U0 (rev 23 d) 8 + U0 d 14 * U1 (rev 23 d) 8)
    rw [hu0_14, hu1_14, hv0_14, hv1_14]
    gll_close
  have r1_15 : 2 * w 15 * (u1_15 * v0_15 + u0_15 * v1_15) = row1 23 w d 15 := by
    show 2 * w 15 * (u1_15 * v0_15 + u0_15 * v1_15) = 2 * w 15 * (U1 d 15 * U0 (rev 23 d) 7 + U0 d 15 * U1 (rev 23 d) 7)
    rw [hu0_15, hu1_15, hv0_15, hv1_15]
    gll_close
  have r1_16 : 2 * w 16 * (u1_16 * v0_16 + u0_16 * v1_16) = row1 23 w d 16 := by
    show 2 * w 16 * (u1_16 * v0_16 + u0_16 * v1_16) = 2 * w 16 * (U1 d 16 * U0 (rev 23 d) 6 + U0 d 16 * U1 (rev 23 d) 6)
    rw [hu0_16, hu1_16, hv0_16, hv1_16]
    gll_close
  have r1_17 : 2 * w 17 * (u1_17 * v0_17 + u0_17 * v1_17) = row1 23 w d 17 := by
    show 2 * w 17 * (u1_17 * v0_17 + u0_17 * v1_17) = 2 * w 17 * (U1 d 17 * U0 (rev 23 d) 5 + U0 d 17 * U1 (rev 23 d) 5)
    rw [hu0_17, hu1_17, hv0_17, hv1_17]
    gll_close
  have r1_18 : 2 * w 18 * (u1_18 * v0_18 + u0_18 * v1_18) = row1 23 w d 18 := by
    show 2 * w 18 * (u1_18 * v0_18 + u0_18 * v1_18) = 2 * w 18 * (U1 d 18 * U0 (rev 23 d) 4 + U0 d 18 * U1 (rev 23 d) 4)
    rw [hu0_18, hu1_18, hv0_18, hv1_18]
    gll_close
  have r1_19 : 2 * w 19 * (u1_19 * v0_19 + u0_19 * v1_19) = row1 23 w d 19 := by
    show 2 * w 19 * (u1_19 * v0_19 + u0_19 * v1_19) = 2 * w 19 * (U1 d 19 * U0 (rev 23 d) 3 + U0 d 19 * U1 (rev 23 d) 3)
    rw [hu0_19, hu1_19, hv0_19, hv1_19]
    gll_close
  have r1_20 : 2 * w 20 * (u1_20 * v0_20 + u0_20 * v1_20) = row1 23 w d 20 := by
    show 2 * w 20 * (u1_20 * v0_20 + u0_20 * v1_20) = 2 * w 20 * (U1 d 20 * U0 (rev 23 d) 2 + U0 d 20 * U1 (rev 23 d) 2)
    rw [hu0_20, hu1_20, hv0_20, hv1_20]
    gll_close
  have r1_21 : 2 * w 21 * (u1_21 * v0_21 + u0_21 * 1) = row1 23 w d 21 := by
    show 2 * w 21 * (u1_21 * v0_21 + u0_21 * 1) = 2 * w 21 * (U1 d 21 * U0 (rev 23 d) 1 + U0 d 21 * U1 (rev 23 d) 1)
    rw [hu0_21, hu1_21, hv0_21]
    gll_close
  have r1_22 : 2 * w 22 * (u1_22) = row1 23 w d 22 := by
    show 2 * w 22 * (u1_22) = 2 * w 22 * (U1 d 22 * U0 (rev 23 d) 0 + U0 d 22 * U1 (rev 23 d) 0)
    rw [hu1_22]
    gll_close
  have r2_0 : 4 * w 0 * (1 * v2_00) = row2 23 w d 0 := by
    show 4 * w 0 * (1 * v2_00) = 4 * w 0 * (U2 d 0 * U0 (rev 23 d) 22 + 2 * U1 d 0 * U1 (rev 23 d) 22 + U0 d 0 * U2 (rev 23 d) 22)
    rw [hv2_00]
    gll_close
  have r2_1 : 4 * w 1 * (2 * 1 * v1_01 + u0_01 * v2_01) = row2 23 w d 1 := by
    show 4 * w 1 * (2 * 1 * v1_01 + u0_01 * v2_01) = 4 * w 1 * (U2 d 1 * U0 (rev 23 d) 21 + 2 * U1 d 1 * U1 (rev 23 d) 21 + U0 d 1 * U2 (rev 23 d) 21)
    rw [hu0_01, hv1_01, hv2_01]
    gll_close
  have r2_2 : 4 * w 2 * (2 * v0_02 + 2 * u1_02 * v1_02 + u0_02 * v2_02) = row2 23 w d 2 := by
    show 4 * w 2 * (2 * v0_02 + 2 * u1_02 * v1_02 + u0_02 * v2_02) = 4 * w 2 * (U2 d 2 * U0 (rev 23 d) 20 + 2 * U1 d 2 * U1 (rev 23 d) 20 + U0 d 2 * U2 (rev 23 d) 20)
    rw [hu0_02, hu1_02, hv0_02, hv1_02, hv2_02]
    gll_close
  have r2_3 : 4 * w 3 * (u2_03 * v0_03 + 2 * u1_03 * v1_03 + u0_03 * v2_03) = row2 23 w d 3 := by
    show 4 * w 3 * (u2_03 * v0_03 + 2 * u1_03 * v1_03 + u0_03 * v2_03) = 4 * w 3 * (U2 d 3 * U0 (rev 23 d) 19 + 2 * U1 d 3 * U1 (rev 23 d) 19 + U0 d 3 * U2 (rev 23 d) 19)
    rw [hu0_03, hu1_03, hu2_03, hv0_03, hv1_03, hv2_03]
    gll_close
  have r2_4 : 4 * w 4 * (u2_04 * v0_04 + 2 * u1_04 * v1_04 + u0_04 * v2_04) = row2 23 w d 4 := by
    show 4 * w 4 * (u2_04 * v0_04 + 2 * u1_04 * v1_04 + u0_04 * v2_04) = 4 * w 4 * (U2 d 4 * U0 (rev 23 d) 18 + 2 * U1 d 4 * U1 (rev 23 d) 18 + U0 d 4 * U2 (rev 23 d) 18)
    rw [hu0_04, hu1_04, hu2_04, hv0_04, hv1_04, hv2_04]
    gll_close
  have r2_5 : 4 * w 5 * (u2_05 * v0_05 + 2 * u1_05 * v1_05 + u0_05 * v2_05) = row2 23 w d 5 := by
    show 4 * w 5 * (u2_05 * v0_05 + 2 * u1_05 * v1_05 + u0_05 * v2_05) = 4 * w 5 * (U2 d 5 * U0 (rev 23 d) 17 + 2 * U1 d 5 * U1 (rev 23 d) 17 + U0 d 5 * U2 (rev 23 d) 17)
    rw [hu0_05, hu1_05, hu2_05, hv0_05, hv1_05, hv2_05]
    gll_close
  have r2_6 : 4 * w 6 * (u2_06 * v0_06 + 2 * u1_06 * v1_06 + u0_06 * v2_06) = row2 23 w d 6 := by
    show 4 * w 6 * (u2_06 * v0_06 + 2 * u1_06 * v1_06 + u0_06 * v2_06) = 4 * w 6 * (U2 d 6 * U0 (rev 23 d) 16 + 2 * U1 d 6 * U1 (rev 23 d) 16 + U0 d 6 * U2 (rev 23 d) 16)
    rw [hu0_06, hu1_06, hu2_06, hv0_06, hv1_06, hv2_06]
    gll_close
  have r2_7 : 4 * w 7 * (u2_07 * v0_07 + 2 * u1_07 * v1_07 + u0_07 * v2_07) = row2 23 w d 7 := by
    show 4 * w 7 * (u2_07 * v0_07 + 2 * u1_07 * v1_07 + u0_07 * v2_07) = 4 * w 7 * (U2 d 7 * U0 (rev 23 d) 15 + 2 * U1 d 7 * U1 (rev 23 d) 15 + U0 d 7 * U2 (rev 23 d) 15)
    rw [hu0_07, hu1_07, hu2_07, hv0_07, hv1_07, hv2_07]
    gll_close
  have r2_8 : 4 * w 8 * (u2_08 * v0_08 + 2 * u1_08 * v1_08 + u0_08 * v2_08) = row2 23 w d 8 := by
    show 4 * w 8 * (u2_08 * v0_08 + 2 * u1_08 * v1_08 + u0_08 * v2_08) = 4 * w 8 * (U2 d 8 * U0 (rev 23 d) 14 + 2 * U1 d 8 * U1 (rev 23 d) 14 + U0 d 8 * U2 (rev 23 d) 14)
    rw [hu0_08, hu1_08, hu2_08, hv0_08, hv1_08, hv2_08]
    gll_close
  have r2_9 : 4 * w 9 * (u2_09 * v0_09 + 2 * u1_09 * v1_09 + u0_09 * v2_09) = row2 23 w d 9 := by
    show 4 * w 9 * (u2_09 * v0_09 + 2 * u1_09 * v1_09 + u0_09 * v2_09) = 4 * w 9 * (U2 d 9 * U0 (rev 23 d) 13 + 2 * U1 d 9 * U1 (rev 23 d) 13 + U0 d 9 * U2 (rev 23 d) 13)
    rw [hu0_09, hu1_09, hu2_09, hv0_09, hv1_09, hv2_09]
    gll_close
  have r2_10 : 4 * w 10 * (u2_10 * v0_10 + 2 * u1_10 * v1_10 + u0_10 * v2_10) = row2 23 w d 10 := by
    show 4 * w 10 * (u2_10 * v0_10 + 2 * u1_10 * v1_10 + u0_10 * v2_10) = 4 * w 10 * (U2 d 10 * U0 (rev 23 d) 12 + 2 * U1 d 10 * U1 (rev 23 d) 12 + U0 d 10 * U2 (rev 23 d) 12)
    rw [hu0_10, hu1_10, hu2_10, hv0_10, hv1_10, hv2_10]
    gll_close
  have r2_11 : 4 * w 11 * (u2_11 * v0_11 + 2 * u1_11 * v1_11 + u0_11 * v2_11) = row2 23 w d 11 := by
    show 4 * w 11 * (u2_11 * v0_11 + 2 * u1_11 * v1_11 + u0_11 * v2_11) = 4 * w 11 * (U2 d 11 * U0 (rev 23 d) 11 + 2 * U1 d 11 * U1 (rev 23 d) 11 + U0 d 11 * U2 (rev 23 d) 11)
    rw [hu0_11, hu1_11, hu2_11, hv0_11, hv1_11, hv2_11]
    gll_close
  have r2_12 : 4 * w 12 * (u2_12 * v0_12 + 2 * u1_12 * v1_12 + u0_12 * v2_12) = row2 23 w d 12 := by
    show 4 * w 12 * (u2_12 * v0_12 + 2 * u1_12 * v1_12 + u0_12 * v2_12) = 4 * w 12 * (U2 d 12 * U0 (rev 23 d) 10 + 2 * U1 d 12 * U1 (rev 23 d) 10 + U0 d 12 * U2 (rev 23 d) 10)
    rw [hu0_12, hu1_12, hu2_12, hv0_12, hv1_12, hv2_12]
    gll_close
  have r2_13 : 4 * w 13 * (u2_13 * v0_13 + 2 * u1_13 * v1_13 + u0_13 * v2_13) = row2 23 w d 13 := by
    show 4 * w 13 * (u2_13 * v0_13 + 2 * u1_13 * v1_13 + u0_13 * v2_13) = 4 * w 13 * (U2 d 13 * U0 (rev 23 d) 9 + 2 * U1 d 13 * U1 (rev 23 d) 9 + U0 d 13 * U2 (rev 23 d) 9)
    rw [hu0_13, hu1_13, hu2_13, hv0_13, hv1_13, hv2_13]
    gll_close
  have r2_14 : 4 * w 14 * (u2_14 * v0_14 + 2 * u1_14 * v1_14 + u0_14 * v2_14) = row2 23 w d 14 := by
    show 4 * w 14 * (u2_14 * v0_14 + 2 * u1_14 * v1_14 + u0_14 * v2_14) = 4 * w 14 * (U2 d 14 * U0 (rev 23 d) 8 + 2 * U1 d 14 * U1 (rev 23 d) 8 + U0 d 14 * U2 (rev 23 d) 8)
    rw [hu0_14, hu1_14, hu2_14, hv0_14, hv1_14, hv2_14]
    gll_close
  have r2_15 : 4 * w 15 * (u2_15 * v0_15 + 2 * u1_15 * v1_15 + u0_15 * v2_15) = row2 23 w d 15 := by
    show 4 * w 15 * (u2_15 * v0_15 + 2 * u1_15 * v1_15 + u0_15 * v2_15) = 4 * w 15 * (U2 d 15 * U0 (rev 23 d) 7 + 2 * U1 d 15 * U1 (rev 23 d) 7 + U0 d 15 * U2 (rev 23 d) 7)
    rw [hu0_15, hu1_15, hu2_15, hv0_15, hv1_15, hv2_15]
    gll_close
  have r2_16 : 4 * w 16 * (u2_16 * v0_16 + 2 * u1_16 * v1_16 + u0_16 * v2_16) = row2 23 w d 16 := by
    show 4 * w 16 * (u2_16 * v0_16 + 2 * u1_16 * v1_16 + u0_16 * v2_16) = 4 * w 16 * (U2 d 16 * U0 (rev 23 d) 6 + 2 * U1 d 16 * U1 (rev 23 d) 6 + U0 d 16 * U2 (rev 23 d) 6)
    rw [hu0_16, hu1_16, hu2_16, hv0_16, hv1_16, hv2_16]
    gll_close
  have r2_17 : 4 * w 17 * (u2_17 * v0_17 + 2 * u1_17 * v1_17 + u0_17 * v2_17) = row2 23 w d 17 := by
    show 4 * w 17 * (u2_17 * v0_17 + 2 * u1_17 * v1_17 + u0_17 * v2_17) = 4 * w 17 * (U2 d 17 * U0 (rev 23 d) 5 + 2 * U1 d 17 * U1 (rev 23 d) 5 + U0 d 17 * U2 (rev 23 d) 5)
    rw [hu0_17, hu1_17, hu2_17, hv0_17, hv1_17, hv2_17]
    gll_close
  have r2_18 : 4 * w 18 * (u2_18 * v0_18 + 2 * u1_18 * v1_18 + u0_18 * v2_18) = row2 23 w d 18 := by
    show 4 * w 18 * (u2_18 * v0_18 + 2 * u1_18 * v1_18 + u0_18 * v2_18) = 4 * w 18 * (U2 d 18 * U0 (rev 23 d) 4 + 2 * U1 d 18 * U1 (rev 23 d) 4 + U0 d 18 * U2 (rev 23 d) 4)
    rw [hu0_18, hu1_18, hu2_18, hv0_18, hv1_18, hv2_18]
    gll_close
  have r2_19 : 4 * w 19 * (u2_19 * v0_19 + 2 * u1_19 * v1_19 + u0_19 * v2_19) = row2 23 w d 19 := by
    show 4 * w 19 * (u2_19 * v0_19 + 2 * u1_19 * v1_19 + u0_19 * v2_19) = 4 * w 19 * (U2 d 19 * U0 (rev 23 d) 3 + 2 * U1 d 19 * U1 (rev 23 d) 3 + U0 d 19 * U2 (rev 23 d) 3)
    rw [hu0_19, hu1_19, hu2_19, hv0_19, hv1_19, hv2_19]
    gll_close
  have r2_20 : 4 * w 20 * (u2_20 * v0_20 + 2 * u1_20 * v1_20 + u0_20 * 2) = row2 23 w d 20 := by
    show 4 * w 20 * (u2_20 * v0_20 + 2 * u1_20 * v1_20 + u0_20 * 2) = 4 * w 20 * (U2 d 20 * U0 (rev 23 d) 2 + 2 * U1 d 20 * U1 (rev 23 d) 2 + U0 d 20 * U2 (rev 23 d) 2)
    rw [hu0_20, hu1_20, hu2_20, hv0_20, hv1_20]
    gll_close
  have r2_21 : 4 * w 21 * (u2_21 * v0_21 + 2 * u1_21 * 1) = row2 23 w d 21 := by
    show 4 * w 21 * (u2_21 * v0_21 + 2 * u1_21 * 1) = 4 * w 21 * (U2 d 21 * U0 (rev 23 d) 1 + 2 * U1 d 21 * U1 (rev 23 d) 1 + U0 d 21 * U2 (rev 23 d) 1)
    rw [hu1_21, hu2_21, hv0_21]
    gll_close
  have r2_22 : 4 * w 22 * (u2_22 * 1) = row2 23 w d 22 := by
    show 4 * w 22 * (u2_22 * 1) = 4 * w 22 * (U2 d 22 * U0 (rev 23 d) 0 + 2 * U1 d 22 * U1 (rev 23 d) 0 + U0 d 22 * U2 (rev 23 d) 0)
    rw [hu2_22]
    gll_close
  have L0 : [w 0 * 1 * v0_00, w 1 * u0_01 * v0_01, w 2 * u0_02 * v0_02, w 3 * u0_03 * v0_03, w 4 * u0_04 * v0_04, w 5 * u0_05 * v0_05, w 6 * u0_06 * v0_06, w 7 * u0_07 * v0_07, w 8 * u0_08 * v0_08, w 9 * u0_09 * v0_09, w 10 * u0_10 * v0_10, w 11 * u0_11 * v0_11, w 12 * u0_12 * v0_12, w 13 * u0_13 * v0_13, w 14 * u0_14 * v0_14, w 15 * u0_15 * v0_15, w 16 * u0_16 * v0_16, w 17 * u0_17 * v0_17, w 18 * u0_18 * v0_18, w 19 * u0_19 * v0_19, w 20 * u0_20 * v0_20, w 21 * u0_21 * v0_21, w 22 * u0_22 * 1] = (List.range 23).map (row0 23 w d) :=
    (congrArg₂ List.cons r0_0 (congrArg₂ List.cons r0_1 (congrArg₂ List.cons r0_2 (congrArg₂ List.cons r0_3 (congrArg₂ List.cons r0_4 (congrArg₂ List.cons r0_5 (congrArg₂ List.cons r0_6 (congrArg₂ List.cons r0_7 (congrArg₂ List.cons r0_8 (congrArg₂ List.cons r0_9 (congrArg₂ List.cons r0_10 (congrArg₂ List.cons r0_11 (congrArg₂ List.cons r0_12 (congrArg₂ List.cons r0_13 (congrArg₂ List.cons r0_14 (congrArg₂ List.cons r0_15 (congrArg₂ List.cons r0_16 (congrArg₂ List.cons r0_17 (congrArg₂ List.cons r0_18 (congrArg₂ List.cons r0_19 (congrArg₂ List.cons r0_20 (congrArg₂ List.cons r0_21 (congrArg₂ List.cons r0_22 rfl)))))))))))))))))))))))
  have L1 : [2 * w 0 * (v1_00), 2 * w 1 * (1 * v0_01 + u0_01 * v1_01), 2 * w 2 * (u1_02 * v0_02 + u0_02 * v1_02), 2 * w 3 * (u1_03 * v0_03 + u0_03 * v1_03), 2 * w 4 * (u1_04 * v0_04 + u0_04 * v1_04), 2 * w 5 * (u1_05 * v0_05 + u0_05 * v1_05), 2 * w 6 * (u1_06 * v0_06 + u0_06 * v1_06), 2 * w 7 * (u1_07 * v0_07 + u0_07 * v1_07), 2 * w 8 * (u1_08 * v0_08 + u0_08 * v1_08), 2 * w 9 * (u1_09 * v0_09 + u0_09 * v1_09), 2 * w 10 * (u1_10 * v0_10 + u0_10 * v1_10), 2 * w 11 * (u1_11 * v0_11 + u0_11 * v1_11), 2 * w 12 * (u1_12 * v0_12 + u0_12 * v1_12), 2 * w 13 * (u1_13 * v0_13 + u0_13 * v1_13), 2 * w 14 * (u1_14 * v0_14 + u0_14 * v1_14), 2 * w 15 * (u1_15 * v0_15 + u0_15 * v1_15), 2 * w 16 * (u1_16 * v0_16 + u0_16 * v1_16), 2 * w 17 * (u1_17 * v0_17 + u0_17 * v1_17), 2 * w 18 * (u1_18 * v0_18 + u0_18 * v1_18), 2 * w 19 * (u1_19 * v0_19 + u0_19 * v1_19), 2 * w 20 * (u1_20 * v0_20 + u0_20 * v1_20), 2 * w 21 * (u1_21 * v0_21 + u0_21 * 1), 2 * w 22 * (u1_22)] = (List.range 23).map (row1 23 w d) :=
    (congrArg₂ List.cons r1_0 (congrArg₂ List.cons r1_1 (congrArg₂ List.cons r1_2 (congrArg₂ List.cons r1_3 (congrArg₂ List.cons r1_4 (congrArg₂ List.cons r1_5 (congrArg₂ List.cons r1_6 (congrArg₂ List.cons r1_7 (congrArg₂ List.cons r1_8 (congrArg₂ List.cons r1_9 (congrArg₂ List.cons r1_10 (congrArg₂ List.cons r1_11 (congrArg₂ List.cons r1_12 (congrArg₂ List.cons r1_13 (congrArg₂ List.cons r1_14 (congrArg₂ List.cons r1_15 (congrArg₂ List.cons r1_16 (congrArg₂ List.cons r1_17 (congrArg₂ List.cons r1_18 (congrArg₂ List.cons r1_19 (congrArg₂ List.cons r1_20 (congrArg₂ List.cons r1_21 (congrArg₂ List.cons r1_22 rfl)))))))))))))))))))))))
  have L2 : [4 * w 0 * (1 * v2_00), 4 * w 1 * (2 * 1 * v1_01 + u0_01 * v2_01), 4 * w 2 * (2 * v0_02 + 2 * u1_02 * v1_02 + u0_02 * v2_02), 4 * w 3 * (u2_03 * v0_03 + 2 * u1_03 * v1_03 + u0_03 * v2_03), 4 * w 4 * (u2_04 * v0_04 + 2 * u1_04 * v1_04 + u0_04 * v2_04), 4 * w 5 * (u2_05 * v0_05 + 2 * u1_05 * v1_05 + u0_05 * v2_05), 4 * w 6 * (u2_06 * v0_06 + 2 * u1_06 * v1_06 + u0_06 * v2_06), 4 * w 7 * (u2_07 * v0_07 + 2 * u1_07 * v1_07 + u0_07 * v2_07), 4 * w 8 * (u2_08 * v0_08 + 2 * u1_08 * v1_08 + u0_08 * v2_08), 4 * w 9 * (u2_09 * v0_09 + 2 * u1_09 * v1_09 + u0_09 * v2_09), 4 * w 10 * (u2_10 * v0_10 + 2 * u1_10 * v1_10 + u0_10 * v2_10), 4 * w 11 * (u2_11 * v0_11 + 2 * u1_11 * v1_11 + u0_11 * v2_11), 4 * w 12 * (u2_12 * v0_12 + 2 * u1_12 * v1_12 + u0_12 * v2_12), 4 * w 13 * (u2_13 * v0_13 + 2 * u1_13 * v1_13 + u0_13 * v2_13), 4 * w 14 * (u2_14 * v0_14 + 2 * u1_14 * v1_14 + u0_14 * v2_14), 4 * w 15 * (u2_15 * v0_15 + 2 * u1_15 * v1_15 + u0_15 * v2_15), 4 * w 16 * (u2_16 * v0_16 + 2 * u1_16 * v1_16 + u0_16 * v2_16), 4 * w 17 * (u2_17 * v0_17 + 2 * u1_17 * v1_17 + u0_17 * v2_17), 4 * w 18 * (u2_18 * v0_18 + 2 * u1_18 * v1_18 + u0_18 * v2_18), 4 * w 19 * (u2_19 * v0_19 + 2 * u1_19 * v1_19 + u0_19 * v2_19), 4 * w 20 * (u2_20 * v0_20 + 2 * u1_20 * v1_20 + u0_20 * 2), 4 * w 21 * (u2_21 * v0_21 + 2 * u1_21 * 1), 4 * w 22 * (u2_22 * 1)] = (List.range 23).map (row2 23 w d) :=
    (congrArg₂ List.cons r2_0 (congrArg₂ List.cons r2_1 (congrArg₂ List.cons r2_2 (congrArg₂ List.cons r2_3 (congrArg₂ List.cons r2_4 (congrArg₂ List.cons r2_5 (congrArg₂ List.cons r2_6 (congrArg₂ List.cons r2_7 (congrArg₂ List.cons r2_8 (congrArg₂ List.cons r2_9 (congrArg₂ List.cons r2_10 (congrArg₂ List.cons r2_11 (congrArg₂ List.cons r2_12 (congrArg₂ List.cons r2_13 (congrArg₂ List.cons r2_14 (congrArg₂ List.cons r2_15 (congrArg₂ List.cons r2_16 (congrArg₂ List.cons r2_17 (congrArg₂ List.cons r2_18 (congrArg₂ List.cons r2_19 (congrArg₂ List.cons r2_20 (congrArg₂ List.cons r2_21 (congrArg₂ List.cons r2_22 rfl)))))))))))))))))))))))
  exact congrArg₂ Prod.mk L0 (congrArg₂ Prod.mk L1 L2)

end Gslib.Poly
