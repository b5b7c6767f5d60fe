import Verif.Model.Obbox

/-!
# The bounding box test with floating point arithmetic (obbox.h)

As `test2`, `test3` of `Model/Obbox`, each operation followed by `rnd`. The sums of two and three products are `dot2`, `dot3`: the compiler may fuse a multiplication with an addition, or add in another order.
Comparisons are exact. The box is the stored one.
-/

namespace Gslib.Obb
variable {K : Type} [Field K] [LinearOrder K]

/-- obbox.h:68-73 `obbox_axis_test_2` -/
def axisTestFl2 (rnd : K → K) (b : Box K) (x : Nat → K) : K :=
  let bx := rnd (rnd (x 0 - (b.x 0).1) * rnd ((b.x 0).2 - x 0))
  if bx < 0 then bx else rnd (rnd (x 1 - (b.x 1).1) * rnd ((b.x 1).2 - x 1))

/-- obbox.h:76-86 `obbox_test_2` -/
def testFl2 (rnd : K → K) (dot2 : K → K → K → K → K) (b : Box K) (x : Nat → K) : K :=
  let bxy := axisTestFl2 rnd b x
  if bxy < 0 then bxy else
  let dx := rnd (x 0 - b.c0 0)
  let dy := rnd (x 1 - b.c0 1)
  let r := dot2 (b.A 0 0) dx (b.A 0 1) dy
  let s := dot2 (b.A 1 0) dx (b.A 1 1) dy
  let br := rnd (rnd (r + 1) * rnd (1 - r))
  if br < 0 then br else rnd (rnd (s + 1) * rnd (1 - s))

/-- obbox.h:89-95 `obbox_axis_test_3` -/
def axisTestFl3 (rnd : K → K) (b : Box K) (x : Nat → K) : K :=
  let bx := rnd (rnd (x 0 - (b.x 0).1) * rnd ((b.x 0).2 - x 0))
  let by' := rnd (rnd (x 1 - (b.x 1).1) * rnd ((b.x 1).2 - x 1))
  if bx < 0 then bx else if by' < 0 then by' else rnd (rnd (x 2 - (b.x 2).1) * rnd ((b.x 2).2 - x 2))

/-- obbox.h:98-110 `obbox_test_3` -/
def testFl3 (rnd : K → K) (dot3 : K → K → K → K → K → K → K) (b : Box K) (x : Nat → K) : K :=
  let bxyz := axisTestFl3 rnd b x
  if bxyz < 0 then bxyz else
  let dx := rnd (x 0 - b.c0 0)
  let dy := rnd (x 1 - b.c0 1)
  let dz := rnd (x 2 - b.c0 2)
  let r := dot3 (b.A 0 0) dx (b.A 0 1) dy (b.A 0 2) dz
  let s := dot3 (b.A 1 0) dx (b.A 1 1) dy (b.A 1 2) dz
  let t := dot3 (b.A 2 0) dx (b.A 2 1) dy (b.A 2 2) dz
  let br := rnd (rnd (r + 1) * rnd (1 - r))
  let bs := rnd (rnd (s + 1) * rnd (1 - s))
  if br < 0 then br else if bs < 0 then bs else rnd (rnd (t + 1) * rnd (1 - t))

end Gslib.Obb
