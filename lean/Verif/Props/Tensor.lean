import Verif.Lemmas.Tensor
import Mathlib.Algebra.Ring.Nat

/-!
# C36: the tensor kernels compute tensor-product contractions

All in exact arithmetic, for arrays at least as long as documented, including the work arrays. Success (`some`) includes that no
access is out of bounds.
-/

namespace Gslib.Props
open Gslib.Tensor Gslib.Spec Finset
variable {K : Type} [CommSemiring K]

/-- **C36** `tensor_mxm`: `C = A B`, column-major -/
theorem tensor_mxm_eq (nc na nb : Nat) (A B : List K) (hA : nc * na ≤ A.length) (hB : na * nb ≤ B.length) :
    ∃ C, mxm nc A na B nb = some C ∧ C.length = nc * nb ∧ ∀ i < nc, ∀ j < nb, ent C (i + nc * j) = mulEnt nc na A B i j :=
  ⟨_, mxm_eq nc A na hA nb B hB, by simp, fun _ hi _ hj => ent_tab2 hi hj⟩

/-- **C36** `tensor_mtxm`: `C = Aᵀ B` -/
theorem tensor_mtxm_eq (nc na nb : Nat) (A B : List K) (hA : na * nc ≤ A.length) (hB : na * nb ≤ B.length) :
    ∃ C, mtxm nc A na B nb = some C ∧ C.length = nc * nb ∧ ∀ i < nc, ∀ j < nb, ent C (i + nc * j) = tmulEnt na A B i j :=
  ⟨_, mtxm_eq nc A na hA nb B hB, by simp, fun _ hi _ hj => ent_tab2 hi hj⟩

/-- **C36** `tensor_mxv`: `y = A x` -/
theorem tensor_mxv_eq (ny nx : Nat) (A x : List K) (hA : ny * nx ≤ A.length) (hx : nx ≤ x.length) :
    ∃ y, mxv ny A x nx = some y ∧ y.length = ny ∧ ∀ i < ny, ent y i = ∑ k ∈ range nx, ent A (i + ny * k) * ent x k :=
  ⟨_, mxv_eq ny A x nx hA hx, by simp, fun _ hi => ent_tab hi⟩

/-- **C36** `tensor_mtxv`: `y = Aᵀ x`, for `nx > 0` -/
theorem tensor_mtxv_eq (ny nx : Nat) (A x : List K) (h0 : 0 < nx) (hA : nx * ny ≤ A.length) (hx : nx ≤ x.length) :
    ∃ y, mtxv ny A x nx = some y ∧ y.length = ny ∧ ∀ i < ny, ent y i = ∑ k ∈ range nx, ent A (k + nx * i) * ent x k :=
  ⟨_, mtxv_eq ny A x nx h0 hA hx, by simp, fun _ hi => ent_tab hi⟩

/-- with `nx = 0` and `ny > 0`, `tensor_mtxv` reads out of bounds (its inner loop counter wraps) -/
theorem tensor_mtxv_empty (ny : Nat) (A x : List K) : mtxv (ny + 1) A x 0 = none := by
  cases A <;> cases x <;> rfl

/-- **C36** `tensor_i1` -/
theorem tensor_i1_eq (Jr : List K) (nr : Nat) (u : List K) (hJ : nr ≤ Jr.length) (hu : nr ≤ u.length) :
    i1 Jr nr u = some (∑ i ∈ range nr, ent Jr i * ent u i) := dot_eq Jr u nr hJ hu

theorem interp2_alt (Jr : Nat → K) (nr : Nat) (Js : Nat → K) (ns : Nat) (u : List K) :
    interp2 Jr nr Js ns u = ∑ j ∈ range ns, Js j * ∑ i ∈ range nr, ent u (i + nr * j) * Jr i := by
  unfold interp2
  rw [sum_comm]
  refine sum_congr rfl fun j _ => ?_
  rw [mul_sum]
  refine sum_congr rfl fun i _ => ?_
  ring

theorem interp3_alt (Jr : Nat → K) (nr : Nat) (Js : Nat → K) (ns : Nat) (Jt : Nat → K) (nt : Nat) (u : List K) :
    interp3 Jr nr Js ns Jt nt u = ∑ k ∈ range nt, Jt k * ∑ j ∈ range ns, (∑ i ∈ range nr, ent u (i + nr * (j + ns * k)) * Jr i) * Js j := by
  unfold interp3
  have : ∀ i, (∑ j ∈ range ns, ∑ k ∈ range nt, Jr i * Js j * Jt k * ent u (i + nr * (j + ns * k))) =
      ∑ k ∈ range nt, ∑ j ∈ range ns, Jr i * Js j * Jt k * ent u (i + nr * (j + ns * k)) := fun i => sum_comm
  simp only [this]
  rw [sum_comm]
  refine sum_congr rfl fun k _ => ?_
  rw [sum_comm, mul_sum]
  refine sum_congr rfl fun j _ => ?_
  rw [sum_mul, mul_sum]
  refine sum_congr rfl fun i _ => ?_
  ring

/-- **C36** `tensor_i2`: `[Jr ⊗ Js] u` -/
theorem tensor_i2_eq (Jr : List K) (nr : Nat) (Js : List K) (ns : Nat) (u work : List K) (h0 : 0 < nr)
    (hr : nr ≤ Jr.length) (hs : ns ≤ Js.length) (hu : nr * ns ≤ u.length) (hw : ns ≤ work.length) :
    i2 Jr nr Js ns u work = some (interp2 (ent Jr) nr (ent Js) ns u) := by
  unfold i2
  rw [mtxv_eq ns u Jr nr h0 hu hr, Option.bind_some]
  obtain ⟨w, e, hl, hin, _⟩ := store_eq (p := work) (off := 0) (v := tab ns fun i => ∑ k ∈ range nr, ent u (k + nr * i) * ent Jr k) (by simpa using hw)
  rw [e, Option.bind_some, dot_eq Js w ns hs (by omega), interp2_alt]
  congr 1
  refine sum_congr rfl fun j hj => ?_
  have hj := mem_range.1 hj
  have h1 := hin j (by simpa using hj)
  rw [Nat.zero_add] at h1
  rw [h1, ent_tab hj]

theorem idx_lt {i j n m : Nat} (hi : i < n) (hj : j < m) : i + n * j < n * m := by
  calc i + n * j < n + n * j := by omega
    _ = n * (j + 1) := by ring
    _ ≤ n * m := Nat.mul_le_mul_left _ hj

/-- **C36** `tensor_i3`: `[Jr ⊗ Js ⊗ Jt] u`; `work` holds `ns*nt+nt` doubles -/
theorem tensor_i3_eq (Jr : List K) (nr : Nat) (Js : List K) (ns : Nat) (Jt : List K) (nt : Nat) (u work : List K)
    (h0 : 0 < nr) (h1 : 0 < ns) (hr : nr ≤ Jr.length) (hs : ns ≤ Js.length) (ht : nt ≤ Jt.length)
    (hu : nr * (ns * nt) ≤ u.length) (hw : ns * nt + nt ≤ work.length) :
    i3 Jr nr Js ns Jt nt u work = some (interp3 (ent Jr) nr (ent Js) ns (ent Jt) nt u) := by
  unfold i3
  rw [mtxv_eq (ns * nt) u Jr nr h0 hu hr, Option.bind_some]
  obtain ⟨w, e, hl, hin, _⟩ := store_eq (p := work) (off := nt) (v := tab (ns * nt) fun i => ∑ k ∈ range nr, ent u (k + nr * i) * ent Jr k) (by simp; omega)
  rw [e, Option.bind_some, mtxv_eq nt (w.drop nt) Js ns h1 (by simp; omega) hs, Option.bind_some]
  obtain ⟨w', e', hl', hin', _⟩ := store_eq (p := w) (off := 0) (v := tab nt fun i => ∑ k ∈ range ns, ent (w.drop nt) (k + ns * i) * ent Js k) (by simp; omega)
  rw [e', Option.bind_some, dot_eq Jt w' nt ht (by omega), interp3_alt]
  congr 1
  refine sum_congr rfl fun k hk => ?_
  have hk := mem_range.1 hk
  have g1 := hin' k (by simpa using hk)
  rw [Nat.zero_add] at g1
  rw [g1, ent_tab hk]
  congr 1
  refine sum_congr rfl fun j hj => ?_
  have hj := mem_range.1 hj
  rw [ent_drop, hin _ (by simpa using idx_lt hj hk), ent_tab (idx_lt hj hk)]

/-- **C36** `tensor_ig1` -/
theorem tensor_ig1_eq (wtr : List K) (nr : Nat) (u : List K) (hw : 2 * nr ≤ wtr.length) (hu : nr ≤ u.length) :
    ig1 wtr nr u = some (∑ i ∈ range nr, ent wtr i * ent u i, [∑ i ∈ range nr, ent wtr (nr + i) * ent u i]) := by
  unfold ig1
  rw [dot_eq _ u nr (by simp; omega) hu, Option.bind_some, dot_eq wtr u nr (by omega) hu, Option.bind_some]
  simp only [ent_drop]

theorem interp2_alt' (Jr : Nat → K) (nr : Nat) (Js : Nat → K) (ns : Nat) (u : List K) :
    interp2 Jr nr Js ns u = ∑ i ∈ range nr, Jr i * ∑ j ∈ range ns, ent u (i + nr * j) * Js j := by
  unfold interp2
  refine sum_congr rfl fun i _ => ?_
  rw [mul_sum]
  refine sum_congr rfl fun j _ => ?_
  ring

/-- **C36** `tensor_ig2`: value `[Jr ⊗ Js] u` and gradient `([Dr ⊗ Js] u, [Jr ⊗ Ds] u)` where `Jr = wtr`, `Dr = wtr+nr`, …;
`work` holds `2*nr` doubles -/
theorem tensor_ig2_eq (wtr : List K) (nr : Nat) (wts : List K) (ns : Nat) (u work : List K)
    (hr : 2 * nr ≤ wtr.length) (hs : 2 * ns ≤ wts.length) (hu : nr * ns ≤ u.length) (hw : 2 * nr ≤ work.length) :
    ig2 wtr nr wts ns u work = some (interp2 (ent wtr) nr (ent wts) ns u,
      [interp2 (fun i => ent wtr (nr + i)) nr (ent wts) ns u, interp2 (ent wtr) nr (fun j => ent wts (ns + j)) ns u]) := by
  unfold ig2
  rw [mxm_eq nr u ns hu 2 wts (by omega), Option.bind_some]
  obtain ⟨w, e, hl, hin, _⟩ := store_eq (p := work) (off := 0) (v := tab2 nr 2 fun i j => mulEnt nr ns u wts i j) (by simp; omega)
  have hv : ∀ i < nr, ∀ j < 2, ent w (i + nr * j) = mulEnt nr ns u wts i j := by
    intro i hi j hj
    have := hin (i + nr * j) (by simpa using idx_lt hi hj)
    rw [Nat.zero_add] at this
    rw [this, ent_tab2 hi hj]
  rw [e, Option.bind_some, dot_eq _ w nr (by simp; omega) (by omega), Option.bind_some,
    dot_eq wtr _ nr (by omega) (by simp; omega), Option.bind_some, dot_eq wtr w nr (by omega) (by omega), Option.bind_some]
  simp only [interp2_alt', ent_drop]
  congr 2
  · refine sum_congr rfl fun i hi => ?_
    have := hv i (mem_range.1 hi) 0 (by omega)
    simp only [Nat.mul_zero, Nat.add_zero, mulEnt] at this
    rw [this]
  · congr 1
    · refine sum_congr rfl fun i hi => ?_
      have := hv i (mem_range.1 hi) 0 (by omega)
      simp only [Nat.mul_zero, Nat.add_zero, mulEnt] at this
      rw [this]
    · congr 1
      refine sum_congr rfl fun i hi => ?_
      have := hv i (mem_range.1 hi) 1 (by omega)
      simp only [Nat.mul_one, mulEnt] at this
      rw [Nat.add_comm nr i, this]
      congr 1
      refine sum_congr rfl fun j _ => ?_
      rw [Nat.add_comm ns j]

theorem interp3_alt' (Jr : Nat → K) (nr : Nat) (Js : Nat → K) (ns : Nat) (Jt : Nat → K) (nt : Nat) (u : List K) :
    interp3 Jr nr Js ns Jt nt u = ∑ i ∈ range nr, (∑ j ∈ range ns, (∑ k ∈ range nt, ent u (i + nr * j + nr * ns * k) * Jt k) * Js j) * Jr i := by
  unfold interp3
  refine sum_congr rfl fun i _ => ?_
  rw [sum_mul]
  refine sum_congr rfl fun j _ => ?_
  rw [sum_mul, sum_mul]
  refine sum_congr rfl fun k _ => ?_
  rw [show i + nr * (j + ns * k) = i + nr * j + nr * ns * k by ring]
  ring

/-- **C36** `tensor_ig3`: value `[Jr ⊗ Js ⊗ Jt] u` and gradient `([Dr ⊗ Js ⊗ Jt] u, [Jr ⊗ Ds ⊗ Jt] u, [Jr ⊗ Js ⊗ Dt] u)`;
`work` holds `2*nr*ns+3*nr` doubles -/
theorem tensor_ig3_eq (wtr : List K) (nr : Nat) (wts : List K) (ns : Nat) (wtt : List K) (nt : Nat) (u work : List K)
    (hr : 2 * nr ≤ wtr.length) (hs : 2 * ns ≤ wts.length) (ht : 2 * nt ≤ wtt.length) (hu : nr * ns * nt ≤ u.length)
    (hw : 2 * (nr * ns) + 3 * nr ≤ work.length) :
    ig3 wtr nr wts ns wtt nt u work = some (interp3 (ent wtr) nr (ent wts) ns (ent wtt) nt u,
      [interp3 (fun i => ent wtr (nr + i)) nr (ent wts) ns (ent wtt) nt u,
       interp3 (ent wtr) nr (fun j => ent wts (ns + j)) ns (ent wtt) nt u,
       interp3 (ent wtr) nr (ent wts) ns (fun k => ent wtt (nt + k)) nt u]) := by
  unfold ig3
  simp only
  rw [mxm_eq (nr * ns) u nt hu 2 wtt (by omega), Option.bind_some]
  obtain ⟨w1, e1, hl1, hin1, _⟩ := store_eq (p := work) (off := 0) (v := tab2 (nr * ns) 2 fun i j => mulEnt (nr * ns) nt u wtt i j) (by simp; omega)
  have hv1 : ∀ q < nr * ns, ∀ c < 2, ent w1 (q + nr * ns * c) = ∑ k ∈ range nt, ent u (q + nr * ns * k) * ent wtt (k + nt * c) := by
    intro q hq c hc
    have := hin1 (q + nr * ns * c) (by simpa using idx_lt hq hc)
    rw [Nat.zero_add] at this
    rw [this, ent_tab2 hq hc, mulEnt]
  rw [e1, Option.bind_some, mxm_eq nr w1 ns (by omega) 2 wts (by omega), Option.bind_some]
  obtain ⟨w2, e2, hl2, hin2, hout2⟩ := store_eq (p := w1) (off := 2 * (nr * ns)) (v := tab2 nr 2 fun i j => mulEnt nr ns w1 wts i j) (by simp; omega)
  rw [e2, Option.bind_some, mxv_eq nr (w2.drop (nr * ns)) wts ns (by simp; omega) (by omega), Option.bind_some]
  obtain ⟨w3, e3, hl3, hin3, hout3⟩ := store_eq (p := w2) (off := 2 * (nr * ns) + 2 * nr)
    (v := tab nr fun i => ∑ k ∈ range ns, ent (w2.drop (nr * ns)) (i + nr * k) * ent wts k) (by simp; omega)
  have hb : ∀ i < nr, ∀ c < 2, ent w3 (2 * (nr * ns) + nr * c + i) = ∑ j ∈ range ns, (∑ k ∈ range nt, ent u (i + nr * j + nr * ns * k) * ent wtt k) * ent wts (j + ns * c) := by
    intro i hi c hc
    have hlt : i + nr * c < nr * 2 := idx_lt hi hc
    rw [hout3 _ (Or.inl (by omega)), show 2 * (nr * ns) + nr * c + i = 2 * (nr * ns) + (i + nr * c) by ring,
      hin2 _ (by simpa using idx_lt hi hc), ent_tab2 hi hc, mulEnt]
    refine sum_congr rfl fun j hj => ?_
    have := hv1 (i + nr * j) (idx_lt hi (mem_range.1 hj)) 0 (by omega)
    simp only [Nat.mul_zero, Nat.add_zero] at this
    rw [this]
  have hc : ∀ i < nr, ent w3 (2 * (nr * ns) + 2 * nr + i) = ∑ j ∈ range ns, (∑ k ∈ range nt, ent u (i + nr * j + nr * ns * k) * ent wtt (nt + k)) * ent wts j := by
    intro i hi
    rw [hin3 i (by simpa using hi), ent_tab hi]
    refine sum_congr rfl fun j hj => ?_
    have hq := idx_lt hi (mem_range.1 hj)
    rw [ent_drop, hout2 _ (Or.inl (by omega))]
    have := hv1 (i + nr * j) hq 1 (by omega)
    simp only [Nat.mul_one] at this
    rw [Nat.add_comm (nr * ns), this]
    congr 1
    refine sum_congr rfl fun k _ => ?_
    rw [Nat.add_comm k nt]
  rw [e3, Option.bind_some, dot_eq _ _ nr (by simp; omega) (by simp; omega), Option.bind_some,
    dot_eq _ wtr nr (by simp; omega) (by omega), Option.bind_some, dot_eq _ wtr nr (by simp; omega) (by omega), Option.bind_some,
    dot_eq _ wtr nr (by simp; omega) (by omega), Option.bind_some]
  simp only [interp3_alt', ent_drop]
  have hb0 : ∀ i ∈ range nr, ent w3 (2 * (nr * ns) + i) = ∑ j ∈ range ns, (∑ k ∈ range nt, ent u (i + nr * j + nr * ns * k) * ent wtt k) * ent wts j := by
    intro i hi
    have := hb i (mem_range.1 hi) 0 (by omega)
    simpa using this
  have hb1 : ∀ i ∈ range nr, ent w3 (2 * (nr * ns) + nr + i) = ∑ j ∈ range ns, (∑ k ∈ range nt, ent u (i + nr * j + nr * ns * k) * ent wtt k) * ent wts (ns + j) := by
    intro i hi
    have := hb i (mem_range.1 hi) 1 (by omega)
    rw [Nat.mul_one, Nat.mul_one] at this
    rw [this]
    refine sum_congr rfl fun j _ => ?_
    rw [Nat.add_comm ns j]
  congr 2
  · exact sum_congr rfl fun i hi => by rw [hb0 i hi]
  · congr 1
    · exact sum_congr rfl fun i hi => by rw [hb0 i hi]
    · congr 1
      · exact sum_congr rfl fun i hi => by rw [hb1 i hi]
      · congr 1
        exact sum_congr rfl fun i hi => by rw [hc i (mem_range.1 hi)]

/-- **C36** `tensor_2t`: `out[i,j] = Σ_{a,b} Jrt[a,i] Jst[b,j] u[a,b]`; `work` holds `nr*ms` doubles -/
theorem tensor_2t_eq (Jrt : List K) (nr mr : Nat) (Jst : List K) (ns ms : Nat) (u work : List K)
    (hr : mr * nr ≤ Jrt.length) (hs : ms * ns ≤ Jst.length) (hu : mr * ms ≤ u.length) (hw : nr * ms ≤ work.length) :
    ∃ out, t2 Jrt nr mr Jst ns ms u work = some out ∧ out.length = nr * ns ∧ ∀ i < nr, ∀ j < ns,
      ent out (i + nr * j) = interp2 (fun a => ent Jrt (a + mr * i)) mr (fun b => ent Jst (b + ms * j)) ms u := by
  unfold t2
  rw [mtxm_eq nr Jrt mr hr ms u hu, Option.bind_some]
  obtain ⟨w, e, hl, hin, _⟩ := store_eq (p := work) (off := 0) (v := tab2 nr ms fun i j => tmulEnt mr Jrt u i j) (by simpa using hw)
  rw [e, Option.bind_some, mxm_eq nr w ms (by omega) ns Jst hs]
  refine ⟨_, rfl, by simp, ?_⟩
  intro i hi j hj
  rw [ent_tab2 hi hj, mulEnt, interp2_alt]
  refine sum_congr rfl fun b hb => ?_
  have hb := mem_range.1 hb
  have := hin (i + nr * b) (by simpa using idx_lt hi hb)
  rw [Nat.zero_add, ent_tab2 hi hb, tmulEnt] at this
  rw [this, mul_comm]
  congr 1
  exact sum_congr rfl fun a _ => mul_comm _ _

theorem t3Loop_eq (nr ms : Nat) (Jst : List K) (ns : Nat) (hs : ms * ns ≤ Jst.length) : ∀ (mt p q : Nat) (work : List K),
    q + nr * ms * mt ≤ p → p + nr * ns * mt ≤ work.length →
    ∃ w, t3Loop nr ms Jst ns p q mt work = some w ∧ w.length = work.length ∧ (∀ i < p, ent w i = ent work i) ∧
      ∀ c < mt, ∀ i < nr, ∀ j < ns, ent w (p + (i + nr * j + nr * ns * c)) = ∑ b ∈ range ms, ent work (q + nr * ms * c + (i + nr * b)) * ent Jst (b + ms * j)
  | 0, p, q, work, _, _ => ⟨work, rfl, rfl, fun _ _ => rfl, fun _ h => by omega⟩
  | mt + 1, p, q, work, hq, hp => by
    have e1 : nr * ms * (mt + 1) = nr * ms * mt + nr * ms := by ring
    have e2 : nr * ns * (mt + 1) = nr * ns * mt + nr * ns := by ring
    rw [t3Loop, mxm_eq nr (work.drop q) ms (by simp; omega) ns Jst hs, Option.bind_some]
    obtain ⟨w1, e, hl, hin, hout⟩ := store_eq (p := work) (off := p) (v := tab2 nr ns fun i j => mulEnt nr ms (work.drop q) Jst i j) (by simp; omega)
    rw [e, Option.bind_some]
    obtain ⟨w, e', hl', hlow, hval⟩ := t3Loop_eq nr ms Jst ns hs mt (p + nr * ns) (q + nr * ms) w1 (by omega) (by omega)
    refine ⟨w, e', by omega, fun i hi => by rw [hlow i (by omega), hout i (Or.inl hi)], ?_⟩
    intro c hc i hi j hj
    cases c with
    | zero =>
      have hlt := idx_lt hi hj
      simp only [Nat.mul_zero, Nat.add_zero]
      rw [hlow _ (by omega), hin _ (by simpa using hlt), ent_tab2 hi hj, mulEnt]
      exact sum_congr rfl fun b _ => by rw [ent_drop]
    | succ c =>
      have := hval c (by omega) i hi j hj
      rw [show p + (i + nr * j + nr * ns * (c + 1)) = p + nr * ns + (i + nr * j + nr * ns * c) by ring, this]
      refine sum_congr rfl fun b hb => ?_
      have hb := idx_lt hi (mem_range.1 hb)
      have hc' : nr * ms * c + nr * ms ≤ nr * ms * mt := by
        calc nr * ms * c + nr * ms = nr * ms * (c + 1) := by ring
          _ ≤ nr * ms * mt := Nat.mul_le_mul_left _ (by omega)
      rw [hout _ (Or.inl (by omega)), show q + nr * ms + nr * ms * c + (i + nr * b) = q + nr * ms * (c + 1) + (i + nr * b) by ring]

/-- **C36** `tensor_3t`: `out[i,j,k] = Σ_{a,b,c} Jrt[a,i] Jst[b,j] Jtt[c,k] u[a,b,c]`; `work` holds `nr*(ms+ns)*mt` doubles -/
theorem tensor_3t_eq (Jrt : List K) (nr mr : Nat) (Jst : List K) (ns ms : Nat) (Jtt : List K) (nt mt : Nat) (u work : List K)
    (hr : mr * nr ≤ Jrt.length) (hs : ms * ns ≤ Jst.length) (ht : mt * nt ≤ Jtt.length) (hu : mr * (ms * mt) ≤ u.length)
    (hw : nr * (ms + ns) * mt ≤ work.length) :
    ∃ out, t3 Jrt nr mr Jst ns ms Jtt nt mt u work = some out ∧ out.length = nr * ns * nt ∧ ∀ i < nr, ∀ j < ns, ∀ k < nt,
      ent out (i + nr * (j + ns * k)) =
        interp3 (fun a => ent Jrt (a + mr * i)) mr (fun b => ent Jst (b + ms * j)) ms (fun c => ent Jtt (c + mt * k)) mt u := by
  unfold t3
  simp only
  have ew : nr * (ms + ns) * mt = nr * (ms * mt) + nr * ns * mt := by ring
  have ew' : nr * ms * mt = nr * (ms * mt) := by ring
  rw [mtxm_eq nr Jrt mr hr (ms * mt) u hu, Option.bind_some]
  obtain ⟨w, e, hl, hin, _⟩ := store_eq (p := work) (off := 0) (v := tab2 nr (ms * mt) fun i j => tmulEnt mr Jrt u i j) (by simp; omega)
  obtain ⟨w', e', hl', _, hval⟩ := t3Loop_eq nr ms Jst ns hs mt (nr * (ms * mt)) 0 w (by omega) (by omega)
  rw [e, Option.bind_some, e', Option.bind_some, mxm_eq (nr * ns) (w'.drop (nr * (ms * mt))) mt (by simp; omega) nt Jtt ht]
  refine ⟨_, rfl, by simp, ?_⟩
  intro i hi j hj k hk
  rw [show i + nr * (j + ns * k) = (i + nr * j) + nr * ns * k by ring, ent_tab2 (idx_lt hi hj) hk, mulEnt, interp3_alt]
  refine sum_congr rfl fun c hc => ?_
  have hc := mem_range.1 hc
  rw [ent_drop, hval c hc i hi j hj, mul_comm]
  congr 1
  refine sum_congr rfl fun b hb => ?_
  have hb := mem_range.1 hb
  congr 1
  have hq := idx_lt hb hc
  have := hin (i + nr * (b + ms * c)) (by simpa using idx_lt hi hq)
  rw [Nat.zero_add, ent_tab2 hi hq, tmulEnt] at this
  rw [show 0 + nr * ms * c + (i + nr * b) = i + nr * (b + ms * c) by ring, this]
  exact sum_congr rfl fun a _ => mul_comm _ _

/-- concrete cases: a 2 by 2 array -/
example : i2 [1, 2] 2 [3, 4] 2 [1, 0, 0, 1] [0, 0] = some (11 : ℕ) ∧
    t2 [1, 2] 1 2 [3, 4] 1 2 [1, 0, 0, 1] [0, 0] = some [(11 : ℕ)] ∧
    (ig3 [1, 1] 1 [1, 1] 1 [2, 1] 1 [5] [0, 0, 0, 0, 0] : Option (ℕ × List ℕ)) = some (10, [10, 10, 5]) := by
  decide

end Gslib.Props
