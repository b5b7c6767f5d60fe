import Verif.Lemmas.ElSearch3
import Verif.Props.ElGroup2

/-!
# The search in a 3D element and the evaluation in it, from the arrays on (C38, C44, C45, C46, C49)
-/

namespace Gslib.Props
open Gslib.El Gslib.Spec Gslib.Tensor Gslib.Num Polynomial

section
variable {K : Type} [Field K] [LinearOrder K]

/-- C49: `findpts_el_eval_3` for at most `nptMax` points stays inside `work` (of the size computed by `findpts_el_setup_3`, with any contents) and returns the tensor Lagrange interpolant of the field at each of the points -/
theorem findpts_el_eval_3_interpolates {e : El3 K} (he : El3Ok e) {nptMax : Nat} {w : List K} (hw : w.length = workSize3 (e.n 0) (e.n 1) (e.n 2) nptMax) (inp : List K) (hin : e.n 0 * e.n 1 * e.n 2 ≤ inp.length)
    (rs : List (Fin 3 → K)) (hn : rs.length ≤ nptMax) : ∃ w', findptsElEval3 e inp rs w = some (w', rs.map (tensor3 e 0 inp)) ∧ w'.length = w.length :=
  eval3_run he hw inp hin rs hn

/-- the reference coordinates of node `(i,j,k)` -/
def node3 (e : El3 K) (i j k : Nat) : Fin 3 → K := ![ent (e.z 0) i, ent (e.z 1) j, ent (e.z 2) k]

/-- the interpolant has the given value at each node -/
theorem tensor3_node {e : El3 K} (he : El3Ok e) (u : List K) {i j k : Nat} (hi : i < e.n 0) (hj : j < e.n 1) (hk : k < e.n 2) : tensor3 e 0 u (node3 e i j k) = ent u (i + e.n 0 * (j + e.n 1 * k)) := by
  unfold tensor3 interp3
  show ∑ i' ∈ Finset.range (e.n 0), ∑ j' ∈ Finset.range (e.n 1), ∑ k' ∈ Finset.range (e.n 2), lagD (e.n 0) (ent (e.z 0)) 0 i' (ent (e.z 0) i) * lagD (e.n 1) (ent (e.z 1)) 0 j' (ent (e.z 1) j) * lagD (e.n 2) (ent (e.z 2)) 0 k' (ent (e.z 2) k) *
    ent u (i' + e.n 0 * (j' + e.n 1 * k')) = _
  rw [Finset.sum_eq_single_of_mem i (Finset.mem_range.2 hi), Finset.sum_eq_single_of_mem j (Finset.mem_range.2 hj), Finset.sum_eq_single_of_mem k (Finset.mem_range.2 hk), lagD_node (he.dir 0).inj hi hi, lagD_node (he.dir 1).inj hj hj,
    lagD_node (he.dir 2).inj hk hk, if_pos rfl, if_pos rfl, if_pos rfl, one_mul, one_mul, one_mul]
  · intro b hb hne; rw [lagD_node (he.dir 2).inj (Finset.mem_range.1 hb) hk, if_neg hne, mul_zero, zero_mul]
  · intro b hb hne
    refine Finset.sum_eq_zero fun c _ => ?_
    rw [lagD_node (he.dir 1).inj (Finset.mem_range.1 hb) hj, if_neg hne, mul_zero, zero_mul, zero_mul]
  · intro b hb hne
    refine Finset.sum_eq_zero fun c _ => Finset.sum_eq_zero fun d _ => ?_
    rw [lagD_node (he.dir 0).inj (Finset.mem_range.1 hb) hi, if_neg hne, zero_mul, zero_mul, zero_mul]

/-- the seeds are nearest nodes -/
theorem seeds3 {e : El3 K} (he : El3Ok e) (big : K) (xs : List (Fin 3 → K)) (hfar : ∀ x ∈ xs, ∃ i j k, i < e.n 0 ∧ j < e.n 1 ∧ k < e.n 2 ∧ (elMap3 e).dist2 x (node3 e i j k) < big) :
    ∃ nodes rs, nodes3 (e.n 0) (e.n 1) (e.n 2) e.z e.x = some nodes ∧ (seed big nodes xs).mapM Prod.fst = some rs ∧ rs.length = xs.length ∧
      ∀ (m : Nat) x, xs[m]? = some x → ∃ i j k, i < e.n 0 ∧ j < e.n 1 ∧ k < e.n 2 ∧ rs[m]? = some (node3 e i j k) ∧
        ∀ i' j' k', i' < e.n 0 → j' < e.n 1 → k' < e.n 2 → (elMap3 e).dist2 x (node3 e i j k) ≤ (elMap3 e).dist2 x (node3 e i' j' k') := by
  have hlt : ∀ i j k, i < e.n 0 → j < e.n 1 → k < e.n 2 → i + (j + k * e.n 1) * e.n 0 < e.n 0 * e.n 1 * e.n 2 := by
    intro i j k hi hj hk
    have h1 : j + k * e.n 1 < e.n 1 * e.n 2 := by have := row_lt (len := e.n 1) hk; rw [Nat.mul_comm k]; omega
    have := row_lt (len := e.n 0) h1
    rw [Nat.mul_comm (j + k * e.n 1), Nat.mul_assoc]; omega
  let g : Nat × Nat × Nat → (Fin 3 → K) × (Fin 3 → K) := fun c => (node3 e c.1 c.2.1 c.2.2, ![ent (e.x 0) (c.1 + (c.2.1 + c.2.2 * e.n 1) * e.n 0), ent (e.x 1) (c.1 + (c.2.1 + c.2.2 * e.n 1) * e.n 0), ent (e.x 2) (c.1 + (c.2.1 + c.2.2 * e.n 1) * e.n 0)])
  let L := (List.range (e.n 2)).flatMap fun k => (List.range (e.n 1)).flatMap fun j => (List.range (e.n 0)).map fun i => (i, j, k)
  have hL : ∀ c, c ∈ L ↔ c.1 < e.n 0 ∧ c.2.1 < e.n 1 ∧ c.2.2 < e.n 2 := by
    intro c
    constructor
    · intro h
      obtain ⟨k, hk, h⟩ := List.mem_flatMap.1 h
      obtain ⟨j, hj, h⟩ := List.mem_flatMap.1 h
      obtain ⟨i, hi, rfl⟩ := List.mem_map.1 h
      exact ⟨List.mem_range.1 hi, List.mem_range.1 hj, List.mem_range.1 hk⟩
    · intro h
      exact List.mem_flatMap.2 ⟨c.2.2, List.mem_range.2 h.2.2, List.mem_flatMap.2 ⟨c.2.1, List.mem_range.2 h.2.1, List.mem_map.2 ⟨c.1, List.mem_range.2 h.1, rfl⟩⟩⟩
  have e1 : nodes3 (e.n 0) (e.n 1) (e.n 2) e.z e.x = some (L.map g) := by
    refine mapM_some L fun c hc => ?_
    obtain ⟨hi, hj, hk⟩ := (hL c).1 hc
    have := hlt _ _ _ hi hj hk
    rw [getElem?_ent (by rw [(he.dir 0).len]; exact hi), Option.bind_some, getElem?_ent (by rw [(he.dir 1).len]; exact hj), Option.bind_some, getElem?_ent (by rw [(he.dir 2).len]; exact hk), Option.bind_some,
      getElem?_ent (by rw [he.x]; exact this), Option.bind_some, getElem?_ent (by rw [he.x]; exact this), Option.bind_some, getElem?_ent (by rw [he.x]; exact this)]
    rfl
  have hd : ∀ x c, c ∈ L → sqDist x (g c).2 = (elMap3 e).dist2 x (node3 e c.1 c.2.1 c.2.2) := by
    intro x c hc
    obtain ⟨hi, hj, hk⟩ := (hL c).1 hc
    unfold sqDist ElMap3.dist2
    rw [Fin.sum_univ_three]
    have hX : ∀ d, (elMap3 e).X (node3 e c.1 c.2.1 c.2.2) d = ent (e.x d) (c.1 + (c.2.1 + c.2.2 * e.n 1) * e.n 0) := by
      intro d
      rw [elMap3_X, tensor3_node he _ hi hj hk, Nat.mul_comm (e.n 0), Nat.mul_comm (e.n 1)]
    rw [hX, hX, hX]
    show (x 0 - ent (e.x 0) _) * (x 0 - ent (e.x 0) _) + (x 1 - ent (e.x 1) _) * (x 1 - ent (e.x 1) _) + (x 2 - ent (e.x 2) _) * (x 2 - ent (e.x 2) _) = _
    ring
  have hseed : ∀ (m : Nat) x, xs[m]? = some x → ∃ i j k d, i < e.n 0 ∧ j < e.n 1 ∧ k < e.n 2 ∧ (seed big (L.map g) xs)[m]? = some (some (node3 e i j k), d) ∧
      ∀ i' j' k', i' < e.n 0 → j' < e.n 1 → k' < e.n 2 → (elMap3 e).dist2 x (node3 e i j k) ≤ (elMap3 e).dist2 x (node3 e i' j' k') := by
    intro m x hx
    rcases seed_nearest big (L.map g) xs m x hx with ⟨pre, nd, post, hn, -, h2, h3, h4⟩ | ⟨h1, -⟩
    · obtain ⟨c, hc, rfl⟩ := List.mem_map.1 (show nd ∈ L.map g by rw [hn]; simp)
      obtain ⟨hi, hj, hk⟩ := (hL c).1 hc
      refine ⟨c.1, c.2.1, c.2.2, _, hi, hj, hk, h4, fun i' j' k' hi' hj' hk' => ?_⟩
      have hm : g (i', j', k') ∈ pre ++ g c :: post := by rw [← hn]; exact List.mem_map_of_mem ((hL (i', j', k')).2 ⟨hi', hj', hk'⟩)
      rw [← hd x c hc, ← hd x (i', j', k') ((hL _).2 ⟨hi', hj', hk'⟩)]
      rcases List.mem_append.1 hm with h | h
      · exact (h2 _ h).le
      · rcases List.mem_cons.1 h with h | h
        · rw [h]
        · exact h3 _ h
    · exfalso
      obtain ⟨i, j, k, hi, hj, hk, hlt⟩ := hfar x (List.mem_of_getElem? hx)
      have hm := (hL (i, j, k)).2 ⟨hi, hj, hk⟩
      have := h1 _ (List.mem_map_of_mem hm)
      rw [hd x _ hm] at this
      exact absurd hlt (not_lt.2 this)
  have hsome : ∀ p ∈ seed big (L.map g) xs, p.1 = some (p.1.getD 0) := by
    intro p hp
    obtain ⟨m, hm⟩ := List.mem_iff_getElem?.1 hp
    have hm' : m < xs.length := by rw [← seed_length big (L.map g) xs]; exact (List.getElem?_eq_some_iff.1 hm).1
    obtain ⟨i, j, k, d, -, -, -, h, -⟩ := hseed m _ (List.getElem?_eq_getElem hm')
    rw [hm] at h
    rw [Option.some.inj h]; rfl
  refine ⟨_, _, e1, mapM_some _ hsome, by rw [List.length_map, seed_length], fun m x hx => ?_⟩
  obtain ⟨i, j, k, d, hi, hj, hk, h, hmin⟩ := hseed m x hx
  exact ⟨i, j, k, hi, hj, hk, by rw [List.getElem?_map, h]; rfl, hmin⟩

end

section
variable {K : Type} [Field K] [LinearOrder K] [IsStrictOrderedRing K]

/-- C38, C44, C45, C46: `findpts_el_3` as a whole, from the element's nodes and arrays with any contents of the sizes that `findpts_el_setup_3` allocates: for at most `nptMax` points it runs to the end inside its
arrays, and the result for point `m` is what at most 50 Newton steps of the element map give from the nearest node of the element. It lies in the element, and the squared distance reported is one of a point of the
element, not larger than that to any node of the element. -/
theorem findpts_el_3_search {e : El3 K} (he : El3Ok e) {nptMax : Nat} {st : ElSt3 K} (hm : El3Mem e nptMax st) (fuel : Nat) (hf : 21 ≤ fuel) (big tol : K) (xs : List (Fin 3 → K)) (hn : xs.length ≤ nptMax)
    (hreg : ∀ x ∈ xs, Regular3 (elMap3 e) big x) (hfar : ∀ x ∈ xs, ∃ i j k, i < e.n 0 ∧ j < e.n 1 ∧ k < e.n 2 ∧ (elMap3 e).dist2 x (node3 e i j k) < big) :
    ∃ st' out, findptsEl3 fuel (2 * nptMax) big tol e xs st = some (st', out) ∧ El3Mem e nptMax st' ∧ ∀ (m : Nat) x, xs[m]? = some x → ∃ i j k p, i < e.n 0 ∧ j < e.n 1 ∧ k < e.n 2 ∧
      (∀ i' j' k', i' < e.n 0 → j' < e.n 1 → k' < e.n 2 → (elMap3 e).dist2 x (node3 e i j k) ≤ (elMap3 e).dist2 x (node3 e i' j' k')) ∧
      p = iter (fun p => conv3 p.flags) (step3 (elMap3 e) fuel big tol) 50 (startPt big 0 1 x (node3 e i j k) m) ∧
      out m = some { p with flags := p.flags &&& 0x7f } ∧ p.x = x ∧ (∃ c C, p.flags &&& 0x7f = lowFlags3 c C ∧ RefPt3 p.r c) ∧
      (∃ o, (∀ d, -1 ≤ o d ∧ o d ≤ 1) ∧ p.dist2 = (elMap3 e).dist2 x o) ∧ ∀ i' j' k', i' < e.n 0 → j' < e.n 1 → k' < e.n 2 → p.dist2 ≤ (elMap3 e).dist2 x (node3 e i' j' k') := by
  obtain ⟨nodes, rs, e1, e2, hrl, hrs⟩ := seeds3 he big xs hfar
  have hnode : ∀ i j k, i < e.n 0 → j < e.n 1 → k < e.n 2 → ∀ d, -1 ≤ node3 e i j k d ∧ node3 e i j k d ≤ 1 := by
    intro i j k hi hj hk d
    rcases fin3 d with rfl | rfl | rfl
    · exact (he.dir 0).range i hi
    · exact (he.dir 1).range j hj
    · exact (he.dir 2).range k hk
  have hgood : ∀ p : Pt K 3, (Good3 (elMap3 e) big p ∧ Regular3 (elMap3 e) big p.x) → conv3 p.flags = false → (Good3 (elMap3 e) big (step3 (elMap3 e) fuel big tol p) ∧
      Regular3 (elMap3 e) big (step3 (elMap3 e) fuel big tol p).x) ∧ (step3 (elMap3 e) fuel big tol p).index = p.index := by
    intro p hp hc
    obtain ⟨h1, h2, h3, -⟩ := step3_good (elMap3 e) fuel hf big tol p hp.2 hp.1 hc
    exact ⟨⟨h1, by rw [h2]; exact hp.2⟩, h3⟩
  obtain ⟨st', out, e3, h1, h2⟩ := findpts_el_3_each_point (group3 fuel big tol e) (step3 (elMap3 e) fuel big tol) (Sides3 e nptMax) (fun p => Good3 (elMap3 e) big p ∧ Regular3 (elMap3 e) big p.x)
    (2 * nptMax) xs.length
    (fun r s t fd ps hi hne hle hps => group3_run he fuel hf big tol hi ps (hle.trans hn) hne r s t hps)
    (by
      rintro p ⟨⟨c, C, h, -⟩, -⟩
      rw [h]
      refine ⟨c 0, c 1, c 2, ?_⟩
      unfold lowFlags3
      cases C
      · left; simp
      · right; rfl)
    hgood (by omega) big 0 1 xs rs rfl hrl { st with sideInit := 0 }
    ⟨⟨hm.sides, hm.work, hm.pt⟩, fun d h => absurd (BitVec.zero_and) h, fun d h => absurd (BitVec.zero_and) h, fun h => absurd (BitVec.zero_and) h⟩
    (by
      intro m hmlt
      have hx := List.getElem?_eq_getElem hmlt
      obtain ⟨i, j, k, hi, hj, hk, hr, -⟩ := hrs m _ hx
      rw [List.getElem?_eq_getElem (by omega)] at hr
      rw [Option.some.inj hr]
      exact ⟨start_good3 _ _ _ _ _ (hnode i j k hi hj hk), hreg _ (List.getElem_mem hmlt)⟩)
  refine ⟨st', out, ?_, h1.mem, ?_⟩
  · unfold findptsEl3
    rw [e1, Option.bind_some, e2, Option.bind_some, e3]
  intro m x hx
  have hmlt : m < xs.length := (List.getElem?_eq_some_iff.1 hx).1
  obtain ⟨i, j, k, hi, hj, hk, hr, hmin⟩ := hrs m x hx
  have hmk := h2 m hmlt
  have ex : xs[m] = x := (List.getElem?_eq_some_iff.1 hx).2
  have er : rs[m]'(by omega) = node3 e i j k := (List.getElem?_eq_some_iff.1 hr).2
  rw [ex, er] at hmk
  dsimp only at hmk
  have hE := hreg x (List.mem_of_getElem? hx)
  set p0 : Pt K 3 := startPt big 0 1 x (node3 e i j k) m with hp0
  have hc0 : conv3 p0.flags = false := by show conv3 0 = false; decide
  have g0 : Good3 (elMap3 e) big p0 := start_good3 _ _ _ _ _ (hnode i j k hi hj hk)
  -- the first step is accepted
  obtain ⟨p1, s1, s2, s3, -, -, s5, -⟩ := findpts_el_3_trust (elMap3 e) fuel hf big tol p0 hE g0 hc0
  have hacc := s5 (by
    show 1 / 100 * (0 : K) ≤ big - (elMap3 e).dist2 x (node3 e i j k)
    have := hE.big _ (hnode i j k hi hj hk)
    rw [mul_zero]; linarith)
  have hst : step3 (elMap3 e) fuel big tol p0 = p1 := by unfold step3; rw [s1]; rfl
  have hit : iter (fun p => conv3 p.flags) (step3 (elMap3 e) fuel big tol) 50 p0 = iter (fun p => conv3 p.flags) (step3 (elMap3 e) fuel big tol) 49 p1 := by
    rw [iter, if_neg (by rw [hc0]; simp), hst]
  obtain ⟨f1, f2, f3⟩ := findpts_el_3_iterates (elMap3 e) fuel hf big tol 50 p0 hE g0
  obtain ⟨t1, t2, t3⟩ := findpts_el_3_iterates (elMap3 e) fuel hf big tol 49 p1 (by rw [s3]; exact hE) s2
  rw [← hit] at t3
  have hle : (iter (fun p => conv3 p.flags) (step3 (elMap3 e) fuel big tol) 50 p0).dist2 ≤ (elMap3 e).dist2 x (node3 e i j k) := t3.trans hacc.2.1.le
  refine ⟨i, j, k, _, hi, hj, hk, hmin, rfl, hmk, f2, ?_, ?_, fun i' j' k' hi' hj' hk' => hle.trans (hmin i' j' k' hi' hj' hk')⟩
  · obtain ⟨c, C, q1, q2, -⟩ := f1
    exact ⟨c, C, q1, q2⟩
  · obtain ⟨-, -, -, -, -, q⟩ := findpts_el_3_state (elMap3 e) big _ f1
    have f2' : (iter (fun p => conv3 p.flags) (step3 (elMap3 e) fuel big tol) 50 p0).x = x := f2
    rcases q with q | ⟨o, o1, -, o3⟩
    · have hb := hE.big _ (hnode i j k hi hj hk)
      exact ⟨node3 e i j k, hnode i j k hi hj hk, by rw [q]; exact le_antisymm (by rw [← q]; exact hle) hb⟩
    · rw [f2'] at o3
      exact ⟨o, o1, o3⟩

end

/-! ## what `findpts_el_setup_3` makes -/

section
variable {K : Type} [Field K] [LinearOrder K] [IsStrictOrderedRing K]

/-- C38: for 2 to 24 nodes in each direction, `findpts_el_setup_3` (with any starting values and tolerances of the Newton iteration for the nodes, which is not used then) and `findpts_el_start_3` with coordinates of the
right size make an element as the theorems above require -/
theorem findpts_el_setup_3_ok (fuel : Nat) (eps : K) (guess : Nat → K) (n : Fin 3 → Nat) (hn : ∀ d, 2 ≤ n d ∧ n d ≤ 24) (x : Fin 3 → List K) (hx : ∀ c, (x c).length = n 0 * n 1 * n 2) :
    ∃ wt, El3Ok ⟨n, x, fun d => lobZ fuel eps guess (n d), wt, fun d => gllOf fuel eps guess (n d)⟩ := by
  choose wt hwt using fun d => (gll_dir fuel eps guess (hn d).1 (hn d).2).1
  exact ⟨wt, hwt, hx⟩

end

/-- findpts_el_3.c:206-231: start and size, in doubles, of the parts of the block at `z[0]`: `z[0]` to `z[2]`, `lag_data[0]` to `lag_data[2]`, `wtend[0]` to `wtend[2]`, `sides`, `work`; `lag d` is `lag_size[d]` -/
def block3 (nr ns nt nptMax : Nat) (lag : Fin 3 → Nat) : List (Nat × Nat) :=
  let tot := 12 * (ns * nt) + 12 * (nt * nr) + 6 * (nr * ns) + 36 * (nr + ns + nt)
  let z1 := nr
  let z2 := z1 + ns
  let l0 := z2 + nt
  let l1 := l0 + lag 0
  let l2 := l1 + lag 1
  let w0 := l2 + lag 2
  let w1 := w0 + 6 * nr
  let w2 := w1 + 6 * ns
  let sd := w2 + 6 * nt
  let wk := sd + tot
  [(0, nr), (z1, ns), (z2, nt), (l0, lag 0), (l1, lag 1), (l2, lag 2), (w0, 6 * nr), (w1, 6 * ns), (w2, 6 * nt), (sd, tot), (wk, workSize3 nr ns nt nptMax)]

/-- findpts_el_3.c:206-221: the number of doubles allocated -/
def blockSize3 (nr ns nt nptMax : Nat) (lag : Fin 3 → Nat) : Nat := lag 0 + lag 1 + lag 2 + 7 * (nr + ns + nt) + (12 * (ns * nt) + 12 * (nt * nr) + 6 * (nr * ns) + 36 * (nr + ns + nt)) + workSize3 nr ns nt nptMax

/-- C38: the parts, of the sizes used by the theorems above, lie in the block and do not overlap -/
theorem findpts_el_setup_3_layout (nr ns nt nptMax : Nat) (lag : Fin 3 → Nat) :
    (block3 nr ns nt nptMax lag).Pairwise (fun a b => a.1 + a.2 ≤ b.1) ∧ ∀ a ∈ block3 nr ns nt nptMax lag, a.1 + a.2 ≤ blockSize3 nr ns nt nptMax lag := by
  unfold block3 blockSize3
  generalize lag 0 = a
  generalize lag 1 = b
  generalize lag 2 = c
  generalize workSize3 nr ns nt nptMax = d
  generalize 12 * (ns * nt) + 12 * (nt * nr) + 6 * (nr * ns) + 36 * (nr + ns + nt) = t
  constructor
  · simp only [List.pairwise_cons, List.mem_cons, List.not_mem_nil, or_false, forall_eq_or_imp, forall_eq, List.Pairwise.nil, and_true, false_imp_iff, implies_true]
    omega
  · simp only [List.mem_cons, List.not_mem_nil, or_false, forall_eq_or_imp, forall_eq]
    omega

/-! ## Example: the trilinear element `x = 2r + s`, `y = s + rs/4`, `z = t + st/4` -/

/-- the element -/
def exEl3 : El3 Rat := ⟨fun _ => 2, ![[-3, 1, -1, 3, -3, 1, -1, 3], [-3/4, -5/4, 3/4, 5/4, -3/4, -5/4, 3/4, 5/4], [-3/4, -3/4, -5/4, -5/4, 3/4, 3/4, 5/4, 5/4]], fun _ => [-1, 1], fun _ => exWt, fun _ => gllOf 0 0 (fun _ => 0) 2⟩

theorem exEl3_ok : El3Ok exEl3 := by
  refine ⟨fun d => exEl2_ok.dir 0, fun c => by fin_cases c <;> rfl⟩

theorem exEl3_t (k : Fin 3 → Nat) (u0 u1 u2 u3 u4 u5 u6 u7 : Rat) (r : Fin 3 → Rat) : tensor3 exEl3 k [u0, u1, u2, u3, u4, u5, u6, u7] r =
    let L := fun (d : Fin 3) i => lagD 2 (ent [(-1 : Rat), 1]) (k d) i (r d)
    L 0 0 * (L 1 0 * (L 2 0 * u0 + L 2 1 * u4) + L 1 1 * (L 2 0 * u2 + L 2 1 * u6)) + L 0 1 * (L 1 0 * (L 2 0 * u1 + L 2 1 * u5) + L 1 1 * (L 2 0 * u3 + L 2 1 * u7)) := by
  unfold tensor3 interp3
  show ∑ i ∈ Finset.range 2, ∑ j ∈ Finset.range 2, ∑ l ∈ Finset.range 2, lagD 2 (ent [(-1 : Rat), 1]) (k 0) i (r 0) * lagD 2 (ent [(-1 : Rat), 1]) (k 1) j (r 1) * lagD 2 (ent [(-1 : Rat), 1]) (k 2) l (r 2) *
    ent [u0, u1, u2, u3, u4, u5, u6, u7] (i + 2 * (j + 2 * l)) = _
  simp only [Finset.sum_range_succ, Finset.sum_range_zero, zero_add, Nat.mul_zero, Nat.add_zero, Nat.mul_one, Nat.reduceAdd, Nat.reduceMul]
  have a : ∀ (l : List Rat) i v, l[i]? = some v → ent l i = v := fun l i v h => by unfold ent; rw [List.getD_eq_getElem?_getD, h]; rfl
  generalize hl : [u0, u1, u2, u3, u4, u5, u6, u7] = l
  rw [a l 0 u0 (by rw [← hl]; rfl), a l 1 u1 (by rw [← hl]; rfl), a l 2 u2 (by rw [← hl]; rfl), a l 3 u3 (by rw [← hl]; rfl), a l 4 u4 (by rw [← hl]; rfl), a l 5 u5 (by rw [← hl]; rfl), a l 6 u6 (by rw [← hl]; rfl), a l 7 u7 (by rw [← hl]; rfl)]
  ring

/-- its map -/
theorem exEl3_map (r : Fin 3 → Rat) : ((elMap3 exEl3).X r 0 = 2 * r 0 + r 1 ∧ (elMap3 exEl3).X r 1 = r 1 + r 0 * r 1 / 4 ∧ (elMap3 exEl3).X r 2 = r 2 + r 1 * r 2 / 4) ∧
    det3 ((elMap3 exEl3).J r) = (1 + r 1 / 4) * (2 * (1 + r 0 / 4) - r 1 / 4) := by
  have hx0 : exEl3.x 0 = [-3, 1, -1, 3, -3, 1, -1, 3] := rfl
  have hx1 : exEl3.x 1 = [-3/4, -5/4, 3/4, 5/4, -3/4, -5/4, 3/4, 5/4] := rfl
  have hx2 : exEl3.x 2 = [-3/4, -3/4, -5/4, -5/4, 3/4, 3/4, 5/4, 5/4] := rfl
  have l00 : ∀ y, lagD 2 (ent [(-1 : Rat), 1]) 0 0 y = (1 - y) / 2 := fun y => by rw [lag2 0 0 (by omega) (by omega)]; rfl
  have l01 : ∀ y, lagD 2 (ent [(-1 : Rat), 1]) 0 1 y = (1 + y) / 2 := fun y => by rw [lag2 0 1 (by omega) (by omega)]; rfl
  have l10 : ∀ y, lagD 2 (ent [(-1 : Rat), 1]) 1 0 y = -1 / 2 := fun y => by rw [lag2 1 0 (by omega) (by omega)]; rfl
  have l11 : ∀ y, lagD 2 (ent [(-1 : Rat), 1]) 1 1 y = 1 / 2 := fun y => by rw [lag2 1 1 (by omega) (by omega)]; rfl
  have v : ∀ (a b c : Nat), (![a, b, c] : Fin 3 → Nat) 0 = a ∧ (![a, b, c] : Fin 3 → Nat) 1 = b ∧ (![a, b, c] : Fin 3 → Nat) 2 = c := fun a b c => ⟨rfl, rfl, rfl⟩
  refine ⟨⟨?_, ?_, ?_⟩, ?_⟩
  · show tensor3 exEl3 ![0, 0, 0] (exEl3.x 0) r = _
    rw [hx0, exEl3_t]; simp only [(v _ _ _).1, (v _ _ _).2.1, (v _ _ _).2.2, l00, l01]; ring
  · show tensor3 exEl3 ![0, 0, 0] (exEl3.x 1) r = _
    rw [hx1, exEl3_t]; simp only [(v _ _ _).1, (v _ _ _).2.1, (v _ _ _).2.2, l00, l01]; ring
  · show tensor3 exEl3 ![0, 0, 0] (exEl3.x 2) r = _
    rw [hx2, exEl3_t]; simp only [(v _ _ _).1, (v _ _ _).2.1, (v _ _ _).2.2, l00, l01]; ring
  · have hJ : (elMap3 exEl3).J r 0 = ![2, 1, 0] ∧ (elMap3 exEl3).J r 1 = ![r 1 / 4, 1 + r 0 / 4, 0] ∧ (elMap3 exEl3).J r 2 = ![0, r 2 / 4, 1 + r 1 / 4] := by
      refine ⟨?_, ?_, ?_⟩
      · show ![tensor3 exEl3 ![1, 0, 0] (exEl3.x 0) r, tensor3 exEl3 ![0, 1, 0] (exEl3.x 0) r, tensor3 exEl3 ![0, 0, 1] (exEl3.x 0) r] = _
        rw [hx0, exEl3_t, exEl3_t, exEl3_t]; simp only [(v _ _ _).1, (v _ _ _).2.1, (v _ _ _).2.2, l00, l01, l10, l11]
        congr 1
        · ring
        · congr 1
          · ring
          · congr 1; ring
      · show ![tensor3 exEl3 ![1, 0, 0] (exEl3.x 1) r, tensor3 exEl3 ![0, 1, 0] (exEl3.x 1) r, tensor3 exEl3 ![0, 0, 1] (exEl3.x 1) r] = _
        rw [hx1, exEl3_t, exEl3_t, exEl3_t]; simp only [(v _ _ _).1, (v _ _ _).2.1, (v _ _ _).2.2, l00, l01, l10, l11]
        congr 1
        · ring
        · congr 1
          · ring
          · congr 1; ring
      · show ![tensor3 exEl3 ![1, 0, 0] (exEl3.x 2) r, tensor3 exEl3 ![0, 1, 0] (exEl3.x 2) r, tensor3 exEl3 ![0, 0, 1] (exEl3.x 2) r] = _
        rw [hx2, exEl3_t, exEl3_t, exEl3_t]; simp only [(v _ _ _).1, (v _ _ _).2.1, (v _ _ _).2.2, l00, l01, l10, l11]
        congr 1
        · ring
        · congr 1
          · ring
          · congr 1; ring
    unfold det3
    rw [hJ.1, hJ.2.1, hJ.2.2]
    simp only [Matrix.cons_val_zero, Matrix.cons_val_one, Matrix.cons_val]
    ring

/-- it is regular for points that are not far away -/
theorem exEl3_regular (x : Fin 3 → Rat) (h0 : |x 0| ≤ 5) (h1 : |x 1| ≤ 5) (h2 : |x 2| ≤ 5) : Regular3 (elMap3 exEl3) 1000 x := by
  constructor
  · intro r hr
    have a := hr 0
    have b := hr 1
    rw [(exEl3_map r).2]
    exact mul_ne_zero (by intro h; linarith [b.1]) (by intro h; linarith [a.1, b.2])
  · intro r hr
    have a := hr 0
    have b := hr 1
    have c := hr 2
    unfold ElMap3.dist2
    rw [(exEl3_map r).1.1, (exEl3_map r).1.2.1, (exEl3_map r).1.2.2]
    have g0 := abs_le.1 h0
    have g1 := abs_le.1 h1
    have g2 := abs_le.1 h2
    have h4 : |r 0 * r 1| ≤ 1 := by rw [abs_mul]; exact mul_le_one₀ (abs_le.2 a) (abs_nonneg _) (abs_le.2 b)
    have h5 : |r 1 * r 2| ≤ 1 := by rw [abs_mul]; exact mul_le_one₀ (abs_le.2 b) (abs_nonneg _) (abs_le.2 c)
    have h6 := abs_le.1 h4
    have h7 := abs_le.1 h5
    have q0 := sq_le_sq' (a := x 0 - (2 * r 0 + r 1)) (b := 10) (by linarith [a.1, a.2, b.1, b.2]) (by linarith [a.1, a.2, b.1, b.2])
    have q1 := sq_le_sq' (a := x 1 - (r 1 + r 0 * r 1 / 4)) (b := 10) (by linarith [b.1, b.2]) (by linarith [b.1, b.2])
    have q2 := sq_le_sq' (a := x 2 - (r 2 + r 1 * r 2 / 4)) (b := 10) (by linarith [c.1, c.2]) (by linarith [c.1, c.2])
    linarith

/-- arrays for up to 4 points -/
def exSt3 : ElSt3 Rat := ⟨7, List.replicate 336 5, List.replicate (workSize3 2 2 2 4) 7, none, fun _ => none, List.replicate 240 9⟩

/-- inside; outside next to a face, an edge, a corner -/
def exXs3 : List (Fin 3 → Rat) := [![1, 1 / 2, 1 / 4], ![0, 0, 2], ![4, 0, 2], ![4, 4, 4]]

/-- the hypotheses of `findpts_el_3_search` hold for this element, these points and arrays with garbage, even in the bits of `side_init` -/
example : ∃ st' m, findptsEl3 21 8 1000 (1 / 100) exEl3 exXs3 exSt3 = some (st', m) ∧ El3Mem exEl3 4 st' := by
  obtain ⟨st', m, h1, h2, -⟩ := findpts_el_3_search exEl3_ok (nptMax := 4) (st := exSt3) ⟨List.length_replicate, List.length_replicate, List.length_replicate⟩ 21 (le_refl 21) 1000 (1 / 100) exXs3 (by decide)
    (by
      intro x hx
      simp only [exXs3, List.mem_cons, List.not_mem_nil, or_false] at hx
      rcases hx with rfl | rfl | rfl | rfl <;> exact exEl3_regular _ (by decide +kernel) (by decide +kernel) (by decide +kernel))
    (by
      intro x hx
      refine ⟨1, 1, 1, by decide, by decide, by decide, ?_⟩
      unfold ElMap3.dist2
      rw [(exEl3_map _).1.1, (exEl3_map _).1.2.1, (exEl3_map _).1.2.2]
      simp only [exXs3, List.mem_cons, List.not_mem_nil, or_false] at hx
      rcases hx with rfl | rfl | rfl | rfl <;> decide +kernel)
  exact ⟨st', m, h1, h2⟩

/-- and so it runs: the first point ends inside, the second on the face `t = 1`, the third on the edge `r = 1`, `t = 1`, the last in the corner `(1,1,1)` -/
example : (findptsEl3 21 8 1000 (1 / 100) exEl3 exXs3 exSt3).map (fun o => (List.range 4).map fun i => (o.2 i).map fun p => (p.flags &&& 0x3f, decide (p.r 0 = 1), decide (p.r 1 = 1), decide (p.r 2 = 1))) =
    some [some (0, false, false, false), some (32, false, false, true), some (34, true, false, true), some (42, true, true, true)] := by
  decide +kernel

end Gslib.Props
