import Verif.Lemmas.ElSearch2
import Verif.Props.ElDir

/-!
# The search in a 2D element and the evaluation in it, from the arrays on (C38, C44, C45, C46, C49)
-/

namespace Gslib.Props
open Gslib.El Gslib.Spec Gslib.Tensor Gslib.Num Polynomial

section
variable {K : Type} [Field K] [LinearOrder K]

/-- C49: `findpts_el_eval_2` for at most `nptMax` points stays inside `work` (of the size computed by `findpts_el_setup_2`, with any contents) and returns the tensor Lagrange interpolant of the field at each of the points -/
theorem findpts_el_eval_2_interpolates {e : El2 K} (he : El2Ok e) {nptMax : Nat} {w : List K} (hw : w.length = workSize2 (e.n 0) (e.n 1) nptMax) (inp : List K) (hin : e.n 0 * e.n 1 ≤ inp.length)
    (rs : List (Fin 2 → K)) (hn : rs.length ≤ nptMax) : ∃ w', findptsElEval2 e inp rs w = some (w', rs.map (tensor2 e 0 0 inp)) ∧ w'.length = w.length :=
  eval2_run he hw inp hin rs hn

/-- the reference coordinates of node `(i,j)` -/
def node2 (e : El2 K) (i j : Nat) : Fin 2 → K := ![ent (e.z 0) i, ent (e.z 1) j]

/-- the interpolant has the given value at each node -/
theorem tensor2_node {e : El2 K} (he : El2Ok e) (u : List K) {i j : Nat} (hi : i < e.n 0) (hj : j < e.n 1) : tensor2 e 0 0 u (node2 e i j) = ent u (i + e.n 0 * j) := by
  rw [tensor2_alt]
  show ∑ i' ∈ Finset.range (e.n 0), lagD (e.n 0) (ent (e.z 0)) 0 i' (ent (e.z 0) i) * ∑ j' ∈ Finset.range (e.n 1), ent u (i' + e.n 0 * j') * lagD (e.n 1) (ent (e.z 1)) 0 j' (ent (e.z 1) j) = _
  rw [Finset.sum_eq_single_of_mem i (Finset.mem_range.2 hi), Finset.sum_eq_single_of_mem j (Finset.mem_range.2 hj), lagD_node (he.dir 0).inj hi hi, lagD_node (he.dir 1).inj hj hj, if_pos rfl, if_pos rfl, one_mul, mul_one]
  · intro b hb hne; rw [lagD_node (he.dir 1).inj (Finset.mem_range.1 hb) hj, if_neg hne, mul_zero]
  · intro b hb hne; rw [lagD_node (he.dir 0).inj (Finset.mem_range.1 hb) hi, if_neg hne, zero_mul]

theorem seed_length {D : Nat} (big : K) (nodes : List ((Fin D → K) × (Fin D → K))) (xs : List (Fin D → K)) : (seed big nodes xs).length = xs.length := by
  unfold seed
  induction nodes using List.reverseRecOn with
  | nil => simp
  | append_singleton l n ih => rw [List.foldl_append, List.foldl_cons, List.foldl_nil, List.length_zipWith, ih, Nat.min_self]

/-- the seeds are nearest nodes -/
theorem seeds2 {e : El2 K} (he : El2Ok e) (big : K) (xs : List (Fin 2 → K)) (hfar : ∀ x ∈ xs, ∃ i j, i < e.n 0 ∧ j < e.n 1 ∧ (elMap2 e).dist2 x (node2 e i j) < big) :
    ∃ nodes rs, nodes2 (e.n 0) (e.n 1) e.z e.x = some nodes ∧ (seed big nodes xs).mapM Prod.fst = some rs ∧ rs.length = xs.length ∧
      ∀ (k : Nat) x, xs[k]? = some x → ∃ i j, i < e.n 0 ∧ j < e.n 1 ∧ rs[k]? = some (node2 e i j) ∧ ∀ i' j', i' < e.n 0 → j' < e.n 1 → (elMap2 e).dist2 x (node2 e i j) ≤ (elMap2 e).dist2 x (node2 e i' j') := by
  have hlt : ∀ i j, i < e.n 0 → j < e.n 1 → i + j * e.n 0 < e.n 0 * e.n 1 := by
    intro i j hi hj
    have := row_lt (len := e.n 0) hj
    rw [Nat.mul_comm j]; omega
  let g : Nat × Nat → (Fin 2 → K) × (Fin 2 → K) := fun ij => (node2 e ij.1 ij.2, ![ent (e.x 0) (ij.1 + ij.2 * e.n 0), ent (e.x 1) (ij.1 + ij.2 * e.n 0)])
  let L := (List.range (e.n 1)).flatMap fun j => (List.range (e.n 0)).map fun i => (i, j)
  have hL : ∀ ij, ij ∈ L ↔ ij.1 < e.n 0 ∧ ij.2 < e.n 1 := by
    intro ij
    constructor
    · intro h
      obtain ⟨j, hj, h⟩ := List.mem_flatMap.1 h
      obtain ⟨i, hi, rfl⟩ := List.mem_map.1 h
      exact ⟨List.mem_range.1 hi, List.mem_range.1 hj⟩
    · intro h
      exact List.mem_flatMap.2 ⟨ij.2, List.mem_range.2 h.2, List.mem_map.2 ⟨ij.1, List.mem_range.2 h.1, rfl⟩⟩
  have e1 : nodes2 (e.n 0) (e.n 1) e.z e.x = some (L.map g) := by
    refine mapM_some L fun ij hij => ?_
    obtain ⟨hi, hj⟩ := (hL ij).1 hij
    have := hlt _ _ hi hj
    rw [getElem?_ent (by rw [(he.dir 0).len]; exact hi), Option.bind_some, getElem?_ent (by rw [(he.dir 1).len]; exact hj), Option.bind_some, getElem?_ent (by rw [he.x]; exact this), Option.bind_some,
      getElem?_ent (by rw [he.x]; exact this)]
    rfl
  have hd : ∀ x ij, ij ∈ L → sqDist x (g ij).2 = (elMap2 e).dist2 x (node2 e ij.1 ij.2) := by
    intro x ij hij
    obtain ⟨hi, hj⟩ := (hL ij).1 hij
    unfold sqDist ElMap.dist2
    rw [Fin.sum_univ_two]
    show (x 0 - ent (e.x 0) (ij.1 + ij.2 * e.n 0)) * (x 0 - ent (e.x 0) (ij.1 + ij.2 * e.n 0)) + (x 1 - ent (e.x 1) (ij.1 + ij.2 * e.n 0)) * (x 1 - ent (e.x 1) (ij.1 + ij.2 * e.n 0)) =
      (x 0 - tensor2 e 0 0 (e.x 0) (node2 e ij.1 ij.2)) ^ 2 + (x 1 - tensor2 e 0 0 (e.x 1) (node2 e ij.1 ij.2)) ^ 2
    rw [tensor2_node he _ hi hj, tensor2_node he _ hi hj, Nat.mul_comm ij.2]; ring
  have hseed : ∀ (k : Nat) x, xs[k]? = some x → ∃ i j d, i < e.n 0 ∧ j < e.n 1 ∧ (seed big (L.map g) xs)[k]? = some (some (node2 e i j), d) ∧
      ∀ i' j', i' < e.n 0 → j' < e.n 1 → (elMap2 e).dist2 x (node2 e i j) ≤ (elMap2 e).dist2 x (node2 e i' j') := by
    intro k x hx
    rcases seed_nearest big (L.map g) xs k x hx with ⟨pre, nd, post, hn, -, h2, h3, h4⟩ | ⟨h1, -⟩
    · obtain ⟨ij, hij, rfl⟩ := List.mem_map.1 (show nd ∈ L.map g by rw [hn]; simp)
      obtain ⟨hi, hj⟩ := (hL ij).1 hij
      refine ⟨ij.1, ij.2, _, hi, hj, h4, fun i' j' hi' hj' => ?_⟩
      have hm : g (i', j') ∈ pre ++ g ij :: post := by rw [← hn]; exact List.mem_map_of_mem ((hL (i', j')).2 ⟨hi', hj'⟩)
      rw [← hd x ij hij, ← hd x (i', j') ((hL _).2 ⟨hi', hj'⟩)]
      rcases List.mem_append.1 hm with h | h
      · exact (h2 _ h).le
      · rcases List.mem_cons.1 h with h | h
        · rw [h]
        · exact h3 _ h
    · exfalso
      obtain ⟨i, j, hi, hj, hlt⟩ := hfar x (List.mem_of_getElem? hx)
      have hm := (hL (i, j)).2 ⟨hi, hj⟩
      have := h1 _ (List.mem_map_of_mem hm)
      rw [hd x _ hm] at this
      exact absurd hlt (not_lt.2 this)
  have hsome : ∀ p ∈ seed big (L.map g) xs, p.1 = some (p.1.getD 0) := by
    intro p hp
    obtain ⟨k, hk⟩ := List.mem_iff_getElem?.1 hp
    have hk' : k < xs.length := by rw [← seed_length big (L.map g) xs]; exact (List.getElem?_eq_some_iff.1 hk).1
    obtain ⟨i, j, d, -, -, h, -⟩ := hseed k _ (List.getElem?_eq_getElem hk')
    rw [hk] at h
    rw [Option.some.inj h]; rfl
  refine ⟨_, _, e1, mapM_some _ hsome, by rw [List.length_map, seed_length], fun k x hx => ?_⟩
  obtain ⟨i, j, d, hi, hj, h, hmin⟩ := hseed k x hx
  exact ⟨i, j, hi, hj, by rw [List.getElem?_map, h]; rfl, hmin⟩

end

section
variable {K : Type} [Field K] [LinearOrder K] [IsStrictOrderedRing K]

/-- C38, C44, C45, C46: `findpts_el_2` as a whole, from the element's nodes and arrays with any contents of the sizes that `findpts_el_setup_2` allocates: for at most `nptMax` points it runs to the end inside its
arrays, and the result for point `k` is what at most 50 Newton steps of the element map give from the nearest node of the element. It lies in the element, and the squared distance reported is one of a point of the
element, not larger than that to any node of the element. -/
theorem findpts_el_2_search {e : El2 K} (he : El2Ok e) {nptMax : Nat} {st : ElSt2 K} (hm : El2Mem e nptMax st) (fuel : Nat) (hf : 2 ≤ fuel) (big tol : K) (xs : List (Fin 2 → K)) (hn : xs.length ≤ nptMax)
    (hreg : ∀ x ∈ xs, Regular2 (elMap2 e) big x) (hfar : ∀ x ∈ xs, ∃ i j, i < e.n 0 ∧ j < e.n 1 ∧ (elMap2 e).dist2 x (node2 e i j) < big) :
    ∃ st' m, findptsEl2 fuel (2 * nptMax) big tol e xs st = some (st', m) ∧ El2Mem e nptMax st' ∧ ∀ (k : Nat) x, xs[k]? = some x → ∃ i j p, i < e.n 0 ∧ j < e.n 1 ∧
      (∀ i' j', i' < e.n 0 → j' < e.n 1 → (elMap2 e).dist2 x (node2 e i j) ≤ (elMap2 e).dist2 x (node2 e i' j')) ∧
      p = iter (fun p => conv2 p.flags) (step2 (elMap2 e) fuel big tol) 50 (startPt big 0 1 x (node2 e i j) k) ∧
      m k = some { p with flags := p.flags &&& 0x1f } ∧ p.x = x ∧ (∃ c C, p.flags &&& 0x1f = lowFlags c C ∧ RefPt p.r c) ∧
      (∃ o, (∀ d, -1 ≤ o d ∧ o d ≤ 1) ∧ p.dist2 = (elMap2 e).dist2 x o) ∧ ∀ i' j', i' < e.n 0 → j' < e.n 1 → p.dist2 ≤ (elMap2 e).dist2 x (node2 e i' j') := by
  obtain ⟨nodes, rs, e1, e2, hrl, hrs⟩ := seeds2 he big xs hfar
  have hnode : ∀ i j, i < e.n 0 → j < e.n 1 → ∀ d, -1 ≤ node2 e i j d ∧ node2 e i j d ≤ 1 := by
    intro i j hi hj d
    fin_cases d
    · exact (he.dir 0).range i hi
    · exact (he.dir 1).range j hj
  have hgood : ∀ p : Pt K 2, (Good2 (elMap2 e) big p ∧ Regular2 (elMap2 e) big p.x) → conv2 p.flags = false → (Good2 (elMap2 e) big (step2 (elMap2 e) fuel big tol p) ∧
      Regular2 (elMap2 e) big (step2 (elMap2 e) fuel big tol p).x) ∧ (step2 (elMap2 e) fuel big tol p).index = p.index := by
    intro p hp hc
    obtain ⟨h1, h2, h3, -⟩ := step2_good (elMap2 e) fuel hf big tol p hp.2 hp.1 hc
    exact ⟨⟨h1, by rw [h2]; exact hp.2⟩, h3⟩
  obtain ⟨st', m, e3, h1, h2⟩ := findpts_el_2_each_point (group2 fuel big tol e) (step2 (elMap2 e) fuel big tol) (Sides2 e nptMax) (fun p => Good2 (elMap2 e) big p ∧ Regular2 (elMap2 e) big p.x)
    (2 * nptMax) xs.length
    (fun r s fd ps hi hne hle hps => group2_run he fuel hf big tol hi ps (hle.trans hn) hne r s hps)
    (by
      rintro p ⟨⟨c, C, h, -⟩, -⟩
      rw [h]
      refine ⟨c 0, c 1, ?_⟩
      unfold lowFlags
      cases C
      · left; simp
      · right; rfl)
    hgood (by omega) big 0 1 xs rs rfl hrl { st with sideInit := 0 }
    ⟨⟨hm.sides, hm.work⟩, fun h => absurd (show (0 : U32) &&& 1 = 0 by decide) h, fun h => absurd (show (0 : U32) &&& 2 = 0 by decide) h, fun h => absurd (show (0 : U32) &&& 4 = 0 by decide) h⟩
    (by
      intro k hk
      have hx := List.getElem?_eq_getElem hk
      obtain ⟨i, j, hi, hj, hr, -⟩ := hrs k _ hx
      rw [List.getElem?_eq_getElem (by omega)] at hr
      rw [Option.some.inj hr]
      exact ⟨start_good _ _ _ _ _ (hnode i j hi hj), hreg _ (List.getElem_mem hk)⟩)
  refine ⟨st', m, ?_, h1.mem, ?_⟩
  · unfold findptsEl2
    rw [e1, Option.bind_some, e2, Option.bind_some, e3]
  intro k x hx
  have hk : k < xs.length := (List.getElem?_eq_some_iff.1 hx).1
  obtain ⟨i, j, hi, hj, hr, hmin⟩ := hrs k x hx
  have hmk := h2 k hk
  have ex : xs[k] = x := (List.getElem?_eq_some_iff.1 hx).2
  have er : rs[k]'(by omega) = node2 e i j := (List.getElem?_eq_some_iff.1 hr).2
  rw [ex, er] at hmk
  dsimp only at hmk
  have hE := hreg x (List.mem_of_getElem? hx)
  set p0 : Pt K 2 := startPt big 0 1 x (node2 e i j) k with hp0
  have hc0 : conv2 p0.flags = false := by show conv2 0 = false; decide
  have g0 : Good2 (elMap2 e) big p0 := start_good _ _ _ _ _ (hnode i j hi hj)
  -- the first step is accepted
  obtain ⟨p1, s1, s2, s3, -, -, s5, -⟩ := findpts_el_2_trust (elMap2 e) fuel hf big tol p0 hE g0 hc0
  have hacc := s5 (by
    show 1 / 100 * (0 : K) ≤ big - (elMap2 e).dist2 x (node2 e i j)
    have := hE.big _ (hnode i j hi hj)
    rw [mul_zero]; linarith)
  have hst : step2 (elMap2 e) fuel big tol p0 = p1 := by unfold step2; rw [s1]; rfl
  have hit : iter (fun p => conv2 p.flags) (step2 (elMap2 e) fuel big tol) 50 p0 = iter (fun p => conv2 p.flags) (step2 (elMap2 e) fuel big tol) 49 p1 := by
    rw [iter, if_neg (by rw [hc0]; simp), hst]
  obtain ⟨f1, f2, f3⟩ := findpts_el_2_iterates (elMap2 e) fuel hf big tol 50 p0 hE g0
  obtain ⟨t1, t2, t3⟩ := findpts_el_2_iterates (elMap2 e) fuel hf big tol 49 p1 (by rw [s3]; exact hE) s2
  rw [← hit] at t3
  have hle : (iter (fun p => conv2 p.flags) (step2 (elMap2 e) fuel big tol) 50 p0).dist2 ≤ (elMap2 e).dist2 x (node2 e i j) := t3.trans hacc.2.1.le
  refine ⟨i, j, _, hi, hj, hmin, rfl, hmk, f2, ?_, ?_, fun i' j' hi' hj' => hle.trans (hmin i' j' hi' hj')⟩
  · obtain ⟨c, C, q1, q2, -⟩ := f1
    exact ⟨c, C, q1, q2⟩
  · obtain ⟨-, -, -, -, -, q⟩ := findpts_el_2_state (elMap2 e) big _ f1
    have f2' : (iter (fun p => conv2 p.flags) (step2 (elMap2 e) fuel big tol) 50 p0).x = x := f2
    rcases q with q | ⟨o, o1, -, o3⟩
    · have hb := hE.big _ (hnode i j hi hj)
      exact ⟨node2 e i j, hnode i j hi hj, by rw [q]; exact le_antisymm (by rw [← q]; exact hle) hb⟩
    · rw [f2'] at o3
      exact ⟨o, o1, o3⟩

end

/-! ## what `findpts_el_setup_2` makes -/

section
variable {K : Type} [Field K] [LinearOrder K] [IsStrictOrderedRing K]

/-- C38: for 2 to 24 nodes in each direction, `findpts_el_setup_2` (with any starting values and tolerances of the Newton iteration for the nodes, which is not used then) and `findpts_el_start_2` with coordinates of the
right size make an element as the theorems above require -/
theorem findpts_el_setup_2_ok (fuel : Nat) (eps : K) (guess : Nat → K) (n : Fin 2 → Nat) (hn : ∀ d, 2 ≤ n d ∧ n d ≤ 24) (x : Fin 2 → List K) (hx : ∀ c, (x c).length = n 0 * n 1) :
    ∃ wt, El2Ok ⟨n, x, fun d => lobZ fuel eps guess (n d), wt, fun d => gllOf fuel eps guess (n d)⟩ := by
  choose wt hwt using fun d => (gll_dir fuel eps guess (hn d).1 (hn d).2).1
  exact ⟨wt, hwt, hx⟩

end

/-- findpts_el_2.c:157-166: start and size, in doubles, of the parts of the block at `z[0]`: `z[0]`, `z[1]`, `lag_data[0]`, `lag_data[1]`, `wtend[0]`, `wtend[1]`, `sides`, `work`; `lag d` is `lag_size[d]` -/
def block2 (nr ns nptMax : Nat) (lag : Fin 2 → Nat) : List (Nat × Nat) :=
  let z1 := nr
  let l0 := z1 + ns
  let l1 := l0 + lag 0
  let w0 := l1 + lag 1
  let w1 := w0 + 6 * nr
  let sd := w1 + 6 * ns
  let wk := sd + (8 * ns + 4 * nr)
  [(0, nr), (z1, ns), (l0, lag 0), (l1, lag 1), (w0, 6 * nr), (w1, 6 * ns), (sd, 8 * ns + 4 * nr), (wk, workSize2 nr ns nptMax)]

/-- findpts_el_2.c:157-159: the number of doubles allocated -/
def blockSize2 (nr ns nptMax : Nat) (lag : Fin 2 → Nat) : Nat := lag 0 + lag 1 + 7 * (nr + ns) + (8 * ns + 4 * nr) + workSize2 nr ns nptMax

/-- C38: the parts, of the sizes used by the theorems above, lie in the block and do not overlap -/
theorem findpts_el_setup_2_layout (nr ns nptMax : Nat) (lag : Fin 2 → Nat) :
    (block2 nr ns nptMax lag).Pairwise (fun a b => a.1 + a.2 ≤ b.1) ∧ ∀ a ∈ block2 nr ns nptMax lag, a.1 + a.2 ≤ blockSize2 nr ns nptMax lag := by
  unfold block2 blockSize2
  generalize lag 0 = a
  generalize lag 1 = b
  generalize workSize2 nr ns nptMax = c
  constructor
  · simp only [List.pairwise_cons, List.mem_cons, List.not_mem_nil, or_false, forall_eq_or_imp, forall_eq, List.Pairwise.nil, and_true, false_imp_iff, implies_true]
    omega
  · simp only [List.mem_cons, List.not_mem_nil, or_false, forall_eq_or_imp, forall_eq]
    omega

/-! ## Example: the bilinear element `x = 2r + s`, `y = s + rs/4` -/

/-- the ends -/
def exWt : List Rat := [1, 0, -1/2, 1/2, 0, 0, 0, 1, -1/2, 1/2, 0, 0]

/-- the element -/
def exEl2 : El2 Rat := ⟨fun _ => 2, ![[-3, 1, -1, 3], [-3/4, -5/4, 3/4, 5/4]], fun _ => [-1, 1], fun _ => exWt, fun _ => gllOf 0 0 (fun _ => 0) 2⟩

theorem exWt_ok : wtendSetup 2 (gllOf 0 0 (fun _ => 0) 2) (List.replicate 12 (0 : Rat)) = some exWt := by decide +kernel

theorem exEl2_ok : El2Ok exEl2 := by
  refine ⟨fun d => ?_, fun c => by fin_cases c <;> rfl⟩
  obtain ⟨⟨wt, h⟩, -⟩ := gll_dir (K := Rat) 0 0 (fun _ => 0) (n := 2) (le_refl _) (by omega)
  rw [show lobZ 0 0 (fun _ => 0) 2 = [(-1 : Rat), 1] by decide +kernel] at h
  exact ⟨h.two, h.len, h.inj, h.first, h.last, h.range, h.lagLen, h.lagVal, _, List.length_replicate, exWt_ok⟩

theorem lag2 (k i : Nat) (hk : k ≤ 1) (hi : i < 2) (x : Rat) : lagD 2 (ent [(-1 : Rat), 1]) k i x = if k = 0 then (if i = 0 then (1 - x) / 2 else (1 + x) / 2) else if i = 0 then -1 / 2 else 1 / 2 := by
  have hr : Finset.range 2 = {0, 1} := by decide
  have e0 : ent [(-1 : Rat), 1] 0 = -1 := rfl
  have e1 : ent [(-1 : Rat), 1] 1 = 1 := rfl
  unfold lagD
  rw [hr]
  rcases (by omega : i = 0 ∨ i = 1) with rfl | rfl
  · rw [Lagrange.basis_pair_left (by decide), Lagrange.basisDivisor, e0, e1]
    rcases (by omega : k = 0 ∨ k = 1) with rfl | rfl <;> simp <;> ring
  · rw [Lagrange.basis_pair_right (by decide), Lagrange.basisDivisor, e0, e1]
    rcases (by omega : k = 0 ∨ k = 1) with rfl | rfl <;> simp <;> ring

theorem exEl2_t (k0 k1 : Nat) (h0 : k0 ≤ 1) (h1 : k1 ≤ 1) (u : List Rat) (r : Fin 2 → Rat) : tensor2 exEl2 k0 k1 u r =
    lagD 2 (ent [(-1 : Rat), 1]) k0 0 (r 0) * (ent u 0 * lagD 2 (ent [(-1 : Rat), 1]) k1 0 (r 1) + ent u 2 * lagD 2 (ent [(-1 : Rat), 1]) k1 1 (r 1)) +
    lagD 2 (ent [(-1 : Rat), 1]) k0 1 (r 0) * (ent u 1 * lagD 2 (ent [(-1 : Rat), 1]) k1 0 (r 1) + ent u 3 * lagD 2 (ent [(-1 : Rat), 1]) k1 1 (r 1)) := by
  rw [tensor2_alt]
  show ∑ i ∈ Finset.range 2, lagD 2 (ent [(-1 : Rat), 1]) k0 i (r 0) * ∑ j ∈ Finset.range 2, ent u (i + 2 * j) * lagD 2 (ent [(-1 : Rat), 1]) k1 j (r 1) = _
  simp only [Finset.sum_range_succ, Finset.sum_range_zero, zero_add, Nat.mul_zero, Nat.add_zero, Nat.mul_one, Nat.reduceAdd]

/-- its map -/
theorem exEl2_map (r : Fin 2 → Rat) : (elMap2 exEl2).X r = ![2 * r 0 + r 1, r 1 + r 0 * r 1 / 4] ∧ (elMap2 exEl2).J r = ![2, 1, r 1 / 4, 1 + r 0 / 4] := by
  have hx0 : exEl2.x 0 = [-3, 1, -1, 3] := rfl
  have hx1 : exEl2.x 1 = [-3/4, -5/4, 3/4, 5/4] := rfl
  simp only [elMap2, exEl2_t _ _ (Nat.zero_le 1) (Nat.zero_le 1), exEl2_t _ _ (le_refl 1) (Nat.zero_le 1), exEl2_t _ _ (Nat.zero_le 1) (le_refl 1), hx0, hx1, lag2 0 0 (by omega) (by omega), lag2 0 1 (by omega) (by omega), lag2 1 0 (by omega) (by omega),
    lag2 1 1 (by omega) (by omega), if_true, one_ne_zero, if_false]
  have a : ∀ (l : List Rat) i v, l[i]? = some v → ent l i = v := fun l i v h => by unfold ent; rw [List.getD_eq_getElem?_getD, h]; rfl
  simp only [a [-3, 1, -1, 3] 0 (-3) rfl, a [-3, 1, -1, 3] 1 1 rfl, a [-3, 1, -1, 3] 2 (-1) rfl, a [-3, 1, -1, 3] 3 3 rfl, a [-3/4, -5/4, 3/4, 5/4] 0 (-3/4) rfl, a [-3/4, -5/4, 3/4, 5/4] 1 (-5/4) rfl, a [-3/4, -5/4, 3/4, 5/4] 2 (3/4) rfl, a [-3/4, -5/4, 3/4, 5/4] 3 (5/4) rfl]
  constructor
  · congr 1
    · ring
    · congr 1; ring
  · congr 1
    · ring
    · congr 1
      · ring
      · congr 1
        · ring
        · congr 1; ring

/-- it is regular for points that are not far away -/
theorem exEl2_regular (x : Fin 2 → Rat) (h0 : |x 0| ≤ 5) (h1 : |x 1| ≤ 5) : Regular2 (elMap2 exEl2) 1000 x := by
  constructor
  · intro r hr
    rw [(exEl2_map r).2]
    have a := hr 0
    have b := hr 1
    show (2 : Rat) * (1 + r 0 / 4) - 1 * (r 1 / 4) ≠ 0
    intro h; linarith [a.1, b.2]
  · intro r hr
    have a := hr 0
    have b := hr 1
    unfold ElMap.dist2
    rw [(exEl2_map r).1]
    show (x 0 - (2 * r 0 + r 1)) ^ 2 + (x 1 - (r 1 + r 0 * r 1 / 4)) ^ 2 ≤ 1000
    have h2 := abs_le.1 h0
    have h3 := abs_le.1 h1
    have h4 : |r 0 * r 1| ≤ 1 := by rw [abs_mul]; exact mul_le_one₀ (abs_le.2 a) (abs_nonneg _) (abs_le.2 b)
    have h5 := abs_le.1 h4
    have g1 : |x 0 - (2 * r 0 + r 1)| ≤ 10 := abs_le.2 ⟨by linarith [a.1, a.2, b.1, b.2], by linarith [a.1, a.2, b.1, b.2]⟩
    have g2 : |x 1 - (r 1 + r 0 * r 1 / 4)| ≤ 10 := abs_le.2 ⟨by linarith [a.1, a.2, b.1, b.2], by linarith [a.1, a.2, b.1, b.2]⟩
    have g3 := sq_le_sq' (by linarith [abs_nonneg (x 0 - (2 * r 0 + r 1))]) g1
    have g4 := sq_le_sq' (by linarith [abs_nonneg (x 1 - (r 1 + r 0 * r 1 / 4))]) g2
    rw [sq_abs] at g3 g4
    linarith

/-- arrays for up to 4 points -/
def exSt2 : ElSt2 Rat := ⟨7, List.replicate 24 5, List.replicate (workSize2 2 2 4) 7, none, none⟩

/-- the hypotheses of `findpts_el_2_search` hold for this element, three points (inside, outside next to an edge, outside next to a corner) and arrays with garbage, even in the bits of `side_init` -/
example : ∃ st' m, findptsEl2 2 8 1000 (1 / 100) exEl2 [![1, 1 / 2], ![4, 0], ![4, 4]] exSt2 = some (st', m) ∧ El2Mem exEl2 4 st' := by
  obtain ⟨st', m, h1, h2, -⟩ := findpts_el_2_search exEl2_ok (nptMax := 4) (st := exSt2) ⟨by simp [exSt2, exEl2], by simp [exSt2, exEl2]⟩ 2 (le_refl 2) 1000 (1 / 100) [![1, 1 / 2], ![4, 0], ![4, 4]] (by decide)
    (by
      intro x hx
      simp only [List.mem_cons, List.not_mem_nil, or_false] at hx
      rcases hx with rfl | rfl | rfl <;> exact exEl2_regular _ (by decide +kernel) (by decide +kernel))
    (by
      intro x hx
      refine ⟨1, 1, by decide, by decide, ?_⟩
      unfold ElMap.dist2
      rw [(exEl2_map _).1]
      simp only [List.mem_cons, List.not_mem_nil, or_false] at hx
      rcases hx with rfl | rfl | rfl <;> decide +kernel)
  exact ⟨st', m, h1, h2⟩

/-- and so it runs: the first point ends inside, the second on the edge `r = 1`, the third in the corner `(1,1)` -/
example : (findptsEl2 2 8 1000 (1 / 100) exEl2 [![1, 1 / 2], ![4, 0], ![4, 4]] exSt2).map (fun o => (List.range 3).map fun i => (o.2 i).map fun p => (p.flags &&& 0xf, decide (p.r 0 = 1), decide (p.r 1 = 1))) =
    some [some (0, false, false), some (2, true, false), some (10, true, true)] := by
  decide +kernel

end Gslib.Props
