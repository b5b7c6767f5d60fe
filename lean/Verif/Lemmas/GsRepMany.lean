import Verif.Lemmas.GsRep

/-! # mode_many as an instance of `Rep` -/

namespace Gslib.Gs

variable {T : Type}

theorem ld_flat {vn : Nat} {d : T} : ∀ {Z : List (List T)} (_ : Units vn Z) (rest : List T) {j k : Nat} (_ : j < Z.length) (_ : k < vn),
    ldAt (Z.flatten ++ rest) (j * vn + k) = some ((Z.getD j []).getD k d)
  | [], _, _, j, _, hj, _ => by simp at hj
  | v :: Z, h, rest, 0, k, _, hk => by
    have hv : v.length = vn := h v (by simp)
    unfold ldAt
    rw [Nat.zero_mul, Nat.zero_add, List.flatten_cons, List.append_assoc, List.getElem?_append_left (by omega), List.getD_cons_zero,
      List.getElem?_eq_getElem (by omega), List.getD_eq_getElem _ _ (by omega)]
  | v :: Z, h, rest, j + 1, k, hj, hk => by
    have hv : v.length = vn := h v (by simp)
    have ih := ld_flat (d := d) (Z := Z) (fun u hu => h u (by simp [hu])) rest (j := j) (k := k) (by simpa using hj) hk
    unfold ldAt at *
    have e : (j + 1) * vn + k = v.length + (j * vn + k) := by rw [hv]; ring
    rw [e, List.flatten_cons, List.append_assoc, List.getElem?_append_right (by omega), Nat.add_sub_cancel_left, ih, List.getD_cons_succ]

theorem st_flat {vn : Nat} : ∀ {Z : List (List T)} (_ : Units vn Z) (rest : List T) {j k : Nat} (_ : j < Z.length) (_ : k < vn) (t : T),
    stAt (Z.flatten ++ rest) (j * vn + k) t = some ((Z.set j ((Z.getD j []).set k t)).flatten ++ rest)
  | [], _, _, j, _, hj, _, _ => by simp at hj
  | v :: Z, h, rest, 0, k, _, hk, t => by
    have hv : v.length = vn := h v (by simp)
    unfold stAt
    rw [Nat.zero_mul, Nat.zero_add, List.flatten_cons, List.append_assoc, if_pos (by rw [List.length_append]; omega), List.set_append_left _ _ (by omega)]
    simp
  | v :: Z, h, rest, j + 1, k, hj, hk, t => by
    have hv : v.length = vn := h v (by simp)
    have ih := st_flat (Z := Z) (fun u hu => h u (by simp [hu])) rest (j := j) (k := k) (by simpa using hj) hk t
    unfold stAt at *
    have e : (j + 1) * vn + k = v.length + (j * vn + k) := by rw [hv]; ring
    split at ih
    · rename_i hlt
      rw [e, List.flatten_cons, List.append_assoc, if_pos (by rw [List.length_append]; omega), List.set_append_right _ _ (by omega), Nat.add_sub_cancel_left,
        Option.some.inj ih]
      simp
    · exact absurd ih (by simp)

/-- array number `k` -/
def compK (d : T) (k : Nat) (x : List (List T)) : List T := x.map fun v => v.getD k d

theorem ld_comp {d : T} {k : Nat} {x : List (List T)} {i : Nat} {v : List T} (h : ldAt x i = some v) : ldAt (compK d k x) i = some (v.getD k d) := by
  unfold ldAt compK at *
  rw [List.getElem?_map, h]; rfl

theorem st_comp {d : T} {k : Nat} {x x' : List (List T)} {i : Nat} {v : List T} (h : stAt x i v = some x') : stAt (compK d k x) i (v.getD k d) = some (compK d k x') := by
  unfold stAt compK at *
  rw [List.length_map]
  split at h
  · rename_i hlt
    rw [if_pos hlt, ← Option.some.inj h, List.map_set]
  · exact absurd h (by simp)

theorem units_st {vn : Nat} {x x' : List (List T)} {i : Nat} {v : List T} (hx : Units vn x) (hv : v.length = vn) (h : stAt x i v = some x') : Units vn x' ∧ x'.length = x.length := by
  unfold stAt at h
  split at h
  · rw [← Option.some.inj h]; exact ⟨hx.set _ hv, List.length_set⟩
  · exact absurd h (by simp)

theorem gatherArray_getD (D : Dom T) (op : Op) {vn k : Nat} (hk : k < vn) {v u : List T} (hv : v.length = vn) (hu : u.length = vn) (d : T) :
    (gatherArray D op v u).getD k d = D.doOp op (v.getD k d) (u.getD k d) := by
  rw [gatherArray_zip D op v u (by omega), List.getD_eq_getElem _ _ (by rw [List.length_zipWith]; omega), List.getElem_zipWith,
    List.getD_eq_getElem _ _ (by omega), List.getD_eq_getElem _ _ (by omega)]

theorem mapM_range {A B : Type} (F : A → Option B) (a : Nat → A) (b : Nat → B) : ∀ (l : List Nat), (∀ k ∈ l, F (a k) = some (b k)) → (l.map a).mapM F = some (l.map b)
  | [], _ => rfl
  | k :: l, h => by
    rw [List.map_cons, List.mapM_cons, h k (by simp), mapM_range F a b l (fun k hk => h k (by simp [hk]))]; rfl

variable {gs : List (Nat × List Nat)}

/-- component `k` of a scatter, source `rd` -/
theorem comp_scatter {vn k : Nat} (d : T) {rdC : List (List T) → Nat → Option (List T)} {rd : List T → Nat → Option T} (hg : ∀ g ∈ gs, GroupOk g)
    (hrd : ∀ x i v, Units vn x → rdC x i = some v → rd (compK d k x) i = some (v.getD k d) ∧ v.length = vn)
    {x x' : List (List T)} (hx : Units vn x) (e : gs.foldlM (sstep rdC stAt) x = some x') :
    scatterLoop rd stAt (encGroups gs) .outer (compK d k x) = some (compK d k x') := by
  obtain ⟨y, e1, e2, _⟩ := scatterGroups_sim (fun x (y : List T) => y = compK d k x ∧ Units vn x) (fun v t => t = v.getD k d ∧ v.length = vn) (rd' := rd) (st' := stAt) hg ⟨rfl, hx⟩ e
    (by
      rintro x y i v ⟨rfl, hx⟩ hv
      obtain ⟨h1, h2⟩ := hrd x i v hx hv
      exact ⟨_, h1, rfl, h2⟩)
    (by
      rintro x y i v v' x1 ⟨rfl, hx⟩ ⟨rfl, hv⟩ hs
      exact ⟨_, st_comp hs, rfl, (units_st hx hv hs).1⟩)
  rw [e1, e2]

/-- component `k` of a gather -/
theorem comp_gather (D : Dom T) (op : Op) {vn k : Nat} (hk : k < vn) (d : T) {rdC : List (List T) → Nat → Option (List T)} {rd : List T → Nat → Option T} (hg : ∀ g ∈ gs, GroupOk g)
    (hrd : ∀ x i v, Units vn x → rdC x i = some v → rd (compK d k x) i = some (v.getD k d) ∧ v.length = vn)
    {x x' : List (List T)} (hx : Units vn x) (e : gs.foldlM (gstep (gatherArray D op) ldAt stAt rdC) x = some x') :
    gatherLoop (D.doOp op) ldAt stAt rd (encGroups gs) .outer (compK d k x) = some (compK d k x') := by
  obtain ⟨y, e1, e2, _⟩ := gatherGroups_sim (fun x (y : List T) => y = compK d k x ∧ Units vn x) (fun v t => t = v.getD k d ∧ v.length = vn) (f' := D.doOp op) (ld' := ldAt) (rd' := rd) (st' := stAt) hg ⟨rfl, hx⟩ e
    (by
      rintro x y i v ⟨rfl, hx⟩ hv
      exact ⟨_, ld_comp hv, rfl, units_ld hx hv⟩)
    (by
      rintro x y i v ⟨rfl, hx⟩ hv
      obtain ⟨h1, h2⟩ := hrd x i v hx hv
      exact ⟨_, h1, rfl, h2⟩)
    (by
      rintro x y i v v' x1 ⟨rfl, hx⟩ ⟨rfl, hv⟩ hs
      exact ⟨_, st_comp hs, rfl, (units_st hx hv hs).1⟩)
    (by
      rintro v v' u u' ⟨rfl, hv⟩ ⟨rfl, hu⟩
      exact ⟨(gatherArray_getD D op hk hv hu d).symm, by rw [gatherArray_len, hv]⟩)
  rw [e1, e2]

theorem ld_units_comp {vn k : Nat} (hk : k < vn) (d : T) {b : List (List T)} (hb : Units vn b) (rest : List T) {i : Nat} {v : List T} (h : ldAt b i = some v) :
    ldAt (b.flatten ++ rest) (i * vn + k) = some (v.getD k d) := by
  have h' := h
  unfold ldAt at h'
  obtain ⟨hlt, hv⟩ := List.getElem?_eq_some_iff.1 h'
  rw [ld_flat (d := d) hb rest hlt hk, List.getD_eq_getElem _ _ hlt, hv]

theorem vecToMany_run {vn : Nat} (d : T) {m : List Nat} {B : List T} {x x' : List (List T)} : ∀ (n k : Nat), k + n ≤ vn →
    (∀ k, k < vn → scatterLoop (fun _ i => ldAt B (i * vn + k)) stAt m .outer (compK d k x) = some (compK d k x')) →
    vecToMany vn m B k ((List.range' k n).map fun k => compK d k x) = some ((List.range' k n).map fun k => compK d k x')
  | 0, k, _, _ => rfl
  | n + 1, k, hk, h => by
    rw [List.range'_succ, List.map_cons, List.map_cons, vecToMany, h k (by omega), Option.bind_some, vecToMany_run d n (k + 1) (by omega) h]
    rfl

theorem vecToManyGather_run (D : Dom T) (op : Op) {vn : Nat} (d : T) {m : List Nat} {B : List T} {x x' : List (List T)} : ∀ (n k : Nat), k + n ≤ vn →
    (∀ k, k < vn → gatherLoop (D.doOp op) ldAt stAt (fun _ i => ldAt B (i * vn + k)) m .outer (compK d k x) = some (compK d k x')) →
    vecToManyGather D op vn m B k ((List.range' k n).map fun k => compK d k x) = some ((List.range' k n).map fun k => compK d k x')
  | 0, k, _, _ => rfl
  | n + 1, k, hk, h => by
    rw [List.range'_succ, List.map_cons, List.map_cons, vecToManyGather, h k (by omega), Option.bind_some, vecToManyGather_run D op d n (k + 1) (by omega) h]
    rfl

/-- units given by a function of two indices -/
def tab2 (n vn : Nat) (c : Nat → Nat → T) : List (List T) := tab n fun j => tab vn (c j)

theorem tab2_units (n vn : Nat) (c : Nat → Nat → T) : Units vn (tab2 n vn c) := by
  intro v hv
  obtain ⟨j, _, rfl⟩ := List.mem_map.1 hv
  exact tab_length _ _

theorem tab2_getD {n vn : Nat} {c : Nat → Nat → T} {j : Nat} (hj : j < n) : (tab2 n vn c).getD j [] = tab vn (c j) := by
  unfold tab2
  rw [List.getD_eq_getElem _ _ (by rw [tab_length]; exact hj)]
  simp [tab]

theorem tab2_set {n vn : Nat} {c : Nat → Nat → T} {j k : Nat} (hj : j < n) (hk : k < vn) (t : T) :
    (tab2 n vn c).set j ((tab2 n vn c).getD j [] |>.set k t) = tab2 n vn (fun j' i => if j' = j ∧ i = k then t else c j' i) := by
  rw [tab2_getD hj]
  have h1 : (tab vn (c j)).set k t = tab vn (Function.update (c j) k t) := by
    have := st_tab (w := c j) hk t
    unfold stAt at this
    rw [tab_length, if_pos hk] at this
    exact Option.some.inj this
  rw [h1]
  unfold tab2
  have h2 := st_tab (w := fun j => tab vn (c j)) hj (tab vn (Function.update (c j) k t))
  unfold stAt at h2
  rw [tab_length, if_pos hj] at h2
  rw [Option.some.inj h2]
  apply tab_congr
  intro j' hj'
  by_cases e : j' = j
  · subst e
    rw [Function.update_self]
    apply tab_congr
    intro i _
    simp [Function.update_apply]
  · rw [Function.update_of_ne e]
    apply tab_congr
    intro i _
    simp [e]

theorem eq_tab2 {vn : Nat} (d : T) {b : List (List T)} (hb : Units vn b) : b = tab2 b.length vn fun j i => (b.getD j []).getD i d := by
  unfold tab2
  conv => lhs; rw [eq_tab b []]
  apply tab_congr
  intro j hj
  have : (b.getD j []).length = vn := by
    rw [List.getD_eq_getElem _ _ hj]; exact hb _ (List.getElem_mem hj)
  conv => lhs; rw [eq_tab (b.getD j []) d, this]

/-- one array scattered to a buffer -/
theorem manyToVec_one {vn k : Nat} (hk : k < vn) (d : T) {x b b' : List (List T)} (hx : Units vn x) (hb : Units vn b) (hg : ∀ g ∈ gs, GroupOk g)
    (e : gs.foldlM (sstep (fun _ k => ldAt x k) stAt) b = some b') (rest : List T) (c : Nat → Nat → T) (hc : ∀ j, j < b.length → c j k = (b.getD j []).getD k d) :
    b'.length = b.length ∧ scatterLoop (fun _ i => ldAt (compK d k x) i) (fun b j t => stAt b (j * vn + k) t) (encGroups gs) .outer ((tab2 b.length vn c).flatten ++ rest) =
      some ((tab2 b.length vn fun j i => if i = k then (b'.getD j []).getD k d else c j i).flatten ++ rest) := by
  obtain ⟨y, e1, _, h2, e2⟩ := scatterGroups_sim (fun y z => Units vn y ∧ y.length = b.length ∧
      z = (tab2 b.length vn fun j i => if i = k then (y.getD j []).getD k d else c j i).flatten ++ rest) (fun v t => t = v.getD k d ∧ v.length = vn)
    (rd' := fun _ i => ldAt (compK d k x) i) (st' := fun b j t => stAt b (j * vn + k) t) (y := (tab2 b.length vn c).flatten ++ rest) hg
    ⟨hb, rfl, by
      congr 2
      unfold tab2
      apply tab_congr; intro j hj
      apply tab_congr; intro i _
      beta_reduce
      split
      · rename_i h; rw [h, hc j hj]
      · rfl⟩ e
    (by
      rintro y z i v _ hv
      exact ⟨_, ld_comp hv, rfl, units_ld hx hv⟩)
    (by
      rintro y z j v t y1 ⟨hy, hl, rfl⟩ ⟨rfl, hv⟩ hs
      have hs' := hs
      unfold stAt at hs'
      split at hs'
      · rename_i hlt
        have hy1 := Option.some.inj hs'
        obtain ⟨h3, h4⟩ := units_st hy hv hs
        refine ⟨_, st_flat (tab2_units _ _ _) rest (by unfold tab2; rw [tab_length]; omega) hk _, h3, by omega, ?_⟩
        rw [tab2_set (by omega) hk]
        congr 2
        unfold tab2
        apply tab_congr; intro j' hj'
        apply tab_congr; intro i _
        by_cases hi : i = k
        · by_cases hjj : j' = j
          · subst hi hjj
            simp only [and_self, if_true]
            have e1 : y1.getD j' [] = v := by
              rw [← hy1, List.getD_eq_getElem _ _ (by rw [List.length_set]; omega), List.getElem_set_self]
            rw [e1]
          · subst hi
            simp only [hjj, false_and, if_false, if_true]
            have e1 : y1.getD j' [] = y.getD j' [] := by
              rw [← hy1, List.getD_eq_getElem (l := y) _ (by omega), List.getD_eq_getElem _ _ (by rw [List.length_set]; omega), List.getElem_set_ne (Ne.symm hjj)]
            rw [e1]
        · simp [hi]
      · exact absurd hs' (by simp))
  exact ⟨h2, by rw [e1, e2]⟩

theorem manyToVec_run {vn : Nat} (d : T) {x b b' : List (List T)} (hx : Units vn x) (hb : Units vn b) (hg : ∀ g ∈ gs, GroupOk g)
    (e : gs.foldlM (sstep (fun _ k => ldAt x k) stAt) b = some b') (rest : List T) : ∀ (n k : Nat), k + n = vn →
    manyToVec vn (encGroups gs) k ((List.range' k n).map fun k => compK d k x)
      ((tab2 b.length vn fun j i => if i < k then (b'.getD j []).getD i d else (b.getD j []).getD i d).flatten ++ rest) =
    some ((tab2 b.length vn fun j i => (b'.getD j []).getD i d).flatten ++ rest)
  | 0, k, hk => by
    simp only [List.range'_zero, List.map_nil, manyToVec]
    congr 3
    unfold tab2
    apply tab_congr; intro j _
    apply tab_congr; intro i hi
    beta_reduce
    rw [if_pos (by omega)]
  | n + 1, k, hk => by
    rw [List.range'_succ, List.map_cons, manyToVec,
      (manyToVec_one (by omega) d hx hb hg e rest (fun j i => if i < k then (b'.getD j []).getD i d else (b.getD j []).getD i d) (by intro j _; simp)).2, Option.bind_some]
    have ih := manyToVec_run d hx hb hg e rest n (k + 1) (by omega)
    rw [← ih]
    congr 4
    funext j i
    by_cases h1 : i = k
    · subst h1; simp
    · by_cases h2 : i < k
      · have : i < k + 1 := by omega
        simp [h1, h2, this]
      · have : ¬ i < k + 1 := by omega
        simp [h1, h2, this]

/-- mode_many: a unit is the list of the entries of the `vn` arrays -/
def manyRep (D : Dom T) (op : Op) (vn : Nat) : Rep D op (manyKernels D op vn) (gatherArray D op) (initArray D op vn) where
  shp v := v.length = vn
  repU x := (List.range vn).map fun k => compK (D.identity op) k x
  repV v := v
  len _ h := h
  dec l h := ⟨l, h, rfl⟩
  shpF _ _ h _ := by rw [gatherArray_len, h]
  shpE := by rw [initArray_replicate, List.length_replicate]
  gather gs x x' hx hg e := by
    refine mapM_range _ _ _ _ fun k hk => ?_
    exact comp_gather D op (List.mem_range.1 hk) _ (fun g h => (hg g h).1) (fun x i v hx hv => ⟨ld_comp hv, units_ld hx hv⟩) hx e
  init l x x' hx e := by
    refine mapM_range _ _ _ _ fun k hk => ?_
    have hk' := List.mem_range.1 hk
    obtain ⟨y, e1, e2, _⟩ := init_sim (R := fun x (y : List T) => y = compK (D.identity op) k x ∧ Units vn x) (Rv := fun v t => t = v.getD k (D.identity op) ∧ v.length = vn)
      (e' := D.identity op) (st' := stAt)
      ⟨by rw [initArray_replicate, List.getD_eq_getElem _ _ (by rw [List.length_replicate]; exact hk'), List.getElem_replicate],
        by rw [initArray_replicate, List.length_replicate]⟩ (by
      rintro x y i v v' x1 ⟨rfl, hx⟩ ⟨rfl, hv⟩ hs
      exact ⟨_, st_comp hs, rfl, (units_st hx hv hs).1⟩) l x _ x' ⟨rfl, hx⟩ e
    rw [← e2]; exact e1
  scatter gs x x' hx hg e := by
    refine mapM_range _ _ _ _ fun k _ => ?_
    exact comp_scatter _ hg (fun x i v hx hv => ⟨ld_comp hv, units_ld hx hv⟩) hx e
  toBuf gs x b b' rest hx hb hg e := by
    have h := manyToVec_run (D.identity op) hx hb hg e rest vn 0 (by omega)
    have hb' : Units vn b' ∧ b'.length = b.length := by
      obtain ⟨y, _, h1, h2⟩ := scatterGroups_sim (fun y (_ : Unit) => Units vn y ∧ y.length = b.length) (fun v (_ : Unit) => v.length = vn)
        (rd' := fun _ _ => some ()) (st' := fun _ _ _ => some ()) (y := ()) hg ⟨hb, rfl⟩ e (fun _ _ _ v _ hv => ⟨(), rfl, units_ld hx hv⟩)
        (fun y _ k v _ y1 hy hv hs => ⟨(), rfl, (units_st hy.1 hv hs).1, by rw [(units_st hy.1 hv hs).2, hy.2]⟩)
      exact ⟨h1, h2⟩
    simp only [Nat.not_lt_zero, if_false] at h
    rw [← eq_tab2 _ hb, ← hb'.2, ← eq_tab2 _ hb'.1] at h
    rw [flatMap_id', flatMap_id']
    rw [← List.range_eq_range'] at h
    exact h
  fromBuf gs x b x' rest hx hb hg e := by
    rw [flatMap_id']
    have h := vecToMany_run (D.identity op) (m := encGroups gs) (B := b.flatten ++ rest) (x := x) (x' := x') vn 0 (by omega) (fun k hk =>
      comp_scatter (vn := vn) _ hg (fun _ i v _ hv => ⟨ld_units_comp hk _ hb rest hv, units_ld hb hv⟩) hx e)
    rw [← List.range_eq_range'] at h
    exact h
  gatherBuf gs x b x' rest hx hb hg e := by
    rw [flatMap_id']
    have h := vecToManyGather_run D op (D.identity op) (m := encGroups gs) (B := b.flatten ++ rest) (x := x) (x' := x') vn 0 (by omega) (fun k hk =>
      comp_gather D op (vn := vn) hk _ hg (fun _ i v _ hv => ⟨ld_units_comp hk _ hb rest hv, units_ld hb hv⟩) hx e)
    rw [← List.range_eq_range'] at h
    exact h
  bufScatter gs c b b' rest rest' hc hb hg e := by
    rw [flatMap_id', flatMap_id', flatMap_id']
    exact buf_scatter_units rest rest' hc hb hg e
  bufGather gs c b b' rest rest' hc hb hg e := by
    rw [flatMap_id', flatMap_id', flatMap_id']
    exact buf_gather_units D op rest rest' hc hb hg e
  comb b b' hb hb' hl := by
    rw [flatMap_id', flatMap_id', flatMap_id']
    exact comb_units D op b b' hb hb' hl
  initBuf n := by rw [flatMap_id']; exact init_units D op vn n

end Gslib.Gs
