import Verif.Lemmas.GsMaps
import Mathlib.Tactic.Ring

/-! # The three kernel modes as one: `Rep` says that kernels act like the plain kernels on arrays of units -/

namespace Gslib.Gs

variable {V T U : Type}

/-- kernels acting on units of type `V` with operation `f` and identity `e` -/
structure Rep (D : Dom T) (op : Op) (K : Kernels U T) (f : V → V → V) (e : V) where
  /-- well formed units -/
  shp : V → Prop
  /-- user data for an array of units -/
  repU : List V → U
  /-- entries of a buffer for a unit -/
  repV : V → List T
  len : ∀ v, shp v → (repV v).length = K.vn
  dec : ∀ l : List T, l.length = K.vn → ∃ v, shp v ∧ repV v = l
  shpF : ∀ v v', shp v → shp v' → shp (f v v')
  shpE : shp e
  gather : ∀ gs x x', (∀ v ∈ x, shp v) → (∀ g ∈ gs, GroupOk g ∧ g.1 ∉ g.2) → gs.foldlM (gstep f ldAt stAt ldAt) x = some x' →
    K.gather (encGroups gs) (repU x) = some (repU x')
  init : ∀ l x x', (∀ v ∈ x, shp v) → initLoop e stAt l x = some x' → K.init l (repU x) = some (repU x')
  scatter : ∀ gs x x', (∀ v ∈ x, shp v) → (∀ g ∈ gs, GroupOk g) → gs.foldlM (sstep ldAt stAt) x = some x' →
    K.scatter (encGroups gs) (repU x) = some (repU x')
  toBuf : ∀ gs x b b' rest, (∀ v ∈ x, shp v) → (∀ v ∈ b, shp v) → (∀ g ∈ gs, GroupOk g) → gs.foldlM (sstep (fun _ k => ldAt x k) stAt) b = some b' →
    K.toBuf (encGroups gs) (repU x) (b.flatMap repV ++ rest) = some (b'.flatMap repV ++ rest)
  fromBuf : ∀ gs x b x' rest, (∀ v ∈ x, shp v) → (∀ v ∈ b, shp v) → (∀ g ∈ gs, GroupOk g) → gs.foldlM (sstep (fun _ k => ldAt b k) stAt) x = some x' →
    K.fromBuf (encGroups gs) (b.flatMap repV ++ rest) (repU x) = some (repU x')
  gatherBuf : ∀ gs x b x' rest, (∀ v ∈ x, shp v) → (∀ v ∈ b, shp v) → (∀ g ∈ gs, GroupOk g) → gs.foldlM (gstep f ldAt stAt (fun _ k => ldAt b k)) x = some x' →
    K.gatherBuf (encGroups gs) (b.flatMap repV ++ rest) (repU x) = some (repU x')
  bufScatter : ∀ gs c b b' rest rest', (∀ v ∈ c, shp v) → (∀ v ∈ b, shp v) → (∀ g ∈ gs, GroupOk g) → gs.foldlM (sstep (fun _ k => ldAt c k) stAt) b = some b' →
    K.bufScatter (encGroups gs) (c.flatMap repV ++ rest') (b.flatMap repV ++ rest) = some (b'.flatMap repV ++ rest)
  bufGather : ∀ gs c b b' rest rest', (∀ v ∈ c, shp v) → (∀ v ∈ b, shp v) → (∀ g ∈ gs, GroupOk g) → gs.foldlM (gstep f ldAt stAt (fun _ k => ldAt c k)) b = some b' →
    K.bufGather (encGroups gs) (c.flatMap repV ++ rest') (b.flatMap repV ++ rest) = some (b'.flatMap repV ++ rest)
  comb : ∀ b b' : List V, (∀ v ∈ b, shp v) → (∀ v ∈ b', shp v) → b.length = b'.length →
    gatherArray D op (b.flatMap repV) (b'.flatMap repV) = (List.zipWith f b b').flatMap repV
  initBuf : ∀ n, initArray D op (K.vn * n) = (List.replicate n e).flatMap repV

/-! ### simulations -/

theorem foldlM_sim {A B G : Type} {R : A → B → Prop} {s1 : A → G → Option A} {s2 : B → G → Option B} :
    ∀ (l : List G), (∀ g ∈ l, ∀ a b a', R a b → s1 a g = some a' → ∃ b', s2 b g = some b' ∧ R a' b') →
    ∀ a b a', R a b → l.foldlM s1 a = some a' → ∃ b', l.foldlM s2 b = some b' ∧ R a' b'
  | [], _, a, b, a', hR, e => by
    have : a = a' := by simpa using e
    subst this
    exact ⟨b, rfl, hR⟩
  | g :: l, h, a, b, a', hR, e => by
    rw [List.foldlM_cons] at e
    cases e1 : s1 a g with
    | none => rw [e1] at e; exact absurd e (by simp)
    | some a1 =>
      rw [e1] at e
      obtain ⟨b1, e2, hR1⟩ := h g (by simp) a b a1 hR e1
      obtain ⟨b', e3, hR'⟩ := foldlM_sim l (fun g hg => h g (by simp [hg])) a1 b1 a' hR1 e
      exact ⟨b', by rw [List.foldlM_cons, e2]; exact e3, hR'⟩

variable {U' V' : Type} {R : U → U' → Prop} {Rv : V → V' → Prop}

theorem sstep_sim {rd : U → Nat → Option V} {st : U → Nat → V → Option U} {rd' : U' → Nat → Option V'} {st' : U' → Nat → V' → Option U'}
    (hrd : ∀ x y k v, R x y → rd x k = some v → ∃ v', rd' y k = some v' ∧ Rv v v')
    (hst : ∀ x y k v v' x1, R x y → Rv v v' → st x k v = some x1 → ∃ y1, st' y k v' = some y1 ∧ R x1 y1)
    (g : Nat × List Nat) (x : U) (y : U') (x1 : U) (hR : R x y) (e : sstep rd st x g = some x1) : ∃ y1, sstep rd' st' y g = some y1 ∧ R x1 y1 := by
  unfold sstep at *
  cases e1 : rd x g.1 with
  | none => rw [e1] at e; exact absurd e (by simp)
  | some v =>
    rw [e1, Option.bind_some] at e
    obtain ⟨v', e2, hv⟩ := hrd x y g.1 v hR e1
    rw [e2, Option.bind_some]
    exact foldlM_sim g.2 (fun j _ a b a' hab h => hst a b j v v' a' hab hv h) x y x1 hR e

theorem gstep_sim {f : V → V → V} {f' : V' → V' → V'} {ld rd : U → Nat → Option V} {st : U → Nat → V → Option U} {ld' rd' : U' → Nat → Option V'} {st' : U' → Nat → V' → Option U'}
    (hld : ∀ x y k v, R x y → ld x k = some v → ∃ v', ld' y k = some v' ∧ Rv v v')
    (hrd : ∀ x y k v, R x y → rd x k = some v → ∃ v', rd' y k = some v' ∧ Rv v v')
    (hst : ∀ x y k v v' x1, R x y → Rv v v' → st x k v = some x1 → ∃ y1, st' y k v' = some y1 ∧ R x1 y1)
    (hf : ∀ v v' u u', Rv v v' → Rv u u' → Rv (f v u) (f' v' u'))
    (g : Nat × List Nat) (x : U) (y : U') (x1 : U) (hR : R x y) (e : gstep f ld st rd x g = some x1) : ∃ y1, gstep f' ld' st' rd' y g = some y1 ∧ R x1 y1 := by
  unfold gstep at *
  cases e1 : ld x g.1 with
  | none => rw [e1] at e; exact absurd e (by simp)
  | some v =>
    rw [e1, Option.bind_some] at e
    obtain ⟨v', e2, hv⟩ := hld x y g.1 v hR e1
    rw [e2, Option.bind_some]
    cases e3 : g.2.foldlM (fun t j => (rd x j).map (f t)) v with
    | none => rw [e3] at e; exact absurd e (by simp)
    | some t =>
      rw [e3, Option.bind_some] at e
      obtain ⟨t', e4, ht⟩ := foldlM_sim (R := Rv) (s2 := fun t j => (rd' y j).map (f' t)) g.2 (by
        intro j _ a b a' hab h
        cases e5 : rd x j with
        | none => rw [e5] at h; exact absurd h (by simp)
        | some u =>
          rw [e5] at h
          obtain ⟨u', e6, hu⟩ := hrd x y j u hR e5
          refine ⟨f' b u', by simp [e6], ?_⟩
          have : f a u = a' := by simpa using h
          exact this ▸ hf a b u u' hab hu) v v' t hv e3
      rw [e4, Option.bind_some]
      exact hst x y g.1 t t' x1 hR ht e

theorem init_sim {e : V} {e' : V'} {st : U → Nat → V → Option U} {st' : U' → Nat → V' → Option U'} (he : Rv e e')
    (hst : ∀ x y k v v' x1, R x y → Rv v v' → st x k v = some x1 → ∃ y1, st' y k v' = some y1 ∧ R x1 y1) :
    ∀ (l : List Nat) (x : U) (y : U') (x1 : U), R x y → initLoop e st l x = some x1 → ∃ y1, initLoop e' st' l y = some y1 ∧ R x1 y1
  | [], x, y, x1, _, h => by simp [initLoop] at h
  | k :: l, x, y, x1, hR, h => by
    rw [initLoop] at h ⊢
    split at h
    · rename_i hk
      rw [if_pos hk]
      have : x = x1 := by simpa using h
      exact ⟨y, rfl, this ▸ hR⟩
    · rename_i hk
      rw [if_neg hk]
      cases e1 : st x k e with
      | none => rw [e1] at h; exact absurd h (by simp)
      | some x2 =>
        rw [e1, Option.bind_some] at h
        obtain ⟨y2, e2, hR2⟩ := hst x y k e e' x2 hR he e1
        rw [e2, Option.bind_some]
        exact init_sim he hst l x2 y2 x1 hR2 h

theorem scatterGroups_sim (R : U → U' → Prop) (Rv : V → V' → Prop) {rd : U → Nat → Option V} {st : U → Nat → V → Option U} {rd' : U' → Nat → Option V'} {st' : U' → Nat → V' → Option U'}
    {gs : List (Nat × List Nat)} (hok : ∀ g ∈ gs, GroupOk g) {x x' : U} {y : U'} (hR : R x y) (e : gs.foldlM (sstep rd st) x = some x')
    (hrd : ∀ x y k v, R x y → rd x k = some v → ∃ v', rd' y k = some v' ∧ Rv v v')
    (hst : ∀ x y k v v' x1, R x y → Rv v v' → st x k v = some x1 → ∃ y1, st' y k v' = some y1 ∧ R x1 y1) :
    ∃ y', scatterLoop rd' st' (encGroups gs) .outer y = some y' ∧ R x' y' := by
  rw [scatterLoop_groups rd' st' gs y hok]
  exact foldlM_sim gs (fun g _ => sstep_sim hrd hst g) x y x' hR e

theorem gatherGroups_sim (R : U → U' → Prop) (Rv : V → V' → Prop) {f : V → V → V} {f' : V' → V' → V'} {ld rd : U → Nat → Option V} {st : U → Nat → V → Option U} {ld' rd' : U' → Nat → Option V'} {st' : U' → Nat → V' → Option U'}
    {gs : List (Nat × List Nat)} (hok : ∀ g ∈ gs, GroupOk g) {x x' : U} {y : U'} (hR : R x y) (e : gs.foldlM (gstep f ld st rd) x = some x')
    (hld : ∀ x y k v, R x y → ld x k = some v → ∃ v', ld' y k = some v' ∧ Rv v v')
    (hrd : ∀ x y k v, R x y → rd x k = some v → ∃ v', rd' y k = some v' ∧ Rv v v')
    (hst : ∀ x y k v v' x1, R x y → Rv v v' → st x k v = some x1 → ∃ y1, st' y k v' = some y1 ∧ R x1 y1)
    (hf : ∀ v v' u u', Rv v v' → Rv u u' → Rv (f v u) (f' v' u')) :
    ∃ y', gatherLoop f' ld' st' rd' (encGroups gs) .outer y = some y' ∧ R x' y' := by
  rw [gatherLoop_groups f' ld' st' rd' gs y hok]
  exact foldlM_sim gs (fun g _ => gstep_sim hld hrd hst hf g) x y x' hR e

theorem gatherArray_zip (D : Dom T) (op : Op) : ∀ a b : List T, a.length = b.length → gatherArray D op a b = List.zipWith (D.doOp op) a b
  | [], [], _ => rfl
  | x :: a, y :: b, h => by rw [gatherArray, List.zipWith_cons_cons, gatherArray_zip D op a b (by simpa using h)]

theorem initArray_replicate (D : Dom T) (op : Op) : ∀ n, initArray D op n = List.replicate n (D.identity op)
  | 0 => rfl
  | n + 1 => by rw [initArray, List.replicate_succ, initArray_replicate D op n]

/-! ### mode_plain -/

theorem flatMap_single {A : Type} (l : List A) : l.flatMap (fun v => [v]) = l := by
  induction l with
  | nil => rfl
  | cons a l ih => rw [List.flatMap_cons, ih]; rfl

theorem ld_append {x : List V} {k : Nat} {v : V} (rest : List V) (h : ldAt x k = some v) : ldAt (x ++ rest) k = some v := by
  unfold ldAt at *
  rw [List.getElem?_append_left (by
    by_contra h'
    rw [List.getElem?_eq_none (by omega)] at h
    exact absurd h (by simp))]
  exact h

theorem st_append {x x' : List V} {k : Nat} {v : V} (rest : List V) (h : stAt x k v = some x') : stAt (x ++ rest) k v = some (x' ++ rest) := by
  unfold stAt at *
  split at h
  · rename_i hk
    rw [if_pos (by rw [List.length_append]; omega), List.set_append_left _ _ hk]
    have : x.set k v = x' := by simpa using h
    rw [this]
  · exact absurd h (by simp)

/-- mode_plain -/
def plainRep (D : Dom T) (op : Op) : Rep D op (plainKernels D op) (D.doOp op) (D.identity op) where
  shp _ := True
  repU x := x
  repV v := [v]
  len _ _ := rfl
  dec l h := by
    match l, h with
    | [v], _ => exact ⟨v, trivial, rfl⟩
  shpF _ _ _ _ := trivial
  shpE := trivial
  gather gs x x' _ hg e := by
    show gatherLoop _ _ _ _ _ _ _ = _
    rw [gatherLoop_groups _ _ _ _ gs x (fun g h => (hg g h).1), e]
  init l x x' _ e := e
  scatter gs x x' _ hg e := by
    show scatterLoop _ _ _ _ _ = _
    rw [scatterLoop_groups _ _ gs x hg, e]
  toBuf gs x b b' rest _ _ hg e := by
    rw [flatMap_single, flatMap_single]
    obtain ⟨y, e1, rfl⟩ := scatterGroups_sim (fun x y : List T => y = x ++ rest) Eq (rd' := fun _ k => ldAt x k) (st' := stAt) hg rfl e
      (fun _ _ k v _ h => ⟨v, h, rfl⟩) (fun x y k v v' x1 hR hv h => ⟨x1 ++ rest, by subst hR hv; exact st_append rest h, rfl⟩)
    exact e1
  fromBuf gs x b x' rest _ _ hg e := by
    rw [flatMap_single]
    obtain ⟨y, e1, rfl⟩ := scatterGroups_sim (fun x y : List T => y = x) Eq (rd' := fun _ k => ldAt (b ++ rest) k) (st' := stAt) hg rfl e
      (fun _ _ k v _ h => ⟨v, ld_append rest h, rfl⟩) (fun x y k v v' x1 hR hv h => ⟨x1, by subst hR hv; exact h, rfl⟩)
    exact e1
  gatherBuf gs x b x' rest _ _ hg e := by
    rw [flatMap_single]
    obtain ⟨y, e1, rfl⟩ := gatherGroups_sim (fun x y : List T => y = x) Eq (f' := D.doOp op) (ld' := ldAt) (rd' := fun _ k => ldAt (b ++ rest) k) (st' := stAt) hg rfl e
      (fun x y k v hR h => ⟨v, by subst hR; exact h, rfl⟩)
      (fun _ _ k v _ h => ⟨v, ld_append rest h, rfl⟩) (fun x y k v v' x1 hR hv h => ⟨x1, by subst hR hv; exact h, rfl⟩)
      (fun v v' u u' h1 h2 => by rw [h1, h2])
    exact e1
  bufScatter gs c b b' rest rest' _ _ hg e := by
    rw [flatMap_single, flatMap_single, flatMap_single]
    obtain ⟨y, e1, rfl⟩ := scatterGroups_sim (fun x y : List T => y = x ++ rest) Eq (rd' := fun _ k => ldAt (c ++ rest') k) (st' := stAt) hg rfl e
      (fun _ _ k v _ h => ⟨v, ld_append rest' h, rfl⟩) (fun x y k v v' x1 hR hv h => ⟨x1 ++ rest, by subst hR hv; exact st_append rest h, rfl⟩)
    exact e1
  bufGather gs c b b' rest rest' _ _ hg e := by
    rw [flatMap_single, flatMap_single, flatMap_single]
    obtain ⟨y, e1, rfl⟩ := gatherGroups_sim (fun x y : List T => y = x ++ rest) Eq (f' := D.doOp op) (ld' := ldAt) (rd' := fun _ k => ldAt (c ++ rest') k) (st' := stAt) hg rfl e
      (fun x y k v hR h => ⟨v, by subst hR; exact ld_append rest h, rfl⟩)
      (fun _ _ k v _ h => ⟨v, ld_append rest' h, rfl⟩) (fun x y k v v' x1 hR hv h => ⟨x1 ++ rest, by subst hR hv; exact st_append rest h, rfl⟩)
      (fun v v' u u' h1 h2 => by rw [h1, h2])
    exact e1
  comb b b' _ _ h := by rw [flatMap_single, flatMap_single, flatMap_single]; exact gatherArray_zip D op b b' h
  initBuf n := by rw [flatMap_single]; show initArray D op (1 * n) = _; rw [Nat.one_mul]; exact initArray_replicate D op n

/-! ### mode_vec -/

/-- all units have `vn` entries -/
def Units (vn : Nat) (x : List (List T)) : Prop := ∀ v ∈ x, v.length = vn

theorem Units.set {vn : Nat} {x : List (List T)} (h : Units vn x) (k : Nat) {t : List T} (ht : t.length = vn) : Units vn (x.set k t) := by
  intro v hv
  rcases List.mem_or_eq_of_mem_set hv with h1 | h1
  · exact h v h1
  · rw [h1, ht]

theorem drop_units {vn : Nat} : ∀ {x : List (List T)} (_ : Units vn x) (rest : List T) {k : Nat} (_ : k ≤ x.length),
    (x.flatten ++ rest).drop (k * vn) = (x.drop k).flatten ++ rest ∧ (x.flatten ++ rest).take (k * vn) = (x.take k).flatten
  | x, _, rest, 0, _ => by simp
  | [], _, rest, k + 1, hk => by simp at hk
  | v :: x, h, rest, k + 1, hk => by
    have hv : v.length = vn := h v (by simp)
    obtain ⟨h1, h2⟩ := drop_units (x := x) (fun u hu => h u (by simp [hu])) rest (k := k) (by simpa using hk)
    have e : (k + 1) * vn = v.length + k * vn := by rw [hv]; ring
    constructor
    · rw [e, List.flatten_cons, List.append_assoc, List.drop_length_add_append, h1, List.drop_succ_cons]
    · rw [e, List.flatten_cons, List.append_assoc, List.take_length_add_append, h2, List.take_succ_cons, List.flatten_cons]

theorem flatten_len {vn : Nat} : ∀ {x : List (List T)} (_ : Units vn x), x.flatten.length = x.length * vn
  | [], _ => by simp
  | v :: x, h => by
    rw [List.flatten_cons, List.length_append, flatten_len (x := x) (fun u hu => h u (by simp [hu])), h v (by simp), List.length_cons]; ring

theorem ldVec_units {vn : Nat} {x : List (List T)} (h : Units vn x) (rest : List T) {k : Nat} {v : List T} (hk : ldAt x k = some v) :
    ldVec vn (x.flatten ++ rest) k = some v := by
  unfold ldAt at hk
  obtain ⟨hlt, hv⟩ := List.getElem?_eq_some_iff.1 hk
  unfold ldVec
  have hl : k * vn + vn ≤ x.length * vn := by
    have := Nat.mul_le_mul_right vn hlt
    rw [Nat.succ_mul] at this; exact this
  rw [if_pos (by rw [List.length_append, flatten_len h]; omega), (drop_units h rest (Nat.le_of_lt hlt)).1, List.drop_eq_getElem_cons hlt, List.flatten_cons,
    List.append_assoc, hv]
  congr 1
  have hvl : v.length = vn := h v (hv ▸ List.getElem_mem hlt)
  rw [List.take_append_of_le_length (by omega), List.take_of_length_le (by omega)]

theorem stVec_units {vn : Nat} {x x' : List (List T)} (h : Units vn x) (rest : List T) {k : Nat} {t : List T} (ht : t.length = vn) (hk : stAt x k t = some x') :
    stVec vn (x.flatten ++ rest) k t = some (x'.flatten ++ rest) ∧ Units vn x' := by
  unfold stAt at hk
  split at hk
  · rename_i hlt
    have hx : x.set k t = x' := by simpa using hk
    subst hx
    refine ⟨?_, h.set k ht⟩
    have hl : k * vn + vn ≤ x.length * vn := by
      have := Nat.mul_le_mul_right vn hlt
      rw [Nat.succ_mul] at this; exact this
    unfold stVec
    rw [if_pos ⟨by rw [List.length_append, flatten_len h]; omega, ht⟩]
    congr 1
    have e : k * vn + vn = (k + 1) * vn := by ring
    rw [e, (drop_units h rest (Nat.le_of_lt hlt)).2, (drop_units h rest hlt).1, List.set_eq_take_append_cons_drop, if_pos hlt, List.flatten_append, List.flatten_cons]
    simp [List.append_assoc]
  · exact absurd hk (by simp)

/-- one group of `gather_vec`: the destination is updated after each source -/
def vstep (D : Dom T) (op : Op) (vn : Nat) (rd : List T → Nat → Option (List T)) (out : List T) (g : Nat × List Nat) : Option (List T) :=
  g.2.foldlM (fun out x => (ldVec vn out g.1).bind fun t => (rd out x).bind fun y => stVec vn out g.1 (gatherArray D op t y)) out

theorem gatherVecLoop_more (D : Dom T) (op : Op) (vn : Nat) (rd : List T → Nat → Option (List T)) (rest : List Nat) (i : Nat) :
    ∀ (js : List Nat) (out : List T), (∀ j ∈ js, j ≠ uintMax) → gatherVecLoop D op vn rd (js ++ uintMax :: rest) (.more i) out =
      (vstep D op vn rd out (i, js)).bind fun out => gatherVecLoop D op vn rd rest .outer out
  | [], out, _ => by simp [gatherVecLoop, vstep]
  | j :: js, out, h => by
    rw [List.cons_append, gatherVecLoop, if_neg (h j (by simp))]
    unfold vstep
    rw [List.foldlM_cons]
    simp only
    cases ldVec vn out i with
    | none => rfl
    | some t =>
      simp only [Option.bind_some]
      cases rd out j with
      | none => rfl
      | some y =>
        simp only [Option.bind_some]
        cases stVec vn out i (gatherArray D op t y) with
        | none => rfl
        | some out' => exact gatherVecLoop_more D op vn rd rest i js out' (fun j hj => h j (by simp [hj]))

theorem gatherVecLoop_groups (D : Dom T) (op : Op) (vn : Nat) (rd : List T → Nat → Option (List T)) :
    ∀ (gs : List (Nat × List Nat)) (out : List T), (∀ g ∈ gs, GroupOk g) → gatherVecLoop D op vn rd (encGroups gs) .outer out = gs.foldlM (vstep D op vn rd) out
  | [], out, _ => by simp [encGroups, gatherVecLoop]
  | g :: gs, out, h => by
    obtain ⟨h1, h2, h3⟩ := h g (by simp)
    have ih := fun x => gatherVecLoop_groups D op vn rd gs x (fun g hg => h g (by simp [hg]))
    obtain ⟨i, js⟩ := g
    cases js with
    | nil => exact absurd rfl h1
    | cons j js =>
      have e : encGroups ((i, j :: js) :: gs) = i :: j :: (js ++ uintMax :: encGroups gs) := by simp [encGroups]
      rw [e, gatherVecLoop, if_neg h2, List.foldlM_cons]
      unfold vstep
      rw [List.foldlM_cons]
      rw [gatherVecLoop]
      simp only
      cases ldVec vn out i with
      | none => rfl
      | some t =>
        simp only [Option.bind_some]
        cases rd out j with
        | none => rfl
        | some y =>
          simp only [Option.bind_some]
          cases stVec vn out i (gatherArray D op t y) with
          | none => rfl
          | some out' =>
            simp only [Option.bind_some]
            rw [gatherVecLoop_more D op vn rd _ i js out' (fun j hj => h3 j (by simp [hj]))]
            unfold vstep
            simp only [Option.bind_eq_bind, Option.bind_some]
            cases (List.foldlM (fun out x => (ldVec vn out i).bind fun t => (rd out x).bind fun y => stVec vn out i (gatherArray D op t y)) out' js) with
            | none => rfl
            | some out'' => simp only [Option.bind_some]; exact ih out''

theorem gatherArray_len (D : Dom T) (op : Op) : ∀ a b : List T, (gatherArray D op a b).length = a.length
  | [], _ => by simp [gatherArray]
  | _ :: _, [] => by simp [gatherArray]
  | x :: a, y :: b => by rw [gatherArray, List.length_cons, List.length_cons, gatherArray_len D op a b]

/-- the in-place fold of one group -/
theorem vstep_run (D : Dom T) (op : Op) {vn : Nat} {rd : List T → Nat → Option (List T)} {rest : List T} {i : Nat} {y : Nat → List T} {n : Nat} {w : Nat → List T}
    (hi : i < n) (hw : ∀ k, (w k).length = vn) : ∀ (js : List Nat) (t : List T), t.length = vn →
    (∀ t : List T, t.length = vn → ∀ j ∈ js, rd ((tab n (Function.update w i t)).flatten ++ rest) j = some (y j)) →
    vstep D op vn rd ((tab n (Function.update w i t)).flatten ++ rest) (i, js) =
      some ((tab n (Function.update w i ((js.map y).foldl (gatherArray D op) t))).flatten ++ rest)
  | [], t, _, _ => rfl
  | j :: js, t, ht, h => by
    have hu : ∀ t : List T, t.length = vn → Units vn (tab n (Function.update w i t)) := by
      intro t ht v hv
      obtain ⟨k, _, rfl⟩ := List.mem_map.1 hv
      rw [Function.update_apply]; split
      · exact ht
      · exact hw k
    have ht' : (gatherArray D op t (y j)).length = vn := by rw [gatherArray_len, ht]
    unfold vstep
    rw [List.foldlM_cons]
    simp only
    rw [ldVec_units (hu t ht) rest (ld_tab hi), Function.update_self, Option.bind_some, h t ht j (by simp), Option.bind_some,
      (stVec_units (hu t ht) rest ht' (st_tab hi _)).1]
    have ih := vstep_run D op hi hw js _ ht' (fun t ht j hj => h t ht j (by simp [hj]))
    unfold vstep at ih
    simp only [Option.bind_eq_bind, Option.bind_some, Function.update_idem]
    exact ih

theorem foldlM_inv {f : V → V → V} {rd : Nat → Option V} : ∀ (js : List Nat) (t t' : V), js.foldlM (fun t j => (rd j).map (f t)) t = some t' →
    ∀ j ∈ js, (rd j).isSome
  | [], _, _, _, j, hj => by simp at hj
  | j :: js, t, t', h, k, hk => by
    rw [List.foldlM_cons] at h
    cases e : rd j with
    | none => rw [e] at h; exact absurd h (by simp)
    | some y =>
      rw [e] at h
      rcases List.mem_cons.1 hk with rfl | hk
      · rw [e]; rfl
      · exact foldlM_inv js _ _ h k hk

theorem gstep_inv {f : V → V → V} {rd : List V → Nat → Option V} {x x1 : List V} {g : Nat × List Nat} (h : gstep f ldAt stAt rd x g = some x1) :
    ∃ t, x[g.1]? = some t ∧ (∀ j ∈ g.2, rd x j = some ((rd x j).getD t)) ∧
      x1 = x.set g.1 ((g.2.map fun j => (rd x j).getD t).foldl f t) := by
  unfold gstep at h
  cases e1 : ldAt x g.1 with
  | none => rw [e1] at h; exact absurd h (by simp)
  | some t =>
    rw [e1, Option.bind_some] at h
    cases e2 : g.2.foldlM (fun t j => (rd x j).map (f t)) t with
    | none => rw [e2] at h; exact absurd h (by simp)
    | some t' =>
      rw [e2, Option.bind_some] at h
      have hs : ∀ j ∈ g.2, rd x j = some ((rd x j).getD t) := by
        intro j hj
        have := foldlM_inv g.2 t t' e2 j hj
        cases e3 : rd x j with
        | none => rw [e3] at this; exact absurd this (by simp)
        | some y => rfl
      refine ⟨t, e1, hs, ?_⟩
      rw [foldlM_some g.2 t hs] at e2
      have e4 : t' = _ := (Option.some.inj e2).symm
      unfold stAt at h
      split at h
      · rw [← e4]; exact (Option.some.inj h).symm
      · exact absurd h (by simp)

/-- one group: the in-place update and the plain step agree -/
theorem vstep_sim (D : Dom T) (op : Op) {vn : Nat} {rest : List T} {rdC : List (List T) → Nat → Option (List T)} {rd : List T → Nat → Option (List T)}
    {g : Nat × List Nat}
    (hrd : ∀ (x : List (List T)) (t : List T), Units vn x → t.length = vn → ∀ j ∈ g.2, ∀ v, rdC x j = some v → rd ((x.set g.1 t).flatten ++ rest) j = some v)
    {x x1 : List (List T)} (hx : Units vn x)
    (h : gstep (gatherArray D op) ldAt stAt rdC x g = some x1) :
    vstep D op vn rd (x.flatten ++ rest) g = some (x1.flatten ++ rest) ∧ Units vn x1 := by
  obtain ⟨t, h1, h2, rfl⟩ := gstep_inv h
  obtain ⟨hlt, h1'⟩ := List.getElem?_eq_some_iff.1 h1
  have ht : t.length = vn := hx t (h1' ▸ List.getElem_mem hlt)
  have hset : ∀ s : List T, x.set g.1 s = tab x.length (Function.update (fun k => x.getD k t) g.1 s) := by
    intro s
    have := st_tab (w := fun k => x.getD k t) hlt s
    rw [← eq_tab x t] at this
    unfold stAt at this
    rw [if_pos hlt] at this
    exact Option.some.inj this
  have hx0 : x = tab x.length (Function.update (fun k => x.getD k t) g.1 t) := by
    rw [← hset t, ← h1', List.set_getElem_self]
  have hw : ∀ k, (x.getD k t).length = vn := by
    intro k
    by_cases hk : k < x.length
    · rw [List.getD_eq_getElem _ _ hk]; exact hx _ (List.getElem_mem hk)
    · rw [List.getD_eq_default _ _ (by omega)]; exact ht
  have hrun := vstep_run D op (rd := rd) (rest := rest) (y := fun j => (rdC x j).getD t) hlt hw g.2 t ht (by
    intro s hs j hj
    rw [← hset s]
    exact hrd x s hx hs j hj _ (h2 j hj))
  rw [← hx0, ← hset] at hrun
  refine ⟨hrun, hx.set _ ?_⟩
  have : ∀ (l : List (List T)) (t : List T), (l.foldl (gatherArray D op) t).length = t.length := by
    intro l
    induction l with
    | nil => intro t; rfl
    | cons a l ih => intro t; rw [List.foldl_cons, ih, gatherArray_len]
  rw [this, ht]

theorem vecGather_sim (D : Dom T) (op : Op) {vn : Nat} {rest : List T} {rdC : List (List T) → Nat → Option (List T)} {rd : List T → Nat → Option (List T)}
    {gs : List (Nat × List Nat)} (hok : ∀ g ∈ gs, GroupOk g)
    (hrd : ∀ g ∈ gs, ∀ (x : List (List T)) (t : List T), Units vn x → t.length = vn → ∀ j ∈ g.2, ∀ v, rdC x j = some v → rd ((x.set g.1 t).flatten ++ rest) j = some v)
    {x x1 : List (List T)} (hx : Units vn x) (h : gs.foldlM (gstep (gatherArray D op) ldAt stAt rdC) x = some x1) :
    gatherVecLoop D op vn rd (encGroups gs) .outer (x.flatten ++ rest) = some (x1.flatten ++ rest) := by
  rw [gatherVecLoop_groups D op vn rd gs _ hok]
  obtain ⟨y, e1, e2, _⟩ := foldlM_sim (R := fun x (y : List T) => y = x.flatten ++ rest ∧ Units vn x) (s2 := vstep D op vn rd) gs (by
    rintro g hg a b a' ⟨rfl, ha⟩ h
    obtain ⟨h1, h2⟩ := vstep_sim D op (hrd g hg) ha h
    exact ⟨_, h1, rfl, h2⟩) x _ x1 ⟨rfl, hx⟩ h
  rw [e1, e2]

theorem flatMap_id' (x : List (List T)) : x.flatMap (fun v => v) = x.flatten := by
  rw [List.flatMap_def]; simp

theorem vecScatter_sim {vn : Nat} {rest : List T} {rdC : List (List T) → Nat → Option (List T)} {rd : List T → Nat → Option (List T)}
    {gs : List (Nat × List Nat)} (hok : ∀ g ∈ gs, GroupOk g)
    (hrd : ∀ (x : List (List T)), Units vn x → ∀ k v, rdC x k = some v → rd (x.flatten ++ rest) k = some v ∧ v.length = vn)
    {x x1 : List (List T)} (hx : Units vn x) (h : gs.foldlM (sstep rdC stAt) x = some x1) :
    scatterLoop rd (stVec vn) (encGroups gs) .outer (x.flatten ++ rest) = some (x1.flatten ++ rest) := by
  obtain ⟨y, e1, e2, _⟩ := scatterGroups_sim (fun x (y : List T) => y = x.flatten ++ rest ∧ Units vn x) (fun v v' => v = v' ∧ v.length = vn) (rd' := rd) (st' := stVec vn) hok ⟨rfl, hx⟩ h
    (by
      rintro x y k v ⟨rfl, hx⟩ hv
      obtain ⟨h1, h2⟩ := hrd x hx k v hv
      exact ⟨v, h1, rfl, h2⟩)
    (by
      rintro x y k v v' x1 ⟨rfl, hx⟩ ⟨rfl, hv⟩ hs
      obtain ⟨h1, h2⟩ := stVec_units hx rest hv hs
      exact ⟨_, h1, rfl, h2⟩)
  rw [e1, e2]

theorem units_ld {vn : Nat} {x : List (List T)} (h : Units vn x) {k : Nat} {v : List T} (hk : ldAt x k = some v) : v.length = vn := by
  unfold ldAt at hk
  obtain ⟨hlt, hv⟩ := List.getElem?_eq_some_iff.1 hk
  exact h v (hv ▸ List.getElem_mem hlt)

theorem ldAt_set_ne {x : List V} {i j : Nat} {t v : V} (hij : i ≠ j) (h : ldAt x j = some v) : ldAt (x.set i t) j = some v := by
  unfold ldAt at *
  rw [List.getElem?_set_ne hij]; exact h

theorem gatherArray_append (D : Dom T) (op : Op) : ∀ (a b a' b' : List T), a.length = a'.length →
    gatherArray D op (a ++ b) (a' ++ b') = gatherArray D op a a' ++ gatherArray D op b b'
  | [], b, [], b', _ => by simp [gatherArray]
  | x :: a, b, y :: a', b', h => by
    rw [List.cons_append, List.cons_append, gatherArray, gatherArray, gatherArray_append D op a b a' b' (by simpa using h), List.cons_append]

theorem comb_units (D : Dom T) (op : Op) {vn : Nat} : ∀ (b b' : List (List T)), Units vn b → Units vn b' → b.length = b'.length →
    gatherArray D op b.flatten b'.flatten = (List.zipWith (gatherArray D op) b b').flatten
  | [], [], _, _, _ => rfl
  | x :: b, y :: b', h, h', hl => by
    rw [List.flatten_cons, List.flatten_cons, gatherArray_append D op _ _ _ _ (by rw [h x (by simp), h' y (by simp)]), List.zipWith_cons_cons, List.flatten_cons,
      comb_units D op b b' (fun v hv => h v (by simp [hv])) (fun v hv => h' v (by simp [hv])) (by simpa using hl)]

theorem init_units (D : Dom T) (op : Op) (vn n : Nat) : initArray D op (vn * n) = (List.replicate n (initArray D op vn)).flatten := by
  simp only [initArray_replicate]
  induction n with
  | zero => rfl
  | succ n ih => rw [List.replicate_succ, List.flatten_cons, ← ih, List.replicate_append_replicate]; congr 1; ring

/-- laws between buffers of units, for mode_vec and mode_many -/
theorem buf_scatter_units {vn : Nat} {gs : List (Nat × List Nat)} {c b b' : List (List T)} (rest rest' : List T) (hc : Units vn c) (hb : Units vn b)
    (hg : ∀ g ∈ gs, GroupOk g) (h : gs.foldlM (sstep (fun _ k => ldAt c k) stAt) b = some b') :
    scatterLoop (fun _ k => ldVec vn (c.flatten ++ rest') k) (stVec vn) (encGroups gs) .outer (b.flatten ++ rest) = some (b'.flatten ++ rest) :=
  vecScatter_sim hg (fun _ _ _ _ hv => ⟨ldVec_units hc rest' hv, units_ld hc hv⟩) hb h

theorem buf_gather_units (D : Dom T) (op : Op) {vn : Nat} {gs : List (Nat × List Nat)} {c b b' : List (List T)} (rest rest' : List T) (hc : Units vn c) (hb : Units vn b)
    (hg : ∀ g ∈ gs, GroupOk g) (h : gs.foldlM (gstep (gatherArray D op) ldAt stAt (fun _ k => ldAt c k)) b = some b') :
    gatherVecLoop D op vn (fun _ k => ldVec vn (c.flatten ++ rest') k) (encGroups gs) .outer (b.flatten ++ rest) = some (b'.flatten ++ rest) :=
  vecGather_sim D op hg (fun _ _ _ _ _ _ _ _ _ hv => ldVec_units hc rest' hv) hb h

/-- mode_vec: a unit is the list of its `vn` entries -/
def vecRep (D : Dom T) (op : Op) (vn : Nat) : Rep D op (vecKernels D op vn) (gatherArray D op) (initArray D op vn) where
  shp v := v.length = vn
  repU x := x.flatten
  repV v := v
  len _ h := h
  dec l h := ⟨l, h, rfl⟩
  shpF _ _ h _ := by rw [gatherArray_len, h]
  shpE := by rw [initArray_replicate, List.length_replicate]
  gather gs x x' hx hg e := by
    have := vecGather_sim D op (rest := []) (rd := ldVec vn) (fun g h => (hg g h).1)
      (fun g hgm x t hx ht j hj v hv => ldVec_units (hx.set _ ht) [] (ldAt_set_ne (fun h => (hg g hgm).2 (h ▸ hj)) hv)) hx e
    simp only [List.append_nil] at this
    exact this
  init l x x' hx e := by
    obtain ⟨y, e1, e2, _⟩ := init_sim (R := fun x (y : List T) => y = x.flatten ∧ Units vn x) (Rv := fun v v' => v = v' ∧ v.length = vn) (e' := initArray D op vn) (st' := stVec vn)
      ⟨rfl, by rw [initArray_replicate, List.length_replicate]⟩ (by
      rintro x y k v v' x1 ⟨rfl, hx⟩ ⟨rfl, hv⟩ hs
      obtain ⟨h1, h2⟩ := stVec_units hx [] hv hs
      simp only [List.append_nil] at h1
      exact ⟨_, h1, rfl, h2⟩) l x _ x' ⟨rfl, hx⟩ e
    rw [← e2]; exact e1
  scatter gs x x' hx hg e := by
    have := vecScatter_sim (rest := []) (rd := ldVec vn) hg (fun x hx k v hv => ⟨ldVec_units hx [] hv, units_ld hx hv⟩) hx e
    simp only [List.append_nil] at this
    exact this
  toBuf gs x b b' rest hx hb hg e := by
    have := buf_scatter_units rest [] hx hb hg e
    simp only [List.append_nil] at this
    rw [flatMap_id', flatMap_id']
    exact this
  fromBuf gs x b x' rest hx hb hg e := by
    have := buf_scatter_units [] rest hb hx hg e
    simp only [List.append_nil] at this
    rw [flatMap_id']
    exact this
  gatherBuf gs x b x' rest hx hb hg e := by
    have := buf_gather_units D op [] rest hb hx hg e
    simp only [List.append_nil] at this
    rw [flatMap_id']
    exact this
  bufScatter gs c b b' rest rest' hc hb hg e := by
    rw [flatMap_id', flatMap_id', flatMap_id']
    exact buf_scatter_units rest rest' hc hb hg e
  bufGather gs c b b' rest rest' hc hb hg e := by
    rw [flatMap_id', flatMap_id', flatMap_id']
    exact buf_gather_units D op rest rest' hc hb hg e
  comb b b' hb hb' hl := by
    rw [flatMap_id', flatMap_id', flatMap_id']
    exact comb_units D op b b' hb hb' hl
  initBuf n := by rw [flatMap_id']; exact init_units D op vn n

end Gslib.Gs
