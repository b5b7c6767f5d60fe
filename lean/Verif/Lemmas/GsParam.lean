import Verif.Lemmas.Param
import Verif.Model.Gs

/-!
# gs does not inspect the values it combines: the kernels and the exchange on related data
-/

namespace Gslib.Gs
open Gslib Gslib.Mpi Gslib.Comm

variable {α α' β β' T T' U U' V V' : Type}

/-- if the first has a value then so has the second, and they are related -/
def ORel (R : α → α' → Prop) (o : Option α) (o' : Option α') : Prop := ∀ x, o = some x → ∃ x', o' = some x' ∧ R x x'

theorem ORel.some {R : α → α' → Prop} {x : α} {x' : α'} (h : R x x') : ORel R (some x) (some x') := by
  intro y e
  obtain rfl := Option.some.inj e
  exact ⟨x', rfl, h⟩

theorem ORel.none {R : α → α' → Prop} (o : Option α') : ORel R none o := fun _ e => nomatch e

theorem ORel.bind {R : α → α' → Prop} {Q : β → β' → Prop} {o : Option α} {o' : Option α'} {f : α → Option β} {f' : α' → Option β'} (h : ORel R o o')
    (hf : ∀ x x', R x x' → ORel Q (f x) (f' x')) : ORel Q (o.bind f) (o'.bind f') := by
  intro y e
  obtain ⟨x, e1, e2⟩ := Option.bind_eq_some_iff.1 e
  obtain ⟨x', f1, r⟩ := h x e1
  obtain ⟨y', f2, q⟩ := hf x x' r y e2
  exact ⟨y', by rw [f1]; exact f2, q⟩

theorem ORel.ite {R : α → α' → Prop} {c : Prop} [Decidable c] {o p : Option α} {o' p' : Option α'} (h : c → ORel R o o') (h' : ¬c → ORel R p p') : ORel R (if c then o else p) (if c then o' else p') := by
  by_cases hc : c
  · rw [if_pos hc, if_pos hc]; exact h hc
  · rw [if_neg hc, if_neg hc]; exact h' hc

/-- related lists -/
abbrev LRel (R : α → α' → Prop) (a : List α) (b : List α') : Prop := List.Forall₂ R a b

theorem LRel.get {R : T → T' → Prop} {a : List T} {a' : List T'} (h : LRel R a a') : ∀ k : Nat, ORel R a[k]? a'[k]? := by
  induction h with
  | nil => intro k; exact ORel.none _
  | cons hd _ ih =>
    intro k
    cases k with
    | zero => exact ORel.some hd
    | succ k => simpa using ih k

theorem LRel.set {R : T → T' → Prop} {a : List T} {a' : List T'} (h : LRel R a a') {t : T} {t' : T'} (ht : R t t') : ∀ k : Nat, LRel R (a.set k t) (a'.set k t') := by
  induction h with
  | nil => intro k; exact .nil
  | cons hd tl ih =>
    intro k
    cases k with
    | zero => exact .cons ht tl
    | succ k => exact .cons hd (ih k)

/-! ### kernels -/

/-- positions in the map with related values -/
def PosRel {A A' : Type} (R : A → A' → Prop) : Pos A → Pos A' → Prop
  | .outer, .outer => True
  | .first a, .first b => R a b
  | .more a, .more b => R a b
  | _, _ => False

theorem gatherLoop_rel {RO : U → U' → Prop} {RV : V → V' → Prop} {f : V → V → V} {f' : V' → V' → V'} {ld rd : U → Nat → Option V} {ld' rd' : U' → Nat → Option V'}
    {st : U → Nat → V → Option U} {st' : U' → Nat → V' → Option U'} (hf : ∀ a a' b b', RV a a' → RV b b' → RV (f a b) (f' a' b')) (hld : ∀ o o' k, RO o o' → ORel RV (ld o k) (ld' o' k))
    (hrd : ∀ o o' k, RO o o' → ORel RV (rd o k) (rd' o' k)) (hst : ∀ o o' k t t', RO o o' → RV t t' → ORel RO (st o k t) (st' o' k t')) :
    ∀ (m : List Nat) (p : Pos (Nat × V)) (p' : Pos (Nat × V')) (o : U) (o' : U'), PosRel (fun a a' => a'.1 = a.1 ∧ RV a.2 a'.2) p p' → RO o o' →
      ORel RO (gatherLoop f ld st rd m p o) (gatherLoop f' ld' st' rd' m p' o')
  | [], _, _, _, _, _, _ => ORel.none _
  | x :: m, .outer, .outer, o, o', _, h => by
    rw [gatherLoop, gatherLoop]
    refine ORel.ite (fun _ => ORel.some h) fun _ => (hld o o' x h).bind fun t t' ht => ?_
    exact gatherLoop_rel hf hld hrd hst m _ _ _ _ ⟨rfl, ht⟩ h
  | x :: m, .first a, .first a', o, o', hp, h => by
    rw [gatherLoop, gatherLoop]
    refine (hrd o o' x h).bind fun t t' ht => ?_
    exact gatherLoop_rel hf hld hrd hst m _ _ _ _ ⟨hp.1, hf _ _ _ _ hp.2 ht⟩ h
  | x :: m, .more a, .more a', o, o', hp, h => by
    rw [gatherLoop, gatherLoop]
    refine ORel.ite (fun _ => ?_) fun _ => (hrd o o' x h).bind fun t t' ht => ?_
    · rw [hp.1]
      exact (hst o o' a.1 _ _ h hp.2).bind fun u u' hu => gatherLoop_rel hf hld hrd hst m _ _ _ _ trivial hu
    · exact gatherLoop_rel hf hld hrd hst m _ _ _ _ ⟨hp.1, hf _ _ _ _ hp.2 ht⟩ h

theorem scatterLoop_rel {RO : U → U' → Prop} {RV : V → V' → Prop} {rd : U → Nat → Option V} {rd' : U' → Nat → Option V'}
    {st : U → Nat → V → Option U} {st' : U' → Nat → V' → Option U'}
    (hrd : ∀ o o' k, RO o o' → ORel RV (rd o k) (rd' o' k)) (hst : ∀ o o' k t t', RO o o' → RV t t' → ORel RO (st o k t) (st' o' k t')) :
    ∀ (m : List Nat) (p : Pos V) (p' : Pos V') (o : U) (o' : U'), PosRel RV p p' → RO o o' →
      ORel RO (scatterLoop rd st m p o) (scatterLoop rd' st' m p' o')
  | [], _, _, _, _, _, _ => ORel.none _
  | x :: m, .outer, .outer, o, o', _, h => by
    rw [scatterLoop, scatterLoop]
    refine ORel.ite (fun _ => ORel.some h) fun _ => (hrd o o' x h).bind fun t t' ht => ?_
    exact scatterLoop_rel hrd hst m (.first t) (.first t') _ _ ht h
  | x :: m, .first a, .first a', o, o', hp, h => by
    rw [scatterLoop, scatterLoop]
    exact (hst o o' x a a' h hp).bind fun u u' hu => scatterLoop_rel hrd hst m (.more a) (.more a') _ _ hp hu
  | x :: m, .more a, .more a', o, o', hp, h => by
    rw [scatterLoop, scatterLoop]
    refine ORel.ite (fun _ => ?_) fun _ => ?_
    · exact scatterLoop_rel hrd hst m .outer .outer _ _ trivial h
    · exact (hst o o' x a a' h hp).bind fun u u' hu => scatterLoop_rel hrd hst m (.more a) (.more a') _ _ hp hu

theorem initLoop_rel {RO : U → U' → Prop} {RV : V → V' → Prop} {e : V} {e' : V'} (he : RV e e')
    {st : U → Nat → V → Option U} {st' : U' → Nat → V' → Option U'} (hst : ∀ o o' k t t', RO o o' → RV t t' → ORel RO (st o k t) (st' o' k t')) :
    ∀ (m : List Nat) (o : U) (o' : U'), RO o o' → ORel RO (initLoop e st m o) (initLoop e' st' m o')
  | [], _, _, _ => ORel.none _
  | x :: m, o, o', h => by
    rw [initLoop, initLoop]
    exact ORel.ite (fun _ => ORel.some h) fun _ => (hst o o' x e e' h he).bind fun u u' hu => initLoop_rel he hst m u u' hu

variable {R : T → T' → Prop}

theorem ldAt_rel {a : List T} {a' : List T'} (h : LRel R a a') (k : Nat) : ORel R (ldAt a k) (ldAt a' k) := h.get k

theorem stAt_rel {a : List T} {a' : List T'} (h : LRel R a a') (k : Nat) {t : T} {t' : T'} (ht : R t t') : ORel (LRel R) (stAt a k t) (stAt a' k t') := by
  unfold stAt
  rw [h.length_eq]
  exact ORel.ite (fun _ => ORel.some (h.set ht k)) fun _ => ORel.none _

theorem ldVec_rel {a : List T} {a' : List T'} (h : LRel R a a') (vn k : Nat) : ORel (LRel R) (ldVec vn a k) (ldVec vn a' k) := by
  unfold ldVec
  rw [h.length_eq]
  exact ORel.ite (fun _ => ORel.some (List.forall₂_take _ (List.forall₂_drop _ h))) fun _ => ORel.none _

theorem stVec_rel {a : List T} {a' : List T'} (h : LRel R a a') (vn k : Nat) {t : List T} {t' : List T'} (ht : LRel R t t') : ORel (LRel R) (stVec vn a k t) (stVec vn a' k t') := by
  unfold stVec
  rw [h.length_eq, ht.length_eq]
  exact ORel.ite (fun _ => ORel.some (List.rel_append (List.rel_append (List.forall₂_take _ h) ht) (List.forall₂_drop _ h))) fun _ => ORel.none _

/-- the operation and its identity preserve the relation -/
structure DomRel (R : T → T' → Prop) (D : Dom T) (D' : Dom T') (op : Op) : Prop where
  f : ∀ a a' b b', R a a' → R b b' → R (D.doOp op a b) (D'.doOp op a' b')
  e : R (D.identity op) (D'.identity op)

variable {D : Dom T} {D' : Dom T'} {op : Op}

theorem gatherArray_rel (h : DomRel R D D' op) {a : List T} {a' : List T'} (ha : LRel R a a') : ∀ {b : List T} {b' : List T'}, LRel R b b' → LRel R (gatherArray D op a b) (gatherArray D' op a' b') := by
  induction ha with
  | nil => intro b b' _; unfold gatherArray; exact .nil
  | cons hd tl ih =>
    intro b b' hb
    cases hb with
    | nil => exact .cons hd tl
    | cons hd' tl' => exact .cons (h.f _ _ _ _ hd hd') (ih tl')

theorem initArray_rel (h : DomRel R D D' op) : ∀ n, LRel R (initArray D op n) (initArray D' op n)
  | 0 => .nil
  | n + 1 => .cons h.e (initArray_rel h n)

theorem gatherVecLoop_rel (h : DomRel R D D' op) (vn : Nat) {rd : List T → Nat → Option (List T)} {rd' : List T' → Nat → Option (List T')} (hrd : ∀ o o' k, LRel R o o' → ORel (LRel R) (rd o k) (rd' o' k)) :
    ∀ (m : List Nat) (p : Pos Nat) (o : List T) (o' : List T'), LRel R o o' → ORel (LRel R) (gatherVecLoop D op vn rd m p o) (gatherVecLoop D' op vn rd' m p o')
  | [], _, _, _, _ => ORel.none _
  | x :: m, .outer, o, o', ho => by
    rw [gatherVecLoop, gatherVecLoop]
    exact ORel.ite (fun _ => ORel.some ho) fun _ => gatherVecLoop_rel h vn hrd m _ _ _ ho
  | x :: m, .first i, o, o', ho => by
    rw [gatherVecLoop, gatherVecLoop]
    refine (ldVec_rel ho vn i).bind fun t t' ht => (hrd o o' x ho).bind fun y y' hy => (stVec_rel ho vn i (gatherArray_rel h ht hy)).bind fun u u' hu => ?_
    exact gatherVecLoop_rel h vn hrd m _ _ _ hu
  | x :: m, .more i, o, o', ho => by
    rw [gatherVecLoop, gatherVecLoop]
    refine ORel.ite (fun _ => gatherVecLoop_rel h vn hrd m _ _ _ ho) fun _ => ?_
    refine (ldVec_rel ho vn i).bind fun t t' ht => (hrd o o' x ho).bind fun y y' hy => (stVec_rel ho vn i (gatherArray_rel h ht hy)).bind fun u u' hu => ?_
    exact gatherVecLoop_rel h vn hrd m _ _ _ hu

/-- kernels that do related things to related data -/
structure KRel (RU : U → U' → Prop) (R : T → T' → Prop) (K : Kernels U T) (K' : Kernels U' T') : Prop where
  vn : K'.vn = K.vn
  gather : ∀ m u u', RU u u' → ORel RU (K.gather m u) (K'.gather m u')
  init : ∀ m u u', RU u u' → ORel RU (K.init m u) (K'.init m u')
  scatter : ∀ m u u', RU u u' → ORel RU (K.scatter m u) (K'.scatter m u')
  toBuf : ∀ m u u' b b', RU u u' → LRel R b b' → ORel (LRel R) (K.toBuf m u b) (K'.toBuf m u' b')
  fromBuf : ∀ m b b' u u', LRel R b b' → RU u u' → ORel RU (K.fromBuf m b u) (K'.fromBuf m b' u')
  gatherBuf : ∀ m b b' u u', LRel R b b' → RU u u' → ORel RU (K.gatherBuf m b u) (K'.gatherBuf m b' u')
  bufScatter : ∀ m c c' b b', LRel R c c' → LRel R b b' → ORel (LRel R) (K.bufScatter m c b) (K'.bufScatter m c' b')
  bufGather : ∀ m c c' b b', LRel R c c' → LRel R b b' → ORel (LRel R) (K.bufGather m c b) (K'.bufGather m c' b')

theorem scat_rel (m : List Nat) {c b : List T} {c' b' : List T'} (hc : LRel R c c') (hb : LRel R b b') :
    ORel (LRel R) (scatterLoop (fun _ k => ldAt c k) stAt m .outer b) (scatterLoop (fun _ k => ldAt c' k) stAt m .outer b') :=
  scatterLoop_rel (RV := R) (fun _ _ k _ => ldAt_rel hc k) (fun _ _ k _ _ ho ht => stAt_rel ho k ht) m .outer .outer _ _ trivial hb

theorem gath_rel (h : DomRel R D D' op) (m : List Nat) {c b : List T} {c' b' : List T'} (hc : LRel R c c') (hb : LRel R b b') :
    ORel (LRel R) (gatherLoop (D.doOp op) ldAt stAt (fun _ k => ldAt c k) m .outer b) (gatherLoop (D'.doOp op) ldAt stAt (fun _ k => ldAt c' k) m .outer b') :=
  gatherLoop_rel (RV := R) h.f (fun _ _ k ho => ldAt_rel ho k) (fun _ _ k _ => ldAt_rel hc k) (fun _ _ k _ _ ho ht => stAt_rel ho k ht) m .outer .outer _ _ trivial hb

theorem gathU_rel (h : DomRel R D D' op) (m : List Nat) {b : List T} {b' : List T'} (hb : LRel R b b') :
    ORel (LRel R) (gatherLoop (D.doOp op) ldAt stAt ldAt m .outer b) (gatherLoop (D'.doOp op) ldAt stAt ldAt m .outer b') :=
  gatherLoop_rel (RV := R) h.f (fun _ _ k ho => ldAt_rel ho k) (fun _ _ k ho => ldAt_rel ho k) (fun _ _ k _ _ ho ht => stAt_rel ho k ht) m .outer .outer _ _ trivial hb

theorem scatU_rel (m : List Nat) {b : List T} {b' : List T'} (hb : LRel R b b') :
    ORel (LRel R) (scatterLoop ldAt stAt m .outer b) (scatterLoop ldAt stAt m .outer b') :=
  scatterLoop_rel (RV := R) (fun _ _ k ho => ldAt_rel ho k) (fun _ _ k _ _ ho ht => stAt_rel ho k ht) m .outer .outer _ _ trivial hb

theorem initU_rel (h : DomRel R D D' op) (m : List Nat) {b : List T} {b' : List T'} (hb : LRel R b b') :
    ORel (LRel R) (initLoop (D.identity op) stAt m b) (initLoop (D'.identity op) stAt m b') :=
  initLoop_rel (RV := R) h.e (fun _ _ k _ _ ho ht => stAt_rel ho k ht) m _ _ hb

theorem scatV_rel (vn : Nat) (m : List Nat) {c b : List T} {c' b' : List T'} (hc : LRel R c c') (hb : LRel R b b') :
    ORel (LRel R) (scatterLoop (fun _ k => ldVec vn c k) (stVec vn) m .outer b) (scatterLoop (fun _ k => ldVec vn c' k) (stVec vn) m .outer b') :=
  scatterLoop_rel (RV := LRel R) (fun _ _ k _ => ldVec_rel hc vn k) (fun _ _ k _ _ ho ht => stVec_rel ho vn k ht) m .outer .outer _ _ trivial hb

theorem plain_rel (h : DomRel R D D' op) : KRel (LRel R) R (plainKernels D op) (plainKernels D' op) where
  vn := rfl
  gather m _ _ hu := gathU_rel h m hu
  init m _ _ hu := initU_rel h m hu
  scatter m _ _ hu := scatU_rel m hu
  toBuf m _ _ _ _ hu hb := scat_rel m hu hb
  fromBuf m _ _ _ _ hb hu := scat_rel m hb hu
  gatherBuf m _ _ _ _ hb hu := gath_rel h m hb hu
  bufScatter m _ _ _ _ hc hb := scat_rel m hc hb
  bufGather m _ _ _ _ hc hb := gath_rel h m hc hb

theorem vec_rel (h : DomRel R D D' op) (vn : Nat) : KRel (LRel R) R (vecKernels D op vn) (vecKernels D' op vn) where
  vn := rfl
  gather m _ _ hu := gatherVecLoop_rel h vn (fun _ _ k ho => ldVec_rel ho vn k) m _ _ _ hu
  init m _ _ hu := initLoop_rel (RV := LRel R) (initArray_rel h vn) (fun _ _ k _ _ ho ht => stVec_rel ho vn k ht) m _ _ hu
  scatter m _ _ hu := scatterLoop_rel (RV := LRel R) (fun _ _ k ho => ldVec_rel ho vn k) (fun _ _ k _ _ ho ht => stVec_rel ho vn k ht) m .outer .outer _ _ trivial hu
  toBuf m _ _ _ _ hu hb := scatV_rel vn m hu hb
  fromBuf m _ _ _ _ hb hu := scatV_rel vn m hb hu
  gatherBuf m _ _ _ _ hb hu := gatherVecLoop_rel h vn (fun _ _ k _ => ldVec_rel hb vn k) m _ _ _ hu
  bufScatter m _ _ _ _ hc hb := scatV_rel vn m hc hb
  bufGather m _ _ _ _ hc hb := gatherVecLoop_rel h vn (fun _ _ k _ => ldVec_rel hc vn k) m _ _ _ hb

theorem mapM_lrel {f : List T → Option (List T)} {f' : List T' → Option (List T')} (hf : ∀ a a', LRel R a a' → ORel (LRel R) (f a) (f' a')) {u : List (List T)} {u' : List (List T')}
    (hu : LRel (LRel R) u u') : ORel (LRel (LRel R)) (u.mapM f) (u'.mapM f') := by
  induction hu with
  | nil => exact ORel.some .nil
  | cons hd _ ih =>
    rw [List.mapM_cons, List.mapM_cons]
    exact (hf _ _ hd).bind fun x x' hx => ih.bind fun y y' hy => ORel.some (.cons hx hy)

theorem manyToVec_rel (vn : Nat) (m : List Nat) {u : List (List T)} {u' : List (List T')} (hu : LRel (LRel R) u u') :
    ∀ (k : Nat) {b : List T} {b' : List T'}, LRel R b b' → ORel (LRel R) (manyToVec vn m k u b) (manyToVec vn m k u' b') := by
  induction hu with
  | nil => intro k b b' hb; exact ORel.some hb
  | cons hd _ ih =>
    intro k b b' hb
    rw [manyToVec, manyToVec]
    refine ORel.bind ?_ fun x x' hx => ih (k + 1) hx
    exact scatterLoop_rel (RV := R) (fun _ _ k _ => ldAt_rel hd k) (fun _ _ j _ _ ho ht => stAt_rel ho (j * vn + k) ht) m .outer .outer _ _ trivial hb

theorem vecToMany_rel (vn : Nat) (m : List Nat) {b : List T} {b' : List T'} (hb : LRel R b b') {u : List (List T)} {u' : List (List T')} (hu : LRel (LRel R) u u') :
    ∀ (k : Nat), ORel (LRel (LRel R)) (vecToMany vn m b k u) (vecToMany vn m b' k u') := by
  induction hu with
  | nil => intro k; exact ORel.some .nil
  | cons hd _ ih =>
    intro k
    rw [vecToMany, vecToMany]
    refine ORel.bind ?_ fun x x' hx => (ih (k + 1)).bind fun y y' hy => ORel.some (.cons hx hy)
    exact scatterLoop_rel (RV := R) (fun _ _ i _ => ldAt_rel hb (i * vn + k)) (fun _ _ j _ _ ho ht => stAt_rel ho j ht) m .outer .outer _ _ trivial hd

theorem vecToManyGather_rel (h : DomRel R D D' op) (vn : Nat) (m : List Nat) {b : List T} {b' : List T'} (hb : LRel R b b') {u : List (List T)} {u' : List (List T')} (hu : LRel (LRel R) u u') :
    ∀ (k : Nat), ORel (LRel (LRel R)) (vecToManyGather D op vn m b k u) (vecToManyGather D' op vn m b' k u') := by
  induction hu with
  | nil => intro k; exact ORel.some .nil
  | cons hd _ ih =>
    intro k
    rw [vecToManyGather, vecToManyGather]
    refine ORel.bind ?_ fun x x' hx => (ih (k + 1)).bind fun y y' hy => ORel.some (.cons hx hy)
    exact gatherLoop_rel (RV := R) h.f (fun _ _ k ho => ldAt_rel ho k) (fun _ _ i _ => ldAt_rel hb (i * vn + k)) (fun _ _ k _ _ ho ht => stAt_rel ho k ht) m .outer .outer _ _ trivial hd

theorem many_rel (h : DomRel R D D' op) (vn : Nat) : KRel (LRel (LRel R)) R (manyKernels D op vn) (manyKernels D' op vn) where
  vn := rfl
  gather m _ _ hu := mapM_lrel (fun _ _ ha => gathU_rel h m ha) hu
  init m _ _ hu := mapM_lrel (fun _ _ ha => initU_rel h m ha) hu
  scatter m _ _ hu := mapM_lrel (fun _ _ ha => scatU_rel m ha) hu
  toBuf m _ _ _ _ hu hb := manyToVec_rel vn m hu 0 hb
  fromBuf m _ _ _ _ hb hu := vecToMany_rel vn m hb hu 0
  gatherBuf m _ _ _ _ hb hu := vecToManyGather_rel h vn m hb hu 0
  bufScatter m _ _ _ _ hc hb := scatV_rel vn m hc hb
  bufGather m _ _ _ _ hc hb := gatherVecLoop_rel h vn (fun _ _ k _ => ldVec_rel hc vn k) m _ _ _ hb

/-! ### exchange -/

/-- related memories -/
structure StRel (RU : U → U' → Prop) (R : T → T' → Prop) (s : GsSt U T) (s' : GsSt U' T') : Prop where
  u : RU s.u s'.u
  buf : LRel R s.buf s'.buf
  fill : ∀ i, R (s.fill i) (s'.fill i)
  arr : LRel R s.arr s'.arr

theorem outRel {RS : α → α' → Prop} {o : Option α} {o' : Option α'} (h : ORel RS o o') : ∀ t, Outcome.ofOption o = .ok t → ∃ t', Outcome.ofOption o' = .ok t' ∧ RS t t' := by
  intro t e
  cases o with
  | none => cases e
  | some x =>
    obtain rfl := Outcome.ok.inj e
    obtain ⟨x', e', r⟩ := h x rfl
    exact ⟨x', by rw [e']; rfl, r⟩

variable {RU : U → U' → Prop} {K : Kernels U T} {K' : Kernels U' T'}

theorem reserve_rel (n : Nat) {s : GsSt U T} {s' : GsSt U' T'} (h : StRel RU R s s') : StRel RU R (reserve n s) (reserve n s') := by
  refine ⟨h.u, ?_, h.fill, h.arr⟩
  unfold reserve
  simp only
  refine List.rel_append h.buf ?_
  rw [h.buf.length_eq]
  generalize List.range (n - s'.buf.length) = l
  induction l with
  | nil => exact .nil
  | cons x l ih => exact .cons (h.fill x) ih

theorem gsPre_rel (hK : KRel RU R K K') (g : GsData) (t : Bool) (s : GsSt U T) (s' : GsSt U' T') (r : GsSt U T) (h : StRel RU R s s') (e : gsPre K g t s = .ok r) :
    ∃ r', gsPre K' g t s' = .ok r' ∧ StRel RU R r r' := by
  unfold gsPre at *
  rw [hK.vn]
  have hr := reserve_rel (K.vn * g.r.bufferSize) h
  refine outRel ?_ r e
  refine (hK.gather _ _ _ hr.u).bind fun u u' hu => ORel.bind (R := RU) ?_ fun v v' hv => ORel.some ⟨hv, hr.buf, hr.fill, hr.arr⟩
  cases t
  · exact hK.init _ _ _ hu
  · exact ORel.some hu

theorem gsPost_rel (hK : KRel RU R K K') (g : GsData) (t : Bool) (s : GsSt U T) (s' : GsSt U' T') (r : GsSt U T) (h : StRel RU R s s') (e : gsPost K g t s = .ok r) :
    ∃ r', gsPost K' g t s' = .ok r' ∧ StRel RU R r r' := by
  unfold gsPost at *
  refine outRel ?_ r e
  exact (hK.scatter _ _ _ h.u).bind fun v v' hv => ORel.some ⟨hv, h.buf, h.fill, h.arr⟩

theorem sliceFor_rel (vn : Nat) : ∀ (ms : List (Nat × Nat)) {b : List T} {b' : List T'} (q : Nat), LRel R b b' → LRel R (sliceFor vn ms b q) (sliceFor vn ms b' q)
  | [], _, _, _, _ => .nil
  | (p, n) :: ms, b, b', q, h => by
    rw [sliceFor, sliceFor]
    by_cases c : p = q
    · rw [if_pos c, if_pos c]; exact List.forall₂_take _ h
    · rw [if_neg c, if_neg c]; exact sliceFor_rel vn ms q (List.forall₂_drop _ h)

theorem lens_rel {v : List (List T)} {v' : List (List T')} (h : LRel (LRel R) v v') : v'.map List.length = v.map List.length := by
  induction h with
  | nil => rfl
  | cons hd _ ih => rw [List.map_cons, List.map_cons, ih, List.Forall₂.length_eq hd]

theorem pwExecStep_rel (hK : KRel RU R K K') (d : PwData) (t : Bool) (id : Nat) : StepRel (StRel RU R) (LRel R) (pwExecStep K d t id) (pwExecStep K' d t id) where
  label := rfl
  sends := rfl
  recvs := rfl
  pre s s' r h e := by
    unfold pwExecStep at *
    simp only at *
    rw [hK.vn]
    refine outRel ?_ r e
    exact (hK.toBuf _ _ _ _ _ h.u (List.forall₂_drop _ h.buf)).bind fun b b' hb => ORel.some ⟨h.u, List.rel_append (List.forall₂_take _ h.buf) hb, h.fill, h.arr⟩
  payload s s' k h := by
    unfold pwExecStep
    simp only
    rw [hK.vn]
    exact sliceFor_rel _ _ _ (List.forall₂_drop _ h.buf)
  post s s' v v' r h hv e := by
    unfold pwExecStep at *
    simp only at *
    rw [hK.vn, lens_rel hv]
    by_cases c : v.map List.length = (d.comm t).msgs.map (fun x => x.2 * K.vn)
    · rw [if_pos c] at e ⊢
      refine outRel ?_ r e
      have hb := List.rel_append (List.rel_flatten hv) (List.forall₂_drop (K.vn * (d.comm t).total) h.buf)
      exact (hK.gatherBuf _ _ _ _ _ hb h.u).bind fun u u' hu => ORel.some ⟨hu, hb, h.fill, h.arr⟩
    · rw [if_neg c] at e; cases e

theorem pwExec_rel (hK : KRel RU R K K') (d : Nat → PwData) (t : Bool) : CollRel (StRel RU R) (LRel R) (pwExec K d t) (pwExec K' d t) where
  T := rfl
  prog p := .cons (pwExecStep_rel hK (d p) t p) .nil

/-! ### all-reduce -/

/-- related communication at the nodes of the tree -/
structure OpsRel {S S' W W' : Type} (RS : S → S' → Prop) (RW : W → W' → Prop) (o : TreeOps S W) (o' : TreeOps S' W') : Prop where
  ascParent : ∀ l i p, StepRel RS RW (o.ascParent l i p) (o'.ascParent l i p)
  ascChild : ∀ l i p, StepRel RS RW (o.ascChild l i p) (o'.ascChild l i p)
  descParent : ∀ l i p, StepRel RS RW (o.descParent l i p) (o'.descParent l i p)
  descChild : ∀ l i p, StepRel RS RW (o.descChild l i p) (o'.descChild l i p)

section tree
variable {S S' W W' : Type} {RS : S → S' → Prop} {RW : W → W' → Prop} {o : TreeOps S W} {o' : TreeOps S' W'}

theorem ascend_rel (h : OpsRel RS RW o o') (np id : Nat) : ∀ (fuel d : Nat) (s : TreeSt), ProgRel RS RW (ascend o np id fuel d s).1 (ascend o' np id fuel d s).1 ∧ (ascend o' np id fuel d s).2 = (ascend o np id fuel d s).2
  | 0, _, _ => ⟨.nil, rfl⟩
  | fuel + 1, d, s => by
    rw [ascend, ascend]
    by_cases c : s.n < np
    · rw [if_pos c, if_pos c]
      by_cases c2 : (up s).base = id
      · simp only [c2, if_true]
        obtain ⟨a, b⟩ := ascend_rel h np id fuel (d - 1) (up s)
        exact ⟨.cons (h.ascParent _ _ _) a, b⟩
      · simp only [c2, if_false]
        exact ⟨.cons (h.ascChild _ _ _) .nil, trivial⟩
    · rw [if_neg c, if_neg c]
      exact ⟨.nil, rfl⟩

theorem descend_rel (h : OpsRel RS RW o o') (np id : Nat) : ∀ (fuel d : Nat) (s : TreeSt), ProgRel RS RW (descend o np id fuel d s) (descend o' np id fuel d s)
  | 0, _, _ => .nil
  | fuel + 1, d, s => by
    rw [descend, descend]
    by_cases c : s.n > 1
    · rw [if_pos c, if_pos c]
      refine .cons ?_ (descend_rel h np id fuel _ _)
      split
      · exact h.descParent _ _ _
      · exact h.descChild _ _ _
    · rw [if_neg c, if_neg c]; exact .nil

theorem treeColl_rel (h : OpsRel RS RW o o') (np : Nat) : CollRel RS RW (treeColl o np) (treeColl o' np) where
  T := rfl
  prog p := by
    simp only [treeColl, treeProg]
    obtain ⟨a, b⟩ := ascend_rel h np p np (leaf p np 0 (treeStart np)).1 (leaf p np 0 (treeStart np)).2
    rw [b]
    exact List.rel_append a (descend_rel h np p _ _ _)

end tree

theorem allreduceOps_rel (h : DomRel R D D' op) : OpsRel (LRel R) (LRel R) (allreduceOps D op) (allreduceOps D' op) where
  ascParent l i p := ⟨rfl, rfl, rfl, fun s s' t hs e => by obtain rfl := Outcome.ok.inj e; exact ⟨s', rfl, hs⟩, fun _ _ _ hs => hs, fun s s' v v' t hs hv e => by
    cases hv with
    | nil => cases e
    | cons hd tl =>
      cases tl with
      | nil => obtain rfl := Outcome.ok.inj e; exact ⟨_, rfl, gatherArray_rel h hs hd⟩
      | cons _ _ => cases e⟩
  ascChild l i p := ⟨rfl, rfl, rfl, fun s s' t hs e => by obtain rfl := Outcome.ok.inj e; exact ⟨s', rfl, hs⟩, fun _ _ _ hs => hs, fun s s' v v' t hs hv e => by
    obtain rfl := Outcome.ok.inj e; exact ⟨s', rfl, hs⟩⟩
  descParent l i p := ⟨rfl, rfl, rfl, fun s s' t hs e => by obtain rfl := Outcome.ok.inj e; exact ⟨s', rfl, hs⟩, fun _ _ _ hs => hs, fun s s' v v' t hs hv e => by
    obtain rfl := Outcome.ok.inj e; exact ⟨s', rfl, hs⟩⟩
  descChild l i p := ⟨rfl, rfl, rfl, fun s s' t hs e => by obtain rfl := Outcome.ok.inj e; exact ⟨s', rfl, hs⟩, fun _ _ _ hs => hs, fun s s' v v' t hs hv e => by
    cases hv with
    | nil => cases e
    | cons hd tl =>
      cases tl with
      | nil => obtain rfl := Outcome.ok.inj e; exact ⟨_, rfl, hd⟩
      | cons _ _ => cases e⟩

theorem commAllreduce_rel (h : DomRel R D D' op) (vn np : Nat) : CollRel (LRel R) (LRel R) (commAllreduce D op vn np) (commAllreduce D' op vn np) := by
  unfold commAllreduce
  by_cases c : vn = 0
  · rw [if_pos c, if_pos c]; exact ⟨rfl, fun _ => .nil⟩
  · rw [if_neg c, if_neg c]; exact treeColl_rel (allreduceOps_rel h) np

theorem arExec_rel (h : DomRel R D D' op) (hK : KRel RU R K K') (np total : Nat) (d : Nat → ArData) (t : Bool) : CollRel (StRel RU R) (LRel R) (arExec K D op np total d t) (arExec K' D' op np total d t) := by
  unfold arExec arExecWith
  rw [hK.vn]
  refine (CollRel.seq (CollRel.loc .nil ?_) (CollRel.lift (fun s s' hs => hs.arr) (fun s s' x x' hs hx => ⟨hs.u, hs.buf, hs.fill, hx⟩) (commAllreduce_rel h _ np))).seq (CollRel.loc .nil ?_)
  · intro p s s' r hs e
    unfold arPre at *
    refine outRel ?_ r e
    rw [hK.vn]
    exact (hK.toBuf _ _ _ _ _ hs.u (initArray_rel h _)).bind fun b b' hb => ORel.some ⟨hs.u, hs.buf, hs.fill, hb⟩
  · intro p s s' r hs e
    unfold arPost at *
    refine outRel ?_ r e
    exact (hK.fromBuf _ _ _ _ _ hs.arr hs.u).bind fun b b' hb => ORel.some ⟨hb, hs.buf, hs.fill, hs.arr⟩

/-! ### crystal router -/

theorem crHalf_rel (hK : KRel RU R K K') (sbs k : Nat) {b : List T} {b' : List T'} (h : LRel R b b') : LRel R (crHalf K sbs k b) (crHalf K' sbs k b') := by
  unfold crHalf
  rw [hK.vn]
  split
  · exact List.forall₂_take _ h
  · exact List.forall₂_take _ (List.forall₂_drop _ h)

theorem crPutNew_rel (hK : KRel RU R K K') (sbs k : Nat) {b c : List T} {b' c' : List T'} (h : LRel R b b') (hc : LRel R c c') : LRel R (crPutNew K sbs k b c) (crPutNew K' sbs k b' c') := by
  unfold crPutNew
  rw [hK.vn]
  split
  · exact List.rel_append (List.rel_append (List.forall₂_take _ h) hc) (List.forall₂_drop _ h)
  · exact List.rel_append hc (List.forall₂_drop _ h)

theorem crExecStep_rel (hK : KRel RU R K K') (np sbs k : Nat) (st : CrStage) : StepRel (StRel RU R) (LRel R) (crExecStep K np sbs k st) (crExecStep K' np sbs k st) where
  label := rfl
  sends := rfl
  recvs := rfl
  pre s s' r h e := by
    unfold crExecStep at *
    simp only at *
    refine outRel ?_ r e
    have h1 := crHalf_rel hK sbs k h.buf
    have h2 := crHalf_rel hK sbs (k + 1) h.buf
    rw [hK.vn]
    refine ORel.bind (R := LRel R) (ORel.ite (fun _ => hK.toBuf _ _ _ _ _ h.u (List.forall₂_drop _ h2)) fun _ => (hK.bufScatter _ _ _ _ _ h1 (List.forall₂_drop _ h2)).bind fun x x' hx => hK.bufGather _ _ _ _ _ h1 hx) ?_
    intro b b' hb
    exact ORel.some ⟨h.u, crPutNew_rel hK _ _ h.buf (List.rel_append (List.forall₂_take _ h2) hb), h.fill, h.arr⟩
  payload s s' x h := by
    unfold crExecStep
    simp only
    rw [hK.vn]
    exact List.forall₂_take _ (List.forall₂_drop _ (crHalf_rel hK sbs (k + 1) h.buf))
  post s s' v v' r h hv e := by
    unfold crExecStep at *
    simp only at *
    rw [hK.vn, lens_rel hv]
    by_cases c : v.map List.length = st.sizes.map (fun x => K.vn * x)
    · rw [if_pos c] at e ⊢
      obtain rfl := Outcome.ok.inj e
      exact ⟨_, rfl, h.u, crPutNew_rel hK _ _ h.buf (List.rel_append (List.rel_flatten hv) (List.forall₂_drop _ (crHalf_rel hK sbs (k + 1) h.buf))), h.fill, h.arr⟩
    · rw [if_neg c] at e; cases e

theorem crExec_rel (hK : KRel RU R K K') (np : Nat) (d : Nat → CrData) (t : Bool) : CollRel (StRel RU R) (LRel R) (crExec K np d t) (crExec K' np d t) := by
  unfold crExec
  refine CollRel.seq ⟨rfl, fun p => ?_⟩ (CollRel.loc .nil ?_)
  · simp only
    generalize ((d p).stages t).dropLast.zipIdx = l
    induction l with
    | nil => exact .nil
    | cons x l ih => exact .cons ((crExecStep_rel hK np _ x.2 x.1).shift _) ih
  · intro p s s' r h e
    cases c : ((d p).stages t).getLast? with
    | none => rw [c] at e; cases e
    | some st =>
      rw [c] at e
      simp only at e ⊢
      unfold crExecEnd at *
      refine outRel ?_ r e
      have h1 := crHalf_rel hK (d p).sbs (((d p).stages t).length - 1) h.buf
      exact (hK.fromBuf _ _ _ _ _ h1 h.u).bind fun u u' hu => (hK.gatherBuf _ _ _ _ _ h1 hu).bind fun w w' hw => ORel.some ⟨hw, h.buf, h.fill, h.arr⟩

theorem remoteExec_rel (h : DomRel R D D' op) (hK : KRel RU R K K') (np : Nat) (t : Bool) (g : GsData) : CollRel (StRel RU R) (LRel R) (remoteExec K D op np t g) (remoteExec K' D' op np t g) := by
  unfold remoteExec
  cases g.r with
  | pairwise d => exact pwExec_rel hK _ t
  | crystal d => exact crExec_rel hK np _ t
  | allreduce d => exact arExec_rel h hK np _ _ t

/-- gs on related data gives related results -/
theorem gsOp_rel (h : DomRel R D D' op) (hK : KRel RU R K K') (np : Nat) (t : Bool) (g : Nat → GsData) (p : Nat) : ProgRel (StRel RU R) (LRel R) (gsOp K D op np t g p) (gsOp K' D' op np t g p) :=
  (((CollRel.loc .nil (fun _ => gsPre_rel hK _ t)).seq (remoteExec_rel h hK np t (g p))).seq (CollRel.loc .nil fun _ => gsPost_rel hK _ t)).prog p

end Gslib.Gs
