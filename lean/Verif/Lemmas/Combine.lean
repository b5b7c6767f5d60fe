import Verif.Lemmas.GsFinal
import Verif.Lemmas.GsParam
import Verif.Spec.Combine
import Mathlib.Algebra.BigOperators.Group.Multiset.Basic
import Mathlib.Algebra.Order.BigOperators.Group.Multiset
import Mathlib.Data.Real.Basic
import Mathlib.Algebra.Order.Group.Multiset
import Mathlib.Tactic.Linarith
import Mathlib.Tactic.Positivity

/-!
# gs with an arbitrary operation, from gs with multisets of values
-/

namespace Gslib.Gs
open Gslib Gslib.Mpi Gslib.Spec Gslib.Comm

variable {T : Type} {np : Nat} {ids : Nat → List Int}

/-- a multiset of values, a value that is not combined with anything, or nothing known -/
inductive Pin (T : Type) where
  | ms (m : Multiset T)
  | pin (x : T)
  | bad

/-- combine -/
def Pin.op : Pin T → Pin T → Pin T
  | .ms a, .ms b => .ms (a + b)
  | _, _ => .bad

/-- a multiset -/
def Pin.ok : Pin T → Prop
  | .ms _ => True
  | _ => False

/-- the values that are described -/
def Pin.Rel (f : T → T → T) (e : T) : Pin T → T → Prop
  | .ms m, y => Combines f e m y
  | .pin x, y => y = x
  | .bad, _ => True

/-- multisets with the union -/
def msDom (T : Type) : Dom (Pin T) := ⟨fun _ => Pin.op, fun _ => .ms 0⟩

theorem msMonoid : CommMonoidOn Pin.ok (Pin.op : Pin T → Pin T → Pin T) (.ms 0) where
  closed a b ha hb := by cases a <;> cases b <;> simp_all [Pin.ok, Pin.op]
  okId := trivial
  assoc a b c ha hb hc := by cases a <;> cases b <;> cases c <;> simp_all [Pin.ok, Pin.op, add_assoc]
  comm a b ha hb := by cases a <;> cases b <;> simp_all [Pin.ok, Pin.op, add_comm]
  idLeft a ha := by cases a <;> simp_all [Pin.ok, Pin.op]
  idRight a ha := by cases a <;> simp_all [Pin.ok, Pin.op]

theorem msDom_rel (D : Dom T) (op : Op) : DomRel (Pin.Rel (D.doOp op) (D.identity op)) (msDom T) D op where
  f a a' b b' ha hb := by
    cases a <;> cases b <;> first | exact trivial | exact Combines.op ha hb
  e := Combines.none

abbrev sing (x : T) : Pin T := .ms {x}

/-- a value with an id: it is not combined if the id is 0 -/
def pinAt (i : Int) (x : T) : Pin T := if i = 0 then .pin x else sing x

theorem pinAt_rel (f : T → T → T) (e : T) (i : Int) (x : T) : Pin.Rel f e (pinAt i x) x := by
  unfold pinAt
  split
  · exact rfl
  · exact Combines.val x

theorem pinAt_ok {i : Int} (h : i ≠ 0) (x : T) : Pin.ok (pinAt i x) := by
  unfold pinAt
  rw [if_neg h]; exact trivial

theorem sing_rel (f : T → T → T) (e : T) (l : List T) : LRel (Pin.Rel f e) (l.map sing) l := by
  induction l with
  | nil => exact .nil
  | cons x l ih => exact .cons (.val x) ih

/-- an array of values with their ids -/
def pinV (ids : List Int) (v : List T) : List (Pin T) := (ids.zip v).map fun x => pinAt x.1 x.2

theorem reduce_sing (l : List T) : reduce Pin.op (.ms 0) (l.map sing) = .ms (l : Multiset T) := by
  have key : ∀ (l : List T) (a : Multiset T), (l.map sing).foldl Pin.op (.ms a) = .ms (a + (l : Multiset T)) := by
    intro l
    induction l with
    | nil => intro a; simp
    | cons x l ih =>
      intro a
      rw [List.map_cons, List.foldl_cons]
      show List.foldl Pin.op (.ms (a + {x})) _ = _
      rw [ih, add_assoc]
      rfl
  unfold reduce
  rw [key, zero_add]

theorem pick_pinV (c : Int → Bool) (hc : c 0 = false) : ∀ (i : List Int) (v : List T), pick c i (pinV i v) = (pick c i v).map sing
  | [], _ => rfl
  | _ :: _, [] => rfl
  | x :: i, y :: v => by
    have ih := pick_pinV c hc i v
    unfold pick pinV at *
    rw [List.zip_cons_cons, List.map_cons, List.zip_cons_cons, List.filter_cons, List.filter_cons]
    by_cases hx : c x = true
    · have h0 : x ≠ 0 := by rintro rfl; rw [hc] at hx; cases hx
      simp only [hx, if_true, List.map_cons, ih]
      congr 1
      unfold pinAt
      rw [if_neg h0]
    · simp only [hx]
      exact ih

theorem unflagged_pinV (v : Nat → List T) {a : Nat} (h : a ≠ 0) : unflagged np ids (fun q => pinV (ids q) (v q)) a = (unflagged np ids v a).map sing := by
  unfold unflagged
  rw [List.map_flatMap]
  exact List.flatMap_congr fun p _ => pick_pinV _ (decide_eq_false (by omega)) _ _

theorem members_pinV (v : Nat → List T) {a : Nat} (h : a ≠ 0) : members np ids (fun q => pinV (ids q) (v q)) a = (members np ids v a).map sing := by
  unfold members
  rw [List.map_flatMap]
  exact List.flatMap_congr fun p _ => pick_pinV _ (by simp; omega) _ _

theorem gsTerms_get {t : Bool} {v : Nat → List T} {q i : Nat} {x : Int} {y : T} (hx : (ids q)[i]? = some x) (hy : (v q)[i]? = some y) :
    (gsTerms t np ids v q)[i]? = some (if t then
      (if 0 < x then members np ids v x.natAbs else if x < 0 ∧ loneFlagged (ids q) i x.natAbs then pick (fun y => y.natAbs = x.natAbs) (ids q) (v q) else [y])
      else if x = 0 then [y] else unflagged np ids v x.natAbs) := by
  unfold gsTerms
  have hz := List.getElem?_zip_eq_some.2 (⟨hx, hy⟩ : (ids q)[i]? = some (x, y).1 ∧ (v q)[i]? = some (x, y).2)
  cases t with
  | true => simp [List.getElem?_map, List.getElem?_zipIdx, hz]
  | false => simp [List.getElem?_map, hz]

theorem gsTerms_length (t : Bool) (v : Nat → List T) (q : Nat) (hl : (v q).length = (ids q).length) : (gsTerms t np ids v q).length = (ids q).length := by
  unfold gsTerms
  split <;> simp [List.length_zip, hl]

theorem pick_mem {c : Int → Bool} {i : List Int} {v : List T} {x : T} (h : x ∈ pick c i v) : x ∈ v := by
  unfold pick at h
  obtain ⟨y, hy, rfl⟩ := List.mem_map.1 h
  exact (List.of_mem_zip (List.mem_filter.1 hy).1).2

theorem gsTerms_mem {P : T → Prop} (t : Bool) {v : Nat → List T} {q : Nat} (hq : q < np) (hv : ∀ q, q < np → ∀ x ∈ v q, P x) : ∀ l ∈ gsTerms t np ids v q, ∀ x ∈ l, P x := by
  have hm : ∀ a, ∀ x ∈ members np ids v a, P x := by
    intro a x hx
    obtain ⟨p, hp, hx⟩ := List.mem_flatMap.1 hx
    exact hv p (List.mem_range.1 hp) x (pick_mem hx)
  have hu : ∀ a, ∀ x ∈ unflagged np ids v a, P x := by
    intro a x hx
    obtain ⟨p, hp, hx⟩ := List.mem_flatMap.1 hx
    exact hv p (List.mem_range.1 hp) x (pick_mem hx)
  intro l hl
  unfold gsTerms at hl
  split at hl
  · obtain ⟨y, hy, rfl⟩ := List.mem_map.1 hl
    have hz := hv q hq _ (List.of_mem_zip (List.fst_mem_of_mem_zipIdx hy)).2
    split
    · exact hm _
    · split
      · intro x hx
        exact hv q hq x (pick_mem hx)
      · intro x hx
        rw [List.mem_singleton.1 hx]; exact hz
  · obtain ⟨y, hy, rfl⟩ := List.mem_map.1 hl
    have hz := hv q hq _ (List.of_mem_zip hy).2
    split
    · intro x hx
      rw [List.mem_singleton.1 hx]; exact hz
    · exact hu _

theorem pinV_length (i : List Int) (v : List T) (h : v.length = i.length) : (pinV i v).length = i.length := by
  unfold pinV; simp [h]

theorem pinV_get {i : List Int} {v : List T} {k : Nat} {x : Int} {y : T} (hx : i[k]? = some x) (hy : v[k]? = some y) : (pinV i v)[k]? = some (pinAt x y) := by
  unfold pinV
  rw [List.getElem?_map, List.getElem?_zip_eq_some.2 (⟨hx, hy⟩ : i[k]? = some (x, y).1 ∧ v[k]? = some (x, y).2)]
  rfl

theorem pinV_rel (f : T → T → T) (e : T) {i : List Int} {v : List T} (h : v.length = i.length) : LRel (Pin.Rel f e) (pinV i v) v := by
  induction i generalizing v with
  | nil =>
    have : v = [] := List.eq_nil_of_length_eq_zero (by simpa using h)
    subst this
    exact .nil
  | cons x i ih =>
    match v, h with
    | y :: v, h => exact .cons (pinAt_rel f e x y) (ih (by simpa using h))

theorem forall₂_of_get {A B : Type} {R : A → B → Prop} : ∀ {a : List A} {b : List B}, a.length = b.length → (∀ (i : Nat) x y, a[i]? = some x → b[i]? = some y → R x y) → List.Forall₂ R a b
  | [], [], _, _ => .nil
  | x :: a, y :: b, hl, h => .cons (h 0 x y rfl rfl) (forall₂_of_get (by simpa using hl) fun i x y hx hy => h (i + 1) x y (by simpa using hx) (by simpa using hy))

/-- the result for multisets describes the possible results -/
theorem gsCombines_of_rel {f : T → T → T} {e : T} (t : Bool) (v : Nat → List T) (hl : ∀ q, q < np → (v q).length = (ids q).length) {q : Nat} (hq : q < np) {out : List T}
    (h : LRel (Pin.Rel f e) (gsResult t Pin.op (.ms 0) np ids (fun q => pinV (ids q) (v q)) q) out) : GsCombines f e t np ids v q out := by
  have hlen : out.length = (ids q).length := by
    rw [← h.length_eq]
    unfold gsResult gsOut gsOutT
    split <;> simp [List.length_zip, pinV_length _ _ (hl q hq)]
  have key : ∀ (i : Nat) x y z, (ids q)[i]? = some x → (v q)[i]? = some y → out[i]? = some z →
      (∀ l, (gsTerms t np ids v q)[i]? = some l → Combines f e (l : Multiset T) z) ∧ (x = 0 → z = y) := by
    intro i x y z hx hy hz
    have hp : ((fun q => pinV (ids q) (v q)) q)[i]? = some (pinAt x y) := pinV_get hx hy
    have hpin : x = 0 → pinAt x y = .pin y := fun h => if_pos h
    rw [gsTerms_get hx hy]
    cases t with
    | false =>
      have hg : (gsResult false Pin.op (.ms 0) np ids (fun q => pinV (ids q) (v q)) q)[i]? = _ := gsOut_get hx hp
      obtain ⟨z', hz', r⟩ := h.get i _ hg
      rw [hz] at hz'
      obtain rfl := Option.some.inj hz'
      by_cases h0 : x = 0
      · rw [if_pos h0, hpin h0] at r
        have r : z = y := r
        refine ⟨fun l hl => ?_, fun _ => r⟩
        obtain rfl := Option.some.inj hl
        rw [if_neg (by simp), if_pos h0, r]
        exact .val y
      · rw [if_neg h0, unflagged_pinV v (by omega), reduce_sing] at r
        refine ⟨fun l hl => ?_, fun h => absurd h h0⟩
        obtain rfl := Option.some.inj hl
        rw [if_neg (by simp), if_neg h0]
        exact r
    | true =>
      have hg : (gsResult true Pin.op (.ms 0) np ids (fun q => pinV (ids q) (v q)) q)[i]? = _ := gsOutT_get hx hp
      obtain ⟨z', hz', r⟩ := h.get i _ hg
      rw [hz] at hz'
      obtain rfl := Option.some.inj hz'
      refine ⟨fun l hl => ?_, fun h0 => ?_⟩
      · obtain rfl := Option.some.inj hl
        rw [if_pos rfl]
        by_cases h1 : 0 < x
        · rw [if_pos h1, members_pinV v (by omega), reduce_sing] at r
          rw [if_pos h1]
          exact r
        · rw [if_neg h1] at r ⊢
          by_cases h2 : x < 0 ∧ loneFlagged (ids q) i x.natAbs
          · rw [if_pos h2, pick_pinV _ (by simp; omega), reduce_sing] at r
            rw [if_pos h2]
            exact r
          · rw [if_neg h2] at r ⊢
            by_cases h0 : x = 0
            · rw [hpin h0] at r
              have r : z = y := r
              rw [r]
              exact .val y
            · have : pinAt x y = sing y := if_neg h0
              rw [this] at r
              exact r
      · rw [if_neg (by omega), if_neg (by omega), hpin h0] at r
        exact r
  have hget : ∀ i : Nat, i < (ids q).length → ∃ x y z, (ids q)[i]? = some x ∧ (v q)[i]? = some y ∧ out[i]? = some z := fun i hi =>
    ⟨_, _, _, List.getElem?_eq_getElem hi, List.getElem?_eq_getElem (by rw [hl q hq]; exact hi), List.getElem?_eq_getElem (by rw [hlen]; exact hi)⟩
  refine ⟨forall₂_of_get (by rw [gsTerms_length t v q (hl q hq), hlen]) ?_, ?_⟩
  · intro i l z hli hz
    have hi : i < (ids q).length := by
      have := (List.getElem?_eq_some_iff.1 hz).1
      omega
    obtain ⟨x, y, z', hx, hy, hz'⟩ := hget i hi
    exact (key i x y z hx hy hz).1 l hli
  · intro i hi
    obtain ⟨x, y, z, hx, hy, hz⟩ := hget i (List.getElem?_eq_some_iff.1 hi).1
    rw [hi] at hx
    obtain rfl := Option.some.inj hx
    rw [hz, hy, (key i 0 y z hi hy hz).2 rfl]

/-- the memory with singletons and the user data `u` -/
def singSt {U U' : Type} (u : U') (s : GsSt U T) : GsSt U' (Pin T) := ⟨u, s.buf.map sing, fun i => sing (s.fill i), s.arr.map sing⟩

theorem singSt_rel {U U' : Type} (D : Dom T) (op : Op) {RU : U' → U → Prop} {u : U'} (s : GsSt U T) (h : RU u s.u) : StRel RU (Pin.Rel (D.doOp op) (D.identity op)) (singSt u s) s :=
  ⟨h, sing_rel _ _ _, fun i => Combines.val _, sing_rel _ _ _⟩

/-! ### vectors and many arrays: the lockstep execution -/

theorem gsVec_lock (D : Dom T) (op : Op) {okT : T → Prop} (hD : CommMonoidOn okT (D.doOp op) (D.identity op)) {h : Nat → GsData} (hh : Handles np ids h) (t : Bool) {vn : Nat}
    (x : Nat → List T) (hl : ∀ q, q < np → (x q).length = (ids q).length * vn) (hx : ∀ q, q < np → ∀ k, k < vn → ∀ (i : Nat) y, (ids q)[i]? ≠ some 0 → (column vn k (x q))[i]? = some y → okT y)
    (s2 : Nat → GsSt (List T) T) (hs2 : ∀ q, q < np → (s2 q).u = x q) :
    ∃ (T' : Nat) (s' : Nat → GsSt (List T) T), Matched (gsOp (vecKernels D op vn) D op np t h) np T' ∧ lockRun (gsOp (vecKernels D op vn) D op np t h) np T' s2 = .ok s' ∧
      ∀ q, q < np → (s' q).u.length = (x q).length ∧
            ∀ k, k < vn → column vn k (s' q).u = gsResult t (D.doOp op) (D.identity op) np ids (fun p => column vn k (x p)) q := by
  have hex : ∀ q, ∃ Z : List (List T), q < np → Units vn Z ∧ Z.length = (ids q).length ∧ Z.flatten = x q := by
    intro q
    by_cases hq : q < np
    · obtain ⟨Z, h⟩ := exists_units (ids q).length (x q) (hl q hq)
      exact ⟨Z, fun _ => h⟩
    · exact ⟨[], fun h => absurd h hq⟩
  choose Z hZ using hex
  have hget : ∀ q, q < np → ∀ (i k : Nat) z, k < vn → (Z q)[i]? = some z → (column vn k (x q))[i]? = some (z.getD k (D.identity op)) := by
    intro q hq i k z hk hz
    rw [← (hZ q hq).2.2, column_flatten (D.identity op) hk (hZ q hq).1]
    unfold compK
    rw [List.getElem?_map, hz]; rfl
  obtain ⟨T', s', hm, hr, hu'⟩ := gsOp_lock' (vecRep D op vn) (gatherArray_monoid D op hD vn) (fun _ h => h.1) hh t Z (fun q hq => (hZ q hq).2.1) (fun q hq y hy => (hZ q hq).1 y hy) (by
    intro q hq i y hi hy
    have hlen := (hZ q hq).1 y (List.mem_of_getElem? hy)
    refine ⟨hlen, fun a ha => ?_⟩
    obtain ⟨k, hk, hka⟩ := List.getElem_of_mem ha
    refine hx q hq k (by omega) i a hi ?_
    rw [hget q hq i k y (by omega) hy, List.getD_eq_getElem _ _ hk, hka]) s2 (fun q hq => by
    rw [hs2 q hq]; exact (hZ q hq).2.2.symm)
  refine ⟨T', s', hm, hr, ?_⟩
  intro q hq
  have hu := gsResult_units (ids := ids) t D op (fun q hq => (hZ q hq).1) hq
  rw [hu' q hq]
  show (List.flatten _).length = _ ∧ ∀ k, k < vn → column vn k (List.flatten _) = _
  constructor
  · rw [flatten_units_length hu, ← (hZ q hq).2.2, flatten_units_length (hZ q hq).1]
    congr 1
    unfold gsResult gsOut gsOutT
    split <;> simp [List.length_zip, (hZ q hq).2.1]
  · intro k hk
    rw [column_flatten (D.identity op) hk hu, gsResult_comp t D op hk (fun q hq => (hZ q hq).1) hq]
    apply gsResult_congr _ hq
    intro p hp
    rw [← (hZ p hp).2.2, column_flatten (D.identity op) hk (hZ p hp).1]

theorem gsMany_lock (D : Dom T) (op : Op) {okT : T → Prop} (hD : CommMonoidOn okT (D.doOp op) (D.identity op)) {h : Nat → GsData} (hh : Handles np ids h) (t : Bool) {vn : Nat}
    (x : Nat → Nat → List T) (hl : ∀ q, q < np → ∀ k, k < vn → (x q k).length = (ids q).length) (hx : ∀ q, q < np → ∀ k, k < vn → ∀ (i : Nat) y, (ids q)[i]? ≠ some 0 → (x q k)[i]? = some y → okT y)
    (s2 : Nat → GsSt (List (List T)) T) (hs2 : ∀ q, q < np → (s2 q).u = (List.range vn).map (x q)) :
    ∃ (T' : Nat) (s' : Nat → GsSt (List (List T)) T), Matched (gsOp (manyKernels D op vn) D op np t h) np T' ∧ lockRun (gsOp (manyKernels D op vn) D op np t h) np T' s2 = .ok s' ∧
      ∀ q, q < np → (s' q).u = (List.range vn).map fun k => gsResult t (D.doOp op) (D.identity op) np ids (fun p => x p k) q := by
  have hex : ∀ q, ∃ Z : List (List T), q < np → Units vn Z ∧ Z.length = (ids q).length ∧ ((List.range vn).map fun k => compK (D.identity op) k Z) = (List.range vn).map (x q) := by
    intro q
    by_cases hq : q < np
    · obtain ⟨Z, h⟩ := exists_units_many (vn := vn) (n := (ids q).length) (D.identity op) ((List.range vn).map (x q)) (by simp) (by
        intro a ha
        obtain ⟨k, hk, rfl⟩ := List.mem_map.1 ha
        exact hl q hq k (List.mem_range.1 hk))
      exact ⟨Z, fun _ => h⟩
    · exact ⟨[], fun h => absurd h hq⟩
  choose Z hZ using hex
  have hcomp : ∀ q, q < np → ∀ k, k < vn → compK (D.identity op) k (Z q) = x q k := by
    intro q hq k hk
    exact List.map_inj_left.1 (hZ q hq).2.2 k (List.mem_range.2 hk)
  obtain ⟨T', s', hm, hr, hu'⟩ := gsOp_lock' (manyRep D op vn) (gatherArray_monoid D op hD vn) (fun _ h => h.1) hh t Z (fun q hq => (hZ q hq).2.1) (fun q hq y hy => (hZ q hq).1 y hy) (by
    intro q hq i y hi hy
    have hlen := (hZ q hq).1 y (List.mem_of_getElem? hy)
    refine ⟨hlen, fun a ha => ?_⟩
    obtain ⟨k, hk, hka⟩ := List.getElem_of_mem ha
    refine hx q hq k (by omega) i a hi ?_
    rw [← hcomp q hq k (by omega)]
    unfold compK
    rw [List.getElem?_map, hy, Option.map_some, List.getD_eq_getElem _ _ hk, hka]) s2 (fun q hq => by
    rw [hs2 q hq]; exact (hZ q hq).2.2.symm)
  refine ⟨T', s', hm, hr, ?_⟩
  intro q hq
  rw [hu' q hq]
  show List.map _ _ = _
  apply List.map_congr_left
  intro k hk
  have hk := List.mem_range.1 hk
  rw [gsResult_comp t D op hk (fun q hq => (hZ q hq).1) hq]
  exact gsResult_congr (fun p hp => hcomp p hp k hk) hq

/-! ### with an arbitrary operation -/

theorem pinV_okAt {i : List Int} {v : List T} {k : Nat} {y : Pin T} (hi : i[k]? ≠ some 0) (hy : (pinV i v)[k]? = some y) : Pin.ok y := by
  unfold pinV at hy
  rw [List.getElem?_map] at hy
  obtain ⟨z, hz, rfl⟩ := Option.map_eq_some_iff.1 hy
  apply pinAt_ok
  rintro h0
  apply hi
  rw [(List.getElem?_zip_eq_some.1 hz).1, h0]

theorem gsAny_lock (D : Dom T) (op : Op) {h : Nat → GsData} (hh : Handles np ids h) (t : Bool)
    (v : Nat → List T) (hlen : ∀ q, q < np → (v q).length = (ids q).length) (s : Nat → GsSt (List T) T) (hs : ∀ q, q < np → (s q).u = v q) :
    ∃ (T' : Nat) (s' : Nat → GsSt (List T) T), Matched (gsOp (plainKernels D op) D op np t h) np T' ∧ lockRun (gsOp (plainKernels D op) D op np t h) np T' s = .ok s' ∧
      ∀ q, q < np → GsCombines (D.doOp op) (D.identity op) t np ids v q (s' q).u := by
  obtain ⟨T', s', hm, hr, hu⟩ := gsOp_lock' (plainRep (msDom T) op) (msMonoid (T := T)) (fun _ _ => trivial) hh t (fun q => pinV (ids q) (v q)) (fun q hq => pinV_length _ _ (hlen q hq))
    (fun _ _ _ _ => trivial) (fun q _ i x hi hx => pinV_okAt hi hx) (fun q => singSt (pinV (ids q) (v q)) (s q)) (fun _ _ => rfl)
  have hrel := gsOp_rel (msDom_rel D op) (plain_rel (msDom_rel D op)) np t h
  obtain ⟨s'', hr', hu'⟩ := lockRun_rel (fun p _ => hrel p) (d' := s) (fun p hp => singSt_rel D op _ (by rw [hs p hp]; exact pinV_rel _ _ (hlen p hp))) T' hr
  refine ⟨T', s'', matched_rel (fun p _ => hrel p) hm, hr', fun q hq => ?_⟩
  have := (hu' q hq).u
  rw [hu q hq] at this
  exact gsCombines_of_rel t v hlen hq this

/-- an array of vectors with the ids of the vectors -/
def pinX (ids : List Int) (vn : Nat) (x : List T) : List (Pin T) := x.zipIdx.map fun y => pinAt (ids.getD (y.2 / vn) 0) y.1

theorem pinX_get (i : List Int) (vn : Nat) (x : List T) (k : Nat) : (pinX i vn x)[k]? = x[k]?.map (pinAt (i.getD (k / vn) 0)) := by
  unfold pinX
  rw [List.getElem?_map, List.getElem?_zipIdx]
  cases x[k]? with
  | none => rfl
  | some y => simp

theorem pinX_length (i : List Int) (vn : Nat) (x : List T) : (pinX i vn x).length = x.length := by unfold pinX; simp

theorem column_get {A : Type} {vn k i : Nat} (hk : k < vn) {x : List A} {n : Nat} (hl : x.length = n * vn) (hi : i < n) : (column vn k x)[i]? = x[i * vn + k]? := by
  unfold column
  rw [hl, Nat.mul_div_cancel _ (by omega)]
  have hlt : ∀ j, j < n → j * vn + k < x.length := by
    intro j hj
    have h1 : (j + 1) * vn ≤ n * vn := Nat.mul_le_mul_right _ hj
    rw [Nat.add_mul] at h1
    omega
  have h2 : ∀ j ∈ List.range n, x[j * vn + k]? = some (x.getD (j * vn + k) (x[i * vn + k]'(hlt i hi))) := by
    intro j hj
    have := hlt j (List.mem_range.1 hj)
    rw [List.getElem?_eq_getElem this, List.getD_eq_getElem _ _ this]
  rw [List.filterMap_congr h2, List.filterMap_eq_map', List.getElem?_map, List.getElem?_range hi, List.getElem?_eq_getElem (hlt i hi), Option.map_some, List.getD_eq_getElem _ _ (hlt i hi)]

theorem column_length {A : Type} {vn k : Nat} (hk : k < vn) {x : List A} {n : Nat} (hl : x.length = n * vn) : (column vn k x).length = n := by
  unfold column
  rw [hl, Nat.mul_div_cancel _ (by omega)]
  have hlt : ∀ j, j < n → j * vn + k < x.length := by
    intro j hj
    have h1 : (j + 1) * vn ≤ n * vn := Nat.mul_le_mul_right _ hj
    rw [Nat.add_mul] at h1
    omega
  cases x with
  | nil =>
    have : n = 0 := by
      by_contra h0
      have := hlt 0 (by omega)
      simp at this
    subst this
    rfl
  | cons z x =>
    have h2 : ∀ j ∈ List.range n, (z :: x)[j * vn + k]? = some ((z :: x).getD (j * vn + k) z) := by
      intro j hj
      have := hlt j (List.mem_range.1 hj)
      rw [List.getElem?_eq_getElem this, List.getD_eq_getElem _ _ this]
    rw [List.filterMap_congr h2, List.filterMap_eq_map', List.length_map, List.length_range]

theorem column_pinX {vn k : Nat} (hk : k < vn) {i : List Int} {x : List T} (hl : x.length = i.length * vn) : column vn k (pinX i vn x) = pinV i (column vn k x) := by
  apply List.ext_getElem?
  intro j
  by_cases hj : j < i.length
  · have hlt : j * vn + k < x.length := by
      have h1 : (j + 1) * vn ≤ i.length * vn := Nat.mul_le_mul_right _ hj
      rw [Nat.add_mul] at h1
      omega
    rw [column_get hk (n := i.length) (by rw [pinX_length, hl]) hj, pinX_get, Nat.mul_comm j vn, Nat.mul_add_div (by omega), Nat.div_eq_of_lt hk, Nat.add_zero, List.getD_eq_getElem _ _ hj]
    have := column_get hk hl hj
    rw [Nat.mul_comm j vn] at this
    rw [← this, List.getElem?_eq_getElem (by rw [column_length hk hl]; exact hj)]
    exact (pinV_get (List.getElem?_eq_getElem hj) (List.getElem?_eq_getElem (by rw [column_length hk hl]; exact hj))).symm
  · rw [List.getElem?_eq_none (by rw [column_length hk (n := i.length) (by rw [pinX_length, hl])]; omega), List.getElem?_eq_none (by rw [pinV_length _ _ (column_length hk hl)]; omega)]

theorem pinX_rel (f : T → T → T) (e : T) (i : List Int) (vn : Nat) (x : List T) : LRel (Pin.Rel f e) (pinX i vn x) x := by
  refine forall₂_of_get (pinX_length i vn x) fun k a b ha hb => ?_
  rw [pinX_get, hb] at ha
  obtain rfl := Option.some.inj ha
  exact pinAt_rel f e _ _

theorem column_rel {A B : Type} {R : A → B → Prop} {a : List A} {b : List B} (h : LRel R a b) {vn k n : Nat} (hk : k < vn) (hl : b.length = n * vn) : LRel R (column vn k a) (column vn k b) := by
  have hl' : a.length = n * vn := by rw [h.length_eq, hl]
  refine forall₂_of_get (by rw [column_length hk hl, column_length hk hl']) fun i x y hx hy => ?_
  have hi : i < n := by
    have := (List.getElem?_eq_some_iff.1 hx).1
    rwa [column_length hk hl'] at this
  rw [column_get hk hl' hi] at hx
  rw [column_get hk hl hi] at hy
  obtain ⟨y', hy', r⟩ := h.get _ _ hx
  rw [hy] at hy'
  obtain rfl := Option.some.inj hy'
  exact r

theorem gsAnyVec_lock (D : Dom T) (op : Op) {h : Nat → GsData} (hh : Handles np ids h) (t : Bool) {vn : Nat}
    (x : Nat → List T) (hl : ∀ q, q < np → (x q).length = (ids q).length * vn) (s : Nat → GsSt (List T) T) (hs : ∀ q, q < np → (s q).u = x q) :
    ∃ (T' : Nat) (s' : Nat → GsSt (List T) T), Matched (gsOp (vecKernels D op vn) D op np t h) np T' ∧ lockRun (gsOp (vecKernels D op vn) D op np t h) np T' s = .ok s' ∧
      ∀ q, q < np → (s' q).u.length = (x q).length ∧
        ∀ k, k < vn → GsCombines (D.doOp op) (D.identity op) t np ids (fun p => column vn k (x p)) q (column vn k (s' q).u) := by
  obtain ⟨T', s', hm, hr, hu⟩ := gsVec_lock (msDom T) op (msMonoid (T := T)) hh t (vn := vn) (fun q => pinX (ids q) vn (x q)) (fun q hq => by rw [pinX_length, hl q hq])
    (fun q hq k hk i y hi hy => pinV_okAt hi (by rw [← column_pinX hk (hl q hq)]; exact hy)) (fun q => singSt (pinX (ids q) vn (x q)) (s q)) (fun _ _ => rfl)
  have hrel := gsOp_rel (msDom_rel D op) (vec_rel (msDom_rel D op) vn) np t h
  obtain ⟨s'', hr', hu'⟩ := lockRun_rel (fun p _ => hrel p) (d' := s) (fun p hp => singSt_rel D op _ (by rw [hs p hp]; exact pinX_rel _ _ _ _ _)) T' hr
  refine ⟨T', s'', matched_rel (fun p _ => hrel p) hm, hr', fun q hq => ?_⟩
  have hq' := (hu' q hq).u
  have hlen : (s'' q).u.length = (x q).length := by rw [← hq'.length_eq, (hu q hq).1, pinX_length]
  refine ⟨hlen, fun k hk => ?_⟩
  have := column_rel hq' hk (n := (ids q).length) (by rw [hlen, hl q hq])
  rw [(hu q hq).2 k hk] at this
  refine gsCombines_of_rel t _ (fun q hq => column_length hk (hl q hq)) hq ?_
  rw [gsResult_congr (v' := fun p => column vn k (pinX (ids p) vn (x p))) (fun p hp => (column_pinX hk (hl p hp)).symm) hq]
  exact this

theorem gsAnyMany_lock (D : Dom T) (op : Op) {h : Nat → GsData} (hh : Handles np ids h) (t : Bool) {vn : Nat}
    (x : Nat → Nat → List T) (hl : ∀ q, q < np → ∀ k, k < vn → (x q k).length = (ids q).length)
    (s : Nat → GsSt (List (List T)) T) (hs : ∀ q, q < np → (s q).u = (List.range vn).map (x q)) :
    ∃ (T' : Nat) (s' : Nat → GsSt (List (List T)) T), Matched (gsOp (manyKernels D op vn) D op np t h) np T' ∧ lockRun (gsOp (manyKernels D op vn) D op np t h) np T' s = .ok s' ∧
      ∀ q, q < np → List.Forall₂ (fun k u => GsCombines (D.doOp op) (D.identity op) t np ids (fun p => x p k) q u) (List.range vn) (s' q).u := by
  obtain ⟨T', s', hm, hr, hu⟩ := gsMany_lock (msDom T) op (msMonoid (T := T)) hh t (vn := vn) (fun q k => pinV (ids q) (x q k)) (fun q hq k hk => pinV_length _ _ (hl q hq k hk))
    (fun q _ k _ i y hi hy => pinV_okAt hi hy) (fun q => singSt ((List.range vn).map fun k => pinV (ids q) (x q k)) (s q)) (fun _ _ => rfl)
  have hrel := gsOp_rel (msDom_rel D op) (many_rel (msDom_rel D op) vn) np t h
  obtain ⟨s'', hr', hu'⟩ := lockRun_rel (fun p _ => hrel p) (d' := s) (fun p hp => singSt_rel D op _ (by
    rw [hs p hp]
    refine List.forall₂_map_left_iff.2 (List.forall₂_map_right_iff.2 (List.forall₂_same.2 ?_))
    intro k hk
    exact pinV_rel _ _ (hl p hp k (List.mem_range.1 hk)))) T' hr
  refine ⟨T', s'', matched_rel (fun p _ => hrel p) hm, hr', fun q hq => ?_⟩
  have hq' := (hu' q hq).u
  rw [hu q hq] at hq'
  have hq' := List.forall₂_map_left_iff.1 hq'
  have hlen := hq'.length_eq
  refine forall₂_of_get hlen fun i k y hk hy => ?_
  obtain ⟨y', hy', r⟩ := LRel.get hq' i k hk
  rw [hy] at hy'
  obtain rfl := Option.some.inj hy'
  have hk' : k < vn := List.mem_range.1 (List.mem_of_getElem? hk)
  exact gsCombines_of_rel t _ (fun q hq => hl q hq k hk') hq r

end Gslib.Gs

namespace Gslib.Spec

variable {T : Type}

/-- with a commutative monoid there is only one result -/
theorem Combines.eq_reduce {ok : T → Prop} {f : T → T → T} {e : T} (M : CommMonoidOn ok f e) {m : Multiset T} {y : T} (h : Combines f e m y) :
    ∀ l : List T, (l : Multiset T) = m → (∀ x ∈ l, ok x) → ok y ∧ y = reduce f e l := by
  have foldOk : ∀ (l : List T) (a : T), ok a → (∀ x ∈ l, ok x) → ok (l.foldl f a) := by
    intro l
    induction l with
    | nil => intro a ha _; exact ha
    | cons x l ih => intro a ha hl; exact ih _ (M.closed _ _ ha (hl x (by simp))) fun z hz => hl z (by simp [hz])
  have foldF : ∀ (l : List T) (a : T), ok a → (∀ x ∈ l, ok x) → l.foldl f a = f a (l.foldl f e) := by
    intro l
    induction l with
    | nil => intro a ha _; exact (M.idRight a ha).symm
    | cons x l ih =>
      intro a ha hl
      have hx := hl x (by simp)
      have hl' : ∀ z ∈ l, ok z := fun z hz => hl z (by simp [hz])
      rw [List.foldl_cons, List.foldl_cons, ih _ (M.closed _ _ ha hx) hl', ih _ (M.closed _ _ M.okId hx) hl', M.idLeft x hx,
        M.assoc a x _ ha hx (foldOk l e M.okId hl')]
  have perm : ∀ l l' : List T, l.Perm l' → (∀ x ∈ l, ok x) → ∀ a, ok a → l.foldl f a = l'.foldl f a := by
    intro l l' hp
    induction hp with
    | nil => intro _ a _; rfl
    | cons x _ ih => intro hl a ha; exact ih (fun z hz => hl z (by simp [hz])) _ (M.closed _ _ ha (hl x (by simp)))
    | swap x y l =>
      intro hl a ha
      have hx := hl x (by simp)
      have hy := hl y (by simp)
      simp only [List.foldl_cons]
      rw [M.assoc a y x ha hy hx, M.comm y x hy hx, ← M.assoc a x y ha hx hy]
    | trans h1 _ ih1 ih2 => intro hl a ha; rw [ih1 hl a ha, ih2 (fun z hz => hl z (h1.mem_iff.2 hz)) a ha]
  induction h with
  | val x =>
    intro l hl hok
    have : l = [x] := by
      have := Multiset.coe_eq_coe.1 (show (l : Multiset T) = ([x] : List T) from hl)
      exact List.perm_singleton.1 this
    subst this
    exact ⟨hok x (by simp), (M.idLeft x (hok x (by simp))).symm⟩
  | none =>
    intro l hl _
    have : l = [] := Multiset.coe_eq_zero _ |>.1 hl
    subst this
    exact ⟨M.okId, rfl⟩
  | @op m n x y _ _ ih1 ih2 =>
    intro l hl hok
    induction m using Quotient.inductionOn with | _ a =>
    induction n using Quotient.inductionOn with | _ b =>
    have hp : l.Perm (a ++ b) := Multiset.coe_eq_coe.1 hl
    have ha : ∀ x ∈ a, ok x := fun z hz => hok z (hp.mem_iff.2 (by simp [hz]))
    have hb : ∀ x ∈ b, ok x := fun z hz => hok z (hp.mem_iff.2 (by simp [hz]))
    obtain ⟨h1, e1⟩ := ih1 a rfl ha
    obtain ⟨h2, e2⟩ := ih2 b rfl hb
    refine ⟨M.closed _ _ h1 h2, ?_⟩
    show _ = l.foldl f e
    rw [perm l _ hp hok e M.okId, List.foldl_append, foldF b _ (foldOk a e M.okId ha) hb, e1, e2]
    rfl

/-- the values that can be the result of combining the values `m` with rounding -/
theorem Combines.error {rnd : ℝ → ℝ} {u : ℝ} (hu : 0 ≤ u) (hr : ∀ z, |rnd z - z| ≤ u * |z|) {m : Multiset ℝ} {y : ℝ}
    (hi : ∀ z, rnd (rnd z) = rnd z) (h : Combines (fun a b => rnd (a + b)) 0 m y) (hm : ∀ x ∈ m, rnd x = x) :
    rnd y = y ∧ |y - m.sum| ≤ ((1 + u) ^ (m.card - 1) - 1) * (m.map (|·|)).sum ∧ (m = 0 → y = 0) := by
  have h0 : rnd 0 = 0 := by have := hr 0; simpa using this
  have habs : ∀ m : Multiset ℝ, |m.sum| ≤ (m.map (|·|)).sum := fun m => by
    induction m using Multiset.induction_on with
    | empty => simp
    | cons a m ih => simp only [Multiset.sum_cons, Multiset.map_cons]; exact (abs_add_le _ _).trans (by linarith)
  have hnn : ∀ m : Multiset ℝ, 0 ≤ (m.map (|·|)).sum := fun m => (abs_nonneg _).trans (habs m)
  induction h with
  | val x => exact ⟨hm x (by simp), by simp, fun h => absurd h (Multiset.singleton_ne_zero x)⟩
  | none => exact ⟨h0, by simp, fun _ => rfl⟩
  | @op m n x y _ _ ih1 ih2 =>
    obtain ⟨r1, e1, z1⟩ := ih1 fun x hx => hm x (by simp [hx])
    obtain ⟨r2, e2, z2⟩ := ih2 fun x hx => hm x (by simp [hx])
    refine ⟨hi _, ?_, fun h => ?_⟩
    · by_cases hm0 : m = 0
      · subst hm0
        rw [z1 rfl, zero_add, r2, zero_add]
        exact e2
      by_cases hn0 : n = 0
      · subst hn0
        rw [z2 rfl, add_zero, r1, add_zero]
        exact e1
      have c1 : 1 ≤ m.card := Multiset.card_pos.2 hm0
      have c2 : 1 ≤ n.card := Multiset.card_pos.2 hn0
      rw [Multiset.sum_add, Multiset.map_add, Multiset.sum_add, Multiset.card_add]
      set A := (m.map (|·|)).sum
      set B := (n.map (|·|)).sum
      have hA := hnn m
      have hB := hnn n
      have g1 : (1 + u) ^ (m.card - 1) ≤ (1 + u) ^ (m.card + n.card - 2) := pow_le_pow_right₀ (by linarith) (by omega)
      have g2 : (1 + u) ^ (n.card - 1) ≤ (1 + u) ^ (m.card + n.card - 2) := pow_le_pow_right₀ (by linarith) (by omega)
      have g3 : (1 + u) ^ (m.card + n.card - 1) = (1 + u) ^ (m.card + n.card - 2) * (1 + u) := by
        rw [← pow_succ]; congr 1; omega
      rw [g3]
      generalize (1 + u) ^ (m.card + n.card - 2) = G at g1 g2
      have k1 : |x - m.sum| ≤ (G - 1) * A := e1.trans (mul_le_mul_of_nonneg_right (by linarith) hA)
      have k2 : |y - n.sum| ≤ (G - 1) * B := e2.trans (mul_le_mul_of_nonneg_right (by linarith) hB)
      have k3 := hr (x + y)
      have k4 := habs m
      have k5 := habs n
      have k6 : |x + y| ≤ G * (A + B) := by
        have : x + y = (x - m.sum) + (y - n.sum) + (m.sum + n.sum) := by ring
        rw [this]
        have a1 := abs_add_le ((x - m.sum) + (y - n.sum)) (m.sum + n.sum)
        have a2 := abs_add_le (x - m.sum) (y - n.sum)
        have a3 := abs_add_le m.sum n.sum
        nlinarith
      have k7 : u * |x + y| ≤ u * (G * (A + B)) := mul_le_mul_of_nonneg_left k6 hu
      have : rnd (x + y) - (m.sum + n.sum) = (rnd (x + y) - (x + y)) + ((x - m.sum) + (y - n.sum)) := by ring
      rw [this]
      have a1 := abs_add_le (rnd (x + y) - (x + y)) ((x - m.sum) + (y - n.sum))
      have a2 := abs_add_le (x - m.sum) (y - n.sum)
      nlinarith
    · have hc := congrArg Multiset.card h
      rw [Multiset.card_add, Multiset.card_zero] at hc
      rw [z1 (Multiset.card_eq_zero.1 (by omega)), z2 (Multiset.card_eq_zero.1 (by omega)), add_zero, h0]

/-- products with rounding -/
theorem Combines.error_mul {rnd : ℝ → ℝ} {u : ℝ} (hu : 0 ≤ u) (hr : ∀ z, |rnd z - z| ≤ u * |z|) {m : Multiset ℝ} {y : ℝ}
    (hi : ∀ z, rnd (rnd z) = rnd z) (h1 : rnd 1 = 1) (h : Combines (fun a b => rnd (a * b)) 1 m y) (hm : ∀ x ∈ m, rnd x = x) :
    rnd y = y ∧ |y - m.prod| ≤ ((1 + u) ^ (m.card - 1) - 1) * |m.prod| ∧ (m = 0 → y = 1) := by
  induction h with
  | val x => exact ⟨hm x (by simp), by simp, fun h => absurd h (Multiset.singleton_ne_zero x)⟩
  | none => exact ⟨h1, by simp, fun _ => rfl⟩
  | @op m n x y _ _ ih1 ih2 =>
    obtain ⟨r1, e1, z1⟩ := ih1 fun x hx => hm x (by simp [hx])
    obtain ⟨r2, e2, z2⟩ := ih2 fun x hx => hm x (by simp [hx])
    refine ⟨hi _, ?_, fun h => ?_⟩
    · by_cases hm0 : m = 0
      · subst hm0
        rw [z1 rfl, one_mul, r2, zero_add]
        exact e2
      by_cases hn0 : n = 0
      · subst hn0
        rw [z2 rfl, mul_one, r1, add_zero]
        exact e1
      have c1 : 1 ≤ m.card := Multiset.card_pos.2 hm0
      have c2 : 1 ≤ n.card := Multiset.card_pos.2 hn0
      rw [Multiset.prod_add, Multiset.card_add]
      have g3 : (1 + u) ^ (m.card + n.card - 1) = (1 + u) ^ (m.card - 1) * (1 + u) ^ (n.card - 1) * (1 + u) := by
        rw [← pow_add, ← pow_succ]; congr 1; omega
      rw [g3]
      have g1 : 1 ≤ (1 + u) ^ (m.card - 1) := one_le_pow₀ (by linarith)
      have g2 : 1 ≤ (1 + u) ^ (n.card - 1) := one_le_pow₀ (by linarith)
      generalize (1 + u) ^ (m.card - 1) = G at e1 g1
      generalize (1 + u) ^ (n.card - 1) = H at e2 g2
      generalize m.prod = P at e1
      generalize n.prod = Q at e2
      have hP := abs_nonneg P
      have hQ := abs_nonneg Q
      have hx : |x| ≤ G * |P| := by
        have := abs_add_le (x - P) P
        rw [sub_add_cancel] at this
        nlinarith
      have hy : |y| ≤ H * |Q| := by
        have := abs_add_le (y - Q) Q
        rw [sub_add_cancel] at this
        nlinarith
      have k1 : |x * y - P * Q| ≤ (G * H - 1) * (|P| * |Q|) := by
        have : x * y - P * Q = (x - P) * y + P * (y - Q) := by ring
        rw [this]
        have a1 := abs_add_le ((x - P) * y) (P * (y - Q))
        rw [abs_mul, abs_mul] at a1
        have b1 : |x - P| * |y| ≤ ((G - 1) * |P|) * (H * |Q|) := mul_le_mul e1 hy (abs_nonneg _) (mul_nonneg (by linarith) hP)
        have b2 : |P| * |y - Q| ≤ |P| * ((H - 1) * |Q|) := mul_le_mul_of_nonneg_left e2 hP
        nlinarith
      have k2 : |x * y| ≤ G * H * (|P| * |Q|) := by
        rw [abs_mul]
        have := mul_le_mul hx hy (abs_nonneg _) (mul_nonneg (by linarith) hP)
        nlinarith
      have k3 := hr (x * y)
      have k4 : u * |x * y| ≤ u * (G * H * (|P| * |Q|)) := mul_le_mul_of_nonneg_left k2 hu
      have : rnd (x * y) - P * Q = (rnd (x * y) - x * y) + (x * y - P * Q) := by ring
      rw [this, abs_mul P Q]
      have a1 := abs_add_le (rnd (x * y) - x * y) (x * y - P * Q)
      nlinarith
    · have hc := congrArg Multiset.card h
      rw [Multiset.card_add, Multiset.card_zero] at hc
      rw [z1 (Multiset.card_eq_zero.1 (by omega)), z2 (Multiset.card_eq_zero.1 (by omega)), mul_one, h1]

end Gslib.Spec
