import Verif.Lemmas.GsNb
import Verif.Props.Gs

/-! # Nonblocking gather-scatter: plain, vec and many -/

namespace Gslib.Gs
open Gslib Gslib.Mpi Gslib.Spec Gslib.Comm Gslib.Nb

variable {T U : Type} {np : Nat} {ids : Nat → List Int}

theorem opMatched_onUser {get : UserData T → Option U} {put : U → UserData T} {st : Nat → Step (GsSt U T) (List T)} (h : OpMatched np st) : OpMatched np fun p => onUser get put (st p) :=
  ⟨h.send, h.recv⟩

theorem opRun_onUser {get : UserData T → Option U} {put : U → UserData T} (hgp : ∀ u, get (put u) = some u) {st : Nat → Step (GsSt U T) (List T)} (hm : OpMatched np st)
    {x : Nat → UserData T} {b : Nat → NbBuf T} {u : Nat → U} (hx : ∀ p, p < np → get (x p) = some (u p)) {s' : Nat → GsSt U T}
    (h : OpRun np st (fun p => ⟨u p, (b p).buf, (b p).fill, (b p).arr⟩) s') :
    OpRun np (fun p => onUser get put (st p)) (fun p => (x p, b p)) fun p => (put (s' p).u, ⟨(s' p).buf, (s' p).fill, (s' p).arr⟩) := by
  obtain ⟨e, he⟩ := h
  refine ⟨fun p => (put (e p).u, ⟨(e p).buf, (e p).fill, (e p).arr⟩), fun p hp => ⟨?_, ?_⟩⟩
  · show (Outcome.ofOption (get (x p))).bind _ = _
    rw [hx p hp]
    show ((st p).pre ⟨u p, (b p).buf, (b p).fill, (b p).arr⟩).bind _ = _
    rw [(he p hp).1]; rfl
  · have hpl : ((st p).recvs.map fun y => (onUser get put (st y.1)).payload (put (e y.1).u, ⟨(e y.1).buf, (e y.1).fill, (e y.1).arr⟩) (p, y.2)) =
        (st p).recvs.map fun y => (st y.1).payload (e y.1) (p, y.2) := by
      apply List.map_congr_left
      intro y _
      show (match get (put (e y.1).u) with | none => [] | some u => _) = _
      rw [hgp]
    show (Outcome.ofOption (get (put (e p).u))).bind (fun u => ((st p).post _ ((st p).recvs.map fun y => (onUser get put (st y.1)).payload (put (e y.1).u, ⟨(e y.1).buf, (e y.1).fill, (e y.1).arr⟩) (p, y.2))).bind _) = _
    rw [hgp, hpl]
    show ((st p).post (e p) _).bind _ = _
    rw [(he p hp).2]; rfl

theorem interleave_comp {vn : Nat} (d : T) {Z : List (List T)} (hZ : Units vn Z) : interleave vn Z.length (fun k => compK d k Z) = Z.flatten := by
  unfold interleave
  rw [List.flatMap_def]
  congr 1
  apply List.ext_getElem
  · simp
  · intro i h1 h2
    have hi : i < Z.length := h2
    simp only [List.getElem_map, List.getElem_range]
    have hlen := hZ Z[i] (List.getElem_mem hi)
    have : ∀ k ∈ List.range vn, (compK d k Z)[i]? = some (Z[i].getD k d) := by
      intro k _
      unfold compK
      rw [List.getElem?_map, List.getElem?_eq_getElem hi]; rfl
    rw [List.filterMap_congr this, List.filterMap_eq_map']
    apply List.ext_getElem
    · simp [hlen]
    · intro k h3 h4
      simp [List.getD_eq_getElem?_getD, h4]

/-- igs and gs_wait on one array or several -/
theorem igs_effect (D : Dom T) (okT : T → Prop) (hD : ∀ op, CommMonoidOn okT (D.doOp op) (D.identity op)) (nbc : Bool) {h : Nat → Nat → GsData} {g : Nat}
    (hh : Handles np ids (h g)) (hu : ∀ q, q < np → Usable nbc np (h g q).r) (a : GsArgs) {v : Nat → UserData T} (hv : ∀ q, q < np → DataOk okT (ids q) a.mode (v q)) (hnp : 0 < np) :
    OpMatched np (igsEx D nbc np h a g) ∧
    ∀ b : Nat → NbBuf T, ∃ d', OpRun np (igsEx D nbc np h a g) (fun q => (v q, b q)) d' ∧ ∀ q, q < np → (d' q).1 = gsEffect D np ids a v q := by
  rcases a with ⟨mode, op, t⟩
  cases mode with
  | plain =>
    have hx : ∀ q, q < np → v q = .one (arrayOf (v q)) ∧ (arrayOf (v q)).length = (ids q).length ∧ ∀ y ∈ arrayOf (v q), okT y := by
      intro q hq
      have := hv q hq
      cases hvq : v q with
      | one x => rw [hvq] at this; exact ⟨rfl, this⟩
      | many xs => rw [hvq] at this; exact absurd this id
    obtain ⟨hm, hr⟩ := igs_run (plainRep D op) (hD op) (fun _ _ => trivial) (by show (1 : Nat) ≠ 0; omega) hh nbc hu t
    refine ⟨opMatched_onUser hm, ?_⟩
    intro b
    obtain ⟨s', h1, h2⟩ := hr (fun q => arrayOf (v q)) (fun q hq => (hx q hq).2.1) (fun q hq => (hx q hq).2.2) (fun q => ⟨arrayOf (v q), (b q).buf, (b q).fill, (b q).arr⟩) (fun _ _ => rfl)
    refine ⟨_, opRun_onUser (get := UserData.getOne) (put := .one) (x := v) (u := fun q => arrayOf (v q)) (fun _ => rfl) hm (fun p hp => congrArg UserData.getOne (hx p hp).1) h1, ?_⟩
    intro q hq
    show UserData.one (s' q).u = _
    rw [h2 q hq]; rfl
  | vec vn =>
    have hx : ∀ q, q < np → v q = .one (arrayOf (v q)) ∧ 1 ≤ vn ∧ (arrayOf (v q)).length = (ids q).length * vn ∧ ∀ y ∈ arrayOf (v q), okT y := by
      intro q hq
      have := hv q hq
      cases hvq : v q with
      | one x => rw [hvq] at this; exact ⟨rfl, this⟩
      | many xs => rw [hvq] at this; exact absurd this id
    have hvn : 1 ≤ vn := (hx 0 hnp).2.1
    have hex : ∀ q, ∃ Z : List (List T), q < np → Units vn Z ∧ Z.length = (ids q).length ∧ Z.flatten = arrayOf (v q) := by
      intro q
      by_cases hq : q < np
      · obtain ⟨Z, h⟩ := exists_units (ids q).length (arrayOf (v q)) (hx q hq).2.2.1
        exact ⟨Z, fun _ => h⟩
      · exact ⟨[], fun h => absurd h hq⟩
    choose Z hZ using hex
    obtain ⟨hm, hr⟩ := igs_run (vecRep D op vn) (gatherArray_monoid D op (hD op) vn) (fun _ h => h.1) (by show vn ≠ 0; omega) hh nbc hu t
    refine ⟨opMatched_onUser hm, ?_⟩
    intro b
    obtain ⟨s', h1, h2⟩ := hr Z (fun q hq => (hZ q hq).2.1) (by
      intro q hq y hy
      refine ⟨(hZ q hq).1 y hy, fun a ha => (hx q hq).2.2.2 a ?_⟩
      rw [← (hZ q hq).2.2]
      exact List.mem_flatten.2 ⟨y, hy, ha⟩) (fun q => ⟨arrayOf (v q), (b q).buf, (b q).fill, (b q).arr⟩) (fun q hq => (hZ q hq).2.2.symm)
    refine ⟨_, opRun_onUser (get := UserData.getOne) (put := .one) (x := v) (u := fun q => arrayOf (v q)) (fun _ => rfl) hm (fun p hp => congrArg UserData.getOne (hx p hp).1) h1, ?_⟩
    intro q hq
    have hun := gsResult_units (ids := ids) t D op (fun q hq => (hZ q hq).1) hq
    have hlen : (gsResult t (gatherArray D op) (initArray D op vn) np ids Z q).length = (ids q).length := by
      unfold gsResult gsOut gsOutT
      split <;> simp [List.length_zip, (hZ q hq).2.1]
    show UserData.one (s' q).u = .one (interleave vn (ids q).length fun k => gsResult t (D.doOp op) (D.identity op) np ids (fun p => column vn k (arrayOf (v p))) q)
    rw [h2 q hq]
    congr 1
    show List.flatten _ = _
    rw [← interleave_comp (D.identity op) hun, hlen]
    unfold interleave
    apply List.flatMap_congr
    intro i _
    apply List.filterMap_congr
    intro k hk
    have hk := List.mem_range.1 hk
    congr 1
    beta_reduce
    rw [gsResult_comp t D op hk (fun q hq => (hZ q hq).1) hq]
    apply gsResult_congr _ hq
    intro p hp
    rw [← (hZ p hp).2.2, column_flatten (D.identity op) hk (hZ p hp).1]
  | many vn =>
    have hx : ∀ q, q < np → ∃ xs, v q = .many xs ∧ 1 ≤ vn ∧ xs.length = vn ∧ ∀ x ∈ xs, x.length = (ids q).length ∧ ∀ y ∈ x, okT y := by
      intro q hq
      have := hv q hq
      cases hvq : v q with
      | one x => rw [hvq] at this; exact absurd this id
      | many xs => rw [hvq] at this; exact ⟨xs, rfl, this⟩
    have hvn : 1 ≤ vn := (hx 0 hnp).choose_spec.2.1
    have hex : ∀ q, ∃ (xs : List (List T)) (Z : List (List T)), q < np → v q = .many xs ∧ Units vn Z ∧ Z.length = (ids q).length ∧ ((List.range vn).map fun k => compK (D.identity op) k Z) = xs ∧ ∀ x ∈ xs, ∀ y ∈ x, okT y := by
      intro q
      by_cases hq : q < np
      · obtain ⟨xs, h1, -, h2, h3⟩ := hx q hq
        obtain ⟨Z, h4, h5, h6⟩ := exists_units_many (vn := vn) (n := (ids q).length) (D.identity op) xs h2 (fun a ha => (h3 a ha).1)
        exact ⟨xs, Z, fun _ => ⟨h1, h4, h5, h6, fun x hx => (h3 x hx).2⟩⟩
      · exact ⟨[], [], fun h => absurd h hq⟩
    choose xs Z hZ using hex
    obtain ⟨hm, hr⟩ := igs_run (manyRep D op vn) (gatherArray_monoid D op (hD op) vn) (fun _ h => h.1) (by show vn ≠ 0; omega) hh nbc hu t
    refine ⟨opMatched_onUser hm, ?_⟩
    intro b
    obtain ⟨s', h1, h2⟩ := hr Z (fun q hq => (hZ q hq).2.2.1) (by
      intro q hq y hy
      refine ⟨(hZ q hq).2.1 y hy, fun a ha => ?_⟩
      obtain ⟨k, hk, hka⟩ := List.getElem_of_mem ha
      have hk' : k < vn := by rw [← (hZ q hq).2.1 y hy]; exact hk
      refine (hZ q hq).2.2.2.2 (compK (D.identity op) k (Z q)) ?_ a ?_
      · rw [← (hZ q hq).2.2.2.1]
        exact List.mem_map.2 ⟨k, List.mem_range.2 hk', rfl⟩
      · unfold compK
        refine List.mem_map.2 ⟨y, hy, ?_⟩
        rw [List.getD_eq_getElem _ _ hk, hka]) (fun q => ⟨xs q, (b q).buf, (b q).fill, (b q).arr⟩) (fun q hq => (hZ q hq).2.2.2.1.symm)
    refine ⟨_, opRun_onUser (get := UserData.getMany) (put := .many) (x := v) (u := xs) (fun _ => rfl) hm (fun p hp => by rw [(hZ p hp).1]; rfl) h1, ?_⟩
    intro q hq
    show UserData.many (s' q).u = .many ((List.range vn).map fun k => gsResult t (D.doOp op) (D.identity op) np ids (fun p => arrayNo k (v p)) q)
    rw [h2 q hq]
    congr 1
    show List.map _ _ = _
    apply List.map_congr_left
    intro k hk
    have hk := List.mem_range.1 hk
    rw [gsResult_comp t D op hk (fun q hq => (hZ q hq).2.1) hq]
    apply gsResult_congr _ hq
    intro p hp
    rw [(hZ p hp).1]
    show _ = (xs p).getD k []
    rw [← (hZ p hp).2.2.2.1]
    simp [List.getD_eq_getElem?_getD, hk]

end Gslib.Gs
