import Verif.Props.LobValid
import Verif.Props.FindptsMs

/-!
# C59: a point of the mesh is never lost

The parts put together: bounds of polynomials (C37), boxes of elements (C39), local and distributed hash tables (C40, C41), the search (C42, C55).
-/

namespace Gslib.Props
open Gslib Gslib.Mpi Gslib.Transfer Gslib.Gs Gslib.Hash Gslib.Num Gslib.Spec Gslib.GHash Gslib.Fp Gslib.Poly Gslib.Lob Gslib.Obb

/-- the axis-aligned parts `obb[el].x[d]` of the boxes of `nel` elements, which the hash tables are built from (findpts_local_imp.h:230-231, `hash_build`) -/
def boxList (D nel : Nat) (box : Nat → Box ℝ) : List (List (Range ℝ)) := (List.range nel).map fun e => List.ofFn fun d : Fin D => ⟨((box e).x d).1, ((box e).x d).2⟩

theorem boxList_get {D nel : Nat} {box : Nat → Box ℝ} {e : Nat} (he : e < nel) : (boxList D nel box)[e]? = some (List.ofFn fun d : Fin D => ⟨((box e).x d).1, ((box e).x d).2⟩) := by
  unfold boxList
  rw [List.getElem?_map, List.getElem?_range he]
  rfl

theorem boxList_proper {D nel : Nat} {box : Nat → Box ℝ} (h : ∀ e < nel, ∀ d < D, ((box e).x d).1 < ((box e).x d).2) : ProperBoxes D (boxList D nel box) := by
  intro b hb
  unfold boxList at hb
  obtain ⟨e, he, rfl⟩ := List.mem_map.1 hb
  refine ⟨by simp, fun r hr => ?_⟩
  obtain ⟨d, rfl⟩ := (List.mem_ofFn' _ r).1 hr
  exact h e (List.mem_range.1 he) d d.2

/-- a point strictly inside the axis-aligned box -/
theorem halfOpen_of_strict {D : Nat} {b : Box ℝ} {val : Nat → ℝ} {x : Fp.Pt D} (h : ∀ d : Fin D, (b.x d).1 < val (x d) ∧ val (x d) < (b.x d).2) :
    InHalfOpenBox (List.ofFn fun d : Fin D => (⟨(b.x d).1, (b.x d).2⟩ : Range ℝ)) (coords val x) := by
  refine ⟨by simp [coords], fun d r y hr hy => ?_⟩
  rw [List.getElem?_ofFn] at hr
  unfold coords at hy
  rw [List.getElem?_ofFn] at hy
  by_cases hd : d < D
  · rw [dif_pos hd] at hr hy
    obtain rfl := Option.some.inj hr
    obtain rfl := Option.some.inj hy
    exact ⟨(h ⟨d, hd⟩).1.le, (h ⟨d, hd⟩).2⟩
  · rw [dif_neg hd] at hr
    exact absurd hr (by simp)

/-- what `findpts` stores for a point, if `(q,e)` is one of the elements that contain it -/
def FoundIn {D : Nat} (val : Nat → ℝ) (res : FRes D) (o : LRes D) : Prop :=
  (o.code = 0 ∨ o.code = 1) ∧ (res.internal = true → o.code = 0) ∧ (o.code = 1 → val o.dist2 ≤ val res.dist2)

/-- the coordinates of a point -/
def ptFn {D : Nat} (val : Nat → ℝ) (x : Fp.Pt D) (c : Nat) : ℝ := if h : c < D then val (x ⟨c, h⟩) else 0

/-- the search of the code tests the oriented boxes `box` by `test` (findpts_local_imp.h: `obbox_test(&obb[el],x)>=0`) -/
def TestsBoxes {D : Nat} (val : Nat → ℝ) (np : Nat) (nel : Nat → Nat) (box : Nat → Nat → Box ℝ) (test : Box ℝ → (Nat → ℝ) → ℝ) (env : Nat → FEnv D ℝ) : Prop :=
  ∀ q, q < np → ∀ e, e < nel q → ∀ x, (env q).loc.test e x = true ↔ 0 ≤ test (box q e) (ptFn val x)

section gen
variable {D : Nat} {np hn : Nat} (hhn : 0 < hn) (hnp : 0 < np) (hnp' : np ≤ 4294967295) {nel : Nat → Nat} {box : Nat → Nat → Box ℝ} {test : Box ℝ → (Nat → ℝ) → ℝ}
  {Inside : Nat → Nat → (Nat → ℝ) → Prop} (hprop : ∀ q < np, ∀ e < nel q, ∀ d < D, ((box q e).x d).1 < ((box q e).x d).2)
  (hin : ∀ q < np, ∀ e < nel q, ∀ p, Inside q e p → 0 ≤ test (box q e) p ∧ ∀ d < D, ((box q e).x d).1 < p d ∧ p d < ((box q e).x d).2)
  (hcell : hn ^ D ≤ 2 ^ 32 ∨ (np ∣ 2 ^ 32 ∧ hn ^ D ≤ 2 ^ 32 * np))
  (hsmall : (∑ q ∈ Finset.range np, hashCount hn (globalBnd D np fun q => boxList D (nel q) (box q)) (boxList D (nel q) (box q))) * 16 < Crystal.intMax)
include hhn hnp hnp' hprop hin hcell hsmall

theorem strict_pt {q e : Nat} (hq : q < np) (he : e < nel q) {val : Nat → ℝ} {x : Fp.Pt D} (h : Inside q e (ptFn val x)) :
    InHalfOpenBox (List.ofFn fun d : Fin D => (⟨((box q e).x d).1, ((box q e).x d).2⟩ : Range ℝ)) (coords val x) := by
  refine halfOpen_of_strict fun d => ?_
  have := (hin q hq e he _ h).2 d d.2
  rwa [ptFn, dif_pos d.2] at this

/-- `findpts` on elements that are strictly inside their boxes and pass the test -/
theorem findpts_inside (s0 : Nat → HbSt ℝ) (h0 : ∀ q, q < np → (s0 q).obb = boxList D (nel q) (box q)) (val : Nat → ℝ) (find : Nat → Nat → Fp.Pt D → FRes D) :
    AllSchedules (GHash.hashBuild D hn np (globalBnd D np fun q => boxList D (nel q) (box q))).prog np s0 fun sf =>
      ∀ env : Nat → FEnv D ℝ, SetupDone val np hn (fun q => boxList D (nel q) (box q)) find sf env → TestsBoxes val np nel box test env →
        ∀ t0 : Nat → FpSt D, CallOk np (fun p => (t0 p).xs) (fun p => (t0 p).outs) → AllSchedules (findpts val np env).prog np t0 fun tf =>
          ∀ p, p < np → ∀ (i : Nat) x, (t0 p).xs[i]? = some x → ∀ q < np, ∀ e < nel q, Inside q e (ptFn val x.1) →
            ∃ o, (tf p).outs[i]? = some o ∧ FoundIn val (find q e x.1) o := by
  have G := findpts_best hhn hnp hnp' (fun q hq => boxList_proper (hprop q hq)) hcell hsmall s0 h0 val find
  refine ⟨G.noInfinite, G.noDeadlock, fun c hr hf => ⟨?_, (G.result c hr hf).2⟩⟩
  intro env henv htest t0 ht
  obtain ⟨C, -, hC, hT⟩ := (G.result c hr hf).1 env henv
  have T := hT t0 ht
  refine ⟨T.noInfinite, T.noDeadlock, fun c' hr' hf' => ⟨?_, (T.result c' hr' hf').2⟩⟩
  intro p hp i x hx q hq e he hi
  obtain ⟨-, -, -, hb, -⟩ := (T.result c' hr' hf').1 p hp
  obtain ⟨o, q', ho, -, hbest⟩ := hb i x hx
  have hcand : C p x.1 q e := hC p x.1 q e _ hq (boxList_get he) (strict_pt hhn hnp hnp' hprop hin hcell hsmall hq he hi) ((htest q hq e he x.1).2 (hin q hq e he _ hi).1)
  refine ⟨o, ho, ?_⟩
  rcases hbest with ⟨-, h2⟩ | ⟨h1, -⟩ | ⟨h1, h2, qq, ee, -, hof, h3⟩
  · exact absurd hcand (h2 q e)
  · have h1 : o.code = 0 := h1
    exact ⟨Or.inl h1, fun _ => h1, fun h => absurd h (by omega)⟩
  · have h1 : o.code = 1 := h1
    refine ⟨Or.inr h1, fun h => absurd h (by rw [h2 q e hcand]; simp), fun _ => ?_⟩
    have := h3 q e hcand
    rw [← hof.2.2.2] at this
    exact this

/-- `findptsms`: an element of another session (or of the same with `sessm=1`) -/
theorem findptsms_inside (s0 : Nat → HbSt ℝ) (h0 : ∀ q, q < np → (s0 q).obb = boxList D (nel q) (box q)) (val : Nat → ℝ) (find : Nat → Nat → Fp.Pt D → FRes D) (low : Nat)
    (hlow : ∀ q el x, val low ≤ val (find q el x).disti) (junk : LRes D × Nat) :
    AllSchedules (GHash.hashBuild D hn np (globalBnd D np fun q => boxList D (nel q) (box q))).prog np s0 fun sf =>
      ∀ env : Nat → FEnv D ℝ, SetupDone val np hn (fun q => boxList D (nel q) (box q)) find sf env true → TestsBoxes val np nel box test env → ∀ sessm : Nat,
        ∀ t0 : Nat → FpSt D, CallOk np (fun p => (t0 p).xs) (fun p => (t0 p).outs) → AllSchedules (findptsMs val low junk np sessm env).prog np t0 fun tf =>
          ∀ p, p < np → ∀ (i : Nat) x, (t0 p).xs[i]? = some x → ∀ q < np, ∀ e < nel q, Inside q e (ptFn val x.1) → (sessm = 1 ↔ (env q).loc.nsid = x.2) →
            ∃ o, (tf p).outs[i]? = some o ∧ (o.code = 0 ∨ o.code = 1) := by
  have G := findptsms_best hhn hnp hnp' (fun q hq => boxList_proper (hprop q hq)) hcell hsmall s0 h0 val find low hlow junk
  refine ⟨G.noInfinite, G.noDeadlock, fun c hr hf => ⟨?_, (G.result c hr hf).2⟩⟩
  intro env henv htest sessm t0 ht
  obtain ⟨C, -, hC, hT⟩ := (G.result c hr hf).1 env henv sessm
  have T := hT t0 ht
  refine ⟨T.noInfinite, T.noDeadlock, fun c' hr' hf' => ⟨?_, (T.result c' hr' hf').2⟩⟩
  intro p hp i x hx q hq e he hi hs
  obtain ⟨-, -, -, hb⟩ := (T.result c' hr' hf').1 p hp
  obtain ⟨o, q', ho, -, hbest⟩ := hb i x hx
  have hcand : C p x q e := hC p x q e _ hq (boxList_get he) (strict_pt hhn hnp hnp' hprop hin hcell hsmall hq he hi) ((htest q hq e he x.1).2 (hin q hq e he _ hi).1) hs
  refine ⟨o, ho, ?_⟩
  rcases hbest with ⟨-, h2⟩ | ⟨hne, e', h1, -⟩
  · exact absurd hcand (h2 q e)
  · rcases h1 with ⟨h, -⟩ | ⟨h, -⟩ | ⟨h, -⟩
    · exact absurd h hne
    · exact Or.inl h
    · exact Or.inr h
end gen

/-- the meshes of `np` processes in 2D: on process `q` there are `nel q` elements of `nr*ns` nodes with coordinates `X q c`, in arrays of `ucap q` doubles, each with nonzero Jacobian inside -/
structure Mesh2 (np nr ns : Nat) (nel ucap : Nat → Nat) (el : Nat → Nat → Mem ℝ) (X : Nat → Nat → Nat → ℝ) : Prop where
  data : ∀ q < np, ∀ c < 2, Has (el q c) 0 (nel q * (nr * ns)) (X q c)
  room : ∀ q < np, nel q * (nr * ns) ≤ ucap q
  jac : ∀ q < np, ∀ e < nel q, ∀ r s, -1 < r → r < 1 → -1 < s → s < 1 → jac2 (fun c => poly2 nr (fixVal nr) ns (fixVal ns) fun i => X q c (e * (nr * ns) + i)) r s ≠ 0

/-- `p` is in element `e` of process `q` -/
def InEl2 (nr ns : Nat) (X : Nat → Nat → Nat → ℝ) (q e : Nat) (p : Nat → ℝ) : Prop :=
  ∃ r s, -1 ≤ r ∧ r ≤ 1 ∧ -1 ≤ s ∧ s ≤ 1 ∧ ∀ c < 2, p c = poly2 nr (fixVal nr) ns (fixVal ns) (fun i => X q c (e * (nr * ns) + i)) r s

/-- the boxes that `obbox_calc_2` computes on each process -/
def Boxes2 (fuel : Nat) (eps : ℝ) (guess : Nat → Nat → ℝ) (nr mr ns ms : Nat) (tol : ℝ) (np : Nat) (nel ucap : Nat → Nat) (el : Nat → Nat → Mem ℝ) (box : Nat → Nat → Box ℝ) : Prop :=
  ∀ q < np, ∃ out, calc2 fuel eps guess cheb nr mr ns ms (nel q) tol (ucap q) (el q) = some out ∧ ∀ e < nel q, out e = some (box q e)

section two
variable (fuel : Nat) (eps : ℝ) (guess : Nat → Nat → ℝ) {nr mr ns ms : Nat} (hnr : 2 ≤ nr) (hnr' : nr ≤ 24) (hmr : 4 * nr ≤ mr) (hns : 2 ≤ ns) (hns' : ns ≤ 24) (hms : 4 * ns ≤ ms)
  {tol : ℝ} (htol : 0 < tol) {np : Nat} {nel ucap : Nat → Nat} {el : Nat → Nat → Mem ℝ} {X : Nat → Nat → Nat → ℝ} (hmesh : Mesh2 np nr ns nel ucap el X)
include hnr hnr' hmr hns hns' hms htol hmesh

theorem boxes2_ok : ∃ box, Boxes2 fuel eps guess nr mr ns ms tol np nel ucap el box ∧
    (∀ q < np, ∀ e < nel q, ∀ p, InEl2 nr ns X q e p → 0 ≤ test2 (box q e) p ∧ ∀ d < 2, ((box q e).x d).1 < p d ∧ p d < ((box q e).x d).2) ∧
    ∀ q < np, ∀ e < nel q, ∀ d < 2, ((box q e).x d).1 < ((box q e).x d).2 := by
  have H : ∀ q, ∃ box : Nat → Box ℝ, q < np → (∃ out, calc2 fuel eps guess cheb nr mr ns ms (nel q) tol (ucap q) (el q) = some out ∧ ∀ e < nel q, out e = some (box e)) ∧
      ∀ e < nel q, ∀ p, InEl2 nr ns X q e p → 0 ≤ test2 (box e) p ∧ ∀ d < 2, ((box e).x d).1 < p d ∧ p d < ((box e).x d).2 := by
    intro q
    by_cases hq : q < np
    · obtain ⟨out, eo, ho⟩ := obbox_calc_2_covers_poly fuel eps guess hnr hnr' hmr hns hns' hms htol.le (hmesh.data q hq) (hmesh.room q hq) (hmesh.jac q hq)
      refine ⟨fun e => (out e).getD ⟨fun _ => 0, fun _ _ => 0, fun _ => (0, 0)⟩, fun _ => ⟨⟨out, eo, fun e he => ?_⟩, fun e he p hp => ?_⟩⟩
      · obtain ⟨b, eb, -⟩ := ho e he
        simp [eb]
      · obtain ⟨b, eb, hb⟩ := ho e he
        obtain ⟨r, s, a1, a2, a3, a4, hp⟩ := hp
        obtain ⟨-, h1, h2⟩ := hb r s a1 a2 a3 a4
        simp only [eb, Option.getD_some]
        refine ⟨?_, fun d hd => ?_⟩
        · have e2 : test2 b p = test2 b fun c => poly2 nr (fixVal nr) ns (fixVal ns) (fun i => X q c (e * (nr * ns) + i)) r s := by
            unfold test2 axisTest2
            rw [hp 0 (by omega), hp 1 (by omega)]
          rw [e2]; exact h1
        · rw [hp d hd]; exact h2.1 htol d hd
    · exact ⟨fun _ => ⟨fun _ => 0, fun _ _ => 0, fun _ => (0, 0)⟩, fun h => absurd h hq⟩
  choose box hbox using H
  refine ⟨box, fun q hq => (hbox q hq).1, fun q hq => (hbox q hq).2, fun q hq e he d hd => ?_⟩
  have := ((hbox q hq).2 e he (fun c => poly2 nr (fixVal nr) ns (fixVal ns) (fun i => X q c (e * (nr * ns) + i)) 0 0) ⟨0, 0, by norm_num, by norm_num, by norm_num, by norm_num, fun c _ => rfl⟩).2 d hd
  linarith [this.1, this.2]

/-- **C59 (2D)**. Meshes of elements with 2 to 24 nodes per direction and nonzero Jacobian inside, on any number of processes; `m>=4n`, a positive tolerance. `obbox_calc_2` runs without error on every process. With the boxes it yields,
on every schedule of the construction of the distributed table and every schedule of the search, and for every point that lies in some element `e` of some process `q` (also on its boundary): `findpts` does not report the point as
"not found"; it reports "internal" if the search in element `e` does; if it reports "border", the distance is at most the one of the search in element `e`. -/
theorem findpts_finds_2 : ∃ box, Boxes2 fuel eps guess nr mr ns ms tol np nel ucap el box ∧ ∀ hn : Nat, 0 < hn → 0 < np → np ≤ 4294967295 →
    (hn ^ 2 ≤ 2 ^ 32 ∨ (np ∣ 2 ^ 32 ∧ hn ^ 2 ≤ 2 ^ 32 * np)) →
    (∑ q ∈ Finset.range np, hashCount hn (globalBnd 2 np fun q => boxList 2 (nel q) (box q)) (boxList 2 (nel q) (box q))) * 16 < Crystal.intMax →
    ∀ s0 : Nat → HbSt ℝ, (∀ q, q < np → (s0 q).obb = boxList 2 (nel q) (box q)) → ∀ (val : Nat → ℝ) (find : Nat → Nat → Fp.Pt 2 → FRes 2),
    AllSchedules (GHash.hashBuild 2 hn np (globalBnd 2 np fun q => boxList 2 (nel q) (box q))).prog np s0 fun sf =>
      ∀ env : Nat → FEnv 2 ℝ, SetupDone val np hn (fun q => boxList 2 (nel q) (box q)) find sf env → TestsBoxes val np nel box test2 env →
        ∀ t0 : Nat → FpSt 2, CallOk np (fun p => (t0 p).xs) (fun p => (t0 p).outs) → AllSchedules (findpts val np env).prog np t0 fun tf =>
          ∀ p, p < np → ∀ (i : Nat) x, (t0 p).xs[i]? = some x → ∀ q < np, ∀ e < nel q, InEl2 nr ns X q e (ptFn val x.1) →
            ∃ o, (tf p).outs[i]? = some o ∧ FoundIn val (find q e x.1) o := by
  obtain ⟨box, hb, hin, hprop⟩ := boxes2_ok fuel eps guess hnr hnr' hmr hns hns' hms htol hmesh
  exact ⟨box, hb, fun hn hhn hnp hnp' hcell hsmall s0 h0 val find => findpts_inside hhn hnp hnp' hprop hin hcell hsmall s0 h0 val find⟩

/-- **C59 (2D)** for `findptsms`: a point with session id `x.2` that lies in an element of a process of the same session (`sessm=1`) or of another session (`sessm≠1`) is never reported as "not found" -/
theorem findptsms_finds_2 : ∃ box, Boxes2 fuel eps guess nr mr ns ms tol np nel ucap el box ∧ ∀ hn : Nat, 0 < hn → 0 < np → np ≤ 4294967295 →
    (hn ^ 2 ≤ 2 ^ 32 ∨ (np ∣ 2 ^ 32 ∧ hn ^ 2 ≤ 2 ^ 32 * np)) →
    (∑ q ∈ Finset.range np, hashCount hn (globalBnd 2 np fun q => boxList 2 (nel q) (box q)) (boxList 2 (nel q) (box q))) * 16 < Crystal.intMax →
    ∀ s0 : Nat → HbSt ℝ, (∀ q, q < np → (s0 q).obb = boxList 2 (nel q) (box q)) → ∀ (val : Nat → ℝ) (find : Nat → Nat → Fp.Pt 2 → FRes 2) (low : Nat),
    (∀ q el x, val low ≤ val (find q el x).disti) → ∀ junk : LRes 2 × Nat,
    AllSchedules (GHash.hashBuild 2 hn np (globalBnd 2 np fun q => boxList 2 (nel q) (box q))).prog np s0 fun sf =>
      ∀ env : Nat → FEnv 2 ℝ, SetupDone val np hn (fun q => boxList 2 (nel q) (box q)) find sf env true → TestsBoxes val np nel box test2 env → ∀ sessm : Nat,
        ∀ t0 : Nat → FpSt 2, CallOk np (fun p => (t0 p).xs) (fun p => (t0 p).outs) → AllSchedules (findptsMs val low junk np sessm env).prog np t0 fun tf =>
          ∀ p, p < np → ∀ (i : Nat) x, (t0 p).xs[i]? = some x → ∀ q < np, ∀ e < nel q, InEl2 nr ns X q e (ptFn val x.1) → (sessm = 1 ↔ (env q).loc.nsid = x.2) →
            ∃ o, (tf p).outs[i]? = some o ∧ (o.code = 0 ∨ o.code = 1) := by
  obtain ⟨box, hb, hin, hprop⟩ := boxes2_ok fuel eps guess hnr hnr' hmr hns hns' hms htol hmesh
  exact ⟨box, hb, fun hn hhn hnp hnp' hcell hsmall s0 h0 val find low hlow junk => findptsms_inside hhn hnp hnp' hprop hin hcell hsmall s0 h0 val find low hlow junk⟩
end two

/-- the meshes of `np` processes in 3D: on process `q` there are `nel q` elements of `nr*ns*nt` nodes with coordinates `X q c`, in arrays of `ucap q` doubles, each with nonzero Jacobian inside -/
structure Mesh3 (np nr ns nt : Nat) (nel ucap : Nat → Nat) (el : Nat → Nat → Mem ℝ) (X : Nat → Nat → Nat → ℝ) : Prop where
  data : ∀ q < np, ∀ c < 3, Has (el q c) 0 (nel q * (nr * ns * nt)) (X q c)
  room : ∀ q < np, nel q * (nr * ns * nt) ≤ ucap q
  jac : ∀ q < np, ∀ e < nel q, ∀ r s t, -1 < r → r < 1 → -1 < s → s < 1 → -1 < t → t < 1 → jac3 (fun c => poly3 nr (fixVal nr) ns (fixVal ns) nt (fixVal nt) fun i => X q c (e * (nr * ns * nt) + i)) r s t ≠ 0

/-- `p` is in element `e` of process `q` -/
def InEl3 (nr ns nt : Nat) (X : Nat → Nat → Nat → ℝ) (q e : Nat) (p : Nat → ℝ) : Prop :=
  ∃ r s t, -1 ≤ r ∧ r ≤ 1 ∧ -1 ≤ s ∧ s ≤ 1 ∧ -1 ≤ t ∧ t ≤ 1 ∧ ∀ c < 3, p c = poly3 nr (fixVal nr) ns (fixVal ns) nt (fixVal nt) (fun i => X q c (e * (nr * ns * nt) + i)) r s t

/-- the boxes that `obbox_calc_3` computes on each process -/
def Boxes3 (fuel : Nat) (eps : ℝ) (guess : Nat → Nat → ℝ) (nr mr ns ms nt mt : Nat) (tol : ℝ) (np : Nat) (nel ucap : Nat → Nat) (el : Nat → Nat → Mem ℝ) (box : Nat → Nat → Box ℝ) : Prop :=
  ∀ q < np, ∃ out, calc3 fuel eps guess cheb nr mr ns ms nt mt (nel q) tol (ucap q) (el q) = some out ∧ ∀ e < nel q, out e = some (box q e)

section three
variable (fuel : Nat) (eps : ℝ) (guess : Nat → Nat → ℝ) {nr mr ns ms nt mt : Nat} (hnr : 2 ≤ nr) (hnr' : nr ≤ 24) (hmr : 4 * nr ≤ mr) (hns : 2 ≤ ns) (hns' : ns ≤ 24) (hms : 4 * ns ≤ ms) (hnt : 2 ≤ nt) (hnt' : nt ≤ 24) (hmt : 4 * nt ≤ mt)
  {tol : ℝ} (htol : 0 < tol) {np : Nat} {nel ucap : Nat → Nat} {el : Nat → Nat → Mem ℝ} {X : Nat → Nat → Nat → ℝ} (hmesh : Mesh3 np nr ns nt nel ucap el X)
include hnr hnr' hmr hns hns' hms hnt hnt' hmt htol hmesh

theorem boxes3_ok : ∃ box, Boxes3 fuel eps guess nr mr ns ms nt mt tol np nel ucap el box ∧
    (∀ q < np, ∀ e < nel q, ∀ p, InEl3 nr ns nt X q e p → 0 ≤ test3 (box q e) p ∧ ∀ d < 3, ((box q e).x d).1 < p d ∧ p d < ((box q e).x d).2) ∧
    ∀ q < np, ∀ e < nel q, ∀ d < 3, ((box q e).x d).1 < ((box q e).x d).2 := by
  have H : ∀ q, ∃ box : Nat → Box ℝ, q < np → (∃ out, calc3 fuel eps guess cheb nr mr ns ms nt mt (nel q) tol (ucap q) (el q) = some out ∧ ∀ e < nel q, out e = some (box e)) ∧
      ∀ e < nel q, ∀ p, InEl3 nr ns nt X q e p → 0 ≤ test3 (box e) p ∧ ∀ d < 3, ((box e).x d).1 < p d ∧ p d < ((box e).x d).2 := by
    intro q
    by_cases hq : q < np
    · obtain ⟨out, eo, ho⟩ := obbox_calc_3_covers_poly fuel eps guess hnr hnr' hmr hns hns' hms hnt hnt' hmt htol.le (hmesh.data q hq) (hmesh.room q hq) (hmesh.jac q hq)
      refine ⟨fun e => (out e).getD ⟨fun _ => 0, fun _ _ => 0, fun _ => (0, 0)⟩, fun _ => ⟨⟨out, eo, fun e he => ?_⟩, fun e he p hp => ?_⟩⟩
      · obtain ⟨b, eb, -⟩ := ho e he
        simp [eb]
      · obtain ⟨b, eb, hb⟩ := ho e he
        obtain ⟨r, s, t, a1, a2, a3, a4, a5, a6, hp⟩ := hp
        obtain ⟨-, h1, h2⟩ := hb r s t a1 a2 a3 a4 a5 a6
        simp only [eb, Option.getD_some]
        refine ⟨?_, fun d hd => ?_⟩
        · have e2 : test3 b p = test3 b fun c => poly3 nr (fixVal nr) ns (fixVal ns) nt (fixVal nt) (fun i => X q c (e * (nr * ns * nt) + i)) r s t := by
            unfold test3 axisTest3
            rw [hp 0 (by omega), hp 1 (by omega), hp 2 (by omega)]
          rw [e2]; exact h1
        · rw [hp d hd]; exact h2.1 htol d hd
    · exact ⟨fun _ => ⟨fun _ => 0, fun _ _ => 0, fun _ => (0, 0)⟩, fun h => absurd h hq⟩
  choose box hbox using H
  refine ⟨box, fun q hq => (hbox q hq).1, fun q hq => (hbox q hq).2, fun q hq e he d hd => ?_⟩
  have := ((hbox q hq).2 e he (fun c => poly3 nr (fixVal nr) ns (fixVal ns) nt (fixVal nt) (fun i => X q c (e * (nr * ns * nt) + i)) 0 0 0) ⟨0, 0, 0, by norm_num, by norm_num, by norm_num, by norm_num, by norm_num, by norm_num, fun c _ => rfl⟩).2 d hd
  linarith [this.1, this.2]

/-- **C59 (3D)**. Meshes of elements with 2 to 24 nodes per direction and nonzero Jacobian inside, on any number of processes; `m>=4n`, a positive tolerance. `obbox_calc_3` runs without error on every process. With the boxes it yields,
on every schedule of the construction of the distributed table and every schedule of the search, and for every point that lies in some element `e` of some process `q` (also on its boundary): `findpts` does not report the point as
"not found"; it reports "internal" if the search in element `e` does; if it reports "border", the distance is at most the one of the search in element `e`. -/
theorem findpts_finds_3 : ∃ box, Boxes3 fuel eps guess nr mr ns ms nt mt tol np nel ucap el box ∧ ∀ hn : Nat, 0 < hn → 0 < np → np ≤ 4294967295 →
    (hn ^ 3 ≤ 2 ^ 32 ∨ (np ∣ 2 ^ 32 ∧ hn ^ 3 ≤ 2 ^ 32 * np)) →
    (∑ q ∈ Finset.range np, hashCount hn (globalBnd 3 np fun q => boxList 3 (nel q) (box q)) (boxList 3 (nel q) (box q))) * 16 < Crystal.intMax →
    ∀ s0 : Nat → HbSt ℝ, (∀ q, q < np → (s0 q).obb = boxList 3 (nel q) (box q)) → ∀ (val : Nat → ℝ) (find : Nat → Nat → Fp.Pt 3 → FRes 3),
    AllSchedules (GHash.hashBuild 3 hn np (globalBnd 3 np fun q => boxList 3 (nel q) (box q))).prog np s0 fun sf =>
      ∀ env : Nat → FEnv 3 ℝ, SetupDone val np hn (fun q => boxList 3 (nel q) (box q)) find sf env → TestsBoxes val np nel box test3 env →
        ∀ t0 : Nat → FpSt 3, CallOk np (fun p => (t0 p).xs) (fun p => (t0 p).outs) → AllSchedules (findpts val np env).prog np t0 fun tf =>
          ∀ p, p < np → ∀ (i : Nat) x, (t0 p).xs[i]? = some x → ∀ q < np, ∀ e < nel q, InEl3 nr ns nt X q e (ptFn val x.1) →
            ∃ o, (tf p).outs[i]? = some o ∧ FoundIn val (find q e x.1) o := by
  obtain ⟨box, hb, hin, hprop⟩ := boxes3_ok fuel eps guess hnr hnr' hmr hns hns' hms hnt hnt' hmt htol hmesh
  exact ⟨box, hb, fun hn hhn hnp hnp' hcell hsmall s0 h0 val find => findpts_inside hhn hnp hnp' hprop hin hcell hsmall s0 h0 val find⟩

/-- **C59 (3D)** for `findptsms`: a point with session id `x.2` that lies in an element of a process of the same session (`sessm=1`) or of another session (`sessm≠1`) is never reported as "not found" -/
theorem findptsms_finds_3 : ∃ box, Boxes3 fuel eps guess nr mr ns ms nt mt tol np nel ucap el box ∧ ∀ hn : Nat, 0 < hn → 0 < np → np ≤ 4294967295 →
    (hn ^ 3 ≤ 2 ^ 32 ∨ (np ∣ 2 ^ 32 ∧ hn ^ 3 ≤ 2 ^ 32 * np)) →
    (∑ q ∈ Finset.range np, hashCount hn (globalBnd 3 np fun q => boxList 3 (nel q) (box q)) (boxList 3 (nel q) (box q))) * 16 < Crystal.intMax →
    ∀ s0 : Nat → HbSt ℝ, (∀ q, q < np → (s0 q).obb = boxList 3 (nel q) (box q)) → ∀ (val : Nat → ℝ) (find : Nat → Nat → Fp.Pt 3 → FRes 3) (low : Nat),
    (∀ q el x, val low ≤ val (find q el x).disti) → ∀ junk : LRes 3 × Nat,
    AllSchedules (GHash.hashBuild 3 hn np (globalBnd 3 np fun q => boxList 3 (nel q) (box q))).prog np s0 fun sf =>
      ∀ env : Nat → FEnv 3 ℝ, SetupDone val np hn (fun q => boxList 3 (nel q) (box q)) find sf env true → TestsBoxes val np nel box test3 env → ∀ sessm : Nat,
        ∀ t0 : Nat → FpSt 3, CallOk np (fun p => (t0 p).xs) (fun p => (t0 p).outs) → AllSchedules (findptsMs val low junk np sessm env).prog np t0 fun tf =>
          ∀ p, p < np → ∀ (i : Nat) x, (t0 p).xs[i]? = some x → ∀ q < np, ∀ e < nel q, InEl3 nr ns nt X q e (ptFn val x.1) → (sessm = 1 ↔ (env q).loc.nsid = x.2) →
            ∃ o, (tf p).outs[i]? = some o ∧ (o.code = 0 ∨ o.code = 1) := by
  obtain ⟨box, hb, hin, hprop⟩ := boxes3_ok fuel eps guess hnr hnr' hmr hns hns' hms hnt hnt' hmt htol hmesh
  exact ⟨box, hb, fun hn hhn hnp hnp' hcell hsmall s0 h0 val find low hlow junk => findptsms_inside hhn hnp hnp' hprop hin hcell hsmall s0 h0 val find low hlow junk⟩
end three

/-! ### the hypotheses can be met -/

/-- for proper boxes the data of `findpts` exist -/
theorem mesh_env {D np hn : Nat} {nel : Nat → Nat} {box : Nat → Nat → Box ℝ} (hnel : ∀ q < np, 0 < nel q ∧ nel q ≤ 4294967295) (hprop : ∀ q < np, ∀ e < nel q, ∀ d < D, ((box q e).x d).1 < ((box q e).x d).2)
    (val : Nat → ℝ) (find : Nat → Nat → Fp.Pt D → FRes D) (hfit : ∀ q el x, (∀ i, (find q el x).r i < 2 ^ 64) ∧ (find q el x).dist2 < 2 ^ 64 ∧ (find q el x).disti < 2 ^ 64)
    (test : Box ℝ → (Nat → ℝ) → ℝ) (sf : Nat → HbSt ℝ) :
    ∃ env : Nat → FEnv D ℝ, SetupDone val np hn (fun q => boxList D (nel q) (box q)) find sf env ∧ TestsBoxes val np nel box test env := by
  classical
  have H : ∀ q, ∃ loc : LEnv D ℝ, q < np → LocalSetup val (boxList D (nel q) (box q)) loc (find q) ∧ loc.test = fun e x => decide (0 ≤ test (box q e) (ptFn val x)) := by
    intro q
    by_cases hq : q < np
    · have hl : (boxList D (nel q) (box q)).length = nel q := by simp [boxList]
      have hne : boxList D (nel q) (box q) ≠ [] := fun h => by rw [h] at hl; have := (hnel q hq).1; simp at hl; omega
      obtain ⟨bnd, hn, size, off, mx, e, _⟩ := local_hash_table hne (boxList_proper (hprop q hq)) 100 3
      exact ⟨⟨bnd, hn, size, off, fun e x => decide (0 ≤ test (box q e) (ptFn val x)), fun el pts => pts.map (find q el), 5, false, 0⟩,
        fun _ => ⟨⟨Or.inl ⟨100, 3, mx, hne, e⟩, by rw [hl]; exact (hnel q hq).2, fun _ _ _ => rfl, show 0 < 5 by omega, rfl, show 0 < 4294967296 by omega, hfit q⟩, rfl⟩⟩
    · exact ⟨⟨[], 1, 2, fun _ => some 2, fun _ _ => true, fun el pts => pts.map (find q el), 5, false, 0⟩, fun h => absurd h hq⟩
  choose loc hloc using H
  refine ⟨fun q => ⟨loc q, globalBnd D np fun q => boxList D (nel q) (box q), hn, (sf q).size, (sf q).off⟩, fun q hq => ⟨(hloc q hq).1, rfl, rfl, rfl, rfl⟩, fun q hq e he x => ?_⟩
  show (loc q).test e x = true ↔ _
  rw [(hloc q hq).2]
  simp

/-- with one cell each element is counted at most once -/
theorem hashCount_one_le (bnd : List (Range ℝ)) (obb : List (List (Range ℝ))) : hashCount 1 bnd obb ≤ obb.length := by
  unfold hashCount
  induction obb with
  | nil => simp
  | cons b l ih =>
    rw [List.map_cons, List.sum_cons, List.length_cons, Nat.add_comm l.length]
    refine Nat.add_le_add ?_ ih
    have : ∀ L : List Nat, (∀ a ∈ L, a ≤ 1) → L.prod ≤ 1 := by
      intro L
      induction L with
      | nil => simp
      | cons a L ih =>
        intro h
        rw [List.prod_cons]
        exact Nat.mul_le_mul (h a (by simp)) (ih fun a ha => h a (by simp [ha]))
    refine this _ fun a ha => ?_
    obtain ⟨r, hr, rfl⟩ := List.mem_map.1 ha
    unfold hashRanges at hr
    obtain ⟨i, hi, rfl⟩ := List.mem_iff_getElem.1 hr
    rw [List.getElem_zipWith]
    have key : ∀ lo hi : Nat, hi ≤ 1 → (if hi = lo then hi + 1 else hi) - lo ≤ 1 := by
      intro lo hi h
      split_ifs <;> omega
    exact key _ _ (by split_ifs <;> omega)

/-- the hypotheses of `findpts_finds_2` hold for two processes with the element `x=r`, `y=s+r^2` each; the point asked may be anywhere in it, also on its boundary -/
example (fuel : Nat) (eps : ℝ) (guess : Nat → Nat → ℝ) (val : Nat → ℝ) (find : Nat → Nat → Fp.Pt 2 → FRes 2)
    (hfit : ∀ q el x, (∀ i, (find q el x).r i < 2 ^ 64) ∧ (find q el x).dist2 < 2 ^ 64 ∧ (find q el x).disti < 2 ^ 64) (x : Fp.Pt 2) (hx : ∀ d, x d < 2 ^ 64) (r s : ℝ)
    (hr : -1 ≤ r) (hr' : r ≤ 1) (hs : -1 ≤ s) (hs' : s ≤ 1) (h0 : val (x 0) = r) (h1 : val (x 1) = s + r ^ 2) :
    ∃ box, Boxes2 fuel eps guess 3 12 3 12 (1/10) 2 (fun _ => 1) (fun _ => 9) (fun _ c i => some (exEl c i)) box ∧
      ∀ s0 : Nat → HbSt ℝ, (∀ q, q < 2 → (s0 q).obb = boxList 2 1 (box q)) →
      AllSchedules (GHash.hashBuild 2 1 2 (globalBnd 2 2 fun q => boxList 2 1 (box q))).prog 2 s0 fun _ => ∃ env : Nat → FEnv 2 ℝ, ∀ t0 : Nat → FpSt 2,
        (∀ p, (t0 p).xs = if p = 0 then [(x, 0)] else []) → (∀ p, (t0 p).outs.length = (t0 p).xs.length) → AllSchedules (findpts val 2 env).prog 2 t0 fun tf =>
          ∃ o, (tf 0).outs[0]? = some o ∧ FoundIn val (find 0 0 x) o ∧ FoundIn val (find 1 0 x) o := by
  have hX : ∀ c e, e < 1 → (fun i => exEl c (e * (3 * 3) + i)) = exEl c := fun c e he => by
    obtain rfl : e = 0 := by omega
    funext i; rw [Nat.zero_mul, Nat.zero_add]
  have hmesh : Mesh2 2 3 3 (fun _ => 1) (fun _ => 9) (fun _ c i => some (exEl c i)) (fun _ => exEl) := by
    refine ⟨fun q _ c _ i _ => by rw [Nat.zero_add], fun _ _ => by norm_num, fun q _ e he r s _ _ _ _ => ?_⟩
    have h0 : ∀ a b, poly2 3 (fixVal 3) 3 (fixVal 3) (exEl 0) a b = a := fun a b => (exEl_poly a b).1
    have h1 : ∀ a b, poly2 3 (fixVal 3) 3 (fixVal 3) (exEl 1) a b = b + a ^ 2 := fun a b => (exEl_poly a b).2
    simp only [hX _ e he, jac2, h0, h1, Matrix.det_fin_two_of]
    simp
  obtain ⟨box, hb, hin, hprop⟩ := boxes2_ok fuel eps guess (nr := 3) (mr := 12) (ns := 3) (ms := 12) (by omega) (by omega) (by omega) (by omega) (by omega) (by omega) (tol := 1/10) (by norm_num) hmesh
  refine ⟨box, hb, fun s0 hs0 => ?_⟩
  have hlen : ∀ q, (boxList 2 1 (box q)).length = 1 := fun q => by simp [boxList]
  have hsm : (∑ q ∈ Finset.range 2, hashCount 1 (globalBnd 2 2 fun q => boxList 2 1 (box q)) (boxList 2 1 (box q))) * 16 < Crystal.intMax := by
    rw [Finset.sum_range_succ, Finset.sum_range_one]
    have a := hashCount_one_le (globalBnd 2 2 fun q => boxList 2 1 (box q)) (boxList 2 1 (box 0))
    have b := hashCount_one_le (globalBnd 2 2 fun q => boxList 2 1 (box q)) (boxList 2 1 (box 1))
    rw [hlen] at a b
    have : Crystal.intMax = 2147483647 := rfl
    omega
  have G := findpts_inside (D := 2) (np := 2) (hn := 1) (by omega) (by omega) (by omega) (nel := fun _ => 1) (test := test2) hprop hin (Or.inl (by norm_num)) hsm s0 hs0 val find
  refine ⟨G.noInfinite, G.noDeadlock, fun c hr2 hf => ⟨?_, (G.result c hr2 hf).2⟩⟩
  obtain ⟨env, he1, he2⟩ := mesh_env (D := 2) (np := 2) (hn := 1) (nel := fun _ => 1) (box := box) (fun _ _ => by norm_num) hprop val find hfit test2 (fun p => (c.proc p).st)
  refine ⟨env, fun t0 ht hto => ?_⟩
  have T := (G.result c hr2 hf).1 env he1 he2 t0 ⟨fun p _ => hto p, fun p _ y hy => ?_, fun p _ => ?_, ?_⟩
  · refine ⟨T.noInfinite, T.noDeadlock, fun c' hr' hf' => ⟨?_, (T.result c' hr' hf').2⟩⟩
    have hxs : (t0 0).xs[0]? = some (x, 0) := by rw [ht 0]; rfl
    have hp : ∀ q, InEl2 3 3 (fun _ => exEl) q 0 (ptFn val x) := fun q => by
      refine ⟨r, s, by assumption, by assumption, hs, hs', fun c hc => ?_⟩
      rw [show (fun i => exEl c (0 * (3 * 3) + i)) = exEl c from hX c 0 (by omega)]
      have hc : c = 0 ∨ c = 1 := by omega
      rcases hc with rfl | rfl
      · rw [(exEl_poly r s).1]; exact h0
      · rw [(exEl_poly r s).2]; exact h1
    obtain ⟨o, ho, a⟩ := (T.result c' hr' hf').1 0 (by omega) 0 _ hxs 0 (by omega) 0 (by omega) (hp 0)
    obtain ⟨o', ho', b⟩ := (T.result c' hr' hf').1 0 (by omega) 0 _ hxs 1 (by omega) 0 (by omega) (hp 1)
    rw [ho] at ho'
    obtain rfl := Option.some.inj ho'
    exact ⟨o, ho, a, b⟩
  · rw [ht p] at hy
    split_ifs at hy with h
    · obtain rfl := List.mem_singleton.1 hy
      exact ⟨hx, by norm_num⟩
    · simp at hy
  · show (t0 p).xs.length ≤ _
    rw [ht p]; split_ifs <;> norm_num
  · rw [Finset.sum_range_succ, Finset.sum_range_one, ht 0, ht 1]
    norm_num [Crystal.intMax]

end Gslib.Props
