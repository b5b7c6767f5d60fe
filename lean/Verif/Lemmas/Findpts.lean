import Verif.Model.Findpts
import Verif.Lemmas.FindptsLocal
import Verif.Lemmas.Rec
import Verif.Lemmas.GsTopo

/-! # `findpts`: lemmas -/

namespace Gslib.Fp
open Gslib Gslib.Mpi Gslib.Transfer Gslib.Gs Gslib.Hash Gslib.Num Gslib.Spec

variable {D : Nat} {K : Type} [Field K] [LinearOrder K] [FloorRing K]

/-- the setting of a search: tables that can be read, element searches that act point by point -/
structure FpOk (val : Nat → K) (np : Nat) (env : Nat → FEnv D K) (lst : Nat → Pt D → List Nat) (find : Nat → Nat → Pt D → FRes D) (h : Pt D → Nat) (glst : Pt D → List Nat) (ims : Bool) : Prop where
  np0 : 0 < np
  np1 : np ≤ 4294967295
  lists : ∀ q, q < np → ListsOk val (env q).loc (lst q)
  pw : ∀ q, q < np → Pointwise (env q).loc (find q)
  max : ∀ q, q < np → 0 < (env q).loc.nptMax
  ims : ∀ q, q < np → (env q).loc.ims = ims
  sid : ∀ q, q < np → (env q).loc.nsid < 4294967296
  hash : ∀ q, q < np → ∀ x, hashIndex (env q).hn (env q).bnd (coords val x) = h x
  hmod : ∀ x, h x % 4294967296 % np = h x % np
  hdiv : ∀ x, h x / np < 4294967296
  gread : ∀ x, readBucket (env (h x % np)).size (env (h x % np)).off (h x / np) = some (glst x)
  glt : ∀ x, ∀ q ∈ glst x, q < np
  fit : ∀ q, q < np → ∀ el x, (∀ i, (find q el x).r i < 18446744073709551616) ∧ (find q el x).dist2 < 18446744073709551616 ∧ (find q el x).disti < 18446744073709551616

/-- the result of the search on a process, from an old output record -/
def locFrom (val : Nat → K) (env : FEnv D K) (lst : Pt D → List Nat) (find : Nat → Pt D → FRes D) (sessm : Nat) (x : Pt D × Nat) (o : LRes D) : LRes D :=
  (cands env.loc sessm lst x).foldl (updC val env.loc find x.1) { o with code := codeNotFound }

/-- fields in range -/
structure LRes.Fit (o : LRes D) : Prop where
  code : o.code ≤ 2
  el : o.el < 4294967296
  r : ∀ i, o.r i < 18446744073709551616
  dist2 : o.dist2 < 18446744073709551616
  disti : o.disti < 18446744073709551616
  elsid : o.elsid < 4294967296

theorem foldl_fit (val : Nat → K) (env : LEnv D K) (find : Nat → Pt D → FRes D) (x : Pt D) (hsid : env.nsid < 4294967296)
    (hf : ∀ el, (∀ i, (find el x).r i < 18446744073709551616) ∧ (find el x).dist2 < 18446744073709551616 ∧ (find el x).disti < 18446744073709551616) :
    ∀ (l : List Nat) (o : LRes D), (∀ el ∈ l, el < 4294967295) → o.Fit → (l.foldl (updC val env find x) o).Fit
  | [], o, _, h => h
  | a :: l, o, hl, h => by
    rw [List.foldl_cons]
    refine foldl_fit val env find x hsid hf l _ (fun el hel => hl el (by simp [hel])) ?_
    have ha := hl a (by simp)
    unfold updC
    split
    · exact h
    · unfold updL
      split
      · refine ⟨?_, ?_, (hf a).1, (hf a).2.1, ?_, ?_⟩
        · show (if _ then codeInternal else codeBorder) ≤ 2
          split <;> decide
        · show a < _; omega
        · show (if _ then _ else 0) < _
          split
          · exact (hf a).2.2
          · decide
        · show (if _ then _ else 0) < _
          split
          · exact hsid
          · decide
      · exact h

theorem junk_fit : (({ junkRes with code := codeNotFound } : LRes D)).Fit := ⟨by simp, by simp [junkRes], fun _ => by simp [junkRes], by simp [junkRes], by simp [junkRes], by simp [junkRes]⟩

theorem lens_tr : Lens (FpSt.tr (D := D)) FpSt.setTr := ⟨fun _ _ => rfl, fun _ => rfl, fun _ _ _ => rfl⟩

theorem findptsSearch_ok (val : Nat → K) (np sessm : Nat) (env : Nat → FEnv D K) : (findptsSearch val np sessm env).Ok np := by
  unfold findptsSearch
  exact Coll.seq_ok (Coll.seq_ok (Coll.seq_ok (Coll.seq_ok (Coll.seq_ok (Coll.loc_ok _ _ _) (recTransfer_ok _ _ _ _ _ _)) (Coll.loc_ok _ _ _)) (recTransferExt_ok _ _ _ _ _)) (Coll.loc_ok _ _ _)) (recTransfer_ok _ _ _ _ _ _)

theorem findpts_ok (val : Nat → K) (np : Nat) (env : Nat → FEnv D K) : (findpts val np env).Ok np :=
  Coll.seq_ok (findptsSearch_ok _ _ _ _) (Coll.loc_ok _ _ _)

/-! ### sums over the processes -/

/-- rows are counted once at their destinations -/
theorem sum_filter_dest {ρ : Type} (np : Nat) (proc : ρ → Nat) (f : ρ → Nat) : ∀ (l : List ρ), (∀ r ∈ l, proc r < np) →
    (∑ w ∈ Finset.range np, ((l.filter fun r => proc r = w).map f).sum) = (l.map f).sum
  | [], _ => by simp
  | a :: l, h => by
    have ih := sum_filter_dest np proc f l (fun r hr => h r (by simp [hr]))
    have : ∀ w, (((a :: l).filter fun r => proc r = w).map f).sum = (if proc a = w then f a else 0) + ((l.filter fun r => proc r = w).map f).sum := by
      intro w
      rw [List.filter_cons]
      by_cases hw : proc a = w
      · rw [if_pos (by simpa using hw), if_pos hw, List.map_cons, List.sum_cons]
      · rw [if_neg (by simpa using hw), if_neg hw, Nat.zero_add]
    rw [Finset.sum_congr rfl fun w _ => this w, Finset.sum_add_distrib, ih, List.map_cons, List.sum_cons, Finset.sum_ite_eq, if_pos (Finset.mem_range.2 (h a (by simp)))]

theorem sum_flatMap {ρ : Type} (f : ρ → Nat) (g : Nat → List ρ) (np : Nat) : ((((List.range np).flatMap g)).map f).sum = ∑ q ∈ Finset.range np, ((g q).map f).sum := by
  induction np with
  | zero => simp
  | succ n ih => rw [List.range_succ, List.flatMap_append, List.map_append, List.sum_append, ih, Finset.sum_range_succ]; simp

/-- total over all processes of a quantity of rows that does not depend on the processor field -/
theorem sum_arrived {ρ : Type} (np : Nat) (proc : ρ → Nat) (setp : Nat → ρ → ρ) (b : Bool) (rows : Nat → List ρ) (f : ρ → Nat) (hf : ∀ w r, f (setp w r) = f r)
    (h : ∀ q, q < np → ∀ r ∈ rows q, proc r < np) :
    (∑ w ∈ Finset.range np, ((arrived np proc setp b rows w).map f).sum) = ∑ q ∈ Finset.range np, ((rows q).map f).sum := by
  unfold arrived
  simp only [sum_flatMap, List.map_map]
  rw [Finset.sum_comm]
  refine Finset.sum_congr rfl fun q hq => ?_
  rw [← sum_filter_dest np proc f (rows q) (h q (Finset.mem_range.1 hq))]
  refine Finset.sum_congr rfl fun w _ => ?_
  congr 1
  apply List.map_congr_left
  intro r _
  exact hf _ r

theorem sum_arrivedExt {ρ : Type} (np : Nat) (rows : Nat → List ρ) (dst : Nat → List Nat) (hl : ∀ q, q < np → (dst q).length = (rows q).length) (h : ∀ q, q < np → ∀ x ∈ dst q, x < np) :
    (∑ w ∈ Finset.range np, (arrivedExt np rows dst w).length) = ∑ q ∈ Finset.range np, (rows q).length := by
  have e : ∀ w, (arrivedExt np rows dst w).length = ∑ q ∈ Finset.range np, ((((rows q).zip (dst q)).filter fun x => x.2 = w).map fun _ => 1).sum := by
    intro w
    have : (arrivedExt np rows dst w).length = ((arrivedExt np rows dst w).map fun _ => 1).sum := by simp
    rw [this]
    unfold arrivedExt
    rw [sum_flatMap]
    simp only [List.map_map]
    rfl
  simp only [e]
  rw [Finset.sum_comm]
  refine Finset.sum_congr rfl fun q hq => ?_
  rw [sum_filter_dest np Prod.snd (fun _ => 1) ((rows q).zip (dst q)) (fun r hr => h q (Finset.mem_range.1 hq) _ (List.of_mem_zip (show (r.1, r.2) ∈ _ from hr)).2)]
  simp [hl q (Finset.mem_range.1 hq)]

/-! ### the rows -/

/-- a point of process `p` on its way -/
def src (p i : Nat) (x : Pt D × Nat) : SrcPt D := ⟨x.1, ![i, p, x.2]⟩

theorem set_srcRow (val : Nat → K) (np : Nat) (env : FEnv D K) (i p : Nat) (x : Pt D × Nat) : Rec.set 1 p (srcRow val np env i x) = src p i x := by
  ext j
  · rfl
  · match j with
    | 0 => rfl
    | 1 => rfl
    | 2 => rfl

theorem outRes_outRow (i p : Nat) (o : LRes D) : outRes (outRow i p o) = o := by
  unfold outRes outRow
  ext j
  · rfl
  · rfl
  · show Fin.append o.r ![o.dist2, o.disti] (Fin.castAdd 2 j) = _
    rw [Fin.append_left]
  · show Fin.append o.r ![o.dist2, o.disti] (Fin.natAdd D 0) = _
    rw [Fin.append_right]; rfl
  · show Fin.append o.r ![o.dist2, o.disti] (Fin.natAdd D 1) = _
    rw [Fin.append_right]; rfl
  · rfl

theorem set_outRow (i p q : Nat) (o : LRes D) : Rec.set 3 q (outRow i p o) = outRow i q o := by
  ext j
  · rfl
  · match j with
    | 0 => rfl
    | 1 => rfl
    | 2 => rfl
    | 3 => rfl
    | 4 => rfl

theorem src_fit {p i : Nat} {x : Pt D × Nat} (hp : p < 4294967296) (hi : i < 4294967296) (hx : ∀ d, x.1 d < 18446744073709551616) (hs : x.2 < 4294967296) : (src p i x).Fit := by
  refine ⟨hx, fun j => ?_⟩
  match j with
  | 0 => exact hi
  | 1 => exact hp
  | 2 => exact hs

theorem srcRow_fit {val : Nat → K} {np : Nat} {env : FEnv D K} {i : Nat} {x : Pt D × Nat} (hnp : 0 < np) (hnp' : np ≤ 4294967295) (hi : i < 4294967296) (hx : ∀ d, x.1 d < 18446744073709551616) (hs : x.2 < 4294967296) :
    (srcRow val np env i x).Fit := by
  refine ⟨hx, fun j => ?_⟩
  match j with
  | 0 => exact hi
  | 1 =>
    show _ % np < _
    have := Nat.mod_lt (hashIndex env.hn env.bnd (coords val x.1) % 4294967296) hnp
    omega
  | 2 => exact hs

theorem outRow_fit {i p : Nat} {o : LRes D} (hi : i < 4294967296) (hp : p < 4294967296) (h : o.Fit) : (outRow i p o).Fit := by
  refine ⟨fun j => ?_, fun j => ?_⟩
  · show Fin.append o.r ![o.dist2, o.disti] j < _
    refine Fin.addCases (fun j => ?_) (fun j => ?_) j
    · rw [Fin.append_left]; exact h.r j
    · rw [Fin.append_right]
      match j with
      | 0 => exact h.dist2
      | 1 => exact h.disti
  · match j with
    | 0 => exact hi
    | 1 => have := h.code; show o.code < _; omega
    | 2 => exact h.el
    | 3 => exact hp
    | 4 => exact h.elsid

/-- dropping the trailing "not found" rows of sorted rows -/
theorem drop_notFound (l : List (OutPt D)) (hs : l.Pairwise fun a b => a.u 1 ≤ b.u 1) (hc : ∀ r ∈ l, r.u 1 ≤ 2) (r : OutPt D) :
    r ∈ (l.reverse.dropWhile fun r => r.u 1 == codeNotFound).reverse ↔ r ∈ l ∧ r.u 1 ≠ 2 := by
  have key : ∀ m : List (OutPt D), m.Pairwise (fun a b => b.u 1 ≤ a.u 1) → (∀ r ∈ m, r.u 1 ≤ 2) → (r ∈ m.dropWhile (fun r => r.u 1 == codeNotFound) ↔ r ∈ m ∧ r.u 1 ≠ 2) := by
    intro m
    induction m with
    | nil => intro _ _; simp
    | cons a m ih =>
      intro h1 h2
      rw [List.pairwise_cons] at h1
      by_cases ha : a.u 1 = 2
      · rw [List.dropWhile_cons_of_pos (by simp [ha]), ih h1.2 (fun r hr => h2 r (by simp [hr])), List.mem_cons]
        constructor
        · rintro ⟨h3, h4⟩; exact ⟨Or.inr h3, h4⟩
        · rintro ⟨h3 | h3, h4⟩
          · rw [h3] at h4; exact absurd ha h4
          · exact ⟨h3, h4⟩
      · rw [List.dropWhile_cons_of_neg (by simp [ha])]
        constructor
        · intro h3
          refine ⟨h3, ?_⟩
          have h2a := h2 a (by simp)
          rcases List.mem_cons.1 h3 with h3 | h3
          · rw [h3]; exact ha
          · have := h1.1 r h3; omega
        · exact fun h => h.1
  rw [List.mem_reverse, key l.reverse (List.pairwise_reverse.2 hs) (fun r hr => hc r (List.mem_reverse.1 hr)), List.mem_reverse]

/-- the rows sent to the hash cells -/
theorem mem_rows1 {val : Nat → K} {np : Nat} {env : FEnv D K} {xs : List (Pt D × Nat)} {outs : List (LRes D)} {r : SrcPt D} :
    r ∈ (((xs.zip outs).zipIdx.filter fun p => (p.1.2.code != codeInternal && !env.loc.ims) || env.loc.ims).map fun p => srcRow val np env p.2 p.1.1) ↔
      ∃ i x o, xs[i]? = some x ∧ outs[i]? = some o ∧ (env.loc.ims = true ∨ o.code ≠ 0) ∧ r = srcRow val np env i x := by
  simp only [List.mem_map, List.mem_filter, Prod.exists, List.mem_zipIdx_iff_getElem?, List.getElem?_zip_eq_some]
  constructor
  · rintro ⟨x, s, o, i, ⟨⟨h1, h2⟩, h3⟩, rfl⟩
    refine ⟨i, x, s, o, h1, h2, ?_, rfl⟩
    revert h3
    cases env.loc.ims <;> simp
  · rintro ⟨i, x, s, o, h1, h2, h3, rfl⟩
    refine ⟨x, s, o, i, ⟨⟨h1, h2⟩, ?_⟩, rfl⟩
    revert h3
    cases env.loc.ims <;> simp

/-- what a process receives back: for each of its points that was sent, and each other process listed for it, the result found there -/
def Back (val : Nat → K) (env : Nat → FEnv D K) (lst : Nat → Pt D → List Nat) (find : Nat → Nat → Pt D → FRes D) (glst : Pt D → List Nat) (ims : Bool) (sessm : Nat)
    (xs : List (Pt D × Nat)) (outs : List (LRes D)) (p : Nat) (r : OutPt D) : Prop :=
  ∃ i x o q, xs[i]? = some x ∧ outs[i]? = some o ∧ (ims = true ∨ o.code ≠ 0) ∧ q ∈ glst x.1 ∧ q ≠ p ∧ (locFrom val (env q) (lst q) (find q) sessm x junkRes).code ≠ 2 ∧
    r = outRow i q (locFrom val (env q) (lst q) (find q) sessm x junkRes)

/-- everything before the merge -/
theorem findptsSearch_run {val : Nat → K} {np : Nat} {env : Nat → FEnv D K} {lst : Nat → Pt D → List Nat} {find : Nat → Nat → Pt D → FRes D} {h : Pt D → Nat} {glst : Pt D → List Nat} {ims : Bool}
    (H : FpOk val np env lst find h glst ims) (sessm : Nat) (s0 : Nat → FpSt D) (hlen : ∀ p, p < np → (s0 p).outs.length = (s0 p).xs.length)
    (hxs : ∀ p, p < np → ∀ x ∈ (s0 p).xs, (∀ d, x.1 d < 18446744073709551616) ∧ x.2 < 4294967296) (hnpt : ∀ p, p < np → (s0 p).xs.length ≤ 4294967296)
    (hT : (∑ p ∈ Finset.range np, (s0 p).xs.length) * (8 * D + 24) < Crystal.intMax)
    (hG : (∑ p ∈ Finset.range np, ((s0 p).xs.map fun x => (glst x.1).length).sum) * (8 * D + 48) < Crystal.intMax) :
    ∃ sf, (findptsSearch val np sessm env).run np s0 = .ok sf ∧ ∀ p, p < np → (sf p).xs = (s0 p).xs ∧ (sf p).procs = (s0 p).xs.map (fun _ => p) ∧ (sf p).outs.length = (s0 p).xs.length ∧
      (∀ (i : Nat) x o, (s0 p).xs[i]? = some x → (s0 p).outs[i]? = some o → (sf p).outs[i]? = some (locFrom val (env p) (lst p) (find p) sessm x o)) ∧
      ∀ r, r ∈ getRows (outLayout D) (sf p).tr ↔ Back val env lst find glst ims sessm (s0 p).xs (sf p).outs p r := by
  have hnp0 := H.np0
  have hnp1 := H.np1
  -- the local search
  have hloc : ∀ p, ∃ outs : List (LRes D), p < np → (if (s0 p).xs.isEmpty then Outcome.ok (s0 p).outs else findptsLocal val (env p).loc sessm (s0 p).xs (s0 p).outs (s0 p).scratch) = .ok outs ∧
      outs.length = (s0 p).xs.length ∧ ∀ (i : Nat) x o, (s0 p).xs[i]? = some x → (s0 p).outs[i]? = some o → outs[i]? = some (locFrom val (env p) (lst p) (find p) sessm x o) := by
    intro p
    by_cases hp : p < np
    · by_cases he : (s0 p).xs.isEmpty = true
      · refine ⟨(s0 p).outs, fun _ => ⟨by rw [if_pos he], hlen p hp, ?_⟩⟩
        intro i x o hx
        rw [List.isEmpty_iff.1 he] at hx
        simp at hx
      · obtain ⟨outs, e, l, ho⟩ := findptsLocal_run (H.lists p hp) (H.pw p hp) (H.max p hp) sessm (s0 p).xs (s0 p).outs (hlen p hp) (s0 p).scratch
        exact ⟨outs, fun _ => ⟨by rw [if_neg he, e], l, ho⟩⟩
    · exact ⟨[], fun h => absurd h hp⟩
  choose outs1 hout1 using hloc
  let rows1 : Nat → List (SrcPt D) := fun p => (((s0 p).xs.zip (outs1 p)).zipIdx.filter fun z => (z.1.2.code != codeInternal && !(env p).loc.ims) || (env p).loc.ims).map fun z => srcRow val np (env p) z.2 z.1.1
  have hm1 : ∀ p, p < np → ∀ r, r ∈ rows1 p ↔ ∃ i x o, (s0 p).xs[i]? = some x ∧ (outs1 p)[i]? = some o ∧ (ims = true ∨ o.code ≠ 0) ∧ r = srcRow val np (env p) i x := by
    intro p hp r
    have := mem_rows1 (val := val) (np := np) (env := env p) (xs := (s0 p).xs) (outs := outs1 p) (r := r)
    rw [H.ims p hp] at this
    simpa only [rows1, H.ims p hp] using this
  have hidx : ∀ p, p < np → ∀ i x, (s0 p).xs[i]? = some x → i < 4294967296 := fun p hp i x hx => by
    have := (List.getElem?_eq_some_iff.1 hx).1
    have := hnpt p hp
    omega
  have hxf : ∀ p, p < np → ∀ (i : Nat) x, (s0 p).xs[i]? = some x → (∀ d, x.1 d < 18446744073709551616) ∧ x.2 < 4294967296 := fun p hp i x hx => hxs p hp x (List.mem_of_getElem? hx)
  have hproc : ∀ p, p < np → ∀ i (x : Pt D × Nat), (srcRow val np (env p) i x).u 1 = h x.1 % np := by
    intro p hp i x
    show hashIndex (env p).hn (env p).bnd (coords val x.1) % 4294967296 % np = _
    rw [H.hash p hp, H.hmod x.1]
  let s1 : Nat → FpSt D := fun p => if p < np then { s0 p with outs := outs1 p, procs := (s0 p).xs.map fun _ => p, tr := putRows (srcLayout D) (s0 p).tr (rows1 p) } else s0 p
  have r1 : (Coll.loc (fp1 val np sessm env) ([] : List Nat)).run np s0 = .ok s1 := by
    apply Coll.loc_run_ok
    intro p hp
    unfold fp1
    rw [(hout1 p hp).1]
    rfl
  have hfit1 : ∀ q, q < np → ∀ r ∈ rows1 q, r.Fit ∧ r.u 1 < np := by
    intro q hq r hr
    obtain ⟨i, x, o, hx, _, _, rfl⟩ := (hm1 q hq r).1 hr
    refine ⟨srcRow_fit hnp0 hnp1 (hidx q hq i x hx) (hxf q hq i x hx).1 (hxf q hq i x hx).2, ?_⟩
    rw [hproc q hq]; exact Nat.mod_lt _ hnp0
  obtain ⟨t1, r2, ht1⟩ := recTransfer_run lens_tr (np := np) (k := D) (1 : Fin 3) 4 (Or.inr (Or.inl (by omega))) true rows1 s1 hnp1 hfit1
    (by intro q hq; simp only [s1, if_pos hq]; rfl)
    (by
      have hle : (∑ q ∈ Finset.range np, (rows1 q).length) ≤ ∑ p ∈ Finset.range np, (s0 p).xs.length := by
        refine Finset.sum_le_sum fun q hq => ?_
        simp only [rows1, List.length_map]
        refine (List.length_filter_le _ _).trans ?_
        rw [List.length_zipIdx, List.length_zip]
        exact Nat.min_le_left _ _
      have h2 := Nat.mul_le_mul_right (8 * D + 24) hle
      have e : ((8 * D + 4 * 3 + 4 - 4 + 3) / 4 + 3) * 4 = 8 * D + 24 := by omega
      rw [Nat.mul_assoc, e]
      omega)
  have hA1 : ∀ w, w < np → ∀ r : SrcPt D, r ∈ getRows (srcLayout D) (t1 w) ↔ ∃ p, p < np ∧ ∃ i x o, (s0 p).xs[i]? = some x ∧ (outs1 p)[i]? = some o ∧ (ims = true ∨ o.code ≠ 0) ∧ h x.1 % np = w ∧ r = src p i x := by
    intro w hw r
    refine (List.Perm.mem_iff (ht1 w hw)).trans ?_
    unfold arrived
    simp only [List.mem_flatMap, List.mem_range, List.mem_map, List.mem_filter, if_true, decide_eq_true_eq]
    constructor
    · rintro ⟨p, hp, a, ⟨ha, hw'⟩, rfl⟩
      obtain ⟨i, x, o, h1, h2, h3, rfl⟩ := (hm1 p hp a).1 ha
      rw [hproc p hp] at hw'
      exact ⟨p, hp, i, x, o, h1, h2, h3, hw', set_srcRow _ _ _ _ _ _⟩
    · rintro ⟨p, hp, i, x, o, h1, h2, h3, h4, rfl⟩
      exact ⟨p, hp, srcRow val np (env p) i x, ⟨(hm1 p hp _).2 ⟨i, x, o, h1, h2, h3, rfl⟩, by rw [hproc p hp]; exact h4⟩, set_srcRow _ _ _ _ _ _⟩
  let s2 : Nat → FpSt D := fun p => if p < np then (s1 p).setTr (t1 p) else s1 p
  -- routing
  let R2 : Nat → List (SrcPt D × Nat) := fun w => (getRows (srcLayout D) (t1 w)).flatMap fun r => ((glst r.d).filter fun pp => pp != r.u 1).map fun pp => (r, pp)
  have hroute : ∀ w, w < np → ((getRows (srcLayout D) (t1 w)).mapM (routeRow val np (env w))).map List.flatten = some (R2 w) := by
    intro w hw
    have : (getRows (srcLayout D) (t1 w)).mapM (routeRow val np (env w)) = some ((getRows (srcLayout D) (t1 w)).map fun r => ((glst r.d).filter fun pp => pp != r.u 1).map fun pp => (r, pp)) := by
      apply Crystal.mapM_eq_map
      intro r hr
      obtain ⟨p, hp, i, x, o, _, _, _, h4, rfl⟩ := (hA1 w hw r).1 hr
      unfold routeRow
      rw [H.hash w hw]
      have e1 : h (src p i x).d / np % 4294967296 = h (src p i x).d / np := Nat.mod_eq_of_lt (H.hdiv _)
      have e2 : h (src p i x).d % np = w := h4
      have := H.gread (src p i x).d
      rw [e2] at this
      rw [e1, this]
      rfl
    rw [this]
    rfl
  have hR2 : ∀ w, w < np → ∀ z, z ∈ R2 w ↔ ∃ p, p < np ∧ ∃ i x o, (s0 p).xs[i]? = some x ∧ (outs1 p)[i]? = some o ∧ (ims = true ∨ o.code ≠ 0) ∧ h x.1 % np = w ∧ z.1 = src p i x ∧ z.2 ∈ glst x.1 ∧ z.2 ≠ p := by
    intro w hw z
    simp only [R2, List.mem_flatMap, List.mem_map, List.mem_filter, bne_iff_ne]
    constructor
    · rintro ⟨r, hr, q, ⟨hq1, hq2⟩, rfl⟩
      obtain ⟨p, hp, i, x, o, h1, h2, h3, h4, rfl⟩ := (hA1 w hw r).1 hr
      exact ⟨p, hp, i, x, o, h1, h2, h3, h4, rfl, hq1, hq2⟩
    · rintro ⟨p, hp, i, x, o, h1, h2, h3, h4, h5, h6, h7⟩
      refine ⟨src p i x, (hA1 w hw _).2 ⟨p, hp, i, x, o, h1, h2, h3, h4, rfl⟩, z.2, ⟨h6, h7⟩, ?_⟩
      rw [← h5]
  let s3 : Nat → FpSt D := fun p => if p < np then { s2 p with tr := { putRows (srcLayout D) (s2 p).tr ((R2 p).map Prod.fst) with proc := (R2 p).map Prod.snd } } else s2 p
  have r3 : (Coll.loc (fp2 val np env) ([] : List Nat)).run np s2 = .ok s3 := by
    apply Coll.loc_run_ok
    intro p hp
    have e1 : getRows (srcLayout D) (s2 p).tr = getRows (srcLayout D) (t1 p) := by simp only [s2, if_pos hp]; rfl
    unfold fp2
    rw [e1, hroute p hp]
    rfl
  have hG2 : (∑ w ∈ Finset.range np, (R2 w).length) ≤ ∑ p ∈ Finset.range np, ((s0 p).xs.map fun x => (glst x.1).length).sum := by
    have e1 : ∀ w ∈ Finset.range np, (R2 w).length ≤ ((arrived np (fun r : SrcPt D => r.u 1) (Rec.set 1) true rows1 w).map fun r => (glst r.d).length).sum := by
      intro w hw
      have hw' := Finset.mem_range.1 hw
      rw [← ((ht1 w hw').map fun r => (glst r.d).length).sum_eq]
      simp only [R2, List.length_flatMap, List.length_map]
      refine List.sum_le_sum fun r _ => List.length_filter_le _ _
    refine (Finset.sum_le_sum e1).trans ?_
    rw [sum_arrived np (fun r : SrcPt D => r.u 1) (Rec.set 1) true rows1 (fun r => (glst r.d).length) (fun _ _ => rfl) (fun q hq r hr => (hfit1 q hq r hr).2)]
    refine Finset.sum_le_sum fun q hq => ?_
    simp only [rows1, List.map_map]
    refine ((List.Sublist.map _ (List.filter_sublist (l := ((s0 q).xs.zip (outs1 q)).zipIdx))).sum_le_sum (fun _ _ => Nat.zero_le _)).trans ?_
    apply le_of_eq
    congr 1
    have : ((s0 q).xs.map fun x => (glst x.1).length) = ((((s0 q).xs.zip (outs1 q)).zipIdx.map Prod.fst).map Prod.fst).map fun x => (glst x.1).length := by
      rw [List.zipIdx_map_fst, List.map_fst_zip (by rw [(hout1 q (Finset.mem_range.1 hq)).2.1])]
    rw [this, List.map_map, List.map_map]
    rfl
  obtain ⟨t2, r4, ht2⟩ := recTransferExt_run lens_tr (np := np) (k := D) (1 : Fin 3) 4 (fun w => (R2 w).map Prod.fst) (fun w => (R2 w).map Prod.snd) s3 hnp1 (by
      intro w hw r hr
      obtain ⟨z, hz, rfl⟩ := List.mem_map.1 hr
      obtain ⟨p, hp, i, x, o, h1, _, _, _, h5, _⟩ := (hR2 w hw z).1 hz
      rw [h5]
      exact src_fit (by omega) (hidx p hp i x h1) (hxf p hp i x h1).1 (hxf p hp i x h1).2)
    (by intro w _; rw [List.length_map, List.length_map]) (by
      intro w hw q hq
      obtain ⟨z, hz, rfl⟩ := List.mem_map.1 hq
      obtain ⟨p, hp, i, x, o, h1, _, _, _, _, h6, _⟩ := (hR2 w hw z).1 hz
      exact H.glt _ _ h6)
    (by intro w hw; simp only [s3, if_pos hw]; rfl) (by intro w hw; simp only [s3, if_pos hw])
    (by
      have e : ((8 * D + 4 * 3 + 4 + 3) / 4 + 3) * 4 = 8 * D + 28 := by omega
      rw [Nat.mul_assoc, e]
      simp only [List.length_map]
      have h2 := Nat.mul_le_mul_right (8 * D + 28) hG2
      have h3 := Nat.mul_le_mul_left (∑ p ∈ Finset.range np, ((s0 p).xs.map fun x => (glst x.1).length).sum) (show 8 * D + 28 ≤ 8 * D + 48 by omega)
      omega)
  have hA2 : ∀ q, q < np → ∀ r : SrcPt D, r ∈ getRows (srcLayout D) (t2 q) ↔ ∃ p, p < np ∧ ∃ i x o, (s0 p).xs[i]? = some x ∧ (outs1 p)[i]? = some o ∧ (ims = true ∨ o.code ≠ 0) ∧ q ∈ glst x.1 ∧ q ≠ p ∧ r = src p i x := by
    intro q hq r
    refine (List.Perm.mem_iff (ht2 q hq)).trans ?_
    unfold arrivedExt
    have hz : ∀ w, ((R2 w).map Prod.fst).zip ((R2 w).map Prod.snd) = R2 w := fun w => by
      rw [List.zip_map']; simp
    simp only [hz, List.mem_flatMap, List.mem_range, List.mem_map, List.mem_filter, decide_eq_true_eq]
    constructor
    · rintro ⟨w, hw, z, ⟨hz, hzq⟩, rfl⟩
      obtain ⟨p, hp, i, x, o, h1, h2, h3, _, h5, h6, h7⟩ := (hR2 w hw z).1 hz
      rw [hzq] at h6 h7
      exact ⟨p, hp, i, x, o, h1, h2, h3, h6, h7, h5⟩
    · rintro ⟨p, hp, i, x, o, h1, h2, h3, h4, h5, rfl⟩
      exact ⟨h x.1 % np, Nat.mod_lt _ hnp0, (src p i x, q), ⟨(hR2 _ (Nat.mod_lt _ hnp0) _).2 ⟨p, hp, i, x, o, h1, h2, h3, rfl, rfl, h4, h5⟩, rfl⟩, rfl⟩
  let s4 : Nat → FpSt D := fun p => if p < np then (s3 p).setTr (t2 p) else s3 p
  -- the search of the received points
  let L : Nat → SrcPt D → LRes D := fun q r => locFrom val (env q) (lst q) (find q) sessm (r.d, r.u 2) junkRes
  have hLfit : ∀ q, q < np → ∀ r, (L q r).Fit := by
    intro q hq r
    refine foldl_fit val (env q).loc (find q) _ (H.sid q hq) (fun el => H.fit q hq el _) _ _ ?_ junk_fit
    intro el hel
    exact (H.lists q hq).small _ el (List.mem_of_mem_filter hel)
  have hsearch : ∀ q, q < np → (if (getRows (srcLayout D) (t2 q)).isEmpty then Outcome.ok [] else
      findptsLocal val (env q).loc sessm ((getRows (srcLayout D) (t2 q)).map fun r => (r.d, r.u 2)) ((getRows (srcLayout D) (t2 q)).map fun _ => junkRes) (s0 q).scratch) = .ok ((getRows (srcLayout D) (t2 q)).map (L q)) := by
    intro q hq
    by_cases he : (getRows (srcLayout D) (t2 q)).isEmpty = true
    · rw [if_pos he, List.isEmpty_iff.1 he]; rfl
    · rw [if_neg he]
      obtain ⟨outs, e, l, ho⟩ := findptsLocal_run (H.lists q hq) (H.pw q hq) (H.max q hq) sessm ((getRows (srcLayout D) (t2 q)).map fun r => (r.d, r.u 2)) ((getRows (srcLayout D) (t2 q)).map fun _ => junkRes)
        (by rw [List.length_map, List.length_map]) (s0 q).scratch
      rw [e]
      congr 1
      apply List.ext_getElem?
      intro i
      rw [List.length_map] at l
      rcases Nat.lt_or_ge i (getRows (srcLayout D) (t2 q)).length with hi | hi
      · have hg := List.getElem?_eq_getElem hi
        rw [ho i _ _ (by rw [List.getElem?_map, hg]; rfl) (by rw [List.getElem?_map, hg]; rfl), List.getElem?_map, hg]
        rfl
      · rw [List.getElem?_eq_none (by omega), List.getElem?_eq_none (by rw [List.length_map]; exact hi)]
  have hzip : ∀ q, (((getRows (srcLayout D) (t2 q)).zip ((getRows (srcLayout D) (t2 q)).map (L q))).map fun z => outRow (z.1.u 0) (z.1.u 1) z.2) = (getRows (srcLayout D) (t2 q)).map fun r => outRow (r.u 0) (r.u 1) (L q r) := by
    intro q
    generalize getRows (srcLayout D) (t2 q) = l
    induction l with
    | nil => rfl
    | cons a l ih => rw [List.map_cons, List.zip_cons_cons, List.map_cons, ih, List.map_cons]
  have hsort : ∀ q, ∃ out : List (OutPt D), q < np → Sarray.sarraySort [.int 4 fun r => r.u 1] ((getRows (srcLayout D) (t2 q)).map fun r => outRow (r.u 0) (r.u 1) (L q r)) (s0 q).scratch = .ok out ∧
      out.Perm ((getRows (srcLayout D) (t2 q)).map fun r => outRow (r.u 0) (r.u 1) (L q r)) ∧ out.Pairwise fun a b => a.u 1 ≤ b.u 1 := by
    intro q
    by_cases hq : q < np
    · obtain ⟨out, e, ho⟩ := Props.sarray_sort_lexicographic (κ := Nat) [.int 4 fun r : OutPt D => r.u 1] ((getRows (srcLayout D) (t2 q)).map fun r => outRow (r.u 0) (r.u 1) (L q r)) (s0 q).scratch (by
        intro f hf
        rw [List.mem_singleton] at hf
        subst hf
        intro r hr
        obtain ⟨a, _, rfl⟩ := List.mem_map.1 hr
        have := (hLfit q hq a).code
        show (L q a).code < _
        norm_num; omega)
      refine ⟨out, fun _ => ⟨e, ho.perm, ho.sorted.imp ?_⟩⟩
      rintro a b (h | ⟨h, _⟩)
      · exact Nat.le_of_lt h
      · exact Nat.le_of_eq h
    · exact ⟨[], fun h => absurd h hq⟩
  choose out hout using hsort
  let rows3 : Nat → List (OutPt D) := fun q => ((out q).reverse.dropWhile fun r => r.u 1 == codeNotFound).reverse
  have hm3 : ∀ q, q < np → ∀ r, r ∈ rows3 q ↔ ∃ p, p < np ∧ ∃ i x o, (s0 p).xs[i]? = some x ∧ (outs1 p)[i]? = some o ∧ (ims = true ∨ o.code ≠ 0) ∧ q ∈ glst x.1 ∧ q ≠ p ∧
      (locFrom val (env q) (lst q) (find q) sessm x junkRes).code ≠ 2 ∧ r = outRow i p (locFrom val (env q) (lst q) (find q) sessm x junkRes) := by
    intro q hq r
    have hcode : ∀ r ∈ out q, r.u 1 ≤ 2 := by
      intro r hr
      obtain ⟨a, _, rfl⟩ := List.mem_map.1 ((hout q hq).2.1.mem_iff.1 hr)
      exact (hLfit q hq a).code
    rw [drop_notFound (out q) (hout q hq).2.2 hcode r, (hout q hq).2.1.mem_iff, List.mem_map]
    constructor
    · rintro ⟨⟨a, ha, rfl⟩, hc⟩
      obtain ⟨p, hp, i, x, o, h1, h2, h3, h4, h5, rfl⟩ := (hA2 q hq a).1 ha
      exact ⟨p, hp, i, x, o, h1, h2, h3, h4, h5, hc, rfl⟩
    · rintro ⟨p, hp, i, x, o, h1, h2, h3, h4, h5, h6, rfl⟩
      exact ⟨⟨src p i x, (hA2 q hq _).2 ⟨p, hp, i, x, o, h1, h2, h3, h4, h5, rfl⟩, rfl⟩, h6⟩
  let s5 : Nat → FpSt D := fun p => if p < np then { s4 p with tr := putRows (outLayout D) (s4 p).tr (rows3 p) } else s4 p
  have r5 : (Coll.loc (fp3 val sessm env) ([] : List Nat)).run np s4 = .ok s5 := by
    apply Coll.loc_run_ok
    intro p hp
    have e1 : getRows (srcLayout D) (s4 p).tr = getRows (srcLayout D) (t2 p) := by simp only [s4, if_pos hp]; rfl
    have e2 : (s4 p).scratch = (s0 p).scratch := by simp only [s4, s3, s2, s1, if_pos hp]; rfl
    unfold fp3
    simp only
    rw [e1, e2, hsearch p hp]
    simp only [Outcome.bind]
    rw [hzip p, (hout p hp).1]
  obtain ⟨t3, r6, ht3⟩ := recTransfer_run lens_tr (np := np) (k := D + 2) (3 : Fin 5) 4 (Or.inl (by omega)) true rows3 s5 hnp1 (by
      intro q hq r hr
      obtain ⟨p, hp, i, x, o, h1, _, _, _, _, _, rfl⟩ := (hm3 q hq r).1 hr
      exact ⟨outRow_fit (hidx p hp i x h1) (by omega) (hLfit q hq (src p i x)), hp⟩)
    (by intro q hq; simp only [s5, if_pos hq]; rfl)
    (by
      have hle : (∑ q ∈ Finset.range np, (rows3 q).length) ≤ ∑ w ∈ Finset.range np, (R2 w).length := by
        have e1 : ∀ q ∈ Finset.range np, (rows3 q).length ≤ (arrivedExt np (fun w => (R2 w).map Prod.fst) (fun w => (R2 w).map Prod.snd) q).length := by
          intro q hq
          have hq' := Finset.mem_range.1 hq
          rw [← (ht2 q hq').length_eq]
          simp only [rows3, List.length_reverse]
          refine (List.dropWhile_sublist _).length_le.trans ?_
          rw [List.length_reverse, (hout q hq').2.1.length_eq, List.length_map]
          exact le_refl _
        refine (Finset.sum_le_sum e1).trans ?_
        rw [sum_arrivedExt np _ _ (by intro w _; rw [List.length_map, List.length_map]) (by
          intro w hw q hq
          obtain ⟨z, hz, rfl⟩ := List.mem_map.1 hq
          obtain ⟨p, hp, i, x, o, h1, _, _, _, _, h6, _⟩ := (hR2 w hw z).1 hz
          exact H.glt _ _ h6)]
        simp
      have e : ((8 * (D + 2) + 4 * 5 + 4 - 4 + 3) / 4 + 3) * 4 = 8 * D + 48 := by omega
      rw [Nat.mul_assoc, e]
      have h2 := Nat.mul_le_mul_right (8 * D + 48) (hle.trans hG2)
      omega)
  refine ⟨_, Coll.seq_run_ok (Coll.seq_ok (Coll.seq_ok (Coll.seq_ok (Coll.seq_ok (Coll.loc_ok _ _ _) (recTransfer_ok _ _ _ _ _ _)) (Coll.loc_ok _ _ _)) (recTransferExt_ok _ _ _ _ _)) (Coll.loc_ok _ _ _))
    (Coll.seq_run_ok (Coll.seq_ok (Coll.seq_ok (Coll.seq_ok (Coll.loc_ok _ _ _) (recTransfer_ok _ _ _ _ _ _)) (Coll.loc_ok _ _ _)) (recTransferExt_ok _ _ _ _ _))
      (Coll.seq_run_ok (Coll.seq_ok (Coll.seq_ok (Coll.loc_ok _ _ _) (recTransfer_ok _ _ _ _ _ _)) (Coll.loc_ok _ _ _))
        (Coll.seq_run_ok (Coll.seq_ok (Coll.loc_ok _ _ _) (recTransfer_ok _ _ _ _ _ _)) (Coll.seq_run_ok (Coll.loc_ok _ _ _) r1 r2) r3) r4) r5) r6, ?_⟩
  intro p hp
  have e0 : (s5 p).outs = outs1 p := by simp only [s5, s4, s3, s2, s1, if_pos hp]; rfl
  have ex : (s5 p).xs = (s0 p).xs := by simp only [s5, s4, s3, s2, s1, if_pos hp]; rfl
  have ep : (s5 p).procs = (s0 p).xs.map fun _ => p := by simp only [s5, s4, s3, s2, s1, if_pos hp]; rfl
  simp only [if_pos hp]
  refine ⟨ex, ep, by rw [show ((s5 p).setTr (t3 p)).outs = outs1 p from e0]; exact (hout1 p hp).2.1, ?_, ?_⟩
  · rw [show ((s5 p).setTr (t3 p)).outs = outs1 p from e0]; exact (hout1 p hp).2.2
  · intro r
    rw [show ((s5 p).setTr (t3 p)).outs = outs1 p from e0]
    refine (List.Perm.mem_iff (ht3 p hp)).trans ?_
    unfold arrived Back
    simp only [List.mem_flatMap, List.mem_range, List.mem_map, List.mem_filter, if_true, decide_eq_true_eq]
    constructor
    · rintro ⟨q, hq, a, ⟨ha, hap⟩, rfl⟩
      obtain ⟨p', hp', i, x, o, h1, h2, h3, h4, h5, h6, rfl⟩ := (hm3 q hq a).1 ha
      have : p' = p := hap
      subst this
      exact ⟨i, x, o, q, h1, h2, h3, h4, h5, h6, set_outRow _ _ _ _⟩
    · rintro ⟨i, x, o, q, h1, h2, h3, h4, h5, h6, rfl⟩
      exact ⟨q, H.glt _ _ h4, outRow i p (locFrom val (env q) (lst q) (find q) sessm x junkRes), ⟨(hm3 q (H.glt _ _ h4) _).2 ⟨p, hp, i, x, o, h1, h2, h3, h4, h5, h6, rfl⟩, rfl⟩, set_outRow _ _ _ _⟩

end Gslib.Fp
