import Verif.Lemmas.StridedFp
import Verif.Props.Findpts

/-!
# C60: arguments of `findpts` with strides
-/

namespace Gslib.Props
open Gslib Gslib.Mpi Gslib.Transfer Gslib.Gs Gslib.Hash Gslib.Num Gslib.Spec Gslib.Fp Gslib.GHash

variable {D : Nat} {K : Type} [Field K] [LinearOrder K] [IsStrictOrderedRing K] [FloorRing K]

/-- **C60 (local search)**. `findptsms_local` on arrays with strides, for fewer than 4 GB between the first and the last point of each array: whenever the search of the points `xs` on plain lists succeeds with results `l` (C42), the search on
the strided arrays succeeds, every variable of every point holds its result, and no other byte of the caller's memory changes. -/
theorem findpts_local_strided {a : SArgs D} {xs : List (Fp.Pt D × Nat)} (val : Nat → K) (env : LEnv D K) (ha : a.Ok (if env.ims then .ms else .std) xs.length) (sessm : Nat) {m : Spec.Bytes} (hw : Writable a xs.length m)
    (hx : ∀ (i : Nat) x, xs[i]? = some x → (∀ d, SlotIs a m (.x i d) (x.1 d)) ∧ SlotIs a m (.sess i) x.2) {outs : List (LRes D)} (ho : outs.length = xs.length) (s : Sarray.ScratchF Nat) {l : List (LRes D)}
    (e : findptsLocal val env sessm xs outs s = .ok l) :
    ∃ m', findptsLocalS val env sessm a xs.length m s = .ok m' ∧ OnlyResults a xs.length m m' ∧
      ∀ (i : Nat) o, l[i]? = some o → SlotIs a m' (.code i) o.code ∧ (o.code ≠ 2 → SlotIs a m' (.el i) o.el ∧ (∀ d, SlotIs a m' (.r i d) (o.r d)) ∧ SlotIs a m' (.dist2 i) o.dist2 ∧
        (env.ims = true → SlotIs a m' (.disti i) o.disti ∧ SlotIs a m' (.elsid i) o.elsid)) := by
  obtain ⟨m', f, h⟩ := findptsLocal_sim (m0 := m) val env ha (by cases env.ims <;> simp) sessm ⟨hw, fun _ _ => rfl⟩ rfl (fun i x hi => ⟨fun d => get_iff.2 ((hx i x hi).1 d), get_iff.2 (hx i x hi).2⟩) ho s e
  refine ⟨m', f, h.inv.only, fun i o hi => ?_⟩
  obtain ⟨q1, q2⟩ := h.orep.2 i o hi
  refine ⟨get_iff.1 q1, fun hc => ?_⟩
  obtain ⟨q3, q4, q5, q6⟩ := q2 hc
  exact ⟨get_iff.1 q3, fun d => get_iff.1 (q4 d), get_iff.1 q5, fun hi => ⟨get_iff.1 (q6 hi).1, get_iff.1 (q6 hi).2⟩⟩

omit [Field K] [LinearOrder K] [IsStrictOrderedRing K] [FloorRing K] in
/-- used bytes do not overlap new ones -/
theorem apart {m : Spec.Bytes} {sz p q n : Nat} (h1 : ∀ k, k < n → (m (q + k)).isSome = true) (h2 : Fresh m sz p) (hn : 0 < n) (hsz : 0 < sz) : q + n ≤ p ∨ p + sz ≤ q := by
  by_contra hc
  push Not at hc
  rcases Nat.le_total p q with h | h
  · have a := h1 0 hn
    have b := h2 (q - p) (by omega)
    rw [show p + (q - p) = q + 0 by omega] at b
    rw [b] at a
    cases a
  · have a := h1 (p - q) (by omega)
    have b := h2 0 hsz
    rw [show q + (p - q) = p + 0 by omega, b] at a
    cases a

/-- **C60 (`findpts_local`)**. A process with the boxes `obb` searches its own elements. There is a set `C x` of candidate elements of a point: they are elements whose oriented box test the point passes, and every such element with a box
containing the point (upper faces excluded) is one. For arguments that are arrays with arbitrary byte strides (no result overlaps another variable; the last point begins less than 4 GB behind the first) and whatever addresses `tmalloc`
returns, `findpts_local` ends without undefined behaviour; the variables at `base + i*stride` hold the best result of point `i`; no other byte has changed, except those of the new variables. -/
theorem findpts_local_best {obb : List (List (Range K))} (hp : ProperBoxes D obb) (val : Nat → K) {loc : LEnv D K} {find : Nat → Fp.Pt D → FRes D} (hs : LocalSetup val obb loc find) :
    ∃ C : Fp.Pt D → Nat → Prop,
      (∀ x el, C x el → el < obb.length ∧ loc.test el x = true) ∧
      (∀ x el box, obb[el]? = some box → InHalfOpenBox box (coords val x) → loc.test el x = true → C x el) ∧
      ∀ (a : SArgs D) (xs : List (Fp.Pt D)) (ps pd pe : Nat) (m : Spec.Bytes) (s : Sarray.ScratchF Nat), a.LocOk xs.length →
        (∀ t : Slot D, t.idx < xs.length → t.caller → t.written → ∀ k, k < t.size → (m (t.addr a + k)).isSome = true) →
        (∀ (i : Nat) x, xs[i]? = some x → ∀ d, SlotIs a m (.x i d) (x d)) →
        Fresh m 4 ps → Fresh m 8 pd → Fresh m 4 pe → (pd + 8 ≤ ps ∨ ps + 4 ≤ pd) → (pe + 4 ≤ ps ∨ ps + 4 ≤ pe) →
        ∃ m', findptsLocalC val loc a ps pd pe xs.length m s = .ok m' ∧
          (∀ b, (∀ t : Slot D, t.idx < xs.length → t.caller → t.written → b < t.addr a ∨ t.addr a + t.size ≤ b) →
            (b < ps ∨ ps + 4 ≤ b) → (b < pd ∨ pd + 8 ≤ b) → (b < pe ∨ pe + 4 ≤ b) → m' b = m b) ∧
          ∀ (i : Nat) x, xs[i]? = some x → ∃ res : PtRes D, IsBest val (fun _ el => find el x) (fun q el => q = res.proc ∧ C x el) res ∧
            SlotIs a m' (.code i) res.code ∧ (res.code ≠ 2 → SlotIs a m' (.el i) res.el ∧ (∀ d, SlotIs a m' (.r i d) (res.r d)) ∧ SlotIs a m' (.dist2 i) res.dist2) := by
  obtain ⟨lst, hl, h1, h2⟩ := hs.lists hp
  refine ⟨fun x el => el ∈ lst x ∧ loc.test el x = true, fun x el hc => ⟨h1 x el hc.1, hc.2⟩, fun x el box hb hin ht => ⟨h2 x el box hb hin, ht⟩, ?_⟩
  intro a xs ps pd pe m s ha hw hx f1 f2 f3 d1 d2
  let a' := localArgs a ps pd pe
  let m1 := newVar 4 pe 0 (newVar 8 pd 0 (newVar 4 ps 0 m))
  have hlen : (xs.map fun x => (x, 0)).length = xs.length := List.length_map ..
  -- the used bytes
  have used : ∀ t : Slot D, t.idx < xs.length → t.caller → ∀ k, k < t.size → (m (t.addr a + k)).isSome = true := by
    intro t ht hc k hk
    by_cases htw : t.written
    · exact hw t ht hc htw k hk
    · cases t with
      | x i d =>
        have := hx i _ (List.getElem?_eq_getElem ht) d k hk
        rw [this]; rfl
      | sess j => exact absurd rfl (hc.2 j)
      | _ => exact absurd trivial htw
  have same : ∀ t : Slot D, t.caller → t.addr a' = t.addr a := by
    intro t hc
    cases t with
    | proc => exact absurd trivial hc.1
    | disti => exact absurd trivial hc.1
    | elsid => exact absurd trivial hc.1
    | sess j => exact absurd rfl (hc.2 j)
    | _ => rfl
  have apS : ∀ t : Slot D, t.idx < xs.length → t.caller → t.addr a + t.size ≤ ps ∨ ps + 4 ≤ t.addr a := fun t ht hc => apart (used t ht hc) f1 (size_pos t) (by omega)
  have apD : ∀ t : Slot D, t.idx < xs.length → t.caller → t.addr a + t.size ≤ pd ∨ pd + 8 ≤ t.addr a := fun t ht hc => apart (used t ht hc) f2 (size_pos t) (by omega)
  have apE : ∀ t : Slot D, t.idx < xs.length → t.caller → t.addr a + t.size ≤ pe ∨ pe + 4 ≤ t.addr a := fun t ht hc => apart (used t ht hc) f3 (size_pos t) (by omega)
  have kind : ∀ t : Slot D, t.caller ∨ (∃ j, t = .sess j) ∨ (t.scratch .loc ∧ ((t.addr a' = pd ∧ t.size = 8) ∨ (t.addr a' = pe ∧ t.size = 4))) := by
    intro t
    cases t with
    | sess j => exact Or.inr (Or.inl ⟨j, rfl⟩)
    | disti j => exact Or.inr (Or.inr ⟨trivial, Or.inl ⟨by simp [Slot.addr, a', localArgs], rfl⟩⟩)
    | elsid j => exact Or.inr (Or.inr ⟨trivial, Or.inr ⟨by simp [Slot.addr, a', localArgs], rfl⟩⟩)
    | proc j => exact Or.inr (Or.inr ⟨trivial, Or.inr ⟨by simp [Slot.addr, a', localArgs], rfl⟩⟩)
    | _ => exact Or.inl ⟨fun h => h, fun j h => by cases h⟩
  have hsess : ∀ j, (Slot.sess j : Slot D).addr a' = ps := fun j => by simp [Slot.addr, a', localArgs]
  have hok : a'.Ok .loc xs.length := by
    refine ⟨?_, ?_⟩
    · intro u t hu ht huw hne hts
      rcases kind t with ct | ⟨j, rfl⟩ | ⟨ct, _⟩
      · rcases kind u with cu | ⟨j, rfl⟩ | ⟨_, cu⟩
        · rw [same u cu, same t ct]; exact ha.disj u t hu ht cu ct huw hne
        · exact absurd huw (fun h => h)
        · rw [same t ct]
          have q1 := apD t ht ct
          have q2 := apE t ht ct
          rcases cu with ⟨e1, e2⟩ | ⟨e1, e2⟩
          · rw [e1, e2]; omega
          · rw [e1, e2]; omega
      · rw [hsess]
        have hsz : (Slot.sess j : Slot D).size = 4 := rfl
        rw [hsz]
        rcases kind u with cu | ⟨j, rfl⟩ | ⟨_, cu⟩
        · rw [same u cu]
          exact apS u hu cu
        · exact absurd huw (fun h => h)
        · rcases cu with ⟨e1, e2⟩ | ⟨e1, e2⟩
          · rw [e1, e2]; omega
          · rw [e1, e2]; omega
      · exact absurd ct hts
    · intro i hi
      obtain ⟨b1, b2, b3, b4, b5⟩ := ha.small i hi
      exact ⟨b1, show i * 0 < _ by omega, b2, b3, b4, b5, show i * 0 < _ by omega, show i * 0 < _ by omega⟩
  have hm1 : ∀ b, (b < ps ∨ ps + 4 ≤ b) → (b < pd ∨ pd + 8 ≤ b) → (b < pe ∨ pe + 4 ≤ b) → m1 b = m b := by
    intro b q1 q2 q3
    simp only [m1, newVar]
    rw [if_neg (by omega), if_neg (by omega), if_neg (by omega)]
  have hw1 : Writable a' xs.length m1 := by
    intro t ht htw k hk
    rcases kind t with ct | ⟨j, rfl⟩ | ⟨_, ct⟩
    · rw [same t ct, hm1 _ (by have := apS t ht ct; omega) (by have := apD t ht ct; omega) (by have := apE t ht ct; omega)]
      exact used t ht ct k hk
    · exact absurd htw (fun h => h)
    · simp only [m1, newVar]
      rcases ct with ⟨e1, e2⟩ | ⟨e1, e2⟩
      · rw [e1]
        split
        · rfl
        · rw [if_pos (by omega)]; rfl
      · rw [e1, if_pos (by omega)]; rfl
  have hx1 : XRep a' m1 (xs.map fun x => (x, 0)) := by
    intro i x hi
    rw [List.getElem?_map] at hi
    obtain ⟨y, hy, rfl⟩ := Option.map_eq_some_iff.1 hi
    have hin := (List.getElem?_eq_some_iff.1 hy).1
    refine ⟨fun d => get_iff.2 ?_, get_iff.2 ?_⟩
    · intro k hk
      have ct : (Slot.x i d : Slot D).caller := ⟨fun h => h, fun j h => by cases h⟩
      rw [same _ ct, hm1 _ (by have := apS (.x i d) hin ct; omega) (by have := apD (.x i d) hin ct; omega) (by have := apE (.x i d) hin ct; omega)]
      exact hx i y hy d k hk
    · intro k hk
      have hk4 : k < 4 := hk
      rw [hsess]
      simp only [m1, newVar]
      rw [if_neg (by omega), if_neg (by omega), if_pos (by omega)]
      congr 2
      omega
  obtain ⟨l, e, ll, hbest⟩ := findptsLocal_run hl (find := find) hs.pointwise hs.npt 0 (xs.map fun x => (x, 0)) (xs.map fun _ => junkRes) (by simp) s
  obtain ⟨m', f, h⟩ := findptsLocal_sim (m0 := m1) val loc hok (by rw [hs.one]; simp) 0 ⟨hw1, fun _ _ => rfl⟩ hlen hx1 (outs := xs.map fun _ => junkRes) (by simp) s e
  refine ⟨m', f, ?_, ?_⟩
  · intro b hb q1 q2 q3
    rw [← hm1 b q1 q2 q3]
    refine h.inv.only b fun t ht htw => ?_
    rcases kind t with ct | ⟨j, rfl⟩ | ⟨_, ct⟩
    · rw [same t ct]; exact hb t ht ct htw
    · exact absurd htw (fun h => h)
    · rcases ct with ⟨e1, e2⟩ | ⟨e1, e2⟩
      · rw [e1, e2]; exact q2
      · rw [e1, e2]; exact q3
  · intro i x hxi
    have hb := hbest i (x, 0) junkRes (by rw [List.getElem?_map, hxi]; rfl) (by rw [List.getElem?_map, hxi]; rfl)
    obtain ⟨g1, g2⟩ := h.orep.2 i _ hb
    have hskip : skipSession loc 0 0 = false := by unfold skipSession; rw [hs.one]; simp
    have hc : cands loc 0 lst (x, 0) = (lst x).filter fun el => loc.test el x := by
      unfold cands
      simp only [hskip, Bool.not_false, Bool.true_and]
    have hB := foldl_best (val := val) loc (fun _ => find) 0 x ((lst x).filter fun el => loc.test el x) (fun _ _ => False) { (junkRes : LRes D) with code := codeNotFound } (Or.inl ⟨rfl, fun _ _ => id⟩)
    rw [hc] at g1 g2
    refine ⟨LRes.toPt 0 (((lst x).filter fun el => loc.test el x).foldl (updC val loc find x) { (junkRes : LRes D) with code := codeNotFound }), ?_, (get_iff (a := a')).1 g1, fun hne => ?_⟩
    · refine (congrArg (fun C => IsBest val (fun _ el => find el x) C _) ?_).mp hB
      funext q el
      simp only [false_or, List.mem_filter]
      rfl
    · obtain ⟨g3, g4, g5, _⟩ := g2 hne
      exact ⟨(get_iff (a := a')).1 g3, fun d => (get_iff (a := a')).1 (g4 d), (get_iff (a := a')).1 g5⟩

/-- **C60 (`findpts`)**. The arguments of `findpts` are arrays with arbitrary byte strides (interleaved in a struct, with gaps, several coordinates from one array, ..) in the memory of each process, such that no result overlaps another
variable and the last point of each array begins less than 4 GB behind the first. On every schedule the call ends without abort or undefined behaviour; the variables at `base + i*stride` hold the best result of point `i` (C42), for a
point that is not found `code` and `proc`; no other byte of the memory has changed. The results need not be initialised before the call. -/
theorem findpts_strided {np hn : Nat} (hhn : 0 < hn) (hnp : 0 < np) (hnp' : np ≤ 4294967295) {obb : Nat → List (List (Range K))} (h : ∀ q, q < np → ProperBoxes D (obb q))
    (hcell : hn ^ D ≤ 2 ^ 32 ∨ (np ∣ 2 ^ 32 ∧ hn ^ D ≤ 2 ^ 32 * np)) (hsmall : (∑ q ∈ Finset.range np, hashCount hn (globalBnd D np obb) (obb q)) * 16 < Crystal.intMax)
    (s0 : Nat → HbSt K) (h0 : ∀ q, q < np → (s0 q).obb = obb q) (val : Nat → K) (find : Nat → Nat → Fp.Pt D → FRes D) :
    AllSchedules (GHash.hashBuild D hn np (globalBnd D np obb)).prog np s0 fun sf =>
      ∀ env : Nat → FEnv D K, SetupDone val np hn obb find sf env →
      ∃ C : Nat → Fp.Pt D → Nat → Nat → Prop,
        (∀ p x q el, p < np → C p x q el → q < np ∧ el < (obb q).length ∧ (env q).loc.test el x = true) ∧
        (∀ p x q el box, q < np → (obb q)[el]? = some box → InHalfOpenBox box (coords val x) → (env q).loc.test el x = true → C p x q el) ∧
        ∀ (a : Nat → SArgs D) (xs : Nat → List (Fp.Pt D × Nat)) (t0 : Nat → SSt), CallOk np xs (fun p => (xs p).map fun _ => junkRes) →
          (∀ p, p < np → (a p).Ok .std (xs p).length ∧ Writable (a p) (xs p).length (t0 p).mem ∧
            ∀ (i : Nat) x, (xs p)[i]? = some x → (∀ d, SlotIs (a p) (t0 p).mem (.x i d) (x.1 d)) ∧ SlotIs (a p) (t0 p).mem (.sess i) x.2) →
          AllSchedules (findptsS val np env a fun p => (xs p).length).prog np t0 fun tf =>
            ∀ p, p < np → OnlyResults (a p) (xs p).length (t0 p).mem (tf p).mem ∧
              ∀ (i : Nat) x, (xs p)[i]? = some x → ∃ res : PtRes D, IsBest val (fun q el => find q el x.1) (C p x.1) res ∧
                SlotIs (a p) (tf p).mem (.code i) res.code ∧ SlotIs (a p) (tf p).mem (.proc i) res.proc ∧
                (res.code ≠ 2 → SlotIs (a p) (tf p).mem (.el i) res.el ∧ (∀ d, SlotIs (a p) (tf p).mem (.r i d) (res.r d)) ∧ SlotIs (a p) (tf p).mem (.dist2 i) res.dist2) := by
  have G := setup_ready hhn hnp hnp' h hcell hsmall s0 h0 val find
  refine ⟨G.noInfinite, G.noDeadlock, fun c hr hf => ⟨?_, (G.result c hr hf).2⟩⟩
  intro env henv
  obtain ⟨lst, hx, glst, H, hglen, hl, hgin⟩ := (G.result c hr hf).1 env henv
  refine ⟨CandOf env lst glst, ?_, ?_, ?_⟩
  · rintro p x q el hp ⟨c1, c2, c3⟩
    have hq : q < np := by
      rcases c3 with rfl | c3
      · exact hp
      · exact H.glt x q c3
    exact ⟨hq, (hl q hq).1 x el c1, c2⟩
  · intro p x q el box hq hb hin ht
    exact ⟨(hl q hq).2 x el box hb hin, ht, Or.inr (hgin x q hq ⟨box, List.mem_of_getElem? hb, hin⟩)⟩
  · intro a xs t0 ht hm
    have hn1 : (∑ p ∈ Finset.range np, ((xs p).map fun x => (glst x.1).length).sum) ≤ (∑ p ∈ Finset.range np, (xs p).length) * np := by
      rw [Finset.sum_mul]
      exact Finset.sum_le_sum fun p _ => sum_map_le np _ glst hglen
    have hn2 : (∑ p ∈ Finset.range np, (xs p).length) ≤ (∑ p ∈ Finset.range np, (xs p).length) * np := Nat.le_mul_of_pos_right _ hnp
    obtain ⟨sf', e, hsf⟩ := findpts_run H (fun p => ⟨xs p, (xs p).map fun _ => junkRes, [], (t0 p).tr, (t0 p).scratch⟩) ht.room ht.double ht.npt
      (lt_of_le_of_lt (Nat.mul_le_mul hn2 (by omega)) ht.small) (lt_of_le_of_lt (Nat.mul_le_mul_right _ hn1) ht.small)
    obtain ⟨tf', e', hR⟩ := findpts_sim val np env (fun p hp => H.ims p hp) a (fun p => (xs p).length) (fun p => (t0 p).mem) (fun p hp => (hm p hp).1) _ t0 sf' (by
      intro p hp
      obtain ⟨m1, m2, m3⟩ := hm p hp
      exact ⟨rfl, rfl, ⟨m2, fun _ _ => rfl⟩, rfl, fun i x hi => ⟨fun d => get_iff.2 ((m3 i x hi).1 d), get_iff.2 (m3 i x hi).2⟩, by simp⟩) e
    refine allSchedules_of_lockRun (findptsS_ok val np env a _) e' _ ?_
    intro tf htf p hp
    rw [htf p hp]
    obtain ⟨a1, a2, a3, a4⟩ := hsf p hp
    obtain ⟨_, _, b3, b4⟩ := hR p hp
    refine ⟨b3.inv.only, fun i x hxi => ?_⟩
    obtain ⟨o, q, c1, c2, c3, _⟩ := a4 i x junkRes hxi (by show ((xs p).map fun _ => junkRes)[i]? = _; rw [List.getElem?_map, hxi]; rfl)
    obtain ⟨d1, d2⟩ := b3.orep.2 i o c1
    refine ⟨_, c3, get_iff.1 d1, get_iff.1 (b4.2 i q c2), fun hc => ?_⟩
    obtain ⟨d3, d4, d5, _⟩ := d2 hc
    exact ⟨get_iff.1 d3, fun d => get_iff.1 (d4 d), get_iff.1 d5⟩

omit [IsStrictOrderedRing K] in
/-- **C60, finding**: the bound of 4 GB is needed. The macro `AT` multiplies the number of the point and the stride as 32-bit numbers: with structs of 64 bytes the result of point 67108864 (`2^26`) that arrives from another process
is stored into the variables of point 0 (here: of a point 0 that is not found), and nothing else is written. -/
theorem findpts_stride_wraps {a : SArgs D} (ha : a.Ok .std 1) (hs : a.code.stride = 64 ∧ a.proc.stride = 64 ∧ a.el.stride = 64 ∧ a.r.stride = 64 ∧ a.dist2.stride = 64) {m : Spec.Bytes} (hw : Writable a 1 m)
    (hc : SlotIs a m (.code 0) 2) (val : Nat → K) (r : OutPt D) (hr : r.u 0 = 2 ^ 26) :
    ∃ m', mergeRowS val a r m = some m' ∧ OnlyResults a 1 m m' ∧ SlotIs a m' (.code 0) (r.u 1) ∧ SlotIs a m' (.proc 0) (r.u 3) ∧
      (r.u 1 ≠ 2 → SlotIs a m' (.el 0) (r.u 2) ∧ ∀ d, SlotIs a m' (.r 0 d) (r.d (Fin.castAdd 2 d))) := by
  obtain ⟨h1, h2, h3, h4, h5⟩ := hs
  have e1 : SArr.at a.code (2 ^ 26) = SArr.at a.code 0 := by unfold SArr.at; rw [h1]; norm_num
  have e2 : SArr.at a.proc (2 ^ 26) = SArr.at a.proc 0 := by unfold SArr.at; rw [h2]; norm_num
  have e3 : SArr.at a.el (2 ^ 26) = SArr.at a.el 0 := by unfold SArr.at; rw [h3]; norm_num
  have e4 : SArr.at a.r (2 ^ 26) = SArr.at a.r 0 := by unfold SArr.at; rw [h4]; norm_num
  have e5 : SArr.at a.dist2 (2 ^ 26) = SArr.at a.dist2 0 := by unfold SArr.at; rw [h5]; norm_num
  let r' : OutPt D := Rec.set 0 0 r
  have u0 : r'.u 0 = 0 := by simp [r', Rec.set]
  have u1 : r'.u 1 = r.u 1 := by simp [r', Rec.set]
  have u2 : r'.u 2 = r.u 2 := by simp [r', Rec.set]
  have u3 : r'.u 3 = r.u 3 := by simp [r', Rec.set]
  have ud : (outRes r').r = (outRes r).r ∧ (outRes r').dist2 = (outRes r).dist2 := ⟨rfl, rfl⟩
  have hcode : ld 4 m (SArr.at a.code 0) = some 2 := by rw [at_eq (by omega)]; exact get_iff.2 hc
  obtain ⟨m', s1, i1, o1, p1, _⟩ := storeR_sim (m0 := m) ha (by simp) ⟨hw, fun _ _ => rfl⟩ r' (by rw [u0]; omega) junkRes
  have hst : storeR a r m = storeR a r' m := by
    unfold storeR
    rw [hr, u0, u1, u2, u3, ud.1, ud.2, e1, e2, e3, e4, e5]
  refine ⟨m', ?_, i1.only, ?_, ?_, ?_⟩
  · unfold mergeRowS
    rw [hr, e1, hcode, Option.bind_some, if_neg (by decide), if_pos (Or.inl rfl), hst]
    exact s1
  · have := o1.1; rw [u0, u1] at this; exact get_iff.1 this
  · rw [u0, u3] at p1; exact get_iff.1 p1
  · intro hne
    have := o1.2 (by rw [u1]; exact hne)
    rw [u0, u2] at this
    exact ⟨get_iff.1 this.1, fun d => get_iff.1 (this.2.1 d)⟩

/-! ### Example: an array of structs -/

/-- `struct { uint code, proc, el; double r[2], dist2, x[2]; }` (56 bytes, at address 1000); the arrays of the library at other addresses -/
def exArgs : SArgs 2 where
  code := ⟨1000, 56⟩
  proc := ⟨1004, 56⟩
  el := ⟨1008, 56⟩
  r := ⟨1016, 56⟩
  dist2 := ⟨1032, 56⟩
  x d := ⟨1040 + 8 * d.val, 56⟩
  sess := ⟨2 ^ 42, 0⟩
  disti := ⟨2 ^ 40, 8⟩
  elsid := ⟨2 ^ 41, 4⟩

/-- the hypotheses of `findpts_strided` on the arguments hold for up to 76 million points -/
theorem exArgs_ok (fn : Fn) (n : Nat) (hn : n * 56 ≤ 2 ^ 32) : exArgs.Ok fn n where
  disj s t hs ht hw hne _ := by
    cases s <;> cases t <;> simp only [Slot.idx] at hs ht <;> simp only [Slot.addr, Slot.size, exArgs] <;> simp only [Slot.written] at hw <;>
      simp only [ne_eq, Slot.code.injEq, Slot.proc.injEq, Slot.el.injEq, Slot.r.injEq, Slot.dist2.injEq, Slot.disti.injEq, Slot.elsid.injEq, Fin.ext_iff] at hne <;> omega
  small i hi := by
    simp only [exArgs]
    refine ⟨?_, ?_, ?_, ?_, ?_, fun _ => ?_, ?_, ?_⟩ <;> omega

/-- 3 points in such an array: a memory that holds their coordinates and can be written -/
def exMem (xs : Nat → Fin 2 → Nat) : Spec.Bytes := fun b =>
  if 1040 ≤ b ∧ b < 1056 + 56 * 2 ∧ 40 ≤ (b - 1000) % 56 then some (xs ((b - 1000) / 56) (if (b - 1000) % 56 < 48 then 0 else 1), ((b - 1000) % 56) % 8)
  else if 2 ^ 42 ≤ b then some (0, b - 2 ^ 42) else some (0, 0)

/-- the memory of the example meets the hypotheses -/
theorem exMem_ok (xs : Nat → Fin 2 → Nat) : Writable exArgs 3 (exMem xs) ∧ ∀ i, i < 3 → (∀ d, SlotIs exArgs (exMem xs) (.x i d) (xs i d)) ∧ SlotIs exArgs (exMem xs) (.sess i) 0 := by
  refine ⟨?_, ?_⟩
  · intro s _ _ k _
    unfold exMem
    split
    · rfl
    · split <;> rfl
  · intro i hi
    refine ⟨?_, ?_⟩
    · intro d k hk
      simp only [Slot.size] at hk
      simp only [Slot.addr, exArgs]
      unfold exMem
      have hd := d.isLt
      have e1 : (1040 + 8 * d.val + i * 56 + k - 1000) % 56 = 40 + 8 * d.val + k := by omega
      have e2 : (1040 + 8 * d.val + i * 56 + k - 1000) / 56 = i := by omega
      rw [if_pos (by rw [e1]; omega), e1, e2]
      have e3 : (40 + 8 * d.val + k) % 8 = k := by omega
      have e4 : (if 40 + 8 * d.val + k < 48 then (0 : Fin 2) else 1) = d := by
        have hd2 : d = 0 ∨ d = 1 := by omega
        rcases hd2 with rfl | rfl
        · exact if_pos (by show 40 + 8 * 0 + k < 48; omega)
        · exact if_neg (by show ¬ (40 + 8 * 1 + k < 48); omega)
      rw [e3, e4]
    · intro k hk
      simp only [Slot.size] at hk
      simp only [Slot.addr, exArgs]
      unfold exMem
      rw [if_neg (by omega), if_pos (by omega), Nat.mul_zero, Nat.add_zero, Nat.add_sub_cancel_left]

/-- memory in which everything from `2^20` on is unused -/
def exMemL (xs : Nat → Fin 2 → Nat) : Spec.Bytes := fun b => if b < 2 ^ 20 then exMem xs b else none

/-- `findpts_local_best` applied to the mesh of process 0 of the example, 3 points in an array of structs: all hypotheses are met -/
example (xs : List (Fp.Pt 2)) (hxs : xs.length = 3) (s : Sarray.ScratchF Nat) :
    ∃ loc : LEnv 2 Rat, LocalSetup exVal (exGObb 0) loc (exFind 0) ∧
      ∃ m', findptsLocalC exVal loc exArgs (2 ^ 21) (2 ^ 22) (2 ^ 23) xs.length (exMemL fun i => xs[i]?.getD ![0, 0]) s = .ok m' ∧
        ∀ i, i < 3 → ∃ code, SlotIs exArgs m' (.code i) code := by
  obtain ⟨loc, hloc, _⟩ := exFp_local 0 (by decide)
  refine ⟨loc, hloc, ?_⟩
  obtain ⟨C, _, _, H⟩ := findpts_local_best (exGObb_proper 0 (by decide)) exVal hloc
  obtain ⟨_, h2⟩ := exMem_ok fun i => xs[i]?.getD ![0, 0]
  have hlow : ∀ t : Slot 2, t.idx < xs.length → t.caller → t.addr exArgs + t.size ≤ 2 ^ 20 := by
    intro t ht hc
    rw [hxs] at ht
    cases t with
    | disti j => exact absurd trivial hc.1
    | elsid j => exact absurd trivial hc.1
    | proc j => exact absurd trivial hc.1
    | sess j => exact absurd rfl (hc.2 j)
    | _ => simp only [Slot.idx] at ht; simp only [Slot.addr, Slot.size, exArgs]; omega
  obtain ⟨m', f, _, g⟩ := H exArgs xs (2 ^ 21) (2 ^ 22) (2 ^ 23) (exMemL fun i => xs[i]?.getD ![0, 0]) s
    ⟨fun u t hu ht _ _ huw hne => (exArgs_ok .ms xs.length (by rw [hxs]; norm_num)).disj u t hu ht huw hne vis_ms, fun i hi => by
      obtain ⟨b1, _, b2, b3, b4, b5, _⟩ := (exArgs_ok .ms xs.length (by rw [hxs]; norm_num)).small i hi
      exact ⟨b1, b2, b3, b4, b5⟩⟩
    (by
      intro t ht hc _ k hk
      have := hlow t ht hc
      unfold exMemL exMem
      rw [if_pos (by omega)]
      split
      · rfl
      · split <;> rfl)
    (by
      intro i x hx d k hk
      have hi := (List.getElem?_eq_some_iff.1 hx).1
      have := hlow (.x i d) hi ⟨fun h => h, fun j h => by cases h⟩
      have hh := (h2 i (by omega)).1 d k hk
      unfold exMemL
      rw [if_pos (by omega), hh, hx]
      rfl)
    (fun k hk => if_neg (by omega)) (fun k hk => if_neg (by omega)) (fun k hk => if_neg (by omega)) (by norm_num) (by norm_num)
  refine ⟨m', f, fun i hi => ?_⟩
  obtain ⟨res, _, hcode, _⟩ := g i _ (List.getElem?_eq_getElem (by omega))
  exact ⟨_, hcode⟩

end Gslib.Props
