import Verif.Props.FindptsSetup
import Mathlib.Analysis.SpecialFunctions.Pow.Real

/-!
# C63, continued: meshes, and the number of cells
-/

namespace Gslib.Props
open Gslib Gslib.Mpi Gslib.Transfer Gslib.Gs Gslib.Hash Gslib.Num Gslib.Spec Gslib.GHash Gslib.Fp Gslib.Poly Gslib.Lob Gslib.Obb

/-- `pow(y,1./D)` in the real numbers -/
noncomputable def rpowRoot (D : Nat) (y : ℝ) : ℝ := y ^ ((1 : ℝ) / D)

/-- **C63**: the number of cells per coordinate is the least with `hash_n^D` at least the sum of the sizes asked for (in exact arithmetic) -/
theorem hash_n_least {D : Nat} (hD : D ≠ 0) (np : Nat) (g : Nat → Nat) (n : Nat) : hnOf (rpowRoot D) np g ≤ n ↔ (∑ q ∈ Finset.range np, g q) ≤ n ^ D := by
  unfold hnOf rpowRoot
  have hD0 : (0 : ℝ) < D := by exact_mod_cast Nat.pos_of_ne_zero hD
  rw [Int.toNat_le, Int.ceil_le]
  have h0 : (0 : ℝ) ≤ ((∑ q ∈ Finset.range np, g q : Nat) : ℝ) := Nat.cast_nonneg _
  rw [one_div, Real.rpow_inv_le_iff_of_pos h0 (by exact_mod_cast Nat.zero_le n) hD0, Real.rpow_natCast]
  exact_mod_cast Iff.rfl

/-! ### the bound of the table -/

section bound
variable {K : Type} [Field K] [LinearOrder K] [FloorRing K]

/-- `r` is the least interval that contains the intervals `d` of all of `L` -/
def LeastRange (L : List (List (Range K))) (d : Nat) (r : Range K) : Prop :=
  (∀ b ∈ L, ∀ x, b[d]? = some x → r.min ≤ x.min ∧ x.max ≤ r.max) ∧ (∃ b ∈ L, ∃ x, b[d]? = some x ∧ r.min = x.min) ∧ ∃ b ∈ L, ∃ x, b[d]? = some x ∧ r.max = x.max

theorem foldl_least {D : Nat} : ∀ (bs : List (List (Range K))) (acc : List (Range K)) (L : List (List (Range K))), acc.length = D → (∀ b ∈ bs, b.length = D) → (∀ d < D, ∃ r, acc[d]? = some r ∧ LeastRange L d r) →
    ∀ d < D, ∃ r, (bs.foldl (fun acc x => List.zipWith rangeMerge acc x) acc)[d]? = some r ∧ LeastRange (L ++ bs) d r
  | [], acc, L, _, _, h => by simpa using h
  | b :: bs, acc, L, ha, hb, h => by
    have hbl : b.length = D := hb b (by simp)
    have := foldl_least bs (List.zipWith rangeMerge acc b) (L ++ [b]) (by rw [List.length_zipWith, ha, hbl, Nat.min_self]) (fun c hc => hb c (by simp [hc])) (by
      intro d hd
      obtain ⟨r, er, h1, ⟨b2, hb2, x2, e2, m2⟩, b3, hb3, x3, e3, m3⟩ := h d hd
      have ey : b[d]? = some (b[d]'(by omega)) := List.getElem?_eq_getElem (by omega)
      generalize b[d]'(by omega) = y at ey
      refine ⟨rangeMerge r y, by rw [List.getElem?_zipWith, er, ey], ?_, ?_, ?_⟩
      · intro c hc x ex
        rw [List.mem_append, List.mem_singleton] at hc
        unfold rangeMerge
        dsimp only
        rcases hc with hc | rfl
        · obtain ⟨a1, a2⟩ := h1 c hc x ex
          constructor
          · split_ifs with hlt
            · exact hlt.le.trans a1
            · exact a1
          · split_ifs with hlt
            · exact a2
            · exact a2.trans (not_lt.1 hlt)
        · rw [ey] at ex
          obtain rfl := Option.some.inj ex
          constructor
          · split_ifs with hlt
            · exact le_refl _
            · exact not_lt.1 hlt
          · split_ifs with hlt
            · exact hlt.le
            · exact le_refl _
      · unfold rangeMerge
        by_cases hlt : y.min < r.min
        · exact ⟨b, by simp, y, ey, by simp only [if_pos hlt]⟩
        · exact ⟨b2, by simp [hb2], x2, e2, by simp only [if_neg hlt]; exact m2⟩
      · unfold rangeMerge
        by_cases hlt : r.max > y.max
        · exact ⟨b3, by simp [hb3], x3, e3, by simp only [if_pos hlt]; exact m3⟩
        · exact ⟨b, by simp, y, ey, by simp only [if_neg hlt]⟩)
    simpa [List.append_assoc] using this

theorem hashBb_least {D : Nat} {L : List (List (Range K))} (hne : L ≠ []) (h : ∀ b ∈ L, b.length = D) (d : Nat) (hd : d < D) : ∃ bnd r, hashBb L = some bnd ∧ bnd[d]? = some r ∧ LeastRange L d r := by
  cases L with
  | nil => exact absurd rfl hne
  | cons b bs =>
    obtain ⟨r, e, hr⟩ := foldl_least bs b [b] (h b (by simp)) (fun c hc => h c (by simp [hc])) (fun d hd => by
      have ey : b[d]? = some (b[d]'(by have := h b (by simp); omega)) := List.getElem?_eq_getElem _
      exact ⟨_, ey, fun c hc x ex => by rw [List.mem_singleton.1 hc, ey] at ex; obtain rfl := Option.some.inj ex; exact ⟨le_refl _, le_refl _⟩, ⟨b, by simp, _, ey, rfl⟩, b, by simp, _, ey, rfl⟩) d hd
    exact ⟨_, r, rfl, e, hr⟩

/-- **C63**: the bound after `findpts_setup` (`SetupFacts.bnd`) is, in each coordinate, the least interval that contains the boxes of all elements of all processes, and 0 if some process has no elements -/
theorem setup_bound {D np : Nat} (hnp : 0 < np) {nel : Nat → Nat} {box : Nat → Nat → Box K} {d : Nat} (hd : d < D) :
    ∃ r, (globalBnd D np (obbOf D nel box))[d]? = some r ∧ (∀ q < np, ∀ e < nel q, r.min ≤ ((box q e).x d).1 ∧ ((box q e).x d).2 ≤ r.max) ∧ (∀ q < np, nel q = 0 → r.min ≤ 0 ∧ 0 ≤ r.max) ∧
      (∃ q < np, (nel q = 0 ∧ r.min = 0) ∨ ∃ e < nel q, r.min = ((box q e).x d).1) ∧ ∃ q < np, (nel q = 0 ∧ r.max = 0) ∨ ∃ e < nel q, r.max = ((box q e).x d).2 := by
  have hbr : ∀ b : Box K, (boxRanges D b)[d]? = some ⟨(b.x d).1, (b.x d).2⟩ := fun b => by
    unfold boxRanges
    rw [List.getElem?_ofFn, dif_pos hd]
  have hloc : ∀ q, (localBnd D (obbOf D nel box q)).length = D ∧ ∃ r, (localBnd D (obbOf D nel box q))[d]? = some r ∧ ((nel q = 0 ∧ r = ⟨0, 0⟩) ∨
      (0 < nel q ∧ (∀ e < nel q, r.min ≤ ((box q e).x d).1 ∧ ((box q e).x d).2 ≤ r.max) ∧ (∃ e < nel q, r.min = ((box q e).x d).1) ∧ ∃ e < nel q, r.max = ((box q e).x d).2)) := by
    intro q
    by_cases h0 : nel q = 0
    · have : localBnd D (obbOf D nel box q) = List.replicate D ⟨0, 0⟩ := by simp [obbOf, h0, localBnd, hashBb]
      rw [this]
      exact ⟨by simp, ⟨0, 0⟩, by rw [List.getElem?_replicate, if_pos hd], Or.inl ⟨h0, rfl⟩⟩
    · have hlen : ∀ b ∈ obbOf D nel box q, b.length = D := fun b hb => by
        obtain ⟨b', -, rfl⟩ := List.mem_map.1 hb
        simp [boxRanges]
      have hne : obbOf D nel box q ≠ [] := fun h => by
        have := congrArg List.length h
        simp [obbOf] at this
        exact h0 this
      have hmem : ∀ b, b ∈ obbOf D nel box q ↔ ∃ e < nel q, b = boxRanges D (box q e) := fun b => by
        unfold obbOf
        simp only [List.mem_map, List.mem_range]
        constructor
        · rintro ⟨_, ⟨e, he, rfl⟩, rfl⟩; exact ⟨e, he, rfl⟩
        · rintro ⟨e, he, rfl⟩; exact ⟨_, ⟨e, he, rfl⟩, rfl⟩
      obtain ⟨bnd, r, eb, er, h1, ⟨b2, hb2, x2, e2, m2⟩, b3, hb3, x3, e3, m3⟩ := hashBb_least hne hlen d hd
      have hll : bnd.length = D := by
        cases hL : obbOf D nel box q with
        | nil => exact absurd hL hne
        | cons c cs =>
          rw [hL] at eb
          obtain rfl := Option.some.inj eb
          rw [hL] at hlen
          clear hL er h1 hb2 hb3 hmem hne eb
          have : ∀ (cs : List (List (Range K))) (c : List (Range K)), c.length = D → (∀ b ∈ cs, b.length = D) → (cs.foldl (fun acc x => List.zipWith rangeMerge acc x) c).length = D := by
            intro cs
            induction cs with
            | nil => exact fun c hc _ => hc
            | cons a cs ih => exact fun c hc h => ih _ (by rw [List.length_zipWith, hc, h a (by simp), Nat.min_self]) fun b hb => h b (by simp [hb])
          exact this cs c (hlen c (by simp)) fun b hb => hlen b (by simp [hb])
      refine ⟨by rw [localBnd, eb]; exact hll, r, by rw [localBnd, eb]; exact er, Or.inr ⟨by omega, fun e he => ?_, ?_, ?_⟩⟩
      · exact h1 _ ((hmem _).2 ⟨e, he, rfl⟩) _ (hbr _)
      · obtain ⟨e, he, rfl⟩ := (hmem b2).1 hb2
        rw [hbr] at e2
        obtain rfl := Option.some.inj e2
        exact ⟨e, he, m2⟩
      · obtain ⟨e, he, rfl⟩ := (hmem b3).1 hb3
        rw [hbr] at e3
        obtain rfl := Option.some.inj e3
        exact ⟨e, he, m3⟩
  obtain ⟨bnd, r, eb, er, h1, ⟨b2, hb2, x2, e2, m2⟩, b3, hb3, x3, e3, m3⟩ := hashBb_least (L := (List.range np).map fun q => localBnd D (obbOf D nel box q)) (D := D)
    (fun h => by have := congrArg List.length h; simp at this; omega) (fun b hb => by obtain ⟨q, -, rfl⟩ := List.mem_map.1 hb; exact (hloc q).1) d hd
  refine ⟨r, by rw [globalBnd, eb]; exact er, fun q hq e he => ?_, fun q hq h0 => ?_, ?_, ?_⟩
  · obtain ⟨-, x, ex, hx⟩ := hloc q
    obtain ⟨a1, a2⟩ := h1 _ (List.mem_map.2 ⟨q, List.mem_range.2 hq, rfl⟩) x ex
    rcases hx with ⟨h, -⟩ | ⟨-, h, -⟩
    · omega
    · exact ⟨a1.trans (h e he).1, (h e he).2.trans a2⟩
  · obtain ⟨-, x, ex, hx⟩ := hloc q
    obtain ⟨a1, a2⟩ := h1 _ (List.mem_map.2 ⟨q, List.mem_range.2 hq, rfl⟩) x ex
    rcases hx with ⟨-, rfl⟩ | ⟨h, -⟩
    · exact ⟨a1, a2⟩
    · omega
  · obtain ⟨q, hq, rfl⟩ := List.mem_map.1 hb2
    obtain ⟨-, x, ex, hx⟩ := hloc q
    rw [ex] at e2
    obtain rfl := Option.some.inj e2
    refine ⟨q, List.mem_range.1 hq, ?_⟩
    rcases hx with ⟨h, rfl⟩ | ⟨-, -, ⟨e, he, h⟩, -⟩
    · exact Or.inl ⟨h, m2⟩
    · exact Or.inr ⟨e, he, m2.trans h⟩
  · obtain ⟨q, hq, rfl⟩ := List.mem_map.1 hb3
    obtain ⟨-, x, ex, hx⟩ := hloc q
    rw [ex] at e3
    obtain rfl := Option.some.inj e3
    refine ⟨q, List.mem_range.1 hq, ?_⟩
    rcases hx with ⟨h, rfl⟩ | ⟨-, -, -, e, he, h⟩
    · exact Or.inl ⟨h, m3⟩
    · exact Or.inr ⟨e, he, m3.trans h⟩
end bound

section gen
variable {D np : Nat} (hD : D ≠ 0) (hnp : 0 < np) (hnp' : np ≤ 4294967295) (root : ℝ → ℝ) (big : ℝ) (toU : ℝ → Nat) (ofU : Nat → ℝ) {a : Nat → SuArgs ℝ} {box : Nat → Nat → Box ℝ}
  (hbox : ∀ q < np, ∃ out, (a q).obbox = some out ∧ ∀ e < (a q).nel, out e = some (box q e)) (hnel : ∀ q < np, (a q).nel ≤ 4294967295)
  (hprop : ∀ q < np, ∀ e < (a q).nel, ∀ d < D, ((box q e).x d).1 < ((box q e).x d).2) (hnu : ∀ q < np, nu0Of root (a q).localSize (a q).nel ≠ 0)
  {test : Box ℝ → (Nat → ℝ) → ℝ} {Inside : Nat → Nat → (Nat → ℝ) → Prop}
  (hin : ∀ q < np, ∀ e < (a q).nel, ∀ p, Inside q e p → 0 ≤ test (box q e) p ∧ ∀ d < D, ((box q e).x d).1 < p d ∧ p d < ((box q e).x d).2)
  (hhn : 0 < hnOf root np fun p => (a p).globalSize)
  (hcell : (hnOf root np fun p => (a p).globalSize) ^ D ≤ 2 ^ 32 ∨ (np ∣ 2 ^ 32 ∧ (hnOf root np fun p => (a p).globalSize) ^ D ≤ 2 ^ 32 * np))
  (hsmall : (∑ q ∈ Finset.range np, hashCount (hnOf root np fun p => (a p).globalSize) (globalBnd D np fun q => boxList D (a q).nel (box q)) (boxList D (a q).nel (box q))) * 16 < Crystal.intMax)
  {nptMax : Nat} {findEl : Nat → Nat → List (Fp.Pt D) → List (FRes D)} {find : Nat → Nat → Fp.Pt D → FRes D} (hS : Searches np nptMax findEl find)
include hD hnp hnp' hbox hnel hprop hnu hin hhn hcell hsmall hS

omit hD hnp hnp' hbox hnel hprop hnu hin hhn hcell hsmall hS in
theorem obbOf_eq (a : Nat → SuArgs ℝ) (box : Nat → Nat → Box ℝ) : (obbOf D (fun q => (a q).nel) box) = fun q => boxList D (a q).nel (box q) := by
  funext q
  unfold obbOf boxList
  rw [List.map_map]
  rfl

omit hD hnp hnp' hbox hnel hprop hnu hin hhn hcell hsmall hS in
/-- the tests of the code are those of the boxes in memory -/
theorem tests_of_facts {sf : Nat → SuSt ℝ} (hsf : ∀ q, q < np → SetupFacts D np root a box q (sf q)) (val : Nat → ℝ) (findEl : Nat → Nat → List (Fp.Pt D) → List (FRes D)) (ms : Bool) (nsid : Nat → Nat) :
    TestsBoxes val np (fun q => (a q).nel) box test fun q => (sf q).env val test (findEl q) nptMax ms (nsid q) := by
  intro q hq e he x
  simp only [SuSt.env, (hsf q hq).boxes, List.getElem?_map, List.getElem?_range he, Option.map_some, decide_eq_true_eq]
  rfl

omit hin hnel hS in
/-- `findpts_setup`, with the consequence `Q` of the construction of the distributed table -/
theorem setup_then (Q : (Nat → HbSt ℝ) → Prop) (hQ : ∀ s s', (∀ q, q < np → s q = s' q) → Q s → Q s') (s0 : Nat → SuSt ℝ)
    (G : ∀ s1 : Nat → HbSt ℝ, (∀ q, q < np → (s1 q).obb = boxList D (a q).nel (box q)) →
      AllSchedules (GHash.hashBuild D (hnOf root np fun p => (a p).globalSize) np (globalBnd D np fun q => boxList D (a q).nel (box q))).prog np s1 Q) :
    AllSchedules (findptsSetup D root (realDom big toU ofU) np a).prog np s0 fun sf => Q (fun q => (sf q).hb) ∧ ∀ q, q < np → SetupFacts D np root a box q (sf q) := by
  have hc : (hnOf root np fun p => (a p).globalSize) ^ D ≤ 4294967296 * np := by
    have := Nat.mul_le_mul_left (2 ^ 32) hnp
    have e : (2 : Nat) ^ 32 = 4294967296 := by norm_num
    rw [← e]
    rcases hcell with hc | ⟨_, hc⟩
    · omega
    · exact hc
  have e := obbOf_eq (D := D) a box
  refine findptsSetup_all hD hnp hnp' big toU ofU hbox hprop hnu hhn hc (by rw [e]; exact hsmall) s0 Q hQ ?_
  rw [e]
  exact G _ fun _ _ => rfl

/-- **C63** for any boxes that contain their elements strictly -/
theorem findpts_setup_inside (val : Nat → ℝ) (s0 : Nat → SuSt ℝ) : AllSchedules (findptsSetup D root (realDom big toU ofU) np a).prog np s0 fun sf => ∀ nsid : Nat → Nat, (∀ q < np, nsid q < 4294967296) →
      ∀ t0 : Nat → FpSt D, CallOk np (fun p => (t0 p).xs) (fun p => (t0 p).outs) → AllSchedules (findpts val np fun q => (sf q).env val test (findEl q) nptMax false (nsid q)).prog np t0 fun tf =>
        ∀ p, p < np → ∀ (i : Nat) x, (t0 p).xs[i]? = some x → ∀ q < np, ∀ e < (a q).nel, Inside q e (ptFn val x.1) → ∃ o, (tf p).outs[i]? = some o ∧ FoundIn val (find q e x.1) o := by
  have H := setup_then hD hnp hnp' root big toU ofU hbox hprop hnu hhn hcell hsmall _ (by
    intro s s' hs h env he
    refine h env fun q hq => ?_
    have := he q hq
    rw [← hs q hq] at this
    exact this) s0 fun s1 h1 => findpts_inside hhn hnp hnp' (nel := fun q => (a q).nel) hprop hin hcell hsmall s1 h1 val find
  refine ⟨H.noInfinite, H.noDeadlock, fun c hr hf => ⟨?_, (H.result c hr hf).2⟩⟩
  obtain ⟨h1, h2⟩ := (H.result c hr hf).1
  intro nsid hsid t0 ht
  have := setupDone_of_facts (val := val) (test := test) hnel h2 hS false hsid
  rw [obbOf_eq] at this
  exact h1 _ this (tests_of_facts root h2 val findEl false nsid) t0 ht

/-- **C63** for `findptsms` -/
theorem findptsms_setup_inside (val : Nat → ℝ) (low : Nat) (hlow : ∀ q el x, val low ≤ val (find q el x).disti) (junk : LRes D × Nat) (s0 : Nat → SuSt ℝ) :
    AllSchedules (findptsSetup D root (realDom big toU ofU) np a).prog np s0 fun sf => ∀ nsid : Nat → Nat, (∀ q < np, nsid q < 4294967296) → ∀ sessm : Nat,
      ∀ t0 : Nat → FpSt D, CallOk np (fun p => (t0 p).xs) (fun p => (t0 p).outs) → AllSchedules (findptsMs val low junk np sessm fun q => (sf q).env val test (findEl q) nptMax true (nsid q)).prog np t0 fun tf =>
        ∀ p, p < np → ∀ (i : Nat) x, (t0 p).xs[i]? = some x → ∀ q < np, ∀ e < (a q).nel, Inside q e (ptFn val x.1) → (sessm = 1 ↔ nsid q = x.2) →
          ∃ o, (tf p).outs[i]? = some o ∧ (o.code = 0 ∨ o.code = 1) := by
  have H := setup_then hD hnp hnp' root big toU ofU hbox hprop hnu hhn hcell hsmall _ (by
    intro s s' hs h env he
    refine h env fun q hq => ?_
    have := he q hq
    rw [← hs q hq] at this
    exact this) s0 fun s1 h1 => findptsms_inside hhn hnp hnp' (nel := fun q => (a q).nel) hprop hin hcell hsmall s1 h1 val find low hlow junk
  refine ⟨H.noInfinite, H.noDeadlock, fun c hr hf => ⟨?_, (H.result c hr hf).2⟩⟩
  obtain ⟨h1, h2⟩ := (H.result c hr hf).1
  intro nsid hsid sessm t0 ht
  have := setupDone_of_facts (val := val) (test := test) hnel h2 hS true hsid
  rw [obbOf_eq] at this
  exact h1 _ this (tests_of_facts root h2 val findEl true nsid) sessm t0 ht
end gen

/-- the arguments of `findpts_setup_2` on each process: mesh, number of elements, sizes of the tables -/
noncomputable def args2 (fuel : Nat) (eps : ℝ) (guess : Nat → Nat → ℝ) (nr mr ns ms : Nat) (tol : ℝ) (nel ucap : Nat → Nat) (el : Nat → Nat → Mem ℝ) (lsz gsz : Nat → Nat) (q : Nat) : SuArgs ℝ :=
  ⟨calc2 fuel eps guess cheb nr mr ns ms (nel q) tol (ucap q) (el q), nel q, lsz q, gsz q⟩

/-- the arguments of `findpts_setup_3` on each process -/
noncomputable def args3 (fuel : Nat) (eps : ℝ) (guess : Nat → Nat → ℝ) (nr mr ns ms nt mt : Nat) (tol : ℝ) (nel ucap : Nat → Nat) (el : Nat → Nat → Mem ℝ) (lsz gsz : Nat → Nat) (q : Nat) : SuArgs ℝ :=
  ⟨calc3 fuel eps guess cheb nr mr ns ms nt mt (nel q) tol (ucap q) (el q), nel q, lsz q, gsz q⟩

section two
variable (fuel : Nat) (eps : ℝ) (guess : Nat → Nat → ℝ) {nr mr ns ms : Nat} (hnr : 2 ≤ nr) (hnr' : nr ≤ 24) (hmr : 4 * nr ≤ mr) (hns : 2 ≤ ns) (hns' : ns ≤ 24) (hms : 4 * ns ≤ ms)
  {tol : ℝ} (htol : 0 < tol) {np : Nat} {nel ucap : Nat → Nat} {el : Nat → Nat → Mem ℝ} {X : Nat → Nat → Nat → ℝ} (hmesh : Mesh2 np nr ns nel ucap el X)
  (hnp : 0 < np) (hnp' : np ≤ 4294967295) (hnel : ∀ q < np, nel q ≤ 4294967295) (root : ℝ → ℝ) (big : ℝ) (toU : ℝ → Nat) (ofU : Nat → ℝ) (lsz gsz : Nat → Nat)
  (hnu : ∀ q < np, nu0Of root (lsz q) (nel q) ≠ 0) (hhn : 0 < hnOf root np gsz) (hcell : hnOf root np gsz ^ 2 ≤ 2 ^ 32 ∨ (np ∣ 2 ^ 32 ∧ hnOf root np gsz ^ 2 ≤ 2 ^ 32 * np))
  {nptMax : Nat} {findEl : Nat → Nat → List (Fp.Pt 2) → List (FRes 2)} {find : Nat → Nat → Fp.Pt 2 → FRes 2} (hS : Searches np nptMax findEl find) (val : Nat → ℝ)
include hnr hnr' hmr hns hns' hms htol hmesh hnp hnp' hnel hnu hhn hcell hS

/-- **C63 (2D)**: `findpts_setup_2`, then `findpts_2`. Meshes of elements with 2 to 24 nodes per direction and nonzero Jacobian inside, on any number of processes; `m>=4n`, a positive tolerance. On every schedule of the setup (boxes,
local tables, reductions, distributed table), every process finishes it, and on every schedule of any call of `findpts_2` thereafter every point of the mesh is found: see `findpts_finds_2`. The tables must fit in the sizes of the
machine (`hcell`, `hsmall`). -/
theorem findpts_setup_finds_2 : ∃ box, Boxes2 fuel eps guess nr mr ns ms tol np nel ucap el box ∧
    ((∑ q ∈ Finset.range np, hashCount (hnOf root np gsz) (globalBnd 2 np fun q => boxList 2 (nel q) (box q)) (boxList 2 (nel q) (box q))) * 16 < Crystal.intMax →
    ∀ s0 : Nat → SuSt ℝ, AllSchedules (findptsSetup 2 root (realDom big toU ofU) np (args2 fuel eps guess nr mr ns ms tol nel ucap el lsz gsz)).prog np s0 fun sf =>
      ∀ nsid : Nat → Nat, (∀ q < np, nsid q < 4294967296) → ∀ t0 : Nat → FpSt 2, CallOk np (fun p => (t0 p).xs) (fun p => (t0 p).outs) →
        AllSchedules (findpts val np fun q => (sf q).env val test2 (findEl q) nptMax false (nsid q)).prog np t0 fun tf =>
          ∀ p, p < np → ∀ (i : Nat) x, (t0 p).xs[i]? = some x → ∀ q < np, ∀ e < nel q, InEl2 nr ns X q e (ptFn val x.1) → ∃ o, (tf p).outs[i]? = some o ∧ FoundIn val (find q e x.1) o) := by
  obtain ⟨box, hb, hin, hprop⟩ := boxes2_ok fuel eps guess hnr hnr' hmr hns hns' hms htol hmesh
  exact ⟨box, hb, fun hsmall s0 => findpts_setup_inside (by omega) hnp hnp' root big toU ofU (a := args2 fuel eps guess nr mr ns ms tol nel ucap el lsz gsz) hb hnel hprop hnu hin hhn hcell hsmall hS val s0⟩

/-- **C63 (2D)** for `findptsms_2` -/
theorem findptsms_setup_finds_2 (low : Nat) (hlow : ∀ q el x, val low ≤ val (find q el x).disti) (junk : LRes 2 × Nat) : ∃ box, Boxes2 fuel eps guess nr mr ns ms tol np nel ucap el box ∧
    ((∑ q ∈ Finset.range np, hashCount (hnOf root np gsz) (globalBnd 2 np fun q => boxList 2 (nel q) (box q)) (boxList 2 (nel q) (box q))) * 16 < Crystal.intMax →
    ∀ s0 : Nat → SuSt ℝ, AllSchedules (findptsSetup 2 root (realDom big toU ofU) np (args2 fuel eps guess nr mr ns ms tol nel ucap el lsz gsz)).prog np s0 fun sf =>
      ∀ nsid : Nat → Nat, (∀ q < np, nsid q < 4294967296) → ∀ sessm : Nat, ∀ t0 : Nat → FpSt 2, CallOk np (fun p => (t0 p).xs) (fun p => (t0 p).outs) →
        AllSchedules (findptsMs val low junk np sessm fun q => (sf q).env val test2 (findEl q) nptMax true (nsid q)).prog np t0 fun tf =>
          ∀ p, p < np → ∀ (i : Nat) x, (t0 p).xs[i]? = some x → ∀ q < np, ∀ e < nel q, InEl2 nr ns X q e (ptFn val x.1) → (sessm = 1 ↔ nsid q = x.2) →
            ∃ o, (tf p).outs[i]? = some o ∧ (o.code = 0 ∨ o.code = 1)) := by
  obtain ⟨box, hb, hin, hprop⟩ := boxes2_ok fuel eps guess hnr hnr' hmr hns hns' hms htol hmesh
  exact ⟨box, hb, fun hsmall s0 => findptsms_setup_inside (by omega) hnp hnp' root big toU ofU (a := args2 fuel eps guess nr mr ns ms tol nel ucap el lsz gsz) hb hnel hprop hnu hin hhn hcell hsmall hS val low hlow junk s0⟩
end two

section three
variable (fuel : Nat) (eps : ℝ) (guess : Nat → Nat → ℝ) {nr mr ns ms nt mt : Nat} (hnr : 2 ≤ nr) (hnr' : nr ≤ 24) (hmr : 4 * nr ≤ mr) (hns : 2 ≤ ns) (hns' : ns ≤ 24) (hms : 4 * ns ≤ ms) (hnt : 2 ≤ nt) (hnt' : nt ≤ 24) (hmt : 4 * nt ≤ mt)
  {tol : ℝ} (htol : 0 < tol) {np : Nat} {nel ucap : Nat → Nat} {el : Nat → Nat → Mem ℝ} {X : Nat → Nat → Nat → ℝ} (hmesh : Mesh3 np nr ns nt nel ucap el X)
  (hnp : 0 < np) (hnp' : np ≤ 4294967295) (hnel : ∀ q < np, nel q ≤ 4294967295) (root : ℝ → ℝ) (big : ℝ) (toU : ℝ → Nat) (ofU : Nat → ℝ) (lsz gsz : Nat → Nat)
  (hnu : ∀ q < np, nu0Of root (lsz q) (nel q) ≠ 0) (hhn : 0 < hnOf root np gsz) (hcell : hnOf root np gsz ^ 3 ≤ 2 ^ 32 ∨ (np ∣ 2 ^ 32 ∧ hnOf root np gsz ^ 3 ≤ 2 ^ 32 * np))
  {nptMax : Nat} {findEl : Nat → Nat → List (Fp.Pt 3) → List (FRes 3)} {find : Nat → Nat → Fp.Pt 3 → FRes 3} (hS : Searches np nptMax findEl find) (val : Nat → ℝ)
include hnr hnr' hmr hns hns' hms hnt hnt' hmt htol hmesh hnp hnp' hnel hnu hhn hcell hS

/-- **C63 (3D)**: `findpts_setup_3`, then `findpts_3`; compare `findpts_setup_finds_2` -/
theorem findpts_setup_finds_3 : ∃ box, Boxes3 fuel eps guess nr mr ns ms nt mt tol np nel ucap el box ∧
    ((∑ q ∈ Finset.range np, hashCount (hnOf root np gsz) (globalBnd 3 np fun q => boxList 3 (nel q) (box q)) (boxList 3 (nel q) (box q))) * 16 < Crystal.intMax →
    ∀ s0 : Nat → SuSt ℝ, AllSchedules (findptsSetup 3 root (realDom big toU ofU) np (args3 fuel eps guess nr mr ns ms nt mt tol nel ucap el lsz gsz)).prog np s0 fun sf =>
      ∀ nsid : Nat → Nat, (∀ q < np, nsid q < 4294967296) → ∀ t0 : Nat → FpSt 3, CallOk np (fun p => (t0 p).xs) (fun p => (t0 p).outs) →
        AllSchedules (findpts val np fun q => (sf q).env val test3 (findEl q) nptMax false (nsid q)).prog np t0 fun tf =>
          ∀ p, p < np → ∀ (i : Nat) x, (t0 p).xs[i]? = some x → ∀ q < np, ∀ e < nel q, InEl3 nr ns nt X q e (ptFn val x.1) → ∃ o, (tf p).outs[i]? = some o ∧ FoundIn val (find q e x.1) o) := by
  obtain ⟨box, hb, hin, hprop⟩ := boxes3_ok fuel eps guess hnr hnr' hmr hns hns' hms hnt hnt' hmt htol hmesh
  exact ⟨box, hb, fun hsmall s0 => findpts_setup_inside (by omega) hnp hnp' root big toU ofU (a := args3 fuel eps guess nr mr ns ms nt mt tol nel ucap el lsz gsz) hb hnel hprop hnu hin hhn hcell hsmall hS val s0⟩

/-- **C63 (3D)** for `findptsms_3` -/
theorem findptsms_setup_finds_3 (low : Nat) (hlow : ∀ q el x, val low ≤ val (find q el x).disti) (junk : LRes 3 × Nat) : ∃ box, Boxes3 fuel eps guess nr mr ns ms nt mt tol np nel ucap el box ∧
    ((∑ q ∈ Finset.range np, hashCount (hnOf root np gsz) (globalBnd 3 np fun q => boxList 3 (nel q) (box q)) (boxList 3 (nel q) (box q))) * 16 < Crystal.intMax →
    ∀ s0 : Nat → SuSt ℝ, AllSchedules (findptsSetup 3 root (realDom big toU ofU) np (args3 fuel eps guess nr mr ns ms nt mt tol nel ucap el lsz gsz)).prog np s0 fun sf =>
      ∀ nsid : Nat → Nat, (∀ q < np, nsid q < 4294967296) → ∀ sessm : Nat, ∀ t0 : Nat → FpSt 3, CallOk np (fun p => (t0 p).xs) (fun p => (t0 p).outs) →
        AllSchedules (findptsMs val low junk np sessm fun q => (sf q).env val test3 (findEl q) nptMax true (nsid q)).prog np t0 fun tf =>
          ∀ p, p < np → ∀ (i : Nat) x, (t0 p).xs[i]? = some x → ∀ q < np, ∀ e < nel q, InEl3 nr ns nt X q e (ptFn val x.1) → (sessm = 1 ↔ nsid q = x.2) →
            ∃ o, (tf p).outs[i]? = some o ∧ (o.code = 0 ∨ o.code = 1)) := by
  obtain ⟨box, hb, hin, hprop⟩ := boxes3_ok fuel eps guess hnr hnr' hmr hns hns' hms hnt hnt' hmt htol hmesh
  exact ⟨box, hb, fun hsmall s0 => findptsms_setup_inside (by omega) hnp hnp' root big toU ofU (a := args3 fuel eps guess nr mr ns ms nt mt tol nel ucap el lsz gsz) hb hnel hprop hnu hin hhn hcell hsmall hS val low hlow junk s0⟩
end three

/-- the hypotheses of `findpts_setup_finds_2` hold for two processes with the element `x=r`, `y=s+r^2` each, local tables of size 2 and a distributed table of size 1; the point asked may be anywhere in it, also on its boundary -/
example (fuel : Nat) (eps : ℝ) (guess : Nat → Nat → ℝ) (big : ℝ) (toU : ℝ → Nat) (ofU : Nat → ℝ) (val : Nat → ℝ) (find : Nat → Nat → Fp.Pt 2 → FRes 2)
    (hfit : ∀ q el x, (∀ i, (find q el x).r i < 2 ^ 64) ∧ (find q el x).dist2 < 2 ^ 64 ∧ (find q el x).disti < 2 ^ 64) (x : Fp.Pt 2) (hx : ∀ d, x d < 2 ^ 64) (r s : ℝ)
    (hr : -1 ≤ r) (hr' : r ≤ 1) (hs : -1 ≤ s) (hs' : s ≤ 1) (h0 : val (x 0) = r) (h1 : val (x 1) = s + r ^ 2) (s0 : Nat → SuSt ℝ) :
    AllSchedules (findptsSetup 2 (rpowRoot 2) (realDom big toU ofU) 2 (args2 fuel eps guess 3 12 3 12 (1/10) (fun _ => 1) (fun _ => 9) (fun _ c i => some (exEl c i)) (fun _ => 2) fun q => if q = 0 then 1 else 0)).prog 2 s0 fun sf =>
      ∀ t0 : Nat → FpSt 2, (∀ p, (t0 p).xs = if p = 0 then [(x, 0)] else []) → (∀ p, (t0 p).outs.length = (t0 p).xs.length) →
        AllSchedules (findpts val 2 fun q => (sf q).env val test2 (fun el pts => pts.map (find q el)) 5 false 0).prog 2 t0 fun tf =>
          ∃ o, (tf 0).outs[0]? = some o ∧ FoundIn val (find 0 0 x) o ∧ FoundIn val (find 1 0 x) o := by
  have hX : ∀ c e, e < 1 → (fun i => exEl c (e * (3 * 3) + i)) = exEl c := fun c e he => by
    obtain rfl : e = 0 := by omega
    funext i; rw [Nat.zero_mul, Nat.zero_add]
  have hmesh : Mesh2 2 3 3 (fun _ => 1) (fun _ => 9) (fun _ c i => some (exEl c i)) (fun _ => exEl) := by
    refine ⟨fun q _ c _ i _ => by rw [Nat.zero_add], fun _ _ => by norm_num, fun q _ e he r s _ _ _ _ => ?_⟩
    have h0 : ∀ a b, poly2 3 (fixVal 3) 3 (fixVal 3) (exEl 0) a b = a := fun a b => (exEl_poly a b).1
    have h1 : ∀ a b, poly2 3 (fixVal 3) 3 (fixVal 3) (exEl 1) a b = b + a ^ 2 := fun a b => (exEl_poly a b).2
    simp only [hX _ e he, jac2, h0, h1, Matrix.det_fin_two_of]
    simp
  have hhn : hnOf (rpowRoot 2) 2 (fun q => if q = 0 then 1 else 0) = 1 := by
    refine le_antisymm ((hash_n_least (by omega) _ _ _).2 (by decide)) ?_
    by_contra h
    have := (hash_n_least (D := 2) (by omega) 2 (fun q => if q = 0 then 1 else 0) 0).1 (by omega)
    revert this; decide
  have hnu : nu0Of (rpowRoot 2) 2 1 ≠ 0 := by
    unfold nu0Of rpowRoot
    rw [show (2 + 4294967296 - 1) % 4294967296 = 1 by norm_num, Nat.cast_one, Real.one_rpow]
    simp
  obtain ⟨box, hb, H⟩ := findpts_setup_finds_2 fuel eps guess (nr := 3) (mr := 12) (ns := 3) (ms := 12) (by omega) (by omega) (by omega) (by omega) (by omega) (by omega) (tol := 1/10) (by norm_num) hmesh
    (by omega) (by omega) (fun _ _ => by omega) (rpowRoot 2) big toU ofU (fun _ => 2) (fun q => if q = 0 then 1 else 0) (fun _ _ => hnu) (by omega) (Or.inl (by rw [hhn]; norm_num))
    (nptMax := 5) (findEl := fun q el pts => pts.map (find q el)) (find := find) ⟨fun _ _ _ _ _ => rfl, by omega, hfit⟩ val
  have hlen : ∀ q, (boxList 2 1 (box q)).length = 1 := fun q => by simp [boxList]
  have G := H (by
    rw [hhn, Finset.sum_range_succ, Finset.sum_range_one]
    have a := hashCount_one_le (globalBnd 2 2 fun q => boxList 2 1 (box q)) (boxList 2 1 (box 0))
    have b := hashCount_one_le (globalBnd 2 2 fun q => boxList 2 1 (box q)) (boxList 2 1 (box 1))
    rw [hlen] at a b
    have : Crystal.intMax = 2147483647 := rfl
    omega) s0
  refine ⟨G.noInfinite, G.noDeadlock, fun c hr2 hf => ⟨fun t0 ht hto => ?_, (G.result c hr2 hf).2⟩⟩
  have T := (G.result c hr2 hf).1 (fun _ => 0) (fun _ _ => by omega) t0 ⟨fun p _ => hto p, fun p _ y hy => ?_, fun p _ => ?_, ?_⟩
  · refine ⟨T.noInfinite, T.noDeadlock, fun c' hr' hf' => ⟨?_, (T.result c' hr' hf').2⟩⟩
    have hxs : (t0 0).xs[0]? = some (x, 0) := by rw [ht 0]; rfl
    have hp : ∀ q, InEl2 3 3 (fun _ => exEl) q 0 (ptFn val x) := fun q => by
      refine ⟨r, s, by assumption, by assumption, hs, hs', fun c hc => ?_⟩
      rw [show (fun i => exEl c (0 * (3 * 3) + i)) = exEl c from hX c 0 (by omega)]
      have hc : c = 0 ∨ c = 1 := by omega
      rcases hc with rfl | rfl
      · rw [(exEl_poly r s).1]; exact h0
      · rw [(exEl_poly r s).2]; exact h1
    obtain ⟨o, ho, a⟩ := (T.result c' hr' hf').1 0 (by omega) 0 _ hxs 0 (by omega) 0 (by omega) (hp 0)
    obtain ⟨o', ho', b⟩ := (T.result c' hr' hf').1 0 (by omega) 0 _ hxs 1 (by omega) 0 (by omega) (hp 1)
    rw [ho] at ho'
    obtain rfl := Option.some.inj ho'
    exact ⟨o, ho, a, b⟩
  · rw [ht p] at hy
    split_ifs at hy with h
    · obtain rfl := List.mem_singleton.1 hy
      exact ⟨hx, by norm_num⟩
    · simp at hy
  · show (t0 p).xs.length ≤ _
    rw [ht p]; split_ifs <;> norm_num
  · rw [Finset.sum_range_succ, Finset.sum_range_one, ht 0, ht 1]
    norm_num [Crystal.intMax]

end Gslib.Props
