import Verif.Model.Obbox
import Verif.Lemmas.LobLin

/-!
# Runs of `obbox_calc`
-/

namespace Gslib.Obb
open Gslib.Num Gslib.Poly Gslib.Lob Finset
variable {K : Type} [Field K] [LinearOrder K] [IsStrictOrderedRing K]

/-- inclusion of ranges -/
def Sub (b a : K × K) : Prop := a.1 ≤ b.1 ∧ b.2 ≤ a.2

theorem Sub.refl (a : K × K) : Sub a a := ⟨le_refl _, le_refl _⟩
theorem Sub.trans {a b c : K × K} (h : Sub a b) (h' : Sub b c) : Sub a c := ⟨h'.1.trans h.1, h.2.trans h'.2⟩

theorem merge_left (a b : K × K) : Sub a (merge a b) := by
  unfold merge Sub
  dsimp only
  constructor
  · split_ifs with h
    · exact h.le
    · exact le_refl _
  · split_ifs with h
    · exact le_refl _
    · exact not_lt.1 h

theorem merge_right (a b : K × K) : Sub b (merge a b) := by
  unfold merge Sub
  dsimp only
  constructor
  · split_ifs with h
    · exact le_refl _
    · exact not_lt.1 h
  · split_ifs with h
    · exact h.le
    · exact le_refl _

/-- a pointer to `N` values `u`, not into `work[wo..wo+len)` if it points to `work` -/
structure Src.Ok (s : Src K) (wcap : Nat) (w : Mem K) (N : Nat) (u : Nat → K) (wo len : Nat) : Prop where
  has : Has (s.arr wcap w).1 s.off N u
  cap : s.off + N ≤ (s.arr wcap w).2
  apart : s.own = none → s.off + N ≤ wo ∨ wo + len ≤ s.off

theorem Src.Ok.keep {s : Src K} {wcap : Nat} {w w' : Mem K} {N : Nat} {u : Nat → K} {wo len : Nat} (h : s.Ok wcap w N u wo len) (o : Outside wo len w w') : s.Ok wcap w' N u wo len := by
  obtain ⟨h1, h2, h3⟩ := h
  cases hs : s.own with
  | some a =>
    have e : ∀ w : Mem K, s.arr wcap w = a := fun w => by unfold Src.arr; rw [hs]; rfl
    rw [e] at h1 h2
    exact ⟨by rw [e]; exact h1, by rw [e]; exact h2, h3⟩
  | none =>
    have e : ∀ w : Mem K, s.arr wcap w = (w, wcap) := fun w => by unfold Src.arr; rw [hs]; rfl
    rw [e] at h1 h2
    have h4 := h3 hs
    refine ⟨by rw [e]; exact h1.keep o (by omega), by rw [e]; exact h2, h3⟩

theorem Src.Ok.shrink {s : Src K} {wcap : Nat} {w : Mem K} {N : Nat} {u : Nat → K} {wo len wo' len' : Nat} (h : s.Ok wcap w N u wo len) (h1 : wo ≤ wo') (h2 : wo' + len' ≤ wo + len) :
    s.Ok wcap w N u wo' len' := ⟨h.has, h.cap, fun hs => by have := h.apart hs; omega⟩

/-- a bounding function: for `N` values it returns a range with `P`, using `len` doubles of work -/
def BndOk (bnd : Src K → Nat → Mem K → Option ((K × K) × Mem K)) (wcap N len : Nat) (P : (Nat → K) → K × K → Prop) : Prop :=
  ∀ (s : Src K) (u : Nat → K) (wo : Nat) (w : Mem K), s.Ok wcap w N u wo len → wo + len ≤ wcap →
    ∃ b w', bnd s wo w = some (b, w') ∧ P u b ∧ Outside wo len w w'

theorem mrg_run {m : Bool} {old : Option (K × K)} (hm : m = true → old ≠ none) (b : K × K) : ∃ r, mrg m old b = some r ∧ Sub b r ∧ (m = true → ∀ a, old = some a → Sub a r) := by
  cases m with
  | false => exact ⟨b, rfl, Sub.refl b, fun h => absurd h (by simp)⟩
  | true =>
    obtain ⟨a, ha⟩ := Option.ne_none_iff_exists'.1 (hm rfl)
    subst ha
    exact ⟨merge a b, rfl, merge_right a b, fun _ a' ha' => by cases ha'; exact merge_left _ _⟩

theorem idx_inj' {m i j i' j' : Nat} (hj : j < m) (hj' : j' < m) (h : i * m + j = i' * m + j') : i = i' ∧ j = j' := by
  have h1 := (div_mod_at (c := i) hj).1
  have h2 := (div_mod_at (c := i) hj).2
  rw [h, (div_mod_at hj').1] at h1
  rw [h, (div_mod_at hj').2] at h2
  exact ⟨h1.symm, h2.symm⟩

theorem abLoop {d N len wcap wo : Nat} {bnd : Src K → Nat → Mem K → Option ((K × K) × Mem K)} {P : (Nat → K) → K × K → Prop} (hP : ∀ u a b, Sub a b → P u a → P u b)
    (hb : BndOk bnd wcap N len P) (hw : wo + len ≤ wcap) {src : Nat → Src K} {U : Nat → Nat → K} {m : Bool} (s : St K) (hs : ∀ c < d, (src c).Ok wcap s.w N (U c) wo len)
    (hm : m = true → ∀ c < d, s.ab c ≠ none) :
    ∃ s', forUp 0 d (fun c s => (bnd (src c) wo s.w).bind fun b => (mrg m (s.ab c) b.1).map fun r => (⟨upd s.ab c r, s.tb, b.2⟩ : St K)) s = some s' ∧ s'.tb = s.tb ∧
      Outside wo len s.w s'.w ∧ ∀ c < d, ∃ r, s'.ab c = some r ∧ P (U c) r ∧ (m = true → ∀ a, s.ab c = some a → Sub a r) := by
  obtain ⟨s', e, h1, h2, h3, h4⟩ := forUp_inv (fun i (s' : St K) => s'.tb = s.tb ∧ Outside wo len s.w s'.w ∧
      (∀ c < i, ∃ r, s'.ab c = some r ∧ P (U c) r ∧ (m = true → ∀ a, s.ab c = some a → Sub a r)) ∧ ∀ c, i ≤ c → s'.ab c = s.ab c)
    (fun c s => (bnd (src c) wo s.w).bind fun b => (mrg m (s.ab c) b.1).map fun r => (⟨upd s.ab c r, s.tb, b.2⟩ : St K)) d 0 s
    ⟨rfl, Outside.refl _ _ _, fun c hc => by omega, fun _ _ => rfl⟩ (by
      intro c _ hc s' ⟨h1, h2, h3, h4⟩
      have hc : c < d := by omega
      obtain ⟨b, w', e, hp, ho⟩ := hb (src c) (U c) wo s'.w ((hs c hc).keep h2) hw
      obtain ⟨r, er, r1, r2⟩ := mrg_run (m := m) (old := s'.ab c) (fun h => by rw [h4 c (Nat.le_refl _)]; exact hm h c hc) b
      refine ⟨⟨upd s'.ab c r, s'.tb, w'⟩, ?_, h1, h2.trans ho, fun c' hc' => ?_, fun c' hc' => ?_⟩
      · beta_reduce
        rw [e, Option.bind_some]
        dsimp only
        rw [er]; rfl
      · by_cases hcc : c' = c
        · subst hcc
          refine ⟨r, by simp [upd], hP _ _ _ r1 hp, fun h a ha => r2 h a (by rw [h4 c' (Nat.le_refl _)]; exact ha)⟩
        · obtain ⟨r', hr'⟩ := h3 c' (by omega)
          refine ⟨r', ?_, hr'.2⟩
          show upd s'.ab c r c' = _
          rw [upd, if_neg hcc]; exact hr'.1
      · show upd s'.ab c r c' = _
        rw [upd, if_neg (by omega)]; exact h4 c' (by omega))
  exact ⟨s', e, h1, h2, fun c hc => h3 c (by omega)⟩

theorem tbLoop {d N len wcap wo : Nat} {bnd : Src K → Nat → Mem K → Option ((K × K) × Mem K)} {P : (Nat → K) → K × K → Prop} (hP : ∀ u a b, Sub a b → P u a → P u b)
    (hb : BndOk bnd wcap N len P) (hw : wo + len ≤ wcap) {src : Nat → Src K} {U : Nat → Nat → K} {m : Bool} (s : St K) (hs : ∀ c < d, (src c).Ok wcap s.w N (U c) wo len)
    (hm : m = true → ∀ c < d, s.tb c ≠ none) :
    ∃ s', forUp 0 d (fun c s => (bnd (src c) wo s.w).bind fun b => (mrg m (s.tb c) b.1).map fun r => (⟨s.ab, upd s.tb c r, b.2⟩ : St K)) s = some s' ∧ s'.ab = s.ab ∧
      Outside wo len s.w s'.w ∧ ∀ c < d, ∃ r, s'.tb c = some r ∧ P (U c) r ∧ (m = true → ∀ a, s.tb c = some a → Sub a r) := by
  obtain ⟨s', e, h1, h2, h3, h4⟩ := forUp_inv (fun i (s' : St K) => s'.ab = s.ab ∧ Outside wo len s.w s'.w ∧
      (∀ c < i, ∃ r, s'.tb c = some r ∧ P (U c) r ∧ (m = true → ∀ a, s.tb c = some a → Sub a r)) ∧ ∀ c, i ≤ c → s'.tb c = s.tb c)
    (fun c s => (bnd (src c) wo s.w).bind fun b => (mrg m (s.tb c) b.1).map fun r => (⟨s.ab, upd s.tb c r, b.2⟩ : St K)) d 0 s
    ⟨rfl, Outside.refl _ _ _, fun c hc => by omega, fun _ _ => rfl⟩ (by
      intro c _ hc s' ⟨h1, h2, h3, h4⟩
      have hc : c < d := by omega
      obtain ⟨b, w', e, hp, ho⟩ := hb (src c) (U c) wo s'.w ((hs c hc).keep h2) hw
      obtain ⟨r, er, r1, r2⟩ := mrg_run (m := m) (old := s'.tb c) (fun h => by rw [h4 c (Nat.le_refl _)]; exact hm h c hc) b
      refine ⟨⟨s'.ab, upd s'.tb c r, w'⟩, ?_, h1, h2.trans ho, fun c' hc' => ?_, fun c' hc' => ?_⟩
      · beta_reduce
        rw [e, Option.bind_some]
        dsimp only
        rw [er]; rfl
      · by_cases hcc : c' = c
        · subst hcc
          refine ⟨r, by simp [upd], hP _ _ _ r1 hp, fun h a ha => r2 h a (by rw [h4 c' (Nat.le_refl _)]; exact ha)⟩
        · obtain ⟨r', hr'⟩ := h3 c' (by omega)
          refine ⟨r', ?_, hr'.2⟩
          show upd s'.tb c r c' = _
          rw [upd, if_neg hcc]; exact hr'.1
      · show upd s'.tb c r c' = _
        rw [upd, if_neg (by omega)]; exact h4 c' (by omega))
  exact ⟨s', e, h1, h2, fun c hc => h3 c (by omega)⟩

theorem readPt_run {wcap : Nat} {src : Nat → Src K} {w : Mem K} {i N : Nat} (hi : i < N) {U : Nat → Nat → K} {wo len : Nat} : ∀ d, (∀ c < d, (src c).Ok wcap w N (U c) wo len) →
    readPt wcap src w i d = some ((List.range d).map fun c => U c i)
  | 0, _ => rfl
  | d + 1, h => by
    have h1 := h d (by omega)
    have h2 := h1.has i hi
    have h3 := h1.cap
    rw [readPt, readPt_run hi d (fun c hc => h c (by omega)), Option.bind_some, rd, if_pos (by omega), h2, List.range_succ, List.map_append]
    rfl

/-- the transformed coordinates -/
def tVal (d : Nat) (x0 : Nat → K) (Ji : Nat → Nat → K) (U : Nat → Nat → K) (c i : Nat) : K := ∑ e ∈ range d, Ji c e * (U e i - x0 e)

theorem tfm_run {d N wcap wo : Nat} {x0 : Nat → K} {Ji : Nat → Nat → K} {src : Nat → Src K} {U : Nat → Nat → K} {w : Mem K} (hs : ∀ c < d, (src c).Ok wcap w N (U c) wo (d * N))
    (hw : wo + d * N ≤ wcap) :
    ∃ w', tfm d N wcap x0 Ji src wo w = some w' ∧ (∀ c < d, Has w' (wo + c * N) N (tVal d x0 Ji U c)) ∧ Outside wo (d * N) w w' := by
  obtain ⟨w', e, h1, h2⟩ := forUp_inv (fun i (w' : Mem K) => (∀ c < d, ∀ k < i, w' (wo + c * N + k) = some (tVal d x0 Ji U c k)) ∧ Outside wo (d * N) w w')
    (fun i w => (readPt wcap src w i d).bind fun l =>
      forUp 0 d (fun c w => wr wcap w (wo + c * N + i) (∑ e ∈ range d, Ji c e * (l.getD e 0 - x0 e))) w) N 0 w ⟨fun c _ k hk => by omega, Outside.refl _ _ _⟩ (by
      intro i _ hi w1 ⟨h1, h2⟩
      have hi : i < N := by omega
      obtain ⟨w2, e2, g1, g2, g3⟩ := forUp_inv (fun c' (w2 : Mem K) => (∀ c < c', w2 (wo + c * N + i) = some (tVal d x0 Ji U c i)) ∧ (∀ c < d, ∀ k < i, w2 (wo + c * N + k) = w1 (wo + c * N + k)) ∧
          Outside wo (d * N) w1 w2)
        (fun c w => wr wcap w (wo + c * N + i) (∑ e ∈ range d, Ji c e * (((List.range d).map fun c => U c i).getD e 0 - x0 e))) d 0 w1 ⟨fun c hc => by omega, fun _ _ _ _ => rfl, Outside.refl _ _ _⟩ (by
          intro c _ hc w2 ⟨g1, g2, g3⟩
          have hc : c < d := by omega
          have hlt := idx_lt (m := N) hc hi
          have hval : (∑ e ∈ range d, Ji c e * (((List.range d).map fun c => U c i).getD e 0 - x0 e)) = tVal d x0 Ji U c i := by
            refine sum_congr rfl fun e he => ?_
            rw [List.getD_eq_getElem?_getD, List.getElem?_map, List.getElem?_range (mem_range.1 he)]
            rfl
          refine ⟨_, by rw [hval, wr_some (by omega)], fun c' hc' => ?_, fun c' hc' k hk => ?_, fun x hx => ?_⟩
          · by_cases hcc : c' = c
            · subst hcc; rw [if_pos rfl]
            · rw [if_neg ?_, g1 c' (by omega)]
              intro h
              exact hcc (idx_inj' hi hi (by omega)).1
          · rw [if_neg ?_, g2 c' hc' k hk]
            intro h
            have := (idx_inj' (m := N) (i := c') (j := k) (i' := c) (j' := i) (by omega) hi (by omega)).2
            omega
          · beta_reduce
            rw [if_neg (by omega), g3 x hx])
      refine ⟨w2, ?_, fun c hc k hk => ?_, h2.trans g3⟩
      · beta_reduce
        rw [readPt_run hi d fun c hc => (hs c hc).keep h2, Option.bind_some, e2]
      · by_cases hki : k = i
        · subst hki; exact g1 c (by omega)
        · rw [g2 c hc k (by omega), h1 c hc k (by omega)])
  exact ⟨w', e, fun c hc k hk => h1 c hc k (by omega), h2⟩


theorem doPatch_run {d N len wcap wo : Nat} {bnd : Src K → Nat → Mem K → Option ((K × K) × Mem K)} {P : (Nat → K) → K × K → Prop} (hP : ∀ u a b, Sub a b → P u a → P u b)
    (hb : BndOk bnd wcap N len P) (hw : wo + (d * N + len) ≤ wcap) {x0 : Nat → K} {Ji : Nat → Nat → K} {src : Nat → Src K} {U : Nat → Nat → K} {m : Bool} (s : St K)
    (hs : ∀ c < d, (src c).Ok wcap s.w N (U c) wo (d * N + len)) (hm : m = true → ∀ c < d, s.ab c ≠ none ∧ s.tb c ≠ none) :
    ∃ s', doPatch d N bnd wcap m x0 Ji src wo s = some s' ∧ Outside wo (d * N + len) s.w s'.w ∧
      (∀ c < d, ∃ r, s'.ab c = some r ∧ P (U c) r ∧ (m = true → ∀ a, s.ab c = some a → Sub a r)) ∧
      ∀ c < d, ∃ r, s'.tb c = some r ∧ P (tVal d x0 Ji U c) r ∧ (m = true → ∀ a, s.tb c = some a → Sub a r) := by
  obtain ⟨s1, e1, a1, o1, r1⟩ := abLoop hP hb (wo := wo) (by omega) (m := m) s (fun c hc => (hs c hc).shrink (Nat.le_refl _) (by omega)) (fun h c hc => (hm h c hc).1)
  have o1' : Outside wo (d * N + len) s.w s1.w := fun k hk => o1 k (by omega)
  obtain ⟨w2, e2, h2, o2⟩ := tfm_run (x0 := x0) (Ji := Ji) (fun c hc => ((hs c hc).keep o1').shrink (wo' := wo) (len' := d * N) (Nat.le_refl _) (by omega)) (by omega)
  obtain ⟨s3, e3, a3, o3, r3⟩ := tbLoop (d := d) hP hb (wo := wo + d * N) (by omega) (m := m) (src := fun c => ⟨none, wo + c * N⟩) (U := tVal d x0 Ji U) (⟨s1.ab, s1.tb, w2⟩ : St K)
    (fun c hc => by
      have : c * N + N ≤ d * N := by
        have : (c + 1) * N ≤ d * N := Nat.mul_le_mul_right _ hc
        rwa [Nat.succ_mul] at this
      exact ⟨h2 c hc, show wo + c * N + N ≤ wcap by omega, fun _ => Or.inl (show wo + c * N + N ≤ wo + d * N by omega)⟩)
    (fun h c hc => by
      show s1.tb c ≠ none
      rw [a1]; exact (hm h c hc).2)
  refine ⟨s3, ?_, ?_, ?_, ?_⟩
  · rw [doPatch, e1, Option.bind_some, e2, Option.bind_some, e3]
  · intro k hk
    rw [o3 k (by omega)]
    show w2 k = _
    rw [o2 k (by omega), o1 k (by omega)]
  · intro c hc
    rw [a3]
    exact r1 c hc
  · intro c hc
    obtain ⟨r, h1, h2, h3⟩ := r3 c hc
    refine ⟨r, h1, h2, fun h a ha => h3 h a ?_⟩
    show s1.tb c = _
    rw [a1]; exact ha

theorem copyStrided_run {icap : Nat} {inp : Mem K} {io g s n wcap o : Nat} {F : Nat → K} (hi : ∀ k < n, ∀ i < g, io + k * (s * g) + i < icap ∧ inp (io + k * (s * g) + i) = some (F (k * g + i)))
    (hw : o + n * g ≤ wcap) (w : Mem K) :
    ∃ w', copyStrided icap inp io g s n wcap o w = some w' ∧ Has w' o (n * g) F ∧ Outside o (n * g) w w' := by
  obtain ⟨w', e, h1, h2⟩ := blocks o g n F (fun k w => forUp 0 g (fun i w => (rd icap inp (io + k * (s * g) + i)).bind fun v => wr wcap w (o + k * g + i) v) w) w (by
    intro k hk w1 _ _
    have hkn : k * g + g ≤ n * g := by
      have : (k + 1) * g ≤ n * g := Nat.mul_le_mul_right _ hk
      rwa [Nat.succ_mul] at this
    obtain ⟨w2, e2, g1, g2⟩ := forUp_inv (fun i' (w2 : Mem K) => (∀ i < i', w2 (o + k * g + i) = some (F (k * g + i))) ∧ Outside (o + k * g) g w1 w2)
      (fun i w => (rd icap inp (io + k * (s * g) + i)).bind fun v => wr wcap w (o + k * g + i) v) g 0 w1 ⟨fun i hi => by omega, Outside.refl _ _ _⟩ (by
        intro i _ hig w2 ⟨g1, g2⟩
        obtain ⟨c1, c2⟩ := hi k hk i (by omega)
        refine ⟨_, by rw [rd, if_pos c1, c2, Option.bind_some, wr_some (by omega)], fun i' hi' => ?_, fun x hx => ?_⟩
        · by_cases hii : i' = i
          · subst hii; rw [if_pos rfl]
          · rw [if_neg (by omega), g1 i' (by omega)]
        · beta_reduce
          rw [if_neg (by omega), g2 x hx])
    rw [Nat.zero_add] at g1
    have hgk : g * k = k * g := Nat.mul_comm _ _
    refine ⟨w2, e2, ?_, ?_⟩
    · intro i hi
      rw [hgk]
      exact g1 i hi
    · intro x hx
      rw [hgk] at hx
      exact g2 x hx)
  rw [Nat.mul_comm g n] at h1 h2
  exact ⟨w', e, h1, h2⟩

theorem getPatch_run {d g s n len wcap ucap io : Nat} {bnd : Src K → Nat → Mem K → Option ((K × K) × Mem K)} {P : (Nat → K) → K × K → Prop} (hP : ∀ u a b, Sub a b → P u a → P u b)
    (hb : BndOk bnd wcap (n * g) len P) (hw : 2 * (d * (n * g)) + len ≤ wcap) {x0 : Nat → K} {Ji : Nat → Nat → K} {el : Nat → Mem K} {U : Nat → Nat → K} (st : St K)
    (hel : ∀ c < d, ∀ k < n, ∀ i < g, io + k * (s * g) + i < ucap ∧ el c (io + k * (s * g) + i) = some (U c (k * g + i))) (hm : ∀ c < d, st.ab c ≠ none ∧ st.tb c ≠ none) :
    ∃ s', getPatch d (n * g) bnd wcap x0 Ji ucap el io g s n st = some s' ∧
      (∀ c < d, ∃ r, s'.ab c = some r ∧ P (U c) r ∧ (∀ a, st.ab c = some a → Sub a r)) ∧
      ∀ c < d, ∃ r, s'.tb c = some r ∧ P (tVal d x0 Ji U c) r ∧ (∀ a, st.tb c = some a → Sub a r) := by
  have hcd : ∀ c < d, c * (n * g) + n * g ≤ d * (n * g) := fun c hc => by
    have : (c + 1) * (n * g) ≤ d * (n * g) := Nat.mul_le_mul_right _ hc
    rwa [Nat.succ_mul] at this
  obtain ⟨w, e, h1⟩ := forUp_inv (fun c' (w : Mem K) => ∀ c < c', Has w (c * (n * g)) (n * g) (U c))
    (fun c w => copyStrided ucap (el c) io g s n wcap (c * (n * g)) w) d 0 st.w (fun c hc => by omega) (by
      intro c _ hc w h
      have hc : c < d := by omega
      have := hcd c hc
      obtain ⟨w', e, h1, h2⟩ := copyStrided_run (hel c hc) (wcap := wcap) (o := c * (n * g)) (by omega) w
      refine ⟨w', e, fun c' hc' => ?_⟩
      by_cases hcc : c' = c
      · subst hcc; exact h1
      · have : (c' + 1) * (n * g) ≤ c * (n * g) := Nat.mul_le_mul_right _ (by omega)
        rw [Nat.succ_mul] at this
        exact (h c' (by omega)).keep h2 (by omega))
  rw [Nat.zero_add] at h1
  obtain ⟨s', e', -, r1, r2⟩ := doPatch_run (d := d) hP hb (wo := d * (n * g)) (by omega) (x0 := x0) (Ji := Ji) (src := fun c => ⟨none, c * (n * g)⟩) (U := U) (m := true)
    (⟨st.ab, st.tb, w⟩ : St K) (fun c hc => by
      have := hcd c hc
      exact ⟨h1 c hc, show c * (n * g) + n * g ≤ wcap by omega, fun _ => Or.inl this⟩) (fun _ c hc => hm c hc)
  refine ⟨s', by rw [getPatch, e, Option.bind_some, e'], fun c hc => ?_, fun c hc => ?_⟩
  · obtain ⟨r, a1, a2, a3⟩ := r1 c hc
    exact ⟨r, a1, a2, a3 rfl⟩
  · obtain ⟨r, a1, a2, a3⟩ := r2 c hc
    exact ⟨r, a1, a2, a3 rfl⟩

end Gslib.Obb
