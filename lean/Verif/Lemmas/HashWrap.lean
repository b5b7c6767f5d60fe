import Verif.Model.HashWrap
import Verif.Lemmas.Hash
import Verif.Props.Hash

/-!
# The machine arithmetic of the local hash table does not wrap when `(nel+1)·nu^D + 1 < 2^32`
-/

namespace Gslib.Hash
open Gslib.Num

theorem forList_congr {A S : Type} {f g : A → S → Option S} (I : List A → S → Prop) (l : List A) :
    ∀ (r p : List A) (s : S), l = p ++ r → I p s →
      (∀ p a r s, l = p ++ a :: r → I p s → g a s = f a s ∧ ∀ s', f a s = some s' → I (p ++ [a]) s') →
      forList g r s = forList f r s
  | [], p, s, h, hi, _ => rfl
  | a :: r, p, s, h, hi, hs => by
    obtain ⟨h1, h2⟩ := hs p a r s h hi
    rw [forList, forList, h1]
    cases e : f a s with
    | none => rfl
    | some s' => exact forList_congr I l r (p ++ [a]) s' (by simp [h]) (h2 s' e) hs

theorem forUp_congr {S : Type} {f g : Nat → S → Option S} (I : Nat → S → Prop) : ∀ (n a : Nat) (s : S), I a s →
    (∀ i, a ≤ i → i < a + n → ∀ s, I i s → g i s = f i s ∧ ∀ s', f i s = some s' → I (i + 1) s') → forUp a n g s = forUp a n f s
  | 0, _, _, _, _ => rfl
  | n + 1, a, s, h, hs => by
    obtain ⟨h1, h2⟩ := hs a (by omega) (by omega) s h
    rw [forUp, forUp, h1]
    cases e : f a s with
    | none => rfl
    | some s' => exact forUp_congr I n (a + 1) s' (h2 s' e) fun i hi hi' => hs i (by omega) (by omega)

theorem subU_eq {a b : Nat} (h : b ≤ a) (ha : a < 4294967296) : subU a b = a - b := by
  unfold subU; omega

theorem powM_mod (n : Nat) : ∀ D, powM n D % 4294967296 = n ^ D % 4294967296
  | 0 => rfl
  | D + 1 => by rw [powM, Nat.mod_mod, Nat.mul_mod, powM_mod n D, ← Nat.mul_mod, pow_succ]

theorem powM_lt (n : Nat) : ∀ D, powM n D < 4294967296
  | 0 => by rw [powM]; decide
  | D + 1 => Nat.mod_lt _ (by decide)

theorem powM_eq {n D : Nat} (h : n ^ D < 4294967296) : powM n D = n ^ D := by
  have := powM_mod n D
  rwa [Nat.mod_eq_of_lt (powM_lt n D), Nat.mod_eq_of_lt h] at this

theorem boxCountM_eq : ∀ (rs : List IRange), (∀ r ∈ rs, r.min < r.max ∧ r.max < 4294967296) → boxCountM rs = (rs.map fun r => r.max - r.min).prod % 4294967296 := by
  have key : ∀ (rs : List IRange) (c : Nat), c < 4294967296 → (∀ r ∈ rs, r.min < r.max ∧ r.max < 4294967296) →
      rs.foldl (fun c r => c * subU r.max r.min % 4294967296) c = (c * (rs.map fun r => r.max - r.min).prod) % 4294967296 := by
    intro rs
    induction rs with
    | nil => intro c hc _; simp [Nat.mod_eq_of_lt hc]
    | cons r rs ih =>
      intro c hc h
      have hr := h r (by simp)
      rw [List.foldl_cons, ih _ (Nat.mod_lt _ (by decide)) fun r hr => h r (by simp [hr]), subU_eq hr.1.le hr.2, List.map_cons, List.prod_cons, Nat.mod_mul_mod, Nat.mul_assoc]
  intro rs h
  rw [boxCountM, key rs 1 (by decide) h, Nat.one_mul]

variable {K : Type} [Field K] [LinearOrder K] [IsStrictOrderedRing K] [FloorRing K]

theorem hashRangeM_eq {n : Nat} {b r : Range K} (hn : 0 < n) (hs : n < 2147483648) (h : Fit b r) : hashRangeM n b r = some (hashRange n b r) := by
  have hok := hashRange_ok hn h
  have hf := facOf_pos hn h
  have ht := facOf_top (n := n) h
  obtain ⟨h1, h2, h3, h4⟩ := h
  have a0 : (0 : K) ≤ (r.min - b.min) * facOf n b := mul_nonneg (by linarith) hf.le
  have a1 : (r.min - b.min) * facOf n b < n := by rw [← ht]; exact mul_lt_mul_of_pos_right (by linarith) hf
  have a2 : (r.max - b.min) * facOf n b ≤ n := by rw [← ht]; exact mul_le_mul_of_nonneg_right (by linarith) hf.le
  have a3 : (0 : K) ≤ (r.max - b.min) * facOf n b := mul_nonneg (by linarith) hf.le
  have f0 : 0 ≤ ⌊(r.min - b.min) * facOf n b⌋ := Int.floor_nonneg.2 a0
  have f1 : ⌊(r.min - b.min) * facOf n b⌋ < n := Int.floor_lt.2 (by exact_mod_cast a1)
  have f2 : ⌈(r.max - b.min) * facOf n b⌉ ≤ n := Int.ceil_le.2 (by exact_mod_cast a2)
  have f3 : 0 ≤ ⌈(r.max - b.min) * facOf n b⌉ := Int.ceil_nonneg a3
  unfold hashRange IRange.Ok at hok
  unfold hashRangeM hashRange
  dsimp only at hok ⊢
  generalize ⌊(r.min - b.min) * facOf n b⌋ = i0 at *
  generalize ⌈(r.max - b.min) * facOf n b⌉ = i1 at *
  have e0 : sintOf i0 = some i0 := if_pos (by omega)
  have e1 : sintOf i1 = some i1 := if_pos (by omega)
  have e2 : uintOf i1 = i1.toNat := by unfold uintOf; congr 1; omega
  rw [e0, e1, Option.bind_some, Option.bind_some, e2]
  refine congrArg some (congrArg _ ?_)
  split_ifs at hok ⊢ <;> omega

theorem hashRangesM_eq {n : Nat} (hn : 0 < n) (hs : n < 2147483648) : ∀ {bnd box : List (Range K)}, FitBox bnd box → hashRangesM n bnd box = some (hashRanges n bnd box)
  | [], [], _ => rfl
  | b :: bs, r :: rs, h => by
    obtain ⟨h1, h2⟩ := List.forall₂_cons.1 h
    rw [hashRangesM, hashRangeM_eq hn hs h1, Option.bind_some, hashRangesM_eq hn hs h2]; rfl

theorem hashCountM_mod {n : Nat} (hn : 0 < n) (hs : n < 2147483648) {bnd : List (Range K)} : ∀ (obb : List (List (Range K))) (c : Nat), c < 4294967296 → (∀ b ∈ obb, FitBox bnd b) →
    hashCountM n bnd obb c = some ((c + hashCount n bnd obb) % 4294967296)
  | [], c, hc, _ => by simp [hashCountM, hashCount, Nat.mod_eq_of_lt hc]
  | box :: l, c, hc, h => by
    have hb := h box (by simp)
    rw [hashCountM, hashRangesM_eq hn hs hb, Option.bind_some, boxCountM_eq _ fun r hr => by
      have := hashRanges_ok hn hb r hr
      unfold IRange.Ok at this
      omega, hashCountM_mod hn hs l _ (Nat.mod_lt _ (by decide)) fun b hb => h b (by simp [hb])]
    simp only [hashCount, List.map_cons, List.sum_cons]
    congr 1
    omega

theorem sizeM_mod {n : Nat} (hn : 0 < n) (hs : n < 2147483648) {bnd : List (Range K)} {obb : List (List (Range K))} (h : ∀ b ∈ obb, FitBox bnd b) :
    sizeM bnd obb n = some ((n ^ bnd.length + 1 + hashCount n bnd obb) % 4294967296) := by
  rw [sizeM, hashCountM_mod hn hs obb 0 (by decide) h, Option.map_some]
  have := powM_mod n bnd.length
  congr 1
  omega

/-- at most `n^D` cells per box -/
theorem hashCount_le {n : Nat} (hn : 0 < n) {bnd : List (Range K)} : ∀ (obb : List (List (Range K))), (∀ b ∈ obb, FitBox bnd b) → hashCount n bnd obb ≤ obb.length * n ^ bnd.length
  | [], _ => by simp [hashCount]
  | box :: l, h => by
    have ih := hashCount_le hn l fun b hb => h b (by simp [hb])
    have hb := h box (by simp)
    have h1 : ∀ rs : List IRange, (∀ r ∈ rs, r.Ok n) → (rs.map fun r => r.max - r.min).prod ≤ n ^ rs.length := by
      intro rs
      induction rs with
      | nil => simp
      | cons r rs ih =>
        intro h
        have hr := h r (by simp)
        rw [List.map_cons, List.prod_cons, List.length_cons, pow_succ, Nat.mul_comm]
        exact Nat.mul_le_mul (ih fun r hr => h r (by simp [hr])) (by unfold IRange.Ok at hr; omega)
    have := h1 _ (hashRanges_ok hn hb)
    rw [hashRanges_length hb] at this
    simp only [hashCount, List.map_cons, List.sum_cons, List.length_cons, Nat.add_mul, Nat.one_mul] at ih ⊢
    omega

theorem bisectM_eq {size : Nat → Nat} {sizeM : Nat → Option Nat} {nu0 : Nat} (hnu : nu0 < 4294967296) (hs : ∀ n, 0 < n → n < nu0 → sizeM n = some (size n)) (maxSize : Nat) :
    ∀ (k nl nu low : Nat), nu - nl = k → 0 < nl → nl ≤ nu → nu ≤ nu0 → bisectM sizeM maxSize nl nu low = some (bisect size maxSize nl nu low) := by
  intro k
  induction k using Nat.strong_induction_on with
  | _ k ih =>
    intro nl nu low hk h0 h1 h2
    rw [bisectM, bisect, subU_eq h1 (by omega)]
    by_cases h : nu - nl > 1
    · rw [if_pos h, if_pos h, Nat.mod_eq_of_lt (by omega)]
      dsimp only
      rw [hs _ (by omega) (by omega), Option.bind_some]
      split
      · exact ih _ (by omega) _ _ _ rfl (by omega) (by omega) h2
      · exact ih _ (by omega) _ _ _ rfl h0 (by omega) (by omega)
    · rw [if_neg h, if_neg h]

theorem countAllM_eq (hnd : Nat) (ev : List (Nat × Nat)) (h : ∀ c, (vals ev c).length < 4294967296) :
    countAllM hnd ev (fun i => if i < hnd then some 0 else none) = countAll hnd ev (fun i => if i < hnd then some 0 else none) := by
  refine forList_congr (fun p (m : Mem Nat) => ∀ i c, m i = some c → c = (vals p i).length) ev ev [] _ rfl ?_ ?_
  · intro i c hc
    simp only [Option.ite_none_right_eq_some, Option.some.injEq] at hc
    simp [vals, hc.2.symm]
  · intro p a r m hp hm
    have hlen : (vals p a.1).length + 1 ≤ (vals ev a.1).length := by
      rw [hp, vals_append, List.length_append, show a :: r = [a] ++ r by rfl, vals_append]
      simp [vals]
    have hlt := h a.1
    cases e : rd hnd m a.1 with
    | none => exact ⟨rfl, fun s' hs => by simp [e] at hs⟩
    | some c =>
      have hc : c = (vals p a.1).length := by
        unfold rd at e
        split at e
        · exact hm _ _ e
        · cases e
      rw [Option.bind_some, Option.bind_some, Nat.mod_eq_of_lt (by omega)]
      refine ⟨rfl, fun s' hs => ?_⟩
      unfold wr at hs
      split at hs
      · cases hs
        intro i d hd
        rw [vals_snoc]
        beta_reduce at hd
        by_cases hi : i = a.1
        · simp only [hi, if_true, Option.some.injEq] at hd
          rw [if_pos hi.symm, List.length_append, hi]; simp; omega
        · rw [if_neg hi] at hd
          rw [if_neg (Ne.symm hi)]
          exact hm _ _ hd
      · cases hs

theorem offsetsM_eq (size hnd : Nat) (ev : List (Nat × Nat)) (hev : ∀ e ∈ ev, e.1 < hnd) (hpos : 0 < hnd) (hs : hnd + 1 + ev.length < 4294967296) (count off : Mem Nat)
    (hc : Has count 0 hnd (fun c => (vals ev c).length)) : offsetsM size hnd count off = offsets size hnd count off := by
  unfold offsetsM offsets
  have h0 := hc.rd 0 hpos (cap := hnd) (by omega)
  rw [Nat.zero_add] at h0
  rw [h0, Option.bind_some, Option.bind_some, Nat.mod_eq_of_lt (by omega : hnd + 1 < 4294967296)]
  congr 1
  funext offset
  refine forUp_congr (fun i (s : Mem Nat × Nat × Nat) => s.2.1 = pos hnd ev i) hnd 0 _ rfl ?_
  intro i _ hi s h
  have hr := hc.rd i (by omega) (cap := hnd) (by omega)
  rw [Nat.zero_add] at hr
  have hle := pos_mono hnd ev (show i + 1 ≤ hnd by omega)
  rw [pos_total hnd ev hev, pos] at hle
  rw [hr, Option.bind_some, Option.bind_some, Nat.mod_eq_of_lt (by omega)]
  refine ⟨rfl, fun s' hs' => ?_⟩
  rw [Option.map_eq_some_iff] at hs'
  obtain ⟨o, _, rfl⟩ := hs'
  show s.2.1 + _ = _
  rw [h, pos]

theorem fillAllM_eq (size hnd : Nat) (ev : List (Nat × Nat)) (hev : ∀ e ∈ ev, e.1 < hnd) (hs : hnd + 1 + ev.length < 4294967296)
    (count off : Mem Nat) (hc : Has count 0 hnd (fun c => (vals ev c).length)) (ho : Has off 0 (hnd + 1) (pos hnd ev)) (hsz : hnd < size) :
    fillAllM size hnd ev (off, count) = fillAll size hnd ev (off, count) := by
  refine forList_congr (fun p (s : Mem Nat × Mem Nat) => Has s.1 0 (hnd + 1) (pos hnd ev) ∧
      Has s.2 0 hnd (fun c => (vals ev c).length - (vals p c).length)) ev ev [] (off, count) rfl ⟨ho, by simpa [vals] using hc⟩ ?_
  intro p a r s hp ⟨h1, h2⟩
  have ha : a.1 < hnd := hev a (by simp [hp])
  have hlen : (vals ev a.1).length = (vals p a.1).length + (vals r a.1).length + 1 := by
    rw [hp, show p ++ a :: r = p ++ [a] ++ r by simp, vals_append, vals_snoc, if_pos rfl]; simp; omega
  have hr1 := h1.rd (a.1 + 1) (by omega) (cap := size) (by omega)
  have hr2 := h2.rd a.1 ha (cap := hnd) (by omega)
  rw [Nat.zero_add] at hr1 hr2
  have hlo : hnd + 1 ≤ pos hnd ev a.1 := pos_mono hnd ev (Nat.zero_le _)
  have hhi := pos_mono hnd ev (show a.1 + 1 ≤ hnd by omega)
  rw [pos_total hnd ev hev] at hhi
  have hpos : pos hnd ev (a.1 + 1) = pos hnd ev a.1 + (vals ev a.1).length := rfl
  have hnp : ¬ pos hnd ev (a.1 + 1) - ((vals ev a.1).length - (vals p a.1).length) < hnd + 1 := by omega
  rw [Nat.mod_eq_of_lt (by omega : a.1 + 1 < 4294967296), hr1, Option.bind_some, Option.bind_some, hr2, Option.bind_some, Option.bind_some, subU_eq (by omega) (by omega), subU_eq (by omega) (by omega)]
  refine ⟨rfl, fun s' hs' => ?_⟩
  rw [Option.bind_eq_some_iff] at hs'
  obtain ⟨o, ho', hs'⟩ := hs'
  rw [Option.map_eq_some_iff] at hs'
  obtain ⟨cnt, hcnt, rfl⟩ := hs'
  rw [wr_some ha, Option.some.injEq] at hcnt
  have ho2 : o = fun k => if k = pos hnd ev (a.1 + 1) - ((vals ev a.1).length - (vals p a.1).length) then some a.2 else s.1 k := by
    unfold wr at ho'
    split at ho'
    · exact (Option.some.inj ho').symm
    · cases ho'
  subst hcnt ho2
  constructor
  · intro i hi
    show (if 0 + i = _ then _ else _) = _
    rw [if_neg (by omega), h1 i hi]
  · intro i hi
    show (if 0 + i = a.1 then _ else _) = _
    beta_reduce
    rw [vals_snoc]
    by_cases h' : a.1 = i
    · rw [if_pos (by omega), if_pos h']; subst h'; simp; omega
    · rw [if_neg (by omega), if_neg h', h2 i hi]

theorem eventsM_eq {hn : Nat} (h1 : 0 < hn) (hs : hn < 2147483648) {bnd : List (Range K)} (hD : hn ^ bnd.length < 4294967296) (obb : List (List (Range K))) (hf : ∀ b ∈ obb, FitBox bnd b) :
    eventsM hn bnd obb 0 = some (events hn bnd obb) := by
  have key : ∀ (l : List (List (Range K))) (el : Nat), (∀ b ∈ l, FitBox bnd b) →
      eventsM hn bnd l el = some ((List.range l.length).flatMap fun e => (cells hn (hashRanges hn bnd (l.getD e []))).map fun c => (c, e + el)) := by
    intro l
    induction l with
    | nil => intro el _; rfl
    | cons box l ih =>
      intro el h
      have hb := h box (by simp)
      rw [eventsM, hashRangesM_eq h1 hs hb, Option.bind_some, ih (el + 1) fun b hb => h b (by simp [hb]), Option.map_some, List.length_cons, List.range_succ_eq_map, List.flatMap_cons, List.flatMap_map]
      congr 2
      · refine List.map_congr_left fun c hc => ?_
        have := cells_lt _ (hashRanges_ok h1 hb) c hc
        rw [hashRanges_length hb] at this
        rw [Nat.mod_eq_of_lt (by omega), Nat.zero_add]
      · refine congrArg (fun f => List.flatMap f (List.range l.length)) (funext fun e => ?_)
        rw [Nat.succ_eq_add_one, List.getD_cons_succ]
        refine List.map_congr_left fun c _ => ?_
        rw [show e + 1 + el = e + (el + 1) by omega]
  rw [key obb 0 hf]; rfl

theorem hashBuildM_eq {bnd : List (Range K)} {obb : List (List (Range K))} (hne : obb ≠ []) (hf : ∀ b ∈ obb, FitBox bnd b) (hd : 0 < bnd.length) (maxSize nu0 : Nat) (h0 : 0 < nu0)
    (hw : (obb.length + 1) * nu0 ^ bnd.length + 1 < 4294967296) : hashBuildM bnd obb maxSize nu0 = hashBuild bnd obb maxSize nu0 := by
  have hl : 0 < obb.length := List.length_pos_iff.2 hne
  have hself : nu0 ≤ nu0 ^ bnd.length := Nat.le_self_pow (by omega) _
  have hw2 : 2 * nu0 ^ bnd.length ≤ (obb.length + 1) * nu0 ^ bnd.length := Nat.mul_le_mul_right _ (by omega)
  have hone : (obb.length + 1) * 1 ≤ (obb.length + 1) * nu0 ^ bnd.length := Nat.mul_le_mul_left _ (Nat.pow_pos h0)
  have hn : ∀ n, 0 < n → n ≤ nu0 → n ^ bnd.length + 1 + hashCount n bnd obb < 4294967296 := by
    intro n hn hle
    have h1 := hashCount_le hn obb hf
    have h2 := Nat.mul_le_mul_left (obb.length + 1) (Nat.pow_le_pow_left hle bnd.length)
    rw [Nat.add_mul, Nat.one_mul] at h2
    omega
  have ho : hashOptSizeM bnd obb maxSize nu0 = some (hashOptSize bnd obb maxSize nu0) := by
    unfold hashOptSizeM hashOptSize
    rw [Nat.mod_eq_of_lt (by omega)]
    refine bisectM_eq (nu0 := nu0) (by omega) (fun n h1 h2 => ?_) maxSize _ 1 nu0 _ rfl (by omega) h0 (le_refl _)
    rw [sizeM_mod h1 (by omega) hf, Nat.mod_eq_of_lt (hn n h1 (by omega))]
  obtain ⟨n, size, e, h1, hsz, _, _⟩ := Props.hash_opt_size_spec hf maxSize nu0
  have hle : n ≤ nu0 := by
    have key : ∀ k nl nu low, nu - nl = k → nl ≤ nu → (bisect (fun n => n ^ bnd.length + 1 + hashCount n bnd obb) maxSize nl nu low).1 ≤ nu := by
      intro k
      induction k using Nat.strong_induction_on with
      | _ k ih =>
        intro nl nu low hk h
        rw [bisect]
        split
        · dsimp only
          split
          · exact ih _ (by omega) _ _ _ rfl (by omega)
          · exact (ih _ (by omega) _ _ _ rfl (by omega)).trans (by omega)
        · exact h
    have := key _ 1 nu0 (2 + obb.length) rfl h0
    rw [show bisect (fun n => n ^ bnd.length + 1 + hashCount n bnd obb) maxSize 1 nu0 (2 + obb.length) = (n, size) from e] at this
    exact this
  have hlt := hn n h1 hle
  have hpw : n ^ bnd.length < 4294967296 := by omega
  have hev : ∀ e ∈ events n bnd obb, e.1 < n ^ bnd.length := by
    intro e he
    unfold events at he
    simp only [List.mem_flatMap, List.mem_map, List.mem_range] at he
    obtain ⟨el, hel, c, hc, rfl⟩ := he
    have hfit : FitBox bnd (obb.getD el []) := by
      apply hf
      rw [List.getD_eq_getElem?_getD, List.getElem?_eq_getElem hel]
      exact List.getElem_mem hel
    have := cells_lt _ (hashRanges_ok h1 hfit) c hc
    rwa [hashRanges_length hfit] at this
  have hlen := Props.events_length n bnd obb
  have hpos : 0 < n ^ bnd.length := Nat.pow_pos h1
  unfold hashBuildM hashBuild
  rw [ho, Option.bind_some]
  dsimp only
  rw [e, powM_eq hpw, eventsM_eq h1 (by omega) hpw obb hf, Option.bind_some, countAllM_eq _ _ fun c => by
    have : (vals (events n bnd obb) c).length ≤ (events n bnd obb).length := by
      rw [vals, List.length_map]; exact List.length_filter_le _ _
    omega]
  obtain ⟨cnt, e1, hc⟩ := countAll_run (n ^ bnd.length) (events n bnd obb) hev
  rw [e1, Option.bind_some, Option.bind_some, offsetsM_eq size (n ^ bnd.length) (events n bnd obb) hev hpos (by omega) cnt _ hc]
  obtain ⟨o, sum, mx, e2, ho', _⟩ := offsets_run size (n ^ bnd.length) (events n bnd obb) hpos (by omega) cnt (fun _ => none) hc
  rw [e2, Option.bind_some, Option.bind_some, fillAllM_eq size (n ^ bnd.length) (events n bnd obb) hev (by omega) cnt o hc ho' (by omega)]

end Gslib.Hash
