import Verif.Model.Radix
import Verif.Lemmas.StableSort
import Verif.Lemmas.MergeSort
import Mathlib.Tactic.Ring
import Mathlib.Algebra.Order.BigOperators.Group.List

namespace Gslib.Radix
open Gslib Gslib.Spec

variable {ι α β : Type} [DecidableEq ι]

/-! ### the bucket list -/

/-- stable bucket sort by a digit `< V` -/
def buckets (dig : α → Nat) (l : List α) (V : Nat) : List α :=
  (List.range V).flatMap fun d => l.filter fun x => decide (dig x = d)

theorem buckets_succ (dig : α → Nat) (l : List α) (V : Nat) :
    buckets dig l (V + 1) = buckets dig l V ++ l.filter (fun x => decide (dig x = V)) := by
  simp [buckets, List.range_succ]

/-- number of elements with digit below `v` -/
def start (dig : α → Nat) (l : List α) (v : Nat) : Nat := l.countP fun x => decide (dig x < v)

theorem start_succ (dig : α → Nat) (l : List α) (v : Nat) :
    start dig l (v + 1) = start dig l v + l.countP fun x => decide (dig x = v) := by
  unfold start
  induction l with
  | nil => simp
  | cons a l ih =>
    simp only [List.countP_cons, ih]
    by_cases h1 : dig a < v
    · simp [h1, show dig a < v + 1 by omega, show ¬ dig a = v by omega]; omega
    · by_cases h2 : dig a = v
      · simp [h2]; omega
      · simp [h1, h2, show ¬ dig a < v + 1 by omega]

theorem buckets_length (dig : α → Nat) (l : List α) (V : Nat) :
    (buckets dig l V).length = start dig l V := by
  induction V with
  | zero => simp [buckets, start]
  | succ V ih => rw [buckets_succ, List.length_append, ih, start_succ, List.countP_eq_length_filter]

theorem start_all (dig : α → Nat) (l : List α) (V : Nat) (h : ∀ x ∈ l, dig x < V) :
    start dig l V = l.length := by
  unfold start
  rw [List.countP_eq_length]
  intro x hx; simpa using h x hx

theorem buckets_getElem (dig : α → Nat) (l : List α) (V v k : Nat) (hv : v < V)
    (hk : k < l.countP fun x => decide (dig x = v)) :
    (buckets dig l V)[start dig l v + k]? = (l.filter fun x => decide (dig x = v))[k]? := by
  induction V with
  | zero => omega
  | succ V ih =>
    rw [buckets_succ]
    by_cases h : v = V
    · subst h
      rw [List.getElem?_append_right (by rw [buckets_length]; omega), buckets_length]
      congr 1; omega
    · have hvV : v < V := by omega
      have : start dig l v + k < start dig l V := by
        have h1 : start dig l v + k < start dig l (v + 1) := by rw [start_succ]; omega
        have h2 : start dig l (v + 1) ≤ start dig l V := by
          unfold start
          apply List.countP_mono_left
          intro x _ hx
          simp at hx ⊢; omega
        omega
      rw [List.getElem?_append_left (by rw [buckets_length]; exact this)]
      exact ih hvV

theorem buckets_cover (dig : α → Nat) (l : List α) (V j : Nat) (hj : j < start dig l V) :
    ∃ v k, v < V ∧ k < (l.countP fun x => decide (dig x = v)) ∧ j = start dig l v + k := by
  induction V with
  | zero => simp [start] at hj
  | succ V ih =>
    by_cases h : j < start dig l V
    · obtain ⟨v, k, hv, hk, e⟩ := ih h
      exact ⟨v, k, by omega, hk, e⟩
    · rw [start_succ] at hj
      exact ⟨V, j - start dig l V, by omega, by omega, by omega⟩

theorem filter_buckets (dig : α → Nat) (l : List α) (V k : Nat) :
    (buckets dig l V).filter (fun x => decide (dig x = k)) =
      if k < V then l.filter (fun x => decide (dig x = k)) else [] := by
  induction V with
  | zero => simp [buckets]
  | succ V ih =>
    rw [buckets_succ, List.filter_append, ih, List.filter_filter]
    by_cases h : k = V
    · subst h; simp
    · have e : l.filter (fun a => decide (dig a = k) && decide (dig a = V)) = [] := by
        apply List.filter_eq_nil_iff.2
        intro x _
        simp; intro h1 h2; exact h (h1.symm.trans h2)
      rw [e]
      by_cases h2 : k < V
      · simp [h2, show k < V + 1 by omega]
      · simp [h2, show ¬ k < V + 1 by omega]

theorem buckets_mem_lt (dig : α → Nat) (l : List α) (V : Nat) : ∀ x ∈ buckets dig l V, dig x < V := by
  intro x hx
  simp only [buckets, List.mem_flatMap, List.mem_range, List.mem_filter, decide_eq_true_eq] at hx
  obtain ⟨d, hd, _, e⟩ := hx
  omega

theorem buckets_perm (dig : α → Nat) (l : List α) (V : Nat) (h : ∀ x ∈ l, dig x < V) :
    (buckets dig l V).Perm l := by
  classical
  apply perm_of_filter_eq dig
  intro k
  rw [filter_buckets]
  split
  · rfl
  · symm; apply List.filter_eq_nil_iff.2
    intro x hx; have := h x hx; simp; omega

theorem buckets_stable (dig : α → Nat) (l : List α) (V : Nat) (h : ∀ x ∈ l, dig x < V) :
    IsStableSort dig l (buckets dig l V) := by
  refine ⟨buckets_perm dig l V h, ?_, ?_⟩
  · clear h
    induction V with
    | zero => simp [buckets]
    | succ V ih =>
      rw [buckets_succ, List.pairwise_append]
      refine ⟨ih, ?_, ?_⟩
      · rw [List.pairwise_iff_forall_sublist]
        intro a b hab
        have ha := (List.mem_filter.1 (hab.subset (by simp : a ∈ [a, b]))).2
        have hb := (List.mem_filter.1 (hab.subset (by simp : b ∈ [a, b]))).2
        simp at ha hb; omega
      · intro a ha b hb
        have := buckets_mem_lt dig l V a ha
        have hb := (List.mem_filter.1 hb).2
        simp at hb; omega
  · intro k
    rw [filter_buckets]
    split
    · rfl
    · symm; apply List.filter_eq_nil_iff.2
      intro x hx; have := h x hx; simp; omega

/-! ### one counting-sort pass -/

theorem filter_at (p : α → Bool) (l : List α) (i : Nat) (hi : i < l.length) (hp : p l[i] = true) :
    (l.filter p)[(l.take i).countP p]? = some l[i] := by
  conv_lhs => rw [← List.take_append_drop i l]
  rw [List.filter_append, List.countP_eq_length_filter, List.take_append_drop,
    List.getElem?_append_right (le_refl _), List.drop_eq_getElem_cons hi, List.filter_cons, if_pos hp]
  simp

theorem countP_take_succ (p : α → Bool) (l : List α) (i : Nat) (hi : i < l.length) :
    (l.take (i + 1)).countP p = (l.take i).countP p + if p l[i] then 1 else 0 := by
  rw [List.take_add_one, List.getElem?_eq_getElem hi, List.countP_append]
  simp only [Option.toList_some, List.countP_cons, List.countP_nil, Nat.zero_add]

theorem pass_loop (n : Nat) (dig : α → Nat) (f : α → β) (src : Bufs ι β → Nat → Option α) (dst : ι)
    (l : List α) (m0 : Bufs ι β) (hl : l.length = n) (V : Nat) (hV : ∀ x ∈ l, dig x < V)
    (hsrc : ∀ m' : Bufs ι β, (∀ b, b ≠ dst → m' b = m0 b) → ∀ i, i < n → src m' i = l[i]?) :
    ∀ (r i : Nat) (off : Nat → Nat) (m : Bufs ι β), i + r = n →
    (∀ b, b ≠ dst → m b = m0 b) →
    (∀ v, v < V → off v = start dig l v + (l.take i).countP fun x => decide (dig x = v)) →
    (∀ v k, v < V → k < (l.take i).countP (fun x => decide (dig x = v)) →
      m dst (start dig l v + k) = (buckets dig l V)[start dig l v + k]?.map f) →
    (∀ k, n ≤ k → m dst k = m0 dst k) →
    ∃ m', pass n dig f src dst r i off m = some m' ∧ (∀ b, b ≠ dst → m' b = m0 b) ∧
      (∀ k, k < n → m' dst k = ((buckets dig l V).map f)[k]?) ∧ (∀ k, n ≤ k → m' dst k = m0 dst k) := by
  intro r
  induction r with
  | zero =>
    intro i off m hi hm _ hinv hout
    refine ⟨m, rfl, hm, ?_, hout⟩
    intro k hk
    have hk' : k < start dig l V := by rw [start_all dig l V hV]; omega
    obtain ⟨v, k', hv, hk', e⟩ := buckets_cover dig l V k hk'
    rw [e, hinv v k' hv (by rw [List.take_of_length_le (by omega)]; exact hk'), List.getElem?_map]
  | succ r ih =>
    intro i off m hi hm hoff hinv hout
    have hil : i < l.length := by omega
    have hx : src m i = some l[i] := by rw [hsrc m hm i (by omega)]; exact List.getElem?_eq_getElem hil
    have hxV : dig l[i] < V := hV _ (List.getElem_mem hil)
    rw [pass]
    simp only [hx, Option.bind_eq_bind, Option.bind_some]
    set v := dig l[i] with hv
    have hcnt : (l.take i).countP (fun x => decide (dig x = v)) < l.countP (fun x => decide (dig x = v)) := by
      have h1 := countP_take_succ (fun x => decide (dig x = v)) l i hil
      have h2 : (l.take (i + 1)).countP (fun x => decide (dig x = v)) ≤ l.countP (fun x => decide (dig x = v)) :=
        (List.take_sublist _ _).countP_le
      simp [← hv] at h1
      omega
    have hS : (buckets dig l V)[off v]? = some l[i] := by
      rw [hoff v hxV, buckets_getElem dig l V v _ hxV hcnt]
      exact filter_at _ l i hil (by simp [hv])
    have hlt : off v < n := by
      have := (List.getElem?_eq_some_iff.1 hS).1
      rw [buckets_length, start_all dig l V hV] at this; omega
    simp only [wr, if_pos hlt, Option.bind_some]
    apply ih (i + 1)
    · omega
    · intro b hb
      funext k
      simp [hb, hm b hb]
    · intro u hu
      rw [countP_take_succ _ l i hil]
      by_cases h : u = v
      · subst h
        rw [Function.update_self, hoff _ hu]; simp [hv]; omega
      · rw [Function.update_of_ne h, hoff u hu]
        have : ¬ dig l[i] = u := fun e => h (by rw [hv]; exact e.symm)
        simp [this]
    · intro u k hu hk
      by_cases hp : start dig l u + k = off v
      · simp [hp, hS]
      · simp only [hp, and_false, if_false]
        apply hinv u k hu
        rw [countP_take_succ _ l i hil] at hk
        by_cases h : u = v
        · subst h
          simp [← hv] at hk
          rw [hoff _ hu] at hp
          omega
        · have : ¬ dig l[i] = u := fun e => h (by rw [hv]; exact e.symm)
          simpa [this] using hk
    · intro k hk
      have : ¬ k = off v := by omega
      simp [this, hout k hk]

theorem pass_spec (n : Nat) (dig : α → Nat) (f : α → β) (src : Bufs ι β → Nat → Option α) (dst : ι)
    (l : List α) (m0 : Bufs ι β) (hl : l.length = n) (V : Nat) (hV : ∀ x ∈ l, dig x < V)
    (off : Nat → Nat) (hoff : ∀ v, v < V → off v = start dig l v)
    (hsrc : ∀ m' : Bufs ι β, (∀ b, b ≠ dst → m' b = m0 b) → ∀ i, i < n → src m' i = l[i]?) :
    ∃ m' out, pass n dig f src dst n 0 off m0 = some m' ∧ IsStableSort dig l out ∧
      (∀ b, b ≠ dst → m' b = m0 b) ∧
      (∀ k, k < n → m' dst k = (out.map f)[k]?) ∧ (∀ k, n ≤ k → m' dst k = m0 dst k) := by
  obtain ⟨m', e, h1, h2, h3⟩ := pass_loop n dig f src dst l m0 hl V hV hsrc n 0 off m0 (by omega)
    (fun _ _ => rfl) (by intro v hv; simp [hoff v hv]) (by intro v k _ hk; simp at hk) (fun _ _ => rfl)
  exact ⟨m', _, e, buckets_stable dig l V hV, h1, h2, h3⟩

/-! ### counts and offsets -/

theorem digit_eq (sh v : Nat) : digit sh v = v / 2 ^ sh % 256 := by
  unfold digit
  rw [Nat.shiftRight_eq_div_pow]
  exact Nat.and_two_pow_sub_one_eq_mod (v / 2 ^ sh) 8

theorem digit_lt (sh v : Nat) : digit sh v < 256 := by rw [digit_eq]; exact Nat.mod_lt _ (by decide)

theorem and255 (v : Nat) : v &&& 255 = v % 256 := Nat.and_two_pow_sub_one_eq_mod v 8

theorem shr8 (v : Nat) : v >>> 8 = v / 256 := by rw [Nat.shiftRight_eq_div_pow]

theorem digit_shift (i v : Nat) : digit (8 * i) (v / 256) = digit (8 * (i + 1)) v := by
  simp only [digit_eq, Nat.div_div_eq_div_mul]
  congr 2
  rw [Nat.mul_add, Nat.pow_add, Nat.mul_comm]

theorem countDigits_spec : ∀ (r i val : Nat) (count : Nat → Nat → Nat) (j u : Nat),
    countDigits r i val count j u =
      count j u + if i ≤ j ∧ j < i + r ∧ digit (8 * (j - i)) val = u then 1 else 0 := by
  intro r
  induction r with
  | zero => intro i val count j u; simp [countDigits]; intro h1 h2; omega
  | succ r ih =>
    intro i val count j u
    rw [countDigits, ih, shr8, and255]
    by_cases hj : j = i
    · subst hj
      have h1 : ¬ (j + 1 ≤ j ∧ j < j + 1 + r ∧ digit (8 * (j - (j + 1))) (val / 256) = u) := by omega
      rw [if_neg h1, Function.update_self]
      have h2 : digit (8 * (j - j)) val = val % 256 := by rw [digit_eq]; simp
      rw [h2]
      by_cases hu : u = val % 256
      · subst hu
        simp
      · rw [Function.update_of_ne hu]
        have : ¬ val % 256 = u := fun e => hu e.symm
        simp [this]
    · rw [Function.update_of_ne hj]
      congr 1
      by_cases hij : i + 1 ≤ j
      · have e : digit (8 * (j - (i + 1))) (val / 256) = digit (8 * (j - i)) val := by
          rw [digit_shift]; congr 2; omega
        rw [e]
        simp only [show (i + 1 ≤ j) = True from by simp [hij], show (i ≤ j) = True from by simp; omega,
          show (j < i + 1 + r) = (j < i + (r + 1)) from by rw [Nat.add_right_comm i 1 r, Nat.add_assoc]]
      · have h1 : ¬ i ≤ j := by omega
        rw [if_neg (by tauto), if_neg (by tauto)]

theorem radixCount_aux (D : Nat) (A : List Nat) : ∀ (acc : Nat × (Nat → Nat → Nat)),
    (∀ j u, j < D → (A.foldl (fun acc val => (acc.1 ||| val, countDigits D 0 val acc.2)) acc).2 j u =
      acc.2 j u + A.countP fun v => decide (digit (8 * j) v = u)) ∧
    (∀ s, digit s (A.foldl (fun acc val => (acc.1 ||| val, countDigits D 0 val acc.2)) acc).1 = 0 ↔
      digit s acc.1 = 0 ∧ ∀ v ∈ A, digit s v = 0) := by
  induction A with
  | nil => intro acc; simp
  | cons a A ih =>
    intro acc
    rw [List.foldl_cons]
    obtain ⟨h1, h2⟩ := ih (acc.1 ||| a, countDigits D 0 a acc.2)
    constructor
    · intro j u hj
      rw [h1 j u hj]
      simp only []
      rw [countDigits_spec, List.countP_cons]
      simp [hj]
      ring
    · intro s
      rw [h2 s]
      have : digit s (acc.1 ||| a) = digit s acc.1 ||| digit s a := by
        unfold digit
        rw [Nat.shiftRight_or_distrib, Nat.and_or_distrib_right]
      simp [this, Nat.or_eq_zero_iff]
      tauto

theorem radixCount_count (D : Nat) (A : List Nat) (j u : Nat) (hj : j < D) :
    (radixCount D A).2 j u = A.countP fun v => decide (digit (8 * j) v = u) := by
  unfold radixCount
  rw [(radixCount_aux D A (0, fun _ _ => 0)).1 j u hj]; simp

theorem radixCount_or (D : Nat) (A : List Nat) (s : Nat) :
    digit s (radixCount D A).1 = 0 ↔ ∀ v ∈ A, digit s v = 0 := by
  unfold radixCount
  rw [(radixCount_aux D A (0, fun _ _ => 0)).2 s]; simp [digit_eq]

/-- prefix sums -/
def psum (t : Nat → Nat) : Nat → Nat
  | 0 => 0
  | v + 1 => psum t v + t v

theorem radixOffsetsLoop_spec (t0 : Nat → Nat) : ∀ (g c : Nat) (t : Nat → Nat),
    (∀ v, v < c → t v = psum t0 v) → (∀ v, c ≤ v → t v = t0 v) →
    ∀ v, v < c + 4 * g → radixOffsetsLoop g c (psum t0 c) t v = psum t0 v := by
  intro g
  induction g with
  | zero => intro c t h1 _ v hv; simpa [radixOffsetsLoop] using h1 v (by omega)
  | succ g ih =>
    intro c t h1 h2 v hv
    rw [radixOffsetsLoop]
    simp only [h2 c (by omega), h2 (c + 1) (by omega), h2 (c + 2) (by omega), h2 (c + 3) (by omega)]
    have e : psum t0 c + t0 c + t0 (c + 1) + t0 (c + 2) + t0 (c + 3) = psum t0 (c + 4) := rfl
    rw [e]
    apply ih (c + 4)
    · intro u hu
      simp only [Function.update_apply]
      split
      · rename_i h; subst h; rfl
      · split
        · rename_i h; subst h; rfl
        · split
          · rename_i h; subst h; rfl
          · split
            · rename_i h; subst h; rfl
            · exact h1 u (by omega)
    · intro u hu
      simp only [Function.update_apply]
      rw [if_neg (by omega), if_neg (by omega), if_neg (by omega), if_neg (by omega)]
      exact h2 u (by omega)
    · omega

theorem radixOffsets_spec (t : Nat → Nat) (v : Nat) (hv : v < 256) : radixOffsets t v = psum t v := by
  unfold radixOffsets
  exact radixOffsetsLoop_spec t 64 0 t (by intro v hv; omega) (fun _ _ => rfl) v (by omega)

theorem psum_start (dig : α → Nat) (l : List α) (v : Nat) :
    psum (fun u => l.countP fun x => decide (dig x = u)) v = start dig l v := by
  induction v with
  | zero => simp [psum, start]
  | succ v ih => rw [psum, ih, start_succ]

theorem start_perm (dig : α → Nat) {l l' : List α} (h : l.Perm l') (v : Nat) :
    start dig l v = start dig l' v := h.countP_eq _

/-! ### the list of digits to do -/

/-- the digits that radix_zeros keeps -/
theorem radixZeros_spec (D : Nat) (A : List Nat) : ∀ (r i : Nat), i + r = D →
    radixZeros r i ((radixCount D A).1 / 256 ^ i) (radixCount D A).2 =
      ((List.range' i r).filter fun j => decide (digit (8 * j) (radixCount D A).1 ≠ 0)).map
        fun j => (8 * j, radixOffsets ((radixCount D A).2 j)) := by
  intro r
  induction r with
  | zero => intro i _; simp [radixZeros]
  | succ r ih =>
    intro i hi
    rw [radixZeros, List.range'_succ, shr8, Nat.div_div_eq_div_mul, ← Nat.pow_succ, ih (i + 1) (by omega),
      and255]
    have e : (radixCount D A).1 / 256 ^ i % 256 = digit (8 * i) (radixCount D A).1 := by
      rw [digit_eq, Nat.pow_mul]
    simp only [e]
    by_cases h : digit (8 * i) (radixCount D A).1 = 0
    · simp [h]
    · rw [Nat.mul_comm i 8, List.filter_cons]; simp [h]

/-- abstract effect of the passes over the digits `js` -/
inductive LSD (key : α → Nat) : List Nat → List α → List α → Prop
  | nil (l) : LSD key [] l l
  | cons {j js l m o} : IsStableSort (fun x => digit (8 * j) (key x)) l m → LSD key js m o → LSD key (j :: js) l o

theorem LSD.append {key : α → Nat} {js js' : List Nat} {l m o : List α} (h1 : LSD key js l m) (h2 : LSD key js' m o) :
    LSD key (js ++ js') l o := by
  induction h1 with
  | nil => exact h2
  | cons h _ ih => exact LSD.cons h (ih h2)

theorem LSD.perm {key : α → Nat} {js : List Nat} {l o : List α} (h : LSD key js l o) : o.Perm l := by
  induction h with
  | nil => exact List.Perm.refl _
  | cons h _ ih => exact ih.trans h.perm

/-- skipped digits may be put back -/
theorem LSD.unskip {key : α → Nat} (p : Nat → Bool) : ∀ (js : List Nat) {l o : List α},
    (∀ j ∈ js, p j = false → ∀ x ∈ l, digit (8 * j) (key x) = 0) → LSD key (js.filter p) l o → LSD key js l o
  | [], l, o, _, h => by cases h; exact LSD.nil _
  | j :: js, l, o, hz, h => by
    rw [List.filter_cons] at h
    split at h
    · cases h with
      | cons h1 h2 =>
        refine LSD.cons h1 (LSD.unskip p js ?_ h2)
        intro j' hj' hp x hx
        exact hz j' (by simp [hj']) hp x (h1.perm.mem_iff.1 hx)
    · rename_i hp
      refine LSD.cons (IsStableSort.const 0 ?_) (LSD.unskip p js ?_ h)
      · exact hz j (by simp) (by simpa using hp)
      · intro j' hj' hp x hx; exact hz j' (by simp [hj']) hp x hx

theorem mod_pow_succ (v j : Nat) : v % 256 ^ (j + 1) = digit (8 * j) v * 256 ^ j + v % 256 ^ j := by
  rw [digit_eq, Nat.pow_mul, Nat.pow_succ, Nat.mod_mul]
  norm_num
  ring

/-- least significant digit first: after the digits `i, i+1, ..., i+r-1` the list is stably sorted by
the low `i+r` digits if it was so for the low `i` digits -/
theorem LSD.sound {key : α → Nat} : ∀ (r i : Nat) {l0 l o : List α},
    IsStableSort (fun x => key x % 256 ^ i) l0 l → LSD key (List.range' i r) l o →
    IsStableSort (fun x => key x % 256 ^ (i + r)) l0 o
  | 0, i, l0, l, o, h, h' => by cases h'; exact h
  | r + 1, i, l0, l, o, h, h' => by
    rw [List.range'_succ] at h'
    cases h' with
    | @cons _ _ _ mm _ h1 h2 =>
      have : IsStableSort (fun x => key x % 256 ^ (i + 1)) l0 mm := by
        refine IsStableSort.lex (g := fun x => digit (8 * i) (key x)) ?_ ?_ h h1
        · intro a b hab
          simp only [mod_pow_succ]
          have ha := Nat.mod_lt (key a) (show 0 < 256 ^ i by positivity)
          rcases hab with hlt | ⟨he, hle⟩
          · have : digit (8 * i) (key a) * 256 ^ i + 256 ^ i ≤ digit (8 * i) (key b) * 256 ^ i := by
              have := Nat.mul_le_mul_right (256 ^ i) (Nat.succ_le_of_lt hlt)
              rwa [Nat.succ_mul] at this
            omega
          · rw [he]; omega
        · intro a b hab
          simp only [mod_pow_succ] at hab
          have ha := Nat.mod_lt (key a) (show 0 < 256 ^ i by positivity)
          have hb := Nat.mod_lt (key b) (show 0 < 256 ^ i by positivity)
          have e1 : digit (8 * i) (key a) = digit (8 * i) (key b) := by
            have h1 := congrArg (· / 256 ^ i) hab
            have hp : 0 < 256 ^ i := by positivity
            simp only [Nat.mul_comm _ (256 ^ i), Nat.mul_add_div hp, Nat.div_eq_of_lt ha,
              Nat.div_eq_of_lt hb, Nat.add_zero] at h1
            exact h1
          refine ⟨e1, ?_⟩
          rw [e1] at hab
          omega
      have := LSD.sound r (i + 1) this h2
      rwa [show i + 1 + r = i + (r + 1) by omega] at this

theorem LSD.sorts {key : α → Nat} (D : Nat) {l o : List α} (hD : ∀ x ∈ l, key x < 256 ^ D)
    (h : LSD key (List.range' 0 D) l o) : IsStableSort key l o := by
  have h0 : IsStableSort (fun x => key x % 256 ^ 0) l l :=
    IsStableSort.const 0 (by intro a _; simp [Nat.mod_one])
  have := LSD.sound D 0 h0 h
  rw [Nat.zero_add] at this
  have hl : ∀ x ∈ l, key x % 256 ^ D = key x := fun x hx => Nat.mod_eq_of_lt (hD x hx)
  have ho : ∀ x ∈ o, key x % 256 ^ D = key x := fun x hx => hl x (this.perm.mem_iff.1 hx)
  refine ⟨this.perm, ?_, ?_⟩
  · refine (List.pairwise_iff_forall_sublist.2 ?_)
    intro a b hab
    have := (List.pairwise_iff_forall_sublist.1 this.sorted) hab
    rwa [ho a (hab.subset (by simp)), ho b (hab.subset (by simp))] at this
  · intro k
    have e := this.stable k
    rw [List.filter_congr (q := fun x => decide (key x % 256 ^ D = k)) (fun x hx => by rw [ho x hx]), e]
    exact List.filter_congr (fun x hx => by rw [hl x hx])

/-! ### radix_sortv -/

/-- the digits done by the sort of `A` -/
def keptDigits (D : Nat) (A : List Nat) : List Nat :=
  (List.range' 0 D).filter fun j => decide (digit (8 * j) (radixCount D A).1 ≠ 0)

theorem radixZeros_kept (D : Nat) (A : List Nat) :
    radixZeros D 0 (radixCount D A).1 (radixCount D A).2 =
      (keptDigits D A).map fun j => (8 * j, radixOffsets ((radixCount D A).2 j)) := by
  have := radixZeros_spec D A D 0 (by omega)
  rw [Nat.pow_zero, Nat.div_one] at this
  exact this

theorem keptDigits_lt {D : Nat} {A : List Nat} {j : Nat} (h : j ∈ keptDigits D A) : j < D := by
  have := (List.mem_filter.1 h).1
  simpa using this

theorem offsets_ok (D : Nat) (A : List Nat) {α : Type} (key : α → Nat) (l : List α) (h : (l.map key).Perm A)
    (j : Nat) (hj : j < D) (v : Nat) (hv : v < 256) :
    radixOffsets ((radixCount D A).2 j) v = start (fun x => digit (8 * j) (key x)) l v := by
  rw [radixOffsets_spec _ v hv]
  have : (radixCount D A).2 j = fun u => l.countP fun x => decide (digit (8 * j) (key x) = u) := by
    funext u
    rw [radixCount_count D A j u hj, ← h.countP_eq, List.countP_map]
    rfl
  rw [this, psum_start]

theorem rd_lt {n : Nat} {m : Bufs ι β} {b : ι} {k : Nat} (h : k < n) : rd n m b k = m b k := by
  simp [rd, h]

/-- the passes between two buffers -/
theorem passes_spec (D n : Nat) (A : List Nat) : ∀ (js : List Nat) (src dst : Loc) (m : Bufs Loc Nat) (l : List Nat),
    (∀ j ∈ js, j < D) → src ≠ dst → l.length = n → l.Perm A → (∀ k, k < n → m src k = l[k]?) →
    ∃ m' src' o, passes n (js.map fun j => (8 * j, radixOffsets ((radixCount D A).2 j))) src dst m = some (m', src') ∧
      LSD id js l o ∧ (∀ k, k < n → m' src' k = o[k]?) ∧
      (src' = if js.length % 2 = 0 then src else dst) ∧
      (∀ b, b ≠ src → b ≠ dst → m' b = m b) ∧
      (∀ b k, n ≤ k → m' b k = m b k)
  | [], src, dst, m, l, _, _, _, _, hm => ⟨m, src, l, rfl, LSD.nil _, hm, by simp, fun _ _ _ => rfl, fun _ _ _ => rfl⟩
  | j :: js, src, dst, m, l, hjs, hne, hl, hp, hm => by
    simp only [List.map_cons, passes]
    obtain ⟨m1, o1, e1, hs1, hb1, hd1, ho1⟩ := pass_spec n (digit (8 * j)) (id : Nat → Nat)
      (fun m i => rd n m src i) dst l m hl 256 (fun x _ => digit_lt _ _)
      (radixOffsets ((radixCount D A).2 j))
      (fun v hv => offsets_ok D A id l (by simpa using hp) j (hjs j (by simp)) v hv)
      (by intro m' hm' i hi; rw [rd_lt hi, hm' src hne]; exact hm i hi)
    simp only [e1, Option.bind_eq_bind, Option.bind_some]
    obtain ⟨m2, s2, o2, e2, hs2, hd2, hsrc2, hb2, ho2⟩ := passes_spec D n A js dst src m1 o1
      (fun j' hj' => hjs j' (by simp [hj'])) hne.symm (by rw [hs1.perm.length_eq, hl])
      (hs1.perm.trans hp) (by intro k hk; simpa using hd1 k hk)
    refine ⟨m2, s2, o2, e2, LSD.cons hs1 hs2, hd2, ?_, ?_, ?_⟩
    · rw [hsrc2, List.length_cons]
      by_cases h : js.length % 2 = 0
      · rw [if_pos h, if_neg (by omega)]
      · rw [if_neg h, if_pos (by omega)]
    · intro b hbs hbd
      rw [hb2 b hbd hbs, hb1 b hbd]
    · intro b k hk
      rw [ho2 b k hk]
      by_cases hb : b = dst
      · rw [hb]; exact ho1 k hk
      · rw [hb1 b hb]

theorem lsd_of_kept {α : Type} (key : α → Nat) (D : Nat) (A : List Nat) (l o : List α) (h : (l.map key).Perm A)
    (hl : LSD key (keptDigits D A) l o) : LSD key (List.range' 0 D) l o := by
  refine LSD.unskip _ _ ?_ hl
  intro j _ hp x hx
  simp only [ne_eq, decide_not, Bool.not_eq_false', decide_eq_true_eq] at hp
  exact (radixCount_or D A _).1 hp (key x) (h.mem_iff.1 (List.mem_map.2 ⟨x, hx, rfl⟩))

theorem radixSortv_spec (D n : Nat) (inPlace : Bool) (m : Bufs Loc Nat) (A : List Nat) (hn : A.length = n)
    (hA : ∀ k, k < n → m .A k = A[k]?) (hD : ∀ x ∈ A, x < 256 ^ D) :
    ∃ m' o, radixSortv D n inPlace m = some m' ∧ IsStableSort id A o ∧
      (∀ k, k < n → m' (if inPlace then Loc.A else Loc.out) k = o[k]?) ∧
      (∀ b k, n ≤ k → m' b k = m b k) ∧
      (inPlace = false → m' .A = m .A) := by
  have hread : readList (m .A) n = some A := by
    unfold readList; rw [← hn]; exact MergeSort.mapM_range_eq _ _ (by intro k hk; exact hA k (by omega))
  simp only [radixSortv, hread, Option.bind_eq_bind, Option.bind_some, radixZeros_kept]
  have hperm : (A.map id).Perm A := by simp
  rcases hk : keptDigits D A with _ | ⟨j0, js⟩
  · simp only [List.map_nil]
    refine ⟨_, A, rfl, ?_, ?_, ?_, ?_⟩
    · exact LSD.sorts D hD (lsd_of_kept id D A A A hperm (hk ▸ LSD.nil _))
    · intro k hkn
      have : IsStableSort id A A := LSD.sorts D hD (lsd_of_kept id D A A A hperm (hk ▸ LSD.nil _))
      -- all keys are zero
      have hz : ∀ x ∈ A, x = 0 := by
        intro x hx
        have hx0 : ∀ j, j < D → digit (8 * j) x = 0 := by
          intro j hj
          have : j ∉ keptDigits D A := by rw [hk]; simp
          have h2 : digit (8 * j) (radixCount D A).1 = 0 := by
            by_contra hne
            exact this (List.mem_filter.2 ⟨by simp [hj], by simpa using hne⟩)
          exact (radixCount_or D A _).1 h2 x hx
        have : ∀ i, i ≤ D → x % 256 ^ i = 0 := by
          intro i
          induction i with
          | zero => intro _; simp [Nat.mod_one]
          | succ i ih => intro hi; rw [mod_pow_succ, hx0 i (by omega), ih (by omega)]; simp
        have := this D (le_refl _)
        rwa [Nat.mod_eq_of_lt (hD x hx)] at this
      simp only [hkn, and_true, if_true]
      rw [List.getElem?_eq_getElem (by omega), hz _ (List.getElem_mem (by omega))]
    · intro b k hkn
      simp [show ¬ k < n by omega]
    · intro h; subst h; funext k; simp
  · simp only [List.map_cons]
    have hjs : ∀ j ∈ j0 :: js, j < D := fun j hj => keptDigits_lt (hk ▸ hj)
    set out := (if inPlace then Loc.A else Loc.out) with hout
    set c : Bool := (inPlace || ((js.map fun j => (8 * j, radixOffsets ((radixCount D A).2 j))).length + 1) % 2 == 0) with hc
    have hcl : c = (inPlace || (js.length + 1) % 2 == 0) := by rw [hc, List.length_map]
    set src := (if c then Loc.work else out) with hsrc
    set dst := (if c then out else Loc.work) with hdst
    have hsrcA : src ≠ .A := by
      rw [hsrc, hout, hcl]; cases inPlace <;> simp; split <;> simp
    have hne : src ≠ dst := by
      rw [hsrc, hdst, hout]; cases c <;> cases inPlace <;> simp
    obtain ⟨m1, o1, e1, hs1, hb1, hd1, ho1⟩ := pass_spec n (digit (8 * j0)) (id : Nat → Nat)
      (fun m i => rd n m .A i) src A m hn 256 (fun x _ => digit_lt _ _)
      (radixOffsets ((radixCount D A).2 j0))
      (fun v hv => offsets_ok D A id A hperm j0 (hjs j0 (by simp)) v hv)
      (by intro m' hm' i hi; rw [rd_lt hi, hm' .A hsrcA.symm]; exact hA i hi)
    simp only [e1, Option.bind_some]
    obtain ⟨m2, s2, o2, e2, hs2, hd2, hsrc2, hb2, ho2⟩ := passes_spec D n A js src dst m1 o1
      (fun j hj => hjs j (by simp [hj])) hne (by rw [hs1.perm.length_eq, hn])
      hs1.perm (by intro k hk; simpa using hd1 k hk)
    simp only [e2, Option.bind_some]
    have hst : IsStableSort id A o2 := LSD.sorts D hD (lsd_of_kept id D A A o2 hperm (hk ▸ LSD.cons hs1 hs2))
    have hkeepA : inPlace = false → m2 .A = m .A := by
      intro h
      have hA1 : Loc.A ≠ dst := by rw [hdst, hout, h]; split <;> simp
      rw [hb2 .A hsrcA.symm hA1, hb1 .A hsrcA.symm]
    have ho : ∀ b k, n ≤ k → m2 b k = m b k := by
      intro b k hkn
      rw [ho2 b k hkn]
      by_cases hb : b = src
      · rw [hb]; exact ho1 k hkn
      · rw [hb1 b hb]
    by_cases hso : s2 = out
    · rw [if_neg (by simpa using hso)]
      refine ⟨m2, o2, rfl, hst, ?_, ho, hkeepA⟩
      intro k hkn; rw [← hso]; exact hd2 k hkn
    · rw [if_pos (by simpa using hso)]
      refine ⟨_, o2, rfl, hst, ?_, ?_, ?_⟩
      · intro k hkn; simp only [hkn, and_self, if_true]; exact hd2 k hkn
      · intro b k hkn
        simp only [show ¬ k < n by omega, and_false, if_false]; exact ho b k hkn
      · intro h
        funext k
        have : ¬ (Loc.A = out) := by rw [hout, h]; simp
        simp only [this, false_and, if_false]
        rw [hkeepA h]

/-! ### radix_sortp -/

theorem passesP_spec (D n : Nat) (A : List Nat) :
    ∀ (js : List Nat) (j : Nat) (src : Bool) (m : Bufs Bool (Nat × Nat)) (l : List (Nat × Nat)),
    (∀ i ∈ j :: js, i < D) → l.length = n → (l.map (·.1)).Perm A → (∀ k, k < n → m src k = l[k]?) →
    ∃ m' src' jl o, passesP n (8 * j, radixOffsets ((radixCount D A).2 j))
        (js.map fun j => (8 * j, radixOffsets ((radixCount D A).2 j))) src m =
          some (m', src', (8 * jl, radixOffsets ((radixCount D A).2 jl))) ∧ jl < D ∧
      (∀ o', IsStableSort (fun x : Nat × Nat => digit (8 * jl) x.1) o o' → LSD (fun x : Nat × Nat => x.1) (j :: js) l o') ∧
      (∀ k, k < n → m' src' k = o[k]?) ∧ o.Perm l
  | [], j, src, m, l, hj, hl, hp, hm =>
    ⟨m, src, j, l, rfl, hj j (by simp), fun o' h => LSD.cons h (LSD.nil _), hm, List.Perm.refl _⟩
  | j' :: js, j, src, m, l, hjs, hl, hp, hm => by
    simp only [List.map_cons, passesP]
    obtain ⟨m1, o1, e1, hs1, hb1, hd1, ho1⟩ := pass_spec n (fun x : Nat × Nat => digit (8 * j) x.1) (id : Nat × Nat → Nat × Nat)
      (fun m i => rd n m src i) (!src) l m hl 256 (fun x _ => digit_lt _ _)
      (radixOffsets ((radixCount D A).2 j))
      (fun v hv => offsets_ok D A (fun x : Nat × Nat => x.1) l hp j (hjs j (by simp)) v hv)
      (by intro m' hm' i hi; rw [rd_lt hi, hm' src (by simp)]; exact hm i hi)
    simp only [e1, Option.bind_eq_bind, Option.bind_some]
    obtain ⟨m2, s2, jl, o, e2, hjl, hlsd, hd2, hp2⟩ := passesP_spec D n A js j' (!src) m1 o1
      (fun i hi => hjs i (by simp at hi ⊢; tauto)) (by rw [hs1.perm.length_eq, hl])
      ((hs1.perm.map _).trans hp) (by intro k hk; simpa using hd1 k hk)
    exact ⟨m2, s2, jl, o, e2, hjl, fun o' h => LSD.cons hs1 (hlsd o' h), hd2, hp2.trans hs1.perm⟩

/-- the sequence of (key, index) pairs read by the first pass -/
def inputP (perm : Option (List Nat)) (A : List Nat) : Option (List (Nat × Nat)) :=
  match perm with
  | none => some A.zipIdx
  | some p => p.mapM fun j => A[j]?.map fun v => (v, j)

theorem mapM_getElem? {γ δ : Type} (g : γ → Option δ) : ∀ (p : List γ) (l : List δ), p.mapM g = some l →
    ∀ i : Nat, (p[i]?.bind g) = l[i]?
  | [], l, h, i => by simp at h; subst h; simp
  | a :: p, l, h, i => by
    rw [List.mapM_cons] at h
    rcases ha : g a with _ | b
    · simp [ha] at h
    · rcases hp : p.mapM g with _ | l'
      · simp [ha, hp] at h
      · simp [ha, hp] at h
        subst h
        cases i with
        | zero => simp [ha]
        | succ i => simpa using mapM_getElem? g p l' hp i

theorem mapM_length {γ δ : Type} (g : γ → Option δ) : ∀ (p : List γ) (l : List δ), p.mapM g = some l →
    l.length = p.length
  | [], l, h => by simp at h; subst h; simp
  | a :: p, l, h => by
    rw [List.mapM_cons] at h
    rcases ha : g a with _ | b
    · simp [ha] at h
    · rcases hp : p.mapM g with _ | l'
      · simp [ha, hp] at h
      · simp [ha, hp] at h
        subst h
        simp [mapM_length g p l' hp]

theorem radixSortp_spec (D : Nat) (perm : Option (List Nat)) (A : List Nat) (m : Bufs Bool (Nat × Nat))
    (idx0 : Bufs Unit Nat) (l : List (Nat × Nat)) (hl : inputP perm A = some l) (hlp : (l.map (·.1)).Perm A)
    (hD : ∀ x ∈ A, x < 256 ^ D) :
    ∃ o, radixSortp D perm A m idx0 = some (o.map (·.2)) ∧ IsStableSort (fun x : Nat × Nat => x.1) l o := by
  have hlen : l.length = A.length := by simpa using hlp.length_eq
  have hsrc : ∀ i, firstRead perm A i = l[i]? := by
    intro i
    cases perm with
    | none =>
      simp only [inputP, Option.some.injEq] at hl
      subst hl; simp [firstRead, List.getElem?_zipIdx]
    | some p =>
      simp only [inputP] at hl
      exact mapM_getElem? _ p l hl i
  have hD' : ∀ x ∈ l, x.1 < 256 ^ D := by
    intro x hx; exact hD _ (hlp.mem_iff.1 (List.mem_map.2 ⟨x, hx, rfl⟩))
  unfold radixSortp
  simp only [radixZeros_kept]
  have hread : ∀ (w : Bufs Unit Nat) (o : List (Nat × Nat)), o.length = A.length →
      (∀ k, k < A.length → w () k = (o.map (·.2))[k]?) → readList (w ()) A.length = some (o.map (·.2)) := by
    intro w o ho h
    have := MergeSort.mapM_range_eq (w ()) (o.map (·.2)) (by intro k hk; exact h k (by simp at hk; omega))
    rw [List.length_map, ho] at this
    exact this
  rcases hk : keptDigits D A with _ | ⟨j0, _ | ⟨j1, js⟩⟩
  · refine ⟨l, ?_, LSD.sorts D hD' (lsd_of_kept _ D A l l hlp (hk ▸ LSD.nil _))⟩
    cases perm with
    | none =>
      simp only [inputP, Option.some.injEq] at hl
      subst hl
      simp [List.zipIdx_map_snd, List.range_eq_range']
    | some p =>
      simp only [inputP] at hl
      simp only [List.map_nil, Option.some.injEq]
      apply List.ext_getElem?
      intro i
      have := mapM_getElem? _ p l hl i
      rw [List.getElem?_map, ← this]
      rcases hpi : p[i]? with _ | j
      · rfl
      · have hne : l[i]? ≠ none := by
          rw [ne_eq, List.getElem?_eq_none_iff, mapM_length _ p l hl]
          have := (List.getElem?_eq_some_iff.1 hpi).1
          omega
        rw [← this, hpi] at hne
        rcases hj : A[j]? with _ | v
        · simp [hj] at hne
        · simp [hj]
  · simp only [List.map_cons, List.map_nil]
    obtain ⟨m1, o1, e1, hs1, hb1, hd1, ho1⟩ := pass_spec A.length (fun x : Nat × Nat => digit (8 * j0) x.1)
      (fun x : Nat × Nat => x.2) (fun _ i => firstRead perm A i) () l idx0 hlen 256 (fun x _ => digit_lt _ _)
      (radixOffsets ((radixCount D A).2 j0))
      (fun v hv => offsets_ok D A (fun x : Nat × Nat => x.1) l hlp j0 (keptDigits_lt (D := D) (A := A) (by rw [hk]; simp)) v hv)
      (by intro m' hm' i hi; exact hsrc i)
    refine ⟨o1, ?_, LSD.sorts D hD' (lsd_of_kept _ D A l o1 hlp (hk ▸ LSD.cons hs1 (LSD.nil _)))⟩
    simp only [e1, Option.bind_eq_bind, Option.bind_some]
    exact hread m1 o1 (by rw [hs1.perm.length_eq, hlen]) hd1
  · simp only [List.map_cons]
    have hjs : ∀ j ∈ j0 :: j1 :: js, j < D := fun j hj => keptDigits_lt (hk ▸ hj)
    generalize (if (((js.map fun j => (8 * j, radixOffsets ((radixCount D A).2 j))).length + 2) % 2 == 0) = true
      then true else false) = src
    obtain ⟨m1, o1, e1, hs1, hb1, hd1, ho1⟩ := pass_spec A.length (fun x : Nat × Nat => digit (8 * j0) x.1)
      (id : Nat × Nat → Nat × Nat) (fun _ i => firstRead perm A i) src l m hlen 256 (fun x _ => digit_lt _ _)
      (radixOffsets ((radixCount D A).2 j0))
      (fun v hv => offsets_ok D A (fun x : Nat × Nat => x.1) l hlp j0 (hjs j0 (by simp)) v hv)
      (by intro m' hm' i hi; exact hsrc i)
    obtain ⟨m2, s2, jl, o, e2, hjl, hlsd, hd2, hp2⟩ := passesP_spec D A.length A js j1 src m1 o1
      (fun i hi => hjs i (by simp at hi ⊢; tauto)) (by rw [hs1.perm.length_eq, hlen])
      ((hs1.perm.map _).trans hlp) (by intro k hk; simpa using hd1 k hk)
    have hol : o.length = A.length := by rw [hp2.length_eq, hs1.perm.length_eq, hlen]
    obtain ⟨m3, o3, e3, hs3, hb3, hd3, ho3⟩ := pass_spec A.length (fun x : Nat × Nat => digit (8 * jl) x.1)
      (fun x : Nat × Nat => x.2) (fun _ i => rd A.length m2 s2 i) () o idx0 hol 256 (fun x _ => digit_lt _ _)
      (radixOffsets ((radixCount D A).2 jl))
      (fun v hv => offsets_ok D A (fun x : Nat × Nat => x.1) o
        (((hp2.trans hs1.perm).map _).trans hlp) jl hjl v hv)
      (by intro m' hm' i hi; rw [rd_lt hi]; exact hd2 i hi)
    refine ⟨o3, ?_, LSD.sorts D hD' (lsd_of_kept _ D A l o3 hlp (hk ▸ LSD.cons hs1 (hlsd o3 hs3)))⟩
    simp only [e1, e2, e3, Option.bind_eq_bind, Option.bind_some]
    exact hread m3 o3 (by rw [hs3.perm.length_eq, hol]) hd3

end Gslib.Radix
