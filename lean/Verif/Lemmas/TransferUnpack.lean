import Verif.Lemmas.TransferPack

/-!
# Packing of all arrays, unpacking, row counts
-/

namespace Gslib.Transfer
open Gslib Gslib.Crystal Gslib.Spec

theorem recs_slots {rs : Nat} {gs : List G} (h : ∀ g ∈ gs, g.Ok rs) : ∀ r ∈ recs gs, r.2.length = rs ∧ W32 r.2 := by
  intro r hr
  obtain ⟨g, hg, hr⟩ := List.mem_flatMap.1 hr
  obtain ⟨s, hs, rfl⟩ := List.mem_map.1 hr
  exact h g hg s hs

theorem forall₂_zipWith {α β γ : Type} {R : α → β → Prop} {R' : α → γ → Prop} {f : α → β → γ} : ∀ {a : List α} {b : List β},
    List.Forall₂ R a b → (∀ x ∈ a, ∀ y ∈ b, R x y → R' x (f x y)) → List.Forall₂ R' a (List.zipWith f a b)
  | _, _, .nil, _ => by simp
  | x :: a, y :: b, .cons h t, hh => by
    rw [List.zipWith_cons_cons]
    exact .cons (hh x (by simp) y (by simp) h) (forall₂_zipWith t fun x hx y hy => hh x (by simp [hx]) y (by simp [hy]))

/-- one array: row `i` has `size` bytes -/
def ArrOk (size : Nat) (A : List (List Nat)) (i : Nat) : Prop :=
  size * i < uintRange ∧ i < A.length ∧ (A.getD i []).length = size ∧ Bytes (A.getD i [])

theorem rowAt_ok {size : Nat} {A : List (List Nat)} {i : Nat} (h : ArrOk size A i) : rowAt A size i = some (A.getD i []) := by
  obtain ⟨h1, h2, _⟩ := h
  unfold rowAt
  rw [if_pos h1, List.getD_eq_getElem?_getD, List.getElem?_eq_getElem h2]; rfl

theorem packRest_spec {np rs id : Nat} {key : Nat → Nat} (perm : List Nat) (hrs : 0 < rs) : ∀ (As : List (List (List Nat))) (sizes : List Nat) (off : Nat) (gs : List G)
    (body : Nat → List Nat), As.length = sizes.length → off + sizes.sum ≤ 4 * rs →
    (∀ x ∈ As.zip sizes, ∀ i ∈ perm, ArrOk x.2 x.1 i) → (∀ g ∈ gs, (g.src = id ∧ g.tgt < np) ∧ g.Ok rs) → W32 (flat (gs.map G.msg)) →
    List.Forall₂ (Packed off key body) perm (recs gs) →
    ∃ gs' : List G, packRest rs perm off As sizes (flat (gs.map G.msg)) = some (flat (gs'.map G.msg)) ∧
      (∀ g ∈ gs', (g.src = id ∧ g.tgt < np) ∧ g.Ok rs) ∧ W32 (flat (gs'.map G.msg)) ∧
      List.Forall₂ (Packed (off + sizes.sum) key fun i => body i ++ As.flatMap fun A => A.getD i []) perm (recs gs') ∧
      (flat (gs'.map G.msg)).length = (flat (gs.map G.msg)).length
  | [], [], off, gs, body, _, _, _, hg, hw, hp => ⟨gs, rfl, hg, hw, by simpa using hp, rfl⟩
  | A :: As, size :: sizes, off, gs, body, hl, hs, hA, hg, hw, hp => by
    simp only [List.length_cons, Nat.add_right_cancel_iff] at hl
    simp only [List.sum_cons] at hs
    have hA0 : ∀ i ∈ perm, ArrOk size A i := hA (A, size) (by simp)
    unfold packRest
    by_cases c : size = 0
    · rw [if_neg (by simp [c])]
      subst c
      obtain ⟨gs', e, h1, h2, h3, h4⟩ := packRest_spec perm hrs As sizes off gs body hl (by omega) (fun x hx => hA x (by simp [hx])) hg hw hp
      refine ⟨gs', e, h1, h2, ?_, h4⟩
      have : ∀ i ∈ perm, A.getD i [] = [] := fun i hi => List.length_eq_zero_iff.1 (hA0 i hi).2.2.1
      simp only [List.sum_cons, Nat.zero_add, List.flatMap_cons]
      have := forall₂_zipWith (R' := fun i r => Packed (off + sizes.sum) key (fun i => body i ++ (A.getD i [] ++ As.flatMap fun A => A.getD i [])) i r) (f := fun _ r => r) h3 (by
        intro i hi r _ h
        refine ⟨h.1, ?_⟩
        simp only [this i hi, List.nil_append]; exact h.2)
      have hz : List.zipWith (fun (_ : Nat) (r : Nat × List Nat) => r) perm (recs gs') = recs gs' := by
        have hl := h3.length_eq
        generalize recs gs' = l at hl
        clear * - hl
        induction l generalizing perm with
        | nil => simp
        | cons x l ih =>
          match perm, hl with
          | i :: perm, hl => simp at hl ⊢; exact ih perm hl
      rw [hz] at this
      exact this
    · rw [if_pos c]
      have hcol : ∀ i ∈ perm, ColOk off rs size A (fun i => A.getD i []) i := by
        intro i hi
        have := hA0 i hi
        exact ⟨rowAt_ok this, this.2.2.2, by rw [this.2.2.1]; omega⟩
      have hlen := hp.length_eq
      rw [packMore_spec gs perm (fun g hg' => (hg g hg').2) hw hcol hlen.symm hrs]
      simp only [bind, Option.bind]
      obtain ⟨u1, u2, u3⟩ := updGs_ok id gs perm hg hcol (by omega) hw
      have hp' : List.Forall₂ (Packed (off + size) key fun i => body i ++ A.getD i []) perm
          (recs (updGs (fun i s => slotPoke s off (A.getD i [])) gs perm)) := by
        rw [recs_updGs _ _ _ (by omega)]
        apply forall₂_zipWith hp
        intro i hi r hr hpk
        obtain ⟨q1, q2⟩ := recs_slots (fun g hg' => (hg g hg').2) r hr
        have := hA0 i hi
        refine ⟨hpk.1, ?_⟩
        simp only
        rw [slotPoke_bytes _ _ _ (by rw [q1, this.2.2.1]; omega) this.2.2.2]
        have hb := blit_take (bytesOf r.2) off (A.getD i []) (by rw [bytesOf_length, q1]; omega)
        rw [this.2.2.1, hpk.2] at hb
        exact hb
      obtain ⟨gs', e, h1, h2, h3, h4⟩ := packRest_spec perm hrs As sizes (off + size) _ _ hl (by omega) (fun x hx => hA x (by simp [hx])) u1 u2 hp'
      refine ⟨gs', e, h1, h2, ?_, by rw [h4, u3]⟩
      simpa [List.append_assoc, Nat.add_assoc] using h3

/-! ## unpacking -/

/-- number of rows -/
def nRows (gs : List G) : Nat := (gs.map fun g => g.slots.length).sum

theorem flatten_len {rs : Nat} : ∀ (slots : List (List Nat)), (∀ s ∈ slots, s.length = rs) → slots.flatten.length = slots.length * rs
  | [], _ => by simp
  | s :: l, h => by
    rw [List.flatten_cons, List.length_append, flatten_len l (fun s hs => h s (by simp [hs])), h s (by simp), List.length_cons, Nat.add_mul]
    omega

theorem unpackMsg_spec {rs cap : Nat} {data : List Nat} {rd : Nat → Option (List Nat)} {dec : List Nat → List Nat}
    (hrd : ∀ A s B, data = A ++ s ++ B → s.length = rs → rd A.length = some (dec s)) (hrs : 0 < rs) (msgEnd : Nat) :
    ∀ (slots : List (List Nat)) (fuel : Nat) (pre post : List Nat) (out : List (List Nat)), data = pre ++ slots.flatten ++ post →
      (∀ s ∈ slots, s.length = rs) → slots.length < fuel → msgEnd = pre.length + slots.flatten.length →
      out.length + slots.length ≤ cap →
      unpackMsg rs rd cap msgEnd fuel pre.length out = some (out ++ slots.map dec)
  | [], fuel + 1, pre, post, out, _, _, _, he, _ => by
    simp only [List.flatten_nil, List.length_nil, Nat.add_zero] at he
    simp [unpackMsg, he]
  | s :: slots, fuel + 1, pre, post, out, hd, hs, hf, he, hc => by
    simp only [List.length_cons] at hf hc
    have h1 := hs s (by simp)
    rw [List.flatten_cons, List.length_append] at he
    unfold unpackMsg
    rw [if_neg (by omega), if_neg (by omega), hrd pre s (slots.flatten ++ post) (by rw [hd]; simp) h1]
    simp only [bind, Option.bind]
    have ih := unpackMsg_spec (cap := cap) hrd hrs msgEnd slots fuel (pre ++ s) post (out ++ [dec s]) (by rw [hd]; simp) (fun s hs' => hs s (by simp [hs']))
      (by omega) (by rw [he, List.length_append]; omega) (by simp; omega)
    rw [List.length_append, h1] at ih
    rw [ih]; simp

/-- too many rows: out of bounds -/
theorem unpackMsg_overflow {rs cap : Nat} {rd : Nat → Option (List Nat)} (hrs : 0 < rs) (msgEnd : Nat) :
    ∀ (fuel pos : Nat) (out : List (List Nat)), out.length ≤ cap → pos + (cap - out.length) * rs < msgEnd →
      unpackMsg rs rd cap msgEnd fuel pos out = none
  | 0, _, _, _, _ => rfl
  | fuel + 1, pos, out, h1, h2 => by
    unfold unpackMsg
    by_cases c : cap ≤ out.length
    · rw [if_neg (by omega), if_pos c]
    · rw [if_neg (by omega), if_neg c]
      cases hr : rd pos with
      | none => rfl
      | some row =>
        simp only [bind, Option.bind]
        apply unpackMsg_overflow hrs msgEnd fuel (pos + rs) _ (by simp; omega)
        rw [show cap - out.length = (cap - (out ++ [row]).length) + 1 by simp; omega, Nat.add_mul] at h2
        omega

/-- reading the rows of a message: `rdMsg` at the start of message `g` and slot `s` gives `dec g s` -/
def ReadOk (rs : Nat) (data : List Nat) (rdMsg : Nat → Nat → Option (List Nat)) (dec : G → List Nat → List Nat) : Prop :=
  ∀ (A : List Nat) (g : G) (B : List Nat), data = A ++ g.msg.words ++ B → ∀ (A' s B' : List Nat), data = A' ++ s ++ B' → s.length = rs →
    rdMsg A.length A'.length = some (dec g s)

theorem words_eq (g : G) : g.msg.words = [g.tgt, g.src, g.slots.flatten.length] ++ g.slots.flatten := by simp [G.msg, Msg.words]

theorem slots_le {rs : Nat} (hrs : 0 < rs) {g : G} (h : ∀ s ∈ g.slots, s.length = rs) : g.slots.length ≤ g.slots.flatten.length := by
  rw [flatten_len g.slots h]
  exact Nat.le_mul_of_pos_right _ hrs

/-- the unpacking loop over a prefix of messages -/
theorem unpackLoop_prefix {rs cap n : Nat} {data : List Nat} {rdMsg : Nat → Nat → Option (List Nat)} {dec : G → List Nat → List Nat}
    (hrd : ReadOk rs data rdMsg dec) (hrs : 0 < rs) : ∀ (gs : List G) (k : Nat) (pre post : List Nat) (out : List (List Nat)),
    data = pre ++ flat (gs.map G.msg) ++ post → (∀ g ∈ gs, ∀ s ∈ g.slots, s.length = rs) → pre.length + (flat (gs.map G.msg)).length ≤ n →
    (flat (gs.map G.msg)).length < k → out.length + nRows gs ≤ cap →
    unpackLoop rs data n rdMsg cap (gs.length + k) pre.length out =
      unpackLoop rs data n rdMsg cap k (pre.length + (flat (gs.map G.msg)).length) (out ++ gs.flatMap fun g => g.slots.map (dec g))
  | [], k, pre, post, out, _, _, _, _, _ => by simp [flat]
  | g :: gs, k, pre, post, out, hd, hs, hn, hk, hc => by
    have e : flat ((g :: gs).map G.msg) = g.msg.words ++ flat (gs.map G.msg) := rfl
    have hgs := hs g (by simp)
    have hsl := slots_le hrs hgs
    rw [e] at hd hn hk ⊢
    rw [words_eq] at hn hk
    simp only [List.length_append, List.length_cons, List.length_nil] at hn hk
    have hc' : nRows (g :: gs) = g.slots.length + nRows gs := by simp [nRows]
    rw [hc'] at hc
    rw [show (g :: gs).length + k = (gs.length + k) + 1 by simp; omega]
    rw [unpackLoop, if_neg (by omega)]
    have h2 : data[pre.length + 2]? = some g.slots.flatten.length := by
      rw [hd, words_eq, List.append_assoc, List.append_assoc, List.getElem?_append_right (by omega)]
      simp
    simp only [h2, bind, Option.bind]
    have hm := unpackMsg_spec (cap := cap) (data := data) (rd := rdMsg pre.length) (dec := dec g) (rs := rs)
      (fun A' s B' h h' => hrd pre g (flat (gs.map G.msg) ++ post) (by rw [hd]; simp) A' s B' h h') hrs
      (pre.length + 3 + g.slots.flatten.length) g.slots (gs.length + k + 1) (pre ++ [g.tgt, g.src, g.slots.flatten.length]) (flat (gs.map G.msg) ++ post) out
      (by rw [hd, words_eq]; simp) hgs (by omega) (by simp) (by omega)
    rw [show (pre ++ [g.tgt, g.src, g.slots.flatten.length]).length = pre.length + 3 by simp] at hm
    rw [hm]
    simp only
    have ih := unpackLoop_prefix (n := n) (cap := cap) hrd hrs gs k (pre ++ g.msg.words) post (out ++ g.slots.map (dec g)) (by rw [hd]; simp)
      (fun g hg => hs g (by simp [hg])) (by rw [words_eq]; simp only [List.length_append, List.length_cons, List.length_nil]; omega) (by omega)
      (by simp only [List.length_append, List.length_map]; omega)
    rw [show (pre ++ g.msg.words).length = pre.length + 3 + g.slots.flatten.length by rw [words_eq]; simp; omega] at ih
    rw [ih]
    congr 1
    · rw [words_eq]; simp only [List.length_append, List.length_cons, List.length_nil]; omega
    · simp

theorem gs_len_le (gs : List G) : gs.length ≤ (flat (gs.map G.msg)).length := by
  induction gs with
  | nil => simp
  | cons g gs ih => rw [List.map_cons, flat_cons, words_eq]; simp at ih ⊢; omega

/-- unpacking all messages of a buffer, the rest of which is ignored -/
theorem unpackLoop_all {rs cap : Nat} {data : List Nat} {rdMsg : Nat → Nat → Option (List Nat)} {dec : G → List Nat → List Nat}
    (hrd : ReadOk rs data rdMsg dec) (hrs : 0 < rs) (gs : List G) (post : List Nat) (hd : data = flat (gs.map G.msg) ++ post)
    (hs : ∀ g ∈ gs, ∀ s ∈ g.slots, s.length = rs) (hc : nRows gs ≤ cap) :
    unpackLoop rs data (flat (gs.map G.msg)).length rdMsg cap (data.length + (flat (gs.map G.msg)).length + 1) 0 [] =
      some (gs.flatMap fun g => g.slots.map (dec g)) := by
  have hl := gs_len_le gs
  have hdl : (flat (gs.map G.msg)).length ≤ data.length := by rw [hd]; simp
  have := unpackLoop_prefix (n := (flat (gs.map G.msg)).length) (cap := cap) hrd hrs gs (data.length + (flat (gs.map G.msg)).length + 1 - gs.length) [] post [] (by simpa using hd) hs
    (by simp) (by omega) (by simpa using hc)
  rw [show gs.length + (data.length + (flat (gs.map G.msg)).length + 1 - gs.length) = data.length + (flat (gs.map G.msg)).length + 1 by omega] at this
  simp only [List.length_nil, Nat.zero_add, List.nil_append] at this
  rw [this]
  rw [show data.length + (flat (gs.map G.msg)).length + 1 - gs.length = (data.length + (flat (gs.map G.msg)).length - gs.length) + 1 by omega,
    unpackLoop, if_pos rfl]

/-! ## row counts -/

theorem sumLens_spec {rs : Nat} : ∀ (gs : List G) (fuel : Nat) (pre : List Nat) (n : Nat),
    (∀ g ∈ gs, ∀ s ∈ g.slots, s.length = rs) → gs.length < fuel → n + nRows gs * rs < uintRange →
    sumLens (pre ++ flat (gs.map G.msg)) fuel pre.length n = some (n + nRows gs * rs)
  | [], fuel + 1, pre, n, _, _, _ => by simp [sumLens, flat, nRows]
  | g :: gs, fuel + 1, pre, n, hs, hf, hn => by
    have hc' : nRows (g :: gs) = g.slots.length + nRows gs := by simp [nRows]
    have hg := flatten_len g.slots (hs g (by simp))
    rw [hc', Nat.add_mul] at hn ⊢
    simp only [List.length_cons] at hf
    have e : flat ((g :: gs).map G.msg) = g.msg.words ++ flat (gs.map G.msg) := rfl
    rw [e, sumLens, if_neg (by rw [words_eq]; simp)]
    have h2 : (pre ++ (g.msg.words ++ flat (gs.map G.msg)))[pre.length + 2]? = some g.slots.flatten.length := by
      rw [words_eq, List.getElem?_append_right (by omega)]
      simp
    simp only [h2, bind, Option.bind]
    have ih := sumLens_spec gs fuel (pre ++ g.msg.words) (n + g.slots.length * rs) (fun g hg => hs g (by simp [hg])) (by omega) (by omega)
    rw [Nat.mod_eq_of_lt (by omega), hg]
    rw [show (pre ++ g.msg.words).length = pre.length + g.slots.length * rs + 3 by rw [words_eq, ← hg]; simp; omega, List.append_assoc] at ih
    rw [ih, Nat.add_assoc]

theorem numRows_spec {rs : Nat} (hrs : 0 < rs) (gs : List G) (hs : ∀ g ∈ gs, ∀ s ∈ g.slots, s.length = rs) (hn : nRows gs * rs < uintRange) :
    numRows (flat (gs.map G.msg)) rs = some (nRows gs) := by
  have hl := gs_len_le gs
  have := sumLens_spec (rs := rs) gs ((flat (gs.map G.msg)).length + 1) [] 0 hs (by omega) (by omega)
  simp only [List.nil_append, List.length_nil, Nat.zero_add] at this
  unfold numRows
  rw [this]
  simp only [bind, Option.bind]
  rw [if_neg (by omega), Nat.mul_div_cancel _ hrs]

/-- below the capacity: nothing changes -/
theorem capLoop_lt {rs maxn : Nat} : ∀ (gs : List G) (fuel : Nat) (pre post : List Nat) (n : Nat),
    (∀ g ∈ gs, ∀ s ∈ g.slots, s.length = rs) → n + nRows gs * rs < maxn → maxn < uintRange →
    capLoop maxn (pre ++ flat (gs.map G.msg) ++ post) (gs.length + fuel) pre.length n =
      if gs = [] then capLoop maxn (pre ++ flat (gs.map G.msg) ++ post) fuel pre.length n else
      capLoop maxn (pre ++ flat (gs.map G.msg) ++ post) fuel (pre.length + (flat (gs.map G.msg)).length) (n + nRows gs * rs)
  | [], fuel, pre, post, n, _, _, _ => by simp
  | g :: gs, fuel, pre, post, n, hs, hn, hm => by
    have hc' : nRows (g :: gs) = g.slots.length + nRows gs := by simp [nRows]
    have hg := flatten_len g.slots (hs g (by simp))
    rw [hc', Nat.add_mul] at hn ⊢
    have e : flat ((g :: gs).map G.msg) = g.msg.words ++ flat (gs.map G.msg) := rfl
    rw [e, if_neg (by simp), show (g :: gs).length + fuel = (gs.length + fuel) + 1 by simp; omega, capLoop,
      if_neg (by rw [words_eq]; simp only [List.length_append, List.length_cons]; omega)]
    have h2 : (pre ++ (g.msg.words ++ flat (gs.map G.msg)) ++ post)[pre.length + 2]? = some g.slots.flatten.length := by
      rw [words_eq, List.append_assoc, List.getElem?_append_right (by omega)]
      simp
    simp only [h2, bind, Option.bind]
    have ih := capLoop_lt gs fuel (pre ++ g.msg.words) post (n + g.slots.length * rs) (fun g hg => hs g (by simp [hg])) (by omega) hm
    rw [Nat.mod_eq_of_lt (by omega), hg, if_pos (by omega)]
    have el : (pre ++ g.msg.words).length = pre.length + g.slots.length * rs + 3 := by rw [words_eq, ← hg]; simp; omega
    rw [el] at ih
    have ea : pre ++ g.msg.words ++ flat (gs.map G.msg) ++ post = pre ++ (g.msg.words ++ flat (gs.map G.msg)) ++ post := by simp
    rw [ea] at ih
    rw [ih]
    split
    · rename_i h; subst h
      simp only [List.map_nil, nRows, List.sum_nil, Nat.zero_mul, Nat.add_zero, flat, List.flatMap_nil, List.append_nil]
      congr 1
      rw [words_eq, ← hg]; simp; omega
    · congr 1
      · rw [words_eq, ← hg]; simp; omega
      · omega

/-- all messages below the capacity -/
theorem capRows_lt {rs max : Nat} (hrs : 0 < rs) (gs : List G) (hs : ∀ g ∈ gs, ∀ s ∈ g.slots, s.length = rs)
    (hn : nRows gs < max) (hm : max * rs < uintRange) :
    capRows (flat (gs.map G.msg)) rs max = some (flat (gs.map G.msg), (flat (gs.map G.msg)).length, nRows gs) := by
  unfold capRows
  rw [Nat.mod_eq_of_lt hm]
  have hl := gs_len_le gs
  have hlt : nRows gs * rs < max * rs := Nat.mul_lt_mul_of_pos_right hn hrs
  have := capLoop_lt gs ((flat (gs.map G.msg)).length + 1 - gs.length) [] [] 0 hs (by simpa using hlt) hm
  rw [show gs.length + ((flat (gs.map G.msg)).length + 1 - gs.length) = (flat (gs.map G.msg)).length + 1 by omega] at this
  simp only [List.nil_append, List.append_nil, List.length_nil, Nat.zero_add] at this
  rw [this]
  by_cases c : gs = []
  · subst c
    simp only [if_true]
    simp [flat, nRows, capLoop]; omega
  · rw [if_neg c, show (flat (gs.map G.msg)).length + 1 - gs.length = ((flat (gs.map G.msg)).length - gs.length) + 1 by omega, capLoop, if_pos rfl]
    simp only [bind, Option.bind]
    rw [if_neg (by omega), Nat.mul_div_cancel _ hrs]

/-- the message `g` reaches the capacity -/
theorem capRows_ge {rs max : Nat} (hrs : 0 < rs) (gs1 : List G) (g : G) (gs2 : List G)
    (hs : ∀ g' ∈ gs1 ++ g :: gs2, ∀ s ∈ g'.slots, s.length = rs)
    (h1 : nRows gs1 < max ∨ gs1 = []) (h2 : max ≤ nRows gs1 + g.slots.length) (hm : max * rs < uintRange)
    (hsm : 2 * (nRows (gs1 ++ g :: gs2) * rs) < uintRange) :
    capRows (flat ((gs1 ++ g :: gs2).map G.msg)) rs max =
      some ((flat ((gs1 ++ g :: gs2).map G.msg)).set ((flat (gs1.map G.msg)).length + 2) ((g.slots.length + (nRows gs1 + g.slots.length - max)) * rs),
        (flat (gs1.map G.msg)).length + 3 + (g.slots.length + (nRows gs1 + g.slots.length - max)) * rs, nRows (gs1 ++ g :: gs2)) := by
  unfold capRows
  rw [Nat.mod_eq_of_lt hm]
  have hl := gs_len_le (gs1 ++ g :: gs2)
  set data := flat ((gs1 ++ g :: gs2).map G.msg) with hdata
  have hd : data = flat (gs1.map G.msg) ++ g.msg.words ++ flat (gs2.map G.msg) := by
    rw [hdata]; simp [flat]
  have hdl : data.length = (flat (gs1.map G.msg)).length + g.msg.words.length + (flat (gs2.map G.msg)).length := by rw [hd]; simp; omega
  have hg := flatten_len g.slots (hs g (by simp))
  have hnr : nRows (gs1 ++ g :: gs2) = nRows gs1 + g.slots.length + nRows gs2 := by simp [nRows]; omega
  rw [hnr, Nat.add_mul, Nat.add_mul] at hsm
  simp only [List.length_append, List.length_cons] at hl
  -- the loop up to g
  have hloop : capLoop (max * rs) data (data.length + 1) 0 0 =
      capLoop (max * rs) data (data.length + 1 - gs1.length) (flat (gs1.map G.msg)).length (nRows gs1 * rs) := by
    by_cases c : gs1 = []
    · subst c; simp [flat, nRows]
    · have hlt : nRows gs1 * rs < max * rs := Nat.mul_lt_mul_of_pos_right (h1.resolve_right c) hrs
      have := capLoop_lt gs1 (data.length + 1 - gs1.length) [] (g.msg.words ++ flat (gs2.map G.msg)) 0 (fun g' hg' => hs g' (by simp [hg'])) (by simpa using hlt) hm
      rw [if_neg c] at this
      simp only [List.nil_append, List.length_nil, Nat.zero_add] at this
      rw [← List.append_assoc, ← hd, show gs1.length + (data.length + 1 - gs1.length) = data.length + 1 by omega] at this
      exact this
  rw [hloop, show data.length + 1 - gs1.length = (data.length - gs1.length) + 1 by omega, capLoop]
  rw [if_neg (by rw [hdl, words_eq]; simp only [List.length_append, List.length_cons]; omega)]
  have hlen : data[(flat (gs1.map G.msg)).length + 2]? = some g.slots.flatten.length := by
    rw [hd, words_eq, List.append_assoc, List.getElem?_append_right (by omega)]; simp
  simp only [hlen, bind, Option.bind]
  have hge : max * rs ≤ nRows gs1 * rs + g.slots.length * rs := by rw [← Nat.add_mul]; exact Nat.mul_le_mul_right _ h2
  rw [hg, Nat.mod_eq_of_lt (by omega), if_neg (by omega)]
  have hsum := sumLens_spec (rs := rs) gs2 (data.length + 1) (flat (gs1.map G.msg) ++ g.msg.words) (nRows gs1 * rs + g.slots.length * rs)
    (fun g' hg' => hs g' (by simp [hg'])) (by omega) (by omega)
  rw [← hd, show (flat (gs1.map G.msg) ++ g.msg.words).length = (flat (gs1.map G.msg)).length + g.slots.length * rs + 3 by rw [words_eq, ← hg]; simp; omega] at hsum
  simp only [hsum]
  rw [if_neg (by omega)]
  have hnew : (g.slots.length * rs + (uintRange - (max * rs + uintRange - (nRows gs1 * rs + g.slots.length * rs)) % uintRange)) % uintRange =
      (g.slots.length + (nRows gs1 + g.slots.length - max)) * rs := by
    rw [Nat.add_mul, Nat.sub_mul, Nat.add_mul]
    generalize max * rs = m at *
    generalize nRows gs1 * rs = a at *
    generalize g.slots.length * rs = b at *
    unfold uintRange at *
    by_cases c : m = a + b
    · subst c
      have : a + b + 4294967296 - (a + b) = 4294967296 := by omega
      rw [this]
      simp; omega
    · rw [Nat.mod_eq_of_lt (a := m + 4294967296 - (a + b)) (by omega)]
      omega
  rw [hnew]
  congr 3
  rw [← Nat.add_mul, ← Nat.add_mul, Nat.mul_div_cancel _ hrs, hnr]

end Gslib.Transfer
