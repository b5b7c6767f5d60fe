import Verif.Lemmas.TransferBytes

/-!
# Packing
-/

namespace Gslib.Transfer
open Gslib Gslib.Crystal Gslib.Spec

/-- a message as a sequence of rows (slots of `row_size` words) -/
structure G where
  tgt : Nat
  src : Nat
  slots : List (List Nat)

def G.msg (g : G) : Msg := ⟨g.tgt, g.src, g.slots.flatten⟩

def G.Ok (rs : Nat) (g : G) : Prop := (∀ s ∈ g.slots, s.length = rs ∧ W32 s)

/-- all rows with their target -/
def recs (gs : List G) : List (Nat × List Nat) := gs.flatMap fun g => g.slots.map (g.tgt, ·)

theorem recs_append (a b : List G) : recs (a ++ b) = recs a ++ recs b := by simp [recs]

/-- copying a row into a slot -/
def CopyOk (rs off1 : Nat) (copy : List Nat → Nat → List Nat → Option (List Nat)) (row body : List Nat) : Prop :=
  ∀ A S B : List Nat, W32 A → W32 B → S.length = rs →
    ∃ S', copy (A ++ S ++ B) A.length row = some (A ++ S' ++ B) ∧ S'.length = rs ∧ W32 S' ∧ (bytesOf S').take off1 = body

theorem copyOk_ext {rs size : Nat} {row : List Nat} (hr : row.length = size) (hb : Bytes row) (hs : size ≤ 4 * rs) :
    CopyOk rs size copyRowExt row row := by
  intro A S B hA hB hS
  refine ⟨slotPoke S 0 row, ?_, ?_, ?_, ?_⟩
  · unfold copyRowExt
    have := poke_mid A S B 0 row (by omega) hA hB
    simpa using this
  · rw [slotPoke_length _ _ _ (by omega), hS]
  · exact slotPoke_w32 _ _ _ (by omega) hb
  · rw [slotPoke_bytes _ _ _ (by omega) hb]
    have := blit_take (bytesOf S) 0 row (by simp)
    simpa [hr] using this

theorem copyOk_int {rs size pOff : Nat} {row : List Nat} (hr : row.length = size) (hb : Bytes row) (hp : pOff + 4 ≤ size)
    (hs : size - 4 ≤ 4 * rs) :
    CopyOk rs (size - 4) (copyRowInt size pOff) row (row.take pOff ++ row.drop (pOff + 4)) := by
  intro A S B hA hB hS
  have hb1 : Bytes (row.take pOff) := fun x hx => hb x (List.mem_of_mem_take hx)
  have hb2 : Bytes (row.drop (pOff + 4)) := fun x hx => hb x (List.mem_of_mem_drop hx)
  have l1 : (row.take pOff).length = pOff := by simp; omega
  have l2 : (row.drop (pOff + 4)).length = size - (pOff + 4) := by simp; omega
  have e2 : (row.drop (pOff + 4)).take (size - (pOff + 4)) = row.drop (pOff + 4) := by
    apply List.take_of_length_le; omega
  have hl := slotPoke_length S 0 (row.take pOff) (by omega)
  refine ⟨slotPoke (slotPoke S 0 (row.take pOff)) pOff (row.drop (pOff + 4)), ?_, ?_, ?_, ?_⟩
  · unfold copyRowInt
    have := poke_mid A S B 0 (row.take pOff) (by omega) hA hB
    simp only [Nat.add_zero] at this
    rw [this]
    simp only [bind, Option.bind]
    rw [e2]
    exact poke_mid A _ B pOff _ (by omega) hA hB
  · rw [slotPoke_length _ _ _ (by omega), hl, hS]
  · exact slotPoke_w32 _ _ _ (by omega) hb2
  · rw [slotPoke_bytes _ _ _ (by omega) hb2, slotPoke_bytes _ _ _ (by omega) hb1]
    have h1 := blit_length (bytesOf S) 0 (row.take pOff) (by rw [bytesOf_length]; omega)
    have h2 := blit_take (blit (bytesOf S) 0 (row.take pOff)) pOff (row.drop (pOff + 4)) (by rw [h1, bytesOf_length]; omega)
    have h3 := blit_take (bytesOf S) 0 (row.take pOff) (by simp)
    simp only [l1, Nat.zero_add, List.take_zero, List.nil_append] at h3
    rw [h3, l2] at h2
    rw [show size - 4 = pOff + (size - (pOff + 4)) by omega]
    exact h2

/-- a state of the packing loop: `gs` are complete, the last group is open -/
def Form (id : Nat) (gs : List G) (t : Nat) (slots : List (List Nat)) (x : Nat) (rest : List Nat) : PackSt :=
  ⟨flat (gs.map G.msg) ++ [t, id, x] ++ slots.flatten ++ rest, (flat (gs.map G.msg)).length + 3 + slots.flatten.length,
    some ((flat (gs.map G.msg)).length + 2), t, slots.flatten.length⟩

theorem setLen_form (id : Nat) (gs : List G) (t : Nat) (slots : List (List Nat)) (x : Nat) (rest : List Nat) :
    setLen (Form id gs t slots x rest) = some (flat ((gs ++ [(⟨t, id, slots⟩ : G)]).map G.msg) ++ rest) := by
  unfold setLen Form
  simp only
  have e : flat (gs.map G.msg) ++ [t, id, x] ++ slots.flatten ++ rest =
      (flat (gs.map G.msg) ++ [t, id]) ++ x :: (slots.flatten ++ rest) := by simp
  rw [e, pokeW_mid _ _ _ _ _ (by simp)]
  congr 1
  simp [flat, Msg.words, G.msg]

section
variable {np rs off1 id size : Nat} {A : List (List Nat)} {getP : Nat → List Nat → Option Nat}
  {copy : List Nat → Nat → List Nat → Option (List Nat)} {key : Nat → Nat} {body : Nat → List Nat}

/-- what the loop needs of row `i` -/
def RowOk (np rs off1 size : Nat) (A : List (List Nat)) (getP : Nat → List Nat → Option Nat)
    (copy : List Nat → Nat → List Nat → Option (List Nat)) (key : Nat → Nat) (body : Nat → List Nat) (i : Nat) : Prop :=
  ∃ row, rowAt A size i = some row ∧ getP i row = some (key i) ∧ (key i < 4294967295 ∧ key i < np) ∧ CopyOk rs off1 copy row (body i)

/-- relation of the row indices to the packed rows -/
def Packed (off1 : Nat) (key : Nat → Nat) (body : Nat → List Nat) (i : Nat) (r : Nat × List Nat) : Prop :=
  r.1 = key i ∧ (bytesOf r.2).take off1 = body i

theorem split_rest (n : Nat) (rest : List Nat) (h : n ≤ rest.length) : rest = rest.take n ++ rest.drop n := (List.take_append_drop n rest).symm

/-- putting a row at the end of the open group -/
theorem copy_form {i : Nat} {row : List Nat} (hc : CopyOk rs off1 copy row (body i)) (gs : List G) (t : Nat) (slots : List (List Nat))
    (x : Nat) (rest : List Nat) (hrest : rs ≤ rest.length) (hw : W32 (Form id gs t slots x rest).buf) :
    ∃ S', S'.length = rs ∧ W32 S' ∧ (bytesOf S').take off1 = body i ∧ ∃ rest', rest'.length = rest.length - rs ∧
      ((copy (Form id gs t slots x rest).buf (Form id gs t slots x rest).out row).bind fun buf =>
        some ({ Form id gs t slots x rest with buf := buf, out := (Form id gs t slots x rest).out + rs, len := (Form id gs t slots x rest).len + rs } : PackSt)) =
        some (Form id gs t (slots ++ [S']) x rest') ∧ W32 (Form id gs t (slots ++ [S']) x rest').buf ∧
        (Form id gs t (slots ++ [S']) x rest').buf.length = (Form id gs t slots x rest).buf.length := by
  have e : (Form id gs t slots x rest).buf = (flat (gs.map G.msg) ++ [t, id, x] ++ slots.flatten) ++ rest.take rs ++ rest.drop rs := by
    simp [Form]
  have eo : (Form id gs t slots x rest).out = (flat (gs.map G.msg) ++ [t, id, x] ++ slots.flatten).length := by
    simp [Form]; omega
  rw [e] at hw
  have hS : (rest.take rs).length = rs := by simp; omega
  obtain ⟨S', h1, h2, h3, h4⟩ := hc _ _ _ hw.left.left hw.right hS
  refine ⟨S', h2, h3, h4, rest.drop rs, by simp, ?_, ?_, ?_⟩
  · rw [e, eo, h1]
    simp only [Option.bind]
    congr 1
    simp only [Form, PackSt.mk.injEq, List.length_append, List.flatten_append, List.flatten_cons, List.flatten_nil, List.append_nil, h2]
    refine ⟨by simp, ?_, trivial, trivial, trivial⟩
    simp; omega
  · have : (Form id gs t (slots ++ [S']) x (rest.drop rs)).buf = (flat (gs.map G.msg) ++ [t, id, x] ++ slots.flatten) ++ S' ++ rest.drop rs := by
      simp [Form]
    rw [this]
    exact (hw.left.left.append h3).append hw.right
  · simp [Form, h2]; omega

theorem step_form {i : Nat} (hr : RowOk np rs off1 size A getP copy key body i) (hid : id < uintRange) (gs : List G) (t : Nat) (slots : List (List Nat))
    (x : Nat) (rest : List Nat) (hrest : rs + 3 ≤ rest.length) (hw : W32 (Form id gs t slots x rest).buf)
    (hsmall : (Form id gs t slots x rest).buf.length < uintRange) (hok : ∀ s ∈ slots, s.length = rs ∧ W32 s) (hgs : ∀ g ∈ gs, (g.src = id ∧ g.tgt < np) ∧ g.Ok rs) (ht : t < np) :
    ∃ gs' t' slots' x' rest', packStep rs id A size getP copy (Form id gs t slots x rest) i = some (Form id gs' t' slots' x' rest') ∧
      rest.length ≤ rest'.length + (rs + 3) ∧ W32 (Form id gs' t' slots' x' rest').buf ∧
      (Form id gs' t' slots' x' rest').buf.length = (Form id gs t slots x rest).buf.length ∧
      (∀ s ∈ slots', s.length = rs ∧ W32 s) ∧ t' < np ∧ (∀ g ∈ gs', (g.src = id ∧ g.tgt < np) ∧ g.Ok rs) ∧
      ∃ r, Packed off1 key body i r ∧ recs (gs' ++ [⟨t', id, slots'⟩]) = recs (gs ++ [⟨t, id, slots⟩]) ++ [r] := by
  obtain ⟨row, h1, h2, ⟨h3, h3'⟩, hc⟩ := hr
  by_cases hlp : key i = t
  · have hh : packHeader id (key i) (Form id gs t slots x rest) = some (Form id gs t slots x rest) := by
      unfold packHeader
      rw [if_neg (by simp [Form, hlp])]
    obtain ⟨S', a1, a2, a3, rest', a4, a5, a6, a7⟩ := copy_form hc gs t slots x rest (by omega) hw
    refine ⟨gs, t, slots ++ [S'], x, rest', ?_, by omega, a6, a7, ?_, ht, hgs, (t, S'), ⟨hlp.symm, a3⟩, ?_⟩
    · unfold packStep
      simp only [h1, h2, hh, bind, Option.bind]
      exact a5
    · intro s hs
      rcases List.mem_append.1 hs with h | h
      · exact hok s h
      · simp only [List.mem_singleton] at h; subst h; exact ⟨a1, a2⟩
    · simp [recs]
  · -- close the group
    set gs' := gs ++ [⟨t, id, slots⟩] with hgs'
    have hsl := setLen_form id gs t slots x rest
    rw [← hgs'] at hsl
    have hout : (Form id gs t slots x rest).out = (flat (gs'.map G.msg)).length := by
      simp [Form, hgs', flat, Msg.words, G.msg]; omega
    obtain ⟨y0, y1, y2, rest3, hr3⟩ : ∃ y0 y1 y2 r3, rest = y0 :: y1 :: y2 :: r3 := by
      match rest, hrest with
      | y0 :: y1 :: y2 :: r3, _ => exact ⟨y0, y1, y2, r3, rfl⟩
    subst hr3
    have hh : packHeader id (key i) (Form id gs t slots x (y0 :: y1 :: y2 :: rest3)) = some (Form id gs' (key i) [] y2 rest3) := by
      unfold packHeader
      rw [if_pos (by simp [Form, hlp]), hsl]
      simp only [bind, Option.bind]
      rw [pokeW_mid _ _ _ _ _ hout]
      simp only
      have : flat (gs'.map G.msg) ++ key i :: y1 :: y2 :: rest3 = (flat (gs'.map G.msg) ++ [key i]) ++ y1 :: (y2 :: rest3) := by simp
      rw [this, pokeW_mid _ _ _ _ _ (by rw [hout]; simp)]
      simp only
      congr 1
      rw [hout]
      simp [Form]
    have hw2 : W32 (Form id gs' (key i) [] y2 rest3).buf := by
      intro w hw'
      have hlen : slots.flatten.length < uintRange := by
        simp only [Form, List.length_append] at hsmall; omega
      have hk : key i < uintRange := by unfold uintRange; omega
      simp only [Form, List.flatten_nil, List.append_nil, hgs', List.map_append, flat_append, List.mem_append] at hw'
      have hbuf : ∀ w, w ∈ flat (gs.map G.msg) ∨ w = t ∨ w ∈ slots.flatten ∨ w = y2 ∨ w ∈ rest3 → w < uintRange := by
        intro w hw'
        apply hw
        simp only [Form, List.mem_append]
        rcases hw' with h | h | h | h | h
        · simp [h]
        · simp [h]
        · exact Or.inl (Or.inr h)
        · simp [h]
        · simp [h]
      simp only [List.map_cons, List.map_nil, flat, List.flatMap_cons, List.flatMap_nil, Msg.words, G.msg, List.append_nil, List.mem_cons,
        List.not_mem_nil, or_false] at hw'
      rcases hw' with ((h | h | h | h | h) | h | h | h) | h
      · exact hbuf w (Or.inl h)
      · exact hbuf w (Or.inr (Or.inl h))
      · omega
      · omega
      · exact hbuf w (Or.inr (Or.inr (Or.inl h)))
      · omega
      · omega
      · exact hbuf w (Or.inr (Or.inr (Or.inr (Or.inl h))))
      · exact hbuf w (Or.inr (Or.inr (Or.inr (Or.inr h))))
    have hl2 : (Form id gs' (key i) [] y2 rest3).buf.length = (Form id gs t slots x (y0 :: y1 :: y2 :: rest3)).buf.length := by
      simp [Form, hgs', flat, Msg.words, G.msg]
    simp only [List.length_cons] at hrest
    obtain ⟨S', a1, a2, a3, rest', a4, a5, a6, a7⟩ := copy_form hc gs' (key i) [] y2 rest3 (by omega) hw2
    refine ⟨gs', key i, [S'], y2, rest', ?_, by simp only [List.length_cons]; omega, a6, by rw [← hl2]; exact a7, ?_, h3', ?_, (key i, S'), ⟨rfl, a3⟩, ?_⟩
    · unfold packStep
      simp only [h1, h2, hh, bind, Option.bind]
      exact a5
    · intro s hs
      simp only [List.mem_singleton] at hs; subst hs; exact ⟨a1, a2⟩
    · intro g hg
      rcases List.mem_append.1 hg with h | h
      · exact hgs g h
      · simp only [List.mem_singleton] at h; subst h; exact ⟨⟨rfl, ht⟩, hok⟩
    · rw [hgs']; simp [recs]

theorem loop_form (hid : id < uintRange) : ∀ (perm : List Nat) (_ : ∀ i ∈ perm, RowOk np rs off1 size A getP copy key body i) (gs : List G) (t : Nat) (slots : List (List Nat))
    (x : Nat) (rest : List Nat) (_ : perm.length * (rs + 3) ≤ rest.length) (_ : W32 (Form id gs t slots x rest).buf)
    (_ : (Form id gs t slots x rest).buf.length < uintRange) (_ : ∀ s ∈ slots, s.length = rs ∧ W32 s) (_ : ∀ g ∈ gs, (g.src = id ∧ g.tgt < np) ∧ g.Ok rs) (_ : t < np),
    ∃ gs' t' slots' x' rest', perm.foldlM (packStep rs id A size getP copy) (Form id gs t slots x rest) = some (Form id gs' t' slots' x' rest') ∧
      (∀ s ∈ slots', s.length = rs ∧ W32 s) ∧ t' < np ∧ (∀ g ∈ gs', (g.src = id ∧ g.tgt < np) ∧ g.Ok rs) ∧
      W32 (Form id gs' t' slots' x' rest').buf ∧ (Form id gs' t' slots' x' rest').buf.length = (Form id gs t slots x rest).buf.length ∧
      ∃ r, List.Forall₂ (Packed off1 key body) perm r ∧ recs (gs' ++ [⟨t', id, slots'⟩]) = recs (gs ++ [⟨t, id, slots⟩]) ++ r
  | [], _, gs, t, slots, x, rest, _, hw, _, h1, h2, ht => ⟨gs, t, slots, x, rest, rfl, h1, ht, h2, hw, rfl, [], .nil, by simp⟩
  | i :: perm, hr, gs, t, slots, x, rest, hl, hw, hsm, h1, h2, ht => by
    simp only [List.length_cons, Nat.add_mul] at hl
    obtain ⟨gs1, t1, sl1, x1, r1, e1, b1, b2, b3, b4, bt, b5, r, b6, b7⟩ := step_form (hr i (by simp)) hid gs t slots x rest (by omega) hw hsm h1 h2 ht
    obtain ⟨gs2, t2, sl2, x2, r2, e2, c1, ct, c2, c3, c4, rr, c5, c6⟩ := loop_form hid perm (fun j hj => hr j (by simp [hj])) gs1 t1 sl1 x1 r1
      (by omega) b2 (by rw [b3]; exact hsm) b4 b5 bt
    refine ⟨gs2, t2, sl2, x2, r2, ?_, c1, ct, c2, c3, by rw [c4, b3], r :: rr, .cons b6 c5, ?_⟩
    · rw [List.foldlM_cons, e1]; exact e2
    · rw [c6, b7]; simp

/-- **packing**: the buffer holds messages from `id`, whose rows are the given rows in the order `perm` -/
theorem packBody_spec (hid : id < uintRange) (junk : Nat → Nat) (perm : List Nat) (hp : perm.length = A.length)
    (hr : ∀ i ∈ perm, RowOk np rs off1 size A getP copy key body i) (hn : A.length * (rs + 3) < uintRange) :
    ∃ gs : List G, packBody rs id A size getP copy perm junk = some (flat (gs.map G.msg)) ∧
      (∀ g ∈ gs, (g.src = id ∧ g.tgt < np) ∧ g.Ok rs) ∧ List.Forall₂ (Packed off1 key body) perm (recs gs) ∧
      W32 (flat (gs.map G.msg)) ∧ (flat (gs.map G.msg)).length ≤ A.length * (rs + 3) := by
  unfold packBody
  simp only [Nat.mod_eq_of_lt hn]
  set cap := A.length * (rs + 3) with hcap
  set buf0 := (List.range cap).map fun k => junk k % uintRange with hb0
  have hw0 : W32 buf0 := by
    intro w hw
    rw [hb0] at hw
    obtain ⟨k, _, rfl⟩ := List.mem_map.1 hw
    exact Nat.mod_lt _ (by unfold uintRange; omega)
  have hl0 : buf0.length = cap := by simp [hb0]
  match perm, hp, hr with
  | [], hp, _ =>
    refine ⟨[], ?_, by simp, .nil, by intro w hw; simp [flat] at hw, by simp [flat]⟩
    simp [setLen, flat]
  | i :: perm, hp, hr =>
    simp only [List.length_cons] at hp
    have hcap2 : cap = (perm.length + 1) * (rs + 3) := by rw [hcap, ← hp]
    rw [Nat.add_mul] at hcap2
    -- the first row
    obtain ⟨row, h1, h2, ⟨h3, h3'⟩, hc⟩ := hr i (by simp)
    obtain ⟨y0, y1, y2, rest3, hr3⟩ : ∃ y0 y1 y2 r3, buf0 = y0 :: y1 :: y2 :: r3 := by
      have : 3 ≤ buf0.length := by omega
      match buf0, this with
      | y0 :: y1 :: y2 :: r3, _ => exact ⟨y0, y1, y2, r3, rfl⟩
    have hk : key i < uintRange := by unfold uintRange; omega
    have hh : packHeader id (key i) ⟨buf0, 0, none, 4294967295, 0⟩ = some (Form id [] (key i) [] y2 rest3) := by
      unfold packHeader
      rw [if_pos (by simp; omega), hr3]
      simp [setLen, pokeW, Form, flat]
    have hw2 : W32 (Form id [] (key i) [] y2 rest3).buf := by
      intro w hw
      simp only [Form, List.map_nil, flat, List.flatMap_nil, List.nil_append, List.flatten_nil, List.append_nil, List.mem_append, List.mem_cons,
        List.not_mem_nil, or_false] at hw
      rcases hw with (h | h | h) | h
      · omega
      · omega
      · exact hw0 w (by rw [hr3]; simp [h])
      · exact hw0 w (by rw [hr3]; simp [h])
    have hl2 : (Form id [] (key i) [] y2 rest3).buf.length = cap := by
      rw [← hl0, hr3]; simp [Form, flat]
    have hl3 : rest3.length + 3 = cap := by rw [← hl0, hr3]; simp
    obtain ⟨S', a1, a2, a3, rest', a4, a5, a6, a7⟩ := copy_form hc [] (key i) [] y2 rest3 (by omega) hw2
    obtain ⟨gs2, t2, sl2, x2, r2, e2, c1, ct, c2, c3, c4, rr, c5, c6⟩ := loop_form hid perm (fun j hj => hr j (by simp [hj])) [] (key i) ([] ++ [S']) y2 rest'
      (by omega) a6 (by rw [a7, hl2]; omega) (by intro s hs; simp only [List.nil_append, List.mem_singleton] at hs; subst hs; exact ⟨a1, a2⟩) (by simp) h3'
    have estep : packStep rs id A size getP copy ⟨buf0, 0, none, 4294967295, 0⟩ i = some (Form id [] (key i) ([] ++ [S']) y2 rest') := by
      unfold packStep
      simp only [h1, h2, hh, bind, Option.bind]
      exact a5
    refine ⟨gs2 ++ [⟨t2, id, sl2⟩], ?_, ?_, ?_, ?_, ?_⟩
    · rw [List.foldlM_cons, estep]
      simp only [bind, Option.bind] at e2 ⊢
      rw [e2]
      simp only
      rw [setLen_form]
      simp only
      congr 1
      have : (Form id gs2 t2 sl2 x2 r2).out = (flat ((gs2 ++ [(⟨t2, id, sl2⟩ : G)]).map G.msg)).length := by
        simp [Form, flat, Msg.words, G.msg]; omega
      rw [this, List.take_left]
    · intro g hg
      rcases List.mem_append.1 hg with h | h
      · exact c2 g h
      · simp only [List.mem_singleton] at h; subst h; exact ⟨⟨rfl, ct⟩, c1⟩
    · rw [c6]
      have : recs ([] ++ [⟨key i, id, [] ++ [S']⟩]) = [(key i, S')] := by simp [recs]
      rw [this]
      exact .cons ⟨rfl, a3⟩ c5
    · intro w hw
      rw [List.map_append, flat_append, List.mem_append] at hw
      simp only [List.map_cons, List.map_nil, flat_cons, G.msg, Msg.words, List.mem_append, List.mem_cons] at hw
      have hlen : sl2.flatten.length < uintRange := by
        have := c4; rw [a7, hl2] at this
        simp only [Form, List.length_append] at this; omega
      rcases hw with h | (h | h | h | h) | h
      · apply c3 w
        simp only [Form, List.mem_append]
        exact Or.inl (Or.inl (Or.inl h))
      · exact c3 w (by simp [Form, h])
      · omega
      · omega
      · apply c3 w
        simp only [Form, List.mem_append]
        exact Or.inl (Or.inr h)
      · simp [flat] at h
    · have := c4; rw [a7, hl2] at this
      rw [← this]
      simp [Form, flat, Msg.words, G.msg]

end


/-! ## pack_more -/

/-- the effect on the rows of a group list, `f i` applied to the row of index `i` -/
def updGs (f : Nat → List Nat → List Nat) : List G → List Nat → List G
  | [], _ => []
  | g :: gs, perm => { g with slots := List.zipWith f perm g.slots } :: updGs f gs (perm.drop g.slots.length)

theorem recs_updGs (f : Nat → List Nat → List Nat) : ∀ (gs : List G) (perm : List Nat), (recs gs).length ≤ perm.length →
    recs (updGs f gs perm) = List.zipWith (fun i (r : Nat × List Nat) => (r.1, f i r.2)) perm (recs gs)
  | [], perm, _ => by simp [recs, updGs]
  | g :: gs, perm, h => by
    have hl : (recs (g :: gs)).length = g.slots.length + (recs gs).length := by simp [recs]
    rw [hl] at h
    have ih := recs_updGs f gs (perm.drop g.slots.length) (by simp; omega)
    have e1 : recs (g :: gs) = g.slots.map (g.tgt, ·) ++ recs gs := by simp [recs]
    have e2 : recs (updGs f (g :: gs) perm) = (List.zipWith f perm g.slots).map (g.tgt, ·) ++ recs (updGs f gs (perm.drop g.slots.length)) := by
      simp [recs, updGs]
    rw [e1, e2, ih]
    conv_rhs => rw [← List.take_append_drop g.slots.length perm]
    rw [List.zipWith_append (by simp; omega)]
    congr 1
    have : List.zipWith f perm g.slots = List.zipWith f (perm.take g.slots.length) g.slots := by
      conv_lhs => rw [← List.take_append_drop g.slots.length perm]
      rw [← List.append_nil g.slots]
      rw [List.zipWith_append (by simp; omega)]
      simp
    rw [this, List.map_zipWith, List.zipWith_map_right]

section
variable {np off rs size : Nat} {A : List (List Nat)} {col : Nat → List Nat}

/-- what pack_more needs of row `i` -/
def ColOk (off rs size : Nat) (A : List (List Nat)) (col : Nat → List Nat) (i : Nat) : Prop :=
  rowAt A size i = some (col i) ∧ Bytes (col i) ∧ off + (col i).length ≤ 4 * rs

theorem packMoreMsg_spec (msgEnd : Nat) : ∀ (slots : List (List Nat)) (fuel : Nat) (pre post : List Nat) (perm : List Nat),
    (∀ s ∈ slots, s.length = rs ∧ W32 s) → (∀ i ∈ perm, ColOk off rs size A col i) → slots.length ≤ perm.length → W32 pre → W32 post →
    0 < rs → slots.length < fuel → msgEnd = pre.length + slots.flatten.length →
    packMoreMsg off rs size A msgEnd fuel (pre ++ slots.flatten ++ post) pre.length perm =
      some (pre ++ (List.zipWith (fun i s => slotPoke s off (col i)) perm slots).flatten ++ post, perm.drop slots.length)
  | [], fuel + 1, pre, post, perm, _, _, _, _, _, _, _, he => by
    simp only [List.flatten_nil, List.length_nil, Nat.add_zero] at he
    simp [packMoreMsg, he]
  | s :: slots, fuel + 1, pre, post, i :: perm, hs, hp, hl, h1, h2, hrs, hf, he => by
    simp only [List.length_cons] at hl hf
    have hslen := hs s (by simp)
    obtain ⟨c1, c2, c3⟩ := hp i (by simp)
    have e : pre ++ (s :: slots).flatten ++ post = pre ++ s ++ (slots.flatten ++ post) := by simp
    have hw : W32 (slots.flatten ++ post) := by
      apply W32.append _ h2
      intro w hw
      obtain ⟨s', hs', hw⟩ := List.mem_flatten.1 hw
      exact (hs s' (by simp [hs'])).2 w hw
    unfold packMoreMsg
    have hfl : (s :: slots).flatten.length = s.length + slots.flatten.length := by rw [List.flatten_cons, List.length_append]
    rw [if_neg (by rw [he, hfl]; omega)]
    simp only [c1, bind, Option.bind]
    rw [e, poke_mid pre s _ off _ (by rw [hslen.1]; exact c3) h1 hw]
    simp only
    have hs' := slotPoke_length s off (col i) (by rw [hslen.1]; exact c3)
    have ih := packMoreMsg_spec msgEnd slots fuel (pre ++ slotPoke s off (col i)) post perm (fun s hs' => hs s (by simp [hs']))
      (fun i hi => hp i (by simp [hi])) (by omega) (h1.append (slotPoke_w32 _ _ _ (by rw [hslen.1]; exact c3) c2)) h2 hrs (by omega)
      (by rw [he, hfl, List.length_append, hs']; omega)
    have e2 : (pre ++ slotPoke s off (col i)).length = pre.length + rs := by rw [List.length_append, hs', hslen.1]
    rw [e2] at ih
    rw [List.append_assoc, List.append_assoc] at ih
    rw [List.append_assoc, ih]
    simp

theorem packMoreLoop_spec : ∀ (gs : List G) (fuel : Nat) (pre : List Nat) (perm : List Nat),
    (∀ g ∈ gs, g.Ok rs) → W32 (flat (gs.map G.msg)) → (∀ i ∈ perm, ColOk off rs size A col i) → (recs gs).length ≤ perm.length → W32 pre →
    0 < rs → (flat (gs.map G.msg)).length < fuel →
    packMoreLoop off rs size A fuel (pre ++ flat (gs.map G.msg)) pre.length perm =
      some (pre ++ flat ((updGs (fun i s => slotPoke s off (col i)) gs perm).map G.msg))
  | [], fuel + 1, pre, perm, _, _, _, _, _, _, _ => by simp [packMoreLoop, flat, updGs]
  | g :: gs, fuel + 1, pre, perm, hg, hw, hp, hl, h1, hrs, hf => by
    have hl' : (recs (g :: gs)).length = g.slots.length + (recs gs).length := by simp [recs]
    rw [hl'] at hl
    have hgok := hg g (by simp)
    have e : flat ((g :: gs).map G.msg) = [g.tgt, g.src, g.slots.flatten.length] ++ g.slots.flatten ++ flat (gs.map G.msg) := by
      simp [flat, Msg.words, G.msg]
    rw [e] at hw hf ⊢
    have hslots : ∀ s ∈ g.slots, s.length = rs := fun s hs => (hgok s hs).1
    have hfl : g.slots.length ≤ g.slots.flatten.length := by
      have : ∀ (l : List (List Nat)), (∀ s ∈ l, s.length = rs) → l.length ≤ l.flatten.length := by
        intro l
        induction l with
        | nil => simp
        | cons a l ih =>
          intro h
          have := ih (fun s hs => h s (by simp [hs]))
          have := h a (by simp)
          simp only [List.flatten_cons, List.length_append, List.length_cons]; omega
      exact this _ hslots
    simp only [List.length_append, List.length_cons, List.length_nil] at hf
    unfold packMoreLoop
    rw [if_neg (by simp)]
    have hg2 : (pre ++ ([g.tgt, g.src, g.slots.flatten.length] ++ g.slots.flatten ++ flat (gs.map G.msg)))[pre.length + 2]? = some g.slots.flatten.length := by
      rw [List.getElem?_append_right (by omega)]; simp
    simp only [hg2, bind, Option.bind]
    have hm := packMoreMsg_spec (off := off) (rs := rs) (size := size) (A := A) (col := col) (pre.length + 3 + g.slots.flatten.length) g.slots (fuel + 1)
      (pre ++ [g.tgt, g.src, g.slots.flatten.length]) (flat (gs.map G.msg)) perm hgok hp (by omega) (h1.append hw.left.left) hw.right hrs (by omega)
      (by simp)
    have e3 : (pre ++ [g.tgt, g.src, g.slots.flatten.length]).length = pre.length + 3 := by simp
    rw [e3] at hm
    have e4 : pre ++ ([g.tgt, g.src, g.slots.flatten.length] ++ g.slots.flatten ++ flat (gs.map G.msg)) =
        pre ++ [g.tgt, g.src, g.slots.flatten.length] ++ g.slots.flatten ++ flat (gs.map G.msg) := by simp
    rw [e4, hm]
    simp only
    set sl' := List.zipWith (fun i s => slotPoke s off (col i)) perm g.slots with hsl'
    have hz : ∀ (slots : List (List Nat)) (perm : List Nat), (∀ s ∈ slots, s.length = rs ∧ W32 s) → (∀ i ∈ perm, ColOk off rs size A col i) → slots.length ≤ perm.length →
        (List.zipWith (fun i s => slotPoke s off (col i)) perm slots).flatten.length = slots.flatten.length ∧
        W32 (List.zipWith (fun i s => slotPoke s off (col i)) perm slots).flatten := by
      intro slots
      induction slots with
      | nil => intro perm _ _ _; simp [W32]
      | cons s slots ih =>
        intro perm h1 h2 h3
        match perm, h2, h3 with
        | i :: perm, h2, h3 =>
          obtain ⟨ih1, ih2⟩ := ih perm (fun s hs => h1 s (by simp [hs])) (fun i hi => h2 i (by simp [hi])) (by simp at h3; omega)
          have := h1 s (by simp)
          obtain ⟨_, c2, c3⟩ := h2 i (by simp)
          simp only [List.zipWith_cons_cons, List.flatten_cons, List.length_append, ih1]
          rw [slotPoke_length _ _ _ (by rw [this.1]; exact c3)]
          exact ⟨rfl, (slotPoke_w32 _ _ _ (by rw [this.1]; exact c3) c2).append ih2⟩
    obtain ⟨z1, z2⟩ := hz g.slots perm hgok hp (by omega)
    rw [← hsl'] at z1 z2
    have ih := packMoreLoop_spec gs fuel (pre ++ [g.tgt, g.src, g.slots.flatten.length] ++ sl'.flatten) (perm.drop g.slots.length)
      (fun g hg' => hg g (by simp [hg'])) hw.right (fun i hi => hp i (List.mem_of_mem_drop hi)) (by simp; omega)
      ((h1.append hw.left.left).append z2) hrs (by omega)
    have e5 : (pre ++ [g.tgt, g.src, g.slots.flatten.length] ++ sl'.flatten).length = pre.length + 3 + g.slots.flatten.length := by
      rw [List.length_append, z1]; simp
    rw [e5] at ih
    rw [ih]
    congr 1
    simp only [updGs, List.map_cons, flat_cons, ← hsl']
    simp only [G.msg, Msg.words, z1]
    simp

theorem packMore_spec (gs : List G) (perm : List Nat) (hg : ∀ g ∈ gs, g.Ok rs) (hw : W32 (flat (gs.map G.msg)))
    (hp : ∀ i ∈ perm, ColOk off rs size A col i) (hl : (recs gs).length = perm.length) (hrs : 0 < rs) :
    packMore off rs size A (flat (gs.map G.msg)) perm = some (flat ((updGs (fun i s => slotPoke s off (col i)) gs perm).map G.msg)) := by
  have := packMoreLoop_spec (off := off) (rs := rs) (size := size) (A := A) (col := col) gs ((flat (gs.map G.msg)).length + 1) [] perm hg hw hp (by omega) (by intro w hw; simp at hw) hrs (by omega)
  simpa [packMore] using this

/-- properties of the groups kept by `updGs` -/
theorem updGs_ok (id : Nat) : ∀ (gs : List G) (perm : List Nat), (∀ g ∈ gs, (g.src = id ∧ g.tgt < np) ∧ g.Ok rs) → (∀ i ∈ perm, ColOk off rs size A col i) →
    (recs gs).length ≤ perm.length → W32 (flat (gs.map G.msg)) →
    (∀ g ∈ updGs (fun i s => slotPoke s off (col i)) gs perm, (g.src = id ∧ g.tgt < np) ∧ g.Ok rs) ∧
    W32 (flat ((updGs (fun i s => slotPoke s off (col i)) gs perm).map G.msg)) ∧
    (flat ((updGs (fun i s => slotPoke s off (col i)) gs perm).map G.msg)).length = (flat (gs.map G.msg)).length
  | [], perm, _, _, _, _ => by simp [updGs, flat, W32]
  | g :: gs, perm, hg, hp, hl, hw => by
    have hl' : (recs (g :: gs)).length = g.slots.length + (recs gs).length := by simp [recs]
    rw [hl'] at hl
    have e : flat ((g :: gs).map G.msg) = [g.tgt, g.src, g.slots.flatten.length] ++ g.slots.flatten ++ flat (gs.map G.msg) := by
      simp [flat, Msg.words, G.msg]
    rw [e] at hw ⊢
    obtain ⟨i1, i2, i3⟩ := updGs_ok id gs (perm.drop g.slots.length) (fun g hg' => hg g (by simp [hg'])) (fun i hi => hp i (List.mem_of_mem_drop hi))
      (by simp; omega) hw.right
    have hgok := (hg g (by simp)).2
    have hz : ∀ (slots : List (List Nat)) (perm : List Nat), (∀ s ∈ slots, s.length = rs ∧ W32 s) → (∀ i ∈ perm, ColOk off rs size A col i) → slots.length ≤ perm.length →
        (List.zipWith (fun i s => slotPoke s off (col i)) perm slots).flatten.length = slots.flatten.length ∧
        ∀ s ∈ (List.zipWith (fun i s => slotPoke s off (col i)) perm slots), s.length = rs ∧ W32 s := by
      intro slots
      induction slots with
      | nil => intro perm _ _ _; simp
      | cons s slots ih =>
        intro perm h1 h2 h3
        match perm, h2, h3 with
        | i :: perm, h2, h3 =>
          obtain ⟨ih1, ih2⟩ := ih perm (fun s hs => h1 s (by simp [hs])) (fun i hi => h2 i (by simp [hi])) (by simp at h3; omega)
          have := h1 s (by simp)
          obtain ⟨_, c2, c3⟩ := h2 i (by simp)
          have hsp := slotPoke_length s off (col i) (by rw [this.1]; exact c3)
          simp only [List.zipWith_cons_cons, List.flatten_cons, List.length_append, ih1, hsp, List.mem_cons, true_and]
          rintro s' (rfl | hs')
          · exact ⟨by rw [hsp, this.1], slotPoke_w32 _ _ _ (by rw [this.1]; exact c3) c2⟩
          · exact ih2 s' hs'
    obtain ⟨z1, z2⟩ := hz g.slots perm hgok hp (by omega)
    set sl' := List.zipWith (fun i s => slotPoke s off (col i)) perm g.slots with hsl'
    have e' : flat ((updGs (fun i s => slotPoke s off (col i)) (g :: gs) perm).map G.msg) = [g.tgt, g.src, sl'.flatten.length] ++ sl'.flatten ++
        flat ((updGs (fun i s => slotPoke s off (col i)) gs (perm.drop g.slots.length)).map G.msg) := by
      simp [flat, Msg.words, G.msg, updGs, ← hsl']
    refine ⟨?_, ?_, ?_⟩
    · intro g' hg'
      simp only [updGs, List.mem_cons] at hg'
      rcases hg' with rfl | hg'
      · exact ⟨(hg g (by simp)).1, z2⟩
      · exact i1 g' hg'
    · rw [e', z1]
      refine (W32.append (hw.left.left) ?_).append i2
      intro w hw'
      obtain ⟨s', hs', hw'⟩ := List.mem_flatten.1 hw'
      exact (z2 s' hs').2 w hw'
    · rw [e']; simp only [List.length_append, z1, i3, List.length_cons, List.length_nil]
end

end Gslib.Transfer
