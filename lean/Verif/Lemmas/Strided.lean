import Verif.Model.Strided
import Verif.Lemmas.Findpts

/-!
# Strided arrays: assignments change one variable; the search on strided arrays simulates the search on lists
-/

namespace Gslib.Fp
open Gslib Gslib.Mpi Gslib.Transfer Gslib.Gs Gslib.Hash Gslib.Num Gslib.Spec

theorem ld_iff {sz : Nat} (h : 0 < sz) {m : Bytes} {a v : Nat} : ld sz m a = some v ↔ HoldsAt m sz a v := by
  unfold ld HoldsAt
  constructor
  · intro e
    obtain ⟨c, hc, e⟩ := Option.bind_eq_some_iff.1 e
    split at e
    · rename_i hk
      obtain rfl := Option.some.inj e
      exact hk
    · cases e
  · intro e
    have h0 := e 0 h
    rw [Nat.add_zero] at h0
    rw [h0, Option.bind_some, if_pos e]

/-- the variable `s` -/
def get {D : Nat} (a : SArgs D) (m : Bytes) (s : Slot D) : Option Nat := ld s.size m (s.addr a)

variable {D : Nat} {a : SArgs D} {n : Nat}

theorem size_pos (s : Slot D) : 0 < s.size := by cases s <;> simp [Slot.size]

theorem get_iff {m : Bytes} {s : Slot D} {v : Nat} : get a m s = some v ↔ SlotIs a m s v := ld_iff (size_pos s)

/-- memory between the first state and now: results can be written, nothing else has changed -/
structure MInv (a : SArgs D) (n : Nat) (m0 m : Bytes) : Prop where
  wr : Writable a n m
  only : OnlyResults a n m0 m

/-- the variable is a result, not a scratch variable -/
def Vis (fn : Fn) (t : Slot D) : Prop := ¬ t.scratch fn

theorem vis_code {fn : Fn} {i : Nat} : Vis fn (.code i : Slot D) := by cases fn <;> exact fun h => h
theorem vis_el {fn : Fn} {i : Nat} : Vis fn (.el i : Slot D) := by cases fn <;> exact fun h => h
theorem vis_r {fn : Fn} {i : Nat} {d : Fin D} : Vis fn (.r i d : Slot D) := by cases fn <;> exact fun h => h
theorem vis_dist2 {fn : Fn} {i : Nat} : Vis fn (.dist2 i : Slot D) := by cases fn <;> exact fun h => h
theorem vis_x {fn : Fn} {i : Nat} {d : Fin D} : Vis fn (.x i d : Slot D) := by cases fn <;> exact fun h => h
theorem vis_sess {fn : Fn} {i : Nat} : Vis fn (.sess i : Slot D) := by cases fn <;> exact fun h => h
theorem vis_ms {t : Slot D} : Vis .ms t := by cases t <;> exact fun h => h
theorem vis_proc {fn : Fn} (h : fn ≠ .loc) {i : Nat} : Vis fn (.proc i : Slot D) := by
  cases fn
  · exact fun h => h
  · exact fun h => h
  · exact absurd rfl h

/-- for variables that are results of each function -/
macro "vis" : tactic => `(tactic| first | exact vis_code | exact vis_el | exact vis_r | exact vis_dist2 | exact vis_x | exact vis_sess | assumption)

theorem vis_of_not_written {fn : Fn} {t : Slot D} (h : ¬ t.written) : Vis fn t := by
  cases t <;> cases fn
  all_goals first | exact (fun h => h) | exact absurd trivial h

/-- an assignment -/
theorem st_slot {fn : Fn} (h : a.Ok fn n) {m0 m : Bytes} (hi : MInv a n m0 m) (s : Slot D) (hs : s.idx < n) (hw : s.written) (v : Nat) :
    ∃ m', st s.size m (s.addr a) v = some m' ∧ MInv a n m0 m' ∧ get a m' s = some v ∧ ∀ t : Slot D, t.idx < n → t ≠ s → (_ : Vis fn t := by vis) → get a m' t = get a m t := by
  refine ⟨_, if_pos (hi.wr s hs hw), ⟨?_, ?_⟩, ?_, ?_⟩
  · intro t ht htw k hk
    have := hi.wr t ht htw k hk
    simp only
    split
    · rfl
    · exact this
  · intro b hb
    have h1 := hb s hs hw
    simp only
    rw [if_neg (by omega)]
    exact hi.only b hb
  · rw [get_iff]
    intro k hk
    simp only
    rw [if_pos ⟨by omega, by omega⟩]
    congr 2
    omega
  · intro t ht hts hv
    have h1 := h.disj s t hs ht hw (Ne.symm hts) hv
    have h2 : ∀ k, k < t.size → (if s.addr a ≤ t.addr a + k ∧ t.addr a + k < s.addr a + s.size then some (v, t.addr a + k - s.addr a) else m (t.addr a + k)) = m (t.addr a + k) := by
      intro k hk
      rw [if_neg (by omega)]
    unfold get ld
    have h3 := h2 0 (size_pos t)
    simp only [Nat.add_zero] at h3
    simp only [h3]
    congr 1
    funext c
    congr 1
    apply propext
    constructor
    · intro hh k hk
      rw [← h2 k hk]
      exact hh k hk
    · intro hh k hk
      rw [h2 k hk]
      exact hh k hk

theorem seqFin_some {f : Fin D → Option Nat} {g : Fin D → Nat} (h : ∀ d, f d = some (g d)) : seqFin f = some g := by
  unfold seqFin
  rw [dif_pos (fun d => by rw [h d]; rfl)]
  congr 1
  funext d
  simp [h d]

theorem at_eq {f : SArr} {i : Nat} (h : i * f.stride < 2 ^ 32) : SArr.at f i = f.base + i * f.stride := by
  unfold SArr.at
  rw [Nat.mod_eq_of_lt (by omega)]

/-- assignment of the reference coordinates -/
theorem stVec_slot {fn : Fn} (h : a.Ok fn n) {i : Nat} (hi : i < n) (v : Fin D → Nat) {m0 m : Bytes} (hm : MInv a n m0 m) :
    ∃ m', stVec m (SArr.at a.r i) v = some m' ∧ MInv a n m0 m' ∧ (∀ d, get a m' (.r i d) = some (v d)) ∧ ∀ t : Slot D, t.idx < n → (∀ d, t ≠ .r i d) → (_ : Vis fn t := by vis) → get a m' t = get a m t := by
  rw [at_eq (h.small i hi).2.2.2.1]
  unfold stVec
  have key : ∀ (l : List (Fin D)) (m : Bytes), MInv a n m0 m → ∃ m', l.foldlM (fun m d => st 8 m (a.r.base + i * a.r.stride + 8 * d.val) (v d)) m = some m' ∧ MInv a n m0 m' ∧ (∀ d ∈ l, get a m' (.r i d) = some (v d)) ∧
      (∀ d, d ∉ l → get a m' (.r i d) = get a m (.r i d)) ∧ ∀ t : Slot D, t.idx < n → (∀ d, t ≠ .r i d) → (_ : Vis fn t := by vis) → get a m' t = get a m t := by
    intro l
    induction l with
    | nil => intro m hm; exact ⟨m, rfl, hm, by simp, fun _ _ => rfl, fun _ _ _ _ => rfl⟩
    | cons d l ih =>
      intro m hm
      obtain ⟨m1, e1, h1, g1, o1⟩ := st_slot h hm (.r i d) hi trivial (v d)
      obtain ⟨m2, e2, h2, g2, k2, o2⟩ := ih m1 h1
      refine ⟨m2, ?_, h2, ?_, ?_, ?_⟩
      · rw [List.foldlM_cons]
        show (st 8 m _ (v d)).bind _ = _
        rw [show st 8 m (a.r.base + i * a.r.stride + 8 * d.val) (v d) = some m1 from e1]
        exact e2
      · intro d' hd'
        by_cases hl : d' ∈ l
        · exact g2 d' hl
        · rw [k2 d' hl]
          obtain rfl : d' = d := by simpa [hl] using hd'
          exact g1
      · intro d' hd'
        rw [List.mem_cons, not_or] at hd'
        rw [k2 d' hd'.2, o1 (.r i d') hi (by intro e; injection e with _ e; exact hd'.1 e)]
      · intro t ht hd hv
        rw [o2 t ht hd hv, o1 t ht (hd d) hv]
  obtain ⟨m', e, h', g, _, o⟩ := key (List.finRange D) m hm
  exact ⟨m', e, h', fun d => g d (List.mem_finRange d), fun t ht hd hv => o t ht hd hv⟩

/-- the caller's arguments are `xs` -/
def XRep (a : SArgs D) (m : Bytes) (xs : List (Pt D × Nat)) : Prop :=
  ∀ (i : Nat) x, xs[i]? = some x → (∀ d, get a m (.x i d) = some (x.1 d)) ∧ get a m (.sess i) = some x.2

/-- the variables of a point hold the record `o`; they are indeterminate if the point is not found -/
def ORep (a : SArgs D) (ims : Bool) (m : Bytes) (i : Nat) (o : LRes D) : Prop :=
  get a m (.code i) = some o.code ∧ (o.code ≠ codeNotFound → get a m (.el i) = some o.el ∧ (∀ d, get a m (.r i d) = some (o.r d)) ∧ get a m (.dist2 i) = some o.dist2 ∧
    (ims = true → get a m (.disti i) = some o.disti ∧ get a m (.elsid i) = some o.elsid))

/-- the results are `outs` -/
def OsRep (a : SArgs D) (n : Nat) (ims : Bool) (m : Bytes) (outs : List (LRes D)) : Prop := outs.length = n ∧ ∀ (i : Nat) o, outs[i]? = some o → ORep a ims m i o

/-- `proc` -/
def PRep (a : SArgs D) (n : Nat) (m : Bytes) (procs : List Nat) : Prop := procs.length = n ∧ ∀ (i : Nat) q, procs[i]? = some q → get a m (.proc i) = some q

theorem XRep.congr {m m' : Bytes} {xs : List (Pt D × Nat)} (h : XRep a m xs) (hl : xs.length ≤ n) (he : ∀ t : Slot D, t.idx < n → ¬ t.written → get a m' t = get a m t) : XRep a m' xs := by
  intro i x hx
  have hi : i < n := lt_of_lt_of_le (List.getElem?_eq_some_iff.1 hx).1 hl
  refine ⟨fun d => ?_, ?_⟩
  · rw [he (.x i d) hi (by simp [Slot.written])]; exact (h i x hx).1 d
  · rw [he (.sess i) hi (by simp [Slot.written])]; exact (h i x hx).2

theorem ORep.congr {ims : Bool} {m m' : Bytes} {i : Nat} {o : LRes D} (h : ORep a ims m i o) (h1 : get a m' (.code i) = get a m (.code i)) (h2 : get a m' (.el i) = get a m (.el i))
    (h3 : ∀ d, get a m' (.r i d) = get a m (.r i d)) (h4 : get a m' (.dist2 i) = get a m (.dist2 i))
    (h5 : ims = true → get a m' (.disti i) = get a m (.disti i) ∧ get a m' (.elsid i) = get a m (.elsid i)) : ORep a ims m' i o := by
  refine ⟨by rw [h1]; exact h.1, fun hc => ?_⟩
  obtain ⟨a1, a2, a3, a4⟩ := h.2 hc
  refine ⟨by rw [h2]; exact a1, fun d => by rw [h3]; exact a2 d, by rw [h4]; exact a3, fun hi => ?_⟩
  rw [(h5 hi).1, (h5 hi).2]
  exact a4 hi

end Gslib.Fp
