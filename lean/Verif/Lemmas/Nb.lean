import Verif.Spec.Nb
import Verif.Lemmas.HandleTable
import Verif.Lemmas.Mpi

/-! # Programs with nonblocking operations: every schedule gives the result of the blocking program -/

namespace Gslib.Nb
open Gslib Gslib.Mpi Gslib.Tab Gslib.Spec

variable {A U B W S : Type}

/-- an operation runs from `d` to `d'` -/
def OpRun (np : Nat) (st : Nat → Step S W) (d d' : Nat → S) : Prop :=
  ∃ e : Nat → S, ∀ p, p < np → (st p).pre (d p) = .ok (e p) ∧
    (st p).post (e p) ((st p).recvs.map fun y => (st y.1).payload (e y.1) (p, y.2)) = .ok (d' p)

/-- sends and receives of an operation match -/
structure OpMatched (np : Nat) (st : Nat → Step S W) : Prop where
  send : ∀ p, p < np → ∀ y ∈ (st p).sends, y.1 < np ∧ (p, y.2) ∈ (st y.1).recvs
  recv : ∀ p, p < np → ∀ y ∈ (st p).recvs, y.1 < np ∧ (p, y.2) ∈ (st y.1).sends

/-- invariant of one process: `s` operations were started, `o` are outstanding (variable, number); `mid k`: its memory for operation `k` after the start -/
structure PInv (ex : A → Nat → Nat → Step (U × B) W) (N : Nat) (op : Nat → Op A) (M : Nat → Nat → Nat → U) (p : Nat) (rest : List (Ev A)) (st : PSt A U B)
    (s : Nat) (o : List (Nat × Nat)) (mid : Nat → U × B) (τ : List (TabObs (Rec A))) : Prop where
  le : s ≤ N
  order : started rest = ((List.range N).drop s).map fun k => (op k).on p
  disc : Disciplined (o.map fun y => (y.1, (op y.2).on p)) rest
  pair : o.Pairwise fun y z => y.1 ≠ z.1 ∧ y.2 < z.2
  lt : ∀ y ∈ o, y.2 < s
  lastg : ∀ y ∈ o, ∀ k, k < s → y.2 < k → (op k).g ≠ (op y.2).g
  lastx : ∀ y ∈ o, ∀ k, k < s → y.2 < k → (op k).x p ≠ (op y.2).x p
  lastb : ∀ y ∈ o, ∀ k, k < s → y.2 < k → (op k).b p ≠ (op y.2).b p
  mids : ∀ k, k < s → ∃ bb, (ex (op k).a (op k).g p).pre (M k p ((op k).x p), bb) = .ok (mid k)
  out : ∀ y ∈ o, ∃ h : Nat, st.var y.1 = h ∧ Live τ h ((op y.2).on p) ∧ st.req (op y.2).g = some h ∧ (st.u ((op y.2).x p), st.buf ((op y.2).b p)) = mid y.2
  only : ∀ (h : Nat) r, Live τ h r → ∃ y ∈ o, st.var y.1 = h
  mem : ∀ z, (∀ y ∈ o, (op y.2).x p ≠ z) → st.u z = M s p z
  tab : NbInv τ st.tab
  num : numCreated τ = s

/-- operation `k` is complete -/
def Done (s : Nat) (o : List (Nat × Nat)) (k : Nat) : Prop := k < s ∧ ∀ y ∈ o, y.2 ≠ k

instance (s : Nat) (o : List (Nat × Nat)) (k : Nat) : Decidable (Done s o k) := by unfold Done; infer_instance

/-- invariant of all processes -/
structure CInv (ex : A → Nat → Nat → Step (U × B) W) (np N : Nat) (op : Nat → Op A) (M : Nat → Nat → Nat → U) (c : Conf A U B W)
    (s : Nat → Nat) (o : Nat → List (Nat × Nat)) (mid : Nat → Nat → U × B) : Prop where
  proc : ∀ p, p < np → ∃ τ, PInv ex N op M p (c.rest p) (c.st p) (s p) (o p) (mid p) τ
  recvd : ∀ p, p < np → ∀ k, Done (s p) (o p) k → ∀ y ∈ (ex (op k).a (op k).g p).recvs, k < s y.1
  chan : ∀ g a b t, a < np → b < np → c.chan g a b t =
    ((List.range (s a)).filter fun k => decide ((op k).g = g ∧ (b, t) ∈ (ex (op k).a (op k).g a).sends ∧ ¬ Done (s b) (o b) k)).map
      fun k => (ex (op k).a (op k).g a).payload (mid a k) (b, t)

theorem mem_unique {o : List (Nat × Nat)} (h : o.Pairwise fun y z => y.1 ≠ z.1 ∧ y.2 < z.2) {v k k' : Nat} (h1 : (v, k) ∈ o) (h2 : (v, k') ∈ o) : k = k' := by
  induction o with
  | nil => cases h1
  | cons y o ih =>
    rw [List.pairwise_cons] at h
    rw [List.mem_cons] at h1 h2
    rcases h1 with h1 | h1 <;> rcases h2 with h2 | h2
    · rw [← h1] at h2; cases h2; rfl
    · exact absurd (by rw [← h1]) (h.1 _ h2).1
    · exact absurd (by rw [← h2]) (h.1 _ h1).1
    · exact ih h.2 h1 h2

theorem mem_unique' {o : List (Nat × Nat)} (h : o.Pairwise fun y z => y.1 ≠ z.1 ∧ y.2 < z.2) {y z : Nat × Nat} (h1 : y ∈ o) (h2 : z ∈ o) (e : y.2 = z.2) : y = z := by
  induction o with
  | nil => cases h1
  | cons w o ih =>
    rw [List.pairwise_cons] at h
    rw [List.mem_cons] at h1 h2
    rcases h1 with h1 | h1 <;> rcases h2 with h2 | h2
    · rw [h1, h2]
    · have := (h.1 _ h2).2; rw [← h1] at this; omega
    · have := (h.1 _ h1).2; rw [← h2] at this; omega
    · exact ih h.2 h1 h2

section
variable {ex : A → Nat → Nat → Step (U × B) W} {np N : Nat} {op : Nat → Op A} {M : Nat → Nat → Nat → U}

theorem drop_range {s : Nat} {r : Rec A} {rs : List (Rec A)} {p : Nat} (h : r :: rs = ((List.range N).drop s).map fun k => (op k).on p) :
    s < N ∧ r = (op s).on p ∧ rs = ((List.range N).drop (s + 1)).map fun k => (op k).on p := by
  have hs : s < N := by
    rcases Nat.lt_or_ge s N with h1 | h1
    · exact h1
    · rw [List.drop_eq_nil_of_le (by simpa using h1)] at h; cases h
  rw [List.drop_eq_getElem_cons (by simpa using hs), List.map_cons] at h
  simp only [List.getElem_range] at h
  exact ⟨hs, (List.cons.inj h).1, (List.cons.inj h).2⟩

/-- a start -/
theorem pinv_igs {p : Nat} {rest : List (Ev A)} {st : PSt A U B} {s : Nat} {o : List (Nat × Nat)} {mid : Nat → U × B} {τ : List (TabObs (Rec A))}
    (hM : ∀ k, k < N → ∀ z, z ≠ (op k).x p → M (k + 1) p z = M k p z)
    (hN : N ≤ 1073741824) {v : Nat} {r : Rec A} {es : List (Ev A)} (hr : rest = .igs v r :: es)
    (I : PInv ex N op M p rest st s o mid τ) {h : Nat} {tab' : Nb (Rec A)} (ht : nbStart r st.tab = .ok (h, tab')) {s' : U × B}
    (hs : (ex r.a r.g p).pre (st.u r.x, st.buf r.b) = .ok s') :
    s < N ∧ r = (op s).on p ∧ (∀ y ∈ o, (op y.2).g ≠ r.g) ∧
    ∃ τ', PInv ex N op M p es ⟨Function.update st.u r.x s'.1, Function.update st.buf r.b s'.2, Function.update st.var v h, tab', Function.update st.req r.g (some h)⟩
      (s + 1) (o ++ [(v, s)]) (Function.update mid s s') τ' := by
  subst hr
  have hord := I.order
  rw [show started (Ev.igs v r :: es) = r :: started es from rfl] at hord
  obtain ⟨hsN, hrr, hrest⟩ := drop_range hord
  have hd := I.disc
  have hd1 : ∀ y ∈ o, y.1 ≠ v ∧ (op y.2).x p ≠ r.x ∧ (op y.2).b p ≠ r.b ∧ (op y.2).g ≠ r.g := by
    intro y hy
    exact hd.1 (y.1, (op y.2).on p) (List.mem_map.mpr ⟨y, hy, rfl⟩)
  obtain ⟨t1, e1, I1⟩ := nbStart_inv I.tab r (by rw [I.num]; omega)
  rw [e1] at ht
  obtain ⟨rfl, rfl⟩ : st.tab.tab.n = h ∧ t1 = tab' := by cases ht; exact ⟨rfl, rfl⟩
  have hux : st.u r.x = M s p ((op s).x p) := by
    rw [hrr]; exact I.mem _ fun y hy => by have := (hd1 y hy).2.1; rw [hrr] at this; exact this
  have hrx : r.x = (op s).x p := by rw [hrr]; rfl
  have hrb : r.b = (op s).b p := by rw [hrr]; rfl
  have hrg : r.g = (op s).g := by rw [hrr]; rfl
  have hra : r.a = (op s).a := by rw [hrr]; rfl
  refine ⟨hsN, hrr, fun y hy => (hd1 y hy).2.2.2, τ ++ [.created st.tab.tab.n r], ?_⟩
  constructor
  · exact hsN
  · exact hrest
  · have := hd.2
    rw [List.map_append, List.map_singleton]
    rw [hrr] at this; exact this
  · rw [List.pairwise_append]
    refine ⟨I.pair, List.pairwise_singleton _ _, ?_⟩
    intro y hy z hz
    rw [List.mem_singleton] at hz; subst hz
    exact ⟨(hd1 y hy).1, I.lt y hy⟩
  · intro y hy
    rw [List.mem_append, List.mem_singleton] at hy
    rcases hy with hy | rfl
    · have := I.lt y hy; omega
    · exact Nat.lt_succ_self _
  · intro y hy k hk hlt
    rw [List.mem_append, List.mem_singleton] at hy
    rcases hy with hy | rfl
    · by_cases hks : k = s
      · subst hks; rw [← hrg]; exact Ne.symm (hd1 y hy).2.2.2
      · exact I.lastg y hy k (by omega) hlt
    · exact absurd hlt (by show ¬ s < k; omega)
  · intro y hy k hk hlt
    rw [List.mem_append, List.mem_singleton] at hy
    rcases hy with hy | rfl
    · by_cases hks : k = s
      · subst hks; rw [← hrx]; exact Ne.symm (hd1 y hy).2.1
      · exact I.lastx y hy k (by omega) hlt
    · exact absurd hlt (by show ¬ s < k; omega)
  · intro y hy k hk hlt
    rw [List.mem_append, List.mem_singleton] at hy
    rcases hy with hy | rfl
    · by_cases hks : k = s
      · subst hks; rw [← hrb]; exact Ne.symm (hd1 y hy).2.2.1
      · exact I.lastb y hy k (by omega) hlt
    · exact absurd hlt (by show ¬ s < k; omega)
  · intro k hk
    by_cases hks : k = s
    · subst hks
      rw [Function.update_self]
      refine ⟨st.buf r.b, ?_⟩
      rw [← hux, ← hra, ← hrg]; exact hs
    · rw [Function.update_of_ne hks]; exact I.mids k (by omega)
  · intro y hy
    rw [List.mem_append, List.mem_singleton] at hy
    rcases hy with hy | rfl
    · obtain ⟨h0, h1, h2, h3, h4⟩ := I.out y hy
      have hd2 := hd1 y hy
      refine ⟨h0, ?_, ?_, ?_, ?_⟩
      · show Function.update st.var v _ y.1 = _
        rw [Function.update_of_ne hd2.1]; exact h1
      · rw [live_created]; exact Or.inl h2
      · show Function.update st.req r.g _ (op y.2).g = _
        rw [Function.update_of_ne hd2.2.2.2]; exact h3
      · show (Function.update st.u r.x s'.1 _, Function.update st.buf r.b s'.2 _) = _
        rw [Function.update_of_ne hd2.2.1, Function.update_of_ne hd2.2.2.1, h4, Function.update_of_ne]
        have := I.lt y hy; omega
    · refine ⟨st.tab.tab.n, ?_, ?_, ?_, ?_⟩
      · show Function.update st.var v _ v = _; rw [Function.update_self]
      · rw [live_created]; exact Or.inr ⟨rfl, hrr.symm⟩
      · show Function.update st.req r.g _ (op s).g = _; rw [← hrg, Function.update_self]
      · show (Function.update st.u r.x s'.1 ((op s).x p), Function.update st.buf r.b s'.2 ((op s).b p)) = _
        rw [← hrx, ← hrb, Function.update_self, Function.update_self, Function.update_self]
  · intro h0 r0 hl
    rw [live_created] at hl
    rcases hl with hl | ⟨rfl, rfl⟩
    · obtain ⟨y, hy, h1⟩ := I.only h0 r0 hl
      refine ⟨y, List.mem_append_left _ hy, ?_⟩
      show Function.update st.var v _ y.1 = _
      rw [Function.update_of_ne (hd1 y hy).1]; exact h1
    · exact ⟨(v, s), by simp, by show Function.update st.var v _ v = _; rw [Function.update_self]⟩
  · intro z hz
    have hz1 : (op s).x p ≠ z := hz (v, s) (by simp)
    show Function.update st.u r.x s'.1 z = _
    rw [Function.update_of_ne (by rw [hrx]; exact Ne.symm hz1), hM s hsN z (Ne.symm hz1)]
    exact I.mem z fun y hy => hz y (List.mem_append_left _ hy)
  · exact I1
  · rw [numCreated_created, I.num]

theorem M_const {p : Nat} (hM : ∀ k, k < N → ∀ z, z ≠ (op k).x p → M (k + 1) p z = M k p z) {k z : Nat} : ∀ s, k ≤ s → s ≤ N →
    (∀ j, k ≤ j → j < s → (op j).x p ≠ z) → M s p z = M k p z
  | 0, h, _, _ => by rw [Nat.le_zero.mp h]
  | s + 1, h, hs, hj => by
    by_cases hk : k = s + 1
    · rw [hk]
    · rw [hM s (by omega) z (Ne.symm (hj s (by omega) (by omega)))]
      exact M_const hM s (by omega) (by omega) fun j h1 h2 => hj j h1 (by omega)

theorem mem_filter_v {o : List (Nat × Nat)} (hp : o.Pairwise fun y z => y.1 ≠ z.1 ∧ y.2 < z.2) {v k : Nat} (h : (v, k) ∈ o) (y : Nat × Nat) :
    y ∈ o.filter (fun y => y.1 ≠ v) ↔ y ∈ o ∧ y ≠ (v, k) := by
  rw [List.mem_filter]
  refine and_congr_right fun hy => ?_
  simp only [decide_eq_true_eq]
  constructor
  · intro h1 h2; exact h1 (by rw [h2])
  · intro h1 h2
    apply h1
    rcases y with ⟨a, b⟩
    have h2 : a = v := h2
    subst h2
    rw [mem_unique hp h hy]

/-- the operation a wait refers to -/
theorem pinv_wait_rec {p : Nat} {st : PSt A U B} {s : Nat} {o : List (Nat × Nat)} {mid : Nat → U × B} {τ : List (TabObs (Rec A))}
    {v : Nat} {es : List (Ev A)} (I : PInv ex N op M p (.wait v :: es) st s o mid τ) :
    ∃ (k h : Nat) (tab' : Nb (Rec A)), (v, k) ∈ o ∧ st.var v = h ∧ nbWait h st.tab = .ok (some ((op k).on p), tab') ∧ st.req (op k).g = some h ∧
      (st.u ((op k).x p), st.buf ((op k).b p)) = mid k ∧ NbInv (τ ++ [.done h ((op k).on p)]) tab' := by
  obtain ⟨r, hr⟩ := I.disc.1
  obtain ⟨y, hy, hy2⟩ := List.mem_map.mp hr
  obtain ⟨h, h1, h2, h3, h4⟩ := I.out y hy
  obtain ⟨t', e, I'⟩ := nbWait_inv I.tab h2
  have hv : y.1 = v := by rw [← (Prod.mk.inj hy2).1]
  refine ⟨y.2, h, t', ?_, ?_, e, h3, h4, I'⟩
  · rw [← hv]; exact hy
  · rw [← hv]; exact h1

/-- a wait -/
theorem pinv_wait {p : Nat} {st : PSt A U B} {s : Nat} {o : List (Nat × Nat)} {mid : Nat → U × B} {τ : List (TabObs (Rec A))}
    (hM : ∀ k, k < N → ∀ z, z ≠ (op k).x p → M (k + 1) p z = M k p z)
    {v : Nat} {es : List (Ev A)} (I : PInv ex N op M p (.wait v :: es) st s o mid τ) {k h : Nat} (hk : (v, k) ∈ o) (hh : st.var v = h) {tab' : Nb (Rec A)}
    (I' : NbInv (τ ++ [.done h ((op k).on p)]) tab') {s' : U × B} (hs : s'.1 = M (k + 1) p ((op k).x p)) :
    ∃ τ', PInv ex N op M p es ⟨Function.update st.u ((op k).x p) s'.1, Function.update st.buf ((op k).b p) s'.2, st.var, tab', Function.update st.req (op k).g none⟩
      s (o.filter fun y => y.1 ≠ v) mid τ' := by
  have hf := mem_filter_v I.pair hk
  have hks : k < s := I.lt _ hk
  -- outstanding operations differ in everything
  have hne : ∀ y ∈ o, y ≠ (v, k) → y.2 ≠ k ∧ (op y.2).x p ≠ (op k).x p ∧ (op y.2).b p ≠ (op k).b p ∧ (op y.2).g ≠ (op k).g := by
    intro y hy hyk
    have hy2 : y.2 ≠ k := fun e => hyk (mem_unique' I.pair hy hk e)
    rcases Nat.lt_or_ge y.2 k with hlt | hge
    · exact ⟨hy2, Ne.symm (I.lastx y hy k hks hlt), Ne.symm (I.lastb y hy k hks hlt), Ne.symm (I.lastg y hy k hks hlt)⟩
    · have hlt : k < y.2 := by omega
      have hys := I.lt y hy
      exact ⟨hy2, I.lastx _ hk y.2 hys hlt, I.lastb _ hk y.2 hys hlt, I.lastg _ hk y.2 hys hlt⟩
  have hlive : Live τ h ((op k).on p) := by
    obtain ⟨h0, h1, h2, -, -⟩ := I.out _ hk
    have h1 : st.var v = h0 := h1
    rw [hh] at h1
    rw [show h = h0 by omega]; exact h2
  refine ⟨τ ++ [.done h ((op k).on p)], ?_⟩
  refine { le := I.le, order := I.order, disc := ?_, pair := I.pair.filter _, lt := fun y hy => I.lt y ((hf y).mp hy).1, lastg := fun y hy => I.lastg y ((hf y).mp hy).1,
           lastx := fun y hy => I.lastx y ((hf y).mp hy).1, lastb := fun y hy => I.lastb y ((hf y).mp hy).1, mids := I.mids, out := ?_, only := ?_, mem := ?_, tab := I', num := ?_ }
  · have := I.disc.2
    rw [List.filter_map] at this
    exact this
  · intro y hy
    obtain ⟨hy1, hy2⟩ := (hf y).mp hy
    obtain ⟨h0, h1, h2, h3, h4⟩ := I.out y hy1
    obtain ⟨n1, n2, n3, n4⟩ := hne y hy1 hy2
    refine ⟨h0, h1, ?_, ?_, ?_⟩
    · rw [live_done]
      refine ⟨h2, ?_⟩
      intro e
      subst e
      have e1 := (I.tab.live _ _).mp h2
      have e2 := (I.tab.live _ _).mp hlive
      rw [e1] at e2
      exact n4 (congrArg Rec.g (Cell.obj.inj (Option.some.inj e2)))
    · show Function.update st.req _ _ _ = _
      rw [Function.update_of_ne n4]; exact h3
    · show (Function.update st.u _ _ _, Function.update st.buf _ _ _) = _
      rw [Function.update_of_ne n2, Function.update_of_ne n3]; exact h4
  · intro h0 r0 hl
    rw [live_done] at hl
    obtain ⟨y, hy, h1⟩ := I.only h0 r0 hl.1
    refine ⟨y, (hf y).mpr ⟨hy, ?_⟩, h1⟩
    intro e
    subst e
    have h1 : st.var v = h0 := h1
    rw [hh] at h1
    exact hl.2 (by omega)
  · intro z hz
    show Function.update st.u ((op k).x p) s'.1 z = _
    by_cases hzx : z = (op k).x p
    · subst hzx
      rw [Function.update_self, hs]
      refine (M_const hM s (by omega) I.le ?_).symm
      intro j h1 h2
      exact I.lastx _ hk j h2 (by show k < j; omega)
    · rw [Function.update_of_ne hzx]
      refine I.mem z fun y hy => ?_
      by_cases hy2 : y = (v, k)
      · subst hy2; exact Ne.symm hzx
      · exact hz y ((hf y).mpr ⟨hy, hy2⟩)
  · rw [numCreated_done, I.num]

end
end Gslib.Nb
