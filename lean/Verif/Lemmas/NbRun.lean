import Verif.Lemmas.Nb

/-! # Programs with nonblocking operations: all processes -/

namespace Gslib.Nb
open Gslib Gslib.Mpi Gslib.Tab Gslib.Spec

variable {A U B W : Type}
variable {ex : A → Nat → Nat → Step (U × B) W} {np N : Nat} {op : Nat → Op A} {M : Nat → Nat → Nat → U}

theorem done_igs {s v : Nat} {o : List (Nat × Nat)} (h : ∀ y ∈ o, y.2 < s) (k : Nat) : Done (s + 1) (o ++ [(v, s)]) k ↔ Done s o k := by
  unfold Done
  constructor
  · rintro ⟨h1, h2⟩
    have h3 : s ≠ k := h2 (v, s) (by simp)
    exact ⟨by omega, fun y hy => h2 y (List.mem_append_left _ hy)⟩
  · rintro ⟨h1, h2⟩
    refine ⟨by omega, fun y hy => ?_⟩
    rw [List.mem_append, List.mem_singleton] at hy
    rcases hy with hy | rfl
    · exact h2 y hy
    · show s ≠ k; omega

theorem done_wait {s v k : Nat} {o : List (Nat × Nat)} (hp : o.Pairwise fun y z => y.1 ≠ z.1 ∧ y.2 < z.2) (hk : (v, k) ∈ o) (hs : k < s) (j : Nat) :
    Done s (o.filter fun y => y.1 ≠ v) j ↔ Done s o j ∨ j = k := by
  have hf := mem_filter_v hp hk
  unfold Done
  constructor
  · rintro ⟨h1, h2⟩
    by_cases hj : j = k
    · exact Or.inr hj
    · refine Or.inl ⟨h1, fun y hy => ?_⟩
      by_cases hy2 : y = (v, k)
      · subst hy2; exact Ne.symm hj
      · exact h2 y ((hf y).mpr ⟨hy, hy2⟩)
  · rintro (⟨h1, h2⟩ | rfl)
    · exact ⟨h1, fun y hy => h2 y ((hf y).mp hy).1⟩
    · refine ⟨hs, fun y hy e => ?_⟩
      exact ((hf y).mp hy).2 (mem_unique' hp ((hf y).mp hy).1 hk e)

theorem range_split {k m : Nat} (h : k < m) : List.range m = List.range k ++ k :: (List.range (m - (k + 1))).map (fun x => k + 1 + x) := by
  rw [show m = (k + 1) + (m - (k + 1)) by omega, List.range_add, List.range_succ, List.append_assoc]
  simp

theorem filter_range_first {k m : Nat} (Q : Nat → Prop) [DecidablePred Q] (h : k < m) (hk : Q k) (hl : ∀ j, j < k → ¬ Q j) :
    (List.range m).filter (fun j => decide (Q j)) = k :: (List.range m).filter (fun j => decide (Q j ∧ j ≠ k)) := by
  rw [range_split h, List.filter_append, List.filter_append, List.filter_cons_of_pos (by simpa using hk), List.filter_cons_of_neg (by simp)]
  rw [List.filter_eq_nil_iff.mpr (by intro j hj; simpa using hl j (List.mem_range.mp hj))]
  have e2 : (List.range k).filter (fun j => decide (Q j ∧ j ≠ k)) = [] :=
    List.filter_eq_nil_iff.mpr (by intro j hj; have := hl j (List.mem_range.mp hj); simp [this])
  rw [e2]
  simp only [List.nil_append]
  congr 1
  apply List.filter_congr
  intro j hj
  obtain ⟨x, -, rfl⟩ := List.mem_map.mp hj
  rw [decide_eq_decide]
  constructor
  · intro h; exact ⟨h, by omega⟩
  · exact fun h => h.1

section
variable {c : Conf A U B W} {s : Nat → Nat} {o : Nat → List (Nat × Nat)} {mid : Nat → Nat → U × B}

/-- the messages of an outstanding operation are the first ones -/
theorem first_msg (I : CInv ex np N op M c s o mid) {p : Nat} (hp : p < np) {v k : Nat} (hk : (v, k) ∈ o p) {j : Nat} (hj : j < k) (hg : (op j).g = (op k).g) :
    Done (s p) (o p) j := by
  obtain ⟨τ, J⟩ := I.proc p hp
  have hks : k < s p := J.lt _ hk
  refine ⟨by omega, fun y hy e => ?_⟩
  subst e
  exact J.lastg y hy k hks hj hg.symm

theorem chan_head (I : CInv ex np N op M c s o mid) {p : Nat} (hp : p < np) {v k : Nat} (hk : (v, k) ∈ o p) {y : Nat × Nat}
    (hm : y.1 < np ∧ (p, y.2) ∈ (ex (op k).a (op k).g y.1).sends) :
    (c.chan (op k).g y.1 p y.2).head? = if k < s y.1 then some ((ex (op k).a (op k).g y.1).payload (mid y.1 k) (p, y.2)) else none := by
  have hnd : ¬ Done (s p) (o p) k := fun hd => hd.2 _ hk rfl
  rw [I.chan _ _ _ _ hm.1 hp]
  by_cases hks : k < s y.1
  · rw [if_pos hks, filter_range_first _ hks ⟨rfl, hm.2, hnd⟩ (fun j hj hq => hq.2.2 (first_msg I hp hk hj hq.1))]
    rfl
  · rw [if_neg hks, List.filter_eq_nil_iff.mpr]
    · rfl
    · intro j hj
      have hj := List.mem_range.mp hj
      simp only [decide_eq_true_eq]
      exact fun hq => hq.2.2 (first_msg I hp hk (by omega) hq.1)

theorem heads_some (I : CInv ex np N op M c s o mid) (hm : ∀ k, k < N → OpMatched np (ex (op k).a (op k).g)) {p : Nat} (hp : p < np) {v k : Nat} (hk : (v, k) ∈ o p)
    (hs : ∀ y ∈ (ex (op k).a (op k).g p).recvs, k < s y.1) :
    heads (c.chan (op k).g) p (ex (op k).a (op k).g p).recvs =
      some ((ex (op k).a (op k).g p).recvs.map fun y => (ex (op k).a (op k).g y.1).payload (mid y.1 k) (p, y.2)) := by
  obtain ⟨τ, J⟩ := I.proc p hp
  have hkN : k < N := Nat.lt_of_lt_of_le (J.lt _ hk) J.le
  unfold heads
  rw [mapM_option_congr (g := fun y => some ((ex (op k).a (op k).g y.1).payload (mid y.1 k) (p, y.2)))]
  · induction (ex (op k).a (op k).g p).recvs with
    | nil => rfl
    | cons a l ih => rw [List.mapM_cons, ih]; rfl
  · intro y hy
    rw [chan_head I hp hk ((hm k hkN).recv p hp y hy), if_pos (hs y hy)]

theorem heads_inv (I : CInv ex np N op M c s o mid) (hm : ∀ k, k < N → OpMatched np (ex (op k).a (op k).g)) {p : Nat} (hp : p < np) {v k : Nat} (hk : (v, k) ∈ o p)
    {vals : List W} (hv : heads (c.chan (op k).g) p (ex (op k).a (op k).g p).recvs = some vals) : ∀ y ∈ (ex (op k).a (op k).g p).recvs, k < s y.1 := by
  obtain ⟨τ, J⟩ := I.proc p hp
  have hkN : k < N := Nat.lt_of_lt_of_le (J.lt _ hk) J.le
  intro y hy
  obtain ⟨w, hw⟩ := mapM_option_some hv y hy
  rw [chan_head I hp hk ((hm k hkN).recv p hp y hy)] at hw
  by_contra hc
  rw [if_neg hc] at hw; cases hw

/-- an operation that can complete does so with the specified result -/
theorem post_ok (I : CInv ex np N op M c s o mid)
    (hrun : ∀ k, k < N → ∀ b : Nat → B, ∃ d', OpRun np (ex (op k).a (op k).g) (fun q => (M k q ((op k).x q), b q)) d' ∧ ∀ q, q < np → (d' q).1 = M (k + 1) q ((op k).x q))
    (hm : ∀ k, k < N → OpMatched np (ex (op k).a (op k).g)) {p : Nat} (hp : p < np) {v k : Nat} (hk : (v, k) ∈ o p)
    (hs : ∀ y ∈ (ex (op k).a (op k).g p).recvs, k < s y.1) :
    ∃ s', (ex (op k).a (op k).g p).post (mid p k) ((ex (op k).a (op k).g p).recvs.map fun y => (ex (op k).a (op k).g y.1).payload (mid y.1 k) (p, y.2)) = .ok s' ∧
      s'.1 = M (k + 1) p ((op k).x p) := by
  obtain ⟨τ, J⟩ := I.proc p hp
  have hks : k < s p := J.lt _ hk
  have hkN : k < N := Nat.lt_of_lt_of_le hks J.le
  obtain ⟨bp, hbp⟩ := J.mids k hks
  have hb : ∀ q, ∃ bb, q < np → k < s q → (ex (op k).a (op k).g q).pre (M k q ((op k).x q), bb) = .ok (mid q k) := by
    intro q
    by_cases h : q < np ∧ k < s q
    · obtain ⟨τq, Jq⟩ := I.proc q h.1
      obtain ⟨bb, hbb⟩ := Jq.mids k h.2
      exact ⟨bb, fun _ _ => hbb⟩
    · exact ⟨bp, fun h1 h2 => absurd ⟨h1, h2⟩ h⟩
  choose b hb using hb
  obtain ⟨d', ⟨e, he⟩, hd'⟩ := hrun k hkN b
  have heq : ∀ q, q < np → k < s q → e q = mid q k := by
    intro q h1 h2
    have := (he q h1).1
    rw [hb q h1 h2] at this
    exact (Outcome.ok.inj this).symm
  refine ⟨d' p, ?_, hd' p hp⟩
  rw [← (he p hp).2, heq p hp hks]
  congr 1
  apply List.map_congr_left
  intro y hy
  rw [heq y.1 ((hm k hkN).recv p hp y hy).1 (hs y hy)]

/-- a start -/
theorem cinv_igs (hM : ∀ p, p < np → ∀ k, k < N → ∀ z, z ≠ (op k).x p → M (k + 1) p z = M k p z) (hN : N ≤ 1073741824)
    (hm : ∀ k, k < N → OpMatched np (ex (op k).a (op k).g))
    (I : CInv ex np N op M c s o mid) {p v : Nat} {r : Rec A} {es : List (Ev A)} {h : Nat} {tab' : Nb (Rec A)} {s' : U × B} (hp : p < np)
    (hr : c.rest p = .igs v r :: es) (ht : nbStart r (c.st p).tab = .ok (h, tab'))
    (hs : (ex r.a r.g p).pre ((c.st p).u r.x, (c.st p).buf r.b) = .ok s') :
    CInv ex np N op M ⟨Function.update c.rest p es,
        Function.update c.st p ⟨Function.update (c.st p).u r.x s'.1, Function.update (c.st p).buf r.b s'.2, Function.update (c.st p).var v h, tab',
          Function.update (c.st p).req r.g (some h)⟩,
        fun g a b t => if g = r.g ∧ a = p ∧ (b, t) ∈ (ex r.a r.g p).sends then c.chan g a b t ++ [(ex r.a r.g p).payload s' (b, t)] else c.chan g a b t⟩
      (Function.update s p (s p + 1)) (Function.update o p (o p ++ [(v, s p)])) (Function.update mid p (Function.update (mid p) (s p) s')) := by
  obtain ⟨τ, J⟩ := I.proc p hp
  obtain ⟨hsN, hrr, -, τ', J'⟩ := pinv_igs (hM p hp) hN hr J ht hs
  have hdone : ∀ q k, Done (Function.update s p (s p + 1) q) (Function.update o p (o p ++ [(v, s p)]) q) k ↔ Done (s q) (o q) k := by
    intro q k
    by_cases hq : q = p
    · subst hq; rw [Function.update_self, Function.update_self]; exact done_igs J.lt k
    · rw [Function.update_of_ne hq, Function.update_of_ne hq]
  have hmono : ∀ q, s q ≤ Function.update s p (s p + 1) q := by
    intro q
    by_cases hq : q = p
    · subst hq; rw [Function.update_self]; omega
    · rw [Function.update_of_ne hq]
  constructor
  · intro q hq
    by_cases hqp : q = p
    · subst hqp
      simp only [Function.update_self]
      exact ⟨τ', J'⟩
    · simp only [Function.update_of_ne hqp]
      exact I.proc q hq
  · intro q hq k hk y hy
    rw [hdone] at hk
    exact Nat.lt_of_lt_of_le (I.recvd q hq k hk y hy) (hmono _)
  · intro g a b t ha hb
    simp only [hdone]
    by_cases hap : a = p
    · subst hap
      have hra : r.a = (op (s a)).a := by rw [hrr]; rfl
      have hrg : r.g = (op (s a)).g := by rw [hrr]; rfl
      simp only [Function.update_self, true_and]
      rw [List.range_succ, List.filter_append, List.map_append]
      have e1 : (List.map (fun k => (ex (op k).a (op k).g a).payload (Function.update (mid a) (s a) s' k) (b, t))
          (List.filter (fun k => decide ((op k).g = g ∧ (b, t) ∈ (ex (op k).a (op k).g a).sends ∧ ¬Done (s b) (o b) k)) (List.range (s a)))) = c.chan g a b t := by
        rw [I.chan g a b t ha hb]
        apply List.map_congr_left
        intro k hk
        have hk := List.mem_range.mp (List.mem_filter.mp hk).1
        rw [Function.update_of_ne (by omega)]
      rw [e1]
      by_cases hc : g = r.g ∧ (b, t) ∈ (ex r.a r.g a).sends
      · rw [if_pos hc]
        have hc2 : (b, t) ∈ (ex (op (s a)).a (op (s a)).g a).sends := by rw [← hra, ← hrg]; exact hc.2
        rw [List.filter_cons_of_pos]
        · simp only [List.filter_nil, List.map_cons, List.map_nil, Function.update_self]
          rw [hra, hrg]
        · simp only [decide_eq_true_eq]
          refine ⟨by rw [hc.1, hrg], hc2, fun hd => ?_⟩
          have := I.recvd b hb (s a) hd (a, t) ((hm _ hsN).send a ha (b, t) hc2).2
          exact absurd this (Nat.lt_irrefl _)
      · rw [if_neg hc, List.filter_cons_of_neg]
        · simp
        · simp only [decide_eq_true_eq]
          intro hq
          exact hc ⟨by rw [hrg]; exact hq.1.symm, by rw [hra, hrg]; exact hq.2.1⟩
    · rw [if_neg (fun hc => hap hc.2.1)]
      simp only [Function.update_of_ne hap]
      exact I.chan g a b t ha hb

/-- a wait -/
theorem cinv_wait (hM : ∀ p, p < np → ∀ k, k < N → ∀ z, z ≠ (op k).x p → M (k + 1) p z = M k p z)
    (hrun : ∀ k, k < N → ∀ b : Nat → B, ∃ d', OpRun np (ex (op k).a (op k).g) (fun q => (M k q ((op k).x q), b q)) d' ∧ ∀ q, q < np → (d' q).1 = M (k + 1) q ((op k).x q))
    (hm : ∀ k, k < N → OpMatched np (ex (op k).a (op k).g))
    (I : CInv ex np N op M c s o mid) {p v : Nat} {r : Rec A} {es : List (Ev A)} {h : Nat} {tab' : Nb (Rec A)} {vals : List W} {s' : U × B} (hp : p < np)
    (hr : c.rest p = .wait v :: es) (hh : (c.st p).var v = h) (ht : nbWait h (c.st p).tab = .ok (some r, tab'))
    (hv : heads (c.chan r.g) p (ex r.a r.g p).recvs = some vals)
    (hs : (ex r.a r.g p).post ((c.st p).u r.x, (c.st p).buf r.b) vals = .ok s') :
    CInv ex np N op M ⟨Function.update c.rest p es,
        Function.update c.st p ⟨Function.update (c.st p).u r.x s'.1, Function.update (c.st p).buf r.b s'.2, (c.st p).var, tab', Function.update (c.st p).req r.g none⟩,
        fun g a b t => if g = r.g ∧ b = p ∧ (a, t) ∈ (ex r.a r.g p).recvs then (c.chan g a b t).tail else c.chan g a b t⟩
      s (Function.update o p ((o p).filter fun y => y.1 ≠ v)) mid := by
  obtain ⟨τ, J⟩ := I.proc p hp
  rw [hr] at J
  obtain ⟨k, h0, t0, hk, e1, e2, e3, e4, J1⟩ := pinv_wait_rec J
  have hh0 : h0 = h := by rw [hh] at e1; omega
  subst hh0
  rw [e2] at ht
  obtain ⟨rfl, rfl⟩ : (op k).on p = r ∧ t0 = tab' := by cases ht; exact ⟨rfl, rfl⟩
  have hks : k < s p := J.lt _ hk
  have hkN : k < N := Nat.lt_of_lt_of_le hks J.le
  have hsrc := heads_inv I hm hp hk hv
  have hv2 := heads_some I hm hp hk hsrc
  have hvals : vals = (ex (op k).a (op k).g p).recvs.map fun y => (ex (op k).a (op k).g y.1).payload (mid y.1 k) (p, y.2) := Option.some.inj (hv.symm.trans hv2)
  obtain ⟨s'', hpo, hsM⟩ := post_ok I hrun hm hp hk hsrc
  have hs2 : (ex (op k).a (op k).g p).post ((c.st p).u ((op k).x p), (c.st p).buf ((op k).b p)) vals = .ok s' := hs
  rw [e4, hvals, hpo] at hs2
  obtain rfl : s'' = s' := by cases hs2; rfl
  obtain ⟨τ', J'⟩ := pinv_wait (hM p hp) J hk hh J1 hsM
  have hdone : ∀ q j, Done (s q) (Function.update o p ((o p).filter fun y => y.1 ≠ v) q) j ↔ Done (s q) (o q) j ∨ (q = p ∧ j = k) := by
    intro q j
    by_cases hq : q = p
    · subst hq; rw [Function.update_self, done_wait J.pair hk hks]; simp
    · rw [Function.update_of_ne hq]; simp [hq]
  constructor
  · intro q hq
    by_cases hqp : q = p
    · subst hqp
      simp only [Function.update_self]
      exact ⟨τ', J'⟩
    · simp only [Function.update_of_ne hqp]
      exact I.proc q hq
  · intro q hq j hj y hy
    rw [hdone] at hj
    rcases hj with hj | ⟨rfl, rfl⟩
    · exact I.recvd q hq j hj y hy
    · exact hsrc y hy
  · intro g a b t ha hb
    simp only [hdone]
    have hnd : ¬ Done (s p) (o p) k := fun hd => hd.2 _ hk rfl
    by_cases hbp : b = p
    · subst hbp
      by_cases hc : g = (op k).g ∧ (a, t) ∈ (ex (op k).a (op k).g b).recvs
      · obtain ⟨rfl, hc2⟩ := hc
        have hsnd := ((hm k hkN).recv b hp (a, t) hc2).2
        rw [if_pos ⟨rfl, rfl, hc2⟩, I.chan _ _ _ _ ha hb,
          filter_range_first _ (hsrc (a, t) hc2) ⟨rfl, hsnd, hnd⟩ (fun j hj hq => hq.2.2 (first_msg I hp hk hj hq.1))]
        simp only [List.map_cons, List.tail_cons]
        congr 1
        apply List.filter_congr
        intro j _
        rw [decide_eq_decide]
        simp only [true_and, not_or]
        tauto
      · rw [if_neg (fun hq => hc ⟨hq.1, hq.2.2⟩), I.chan _ _ _ _ ha hb]
        congr 1
        apply List.filter_congr
        intro j _
        rw [decide_eq_decide]
        simp only [true_and, not_or]
        constructor
        · rintro ⟨q1, q2, q3⟩
          refine ⟨q1, q2, q3, ?_⟩
          rintro rfl
          exact hc ⟨q1.symm, ((hm j hkN).send a ha (b, t) q2).2⟩
        · rintro ⟨q1, q2, q3, -⟩
          exact ⟨q1, q2, q3⟩
    · rw [if_neg (fun hq => hbp hq.2.1), I.chan _ _ _ _ ha hb]
      simp only [hbp, false_and, or_false]
end

end Gslib.Nb
