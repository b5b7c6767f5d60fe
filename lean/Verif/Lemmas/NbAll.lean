import Verif.Lemmas.NbRun
import Mathlib.Algebra.BigOperators.Group.List.Basic
import Mathlib.Data.List.GetD

/-! # Programs with nonblocking operations: all schedules -/

namespace Gslib.Nb
open Gslib Gslib.Mpi Gslib.Tab Gslib.Spec

variable {A U B W : Type}

section
variable {ex : A → Nat → Nat → Step (U × B) W} {np N : Nat} {op : Nat → Op A} {M : Nat → Nat → Nat → U}

theorem cinv_trans (hM : ∀ p, p < np → ∀ k, k < N → ∀ z, z ≠ (op k).x p → M (k + 1) p z = M k p z) (hN : N ≤ 1073741824)
    (hrun : ∀ k, k < N → ∀ b : Nat → B, ∃ d', OpRun np (ex (op k).a (op k).g) (fun q => (M k q ((op k).x q), b q)) d' ∧ ∀ q, q < np → (d' q).1 = M (k + 1) q ((op k).x q))
    (hm : ∀ k, k < N → OpMatched np (ex (op k).a (op k).g)) {c c' : Conf A U B W} (h : ∃ s o mid, CInv ex np N op M c s o mid) (ht : Trans ex np c c') :
    ∃ s o mid, CInv ex np N op M c' s o mid := by
  obtain ⟨s, o, mid, I⟩ := h
  cases ht with
  | igs p v r es h tab' s' hp hr ht hs => exact ⟨_, _, _, cinv_igs hM hN hm I hp hr ht hs⟩
  | wait p v r es h tab' vals s' hp hr hh ht hq hv hs => exact ⟨_, _, _, cinv_wait hM hrun hm I hp hr hh ht hv hs⟩
  | waitNone p v es tab' hp hr ht =>
    obtain ⟨τ, J⟩ := I.proc p hp
    rw [hr] at J
    obtain ⟨k, h0, t0, -, e1, e2, -⟩ := pinv_wait_rec J
    rw [e1, e2] at ht; cases ht

/-- a process that starts an operation can do so -/
theorem igs_moves (hN : N ≤ 1073741824)
    (hrun : ∀ k, k < N → ∀ b : Nat → B, ∃ d', OpRun np (ex (op k).a (op k).g) (fun q => (M k q ((op k).x q), b q)) d' ∧ ∀ q, q < np → (d' q).1 = M (k + 1) q ((op k).x q))
    {c : Conf A U B W} {s : Nat → Nat} {o : Nat → List (Nat × Nat)} {mid : Nat → Nat → U × B} (I : CInv ex np N op M c s o mid) {p v : Nat} {r : Rec A} {es : List (Ev A)} (hp : p < np)
    (hr : c.rest p = .igs v r :: es) : ∃ c', Trans ex np c c' := by
  obtain ⟨τ, J⟩ := I.proc p hp
  rw [hr] at J
  have hord := J.order
  rw [show started (Ev.igs v r :: es) = r :: started es from rfl] at hord
  obtain ⟨hsN, hrr, -⟩ := drop_range hord
  have hd1 : ∀ y ∈ o p, (op y.2).x p ≠ r.x := fun y hy => (J.disc.1 (y.1, (op y.2).on p) (List.mem_map.mpr ⟨y, hy, rfl⟩)).2.1
  obtain ⟨t1, e1, -⟩ := nbStart_inv J.tab r (by rw [J.num]; omega)
  have hu : (c.st p).u r.x = M (s p) p r.x := J.mem _ hd1
  obtain ⟨d', ⟨e, he⟩, -⟩ := hrun (s p) hsN (fun _ => (c.st p).buf r.b)
  have hpre := (he p hp).1
  have : (ex r.a r.g p).pre ((c.st p).u r.x, (c.st p).buf r.b) = .ok (e p) := by
    rw [hu, hrr]; rw [hrr] at hpre; exact hpre
  exact ⟨_, .igs c p v r es _ t1 (e p) hp hr e1 this⟩

theorem progress (hN : N ≤ 1073741824)
    (hrun : ∀ k, k < N → ∀ b : Nat → B, ∃ d', OpRun np (ex (op k).a (op k).g) (fun q => (M k q ((op k).x q), b q)) d' ∧ ∀ q, q < np → (d' q).1 = M (k + 1) q ((op k).x q))
    (hm : ∀ k, k < N → OpMatched np (ex (op k).a (op k).g)) {c : Conf A U B W} {s : Nat → Nat} {o : Nat → List (Nat × Nat)} {mid : Nat → Nat → U × B}
    (I : CInv ex np N op M c s o mid) (hnf : ¬ Finished np c) : (∃ c', Trans ex np c c') ∧ ∃ p, p < np ∧ ReadyStrict ex c p := by
  by_cases hst : ∃ p v r es, p < np ∧ c.rest p = .igs v r :: es
  · obtain ⟨p, v, r, es, hp, hr⟩ := hst
    exact ⟨igs_moves hN hrun I hp hr, p, hp, Or.inl ⟨v, r, es, hr⟩⟩
  · -- all unfinished processes wait; take the one that waits for the first operation
    have hw : ∀ p, p < np → c.rest p ≠ [] → ∃ v es k, c.rest p = .wait v :: es ∧ (v, k) ∈ o p := by
      intro p hp hne
      obtain ⟨τ, J⟩ := I.proc p hp
      rcases hc : c.rest p with _ | ⟨e, es⟩
      · exact absurd hc hne
      · rcases e with ⟨v, r⟩ | ⟨v⟩
        · exact absurd ⟨p, v, r, es, hp, hc⟩ hst
        · rw [hc] at J
          obtain ⟨k, -, -, hk, -⟩ := pinv_wait_rec J
          exact ⟨v, es, k, rfl, hk⟩
    have hex : ∃ k, ∃ p v es, p < np ∧ c.rest p = .wait v :: es ∧ (v, k) ∈ o p := by
      unfold Finished at hnf
      push Not at hnf
      obtain ⟨p, hp, hne⟩ := hnf
      obtain ⟨v, es, k, h1, h2⟩ := hw p hp hne
      exact ⟨k, p, v, es, hp, h1, h2⟩
    classical
    obtain ⟨p, v, es, hp, hr, hk⟩ := Nat.find_spec hex
    have hmin := fun j => Nat.find_min (m := j) hex
    generalize Nat.find hex = k at hr hk hmin
    obtain ⟨τ, J⟩ := I.proc p hp
    have hkN : k < N := Nat.lt_of_lt_of_le (J.lt _ hk) J.le
    rw [hr] at J
    have hall : ∀ q, q < np → k < s q := by
      intro q hq
      obtain ⟨τq, Jq⟩ := I.proc q hq
      by_cases hne : c.rest q = []
      · rw [hne] at Jq
        have h1 := Jq.order
        rw [show started ([] : List (Ev A)) = [] from rfl] at h1
        have h2 : N ≤ s q := by
          by_contra hc
          have : ((List.range N).drop (s q)) = [] := List.map_eq_nil_iff.mp h1.symm
          rw [List.drop_eq_nil_iff, List.length_range] at this
          omega
        omega
      · obtain ⟨v', es', k', h1, h2⟩ := hw q hq hne
        have h3 : ¬ k' < k := fun hlt => hmin k' hlt ⟨q, v', es', hq, h1, h2⟩
        have h4 : k' < s q := Jq.lt _ h2
        omega
    have hsrc : ∀ y ∈ (ex (op k).a (op k).g p).recvs, k < s y.1 := fun y hy => hall _ ((hm k hkN).recv p hp y hy).1
    have hheads := heads_some I hm hp hk hsrc
    obtain ⟨s', hpo, -⟩ := post_ok I hrun hm hp hk hsrc
    obtain ⟨k1, h, tab', hk1, e1, e2, e3, e4, -⟩ := pinv_wait_rec J
    obtain rfl : k = k1 := mem_unique J.pair hk hk1
    refine ⟨⟨_, .wait c p v ((op k).on p) es h tab' _ s' hp hr e1 e2 e3 hheads ?_⟩, p, hp, Or.inr ⟨v, es, (op k).on p, h, tab', hr, e1, e2, ⟨_, hheads⟩, ?_⟩⟩
    · show (ex (op k).a (op k).g p).post ((c.st p).u ((op k).x p), (c.st p).buf ((op k).b p)) _ = _
      rw [e4]; exact hpo
    · intro y hy
      have hy : y ∈ (ex (op k).a (op k).g p).sends := hy
      have hmt := (hm k hkN).send p hp y hy
      show c.chan (op k).g p y.1 y.2 = [] ∨ _
      obtain ⟨τy, Jy⟩ := I.proc y.1 hmt.1
      -- earlier operations of the handle are complete at the destination, later ones are not started here
      have hearly : ∀ j, j < k → (op j).g = (op k).g → Done (s y.1) (o y.1) j := by
        intro j hj hg
        have := hall y.1 hmt.1
        refine ⟨by omega, fun z hz e => ?_⟩
        subst e
        exact Jy.lastg z hz k this hj hg.symm
      have hlate : ∀ j, j < s p → (op j).g = (op k).g → j ≤ k := by
        intro j hj hg
        by_contra hc
        exact J.lastg _ hk j hj (by show k < j; omega) hg
      have hlist : c.chan (op k).g p y.1 y.2 = if Done (s y.1) (o y.1) k then [] else [(ex (op k).a (op k).g p).payload (mid p k) (y.1, y.2)] := by
        rw [I.chan _ _ _ _ hp hmt.1]
        split
        · rename_i hd
          rw [List.filter_eq_nil_iff.mpr]
          · rfl
          · intro j hj
            simp only [decide_eq_true_eq]
            rintro ⟨q1, -, q3⟩
            rcases Nat.lt_or_eq_of_le (hlate j (List.mem_range.mp hj) q1) with h | h
            · exact q3 (hearly j h q1)
            · rw [h] at q3; exact q3 hd
        · rename_i hd
          rw [filter_range_first _ (J.lt _ hk) ⟨rfl, hy, hd⟩ (fun j hj hq => hq.2.2 (hearly j hj hq.1)), List.filter_eq_nil_iff.mpr]
          · rfl
          · intro j hj
            simp only [decide_eq_true_eq]
            rintro ⟨⟨q1, -, q3⟩, q4⟩
            have := hlate j (List.mem_range.mp hj) q1
            exact q3 (hearly j (by omega) q1)
      by_cases hd : Done (s y.1) (o y.1) k
      · exact Or.inl (by rw [hlist, if_pos hd])
      · refine Or.inr ⟨by show (c.chan (op k).g p y.1 y.2).length = 1; rw [hlist, if_neg hd]; rfl, ?_⟩
        obtain ⟨z, hz, hzk⟩ : ∃ z ∈ o y.1, z.2 = k := by
          by_contra hc
          push Not at hc
          exact hd ⟨hall _ hmt.1, hc⟩
        obtain ⟨h', -, g2, g3, -⟩ := Jy.out z hz
        obtain ⟨t'', g4, -⟩ := nbWait_inv Jy.tab g2
        rw [hzk] at g3 g4
        exact ⟨h', (op k).on y.1, t'', g3, g4, rfl, hmt.2⟩

/-- calls left -/
def work (P : Nat) (c : Conf A U B W) : Nat := ((List.range P).map fun p => (c.rest p).length).sum

theorem work_lt {P : Nat} {f : Nat → List (Ev A)} {p : Nat} (hp : p < P) {e : Ev A} {es : List (Ev A)} (h : f p = e :: es) :
    ((List.range P).map fun q => (Function.update f p es q).length).sum < ((List.range P).map fun q => (f q).length).sum := by
  apply List.sum_lt_sum
  · intro q _
    by_cases hq : q = p
    · subst hq; rw [Function.update_self, h]; simp
    · rw [Function.update_of_ne hq]
  · exact ⟨p, List.mem_range.mpr hp, by rw [Function.update_self, h]; simp⟩

theorem work_decreases {P : Nat} {c c' : Conf A U B W} (h : Trans ex P c c') : work P c' < work P c := by
  cases h with
  | igs p v r es h tab' s' hp hr ht hs => exact work_lt hp hr
  | wait p v r es h tab' vals s' hp hr hh ht hq hv hs => exact work_lt hp hr
  | waitNone p v es tab' hp hr ht => exact work_lt hp hr
end

theorem oneByOne_append (eff : Op A → (Nat → U) → Nat → U) (l : List (Op A)) (o : Op A) (m : Nat → Nat → U) :
    oneByOne eff (l ++ [o]) m = fun p => Function.update (oneByOne eff l m p) (o.x p) (eff o (fun q => oneByOne eff l m q (o.x q)) p) := by
  induction l generalizing m with
  | nil => rfl
  | cons a l ih => simp only [List.cons_append, oneByOne]; rw [ih]

/-- every schedule of a disciplined program with nonblocking operations gives the result of doing the operations one after the other -/
theorem nb_all [Inhabited A] {ex : A → Nat → Nat → Step (U × B) W} {np : Nat} {ops : List (Op A)} {prog : Nat → List (Ev A)} (hp : NbProgram np ops prog)
    (hN : ops.length ≤ 1073741824) (u0 : Nat → Nat → U) (b0 : Nat → Nat → B) (eff : Op A → (Nat → U) → Nat → U)
    (hm : ∀ o ∈ ops, OpMatched np (ex o.a o.g))
    (hrun : ∀ l o l', ops = l ++ o :: l' → ∀ b : Nat → B, ∃ d', OpRun np (ex o.a o.g) (fun q => (oneByOne eff l u0 q (o.x q), b q)) d' ∧
      ∀ q, q < np → (d' q).1 = eff o (fun q => oneByOne eff l u0 q (o.x q)) q) :
    AllNbSchedules ex np prog u0 b0 fun u => ∀ p, p < np → u p = oneByOne eff ops u0 p := by
  let op : Nat → Op A := fun k => ops.getD k ⟨default, 0, fun _ => 0, fun _ => 0⟩
  let M : Nat → Nat → Nat → U := fun k => oneByOne eff (ops.take k) u0
  let N := ops.length
  have hop : ∀ k, k < N → ops[k]? = some (op k) := by
    intro k hk
    have : op k = ops[k] := List.getD_eq_getElem ops _ hk
    rw [this, List.getElem?_eq_getElem hk]
  have htake : ∀ k, k < N → ops.take (k + 1) = ops.take k ++ [op k] := by
    intro k hk
    rw [List.take_add_one, hop k hk]; rfl
  have hMs : ∀ k, k < N → M (k + 1) = fun p => Function.update (M k p) ((op k).x p) (eff (op k) (fun q => M k q ((op k).x q)) p) := by
    intro k hk
    show oneByOne eff (ops.take (k + 1)) u0 = _
    rw [htake k hk, oneByOne_append]
  have hM : ∀ p, p < np → ∀ k, k < N → ∀ z, z ≠ (op k).x p → M (k + 1) p z = M k p z := by
    intro p _ k hk z hz
    rw [hMs k hk]; exact Function.update_of_ne hz _ _
  have hm' : ∀ k, k < N → OpMatched np (ex (op k).a (op k).g) := fun k hk => hm _ (List.mem_of_getElem? (hop k hk))
  have hrun' : ∀ k, k < N → ∀ b : Nat → B, ∃ d', OpRun np (ex (op k).a (op k).g) (fun q => (M k q ((op k).x q), b q)) d' ∧ ∀ q, q < np → (d' q).1 = M (k + 1) q ((op k).x q) := by
    intro k hk b
    have hsplit : ops = ops.take k ++ op k :: ops.drop (k + 1) := by
      have h1 : ops.drop k = op k :: ops.drop (k + 1) := by
        rw [List.drop_eq_getElem_cons hk]
        congr 1
        exact (List.getD_eq_getElem ops _ hk).symm
      rw [← h1, List.take_append_drop]
    obtain ⟨d', h1, h2⟩ := hrun _ _ _ hsplit b
    refine ⟨d', h1, fun q hq => ?_⟩
    rw [h2 q hq, hMs k hk]
    exact (Function.update_self (f := M k q) ((op k).x q) (eff (op k) (fun q => M k q ((op k).x q)) q)).symm
  have hmap : ∀ p, (ops.map fun o => o.on p) = (List.range N).map fun k => (op k).on p := by
    intro p
    apply List.ext_getElem?
    intro i
    rw [List.getElem?_map, List.getElem?_map]
    rcases Nat.lt_or_ge i N with h | h
    · rw [hop i h, List.getElem?_range h]; rfl
    · rw [List.getElem?_eq_none h, List.getElem?_eq_none (by simpa using h)]; rfl
  have hstart : ∃ s o mid, CInv ex np N op M (start prog u0 b0) s o mid := by
    refine ⟨fun _ => 0, fun _ => [], fun p _ => (u0 p 0, b0 p 0), ?_, ?_, ?_⟩
    · intro p hpp
      refine ⟨[], ?_⟩
      refine { le := Nat.zero_le _, order := ?_, disc := hp.disciplined p hpp, pair := List.Pairwise.nil, lt := ?_, lastg := ?_, lastx := ?_, lastb := ?_, mids := ?_, out := ?_, only := ?_, mem := ?_, tab := ?_, num := rfl }
      · show started (prog p) = _
        rw [hp.order p hpp, hmap]; rfl
      · intro y hy; cases hy
      · intro y hy; cases hy
      · intro y hy; cases hy
      · intro y hy; cases hy
      · intro k hk; omega
      · intro y hy; cases hy
      · intro h r hl; simp [Live, inUse] at hl
      · intro z _; rfl
      · exact NbHist.inv .init (Nat.zero_le _)
    · intro p _ k hk
      exact absurd hk.1 (by omega)
    · intro g a b t _ _
      rfl
  have hreach : ∀ c, Reach ex np (start prog u0 b0) c → ∃ s o mid, CInv ex np N op M c s o mid := by
    intro c hc
    induction hc with
    | refl => exact hstart
    | step _ ht ih => exact cinv_trans hM hN hrun' hm' ih ht
  refine ⟨?_, ?_, ?_⟩
  · rintro ⟨f, -, hf⟩
    have : ∀ i, work np (f i) + i ≤ work np (f 0) := by
      intro i
      induction i with
      | zero => omega
      | succ i ih => have := work_decreases (hf i); omega
    have := this (work np (f 0) + 1)
    omega
  · intro c hc hnf
    obtain ⟨s, o, mid, I⟩ := hreach c hc
    exact progress hN hrun' hm' I hnf
  · intro c hc hfin
    obtain ⟨s, o, mid, I⟩ := hreach c hc
    have hend : ∀ p, p < np → o p = [] ∧ s p = N := by
      intro p hpp
      obtain ⟨τ, J⟩ := I.proc p hpp
      rw [hfin p hpp] at J
      refine ⟨List.map_eq_nil_iff.mp J.disc, ?_⟩
      have h1 := J.order
      rw [show started ([] : List (Ev A)) = [] from rfl] at h1
      have : ((List.range N).drop (s p)) = [] := List.map_eq_nil_iff.mp h1.symm
      rw [List.drop_eq_nil_iff, List.length_range] at this
      have := J.le
      omega
    refine ⟨?_, ?_, ?_⟩
    · intro p hpp
      obtain ⟨τ, J⟩ := I.proc p hpp
      obtain ⟨h1, h2⟩ := hend p hpp
      funext z
      show (c.st p).u z = _
      rw [J.mem z (by rw [h1]; intro y hy; cases hy), h2]
      show oneByOne eff (ops.take ops.length) u0 p z = _
      rw [List.take_length]
    · intro g a b t ha hb
      rw [I.chan g a b t ha hb, List.filter_eq_nil_iff.mpr]
      · rfl
      · intro k hk
        simp only [decide_eq_true_eq]
        rintro ⟨-, -, h3⟩
        apply h3
        have hk := List.mem_range.mp hk
        rw [(hend a ha).2] at hk
        exact ⟨by rw [(hend b hb).2]; exact hk, by rw [(hend b hb).1]; intro y hy; cases hy⟩
    · intro p hpp
      obtain ⟨τ, J⟩ := I.proc p hpp
      have ho : objs (c.st p).tab.tab = 0 := by
        rcases Nat.eq_zero_or_pos (objs (c.st p).tab.tab) with h | h
        · exact h
        · obtain ⟨x, hx, hx2⟩ := List.countP_pos_iff.mp h
          obtain ⟨i, hi⟩ := List.mem_iff_getElem?.mp hx
          rcases x with _ | _ | r
          · cases hx2
          · cases hx2
          · obtain ⟨y, hy, -⟩ := J.only i r ((J.tab.live i r).mpr hi)
            rw [(hend p hpp).1] at hy; cases hy
      have hc0 : (c.st p).tab.count = 0 := by rw [J.tab.count, ho]; rfl
      have ht := J.tab.zero hc0
      rcases htt : (c.st p).tab with ⟨tt, cc⟩
      rw [htt] at hc0 ht
      have hc0 : cc = 0 := hc0
      have ht : tt = Tab.empty := ht
      rw [hc0, ht]; rfl

end Gslib.Nb
