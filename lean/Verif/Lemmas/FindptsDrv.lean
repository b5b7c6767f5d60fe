import Verif.Spec.FindptsDrv
import Verif.Lemmas.NumMem
import Verif.Lemmas.Radix

/-!
# The driver of the point search: lemmas
-/

namespace Gslib.El
open Gslib.Num Gslib.Spec
open Gslib.Radix (buckets start buckets_getElem buckets_cover buckets_length buckets_mem_lt start_all start_succ filter_at countP_take_succ)

variable {K F A : Type} {D : Nat}

theorem readMany_run (cap : Nat) (m : Mem A) : ∀ (l : List A) (o : Nat), (∀ j, j < l.length → m (o + j) = l[j]?) → o + l.length ≤ cap → readMany cap m o l.length = some l
  | [], _, _, _ => rfl
  | a :: l, o, h, hc => by
    have h0 := h 0 (by simp)
    simp only [List.length_cons, Nat.add_zero, List.getElem?_cons_zero] at h0 hc ⊢
    have h1 := readMany_run cap m l (o + 1) (fun j hj => by
      have := h (j + 1) (by simpa using hj)
      rw [List.getElem?_cons_succ] at this; rw [← this]; congr 1; omega) (by omega)
    rw [readMany, Num.rd, if_pos (by omega), h0, h1]; rfl

theorem storeMany_run (cap : Nat) : ∀ (l : List A) (o : Nat) (m : Mem A), o + l.length ≤ cap →
    ∃ m', storeMany cap o l m = some m' ∧ (∀ j, j < l.length → m' (o + j) = l[j]?) ∧ ∀ k, (k < o ∨ o + l.length ≤ k) → m' k = m k
  | [], _, m, _ => ⟨m, rfl, fun j hj => absurd hj (by simp), fun _ _ => rfl⟩
  | a :: l, o, m, hc => by
    simp only [List.length_cons] at hc ⊢
    obtain ⟨m', e, h1, h2⟩ := storeMany_run cap l (o + 1) (fun k => if k = o then some a else m k) (by omega)
    refine ⟨m', ?_, ?_, ?_⟩
    · rw [storeMany, Num.wr, if_pos (by omega)]; exact e
    · intro j hj
      cases j with
      | zero => rw [h2 _ (by omega)]; simp
      | succ j => rw [show o + (j + 1) = o + 1 + j by omega, h1 j (by omega)]; simp
    · intro k hk
      rw [h2 k (by omega), if_neg (by omega)]

/-- the conditions on the flag functions: `valid` flags are those that occur, `conv` says that the converged bit is set -/
structure Drv.Ok (v : Drv) (valid : U32 → Prop) (conv : U32 → Bool) : Prop where
  noC : ∀ f, valid f → conv f = false → v.noC f = v.bin f
  lt : ∀ f, valid f → conv f = false → (v.bin f).toNat < v.nb
  eq : ∀ f, valid f → conv f = true → (v.bin f).toNat = v.nb
  inj : ∀ f g, valid f → valid g → conv f = false → conv g = false → v.bin f = v.bin g → f = g

section
variable (v : Drv) (valid : U32 → Prop) (conv : U32 → Bool) (hv : v.Ok valid conv)
variable (f : Nat → F → List (Pt K D) → Option (F × List (Pt K D))) (Inv : F → Prop) (nx : Pt K D → Pt K D) (Good : Pt K D → Prop)

/-- what a group function must do: the same as the function `nx` on each point -/
def FunOk (npt : Nat) : Prop := ∀ fd g ps, Inv fd → ps ≠ [] → ps.length ≤ npt → (∀ p ∈ ps, Good p ∧ p.flags &&& v.mask = g ∧ conv g = false) → ∃ fd', f (v.num g).toNat fd ps = some (fd', ps.map nx) ∧ Inv fd'

include hv in
theorem advance_run (cap npt : Nat) (hf : FunOk v conv f Inv nx Good npt) (hgv : ∀ p, Good p → valid (p.flags &&& v.mask)) (U : List (Pt K D)) (count : Mem Nat)
    (hU : ∀ p ∈ buckets v.binOf U v.nb, Good p) (hcount : ∀ b, b < v.nb → count b = some (U.countP fun p => decide (v.binOf p = b)))
    (hn : start v.binOf U v.nb ≤ npt) (hcap : npt + npt ≤ cap) :
    ∀ (c b : Nat), b + c = v.nb → ∀ (fuel : Nat) (s : F × Mem (Pt K D)), start v.binOf U v.nb - start v.binOf U b ≤ fuel → Inv s.1 →
      (∀ k, k < start v.binOf U v.nb → s.2 (npt + k) = (buckets v.binOf U v.nb)[k]?) →
      (∀ k, k < start v.binOf U b → s.2 k = ((buckets v.binOf U v.nb).map nx)[k]?) →
      ∃ s', advance v cap npt f count (start v.binOf U v.nb) fuel (start v.binOf U b) s = some s' ∧ Inv s'.1 ∧
        (∀ k, k < start v.binOf U v.nb → s'.2 k = ((buckets v.binOf U v.nb).map nx)[k]?) ∧ ∀ k, npt ≤ k → s'.2 k = s.2 k := by
  intro c
  induction c with
  | zero =>
    intro b hb fuel s _ hi _ hout
    have : b = v.nb := by omega
    subst this
    refine ⟨s, ?_, hi, hout, fun _ _ => rfl⟩
    cases fuel <;> simp [advance]
  | succ c ih =>
    intro b hb fuel s hfuel hi hin hout
    have hss := start_succ v.binOf U b
    by_cases hz : (U.countP fun p => decide (v.binOf p = b)) = 0
    · have e : start v.binOf U (b + 1) = start v.binOf U b := by rw [hss, hz]; rfl
      have := ih (b + 1) (by omega) fuel s (by rw [e]; exact hfuel) hi hin (by rw [e]; exact hout)
      rwa [e] at this
    · set pn := U.countP fun p => decide (v.binOf p = b) with hpn
      set G := buckets v.binOf U v.nb with hG
      have hmono : start v.binOf U (b + 1) ≤ start v.binOf U v.nb := by
        unfold start
        apply List.countP_mono_left
        intro x _ hx
        simp at hx ⊢; omega
      have hGl : G.length = start v.binOf U v.nb := by rw [hG, buckets_length]
      have hlt : start v.binOf U b < start v.binOf U v.nb := by omega
      obtain ⟨fuel, rfl⟩ : ∃ f', fuel = f' + 1 := ⟨fuel - 1, by omega⟩
      set gl := U.filter (fun p => decide (v.binOf p = b)) with hgl
      have hgll : gl.length = pn := by rw [hgl, hpn, List.countP_eq_length_filter]
      have hget : ∀ j, j < gl.length → G[start v.binOf U b + j]? = gl[j]? := by
        intro j hj
        exact buckets_getElem v.binOf U v.nb b j (by omega) (by rw [← hpn, ← hgll]; exact hj)
      obtain ⟨p, hp⟩ : ∃ p, gl[0]? = some p := ⟨_, List.getElem?_eq_getElem (by omega)⟩
      have hpg : p ∈ gl := List.mem_of_getElem? hp
      have hbin : v.binOf p = b := by have := (List.mem_filter.1 hpg).2; simpa using this
      have hpG : p ∈ G := List.mem_of_getElem? (by rw [hget 0 (by omega)]; exact hp)
      have hmemG : ∀ q ∈ gl, q ∈ G := by
        intro q hq
        obtain ⟨j, hj, e⟩ := List.getElem_of_mem hq
        exact List.mem_of_getElem? (i := start v.binOf U b + j) (by rw [hget j hj, List.getElem?_eq_getElem hj, e])
      have hunc : ∀ q ∈ G, conv (q.flags &&& v.mask) = false := by
        intro q hq
        have h1 := buckets_mem_lt v.binOf U v.nb q hq
        by_contra h
        have := hv.eq _ (hgv q (hU q hq)) (by simpa using h)
        unfold Drv.binOf at h1; omega
      have hno : (v.noC (p.flags &&& v.mask)).toNat = b := by
        rw [hv.noC _ (hgv p (hU p hpG)) (hunc p hpG)]; exact hbin
      have hsame : ∀ q ∈ gl, q.flags &&& v.mask = p.flags &&& v.mask := by
        intro q hq
        have hqb : v.binOf q = b := by have := (List.mem_filter.1 hq).2; simpa using this
        refine hv.inj _ _ (hgv q (hU q (hmemG q hq))) (hgv p (hU p hpG)) (hunc q (hmemG q hq)) (hunc p hpG) ?_
        apply BitVec.eq_of_toNat_eq
        exact hqb.trans hbin.symm
      have hrp : Num.rd cap s.2 (npt + start v.binOf U b) = some p := by
        rw [Num.rd, if_pos (by omega), hin _ hlt]
        have := hget 0 (by omega); rw [Nat.add_zero] at this; rw [this, hp]
      have hrc : Num.rd v.nb count (v.noC (p.flags &&& v.mask)).toNat = some pn := by
        rw [hno, Num.rd, if_pos (by omega), hcount b (by omega)]
      have hrm : readMany cap s.2 (npt + start v.binOf U b) pn = some gl := by
        rw [← hgll]
        apply readMany_run
        · intro j hj
          rw [Nat.add_assoc, hin _ (by omega), hget j hj]
        · omega
      obtain ⟨fd', ef, hi'⟩ := hf s.1 (p.flags &&& v.mask) gl hi (List.ne_nil_of_length_pos (by omega)) (by omega)
        (fun q hq => ⟨hU q (hmemG q hq), hsame q hq, hunc p hpG⟩)
      obtain ⟨m', es, hs1, hs2⟩ := storeMany_run cap (gl.map nx) (start v.binOf U b) s.2 (by rw [List.length_map]; omega)
      rw [List.length_map] at hs1 hs2
      have hk : start v.binOf U b + pn = start v.binOf U (b + 1) := by omega
      obtain ⟨s', e', hi2, ho2, hk2⟩ := ih (b + 1) (by omega) fuel (fd', m') (by omega) hi'
        (fun k hk' => by dsimp only; rw [hs2 _ (by omega), hin k hk'])
        (fun k hk' => by
          dsimp only
          by_cases h : k < start v.binOf U b
          · rw [hs2 _ (by omega), hout k h]
          · obtain ⟨j, rfl⟩ : ∃ j, k = start v.binOf U b + j := ⟨k - start v.binOf U b, by omega⟩
            rw [hs1 j (by omega), List.getElem?_map, List.getElem?_map, hget j (by omega)])
      refine ⟨s', ?_, hi2, ho2, fun k hk' => ?_⟩
      · rw [advance, if_neg (by omega), hrp, Option.bind_some, hrc, Option.bind_some, hrm, Option.bind_some, ef, Option.bind_some]
        dsimp only
        rw [es, Option.bind_some, hk]
        exact e'
      · rw [hk2 k hk']; exact hs2 k (by omega)

end

theorem tally_run (v : Drv) (cap : Nat) (O : List (Pt K D)) (m : Mem (Pt K D)) (hm : ∀ k, k < O.length → m k = O[k]?) (hc : O.length ≤ cap) (hO : ∀ p ∈ O, v.binOf p ≤ v.nb) :
    ∃ off, tally v cap O.length m = some off ∧ ∀ b, b ≤ v.nb → off b = some (O.countP fun p => decide (v.binOf p = b)) := by
  unfold tally
  obtain ⟨s', e, h⟩ := forUp_inv (S := Mem Nat) (fun k off => ∀ b, b ≤ v.nb → off b = some ((O.take k).countP fun p => decide (v.binOf p = b)))
    (fun k off => (Num.rd cap m k).bind fun p => (Num.rd (v.nb + 1) off (v.binOf p)).bind fun c => Num.wr (v.nb + 1) off (v.binOf p) (c + 1)) O.length 0
    (fun i => if i < v.nb + 1 then some 0 else none) (by intro b hb; simp; omega)
    (by
      intro k _ hk s hs
      rw [Nat.zero_add] at hk
      have hb := hO _ (List.getElem_mem hk)
      refine ⟨fun j => if j = v.binOf O[k] then some ((O.take k).countP (fun p => decide (v.binOf p = v.binOf O[k])) + 1) else s j, ?_, ?_⟩
      · rw [Num.rd, if_pos (by omega), hm k hk, List.getElem?_eq_getElem hk, Option.bind_some, Num.rd, if_pos (by omega), hs _ hb, Option.bind_some, Num.wr, if_pos (by omega)]
      · intro b hb'
        beta_reduce
        rw [countP_take_succ _ O k hk]
        by_cases h : b = v.binOf O[k]
        · subst h; simp
        · rw [if_neg h, hs b hb']; have : ¬ v.binOf O[k] = b := fun e => h e.symm; simp [this])
  refine ⟨s', e, fun b hb => ?_⟩
  have := h b hb
  rwa [Nat.zero_add, List.take_of_length_le (le_refl _)] at this

theorem sums_run (v : Drv) (O : List (Pt K D)) (count off : Mem Nat) (h : ∀ b, b ≤ v.nb → off b = some (O.countP fun p => decide (v.binOf p = b))) :
    ∃ c o, sums v count off = some (c, o, start v.binOf O v.nb) ∧ (∀ b, b < v.nb → c b = some (O.countP fun p => decide (v.binOf p = b))) ∧
      ∀ b, b ≤ v.nb → o b = some (start v.binOf O b) := by
  unfold sums
  obtain ⟨s', e, h1, h2, h3, h4⟩ := forUp_inv (S := Mem Nat × Mem Nat × Nat) (fun i s => (∀ b, b < i → s.1 b = some (O.countP fun p => decide (v.binOf p = b))) ∧
      (∀ b, b < i → s.2.1 b = some (start v.binOf O b)) ∧ (∀ b, i ≤ b → s.2.1 b = off b) ∧ s.2.2 = start v.binOf O i)
    (fun i (s : Mem Nat × Mem Nat × Nat) => (Num.rd (v.nb + 1) s.2.1 i).bind fun ci => (Num.wr v.nb s.1 i ci).bind fun count =>
    (Num.wr (v.nb + 1) s.2.1 i s.2.2).map fun off => (count, off, s.2.2 + ci)) v.nb 0 (count, off, 0)
    ⟨fun b hb => absurd hb (by omega), fun b hb => absurd hb (by omega), fun _ _ => rfl, by simp [start]⟩
    (by
      rintro i _ hi ⟨c, o, sm⟩ ⟨h1, h2, h3, h4⟩
      dsimp only at h1 h2 h3 h4 ⊢
      rw [Nat.zero_add] at hi
      refine ⟨(fun k => if k = i then some (O.countP fun p => decide (v.binOf p = i)) else c k, fun k => if k = i then some sm else o k, sm + O.countP fun p => decide (v.binOf p = i)), ?_, ?_, ?_, ?_, ?_⟩
      · rw [Num.rd, if_pos (by omega), h3 i (le_refl _), h i (by omega), Option.bind_some, Num.wr, if_pos hi, Option.bind_some, Num.wr, if_pos (by omega)]; rfl
      · intro b hb
        dsimp only
        by_cases hbi : b = i
        · subst hbi; simp
        · rw [if_neg hbi]; exact h1 b (by omega)
      · intro b hb
        dsimp only
        by_cases hbi : b = i
        · subst hbi; simp [h4]
        · rw [if_neg hbi]; exact h2 b (by omega)
      · intro b hb
        dsimp only
        rw [if_neg (by omega)]; exact h3 b (by omega)
      · dsimp only; rw [start_succ, h4])
  rw [Nat.zero_add] at h1 h2 h3 h4
  refine ⟨s'.1, fun k => if k = v.nb then some s'.2.2 else s'.2.1 k, ?_, h1, ?_⟩
  · rw [e, Option.bind_some, Num.wr, if_pos (by omega), h4]; rfl
  · intro b hb
    beta_reduce
    by_cases hbi : b = v.nb
    · subst hbi; rw [if_pos rfl, h4]
    · rw [if_neg hbi]; exact h2 b (by omega)

theorem place_run (v : Drv) (cap npt : Nat) (O : List (Pt K D)) (m : Mem (Pt K D)) (off : Mem Nat) (hm : ∀ k, k < O.length → m k = O[k]?) (hn : O.length ≤ npt) (hc : npt + npt ≤ cap)
    (hO : ∀ p ∈ O, v.binOf p ≤ v.nb) (hoff : ∀ b, b ≤ v.nb → off b = some (start v.binOf O b)) :
    ∃ o' m', place v cap npt O.length off m = some (o', m') ∧ (∀ k, k < O.length → m' (npt + k) = (buckets v.binOf O (v.nb + 1))[k]?) ∧
      (∀ k, k < npt → m' k = m k) ∧ ∀ k, npt + O.length ≤ k → m' k = m k := by
  unfold place
  obtain ⟨s', e, h1, h2, h3, h4⟩ := forUp_inv (S := Mem Nat × Mem (Pt K D)) (fun i s =>
      (∀ b, b ≤ v.nb → s.1 b = some (start v.binOf O b + (O.take i).countP fun p => decide (v.binOf p = b))) ∧
      (∀ b j, b ≤ v.nb → j < ((O.take i).countP fun p => decide (v.binOf p = b)) → s.2 (npt + (start v.binOf O b + j)) = (buckets v.binOf O (v.nb + 1))[start v.binOf O b + j]?) ∧
      (∀ k, k < npt → s.2 k = m k) ∧ ∀ k, npt + O.length ≤ k → s.2 k = m k)
    (fun k (s : Mem Nat × Mem (Pt K D)) => (Num.rd cap s.2 k).bind fun p => (Num.rd (v.nb + 1) s.1 (v.binOf p)).bind fun o =>
    (Num.wr (v.nb + 1) s.1 (v.binOf p) (o + 1)).bind fun off => (Num.wr cap s.2 (npt + o) p).map fun m => (off, m)) O.length 0 (off, m)
    ⟨fun b hb => by simpa using hoff b hb, fun b j _ hj => by simp at hj, fun _ _ => rfl, fun _ _ => rfl⟩
    (by
      rintro i _ hi ⟨o, mm⟩ ⟨h1, h2, h3, h4⟩
      dsimp only at h1 h2 h3 h4 ⊢
      rw [Nat.zero_add] at hi
      have hb := hO _ (List.getElem_mem hi)
      set p := O[i] with hp
      set st := start v.binOf O (v.binOf p) + (O.take i).countP (fun q => decide (v.binOf q = v.binOf p)) with hst
      have hcnt : (O.take i).countP (fun x => decide (v.binOf x = v.binOf p)) < O.countP (fun x => decide (v.binOf x = v.binOf p)) := by
        have h1 := countP_take_succ (fun x => decide (v.binOf x = v.binOf p)) O i hi
        have h2 : (O.take (i + 1)).countP (fun x => decide (v.binOf x = v.binOf p)) ≤ O.countP (fun x => decide (v.binOf x = v.binOf p)) :=
          (List.take_sublist _ _).countP_le
        simp [← hp] at h1
        omega
      have hS : (buckets v.binOf O (v.nb + 1))[st]? = some p := by
        rw [hst, buckets_getElem v.binOf O (v.nb + 1) _ _ (by omega) hcnt]
        exact filter_at _ O i hi (by simp [hp])
      have hlt : st < O.length := by
        have := (List.getElem?_eq_some_iff.1 hS).1
        rw [buckets_length, start_all v.binOf O _ (fun x hx => by have := hO x hx; omega)] at this; exact this
      refine ⟨(fun k => if k = v.binOf p then some (st + 1) else o k, fun k => if k = npt + st then some p else mm k), ?_, ?_, ?_, ?_, ?_⟩
      · rw [Num.rd, if_pos (by omega), h3 i (by omega), hm i hi, List.getElem?_eq_getElem hi, ← hp, Option.bind_some, Num.rd, if_pos (by omega), h1 _ hb, Option.bind_some, Num.wr,
          if_pos (by omega), Option.bind_some, Num.wr, if_pos (by omega)]; rfl
      · intro b hb'
        dsimp only
        rw [countP_take_succ _ O i hi, ← hp]
        by_cases h : b = v.binOf p
        · subst h; simp [hst]; omega
        · rw [if_neg h, h1 b hb']; have : ¬ v.binOf p = b := fun e => h e.symm; simp [this]
      · intro b j hb' hj
        dsimp only
        by_cases hpos : npt + (start v.binOf O b + j) = npt + st
        · rw [if_pos hpos, show start v.binOf O b + j = st by omega, hS]
        · rw [if_neg hpos]
          apply h2 b j hb'
          rw [countP_take_succ _ O i hi, ← hp] at hj
          by_cases h : b = v.binOf p
          · subst h; simp at hj; omega
          · have : ¬ v.binOf p = b := fun e => h e.symm
            simpa [this] using hj
      · intro k hk; dsimp only; rw [if_neg (by omega)]; exact h3 k hk
      · intro k hk; dsimp only; rw [if_neg (by omega)]; exact h4 k hk)
  rw [Nat.zero_add, List.take_of_length_le (le_refl _)] at h1 h2
  refine ⟨s'.1, s'.2, e, ?_, h3, h4⟩
  intro k hk
  have hk' : k < start v.binOf O (v.nb + 1) := by rw [start_all v.binOf O _ (fun x hx => by have := hO x hx; omega)]; exact hk
  obtain ⟨b, j, hb, hj, rfl⟩ := buckets_cover v.binOf O _ k hk'
  exact h2 b j (by omega) hj

theorem iter_conv {P : Type} (conv : P → Bool) (nx : P → P) (n : Nat) (p : P) (h : conv p = true) : iter conv nx n p = p := by
  cases n <;> simp [iter, h]

theorem iter_succ {P : Type} (conv : P → Bool) (nx : P → P) : ∀ (n : Nat) (p : P), iter conv nx (n + 1) p = (if conv (iter conv nx n p) then iter conv nx n p else nx (iter conv nx n p))
  | 0, p => rfl
  | n + 1, p => by
    by_cases h : conv p = true
    · rw [iter_conv _ _ _ _ h, iter_conv _ _ _ _ h, if_pos h]
    · rw [iter, if_neg h, iter_succ conv nx n (nx p)]
      conv_rhs => rw [iter, if_neg h]

section
variable (v : Drv) (valid : U32 → Prop) (conv : U32 → Bool) (hv : v.Ok valid conv)
variable (f : Nat → F → List (Pt K D) → Option (F × List (Pt K D))) (Inv : F → Prop) (nx : Pt K D → Pt K D) (Good : Pt K D → Prop)

/-- what the main loop maintains after `t` rounds, `q t i` being the state of point `i` -/
structure LoopInv (cap npt : Nat) (q : Nat → Pt K D) (s : DrvSt K F D) : Prop where
  fd : Inv s.fd
  data : ∃ U C : List (Pt K D), s.nconv = start v.binOf U v.nb ∧ (∀ b, b < v.nb → s.count b = some (U.countP fun p => decide (v.binOf p = b))) ∧
    (∀ k, k < npt → s.m (npt + k) = (buckets v.binOf U v.nb ++ C)[k]?) ∧ (buckets v.binOf U v.nb ++ C).Perm ((List.range npt).map q) ∧
    (∀ p ∈ buckets v.binOf U v.nb, Good p) ∧ ∀ p ∈ C, conv (p.flags &&& v.mask) = true

variable {v valid conv f Inv nx Good}

include hv in
theorem drvBody_run (cap npt : Nat) (hf : FunOk v conv f Inv nx Good npt) (hgv : ∀ p, Good p → valid (p.flags &&& v.mask)) (hnx : ∀ p, Good p → conv (p.flags &&& v.mask) = false → Good (nx p))
    (hcap : npt + npt ≤ cap) (q : Nat → Pt K D) (s : DrvSt K F D) (h : LoopInv v conv Inv Good cap npt q s) :
    ∃ s', drvBody v cap npt f s = some s' ∧ LoopInv v conv Inv Good cap npt (fun i => if conv ((q i).flags &&& v.mask) then q i else nx (q i)) s' := by
  obtain ⟨fd, m, count, nconv⟩ := s
  obtain ⟨hfd, U, C, hn, hcnt, hm, hperm, hgood, hC⟩ := h
  dsimp only at hfd hn hcnt hm
  subst hn
  set G := buckets v.binOf U v.nb with hG
  have hGl : G.length = start v.binOf U v.nb := by rw [hG, buckets_length]
  have hlen : G.length + C.length = npt := by rw [← List.length_append, hperm.length_eq]; simp
  have hunc : ∀ p ∈ G, conv (p.flags &&& v.mask) = false := by
    intro p hp
    have h1 := buckets_mem_lt v.binOf U v.nb p hp
    by_contra h
    have := hv.eq _ (hgv p (hgood p hp)) (by simpa using h)
    unfold Drv.binOf at h1; omega
  obtain ⟨s1, e1, i1, o1, k1⟩ := advance_run v valid conv hv f Inv nx Good cap npt hf hgv U count hgood hcnt (by omega) hcap v.nb 0 (by omega) (start v.binOf U v.nb) (fd, m)
    (by omega) hfd (fun k hk => by dsimp only; rw [hm k (by omega), List.getElem?_append_left (by omega)])
    (fun k hk => by simp [start] at hk)
  rw [show start v.binOf U 0 = 0 by simp [start]] at e1
  set O := G.map nx with hO
  have hOl : O.length = start v.binOf U v.nb := by rw [hO, List.length_map, hGl]
  have hgO : ∀ p ∈ O, Good p := by
    intro p hp
    obtain ⟨p', hp', rfl⟩ := List.mem_map.1 hp
    exact hnx p' (hgood p' hp') (hunc p' hp')
  have hOb : ∀ p ∈ O, v.binOf p ≤ v.nb := by
    intro p hp
    cases hc : conv (p.flags &&& v.mask) with
    | false => exact Nat.le_of_lt (hv.lt _ (hgv p (hgO p hp)) hc)
    | true => exact Nat.le_of_eq (hv.eq _ (hgv p (hgO p hp)) hc)
  rw [← hOl] at o1
  obtain ⟨off, e2, h2⟩ := tally_run v cap O s1.2 o1 (by omega) hOb
  obtain ⟨c, o, e3, h3, h4⟩ := sums_run v O count off h2
  obtain ⟨o', m', e5, h5, h6, h7⟩ := place_run v cap npt O s1.2 o o1 (by omega) hcap hOb h4
  refine ⟨⟨s1.1, m', c, start v.binOf O v.nb⟩, ?_, i1, O, O.filter (fun p => decide (v.binOf p = v.nb)) ++ C, rfl, h3, ?_, ?_, ?_, ?_⟩
  · rw [drvBody]
    dsimp only
    rw [e1, Option.bind_some, ← hOl, e2, Option.bind_some, e3, Option.bind_some]
    dsimp only
    rw [e5]; rfl
  · intro k hk
    dsimp only
    rw [← List.append_assoc, ← Radix.buckets_succ]
    have hbl : (buckets v.binOf O (v.nb + 1)).length = O.length := by
      rw [buckets_length, start_all v.binOf O _ (fun x hx => by have := hOb x hx; omega)]
    by_cases hko : k < O.length
    · rw [h5 k hko, List.getElem?_append_left (by omega)]
    · rw [h7 _ (by omega), k1 _ (by omega)]
      dsimp only
      rw [hm k hk, List.getElem?_append_right (by omega), List.getElem?_append_right (by omega), hbl, hOl, hGl]
  · rw [← List.append_assoc, ← Radix.buckets_succ]
    have h1 : (buckets v.binOf O (v.nb + 1)).Perm O := Radix.buckets_perm _ _ _ (fun x hx => by have := hOb x hx; omega)
    refine (h1.append_right C).trans ?_
    have h2 := hperm.map (fun p => if conv (p.flags &&& v.mask) then p else nx p)
    rw [List.map_append, List.map_map] at h2
    have e1 : G.map (fun p => if conv (p.flags &&& v.mask) then p else nx p) = O := by
      rw [hO]; apply List.map_congr_left; intro p hp; simp [hunc p hp]
    have e2 : C.map (fun p => if conv (p.flags &&& v.mask) then p else nx p) = C := by
      conv_rhs => rw [← List.map_id C]
      apply List.map_congr_left; intro p hp; simp [hC p hp]
    rw [e1, e2] at h2
    exact h2
  · intro p hp
    apply hgO
    simp only [buckets, List.mem_flatMap, List.mem_filter] at hp
    obtain ⟨_, _, h, _⟩ := hp; exact h
  · intro p hp
    rcases List.mem_append.1 hp with hp | hp
    · have h1 := List.mem_filter.1 hp
      have h2 : v.binOf p = v.nb := by simpa using h1.2
      by_contra h
      have := hv.lt _ (hgv p (hgO p h1.1)) (by simpa using h)
      unfold Drv.binOf at h2; omega
    · exact hC p hp

include hv in
theorem drvLoop_run (cap npt : Nat) (hf : FunOk v conv f Inv nx Good npt) (hgv : ∀ p, Good p → valid (p.flags &&& v.mask)) (hnx : ∀ p, Good p → conv (p.flags &&& v.mask) = false → Good (nx p))
    (hcap : npt + npt ≤ cap) : ∀ (n : Nat) (q : Nat → Pt K D) (s : DrvSt K F D), LoopInv v conv Inv Good cap npt q s →
    ∃ s', drvLoop v cap npt f n s = some s' ∧ LoopInv v conv Inv Good cap npt (fun i => iter (fun p => conv (p.flags &&& v.mask)) nx n (q i)) s'
  | 0, q, s, h => ⟨s, rfl, h⟩
  | n + 1, q, s, h => by
    rw [drvLoop]
    by_cases hz : s.nconv = 0
    · rw [if_pos hz]
      refine ⟨s, rfl, h.fd, ?_⟩
      obtain ⟨U, C, hn, hcnt, hm, hperm, hgood, hC⟩ := h.data
      refine ⟨U, C, hn, hcnt, hm, ?_, hgood, hC⟩
      have hnil : buckets v.binOf U v.nb = [] := List.length_eq_zero_iff.1 (by rw [buckets_length, ← hn, hz])
      have : (List.range npt).map (fun i => iter (fun p => conv (p.flags &&& v.mask)) nx (n + 1) (q i)) = (List.range npt).map q := by
        apply List.map_congr_left
        intro i hi
        apply iter_conv
        apply hC
        have h1 : q i ∈ (List.range npt).map q := List.mem_map_of_mem hi
        have h2 := hperm.mem_iff.2 h1
        rwa [hnil, List.nil_append] at h2
      rw [this]; exact hperm
    · rw [if_neg hz]
      obtain ⟨s1, e1, h1⟩ := drvBody_run hv cap npt hf hgv hnx hcap q s h
      obtain ⟨s2, e2, h2⟩ := drvLoop_run cap npt hf hgv hnx hcap n _ s1 h1
      refine ⟨s2, by rw [e1]; exact e2, ?_⟩
      have : (fun i => iter (fun p => conv (p.flags &&& v.mask)) nx (n + 1) (q i)) =
          fun i => iter (fun p => conv (p.flags &&& v.mask)) nx n (if conv ((q i).flags &&& v.mask) then q i else nx (q i)) := by
        funext i
        by_cases hc : conv ((q i).flags &&& v.mask) = true
        · rw [if_pos hc, iter_conv (fun p : Pt K D => conv (p.flags &&& v.mask)) _ _ _ hc, iter_conv (fun p : Pt K D => conv (p.flags &&& v.mask)) _ _ _ hc]
        · rw [if_neg hc, iter, if_neg hc]
      rw [this]; exact h2

theorem drvOut_run (cap npt : Nat) (hcap : npt + npt ≤ cap) (q : Nat → Pt K D) (m : Mem (Pt K D)) (L : List (Pt K D)) (hm : ∀ k, k < npt → m (npt + k) = L[k]?)
    (hp : L.Perm ((List.range npt).map q)) (hq : ∀ i, i < npt → (q i).index = i) :
    ∃ m', drvOut v cap npt m = some m' ∧ ∀ i, i < npt → m' i = some { q i with flags := (q i).flags &&& v.mask } := by
  have hlen : L.length = npt := by rw [hp.length_eq]; simp
  have hL : ∀ p ∈ L, p.index < npt ∧ p = q p.index := by
    intro p h
    obtain ⟨i, hi, rfl⟩ := List.mem_map.1 (hp.mem_iff.1 h)
    have hi := List.mem_range.1 hi
    rw [hq i hi]; exact ⟨hi, rfl⟩
  unfold drvOut
  obtain ⟨m', e, h1, h2⟩ := forUp_inv (S := Mem (Pt K D)) (fun k m' => (∀ p ∈ L.take k, m' p.index = some { p with flags := p.flags &&& v.mask }) ∧ ∀ k, k < npt → m' (npt + k) = L[k]?)
    (fun k m => (Num.rd cap m (npt + k)).bind fun p => Num.wr cap m p.index { p with flags := p.flags &&& v.mask }) npt 0 m
    ⟨by simp, hm⟩
    (by
      rintro k _ hk s ⟨h1, h2⟩
      rw [Nat.zero_add] at hk
      have hkl : k < L.length := by omega
      have hi := hL _ (List.getElem_mem hkl)
      refine ⟨fun j => if j = L[k].index then some { L[k] with flags := L[k].flags &&& v.mask } else s j, ?_, ?_, ?_⟩
      · rw [Num.rd, if_pos (by omega), h2 k hk, List.getElem?_eq_getElem hkl, Option.bind_some, Num.wr, if_pos (by omega)]
      · intro p hp
        beta_reduce
        rw [List.take_succ_eq_append_getElem hkl] at hp
        by_cases hpi : p.index = L[k].index
        · have : p = L[k] := by
            have hpL : p ∈ L := by
              rcases List.mem_append.1 hp with h | h
              · exact List.mem_of_mem_take h
              · rw [List.mem_singleton.1 h]; exact List.getElem_mem hkl
            rw [(hL p hpL).2, hpi, ← hi.2]
          rw [this, if_pos rfl]
        · rw [if_neg hpi]
          rcases List.mem_append.1 hp with h | h
          · exact h1 p h
          · exact absurd (by rw [List.mem_singleton.1 h]) hpi
      · intro j hj
        beta_reduce
        rw [if_neg (by omega)]; exact h2 j hj)
  refine ⟨m', e, fun i hi => ?_⟩
  have : q i ∈ L := hp.mem_iff.2 (List.mem_map_of_mem (List.mem_range.2 hi))
  have := h1 (q i) (by rw [List.take_of_length_le (by omega)]; exact this)
  rw [hq i hi] at this
  rw [this]; congr 2; exact (hq i hi).symm

theorem drvInit_run (cap : Nat) (big zero one : K) (xs rs : List (Fin D → K)) (fd : F) (npt : Nat) (hx : xs.length = npt) (hr : rs.length = npt) (hcap : npt + npt ≤ cap) (hi : Inv fd)
    (q : Nat → Pt K D) (hq : ∀ i x r, xs[i]? = some x → rs[i]? = some r → q i = ⟨x, r, none, big, zero, one, i, 0⟩)
    (hg : ∀ i, i < npt → Good (q i)) (h0 : v.bin 0 = 0) (hnb : 0 < v.nb) :
    ∃ s, drvInit v cap npt big zero one xs rs fd = some s ∧ LoopInv v conv Inv Good cap npt q s := by
  unfold drvInit
  obtain ⟨m, e, h⟩ := forUp_inv (S := Mem (Pt K D)) (fun i m => ∀ k, k < i → m (npt + k) = some (q k))
    (fun i m => xs[i]?.bind fun x => rs[i]?.bind fun r => Num.wr cap m (npt + i) ⟨x, r, none, big, zero, one, i, 0⟩) npt 0 (fun _ => none) (fun k hk => absurd hk (by omega))
    (by
      intro i _ hi s hs
      rw [Nat.zero_add] at hi
      have ex := List.getElem?_eq_getElem (l := xs) (i := i) (by omega)
      have er := List.getElem?_eq_getElem (l := rs) (i := i) (by omega)
      refine ⟨fun j => if j = npt + i then some (q i) else s j, ?_, ?_⟩
      · rw [ex, er, Option.bind_some, Option.bind_some, Num.wr, if_pos (by omega), hq i _ _ ex er]
      · intro k hk
        beta_reduce
        by_cases hki : k = i
        · subst hki; simp
        · rw [if_neg (by omega)]; exact hs k (by omega))
  refine ⟨_, by rw [e]; rfl, hi, (List.range npt).map q, [], ?_, ?_, ?_, ?_, ?_, ?_⟩
  all_goals
    have hb : ∀ p ∈ (List.range npt).map q, v.binOf p = 0 := by
      intro p hp
      obtain ⟨i, hi, rfl⟩ := List.mem_map.1 hp
      have hi := List.mem_range.1 hi
      have ex := List.getElem?_eq_getElem (l := xs) (i := i) (by omega)
      have er := List.getElem?_eq_getElem (l := rs) (i := i) (by omega)
      rw [hq i _ _ ex er]
      show (v.bin (0 &&& v.mask)).toNat = 0
      rw [show (0 : U32) &&& v.mask = 0 by simp, h0]; rfl
    have hbu : buckets v.binOf ((List.range npt).map q) v.nb = (List.range npt).map q := by
      obtain ⟨n, hn⟩ : ∃ n, v.nb = n + 1 := ⟨v.nb - 1, by omega⟩
      rw [hn]
      have : ∀ n, buckets v.binOf ((List.range npt).map q) (n + 1) = (List.range npt).map q := by
        intro n
        induction n with
        | zero => 
          rw [Radix.buckets_succ]
          simp only [buckets, List.range_zero, List.flatMap_nil, List.nil_append]
          rw [List.filter_eq_self]
          intro p hp; simp [hb p hp]
        | succ n ih =>
          rw [Radix.buckets_succ, ih, List.filter_eq_nil_iff.2, List.append_nil]
          intro p hp; simp [hb p hp]
      exact this n
  · rw [start_all _ _ _ (fun p hp => by rw [hb p hp]; exact hnb)]; simp
  · intro b hbn
    dsimp only
    by_cases hb0 : b = 0
    · rw [if_pos hb0, List.countP_eq_length.2 (fun p hp => by simp [hb p hp, hb0])]; simp
    · rw [if_neg hb0, if_pos hbn, List.countP_eq_zero.2 (fun p hp => by simp [hb p hp]; omega)]
  · intro k hk
    dsimp only
    rw [h k (by omega), hbu]; simp [hk]
  · rw [hbu, List.append_nil]
  · intro p hp
    rw [hbu] at hp
    obtain ⟨i, hi, rfl⟩ := List.mem_map.1 hp
    exact hg i (List.mem_range.1 hi)
  · intro p hp; simp at hp

include hv in
theorem driver_run (cap npt : Nat) (hf : FunOk v conv f Inv nx Good npt) (hgv : ∀ p, Good p → valid (p.flags &&& v.mask))
    (hnx : ∀ p, Good p → conv (p.flags &&& v.mask) = false → Good (nx p) ∧ (nx p).index = p.index) (h0 : v.bin 0 = 0) (hnb : 0 < v.nb)
    (hcap : npt + npt ≤ cap) (big zero one : K) (xs rs : List (Fin D → K)) (fd : F) (hx : xs.length = npt) (hr : rs.length = npt) (hi : Inv fd)
    (q : Nat → Pt K D) (hq : ∀ i x r, xs[i]? = some x → rs[i]? = some r → q i = ⟨x, r, none, big, zero, one, i, 0⟩) (hg : ∀ i, i < npt → Good (q i)) :
    ∃ fd' m, driver v cap npt big zero one f xs rs fd = some (fd', m) ∧ Inv fd' ∧
      ∀ i, i < npt → m i = some (let p := iter (fun p => conv (p.flags &&& v.mask)) nx 50 (q i); { p with flags := p.flags &&& v.mask }) := by
  obtain ⟨s, e1, h1⟩ := drvInit_run (v := v) (conv := conv) (Inv := Inv) (Good := Good) cap big zero one xs rs fd npt hx hr hcap hi q hq hg h0 hnb
  obtain ⟨s', e2, h2⟩ := drvLoop_run hv cap npt hf hgv (fun p hp hc => (hnx p hp hc).1) hcap 50 q s h1
  obtain ⟨U, C, _, _, hm, hp, _, _⟩ := h2.data
  have hidx : ∀ n p, Good p → (iter (fun p => conv (p.flags &&& v.mask)) nx n p).index = p.index := by
    intro n
    induction n with
    | zero => intro p _; rfl
    | succ n ih =>
      intro p hp
      rw [iter]
      cases hc : conv (p.flags &&& v.mask) with
      | true => rw [if_pos rfl]
      | false => rw [if_neg (by simp), ih _ (hnx p hp hc).1, (hnx p hp hc).2]
  obtain ⟨m', e3, h3⟩ := drvOut_run (v := v) cap npt hcap _ s'.m _ hm hp (fun i hi => by
    rw [hidx _ _ (hg i hi)]
    have ex := List.getElem?_eq_getElem (l := xs) (i := i) (by omega)
    have er := List.getElem?_eq_getElem (l := rs) (i := i) (by omega)
    rw [hq i _ _ ex er])
  refine ⟨s'.fd, m', ?_, h2.fd, h3⟩
  rw [driver, e1, Option.bind_some, e2, Option.bind_some, e3]; rfl

end

end Gslib.El
