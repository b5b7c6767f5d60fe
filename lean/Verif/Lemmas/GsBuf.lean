import Verif.Lemmas.Combine
import Verif.Lemmas.GsNbAll

/-!
# The pairwise exchange does not depend on what is in the buffer, nor on its length
-/

namespace Gslib.Gs
open Gslib Gslib.Mpi Gslib.Spec Gslib.Comm Gslib.Nb

variable {T T' U U' : Type} {R : T → T' → Prop}

/-- `a` has `L` entries, related to the first `L` entries of `b` -/
def PRel (R : T → T' → Prop) (L : Nat) (a : List T) (b : List T') : Prop := a.length = L ∧ ∃ b1 b2, b = b1 ++ b2 ∧ LRel R a b1

theorem PRel.le {L : Nat} {a : List T} {b : List T'} (h : PRel R L a b) : L ≤ b.length := by
  obtain ⟨h1, b1, b2, rfl, h2⟩ := h
  rw [List.length_append, ← h2.length_eq]; omega

theorem PRel.take {L : Nat} {a : List T} {b : List T'} (h : PRel R L a b) {n : Nat} (hn : n ≤ L) : LRel R (a.take n) (b.take n) := by
  obtain ⟨h1, b1, b2, rfl, h2⟩ := h
  rw [List.take_append_of_le_length (by rw [← h2.length_eq]; omega)]
  exact List.forall₂_take _ h2

theorem PRel.drop {L : Nat} {a : List T} {b : List T'} (h : PRel R L a b) {n : Nat} (hn : n ≤ L) : PRel R (L - n) (a.drop n) (b.drop n) := by
  obtain ⟨h1, b1, b2, rfl, h2⟩ := h
  refine ⟨by rw [List.length_drop, h1], b1.drop n, b2, List.drop_append_of_le_length (by rw [← h2.length_eq]; omega), List.forall₂_drop _ h2⟩

theorem LRel.append_p {x : List T} {y : List T'} (h : LRel R x y) {L : Nat} {a : List T} {b : List T'} (h' : PRel R L a b) : PRel R (x.length + L) (x ++ a) (y ++ b) := by
  obtain ⟨h1, b1, b2, rfl, h2⟩ := h'
  exact ⟨by rw [List.length_append, h1], y ++ b1, b2, by rw [List.append_assoc], List.rel_append h h2⟩

theorem PRel.get {L : Nat} {a : List T} {b : List T'} (h : PRel R L a b) (k : Nat) : ORel R (ldAt a k) (ldAt b k) := by
  obtain ⟨h1, b1, b2, rfl, h2⟩ := h
  intro x hx
  obtain ⟨y, hy, r⟩ := LRel.get h2 k x hx
  refine ⟨y, ?_, r⟩
  unfold ldAt
  rw [List.getElem?_append_left (List.getElem?_eq_some_iff.1 hy).1]
  exact hy

theorem PRel.set {L : Nat} {a : List T} {b : List T'} (h : PRel R L a b) (k : Nat) {t : T} {t' : T'} (ht : R t t') : ORel (PRel R L) (stAt a k t) (stAt b k t') := by
  unfold stAt
  by_cases hk : k < a.length
  · have hl := h.le
    rw [if_pos hk, if_pos (by rw [h.1] at hk; omega)]
    obtain ⟨h1, b1, b2, rfl, h2⟩ := h
    refine ORel.some ⟨by rw [List.length_set, h1], b1.set k t', b2, ?_, h2.set ht k⟩
    rw [List.set_append_left _ _ (by rw [← h2.length_eq]; exact hk)]
  · rw [if_neg hk]; exact ORel.none _

theorem PRel.getVec {L : Nat} {a : List T} {b : List T'} (h : PRel R L a b) (vn k : Nat) : ORel (LRel R) (ldVec vn a k) (ldVec vn b k) := by
  unfold ldVec
  by_cases hk : k * vn + vn ≤ a.length
  · have hl := h.le
    rw [h.1] at hk
    rw [if_pos (by rw [h.1]; exact hk), if_pos (by omega)]
    exact ORel.some ((h.drop (by omega)).take (by omega))
  · rw [if_neg hk]; exact ORel.none _

theorem PRel.setVec {L : Nat} {a : List T} {b : List T'} (h : PRel R L a b) (vn k : Nat) {t : List T} {t' : List T'} (ht : LRel R t t') : ORel (PRel R L) (stVec vn a k t) (stVec vn b k t') := by
  unfold stVec
  by_cases hk : k * vn + vn ≤ a.length ∧ t.length = vn
  · have hl := h.le
    have hk' := hk
    rw [h.1] at hk'
    rw [if_pos hk, if_pos (by rw [← ht.length_eq]; exact ⟨by omega, hk.2⟩)]
    have h1 := (List.rel_append (h.take (n := k * vn) (by omega)) ht)
    have h2 := LRel.append_p h1 (h.drop hk'.1)
    refine ORel.some ?_
    have : (a.take (k * vn) ++ t).length + (L - (k * vn + vn)) = L := by
      rw [List.length_append, List.length_take, hk.2, h.1]; omega
    rw [this] at h2
    exact h2
  · rw [if_neg hk]; exact ORel.none _

/-- kernels that do related things to related data, with a buffer that may be longer -/
structure KBuf (RU : U → U' → Prop) (R : T → T' → Prop) (K : Kernels U T) (K' : Kernels U' T') : Prop extends KRel RU R K K' where
  toBufP : ∀ L m u u' b b', RU u u' → PRel R L b b' → ORel (PRel R L) (K.toBuf m u b) (K'.toBuf m u' b')
  gatherBufP : ∀ L m b b' u u', PRel R L b b' → RU u u' → ORel RU (K.gatherBuf m b u) (K'.gatherBuf m b' u')

variable {D : Dom T} {D' : Dom T'} {op : Op}

theorem plain_buf (h : DomRel R D D' op) : KBuf (LRel R) R (plainKernels D op) (plainKernels D' op) where
  toKRel := plain_rel h
  toBufP L m _ _ _ _ hu hb := scatterLoop_rel (RV := R) (RO := PRel R L) (fun _ _ k _ => ldAt_rel hu k) (fun _ _ k _ _ ho ht => ho.set k ht) m .outer .outer _ _ trivial hb
  gatherBufP L m _ _ _ _ hb hu := gatherLoop_rel (RV := R) h.f (fun _ _ k ho => ldAt_rel ho k) (fun _ _ k _ => hb.get k) (fun _ _ k _ _ ho ht => stAt_rel ho k ht) m .outer .outer _ _ trivial hu

theorem vec_buf (h : DomRel R D D' op) (vn : Nat) : KBuf (LRel R) R (vecKernels D op vn) (vecKernels D' op vn) where
  toKRel := vec_rel h vn
  toBufP L m _ _ _ _ hu hb := scatterLoop_rel (RV := LRel R) (RO := PRel R L) (fun _ _ k _ => ldVec_rel hu vn k) (fun _ _ k _ _ ho ht => ho.setVec vn k ht) m .outer .outer _ _ trivial hb
  gatherBufP L m _ _ _ _ hb hu := gatherVecLoop_rel h vn (fun _ _ k _ => hb.getVec vn k) m _ _ _ hu

theorem manyToVec_buf (vn : Nat) (m : List Nat) {L : Nat} {u : List (List T)} {u' : List (List T')} (hu : LRel (LRel R) u u') :
    ∀ (k : Nat) {b : List T} {b' : List T'}, PRel R L b b' → ORel (PRel R L) (manyToVec vn m k u b) (manyToVec vn m k u' b') := by
  induction hu with
  | nil => intro k b b' hb; exact ORel.some hb
  | cons hd _ ih =>
    intro k b b' hb
    rw [manyToVec, manyToVec]
    refine ORel.bind ?_ fun x x' hx => ih (k + 1) hx
    exact scatterLoop_rel (RV := R) (RO := PRel R L) (fun _ _ k _ => ldAt_rel hd k) (fun _ _ j _ _ ho ht => ho.set (j * vn + k) ht) m .outer .outer _ _ trivial hb

theorem vecToManyGather_buf (h : DomRel R D D' op) (vn : Nat) (m : List Nat) {L : Nat} {b : List T} {b' : List T'} (hb : PRel R L b b') {u : List (List T)} {u' : List (List T')} (hu : LRel (LRel R) u u') :
    ∀ (k : Nat), ORel (LRel (LRel R)) (vecToManyGather D op vn m b k u) (vecToManyGather D' op vn m b' k u') := by
  induction hu with
  | nil => intro k; exact ORel.some .nil
  | cons hd _ ih =>
    intro k
    rw [vecToManyGather, vecToManyGather]
    refine ORel.bind ?_ fun x x' hx => (ih (k + 1)).bind fun y y' hy => ORel.some (.cons hx hy)
    exact gatherLoop_rel (RV := R) h.f (fun _ _ k ho => ldAt_rel ho k) (fun _ _ i _ => hb.get (i * vn + k)) (fun _ _ k _ _ ho ht => stAt_rel ho k ht) m .outer .outer _ _ trivial hd

theorem many_buf (h : DomRel R D D' op) (vn : Nat) : KBuf (LRel (LRel R)) R (manyKernels D op vn) (manyKernels D' op vn) where
  toKRel := many_rel h vn
  toBufP L m _ _ _ _ hu hb := manyToVec_buf vn m hu 0 hb
  gatherBufP L m _ _ _ _ hb hu := vecToManyGather_buf h vn m hb hu 0

/-! ### one operation -/

/-- related memories; the buffer of the second may be longer, the buffer of the first has `L` entries -/
structure BRel (RU : U → U' → Prop) (R : T → T' → Prop) (L : Nat) (s : GsSt U T) (s' : GsSt U' T') : Prop where
  u : RU s.u s'.u
  buf : PRel R L s.buf s'.buf

variable {RU : U → U' → Prop} {K : Kernels U T} {K' : Kernels U' T'}

theorem reserve_buf {g : T} (hg : ∀ y, R g y) (n : Nat) {s : GsSt U T} {s' : GsSt U' T'} (hu : RU s.u s'.u) (hb : s.buf = []) (hf : ∀ i, s.fill i = g) :
    BRel RU R n (reserve n s) (reserve n s') := by
  have hall : ∀ (l : List Nat) (b : List T'), l.length = b.length → LRel R (l.map s.fill) b := by
    intro l
    induction l with
    | nil => intro b h; rw [List.length_eq_zero_iff.1 h.symm]; exact .nil
    | cons x l ih =>
      intro b h
      cases b with
      | nil => cases h
      | cons y b => exact .cons (by rw [hf]; exact hg y) (ih b (by simpa using h))
  refine ⟨hu, ?_⟩
  have hle : n ≤ (reserve n s').buf.length := by
    unfold reserve
    simp only [List.length_append, List.length_map, List.length_range]; omega
  have h1 : (reserve n s).buf = (List.range n).map s.fill := by
    unfold reserve
    simp only [hb, List.nil_append, List.length_nil, Nat.sub_zero]
  refine ⟨by rw [h1]; simp, (reserve n s').buf.take n, (reserve n s').buf.drop n, (List.take_append_drop _ _).symm, ?_⟩
  rw [h1]
  exact hall _ _ (by rw [List.length_range, List.length_take]; omega)

theorem gsPre_buf (hK : KBuf RU R K K') {g : T} (hg : ∀ y, R g y) (h : GsData) (t : Bool) {s : GsSt U T} {s' : GsSt U' T'} (hu : RU s.u s'.u) (hb : s.buf = []) (hf : ∀ i, s.fill i = g)
    {r : GsSt U T} (e : gsPre K h t s = .ok r) : ∃ r', gsPre K' h t s' = .ok r' ∧ BRel RU R (K.vn * h.r.bufferSize) r r' := by
  unfold gsPre at *
  rw [hK.vn]
  have hr := reserve_buf (RU := RU) hg (K.vn * h.r.bufferSize) hu hb hf
  refine outRel ?_ r e
  refine (hK.gather _ _ _ hr.u).bind fun u u' hu => ORel.bind (R := RU) ?_ fun v v' hv => ORel.some ⟨hv, hr.buf⟩
  cases t
  · exact hK.init _ _ _ hu
  · exact ORel.some hu

theorem sliceFor_buf (vn : Nat) : ∀ (ms : List (Nat × Nat)) {L : Nat} {b : List T} {b' : List T'} (q : Nat), PRel R L b b' → (ms.map Prod.snd).sum * vn ≤ L →
    LRel R (sliceFor vn ms b q) (sliceFor vn ms b' q)
  | [], _, _, _, _, _, _ => .nil
  | (p, n) :: ms, L, b, b', q, h, hs => by
    rw [List.map_cons, List.sum_cons, Nat.add_mul] at hs
    simp only at hs
    rw [sliceFor, sliceFor]
    by_cases c : p = q
    · rw [if_pos c, if_pos c]; exact h.take (by omega)
    · rw [if_neg c, if_neg c]; exact sliceFor_buf vn ms q (h.drop (by omega)) (by omega)

theorem rmsgs_sum (t : Bool) (np : Nat) (ids : Nat → List Int) (q : Nat) : ((rmsgs t np ids q).map Prod.snd).sum = (rpairs t np ids q).length := by
  unfold rmsgs rpairs
  rw [List.map_map, List.length_flatMap]
  generalize List.range np = l
  induction l with
  | nil => rfl
  | cons x l ih =>
    rw [List.filter_cons]
    by_cases hx : rids t ids q x = []
    · simp [hx] at ih ⊢
      exact ih
    · simp [hx] at ih ⊢
      exact ih

/-- igs with the pairwise method on related data -/
theorem igsPw_buf (hK : KBuf RU R K K') {g : T} (hg : ∀ y, R g y) {np : Nat} {ids : Nat → List Int} {h : Nat → GsData} (hpw : ∀ q, q < np → (h q).r = .pairwise (pwSpec np ids q)) (nbc t : Bool)
    (hm : OpMatched np fun p => igsStep K D op nbc np t (h p) p)
    {s s1 : Nat → GsSt U T} (hr : OpRun np (fun p => igsStep K D op nbc np t (h p) p) s s1) (hb : ∀ q, q < np → (s q).buf = []) (hf : ∀ q, q < np → ∀ i, (s q).fill i = g)
    {s' : Nat → GsSt U' T'} (hu : ∀ q, q < np → RU (s q).u (s' q).u) :
    ∃ s1', OpRun np (fun p => igsStep K' D' op nbc np t (h p) p) s' s1' ∧ ∀ q, q < np → RU (s1 q).u (s1' q).u := by
  have hst : ∀ q, q < np → igsStep K D op nbc np t (h q) q = around (gsPre K (h q) t) (pwExecStep K (pwSpec np ids q) t q) (gsPost K (h q) t) := by
    intro q hq
    unfold igsStep
    rw [hpw q hq]
  have hst' : ∀ q, q < np → igsStep K' D' op nbc np t (h q) q = around (gsPre K' (h q) t) (pwExecStep K' (pwSpec np ids q) t q) (gsPost K' (h q) t) := by
    intro q hq
    unfold igsStep
    rw [hpw q hq]
  obtain ⟨e, he⟩ := hr
  have h1 : ∀ p, ∃ e', p < np → (igsStep K' D' op nbc np t (h p) p).pre (s' p) = .ok e' ∧ BRel RU R (K.vn * (h p).r.bufferSize) (e p) e' := by
    intro p
    by_cases hp : p < np
    · have e1 := (he p hp).1
      beta_reduce at e1
      rw [hst p hp] at e1
      rw [hst' p hp]
      obtain ⟨r, e1, e2⟩ := Outcome.bind_eq_ok e1
      obtain ⟨r', f1, hrr⟩ := gsPre_buf hK hg (h p) t (hu p hp) (hb p hp) (hf p hp) e1
      have : ∃ e', (pwExecStep K' (pwSpec np ids p) t p).pre r' = .ok e' ∧ BRel RU R (K.vn * (h p).r.bufferSize) (e p) e' := by
        rw [hpw p hp] at hrr ⊢
        unfold pwExecStep at e2 ⊢
        simp only at e2 ⊢
        rw [hK.vn]
        refine outRel ?_ _ e2
        have hle : K.vn * ((pwSpec np ids p).comm t).total ≤ K.vn * (Remote.pairwise (pwSpec np ids p)).bufferSize := by
          refine Nat.mul_le_mul_left _ ?_
          unfold Remote.bufferSize
          cases t <;> simp
        refine (hK.toBufP _ _ _ _ _ _ hrr.u (hrr.buf.drop hle)).bind fun b b' hb => ORel.some ⟨hrr.u, ?_⟩
        have := LRel.append_p (hrr.buf.take hle) hb
        have hl : (List.take (K.vn * ((pwSpec np ids p).comm t).total) r.buf).length + (K.vn * (Remote.pairwise (pwSpec np ids p)).bufferSize - K.vn * ((pwSpec np ids p).comm t).total) = K.vn * (Remote.pairwise (pwSpec np ids p)).bufferSize := by
          rw [List.length_take, hrr.buf.1]; omega
        rw [hl] at this
        exact this
      obtain ⟨e', f2, hee⟩ := this
      exact ⟨e', fun _ => ⟨by show (gsPre K' (h p) t (s' p)).bind _ = _; rw [f1]; exact f2, hee⟩⟩
    · exact ⟨s' p, fun h => absurd h hp⟩
  choose e' he' using h1
  have h2 : ∀ p, ∃ r', p < np → (igsStep K' D' op nbc np t (h p) p).post (e' p) ((igsStep K' D' op nbc np t (h p) p).recvs.map fun y => (igsStep K' D' op nbc np t (h y.1) y.1).payload (e' y.1) (p, y.2)) = .ok r' ∧ RU (s1 p).u r'.u := by
    intro p
    by_cases hp : p < np
    · have e2 := (he p hp).2
      beta_reduce at e2
      have hpay : LRel (LRel R) ((igsStep K D op nbc np t (h p) p).recvs.map fun y => (igsStep K D op nbc np t (h y.1) y.1).payload (e y.1) (p, y.2))
          ((igsStep K' D' op nbc np t (h p) p).recvs.map fun y => (igsStep K' D' op nbc np t (h y.1) y.1).payload (e' y.1) (p, y.2)) := by
        have hrec : (igsStep K' D' op nbc np t (h p) p).recvs = (igsStep K D op nbc np t (h p) p).recvs := by
          rw [hst' p hp, hst p hp]; rfl
        rw [hrec]
        refine List.forall₂_map_left_iff.2 (List.forall₂_map_right_iff.2 (List.forall₂_same.2 ?_))
        intro y hy
        have hy' := (hm.recv p hp y hy).1
        rw [hst' _ hy', hst _ hy']
        have hB := (he' y.1 hy').2.buf
        rw [hpw y.1 hy'] at hB
        show LRel R (sliceFor K.vn _ _ _) (sliceFor K'.vn _ _ _)
        rw [hK.vn]
        refine sliceFor_buf _ _ _ (hB.drop ?_) ?_
        · refine Nat.mul_le_mul_left _ ?_
          unfold Remote.bufferSize
          cases t <;> simp
        · show ((rmsgs (!t) np ids y.1).map Prod.snd).sum * K.vn ≤ K.vn * (((pwSpec np ids y.1).comm false).total + ((pwSpec np ids y.1).comm true).total) - K.vn * ((pwSpec np ids y.1).comm t).total
          rw [rmsgs_sum, Nat.mul_add, Nat.mul_comm _ K.vn]
          show K.vn * ((pwSpec np ids y.1).comm (!t)).total ≤ _
          cases t <;> simp
      generalize ((igsStep K D op nbc np t (h p) p).recvs.map fun y => (igsStep K D op nbc np t (h y.1) y.1).payload (e y.1) (p, y.2)) = v at e2 hpay
      generalize ((igsStep K' D' op nbc np t (h p) p).recvs.map fun y => (igsStep K' D' op nbc np t (h y.1) y.1).payload (e' y.1) (p, y.2)) = v' at hpay
      rw [hst p hp] at e2
      rw [hst' p hp]
      have hB := (he' p hp).2
      rw [hpw p hp] at hB
      obtain ⟨r, e2, e3⟩ := Outcome.bind_eq_ok e2
      have : ∃ r', (pwExecStep K' (pwSpec np ids p) t p).post (e' p) v' = .ok r' ∧ RU r.u r'.u := by
        unfold pwExecStep at e2 ⊢
        simp only at e2 ⊢
        rw [hK.vn, lens_rel hpay]
        by_cases c : v.map List.length = ((pwSpec np ids p).comm t).msgs.map (fun x => x.2 * K.vn)
        · rw [if_pos c] at e2 ⊢
          refine outRel (RS := fun (a : GsSt U T) (b : GsSt U' T') => RU a.u b.u) ?_ _ e2
          have hle : K.vn * ((pwSpec np ids p).comm t).total ≤ K.vn * (Remote.pairwise (pwSpec np ids p)).bufferSize := by
            refine Nat.mul_le_mul_left _ ?_
            unfold Remote.bufferSize
            cases t <;> simp
          have hb := LRel.append_p (List.rel_flatten hpay) (hB.buf.drop hle)
          exact (hK.gatherBufP _ _ _ _ _ _ hb hB.u).bind fun u u' hu => ORel.some hu
        · rw [if_neg c] at e2; cases e2
      obtain ⟨r', f2, hrr⟩ := this
      have : ∃ z', gsPost K' (h p) t r' = .ok z' ∧ RU (s1 p).u z'.u := by
        unfold gsPost at e3 ⊢
        refine outRel (RS := fun (a : GsSt U T) (b : GsSt U' T') => RU a.u b.u) ?_ _ e3
        exact (hK.scatter _ _ _ hrr).bind fun u u' hu => ORel.some hu
      obtain ⟨z', f3, hz⟩ := this
      exact ⟨z', fun _ => ⟨by show ((pwExecStep K' (pwSpec np ids p) t p).post (e' p) v').bind _ = _; rw [f2]; exact f3, hz⟩⟩
    · exact ⟨s' p, fun h => absurd h hp⟩
  choose r' hr' using h2
  exact ⟨r', ⟨e', fun p hp => ⟨(he' p hp).1, (hr' p hp).1⟩⟩, fun q hq => (hr' q hq).2⟩

/-! ### blocking and nonblocking -/

theorem lockRun_more {S W : Type} {prog : Nat → Prog S W} {np T : Nat} (hb : ∀ p, p < np → ∀ s ∈ prog p, s.label < T) (d : Nat → S) : ∀ k, lockRun prog np (T + k) d = lockRun prog np T d
  | 0 => rfl
  | k + 1 => by
    show (lockRun prog np (T + k) d).bind (lockStep prog np (T + k)) = _
    rw [lockRun_more hb d k]
    cases lockRun prog np T d with
    | ub => rfl
    | abort => rfl
    | ok f =>
      show lockStep prog np (T + k) f = .ok f
      have hn : ∀ p, p < np → stepAt (prog p) (T + k) = none := by
        intro p hp
        unfold stepAt
        rw [List.find?_eq_none]
        intro x hx
        have := hb p hp x hx
        simp; omega
      unfold lockStep
      have h1 : seqAll f (preOf prog (T + k) f) np = .ok f := seqAll_of_ok f np (fun p hp => by unfold preOf; rw [hn p hp]) fun _ _ => rfl
      rw [h1]
      exact seqAll_of_ok f np (fun p hp => by unfold postOf; rw [hn p hp]) fun _ _ => rfl

theorem OpRun.unique {S W : Type} {np : Nat} {st : Nat → Step S W} (hm : OpMatched np st) {d d1 d2 : Nat → S} (h1 : OpRun np st d d1) (h2 : OpRun np st d d2) : ∀ p, p < np → d1 p = d2 p := by
  obtain ⟨e, h1⟩ := h1
  obtain ⟨e', h2⟩ := h2
  have he : ∀ p, p < np → e p = e' p := fun p hp => Outcome.ok.inj ((h1 p hp).1.symm.trans (h2 p hp).1)
  intro p hp
  refine Outcome.ok.inj ((h1 p hp).2.symm.trans (Eq.trans ?_ (h2 p hp).2))
  rw [he p hp]
  congr 1
  apply List.map_congr_left
  intro y hy
  rw [he y.1 (hm.recv p hp y hy).1]

/-- handles for the pairwise method -/
def PwHandles (np : Nat) (ids : Nat → List Int) (h : Nat → GsData) : Prop := ∀ q, q < np → (h q).r = .pairwise (pwSpec np ids q)

theorem igsPw_matched {np : Nat} {ids : Nat → List Int} {h : Nat → GsData} (hpw : PwHandles np ids h) (K : Kernels U T) (D : Dom T) (op : Op) (nbc t : Bool) :
    OpMatched np fun p => igsStep K D op nbc np t (h p) p := by
  have hm : OpMatched np fun p => around (gsPre K (h p) t) (pwExecStep K (pwSpec np ids p) t p) (gsPost K (h p) t) := (opMatched_of_ok (pwExec_ok K t)).around
  refine hm.congr fun p hp => ?_
  unfold igsStep
  rw [hpw p hp]

/-- gs with handles for the pairwise method does what igs and gs_wait do -/
theorem opRun_of_gsOp {np : Nat} {ids : Nat → List Int} {h : Nat → GsData} (hpw : PwHandles np ids h) (K : Kernels U T) (D : Dom T) (op : Op) (nbc t : Bool) {T' : Nat}
    (hM : Matched (gsOp K D op np t h) np T') {s s' : Nat → GsSt U T} (hr : lockRun (gsOp K D op np t h) np T' s = .ok s') : OpRun np (fun p => igsStep K D op nbc np t (h p) p) s s' := by
  rcases Nat.eq_zero_or_pos np with h0 | h0
  · subst h0
    exact ⟨s, fun p hp => absurd hp (by omega)⟩
  let c := gsAux K h t (pwExec K (pwSpec np ids) t)
  have hc : ∀ p, p < np → gsOp K D op np t h p = c.prog p := by
    intro p hp
    have hex : remoteExec K D op np t (h p) = pwExec K (fun _ => pwSpec np ids p) t := by
      unfold remoteExec
      rw [hpw p hp]
    exact gsAux_prog_congr t rfl (by rw [hex]; rfl) (by rw [hex]; rfl)
  have h3 : ∀ p, p < np → ∀ x ∈ gsOp K D op np t h p, x.label < 3 := by
    intro p hp x hx
    rw [hc p hp] at hx
    have hx : x ∈ (gsAux K h t (pwExec K (pwSpec np ids) t)).prog p := hx
    simp only [gsAux, Coll.seq, Coll.loc, pwExec, List.map_cons, List.map_nil, List.cons_append, List.nil_append, List.mem_cons, List.not_mem_nil, or_false] at hx
    rcases hx with rfl | rfl | rfl
    · simp
    · simp [Step.shift, pwExecStep]
    · simp [Step.shift]
  have hT : 3 ≤ T' := by
    have hx : ((⟨0, gsPost K (h 0) t, [], fun _ _ => [], [], fun s _ => .ok s⟩ : Step (GsSt U T) (List T)).shift 2) ∈ gsOp K D op np t h 0 := by
      rw [hc 0 h0]
      show _ ∈ (gsAux K h t (pwExec K (pwSpec np ids) t)).prog 0
      simp only [gsAux, Coll.seq, Coll.loc, pwExec, List.map_cons, List.map_nil, List.cons_append, List.nil_append, List.mem_cons, List.not_mem_nil, or_false]
      exact Or.inr (Or.inr trivial)
    have := hM.bound 0 h0 _ hx
    have h2 : 2 < T' := by simpa [Step.shift] using this
    omega
  obtain ⟨k, rfl⟩ := Nat.exists_eq_add_of_le hT
  rw [lockRun_more h3] at hr
  have hr' : c.run np s = .ok s' := (Coll.run_congr (a := c) (b := ⟨3, gsOp K D op np t h⟩) rfl (fun p hp => (hc p hp).symm) s).trans hr
  have h2 := opRun_around (np := np) (F := fun p => gsPre K (h p) t) (G := fun p => gsPost K (h p) t) (st := fun p => pwExecStep K (pwSpec np ids p) t p) (pwExec_ok K t)
    (fun s s' h => opRun_of_run (fun _ => rfl) h) hr'
  have hm : OpMatched np fun p => around (gsPre K (h p) t) (pwExecStep K (pwSpec np ids p) t p) (gsPost K (h p) t) := (opMatched_of_ok (pwExec_ok K t)).around
  refine h2.congr (fun p hp => ?_) hm
  unfold igsStep
  rw [hpw p hp]

/-! ### values that are not known -/

/-- the operation on values that may be unknown -/
def optDom (D : Dom T) : Dom (Option T) := ⟨fun op a b => a.bind fun x => b.map fun y => D.doOp op x y, fun op => some (D.identity op)⟩

/-- a known value is the value -/
def OptRel (o : Option T) (t : T) : Prop := ∀ x, o = some x → x = t

theorem optDom_rel (D : Dom T) (op : Op) : DomRel OptRel (optDom D) D op where
  f a a' b b' ha hb x hx := by
    obtain ⟨y, hy, hx⟩ := Option.bind_eq_some_iff.1 hx
    obtain ⟨z, hz, rfl⟩ := Option.map_eq_some_iff.1 hx
    rw [ha y hy, hb z hz]
  e x hx := (Option.some.inj hx).symm

theorem optRel_some (l : List T) : LRel OptRel (l.map some) l := by
  induction l with
  | nil => exact .nil
  | cons x l ih => exact .cons (fun y hy => (Option.some.inj hy).symm) ih

theorem optRel_eq {l l' : List T} (h : LRel OptRel (l.map some) l') : l' = l := by
  induction l generalizing l' with
  | nil => cases h; rfl
  | cons x l ih =>
    cases h with
    | cons hd tl => rw [ih tl, hd x rfl]

theorem combines_opt {D : Dom T} {op : Op} {m : Multiset (Option T)} {y : Option T} (h : Combines ((optDom D).doOp op) ((optDom D).identity op) m y) (hm : ∀ x ∈ m, x ≠ none) :
    ∃ z, y = some z ∧ Combines (D.doOp op) (D.identity op) (m.filterMap id) z := by
  induction h with
  | val x =>
    cases x with
    | none => exact absurd rfl (hm none (by simp))
    | some x => exact ⟨x, rfl, .val x⟩
  | none => exact ⟨_, rfl, .none⟩
  | op h1 h2 i1 i2 =>
    obtain ⟨a, rfl, c1⟩ := i1 fun x hx => hm x (Multiset.mem_add.2 (Or.inl hx))
    obtain ⟨b, rfl, c2⟩ := i2 fun x hx => hm x (Multiset.mem_add.2 (Or.inr hx))
    refine ⟨_, rfl, ?_⟩
    rw [Multiset.filterMap_add]
    exact .op c1 c2

theorem pick_map {A B : Type} (g : A → B) (c : Int → Bool) (i : List Int) (v : List A) : pick c i (v.map g) = (pick c i v).map g := by
  unfold pick
  rw [List.zip_map_right, List.filter_map, List.map_map, List.map_map]
  rfl

theorem gsTerms_map {A B : Type} (g : A → B) (t : Bool) (np : Nat) (ids : Nat → List Int) (v : Nat → List A) (q : Nat) : gsTerms t np ids (fun p => (v p).map g) q = (gsTerms t np ids v q).map (List.map g) := by
  have hu : ∀ a, unflagged np ids (fun p => (v p).map g) a = (unflagged np ids v a).map g := by
    intro a
    unfold unflagged
    rw [List.map_flatMap]
    exact List.flatMap_congr fun p _ => pick_map g _ _ _
  have hm : ∀ a, members np ids (fun p => (v p).map g) a = (members np ids v a).map g := by
    intro a
    unfold members
    rw [List.map_flatMap]
    exact List.flatMap_congr fun p _ => pick_map g _ _ _
  unfold gsTerms
  cases t
  · simp only [Bool.false_eq_true, if_false]
    rw [List.zip_map_right, List.map_map, List.map_map]
    apply List.map_congr_left
    intro x _
    simp only [Function.comp, Prod.map_fst, Prod.map_snd, id]
    split
    · rfl
    · exact hu _
  · simp only [if_true]
    rw [List.zip_map_right, List.zipIdx_map, List.map_map, List.map_map]
    apply List.map_congr_left
    intro x _
    simp only [Function.comp, Prod.map_fst, Prod.map_snd, id]
    split
    · exact hm _
    · split
      · exact pick_map g _ _ _
      · rfl

theorem gsCombines_opt {D : Dom T} {op : Op} {t : Bool} {np : Nat} {ids : Nat → List Int} {v : Nat → List T} {q : Nat} {out : List (Option T)}
    (h : GsCombines ((optDom D).doOp op) ((optDom D).identity op) t np ids (fun p => (v p).map some) q out) :
    ∃ r, out = r.map some ∧ GsCombines (D.doOp op) (D.identity op) t np ids v q r := by
  have h1 := h.terms
  rw [gsTerms_map] at h1
  have h1 := List.forall₂_map_left_iff.1 h1
  have key : ∀ {l : List (List T)} {out : List (Option T)}, List.Forall₂ (fun (c : List T) d => Combines ((optDom D).doOp op) ((optDom D).identity op) ((c.map some : List (Option T)) : Multiset (Option T)) d) l out →
      ∃ r, out = r.map some ∧ List.Forall₂ (fun (l : List T) y => Combines (D.doOp op) (D.identity op) (l : Multiset T) y) l r := by
    intro l out h
    induction h with
    | nil => exact ⟨[], rfl, .nil⟩
    | @cons x y xs ys hd _ ih =>
      obtain ⟨r, rfl, hr⟩ := ih
      obtain ⟨z, rfl, hz⟩ := combines_opt hd (by
        intro a ha
        obtain ⟨b, -, rfl⟩ := List.mem_map.1 (Multiset.mem_coe.1 ha)
        simp)
      refine ⟨z :: r, rfl, .cons ?_ hr⟩
      rw [Multiset.filterMap_coe, List.filterMap_map] at hz
      simpa using hz
  obtain ⟨r, rfl, hr⟩ := key h1
  refine ⟨r, rfl, hr, fun i hi => ?_⟩
  have := h.zero i hi
  simp only [List.getElem?_map] at this
  cases h1 : r[i]? <;> cases h2 : (v q)[i]? <;> rw [h1, h2] at this <;> simp_all

end Gslib.Gs
