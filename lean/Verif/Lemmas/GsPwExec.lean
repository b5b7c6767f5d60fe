import Verif.Lemmas.GsPw
import Verif.Lemmas.GsRep

/-! # The pairwise exchange -/

namespace Gslib.Mpi
open Gslib

variable {S W : Type}

/-- one step of all processes -/
theorem Coll.one_run {st : Nat → Step S W} (hl : ∀ p, (st p).label = 0) {P : Nat} {s e g : Nat → S}
    (hpre : ∀ p, p < P → (st p).pre (s p) = .ok (e p))
    (hrecv : ∀ p, p < P → ∀ x ∈ (st p).recvs, x.1 < P ∧ (p, x.2) ∈ (st x.1).sends)
    (hpost : ∀ p, p < P → (st p).post (e p) ((st p).recvs.map fun x => (st x.1).payload (e x.1) (p, x.2)) = .ok (g p)) :
    (⟨1, fun p => [st p]⟩ : Coll S W).run P s = .ok (fun p => if p < P then g p else s p) := by
  have h : ∀ p, stepAt [st p] 0 = some (st p) := by
    intro p
    simp [stepAt, hl p]
  change (Outcome.ok s).bind (lockStep _ P 0) = _
  simp only [Outcome.bind, lockStep]
  have e1 : seqAll s (preOf (fun p => [st p]) 0 s) P = .ok (fun p => if p < P then e p else s p) := by
    apply seqAll_of_ok
    · intro p hp
      simp only [preOf, h, hp, if_true]
      exact hpre p hp
    · intro p hp; rw [if_neg (by omega)]
  rw [e1]
  simp only
  apply seqAll_of_ok
  · intro p hp
    simp only [postOf, h, hp, if_true]
    have hg : gather (fun p => [st p]) P 0 (fun p => if p < P then e p else s p) p (st p).recvs =
        some ((st p).recvs.map fun x => (st x.1).payload (e x.1) (p, x.2)) := by
      unfold gather
      rw [mapM_option_congr (g := fun x => some ((st x.1).payload (e x.1) (p, x.2)))]
      · generalize (st p).recvs = l
        induction l with
        | nil => rfl
        | cons a l ih => rw [List.mapM_cons, ih]; rfl
      · intro x hx
        obtain ⟨h1, h2⟩ := hrecv p hp x hx
        rw [if_pos h1]
        simp only [h, h1, h2, if_true]
    rw [hg]
    exact hpost p hp
  · intro p hp; rw [if_neg (by omega)]

end Gslib.Mpi

namespace Gslib.Gs
open Gslib Gslib.Mpi Gslib.Spec Gslib.Props

variable {V T U : Type} {D : Dom T} {op : Op} {K : Kernels U T} {f : V → V → V} {e : V}

/-! ### decoding of buffers -/

theorem Rep.flat_len (R : Rep D op K f e) : ∀ {b : List V}, (∀ v ∈ b, R.shp v) → (b.flatMap R.repV).length = K.vn * b.length
  | [], _ => rfl
  | v :: b, h => by
    rw [List.flatMap_cons, List.length_append, R.len v (h v (by simp)), Rep.flat_len R (fun v hv => h v (by simp [hv])), List.length_cons, Nat.mul_add, Nat.mul_one, Nat.add_comm]

theorem Rep.decode (R : Rep D op K f e) : ∀ (m : Nat) (l : List T), K.vn * m ≤ l.length →
    ∃ b : List V, b.length = m ∧ (∀ v ∈ b, R.shp v) ∧ l = b.flatMap R.repV ++ l.drop (K.vn * m)
  | 0, l, _ => ⟨[], rfl, by simp, by simp⟩
  | m + 1, l, h => by
    rw [Nat.mul_add, Nat.mul_one] at h
    obtain ⟨v, hv, e1⟩ := R.dec (l.take K.vn) (by rw [List.length_take]; have := Nat.zero_le (K.vn * m); omega)
    obtain ⟨b, h1, h2, h3⟩ := Rep.decode R m (l.drop K.vn) (by rw [List.length_drop]; omega)
    refine ⟨v :: b, by simp [h1], ?_, ?_⟩
    · intro u hu
      rcases List.mem_cons.1 hu with rfl | hu
      · exact hv
      · exact h2 u hu
    · rw [List.flatMap_cons, e1, List.append_assoc]
      have : List.drop (K.vn * (m + 1)) l = List.drop (K.vn * m) (List.drop K.vn l) := by
        rw [List.drop_drop]; congr 1; ring
      rw [this, ← h3, List.take_append_drop]

/-! ### slices -/

theorem flatMap_filter_ne {A B : Type} (P : A → Prop) [DecidablePred P] (g : A → List B) (h : ∀ a, ¬ P a → g a = []) : ∀ l : List A, (l.filter fun a => P a).flatMap g = l.flatMap g
  | [] => rfl
  | a :: l => by
    rw [List.filter_cons, List.flatMap_cons]
    by_cases hp : P a
    · rw [if_pos (by simpa using hp), List.flatMap_cons, flatMap_filter_ne P g h l]
    · rw [if_neg (by simpa using hp), flatMap_filter_ne P g h l, h a hp, List.nil_append]

theorem sliceFor_blocks (vn : Nat) (n : Nat → Nat) (g : Nat → List T) (hg : ∀ p, (g p).length = n p * vn) (q : Nat) (rest : List T) : ∀ (l : List Nat), q ∈ l →
    sliceFor vn (l.map fun p => (p, n p)) (l.flatMap g ++ rest) q = g q
  | [], h => by simp at h
  | p :: l, h => by
    rw [List.map_cons, sliceFor, List.flatMap_cons, List.append_assoc]
    by_cases e1 : p = q
    · subst e1
      rw [if_pos rfl, ← hg p, List.take_left']
      rfl
    · rw [if_neg e1, ← hg p, List.drop_left']
      · exact sliceFor_blocks vn n g hg q rest l (by rcases List.mem_cons.1 h with h | h; exact absurd h.symm e1; exact h)
      · rfl

variable {np : Nat} {ids : Nat → List Int}

/-- the values `g p a` for the pairs received by `q`, in buffer order -/
def pvals (t : Bool) (np : Nat) (ids : Nat → List Int) (q : Nat) (g : Nat → Nat → V) : List V := (rpairs t np ids q).map fun x => g x.1 x.2

theorem pvals_blocks (t : Bool) (q : Nat) (g : Nat → Nat → V) (r : V → List T) :
    (pvals t np ids q g).flatMap r = ((List.range np).filter fun p => rids t ids q p ≠ []).flatMap fun p => ((rids t ids q p).map (g p)).flatMap r := by
  rw [flatMap_filter_ne (fun p => rids t ids q p ≠ [])]
  · unfold pvals rpairs
    rw [List.map_flatMap, List.flatMap_assoc]
    apply List.flatMap_congr
    intro p _
    rw [List.map_map]; rfl
  · intro p hp
    rw [not_not.1 hp]; rfl

theorem pvals_get (t : Bool) (q : Nat) (g : Nat → Nat → V) {p a : Nat} (h : (p, a) ∈ rpairs t np ids q) :
    (pvals t np ids q g)[(rpairs t np ids q).idxOf (p, a)]? = some (g p a) := by
  unfold pvals
  rw [List.getElem?_map, List.getElem?_idxOf h]; rfl

theorem mem_pwGroups {t : Bool} {q : Nat} {g : Nat × List Nat} : g ∈ pwGroups t np ids q ↔
    ∃ a, has (ids q) a ∧ (∃ p, p < np ∧ RecvG t ids q p a) ∧ g = (prim (ids q) a, ((List.range np).filter fun p => RecvG t ids q p a).map fun p => (rpairs t np ids q).idxOf (p, a)) := by
  unfold pwGroups
  rw [List.mem_filter, List.mem_map]
  constructor
  · rintro ⟨⟨a, ha, rfl⟩, hne⟩
    refine ⟨a, mem_uids.1 ha, ?_, rfl⟩
    simp only [ne_eq, List.map_eq_nil_iff, List.filter_eq_nil_iff, decide_eq_true_eq, List.mem_range, not_forall, not_not] at hne
    obtain ⟨p, hp, hr⟩ := hne
    exact ⟨p, hp, hr⟩
  · rintro ⟨a, ha, ⟨p, hp, hr⟩, rfl⟩
    refine ⟨⟨a, mem_uids.2 ha, rfl⟩, ?_⟩
    simp only [ne_eq, List.map_eq_nil_iff, List.filter_eq_nil_iff, decide_eq_true_eq, List.mem_range, not_forall, not_not]
    exact ⟨p, hp, hr⟩

theorem pwGroups_idx {t : Bool} {q a j : Nat} (hj : j ∈ ((List.range np).filter fun p => RecvG t ids q p a).map fun p => (rpairs t np ids q).idxOf (p, a)) :
    ∃ p, (p, a) ∈ rpairs t np ids q ∧ j = (rpairs t np ids q).idxOf (p, a) := by
  obtain ⟨p, hp, rfl⟩ := List.mem_map.1 hj
  rw [List.mem_filter, decide_eq_true_eq, List.mem_range] at hp
  exact ⟨p, mem_rpairs.2 hp, rfl⟩

theorem pwGroups_ok (hi : ∀ q, q < np → IdsOk (ids q)) (hsmall : sharedPairs np ids < 4294967295) (t : Bool) {q : Nat} (hq : q < np) : ∀ g ∈ pwGroups t np ids q, GroupOk g := by
  intro g hg
  obtain ⟨a, ha, ⟨p, hp, hr⟩, rfl⟩ := mem_pwGroups.1 hg
  constructor
  · simp only [ne_eq, List.map_eq_nil_iff, List.filter_eq_nil_iff, decide_eq_true_eq, List.mem_range, not_forall, not_not]
    exact ⟨p, hp, hr⟩
  · have := prim_lt_length ha
    have := (hi q hq).len
    simp only [uintMax]; omega
  · intro j hj
    obtain ⟨p, hp, rfl⟩ := pwGroups_idx hj
    have := List.idxOf_lt_length_of_mem hp
    have := rpairs_length_le t (np := np) (ids := ids) hq
    simp only [uintMax]; omega

theorem pwGroups_fst_nodup (t : Bool) (q : Nat) : ((pwGroups t np ids q).map (·.1)).Nodup := by
  unfold pwGroups
  refine List.Nodup.sublist (List.Sublist.map _ List.filter_sublist) ?_
  rw [List.map_map]
  refine List.Nodup.map_on ?_ (uids_nodup _)
  intro a ha b hb hab
  exact prim_inj (mem_uids.1 ha) (mem_uids.1 hb) hab

theorem pwGroups_disjoint (t : Bool) (q : Nat) : (pwGroups t np ids q).Pairwise fun g g' => ∀ j ∈ g.2, j ∉ g'.2 := by
  unfold pwGroups
  refine List.Pairwise.filter _ ?_
  rw [List.pairwise_map]
  refine (uids_nodup (ids q)).imp ?_
  intro a b hab j hj hj'
  obtain ⟨p, hp, rfl⟩ := pwGroups_idx hj
  obtain ⟨p', hp', e1⟩ := pwGroups_idx hj'
  have := (List.idxOf_inj hp).1 e1
  exact hab (Prod.mk.inj this).2

theorem pwGroups_cover {t : Bool} {q p a : Nat} (h : (p, a) ∈ rpairs t np ids q) : ∃ g ∈ pwGroups t np ids q, g.1 = prim (ids q) a ∧ (rpairs t np ids q).idxOf (p, a) ∈ g.2 := by
  have h1 := mem_rpairs.1 h
  refine ⟨_, mem_pwGroups.2 ⟨a, h1.2.1.2.1, ⟨p, h1⟩, rfl⟩, rfl, ?_⟩
  apply List.mem_map_of_mem
  rw [List.mem_filter, decide_eq_true_eq, List.mem_range]
  exact h1

/-- filling the send buffer -/
theorem pw_fill (t : Bool) {q : Nat} (b : List V) (hb : b.length = (rpairs t np ids q).length) (w : Nat → V) :
    (pwGroups t np ids q).foldlM (sstep (fun _ k => ldAt (tab (ids q).length w) k) stAt) b = some (pvals t np ids q fun _ a => w (prim (ids q) a)) := by
  by_cases hnil : b = []
  · subst hnil
    have h0 : rpairs t np ids q = [] := List.length_eq_zero_iff.1 hb.symm
    have h1 : pwGroups t np ids q = [] := by
      rw [List.eq_nil_iff_forall_not_mem]
      intro g hg
      obtain ⟨a, ha, ⟨p, hp⟩, _⟩ := mem_pwGroups.1 hg
      have := mem_rpairs.2 hp
      rw [h0] at this
      simp at this
    unfold pvals
    rw [h1, h0]; rfl
  · obtain ⟨d, _⟩ := List.exists_mem_of_ne_nil b hnil
    rw [eq_tab b d]
    obtain ⟨w', e1, h1, h2⟩ := scatter_run b.length (fun _ k => ldAt (tab (ids q).length w) k) w (fun _ => True) (pwGroups t np ids q) (fun k => b.getD k d)
      (pwGroups_disjoint t q) (by
        intro g hg j hj
        obtain ⟨a, ha, _, rfl⟩ := mem_pwGroups.1 hg
        obtain ⟨p, hp, rfl⟩ := pwGroups_idx hj
        rw [hb]
        exact ⟨List.idxOf_lt_length_of_mem hp, trivial⟩) (by
        intro w' _ g hg
        obtain ⟨a, ha, _, rfl⟩ := mem_pwGroups.1 hg
        exact ld_tab (prim_lt_length ha))
    rw [e1]
    congr 1
    apply List.ext_getElem?
    intro k
    rw [tab_get]
    by_cases hk : k < b.length
    · rw [if_pos hk]
      rw [hb] at hk
      have hm : (rpairs t np ids q)[k] ∈ rpairs t np ids q := List.getElem_mem hk
      obtain ⟨g, hg, e2, hj⟩ := pwGroups_cover (p := (rpairs t np ids q)[k].1) (a := (rpairs t np ids q)[k].2) hm
      have hidx : (rpairs t np ids q).idxOf ((rpairs t np ids q)[k].1, (rpairs t np ids q)[k].2) = k := (rpairs_nodup t np ids q).idxOf_getElem k hk
      have h3 := pvals_get t q (fun _ a => w (prim (ids q) a)) (p := (rpairs t np ids q)[k].1) (a := (rpairs t np ids q)[k].2) hm
      rw [hidx] at h3 hj
      rw [h3, h1 g hg k hj, e2]
    · rw [if_neg hk, List.getElem?_eq_none]
      unfold pvals
      rw [List.length_map]; omega

/-- combining the receive buffer -/
theorem pw_combine (t : Bool) {q : Nat} (g : Nat → Nat → V) (w : Nat → V) :
    ∃ w' : Nat → V, (pwGroups t np ids q).foldlM (gstep f ldAt stAt (fun _ k => ldAt (pvals t np ids q g) k)) (tab (ids q).length w) = some (tab (ids q).length w') ∧
      (∀ a, has (ids q) a → w' (prim (ids q) a) = (((List.range np).filter fun p => RecvG t ids q p a).map fun p => g p a).foldl f (w (prim (ids q) a))) ∧
      ∀ k, ¬ IsPrim (ids q) k → w' k = w k := by
  by_cases hnil : rpairs t np ids q = []
  · have h1 : pwGroups t np ids q = [] := by
      rw [List.eq_nil_iff_forall_not_mem]
      intro g hg
      obtain ⟨a, ha, ⟨p, hp⟩, _⟩ := mem_pwGroups.1 hg
      have := mem_rpairs.2 hp
      rw [hnil] at this
      simp at this
    refine ⟨w, by rw [h1]; rfl, ?_, fun _ _ => rfl⟩
    intro a ha
    have : ((List.range np).filter fun p => RecvG t ids q p a) = [] := by
      rw [List.filter_eq_nil_iff]
      intro p hp hr
      rw [decide_eq_true_eq] at hr
      have := mem_rpairs.2 ⟨List.mem_range.1 hp, hr⟩
      rw [hnil] at this
      simp at this
    rw [this]; rfl
  · obtain ⟨x, hx⟩ := List.exists_mem_of_ne_nil _ hnil
    obtain ⟨w', e1, h1, h2⟩ := gather_run f (ids q).length (fun _ k => ldAt (pvals t np ids q g) k) (fun k => (pvals t np ids q g).getD k (g x.1 x.2)) (fun _ => True) (pwGroups t np ids q) w
      (pwGroups_fst_nodup t q) (by
        intro g' hg
        obtain ⟨a, ha, _, rfl⟩ := mem_pwGroups.1 hg
        exact ⟨prim_lt_length ha, trivial⟩) (by
        intro w' _ g' hg j hj
        obtain ⟨a, ha, _, rfl⟩ := mem_pwGroups.1 hg
        obtain ⟨p, hp, rfl⟩ := pwGroups_idx hj
        show (pvals t np ids q g)[_]? = _
        rw [List.getD_eq_getElem?_getD, pvals_get t q g hp]; rfl)
    refine ⟨w', e1, ?_, ?_⟩
    · intro a ha
      by_cases hex : ∃ p, p < np ∧ RecvG t ids q p a
      · rw [h1 _ (mem_pwGroups.2 ⟨a, ha, hex, rfl⟩)]
        congr 1
        rw [List.map_map]
        apply List.map_congr_left
        intro p hp
        rw [List.mem_filter, decide_eq_true_eq, List.mem_range] at hp
        show (pvals t np ids q g).getD _ _ = _
        rw [List.getD_eq_getElem?_getD, pvals_get t q g (mem_rpairs.2 hp)]; rfl
      · have : ((List.range np).filter fun p => RecvG t ids q p a) = [] := by
          rw [List.filter_eq_nil_iff]
          intro p hp hr
          rw [decide_eq_true_eq] at hr
          exact hex ⟨p, List.mem_range.1 hp, hr⟩
        rw [this, h2]
        · rfl
        · intro hm
          obtain ⟨g', hg', e2⟩ := List.mem_map.1 hm
          obtain ⟨b, hb, hex', rfl⟩ := mem_pwGroups.1 hg'
          have := prim_inj hb ha e2
          subst this
          exact hex hex'
    · intro k hk
      apply h2
      intro hm
      obtain ⟨g', hg', e2⟩ := List.mem_map.1 hm
      obtain ⟨b, hb, hex', rfl⟩ := mem_pwGroups.1 hg'
      exact hk ⟨b, hb, e2.symm⟩


/-! ### the exchange -/

/-- a memory during gs with user data `w` -/
structure HasU (R : Rep D op K f e) (n : Nat) (w : Nat → V) (m : Nat) (s : GsSt U T) : Prop where
  u : s.u = R.repU (tab n w)
  buf : K.vn * m ≤ s.buf.length

theorem pwExec_ok (K : Kernels U T) (t : Bool) : (pwExec K (pwSpec np ids) t).Ok np := by
  have hm : ∀ t q p, (p ∈ (rmsgs t np ids q).map fun x => x.1) ↔ p < np ∧ rids t ids q p ≠ [] := by
    intro t q p
    unfold rmsgs
    rw [List.map_map]
    simp [List.mem_map, List.mem_filter]
  have hnd : ∀ t q, ((rmsgs t np ids q).map fun x => x.1).Nodup := by
    intro t q
    unfold rmsgs
    rw [List.map_map]
    have : (fun x : Nat × Nat => x.1) ∘ (fun p => (p, (rids t ids q p).length)) = id := rfl
    rw [this, List.map_id]
    exact List.nodup_range.filter _
  refine ⟨?_, ?_, ?_, ?_, ?_, ?_⟩
  · intro p _; simp [pwExec]
  · intro p _ s hs
    simp only [pwExec, List.mem_singleton] at hs
    subst hs; simp [pwExec, pwExecStep]
  · intro p _ s hs
    simp only [pwExec, List.mem_singleton] at hs
    subst hs
    show (((pwSpec np ids p).comm t).msgs.map fun x => (x.1, x.1)).Nodup
    have := (hnd t p).map (f := fun a => (a, a)) (fun a b h => (Prod.mk.inj h).1)
    rw [List.map_map] at this
    exact this
  · intro p _ s hs
    simp only [pwExec, List.mem_singleton] at hs
    subst hs
    show (((pwSpec np ids p).comm (!t)).msgs.map fun x => (x.1, p)).Nodup
    have := (hnd (!t) p).map (f := fun a => (a, p)) (fun a b h => (Prod.mk.inj h).1)
    rw [List.map_map] at this
    exact this
  · intro p hp s hs x hx
    simp only [pwExec, List.mem_singleton] at hs
    subst hs
    obtain ⟨y, hy, rfl⟩ := List.mem_map.1 hx
    have h1 := (hm (!t) p y.1).1 (List.mem_map_of_mem hy)
    refine ⟨h1.1, _, List.mem_singleton.2 rfl, rfl, ?_⟩
    rw [rids_not] at h1
    obtain ⟨z, hz, e1⟩ := List.mem_map.1 ((hm t y.1 p).2 ⟨hp, h1.2⟩)
    exact List.mem_map.2 ⟨z, hz, by rw [e1]⟩
  · intro p hp s hs x hx
    simp only [pwExec, List.mem_singleton] at hs
    subst hs
    obtain ⟨y, hy, rfl⟩ := List.mem_map.1 hx
    have h1 := (hm t p y.1).1 (List.mem_map_of_mem hy)
    refine ⟨h1.1, _, List.mem_singleton.2 rfl, rfl, ?_⟩
    have h2 : rids (!t) ids y.1 p ≠ [] := by rw [rids_not]; exact h1.2
    obtain ⟨z, hz, e1⟩ := List.mem_map.1 ((hm (!t) y.1 p).2 ⟨hp, h2⟩)
    exact List.mem_map.2 ⟨z, hz, by rw [e1]⟩

theorem pwExec_run (R : Rep D op K f e) (hi : ∀ q, q < np → IdsOk (ids q)) (hsmall : sharedPairs np ids < 4294967295) (t : Bool)
    (w : Nat → Nat → V) (hw : ∀ q, q < np → ∀ k, R.shp (w q k)) (s : Nat → GsSt U T)
    (hs : ∀ q, q < np → HasU R (ids q).length (w q) ((rpairs false np ids q).length + (rpairs true np ids q).length) (s q)) :
    ∃ (w' : Nat → Nat → V) (s' : Nat → GsSt U T), (pwExec K (pwSpec np ids) t).run np s = .ok s' ∧
      ∀ q, q < np → (s' q).u = R.repU (tab (ids q).length (w' q)) ∧
        (∀ a, has (ids q) a → w' q (prim (ids q) a) =
          (((List.range np).filter fun p => RecvG t ids q p a).map fun p => w p (prim (ids p) a)).foldl f (w q (prim (ids q) a))) ∧
        ∀ k, ¬ IsPrim (ids q) k → w' q k = w q k := by
  have hlen : ∀ q, q < np → K.vn * ((rpairs t np ids q).length + (rpairs (!t) np ids q).length) ≤ (s q).buf.length := by
    intro q hq
    have := (hs q hq).buf
    cases t
    · exact this
    · rw [Nat.add_comm]; exact this
  choose w' hcomb hprim hrest using fun q => pw_combine (f := f) (np := np) (ids := ids) t (q := q) (fun p a => w p (prim (ids p) a)) (w q)
  -- the send buffer
  let sb : Nat → List T := fun q => (pvals (!t) np ids q fun _ a => w q (prim (ids q) a)).flatMap R.repV ++
    ((s q).buf.drop (K.vn * (rpairs t np ids q).length)).drop (K.vn * (rpairs (!t) np ids q).length)
  have hshpS : ∀ q, q < np → ∀ v ∈ (pvals (!t) np ids q fun _ a => w q (prim (ids q) a)), R.shp v := by
    intro q hq v hv
    obtain ⟨x, _, rfl⟩ := List.mem_map.1 hv
    exact hw q hq _
  have hshpR : ∀ q, q < np → ∀ v ∈ (pvals t np ids q fun p a => w p (prim (ids p) a)), R.shp v := by
    intro q hq v hv
    obtain ⟨x, hx, rfl⟩ := List.mem_map.1 hv
    exact hw x.1 (mem_rpairs.1 hx).1 _
  have hshpT : ∀ q, q < np → ∀ v ∈ tab (ids q).length (w q), R.shp v := by
    intro q hq v hv
    obtain ⟨x, _, rfl⟩ := List.mem_map.1 hv
    exact hw q hq _
  let es : Nat → GsSt U T := fun q => { s q with buf := (s q).buf.take (K.vn * (rpairs t np ids q).length) ++ sb q }
  let buf2 : Nat → List T := fun q => (pvals t np ids q fun p a => w p (prim (ids p) a)).flatMap R.repV ++ sb q
  let gs : Nat → GsSt U T := fun q => { es q with u := R.repU (tab (ids q).length (w' q)), buf := buf2 q }
  have htake : ∀ q, q < np → ((s q).buf.take (K.vn * (rpairs t np ids q).length)).length = K.vn * (rpairs t np ids q).length := by
    intro q hq
    rw [List.length_take]
    have := hlen q hq
    rw [Nat.mul_add] at this
    omega
  have hdrop : ∀ q, q < np → (es q).buf.drop (K.vn * (rpairs t np ids q).length) = sb q := by
    intro q hq
    show ((s q).buf.take (K.vn * (rpairs t np ids q).length) ++ sb q).drop _ = _
    exact List.drop_left' (htake q hq)
  refine ⟨w', fun q => if q < np then gs q else s q, ?_, ?_⟩
  · refine Coll.one_run (st := fun q => pwExecStep K (pwSpec np ids q) t q) (e := es) (g := gs) (fun q => rfl) ?_ ?_ ?_
    · intro q hq
      obtain ⟨b, hb1, hb2, hb3⟩ := R.decode (rpairs (!t) np ids q).length ((s q).buf.drop (K.vn * (rpairs t np ids q).length)) (by
        rw [List.length_drop]
        have := hlen q hq
        rw [Nat.mul_add] at this
        omega)
      have h1 := R.toBuf (pwGroups (!t) np ids q) (tab (ids q).length (w q)) b (pvals (!t) np ids q fun _ a => w q (prim (ids q) a))
        (((s q).buf.drop (K.vn * (rpairs t np ids q).length)).drop (K.vn * (rpairs (!t) np ids q).length)) (hshpT q hq) hb2
        (pwGroups_ok hi hsmall (!t) hq) (pw_fill (!t) b hb1 (w q))
      rw [← hb3, ← (hs q hq).u] at h1
      show Outcome.ofOption ((K.toBuf (encGroups (pwGroups (!t) np ids q)) (s q).u ((s q).buf.drop (K.vn * (rpairs t np ids q).length))).bind _) = _
      rw [h1]
      rfl
    · intro q hq x hx
      have := (pwExec_ok (np := np) (ids := ids) K t).recv q hq _ (List.mem_singleton.2 rfl) x hx
      obtain ⟨h1, s', h2, _, h3⟩ := this
      refine ⟨h1, ?_⟩
      have : s' = pwExecStep K (pwSpec np ids x.1) t x.1 := List.mem_singleton.1 h2
      rw [this] at h3
      exact h3
    · intro q hq
      have hvals : ((pwExecStep K (pwSpec np ids q) t q).recvs.map fun x => (pwExecStep K (pwSpec np ids x.1) t x.1).payload (es x.1) (q, x.2)) =
          ((List.range np).filter fun p => rids t ids q p ≠ []).map fun p => ((rids t ids q p).map fun a => w p (prim (ids p) a)).flatMap R.repV := by
        show ((((List.range np).filter fun p => rids t ids q p ≠ []).map fun p => (p, (rids t ids q p).length)).map fun x => (x.1, x.1)).map _ = _
        rw [List.map_map, List.map_map]
        apply List.map_congr_left
        intro p hp
        rw [List.mem_filter, List.mem_range, decide_eq_true_eq] at hp
        show sliceFor K.vn (rmsgs (!t) np ids p) ((es p).buf.drop (K.vn * (rpairs t np ids p).length)) q = _
        rw [hdrop p hp.1]
        show sliceFor K.vn (rmsgs (!t) np ids p) ((pvals (!t) np ids p fun _ a => w p (prim (ids p) a)).flatMap R.repV ++ _) q = _
        rw [pvals_blocks]
        unfold rmsgs
        rw [sliceFor_blocks K.vn (fun r => (rids (!t) ids p r).length) (fun r => ((rids (!t) ids p r).map fun a => w p (prim (ids p) a)).flatMap R.repV)]
        · rw [rids_not]
        · intro r
          rw [R.flat_len, List.length_map, Nat.mul_comm]
          intro v hv
          obtain ⟨x, _, rfl⟩ := List.mem_map.1 hv
          exact hw p hp.1 _
        · rw [List.mem_filter, List.mem_range, decide_eq_true_eq, rids_not]
          exact ⟨hq, hp.2⟩
      rw [hvals]
      show (if _ then _ else _) = _
      rw [if_pos]
      · have hflat : (((List.range np).filter fun p => rids t ids q p ≠ []).map fun p => ((rids t ids q p).map fun a => w p (prim (ids p) a)).flatMap R.repV).flatten ++
            (es q).buf.drop (K.vn * (rpairs t np ids q).length) = buf2 q := by
          rw [hdrop q hq, ← List.flatMap_def]
          show _ = (pvals t np ids q fun p a => w p (prim (ids p) a)).flatMap R.repV ++ sb q
          rw [pvals_blocks]
        have hflat : _ ++ (es q).buf.drop (K.vn * ((pwSpec np ids q).comm t).total) = _ := hflat
        rw [hflat]
        have h1 := R.gatherBuf (pwGroups t np ids q) (tab (ids q).length (w q)) (pvals t np ids q fun p a => w p (prim (ids p) a)) (tab (ids q).length (w' q)) (sb q) (hshpT q hq) (hshpR q hq)
          (pwGroups_ok hi hsmall t hq) (hcomb q)
        rw [← (hs q hq).u] at h1
        have h1 : K.gatherBuf ((pwSpec np ids q).map t) (buf2 q) (es q).u = _ := h1
        rw [h1]
        rfl
      · show _ = (((List.range np).filter fun p => rids t ids q p ≠ []).map fun p => (p, (rids t ids q p).length)).map fun x => x.2 * K.vn
        rw [List.map_map, List.map_map]
        apply List.map_congr_left
        intro p hp
        rw [List.mem_filter, List.mem_range, decide_eq_true_eq] at hp
        show (((rids t ids q p).map fun a => w p (prim (ids p) a)).flatMap R.repV).length = (rids t ids q p).length * K.vn
        rw [R.flat_len, List.length_map, Nat.mul_comm]
        intro v hv
        obtain ⟨x, _, rfl⟩ := List.mem_map.1 hv
        exact hw p hp.1 _
  · intro q hq
    beta_reduce
    rw [if_pos hq]
    exact ⟨rfl, hprim q, hrest q⟩

end Gslib.Gs
