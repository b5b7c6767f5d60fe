import Verif.Model.GsAuto
import Verif.Lemmas.GsParam
import Verif.Lemmas.GsFinal
import Verif.Lemmas.FindptsSetup

/-!
# The measurements of gs_auto end
-/

namespace Gslib.Gs
open Gslib Gslib.Mpi Gslib.Spec Gslib.Props Gslib.Comm

variable {K T : Type} {np : Nat} {ids : Nat → List Int}

/-! ### dry runs -/

/-- values without content -/
def unitDom : Dom Unit := ⟨fun _ _ _ => (), fun _ => ()⟩

theorem unit_monoid : CommMonoidOn (fun _ : Unit => True) (unitDom.doOp .add) (unitDom.identity .add) :=
  ⟨fun _ _ _ _ => trivial, trivial, fun _ _ _ _ _ _ => rfl, fun _ _ _ _ => rfl, fun _ _ => rfl, fun _ _ => rfl⟩

abbrev AnyT {T : Type} : Unit → T → Prop := fun _ _ => True
abbrev AnyU : List Unit → Unit → Prop := fun _ _ => True

theorem unit_domRel (D : Dom T) : DomRel AnyT unitDom D .add := ⟨fun _ _ _ _ _ _ => trivial, trivial⟩

theorem lrel_any_length {a : List Unit} {b : List T} : a.length = b.length → LRel AnyT a b := by
  induction a generalizing b with
  | nil =>
    intro h
    cases b with
    | nil => exact .nil
    | cons _ _ => simp at h
  | cons x a ih =>
    intro h
    cases b with
    | nil => simp at h
    | cons y b => exact .cons trivial (ih (by simpa using h))

/-- without content, the kernels for plain data do what those of the dry run do -/
theorem dry_rel (D : Dom T) : KRel AnyU AnyT (plainKernels unitDom .add) (dryKernels D .add) where
  vn := rfl
  gather _ _ _ _ := fun _ _ => ⟨(), rfl, trivial⟩
  init _ _ _ _ := fun _ _ => ⟨(), rfl, trivial⟩
  scatter _ _ _ _ := fun _ _ => ⟨(), rfl, trivial⟩
  toBuf m u _ b b' _ hb := by
    intro c e
    refine ⟨b', rfl, ?_⟩
    have h1 := scat_rel (R := fun (_ : Unit) (_ : Unit) => True) m (c := u) (c' := u) (b := b) (b' := b)
      (List.forall₂_same.2 fun _ _ => trivial) (List.forall₂_same.2 fun _ _ => trivial)
    have : c.length = b.length := by
      -- the loop replaces entries
      have key : ∀ (m : List Nat) (p : Pos Unit) (b c : List Unit), scatterLoop (fun _ k => ldAt u k) stAt m p b = some c → c.length = b.length := by
        intro m
        induction m with
        | nil => intro p b c e; cases p <;> simp [scatterLoop] at e
        | cons x m ih =>
          intro p b c e
          cases p with
          | outer =>
            rw [scatterLoop] at e
            split at e
            · rw [Option.some.inj e]
            · obtain ⟨t, -, e⟩ := Option.bind_eq_some_iff.1 e
              exact ih _ _ _ e
          | first a =>
            rw [scatterLoop] at e
            obtain ⟨t, e1, e⟩ := Option.bind_eq_some_iff.1 e
            rw [ih _ _ _ e]
            unfold stAt at e1
            split at e1
            · rw [← Option.some.inj e1, List.length_set]
            · cases e1
          | more a =>
            rw [scatterLoop] at e
            split at e
            · exact ih _ _ _ e
            · obtain ⟨t, e1, e⟩ := Option.bind_eq_some_iff.1 e
              rw [ih _ _ _ e]
              unfold stAt at e1
              split at e1
              · rw [← Option.some.inj e1, List.length_set]
              · cases e1
      exact key m _ b c e
    exact lrel_any_length (this.trans hb.length_eq)
  fromBuf _ _ _ _ _ _ _ := fun _ _ => ⟨(), rfl, trivial⟩
  gatherBuf _ _ _ _ _ _ _ := fun _ _ => ⟨(), rfl, trivial⟩
  bufScatter m _ _ _ _ hc hb := scat_rel m hc hb
  bufGather m _ _ _ _ hc hb := gath_rel (unit_domRel D) m hc hb

/-- a collective operation ends from every memory -/
structure Ends {S W : Type} (c : Coll S W) (np : Nat) : Prop where
  ok : c.Ok np
  run : ∀ s, ∃ s', c.run np s = .ok s'

theorem Ends.seq {S W : Type} {a b : Coll S W} (ha : Ends a np) (hb : Ends b np) : Ends (a.seq b) np := by
  refine ⟨Coll.seq_ok ha.ok hb.ok, fun s => ?_⟩
  obtain ⟨s1, e1⟩ := ha.run s
  obtain ⟨s2, e2⟩ := hb.run s1
  exact ⟨s2, Coll.seq_run_ok ha.ok e1 e2⟩

theorem Ends.nil {S W : Type} : Ends (⟨0, fun _ => []⟩ : Coll S W) np := ⟨nil_matched np, fun s => ⟨s, rfl⟩⟩

theorem Ends.rep {S W : Type} {c : Coll S W} (h : Ends c np) : ∀ k, Ends (Gs.rep c k) np
  | 0 => Ends.nil
  | k + 1 => (h.rep k).seq h

/-- an exchange that works with a large enough buffer, on data without content, works in a dry run -/
theorem dryRuns_ends {m : Nat → Nat} {ex : Coll (GsSt (List Unit) Unit) (List Unit)} (D : Dom T) {ex' : Coll (GsSt Unit T) (List T)}
    (h : Exch (plainRep unitDom .add) (fun _ => True) np ids false m ex) (hr : CollRel (StRel AnyU AnyT) (LRel AnyT) ex ex') : Ends (dryRuns ex' m) np := by
  refine Ends.rep ⟨Coll.seq_ok (Coll.loc_ok _ _ _) ?_, fun s => ?_⟩ 12
  · have := matched_rel (fun p _ => hr.prog p) h.okc
    unfold Coll.Ok
    rw [hr.T]
    exact this
  · let s1 : Nat → GsSt Unit T := fun p => if p < np then reserve (m p) (s p) else s p
    have r1 : (Coll.loc (fun p (s : GsSt Unit T) => .ok (reserve (m p) s)) ([] : List T)).run np s = .ok s1 := Coll.loc_run_ok fun _ _ => rfl
    let d : Nat → GsSt (List Unit) Unit := fun p => ⟨tab (ids p).length fun _ => (), List.replicate (s1 p).buf.length (), fun _ => (), List.replicate (s1 p).arr.length ()⟩
    have hd : ∀ p, p < np → StRel AnyU AnyT (d p) (s1 p) := fun p _ => ⟨trivial, lrel_any_length (by simp [d]), fun _ => trivial, lrel_any_length (by simp [d])⟩
    obtain ⟨w', t, e, -⟩ := h.run (fun _ _ => ()) d (fun _ _ _ => trivial) (fun _ _ _ _ => trivial) (fun _ _ _ _ _ _ => rfl) (fun q hq => ⟨rfl, by
      show 1 * m q ≤ (List.replicate (s1 q).buf.length ()).length
      rw [List.length_replicate]
      simp only [s1, if_pos hq, reserve, List.length_append, List.length_map, List.length_range]
      omega⟩)
    obtain ⟨t', e', -⟩ := lockRun_rel (fun p _ => hr.prog p) hd _ e
    refine ⟨t', Coll.seq_run_ok (Coll.loc_ok _ _ _) r1 ?_⟩
    unfold Coll.run
    rw [hr.T]
    exact e'

theorem dry_pw (D : Dom T) (hi : ∀ q, q < np → IdsOk (ids q)) (hsmall : sharedPairs np ids < 4294967295) :
    Ends (dryRuns (pwExec (dryKernels D .add) (pwSpec np ids) false) fun p => (Remote.pairwise (pwSpec np ids p)).bufferSize) np :=
  dryRuns_ends D (pwExec_exch (plainRep unitDom .add) unit_monoid (fun _ _ => trivial) hi hsmall false) (pwExec_rel (dry_rel D) _ _)

theorem dry_cr (D : Dom T) (hi : ∀ q, q < np → IdsOk (ids q)) {NB : Nat} (hB : IdBound np ids NB) (hNB : 3 * NB < 4294967295) {d : Nat → CrData} (hd : CrOk np ids d) :
    Ends (dryRuns (crExec (dryKernels D .add) np d false) fun p => (Remote.crystal (d p)).bufferSize) np := by
  obtain ⟨R0, Rw, Vl, gl, h0, hl⟩ := hd.learned false
  exact dryRuns_ends D (crExec_exch (plainRep unitDom .add) unit_monoid (fun _ _ => trivial) hi hB hNB false hl h0 (hd.sbs false)) (crExec_rel (dry_rel D) np _ _)

theorem dry_ar (D : Dom T) (hi : ∀ q, q < np → IdsOk (ids q)) {ord : Nat → Nat} {total : Nat} (ho : OrdOk np ids ord total) (htot : total ≤ 4294967295) (st : Nat → TopoSt)
    (h : ∀ q, q < np → TopoCore np ids ord total q (st q)) :
    Ends (dryRuns (arExec (dryKernels D .add) D .add np total (fun q => allreduceSetup (st q).pr (st q).total) false) fun p => (Remote.allreduce (allreduceSetup (st p).pr (st p).total)).bufferSize) np :=
  dryRuns_ends D (arExec_exch (plainRep unitDom .add) unit_monoid (fun _ _ => trivial) hi ho htot st h false _) (arExec_rel (unit_domRel D) (dry_rel D) np total _ _)

/-! ### times -/

theorem foldRanks_single (D : Dom T) (op : Op) (t : Nat → T) (b : Nat) : ∀ n, foldRanks (gatherArray D op) (fun p => [t p]) b n = [foldRanks (D.doOp op) t b n]
  | 0 => rfl
  | n + 1 => by
    rw [foldRanks, foldRanks, foldRanks_single D op t b n]; rfl

theorem lens_autoSu : Lens (AutoSt.su (K := K)) AutoSt.setSu := ⟨fun _ _ => rfl, fun _ => rfl, fun _ _ _ => rfl⟩
theorem lens_autoDry : Lens (AutoSt.dry (K := K)) AutoSt.setDry := ⟨fun _ _ => rfl, fun _ => rfl, fun _ _ _ => rfl⟩
theorem lens_autoX : Lens (AutoSt.x (K := K)) AutoSt.setX := ⟨fun _ _ => rfl, fun _ => rfl, fun _ _ _ => rfl⟩

theorem autoSu_ok {c : Coll SetupSt SetupMsg} (h : c.Ok np) : (autoSu (K := K) c).Ok np := Coll.lift_ok _ _ (Coll.mapW_ok _ _ h)

theorem autoSu_run {c : Coll SetupSt SetupMsg} {s : Nat → AutoSt K} {u u' : Nat → SetupSt} (hs : ∀ p, p < np → (s p).su = u p) (e : c.run np u = .ok u') :
    (autoSu c).run np s = .ok (putAll AutoSt.setSu np s u') := by
  unfold autoSu
  rw [Coll.lift_run lens_autoSu _ np s u hs, Coll.mapW_run Sum.inl AutoMsg.su (fun _ => rfl), e]; rfl

theorem autoReduce_ok (dom : Dom K) (op : Op) (np : Nat) : (autoReduce dom op np).Ok np := Coll.lift_ok _ _ (Coll.mapW_ok _ _ (Fp.commAllreduce_ok _ _ _ _))

theorem autoReduce_run {dom : Dom K} {op : Op} (hg : AssocOn (fun _ => True) (dom.doOp op)) {s : Nat → AutoSt K} {t : Nat → K} (hs : ∀ p, p < np → (s p).x = [t p]) :
    (autoReduce dom op np).run np s = .ok fun p => if p < np then (s p).setX [reduceAll (dom.doOp op) t np] else s p := by
  unfold autoReduce
  rw [Coll.lift_run lens_autoX _ np s (fun p => [t p]) hs, Coll.mapW_run Sum.inr AutoMsg.vals (fun _ => rfl)]
  unfold commAllreduce
  rw [if_neg (by decide), allreduce_run dom op (gatherArray_assocOn dom op hg 1) np (fun p => [t p]) fun p hp => ⟨rfl, fun _ _ => trivial⟩]
  show Outcome.ok _ = _
  congr 1
  funext p
  unfold putAll reduceAll
  by_cases hp : p < np
  · simp only [if_pos hp, foldRanks_single]
  · simp only [if_neg hp]

variable [Field K] [LinearOrder K] [IsStrictOrderedRing K]

theorem realMax_eq (big : K) (toU : K → Nat) (ofU : Nat → K) (a b : K) : (realDom big toU ofU).doOp .max a b = max a b := by
  show (if b > a then b else a) = _
  split
  · rw [max_eq_right]; exact le_of_lt ‹_›
  · rw [max_eq_left]; exact not_lt.1 ‹_›

theorem realMin_eq (big : K) (toU : K → Nat) (ofU : Nat → K) (a b : K) : (realDom big toU ofU).doOp .min a b = min a b := by
  show (if b < a then b else a) = _
  split
  · rw [min_eq_right]; exact le_of_lt ‹_›
  · rw [min_eq_left]; exact not_lt.1 ‹_›

theorem realMax_assoc (big : K) (toU : K → Nat) (ofU : Nat → K) : AssocOn (fun _ => True) ((realDom big toU ofU).doOp .max) :=
  ⟨fun _ _ _ _ => trivial, fun a b c _ _ _ => by rw [realMax_eq, realMax_eq, realMax_eq, realMax_eq, max_assoc]⟩

theorem realMin_assoc (big : K) (toU : K → Nat) (ofU : Nat → K) : AssocOn (fun _ => True) ((realDom big toU ofU).doOp .min) :=
  ⟨fun _ _ _ _ => trivial, fun a b c _ _ _ => by rw [realMin_eq, realMin_eq, realMin_eq, realMin_eq, min_assoc]⟩

theorem realAdd_assoc (big : K) (toU : K → Nat) (ofU : Nat → K) : AssocOn (fun _ => True) ((realDom big toU ofU).doOp .add) :=
  ⟨fun _ _ _ _ => trivial, fun a b c _ _ _ => by show a + b + c = a + (b + c); rw [add_assoc]⟩

/-- the largest of the measured times, as computed by comm_allreduce -/
theorem foldMax (big : K) (toU : K → Nat) (ofU : Nat → K) (t : Nat → K) : ∀ n, (∃ q, q ≤ n ∧ foldRanks ((realDom big toU ofU).doOp .max) t 0 n = t q) ∧ ∀ q, q ≤ n → t q ≤ foldRanks ((realDom big toU ofU).doOp .max) t 0 n
  | 0 => ⟨⟨0, le_refl _, rfl⟩, fun q hq => by rw [Nat.le_zero.1 hq]; rfl⟩
  | n + 1 => by
    obtain ⟨⟨q, hq, e⟩, h⟩ := foldMax big toU ofU t n
    rw [foldRanks, realMax_eq, show 0 + n + 1 = n + 1 by omega]
    refine ⟨?_, ?_⟩
    · rcases max_choice (foldRanks ((realDom big toU ofU).doOp .max) t 0 n) (t (n + 1)) with c | c
      · exact ⟨q, by omega, c.trans e⟩
      · exact ⟨n + 1, le_refl _, c⟩
    · intro r hr
      rcases Nat.lt_or_ge n r with c | c
      · rw [show r = n + 1 by omega]; exact le_max_right _ _
      · exact le_max_of_le_left (h r c)

/-- the three results of dry_run_time -/
def timesOf (dom : Dom K) (np : Nat) (t : Nat → K) : Times K :=
  ⟨reduceAll (dom.doOp .add) (fun p => t p / np) np, reduceAll (dom.doOp .min) t np, reduceAll (dom.doOp .max) t np⟩

theorem dryTime_ok (dom : Dom K) (np : Nat) {ex : Coll (GsSt Unit K) (List K)} {n : Nat → Nat} (hex : Ends (dryRuns ex n) np) (t : Nat → K) : (dryTime dom np ex n t).Ok np :=
  Coll.seq_ok (Coll.seq_ok (Coll.seq_ok (Coll.seq_ok (Coll.seq_ok (Coll.seq_ok (Coll.seq_ok (Coll.lift_ok _ _ (Coll.mapW_ok _ _ hex.ok)) (Coll.loc_ok _ _ _)) (autoReduce_ok _ _ _)) (Coll.loc_ok _ _ _)) (autoReduce_ok _ _ _)) (Coll.loc_ok _ _ _)) (autoReduce_ok _ _ _)) (Coll.loc_ok _ _ _)

theorem dryTime_run (big : K) (toU : K → Nat) (ofU : Nat → K) {ex : Coll (GsSt Unit K) (List K)} {n : Nat → Nat} (hex : Ends (dryRuns ex n) np) (t : Nat → K) (s : Nat → AutoSt K) :
    ∃ s', (dryTime (realDom big toU ofU) np ex n t).run np s = .ok s' ∧ ∀ p, p < np → (s' p).su = (s p).su ∧ (s' p).alt = (s p).alt ∧ (s' p).time0 = (s p).time0 ∧
      (s' p).time1 = timesOf (realDom big toU ofU) np t := by
  let dom := realDom big toU ofU
  obtain ⟨d, e0⟩ := hex.run fun p => (s p).dry
  have k0 : (((dryRuns ex n).mapW Sum.inr AutoMsg.vals).lift AutoSt.dry AutoSt.setDry).Ok np := Coll.lift_ok _ _ (Coll.mapW_ok _ _ hex.ok)
  let s0 := putAll AutoSt.setDry np s d
  have r0 : (((dryRuns ex n).mapW Sum.inr AutoMsg.vals).lift AutoSt.dry AutoSt.setDry).run np s = .ok s0 := by
    rw [Coll.lift_run lens_autoDry _ np s (fun p => (s p).dry) (fun _ _ => rfl), Coll.mapW_run Sum.inr AutoMsg.vals (fun _ => rfl), e0]; rfl
  let s1 : Nat → AutoSt K := fun p => if p < np then { s0 p with x := [t p / np] } else s0 p
  have r1 : (autoLoc fun p (s : AutoSt K) => .ok { s with x := [t p / np] }).run np s0 = .ok s1 := Coll.loc_run_ok fun _ _ => rfl
  let s2 : Nat → AutoSt K := fun p => if p < np then (s1 p).setX [reduceAll (dom.doOp .add) (fun p => t p / np) np] else s1 p
  have r2 : (autoReduce dom .add np).run np s1 = .ok s2 := autoReduce_run (realAdd_assoc big toU ofU) fun p hp => by simp only [s1, if_pos hp]
  let s3 : Nat → AutoSt K := fun p => if p < np then { s2 p with x := [t p], time1 := { (s2 p).time1 with avg := reduceAll (dom.doOp .add) (fun p => t p / np) np } } else s2 p
  have r3 : (autoLoc fun p (s : AutoSt K) => match s.x with
    | [v] => .ok { s with x := [t p], time1 := { s.time1 with avg := v } }
    | _ => .ub).run np s2 = .ok s3 := by
    refine Coll.loc_run_ok fun p hp => ?_
    have : (s2 p).x = [reduceAll (dom.doOp .add) (fun p => t p / np) np] := by simp only [s2, if_pos hp]; rfl
    simp only [this]
  let s4 : Nat → AutoSt K := fun p => if p < np then (s3 p).setX [reduceAll (dom.doOp .min) t np] else s3 p
  have r4 : (autoReduce dom .min np).run np s3 = .ok s4 := autoReduce_run (realMin_assoc big toU ofU) fun p hp => by simp only [s3, if_pos hp]
  let s5 : Nat → AutoSt K := fun p => if p < np then { s4 p with x := [t p], time1 := { (s4 p).time1 with min := reduceAll (dom.doOp .min) t np } } else s4 p
  have r5 : (autoLoc fun p (s : AutoSt K) => match s.x with
    | [v] => .ok { s with x := [t p], time1 := { s.time1 with min := v } }
    | _ => .ub).run np s4 = .ok s5 := by
    refine Coll.loc_run_ok fun p hp => ?_
    have : (s4 p).x = [reduceAll (dom.doOp .min) t np] := by simp only [s4, if_pos hp]; rfl
    simp only [this]
  let s6 : Nat → AutoSt K := fun p => if p < np then (s5 p).setX [reduceAll (dom.doOp .max) t np] else s5 p
  have r6 : (autoReduce dom .max np).run np s5 = .ok s6 := autoReduce_run (realMax_assoc big toU ofU) fun p hp => by simp only [s5, if_pos hp]
  let s7 : Nat → AutoSt K := fun p => if p < np then { s6 p with time1 := { (s6 p).time1 with max := reduceAll (dom.doOp .max) t np } } else s6 p
  have r7 : (autoLoc fun _ (s : AutoSt K) => match s.x with
    | [v] => .ok { s with time1 := { s.time1 with max := v } }
    | _ => .ub).run np s6 = .ok s7 := by
    refine Coll.loc_run_ok fun p hp => ?_
    have : (s6 p).x = [reduceAll (dom.doOp .max) t np] := by simp only [s6, if_pos hp]; rfl
    simp only [this]
  refine ⟨s7, ?_, fun p hp => ?_⟩
  · have k1 := Coll.seq_ok k0 (b := autoLoc fun p (s : AutoSt K) => .ok { s with x := [t p / np] }) (Coll.loc_ok _ _ _)
    have k2 := Coll.seq_ok k1 (autoReduce_ok dom .add np)
    have k3 := Coll.seq_ok k2 (b := autoLoc fun p (s : AutoSt K) => match s.x with
      | [v] => .ok { s with x := [t p], time1 := { s.time1 with avg := v } }
      | _ => .ub) (Coll.loc_ok _ _ _)
    have k4 := Coll.seq_ok k3 (autoReduce_ok dom .min np)
    have k5 := Coll.seq_ok k4 (b := autoLoc fun p (s : AutoSt K) => match s.x with
      | [v] => .ok { s with x := [t p], time1 := { s.time1 with min := v } }
      | _ => .ub) (Coll.loc_ok _ _ _)
    have k6 := Coll.seq_ok k5 (autoReduce_ok dom .max np)
    exact Coll.seq_run_ok k6 (Coll.seq_run_ok k5 (Coll.seq_run_ok k4 (Coll.seq_run_ok k3 (Coll.seq_run_ok k2 (Coll.seq_run_ok k1 (Coll.seq_run_ok k0 r0 r1) r2) r3) r4) r5) r6) r7
  · simp only [s7, s6, s5, s4, s3, s2, s1, s0, putAll, if_pos hp, AutoSt.setX, AutoSt.setDry]
    exact ⟨trivial, trivial, trivial, rfl⟩

theorem autoRequire_run {c : Nat → AutoSt K → Prop} {s : Nat → AutoSt K} (h : ∀ p, p < np → c p (s p)) : (autoRequire c).run np s = .ok s := by
  unfold autoRequire autoLoc
  rw [Coll.loc_run_ok (g := s) fun p hp => if_pos (h p hp)]
  congr 1
  funext p
  split <;> rfl

theorem autoRequire_ok (c : Nat → AutoSt K → Prop) : (autoRequire c).Ok np := Coll.loc_ok _ _ _

/-! ### the three measurements -/

variable {big : K} {toU : K → Nat} {ofU : Nat → K}

theorem autoPw_ok {dom : Dom K} {par : AutoPar} (hex : Ends (dryRuns (pwExec (dryKernels dom .add) par.pw false) fun p => (Remote.pairwise (par.pw p)).bufferSize) np) (t : Nat → K) : (autoPw dom np par t).Ok np :=
  Coll.seq_ok (Coll.seq_ok (autoRequire_ok _) (dryTime_ok _ _ hex _)) (Coll.loc_ok _ _ _)

theorem autoPw_run {par : AutoPar} (hex : Ends (dryRuns (pwExec (dryKernels (realDom big toU ofU) .add) par.pw false) fun p => (Remote.pairwise (par.pw p)).bufferSize) np) (t : Nat → K) {s : Nat → AutoSt K}
    (hs : ∀ p, p < np → (s p).su.h.r = .pairwise (par.pw p)) :
    ∃ s', (autoPw (realDom big toU ofU) np par t).run np s = .ok s' ∧ ∀ p, p < np → (s' p).su = (s p).su ∧ (s' p).time0 = timesOf (realDom big toU ofU) np t := by
  have r1 : (autoRequire fun p (s : AutoSt K) => s.su.h.r = .pairwise (par.pw p)).run np s = .ok s := autoRequire_run hs
  obtain ⟨s2, r2, h2⟩ := dryTime_run big toU ofU hex t s
  have r3 : (autoLoc fun _ (s : AutoSt K) => .ok { s with time0 := s.time1 }).run np s2 = .ok fun p => if p < np then { s2 p with time0 := (s2 p).time1 } else s2 p := Coll.loc_run_ok fun _ _ => rfl
  refine ⟨_, Coll.seq_run_ok (Coll.seq_ok (autoRequire_ok _) (dryTime_ok _ _ hex _)) (Coll.seq_run_ok (autoRequire_ok _) r1 r2) r3, fun p hp => ?_⟩
  obtain ⟨a, b, c, d⟩ := h2 p hp
  beta_reduce
  rw [if_pos hp]
  exact ⟨a, d⟩

theorem autoChoose_su (s : AutoSt K) : (autoChoose s).su = if s.time1.max < s.time0.max then s.su.setRemote s.alt else s.su := by
  unfold autoChoose; split <;> rfl

theorem autoChoose_max (s : AutoSt K) : (autoChoose s).time0.max = min s.time1.max s.time0.max := by
  unfold autoChoose
  split
  · exact (min_eq_left (le_of_lt ‹_›)).symm
  · exact (min_eq_right (not_lt.1 ‹_›)).symm

theorem autoAlt_run {get : AutoSt K → Remote} {r : Nat → Remote} {c : Nat → AutoSt K → Prop} {ex : Coll (GsSt Unit K) (List K)} {n : Nat → Nat} (hex : Ends (dryRuns ex n) np) (t : Nat → K) {s : Nat → AutoSt K}
    (hr : ∀ p, p < np → get (s p) = r p) (hc : ∀ p, p < np → c p { s p with alt := r p }) :
    ∃ s', ((((autoLoc fun _ (s : AutoSt K) => .ok { s with alt := get s }).seq (autoRequire c)).seq (dryTime (realDom big toU ofU) np ex n t)).seq (autoLoc fun _ s => .ok (autoChoose s))).run np s = .ok s' ∧
      ∀ p, p < np → (s' p).su = (if (timesOf (realDom big toU ofU) np t).max < (s p).time0.max then (s p).su.setRemote (r p) else (s p).su) ∧
        (s' p).time0.max = min (timesOf (realDom big toU ofU) np t).max (s p).time0.max := by
  let s1 : Nat → AutoSt K := fun p => if p < np then { s p with alt := get (s p) } else s p
  have r1 : (autoLoc fun _ (s : AutoSt K) => .ok { s with alt := get s }).run np s = .ok s1 := Coll.loc_run_ok fun _ _ => rfl
  have r2 : (autoRequire c).run np s1 = .ok s1 := autoRequire_run fun p hp => by
    simp only [s1, if_pos hp, hr p hp]
    exact hc p hp
  obtain ⟨s2, r3, h2⟩ := dryTime_run big toU ofU hex t s1
  have r4 : (autoLoc fun _ (s : AutoSt K) => .ok (autoChoose s)).run np s2 = .ok fun p => if p < np then autoChoose (s2 p) else s2 p := Coll.loc_run_ok fun _ _ => rfl
  have k1 : (autoLoc fun _ (s : AutoSt K) => .ok { s with alt := get s }).Ok np := Coll.loc_ok _ _ _
  have k2 := Coll.seq_ok k1 (autoRequire_ok c)
  refine ⟨_, Coll.seq_run_ok (Coll.seq_ok k2 (dryTime_ok _ _ hex _)) (Coll.seq_run_ok k2 (Coll.seq_run_ok k1 r1 r2) r3) r4, fun p hp => ?_⟩
  obtain ⟨a, b, c, d⟩ := h2 p hp
  beta_reduce
  rw [if_pos hp, autoChoose_su, autoChoose_max, a, b, c, d]
  simp only [s1, if_pos hp, hr p hp]
  exact ⟨trivial, trivial⟩

/-- cr_setup, whether the method is kept or not -/
theorem setupCr_runs (hi : ∀ q, q < np → IdsOk (ids q)) {NB : Nat} (hB : IdBound np ids NB) (hNB : 3 * NB < 4294967295) (s : Nat → SetupSt)
    (hsh : ∀ q, q < np → ShOk np ids q (s q).topo.sh) :
    ∃ v : Nat → SetupSt, (∀ keep, ∃ s', (setupCr np keep).run np s = .ok s' ∧ ∀ q, q < np → s' q = if keep then (v q).setRemote (.crystal (v q).cr.data) else v q) ∧
      CrOk np ids (fun q => (v q).cr.data) ∧ ∀ q, q < np → (v q).topo = (s q).topo ∧ (v q).h = (s q).h := by
  let s1 : Nat → SetupSt := fun q => if q < np then (s q).setCr { (s q).cr with sh := (s q).topo.sh } else s q
  have hs1 : ∀ q, q < np → s1 q = (s q).setCr { (s q).cr with sh := (s q).topo.sh } := fun q hq => if_pos hq
  have r1 : (setupLoc fun _ s => .ok (s.setCr { s.cr with sh := s.topo.sh })).run np s = .ok s1 := Coll.loc_run_ok (fun q _ => rfl)
  obtain ⟨c, e2, h2⟩ := crSetup_run hi hB hNB (fun q => (s1 q).cr) (by
    intro q hq
    rw [hs1 q hq]; exact hsh q hq)
  have r2 : (((crSetup np).mapW Sum.inr SetupMsg.cr).lift SetupSt.cr SetupSt.setCr).run np s1 = .ok (putAll SetupSt.setCr np s1 c) := by
    rw [Coll.lift_run lens_cr _ np s1 (fun q => (s1 q).cr) (fun _ _ => rfl), Coll.mapW_run Sum.inr SetupMsg.cr (fun _ => rfl), e2]; rfl
  have hs2 : ∀ q, q < np → putAll SetupSt.setCr np s1 c q = (s q).setCr (c q) := by
    intro q hq
    unfold putAll
    rw [if_pos hq, hs1 q hq]; rfl
  refine ⟨fun q => (s q).setCr (c q), fun keep => ?_, h2, fun q hq => ⟨rfl, rfl⟩⟩
  have k1 : (setupLoc fun _ s => .ok (s.setCr { s.cr with sh := s.topo.sh })).Ok np := Coll.loc_ok _ _ _
  have k2 := Coll.lift_ok SetupSt.cr SetupSt.setCr (Coll.mapW_ok Sum.inr SetupMsg.cr (crSetup_ok np))
  refine ⟨_, Coll.seq_run_ok (Coll.seq_ok k1 k2) (Coll.seq_run_ok k1 r1 r2) (Coll.loc_run_ok (fun q _ => rfl)), fun q hq => ?_⟩
  beta_reduce
  rw [if_pos hq, hs2 q hq]

theorem autoCr_ok {dom : Dom K} {par : AutoPar} (hex : Ends (dryRuns (crExec (dryKernels dom .add) np par.cr false) fun p => (Remote.crystal (par.cr p)).bufferSize) np) (t : Nat → K) : (autoCr dom np par t).Ok np :=
  Coll.seq_ok (Coll.seq_ok (Coll.seq_ok (Coll.seq_ok (autoSu_ok (setupCr_ok np false)) (Coll.loc_ok _ _ _)) (autoRequire_ok _)) (dryTime_ok _ _ hex _)) (Coll.loc_ok _ _ _)

theorem autoAr_ok {dom : Dom K} {par : AutoPar} (hex : Ends (dryRuns (arExec (dryKernels dom .add) dom .add np par.arTotal par.ar false) fun p => (Remote.allreduce (par.ar p)).bufferSize) np) (t : Nat → K) : (autoAr dom np par t).Ok np :=
  Coll.seq_ok (Coll.seq_ok (Coll.seq_ok (Coll.loc_ok _ _ _) (autoRequire_ok _)) (dryTime_ok _ _ hex _)) (Coll.loc_ok _ _ _)

/-- the crystal router is kept, or not -/
def afterCr (M0 M1 : K) (v : SetupSt) : SetupSt := if M1 < M0 then v.setRemote (.crystal v.cr.data) else v

/-- the all-reduce is kept, or not -/
def afterAr (M0 M2 : K) (v : SetupSt) : SetupSt := if M2 < M0 then v.setRemote (.allreduce (allreduceSetup v.topo.pr v.topo.total)) else v

theorem autoCr_run {par : AutoPar} (hex : Ends (dryRuns (crExec (dryKernels (realDom big toU ofU) .add) np par.cr false) fun p => (Remote.crystal (par.cr p)).bufferSize) np) (t : Nat → K) {s : Nat → AutoSt K}
    {u v v' : Nat → SetupSt} (hu : ∀ p, p < np → (s p).su = u p) (hr : (setupCr np false).run np u = .ok v') (hv : ∀ p, p < np → v' p = v p) (hp : ∀ p, p < np → (v p).cr.data = par.cr p) {M0 : K} (hM : ∀ p, p < np → (s p).time0.max = M0) :
    ∃ s', (autoCr (realDom big toU ofU) np par t).run np s = .ok s' ∧ ∀ p, p < np → (s' p).su = afterCr M0 (timesOf (realDom big toU ofU) np t).max (v p) ∧
      (s' p).time0.max = min (timesOf (realDom big toU ofU) np t).max M0 := by
  have r1 := autoSu_run hu hr
  have hs1 : ∀ p, p < np → putAll AutoSt.setSu np s v' p = (s p).setSu (v p) := by
    intro p hp
    unfold putAll
    rw [if_pos hp, hv p hp]
  obtain ⟨s2, r2, h2⟩ := autoAlt_run (big := big) (toU := toU) (ofU := ofU) (get := fun s => .crystal s.su.cr.data) (r := fun p => .crystal (par.cr p)) (c := fun p s => s.alt = .crystal (par.cr p)) hex t
    (s := putAll AutoSt.setSu np s v') (fun q hq => by rw [hs1 q hq]; exact congrArg _ (hp q hq)) (fun q hq => rfl)
  have k1 : (autoLoc fun _ (s : AutoSt K) => .ok { s with alt := .crystal s.su.cr.data }).Ok np := Coll.loc_ok _ _ _
  have k2 := Coll.seq_ok k1 (autoRequire_ok (K := K) fun p s => s.alt = .crystal (par.cr p))
  have k3 := Coll.seq_ok k2 (dryTime_ok (realDom big toU ofU) np hex t)
  have k0 := autoSu_ok (K := K) (setupCr_ok np false)
  refine ⟨s2, ?_, fun p hpn => ?_⟩
  · rw [Coll.seq_run k3] at r2
    obtain ⟨x3, e3, e4⟩ := Outcome.bind_eq_ok r2
    rw [Coll.seq_run k2] at e3
    obtain ⟨x2, e2, e3⟩ := Outcome.bind_eq_ok e3
    rw [Coll.seq_run k1] at e2
    obtain ⟨x1, e1, e2⟩ := Outcome.bind_eq_ok e2
    exact Coll.seq_run_ok (Coll.seq_ok (Coll.seq_ok (Coll.seq_ok k0 k1) (autoRequire_ok _)) (dryTime_ok _ _ hex _))
      (Coll.seq_run_ok (Coll.seq_ok (Coll.seq_ok k0 k1) (autoRequire_ok _)) (Coll.seq_run_ok (Coll.seq_ok k0 k1) (Coll.seq_run_ok k0 r1 e1) e2) e3) e4
  · obtain ⟨a, b⟩ := h2 p hpn
    have e : (putAll AutoSt.setSu np s v' p).time0.max = M0 := by rw [hs1 p hpn]; exact hM p hpn
    rw [a, b, e, hs1 p hpn]
    unfold afterCr
    rw [hp p hpn]
    exact ⟨rfl, rfl⟩

theorem autoAr_run {par : AutoPar} (hex : Ends (dryRuns (arExec (dryKernels (realDom big toU ofU) .add) (realDom big toU ofU) .add np par.arTotal par.ar false) fun p => (Remote.allreduce (par.ar p)).bufferSize) np) (t : Nat → K)
    {s : Nat → AutoSt K} {u : Nat → SetupSt} (hu : ∀ p, p < np → (s p).su = u p) (hp : ∀ p, p < np → allreduceSetup (u p).topo.pr (u p).topo.total = par.ar p ∧ (par.ar p).total = par.arTotal) {M0 : K} (hM : ∀ p, p < np → (s p).time0.max = M0) :
    ∃ s', (autoAr (realDom big toU ofU) np par t).run np s = .ok s' ∧ ∀ p, p < np → (s' p).su = afterAr M0 (timesOf (realDom big toU ofU) np t).max (u p) := by
  obtain ⟨s2, r2, h2⟩ := autoAlt_run (big := big) (toU := toU) (ofU := ofU) (get := fun s => .allreduce (allreduceSetup s.su.topo.pr s.su.topo.total)) (r := fun p => .allreduce (par.ar p))
    (c := fun p s => s.alt = .allreduce (par.ar p) ∧ (par.ar p).total = par.arTotal) hex t
    (s := s) (fun q hq => by rw [hu q hq, (hp q hq).1]) (fun q hq => ⟨rfl, (hp q hq).2⟩)
  refine ⟨s2, r2, fun p hpn => ?_⟩
  rw [(h2 p hpn).1, hM p hpn, hu p hpn]
  unfold afterAr
  rw [(hp p hpn).1]

/-- auto_setup ends for every outcome of the measurements, and sets the method that `remoteSetup` (with the outcomes of the comparisons) sets -/
theorem autoSetup_run (hnp : np ≤ 4294967295) (hi : ∀ q, q < np → IdsOk (ids q)) (hsmall : sharedPairs np ids < 4294967295) {ord : Nat → Nat} {total : Nat}
    (ho : OrdOk np ids ord total) (htot : 3 * total < 4294967295) (u0 : Nat → SetupSt) (hs : ∀ q, q < np → TopoCore np ids ord total q (u0 q).topo) :
    ∃ par : AutoPar, ∀ clock : Nat → Nat → K, (autoSetup (realDom big toU ofU) np par clock).Ok np ∧ ∀ s : Nat → AutoSt K, (∀ q, q < np → (s q).su = u0 q) →
      let M := fun j => (timesOf (realDom big toU ofU) np fun p => clock p j).max
      ∃ (s' : Nat → AutoSt K) (u' : Nat → SetupSt), (autoSetup (realDom big toU ofU) np par clock).run np s = .ok s' ∧
        (remoteSetup np (.auto (decide (M 1 < M 0)) (decide (M 2 < min (M 1) (M 0))))).run np u0 = .ok u' ∧ ∀ q, q < np → (s' q).su.h = (u' q).h := by
  have rpw : ∀ q, q < np → setupPw (u0 q) = .ok (((u0 q).setTopo { (u0 q).topo with sh := mqRows np ids (biOf true np ids q) q }).setRemote (.pairwise (pwSpec np ids q))) := by
    intro q hq
    unfold setupPw
    rw [pwSetup_run hnp hi hq hsmall (hs q hq)]; rfl
  let u1 : Nat → SetupSt := fun q => if q < np then ((u0 q).setTopo { (u0 q).topo with sh := mqRows np ids (biOf true np ids q) q }).setRemote (.pairwise (pwSpec np ids q)) else u0 q
  have hu1 : ∀ q, q < np → u1 q = ((u0 q).setTopo { (u0 q).topo with sh := mqRows np ids (biOf true np ids q) q }).setRemote (.pairwise (pwSpec np ids q)) := fun q hq => if_pos hq
  have r1 : (setupLoc fun _ => setupPw).run np u0 = .ok u1 := Coll.loc_run_ok rpw
  have kpw : (setupLoc fun _ => setupPw).Ok np := Coll.loc_ok _ _ _
  by_cases hnp1 : 1 < np
  swap
  · refine ⟨⟨fun _ => ⟨fun _ => ⟨[], 0⟩, fun _ => []⟩, fun _ => ⟨fun _ => [], 0⟩, fun _ => ⟨fun _ => [], fun _ => [], 0⟩, 0, false⟩, fun clock => ⟨?_, fun s h0 => ?_⟩⟩
    · unfold autoSetup
      rw [if_neg hnp1]
      exact autoSu_ok kpw
    · refine ⟨putAll AutoSt.setSu np s u1, u1, ?_, ?_, fun q hq => ?_⟩
      · unfold autoSetup
        rw [if_neg hnp1]
        exact autoSu_run h0 r1
      · simp only [remoteSetup]
        rw [if_neg hnp1]
        exact r1
      · unfold putAll
        rw [if_pos hq]; rfl
  obtain ⟨v, hv1, hv2, hv3⟩ := setupCr_runs hi ho.idBound htot u1 (fun q hq => by
    rw [hu1 q hq]; exact mqRows_shOk)
  have htotal : ∀ q, q < np → (v q).topo.total = total := by
    intro q hq
    rw [(hv3 q hq).1, hu1 q hq]
    exact (hs q hq).total_eq
  have har : ∀ q, q < np → allreduceSetup (v q).topo.pr (v q).topo.total = allreduceSetup (u0 q).topo.pr (u0 q).topo.total := by
    intro q hq
    rw [(hv3 q hq).1, hu1 q hq]; rfl
  obtain ⟨par, p1, p2, p3, p4, p5⟩ : ∃ par : AutoPar, par.pw = pwSpec np ids ∧ (par.cr = fun q => (v q).cr.data) ∧ (par.ar = fun q => allreduceSetup (u0 q).topo.pr (u0 q).topo.total) ∧ par.arTotal = total ∧
    par.small = decide (total < 100000) := ⟨⟨_, _, _, _, _⟩, rfl, rfl, rfl, rfl, rfl⟩
  have dpw := dry_pw (np := np) (realDom big toU ofU) hi hsmall
  have dcr := dry_cr (np := np) (realDom big toU ofU) hi ho.idBound htot hv2
  have dar := dry_ar (np := np) (realDom big toU ofU) hi ho (by omega) (fun q => (u0 q).topo) hs
  have dpw' : Ends (dryRuns (pwExec (dryKernels (realDom big toU ofU) .add) par.pw false) fun p => (Remote.pairwise (par.pw p)).bufferSize) np := by rw [p1]; exact dpw
  have dcr' : Ends (dryRuns (crExec (dryKernels (realDom big toU ofU) .add) np par.cr false) fun p => (Remote.crystal (par.cr p)).bufferSize) np := by rw [p2]; exact dcr
  have dar' : Ends (dryRuns (arExec (dryKernels (realDom big toU ofU) .add) (realDom big toU ofU) .add np par.arTotal par.ar false) fun p => (Remote.allreduce (par.ar p)).bufferSize) np := by rw [p3, p4]; exact dar
  clear dpw dcr dar
  refine ⟨par, fun clock => ?_⟩
  have k1 := autoSu_ok (K := K) kpw
  have k2 := autoPw_ok dpw' fun p => clock p 0
  have k3 := autoCr_ok dcr' fun p => clock p 1
  have k4 := autoAr_ok dar' fun p => clock p 2
  have k123 := Coll.seq_ok (Coll.seq_ok k1 k2) k3
  have k5 := Coll.seq_ok k123 (autoRequire_ok (K := K) fun _ s => decide (s.su.topo.total < 100000) = par.small)
  refine ⟨?_, ?_⟩
  · unfold autoSetup
    rw [if_pos hnp1]
    refine Coll.seq_ok k5 ?_
    split
    · exact k4
    · exact nil_matched np
  intro s h0 M
  have e1 := autoSu_run (K := K) h0 r1
  have h1 : ∀ q, q < np → (putAll AutoSt.setSu np s u1 q).su = u1 q := by
    intro q hq
    unfold putAll
    rw [if_pos hq]; rfl
  obtain ⟨s2, e2, h2⟩ := autoPw_run (big := big) (toU := toU) (ofU := ofU) dpw' (fun p => clock p 0) (s := putAll AutoSt.setSu np s u1) (by
    intro q hq
    rw [h1 q hq, hu1 q hq, p1]; rfl)
  obtain ⟨w, ew, hw⟩ := hv1 false
  obtain ⟨s3, e3, h3⟩ := autoCr_run dcr' (fun p => clock p 1) (s := s2) (u := u1) (v := v) (v' := w) (fun q hq => (h2 q hq).1.trans (h1 q hq)) ew hw (fun q hq => by rw [p2]) (M0 := M 0) (fun q hq => by rw [(h2 q hq).2])
  have htot3 : ∀ q, q < np → (afterCr (M 0) (M 1) (v q)).topo.total = total := by
    intro q hq
    unfold afterCr
    split
    · exact htotal q hq
    · exact htotal q hq
  have e4 : (autoRequire fun _ (s : AutoSt K) => decide (s.su.topo.total < 100000) = par.small).run np s3 = .ok s3 := autoRequire_run fun q hq => by
    rw [(h3 q hq).1, p5]
    exact congrArg (fun n => decide (n < 100000)) (htot3 q hq)
  have e1234 := Coll.seq_run_ok k123 (Coll.seq_run_ok (Coll.seq_ok k1 k2) (Coll.seq_run_ok k1 e1 e2) e3) e4
  -- the same set-up without measurements
  obtain ⟨w', ew', hw'⟩ := hv1 (decide (M 1 < M 0))
  have hw2 : ∀ q, q < np → w' q = afterCr (M 0) (M 1) (v q) := by
    intro q hq
    rw [hw' q hq]
    unfold afterCr
    by_cases c : M 1 < M 0
    · rw [if_pos c, decide_eq_true c, if_pos rfl]
    · rw [if_neg c, decide_eq_false c]; rfl
  let u' : Nat → SetupSt := fun q => if q < np then (if total < 100000 ∧ M 2 < min (M 1) (M 0) then (w' q).setRemote (.allreduce (allreduceSetup (w' q).topo.pr (w' q).topo.total)) else w' q) else w' q
  have ru : (remoteSetup np (.auto (decide (M 1 < M 0)) (decide (M 2 < min (M 1) (M 0))))).run np u0 = .ok u' := by
    simp only [remoteSetup]
    rw [if_pos hnp1]
    refine Coll.seq_run_ok (Coll.seq_ok kpw (setupCr_ok np _)) (Coll.seq_run_ok kpw r1 ew') (Coll.loc_run_ok fun q hq => ?_)
    have ht : (w' q).topo.total = total := by rw [hw2 q hq]; exact htot3 q hq
    rw [ht]
    simp only [decide_eq_true_eq]
    by_cases c : total < 100000 ∧ M 2 < min (M 1) (M 0)
    · rw [if_pos c, if_pos c]
      unfold setupAr
      rw [ht]
    · rw [if_neg c, if_neg c]
  by_cases hc : total < 100000
  · obtain ⟨s5, e5, h5⟩ := autoAr_run (big := big) (toU := toU) (ofU := ofU) dar' (fun p => clock p 2) (s := s3) (u := fun q => afterCr (M 0) (M 1) (v q)) (fun q hq => (h3 q hq).1) (fun q hq => by
      rw [p3, p4]
      refine ⟨?_, (hs q hq).total_eq⟩
      beta_reduce
      rw [← har q hq]
      unfold afterCr
      split <;> rfl) (M0 := min (M 1) (M 0)) fun q hq => (h3 q hq).2
    refine ⟨s5, u', ?_, ru, fun q hq => ?_⟩
    · unfold autoSetup
      rw [if_pos hnp1, p5, decide_eq_true hc, if_pos rfl]
      rw [p5, decide_eq_true hc] at e1234 k5
      exact Coll.seq_run_ok k5 e1234 e5
    · rw [h5 q hq]
      simp only [u']
      rw [if_pos hq, hw2 q hq]
      unfold afterAr
      by_cases c : M 2 < min (M 1) (M 0)
      · rw [if_pos c, if_pos ⟨hc, c⟩]
      · rw [if_neg c, if_neg fun h => c h.2]
  · refine ⟨s3, u', ?_, ru, fun q hq => ?_⟩
    · unfold autoSetup
      rw [if_pos hnp1, p5, decide_eq_false hc]
      rw [p5, decide_eq_false hc] at e1234 k5
      exact Coll.seq_run_ok k5 e1234 rfl
    · rw [(h3 q hq).1]
      simp only [u']
      rw [if_pos hq, if_neg fun h => hc h.1, hw2 q hq]

/-- gs_setup with gs_auto ends, with the handles of gs_setup for the outcomes of the comparisons -/
theorem gsSetupAuto_run (hin : GsInput np ids) (u0 : Nat → SetupSt) (h0 : ∀ q, q < np → (u0 q).topo.ids = ids q) :
    ∃ par : AutoPar, ∀ clock : Nat → Nat → K, (gsSetupAuto (realDom big toU ofU) np par clock).Ok np ∧ ∀ s : Nat → AutoSt K, (∀ q, q < np → (s q).su = u0 q) →
      let M := fun j => (timesOf (realDom big toU ofU) np fun p => clock p j).max
      ∃ (s' : Nat → AutoSt K) (u' : Nat → SetupSt), (gsSetupAuto (realDom big toU ofU) np par clock).run np s = .ok s' ∧
        (gsSetup false (.auto (decide (M 1 < M 0)) (decide (M 2 < min (M 1) (M 0)))) np).run np u0 = .ok u' ∧ ∀ q, q < np → (s' q).su.h = (u' q).h := by
  have hsm : sharedPairs np ids * 40 < Crystal.intMax := by
    rw [sharedPairs_eq]
    have := hin.small
    have h2 : Crystal.intMax = 2147483647 := rfl
    omega
  have hsm' : sharedPairs np ids < 4294967295 := by
    have h2 : Crystal.intMax = 2147483647 := rfl
    omega
  obtain ⟨ord, total, sf, e1, ho, hto, h1⟩ := getTopology_run hin.np_le hin.ids_ok hsm (fun q => (u0 q).topo) h0
  have r1 : (setupTopo np).run np u0 = .ok (putAll SetupSt.setTopo np u0 sf) := by
    unfold setupTopo
    rw [Coll.lift_run lens_topo _ np u0 (fun q => (u0 q).topo) (fun _ _ => rfl), Coll.mapW_run Sum.inl SetupMsg.topo (fun _ => rfl), e1]; rfl
  let s1 := putAll SetupSt.setTopo np u0 sf
  have hs1 : ∀ q, q < np → s1 q = (u0 q).setTopo (sf q) := by
    intro q hq
    show putAll _ _ _ _ q = _
    unfold putAll
    rw [if_pos hq]
  let s2 : Nat → SetupSt := fun q => if q < np then { s1 q with h := localSetup (s1 q).topo.nz (s1 q).h.r } else s1 q
  have hs2 : ∀ q, q < np → s2 q = { s1 q with h := localSetup (s1 q).topo.nz (s1 q).h.r } := fun q hq => if_pos hq
  have r2 : (setupLoc (setupLocal false)).run np s1 = .ok s2 := Coll.loc_run_ok fun q _ => rfl
  have htot : 3 * total < 4294967295 := by
    have h2 : Crystal.intMax = 2147483647 := rfl
    omega
  have k1 := setupTopo_ok np
  have k2 : (setupLoc (setupLocal false)).Ok np := Coll.loc_ok _ _ _
  have k12 := Coll.seq_ok k1 k2
  have e12 := Coll.seq_run_ok k1 r1 r2
  obtain ⟨par, hpar⟩ := autoSetup_run (K := K) (big := big) (toU := toU) (ofU := ofU) hin.np_le hin.ids_ok hsm' ho htot s2 (by
    intro q hq
    rw [hs2 q hq, hs1 q hq]
    exact (h1 q hq).toTopoCore)
  refine ⟨par, fun clock => ?_⟩
  obtain ⟨ka, ha⟩ := hpar clock
  refine ⟨Coll.seq_ok (autoSu_ok k12) ka, fun s hs => ?_⟩
  intro M
  obtain ⟨s', u', e3, e4, h5⟩ := ha (putAll AutoSt.setSu np s s2) (by
    intro q hq
    unfold putAll
    rw [if_pos hq]; rfl)
  exact ⟨s', u', Coll.seq_run_ok (autoSu_ok k12) (autoSu_run hs e12) e3, Coll.seq_run_ok k12 e12 e4, h5⟩

end Gslib.Gs
