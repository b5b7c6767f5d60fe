import Verif.Model.GsExec
import Verif.Model.Crystal

/-!
# The crystal-router exchange of gs (gs.c:629-946)

Numbers of rows and sizes are natural numbers (`uint` in C; the theorems bound them). The structs `crl_id` sent between processes are
not converted to bytes.
-/

namespace Gslib.Mpi

variable {S W : Type}

/-- `while(n>1) { nl=(n+1)/2, bh=bl+nl; body; if(id<bh) n=nl; else n-=nl,bl=bh; }` (gs.c:700-704, 711-721, 842-883) on process `id`, from round `t`;
the body consists of steps with labels below `B` -/
def halvingProg (B : Nat) (body : Nat → Nat → Nat → Prog S W) (id t bl n : Nat) : Prog S W :=
  if h : 1 < n then
    (body t bl n).map (Step.shift (B * t)) ++
      (if id < bl + (n + 1) / 2 then halvingProg B body id (t + 1) bl ((n + 1) / 2)
       else halvingProg B body id (t + 1) (bl + (n + 1) / 2) (n - (n + 1) / 2))
  else []
termination_by n
decreasing_by all_goals omega

end Gslib.Mpi

namespace Gslib.Gs
open Gslib Gslib.Mpi Gslib.Sarray Gslib.Comm Gslib.Crystal

/-- gs.c:726-728 `struct crl_id` -/
structure CrlId where
  id : Nat
  p : Nat
  ri : Nat
  si : Nat
  bi : Nat
  send : Nat
  deriving DecidableEq, Repr

/-- gs.c:731-763 crl_work_init; arguments `last_i`, `added_myself`. FLAGS_LOCAL = 1, FLAGS_REMOTE = 2. `bi` and `send` are not initialised here. -/
def crlWorkInit (sendMask thisP : Nat) : Nat → Bool → List SharedId → List CrlId
  | _, _, [] => []
  | lastI, added, s :: rest =>
    let send : Bool := s.flags &&& sendMask = 0
    let recv : Bool := s.flags &&& (sendMask ^^^ 3) = 0
    let added := if s.i ≠ lastI then false else added
    let me : Bool := !added && recv && decide (s.flags &&& 1 = 0)
    (if me then [⟨s.id, thisP, s.i, s.i, 0, 0⟩] else []) ++ (if send then [⟨s.id, s.p, s.ri, s.i, 0, 0⟩] else []) ++
      crlWorkInit sendMask thisP s.i (added || me) rest

/-- gs.c:776-777, 787-788: the `si` different from the previous one; argument the previous `si` -/
def otherSi : Nat → List CrlId → List Nat
  | _, [] => []
  | si, o :: rest => if o.si ≠ si then o.si :: otherSi o.si rest else otherSi si rest

/-- gs.c:783-793, the scatter map; rows grouped by `bi` -/
def crlScatter : List CrlId → List Nat
  | [] => [uintMax]
  | w :: rest => w.si :: w.bi :: uintMax :: crlScatter (rest.dropWhile fun o => o.bi = w.bi)
  termination_by rows => rows.length
  decreasing_by
    have := (List.dropWhile_suffix (l := rest) (fun o : CrlId => decide (o.bi = w.bi))).length_le; simp only [List.length_cons]; omega

/-- gs.c:783-793, the gather map -/
def crlGather : List CrlId → List Nat
  | [] => [uintMax]
  | w :: rest =>
    (if otherSi w.si (rest.takeWhile fun o => o.bi = w.bi) ≠ [] then w.bi :: otherSi w.si (rest.takeWhile fun o => o.bi = w.bi) ++ [uintMax] else []) ++
      crlGather (rest.dropWhile fun o => o.bi = w.bi)
  termination_by rows => rows.length
  decreasing_by
    have := (List.dropWhile_suffix (l := rest) (fun o : CrlId => decide (o.bi = w.bi))).length_le; simp only [List.length_cons]; omega

/-- gs.c:765-795 crl_maps: the rows afterwards, scatter map, gather map -/
def crlMaps (cw : List CrlId) (s : ScratchF Nat) : Outcome (List CrlId × List Nat × List Nat) :=
  (sarraySort [.int 4 CrlId.bi, .int 4 CrlId.si] cw s).bind fun cw => .ok (cw, crlScatter cw, crlGather cw)

/-- gs.c:804-805: `send` has the reverse meaning here -/
def crlMark (cutoff : Nat) (sendHi : Bool) (cw : List CrlId) : List CrlId :=
  cw.map fun w => { w with send := if sendHi then (if w.p < cutoff then 1 else 0) else (if cutoff ≤ w.p then 1 else 0) }

/-- gs.c:807-811: kept rows of ids that are also sent; argument `start` (`none`: the first row) -/
def crlDup : Option CrlId → List CrlId → List CrlId
  | _, [] => []
  | start, w :: rest =>
    let start := match start with
      | none => w
      | some s => if w.id ≠ s.id then w else s
    (if w.send ≠ start.send then { w with send := 0, bi := 1 } else { w with bi := 0 }) :: crlDup (some start) rest

/-- `nkeep` (gs.c:808) -/
def nKeep (cw : List CrlId) : Nat := (cw.map CrlId.send).sum

/-- `nks` (gs.c:810) -/
def nKs (cw : List CrlId) : Nat := (cw.map CrlId.bi).sum

/-- gs.c:815-819 and 821-825: the buffer index, and the usual meaning of `send`. Arguments: the number of rows of the first loop still to come,
`start->id` (`none`: the first row), `bi`. -/
def crlIndex : Nat → Option Nat → Nat → List CrlId → List CrlId
  | _, _, _, [] => []
  | k, start, bi, w :: rest =>
    let bi := match start with
      | none => bi
      | some i => if w.id ≠ i then bi + 1 else bi
    { w with send := if k = 0 then 0 else if w.bi ≠ 1 then 1 else w.send, bi := bi } :: crlIndex (k - 1) (some w.id) bi rest

/-- `bi+1` after the loop over the rows, 0 if there are none (gs.c:820, 826) -/
def sizeOf (cw : List CrlId) : Nat := match cw.getLast? with
  | none => 0
  | some w => w.bi + 1

/-- the result of crl_work_label -/
structure Labelled where
  cw : List CrlId
  nsend : Nat
  sizeS : Nat
  sizeSk : Nat
  scatterMap : List Nat
  gatherMap : List Nat

/-- gs.c:797-829 crl_work_label -/
def crlWorkLabel (cw : List CrlId) (cutoff : Nat) (sendHi : Bool) (s : ScratchF Nat) : Outcome Labelled :=
  (sarraySort [.int 8 CrlId.id, .int 4 CrlId.send] (crlMark cutoff sendHi cw) s).bind fun c1 =>
  let nsend := cw.length - nKeep c1
  let nks := nKs (crlDup none c1)
  (sarraySort [.int 4 CrlId.send] (crlDup none c1) s).bind fun c2 =>
  let c3 := crlIndex (nsend + nks) none 0 c2
  (crlMaps c3 s).bind fun m => .ok ⟨m.1, nsend, sizeOf (c3.take (nsend + nks)), sizeOf c3, m.2.1, m.2.2⟩

/-- messages of cr_learn: `nsend[2]`, or rows -/
inductive CrMsg where
  | nums (a b : Nat)
  | rows (l : List CrlId)
  deriving DecidableEq, Repr

/-- memory of a process during cr_learn: work array, finished stages, `nsend`, the stage that is being computed, `nrecv`, scratch memory of the sorts -/
structure LearnSt where
  cw : List CrlId
  stages : List CrStage
  nsend : Nat
  cur : CrStage
  nrecv : List (Nat × Nat)
  scratch : ScratchF Nat

/-- gs.c:846-848, with p1, p2, nrecvn from cr_schedule (gs.c:713-719; `recvnOf`, `targOf` are the same formulas in crystal.c) -/
def learnLabel (id bl n : Nat) (s : LearnSt) : Outcome LearnSt :=
  (crlWorkLabel s.cw (bhOf bl n) (decide (id < bhOf bl n)) s.scratch).bind fun l =>
    .ok { s with cw := l.cw, nsend := l.nsend, nrecv := [],
                 cur := ⟨l.scatterMap, l.gatherMap, 0, 0, 0, l.sizeSk, l.sizeS, 0, targOf id bl n, id - 1, recvnOf id bl n⟩ }

/-- gs.c:854 and 855-856: the numbers received -/
def CrMsg.getNums : CrMsg → Option (Nat × Nat)
  | .nums a b => some (a, b)
  | .rows _ => none

/-- the rows received -/
def CrMsg.getRows : CrMsg → Option (List CrlId)
  | .nums _ _ => none
  | .rows l => some l

/-- gs.c:856-860: sizes of the stage; `nrecv[k][1]` is 0 if nothing is received -/
def learnSizes (s : LearnSt) : CrStage :=
  let r1 := ((s.nrecv.map Prod.snd).getD 0 0)
  let r2 := ((s.nrecv.map Prod.snd).getD 1 0)
  { s.cur with sizeR1 := r1, sizeR2 := r2, sizeR := r1 + r2, sizeTotal := r1 + r2 + s.cur.sizeSk }

/-- gs.c:831-833 crl_bi_to_si -/
def biToSi (v : Nat) (cw : List CrlId) : List CrlId := cw.map fun w => { w with si := w.bi + v }

/-- gs.c:876-881: the rows kept and received (`crl_bi_to_si`, then the received rows replace those sent) -/
def learnNext (nkeep : Nat) (st : CrStage) (cw : List CrlId) (got : List (List CrlId)) : List CrlId :=
  biToSi st.sizeR (cw.take nkeep) ++ biToSi 0 (got.getD 0 []) ++ biToSi st.sizeR1 (got.getD 1 [])

/-- gs.c:846-856: exchange of the numbers -/
def learnCount (np id t bl n : Nat) : Step LearnSt CrMsg where
  label := 0
  pre := learnLabel id bl n
  sends := [(targOf id bl n, np + 2 * t)]
  payload s _ := .nums s.nsend s.cur.sizeS
  recvs := (recvFrom id bl n).map fun q => (q, np + 2 * t)
  post s vals := (Outcome.ofOption (vals.mapM CrMsg.getNums)).bind fun l => .ok { s with nrecv := l, cur := learnSizes { s with nrecv := l } }

/-- gs.c:862-881: exchange of the rows; a message of another length than announced overflows or leaves part of its buffer unset -/
def learnRows (np id t bl n : Nat) : Step LearnSt CrMsg where
  label := 1
  pre s := (sarraySort [.int 4 CrlId.send, .int 4 CrlId.bi] s.cw s.scratch).bind fun cw => .ok { s with cw := cw }
  sends := [(targOf id bl n, np + 2 * t + 1)]
  payload s _ := .rows (s.cw.drop (s.cw.length - s.nsend))
  recvs := (recvFrom id bl n).map fun q => (q, np + 2 * t + 1)
  post s vals := (Outcome.ofOption (vals.mapM CrMsg.getRows)).bind fun l =>
    if l.map List.length = s.nrecv.map Prod.fst then
      .ok { s with cw := learnNext (s.cw.length - s.nsend) s.cur s.cw l, stages := s.stages ++ [s.cur] }
    else .ub

/-- gs.c:885-886, after the loop: crl_ri_to_bi and the maps of the last stage -/
def learnEnd (s : LearnSt) : Outcome LearnSt :=
  (crlMaps (s.cw.map fun w => { w with bi := w.ri }) s.scratch).bind fun m =>
    .ok { s with cw := m.1, stages := s.stages ++ [⟨m.2.1, m.2.2, 0, 0, 0, 0, 0, 0, 0, 0, 0⟩] }

/-- gs.c:839-887 cr_learn on `np` processes -/
def crLearn (np : Nat) : Coll LearnSt CrMsg :=
  (⟨2 * Nat.clog 2 np, fun id => halvingProg 2 (fun t bl n => [learnCount np id t bl n, learnRows np id t bl n]) id 0 0 np⟩ : Coll LearnSt CrMsg).seq
    (Coll.loc (fun _ => learnEnd) (.rows []))

/-- `size_max` (gs.c:861): the last stage has no sizes -/
def sizeMax (l : List CrStage) : Nat := (l.map CrStage.sizeTotal).foldl max 0

/-- memory of a process during cr_setup_aux: `sh`, the memory of cr_learn, the stages for `transpose = 0` -/
structure CrSetSt where
  sh : List SharedId
  learn : LearnSt
  stages0 : List CrStage

/-- gs.c:901-902 -/
def crSet1 (id : Nat) (s : CrSetSt) : Outcome CrSetSt :=
  (sarraySort [.int 4 SharedId.i] s.sh s.learn.scratch).bind fun sh =>
    .ok { s with sh := sh, learn := { s.learn with cw := crlWorkInit 1 id uintMax false sh, stages := [] } }

/-- gs.c:904 -/
def crSet2 (id : Nat) (s : CrSetSt) : Outcome CrSetSt :=
  .ok { s with stages0 := s.learn.stages, learn := { s.learn with cw := crlWorkInit 2 id uintMax false s.sh, stages := [] } }

/-- set the memory of cr_learn -/
def CrSetSt.setLearn (s : CrSetSt) (l : LearnSt) : CrSetSt := { s with learn := l }

/-- gs.c:889-917 cr_setup_aux -/
def crSetup (np : Nat) : Coll CrSetSt CrMsg :=
  (((Coll.loc crSet1 (.rows [])).seq ((crLearn np).lift CrSetSt.learn CrSetSt.setLearn)).seq (Coll.loc crSet2 (.rows []))).seq
    ((crLearn np).lift CrSetSt.learn CrSetSt.setLearn)

/-- gs.c:907-916: the data of the handle -/
def CrSetSt.data (s : CrSetSt) : CrData where
  stages t := if t then s.learn.stages else s.stages0
  sbs := max (sizeMax s.stages0) (sizeMax s.learn.stages)

variable {U T : Type} (K : Kernels U T)

/-- the processes received from in a stage (gs.c:672-678) -/
def CrStage.from (st : CrStage) : List Nat := if st.nrecvn = 0 then [] else if st.nrecvn = 2 then [st.p1, st.p2] else [st.p1]

/-- the sizes of the messages received in a stage -/
def CrStage.sizes (st : CrStage) : List Nat := if st.nrecvn = 0 then [] else if st.nrecvn = 2 then [st.sizeR1, st.sizeR2] else [st.sizeR1]

/-- `buf_old` in stage `k`: the two halves of the buffer change roles after each stage (gs.c:667-668, 688). Half `false` is the first
`stage_buffer_size` units. -/
def crHalf (sbs k : Nat) (buf : List T) : List T :=
  if k % 2 = 0 then buf.take (K.vn * sbs) else (buf.drop (K.vn * sbs)).take (K.vn * sbs)

/-- replace `buf_new` in stage `k` -/
def crPutNew (sbs k : Nat) (buf new : List T) : List T :=
  if k % 2 = 0 then buf.take (K.vn * sbs) ++ new ++ buf.drop (K.vn * sbs + K.vn * sbs) else new ++ buf.drop (K.vn * sbs)

/-- gs.c:670-689: stage `k` -/
def crExecStep (np sbs k : Nat) (st : CrStage) : Step (GsSt U T) (List T) where
  label := 0
  pre s :=
    let old := crHalf K sbs k s.buf
    let new := crHalf K sbs (k + 1) s.buf
    Outcome.ofOption <|
      (if k = 0 then K.toBuf st.scatterMap s.u (new.drop (K.vn * st.sizeR))
        else (K.bufScatter st.scatterMap old (new.drop (K.vn * st.sizeR))).bind fun sb => K.bufGather st.gatherMap old sb).bind fun sb =>
      some { s with buf := crPutNew K sbs k s.buf (new.take (K.vn * st.sizeR) ++ sb) }
  sends := [(st.p1, np + k)]
  payload s _ := ((crHalf K sbs (k + 1) s.buf).drop (K.vn * st.sizeR)).take (K.vn * st.sizeS)
  recvs := st.from.map fun q => (q, np + k)
  post s vals :=
    if vals.map List.length = st.sizes.map (fun x => K.vn * x) then
      .ok { s with buf := crPutNew K sbs k s.buf (vals.flatten ++ (crHalf K sbs (k + 1) s.buf).drop (K.vn * st.sizeR)) }
    else .ub

/-- gs.c:690-691: after the stages -/
def crExecEnd (sbs k : Nat) (st : CrStage) (s : GsSt U T) : Outcome (GsSt U T) :=
  let old := crHalf K sbs k s.buf
  Outcome.ofOption <| (K.fromBuf st.scatterMap old s.u).bind fun u => (K.gatherBuf st.gatherMap old u).bind fun u => some { s with u := u }

/-- gs.c:646-692 cr_exec; labels are not part of the program -/
def crExec (np : Nat) (d : Nat → CrData) (t : Bool) : Coll (GsSt U T) (List T) :=
  (⟨Nat.clog 2 np, fun id => (((d id).stages t).dropLast.zipIdx).map fun x => Step.shift x.2 (crExecStep K np (d id).sbs x.2 x.1)⟩ : Coll (GsSt U T) (List T)).seq
    (Coll.loc (fun id s => match ((d id).stages t).getLast? with
      | some st => crExecEnd K (d id).sbs (((d id).stages t).length - 1) st s
      | none => .ub) [])

end Gslib.Gs
