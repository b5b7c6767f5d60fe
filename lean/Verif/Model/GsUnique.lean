import Verif.Model.GsTopo

/-!
# make_topology_unique and gs_unique (gs.c:259-328, 1456-1466)
-/

namespace Gslib.Gs
open Gslib Gslib.Mpi Gslib.Sarray Gslib.Comm

/-- gs.c:269-272: `id[p->i]=-(slong)p->id` for the rows that are not primary; an index outside of the array would be undefined behaviour -/
def negNonPrimary : List NonzeroId → List Int → Outcome (List Int)
  | [], ids => .ok ids
  | p :: rows, ids =>
    if p.i ≠ p.primary then (if p.i < ids.length then negNonPrimary rows (ids.set p.i (-(p.id : Int))) else .ub)
    else negNonPrimary rows ids

/-- gs.c:272, 276: `p->flag=1` for the rows that are not primary -/
def flagNonPrimary (nz : List NonzeroId) : List NonzeroId := nz.map fun p => if p.i ≠ p.primary then { p with flag := 1 } else p

/-- gs.c:294-304, the owner of a group of rows with the same `i` (`g` not empty, `lt` rows of the group come first): `none` if this process is
the owner, otherwise the position of the owner among the unflagged remote processes. `pb` is the first row of the group. -/
def ownerOf (pb : SharedId) (lt gt : Nat) : Outcome (Option Nat) :=
  if pb.flags &&& 1 = 0 then
    let owner := pb.id % (lt + gt + 1)
    if owner = lt then .ok none else .ok (some (if owner > lt then owner - 1 else owner))
  else if lt + gt = 0 then .ub else .ok (some (pb.id % (lt + gt)))

/-- `!(p->flags&FLAGS_REMOTE)` -/
def remoteUnflagged (p : SharedId) : Bool := p.flags &&& 2 = 0

/-- gs.c:294-316 for the group `g` with first row `pb`: the rows kept, and whether this process owns the id -/
def uniqGroup (pid : Nat) (pb : SharedId) (g : List SharedId) : Outcome (List SharedId × Bool) :=
  let lt := ((g.takeWhile fun p => p.p < pid).filter remoteUnflagged).length
  let gt := ((g.dropWhile fun p => p.p < pid).filter remoteUnflagged).length
  (ownerOf pb lt gt).bind fun o => match o with
    | none => .ok (g.map fun p => { p with flags := 2 }, true)
    | some k => .ok (match (g.filter remoteUnflagged)[k]? with
        | some p => [{ p with flags := 1 }]
        | none => [], false)

/-- result of the loop of gs.c:291-317: user ids, rows of `nz`, rows of `sh` -/
structure UniqOut where
  ids : List Int
  nz : List NonzeroId
  sh : List SharedId

/-- gs.c:291-317: the loop over the groups of `sh`. `upd`: the user's ids are updated (`id` is not a null pointer); `nzb`, `nza` are the rows before
and from `pnz`. The output rows overwrite rows of `sh` already read (`out<=pb`); here they are a separate list. -/
def uniqLoop (upd : Bool) (pid : Nat) : (sh : List SharedId) → (nzb nza : List NonzeroId) → (ids : List Int) → (out : List SharedId) → Outcome UniqOut
  | [], nzb, nza, ids, out => .ok ⟨ids, nzb ++ nza, out⟩
  | pb :: rest, nzb, nza, ids, out =>
    let g := pb :: rest.takeWhile fun p => p.i = pb.i
    let nzb := nzb ++ nza.takeWhile fun r => r.i ≠ pb.i
    match nza.dropWhile fun r => r.i ≠ pb.i with
    | [] => .ub
    | r :: nza =>
      (uniqGroup pid pb g).bind fun o =>
        if o.2 then uniqLoop upd pid (rest.dropWhile fun p => p.i = pb.i) nzb (r :: nza) ids (out ++ o.1)
        else if upd = true ∧ ¬ pb.i < ids.length then .ub
        else uniqLoop upd pid (rest.dropWhile fun p => p.i = pb.i) nzb ({ r with flag := 1 } :: nza)
          (if upd then ids.set pb.i (-(pb.id : Int)) else ids) (out ++ o.1)
  termination_by sh => sh.length
  decreasing_by
    all_goals
      have := (List.dropWhile_suffix (l := rest) (fun p : SharedId => decide (p.i = pb.i))).length_le; simp only [List.length_cons]; omega

/-- gs.c:323-327: the flags of the primary rows; both lists sorted by id, rows of `sh` grouped by `i` -/
def uniqFlags : List SharedId → List PrimaryShared → Outcome (List PrimaryShared)
  | [], pr => .ok pr
  | _ :: _, [] => .ub
  | pb :: rest, q :: pr =>
    (uniqFlags (rest.dropWhile fun p => p.i = pb.i) pr).bind fun pr => .ok ({ q with flag := pb.flags &&& 1 } :: pr)
  termination_by sh => sh.length
  decreasing_by
    have := (List.dropWhile_suffix (l := rest) (fun p : SharedId => decide (p.i = pb.i))).length_le; simp only [List.length_cons]; omega

/-- gs.c:259-328 make_topology_unique on process `pid`; the user's ids are updated if `upd` -/
def makeUnique (upd : Bool) (pid : Nat) (s : TopoSt) : Outcome TopoSt :=
  (sarraySort [.int 4 NonzeroId.i] s.nz s.scratch).bind fun nz1 =>
  (if upd then negNonPrimary nz1 s.ids else .ok s.ids).bind fun ids =>
  (sarraySort [.int 4 NonzeroId.primary] (flagNonPrimary nz1) s.scratch).bind fun nz2 =>
  (sarraySort [.int 4 SharedId.i, .int 4 SharedId.p] s.sh s.scratch).bind fun sh1 =>
  (uniqLoop upd pid sh1 [] nz2 ids []).bind fun r =>
  (sarraySort [.int 8 SharedId.id] r.sh s.scratch).bind fun sh2 =>
  (sarraySort [.int 8 PrimaryShared.id] s.pr s.scratch).bind fun pr1 =>
  (uniqFlags sh2 pr1).bind fun pr2 =>
    .ok { s with ids := r.ids, nz := r.nz, sh := sh2, pr := pr2 }

/-- gs.c:1456-1466 gs_unique on `np` processes -/
def gsUnique (np : Nat) : Coll TopoSt TopoMsg := (getTopology np).seq (Coll.loc (fun id => makeUnique true id) (.inl []))

end Gslib.Gs
