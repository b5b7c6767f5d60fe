import Verif.Lemmas.CommRun
import Verif.Props.GsOp

/-!
# Properties C17, C18: comm_scan, comm_allreduce

Specification: `Verif/Spec/Comm.lean`, `Verif/Spec/Schedules.lean`. Model: `Verif/Model/CommTree.lean`, `Verif/Model/GsOp.lean`.
The vector of process `p` has entries `v p 0, ..., v p (vn-1)`.
-/

namespace Gslib.Props
open Gslib Gslib.Spec Gslib.Mpi Gslib.Gs Gslib.Comm

variable {T : Type}

/-- the array with entries `f 0, ..., f (vn-1)` -/
def vec (vn : Nat) (f : Nat → T) : List T := (List.range vn).map f

theorem vec_ok {okT : T → Prop} {vn : Nat} {f : Nat → T} (h : ∀ i, i < vn → okT (f i)) : VecOk okT vn (vec vn f) := by
  refine ⟨by simp [vec], fun x hx => ?_⟩
  simp only [vec, List.mem_map, List.mem_range] at hx
  obtain ⟨i, hi, rfl⟩ := hx
  exact h i hi

theorem gather_vec (D : Dom T) (op : Op) (vn : Nat) (f f' : Nat → T) :
    gatherArray D op (vec vn f) (vec vn f') = vec vn fun i => D.doOp op (f i) (f' i) := by
  rw [gatherArray_eq D op _ _ (by simp [vec]), vec, vec, List.zipWith_map, List.zipWith_self]
  rfl

theorem foldRanks_vec (D : Dom T) (op : Op) (vn : Nat) (v : Nat → Nat → T) (b k : Nat) :
    foldRanks (gatherArray D op) (fun q => vec vn (v q)) b k = vec vn fun i => foldRanks (D.doOp op) (fun q => v q i) b k := by
  induction k with
  | zero => rfl
  | succ k ih => rw [foldRanks, ih, gather_vec]; rfl

theorem init_vec (D : Dom T) (op : Op) (vn : Nat) : initArray D op vn = vec vn fun _ => D.identity op := by
  unfold vec
  rw [List.map_const', List.length_range]
  induction vn with
  | zero => rfl
  | succ n ih => rw [initArray, ih, List.replicate_succ]

theorem reduceAll_congr {M : Type} {g : M → M → M} {v v' : Nat → M} {np : Nat} (hnp : 0 < np) (h : ∀ q, q < np → v q = v' q) :
    reduceAll g v np = reduceAll g v' np := by
  unfold reduceAll
  have : ∀ k, k < np → foldRanks g v 0 k = foldRanks g v' 0 k := by
    intro k hk
    induction k with
    | zero => exact h 0 hk
    | succ k ih => rw [foldRanks, foldRanks, ih (by omega), h _ (by omega)]
  exact this _ (by omega)

theorem reduceBefore_congr {M : Type} {g : M → M → M} {e : M} {v v' : Nat → M} {np p : Nat} (hp : p < np) (h : ∀ q, q < np → v q = v' q) :
    reduceBefore g e v p = reduceBefore g e v' p := by
  cases p with
  | zero => rfl
  | succ p =>
    have := reduceAll_congr (g := g) (np := p + 1) (by omega) (fun q hq => h q (by omega))
    exact this

theorem nil_matched {S W : Type} (np : Nat) : Matched (fun _ => ([] : Prog S W)) np 0 := by
  constructor <;> intro p hp <;> simp

/-! ## C18 -/

/-- **C18**: for every number of processes, vector length and associative operation, under every schedule: the tree
all-reduce ends, and then every process holds the reduction of the vectors of all processes, in rank order -/
theorem comm_allreduce_reduces (D : Dom T) (op : Op) (okT : T → Prop) (hg : AssocOn okT (D.doOp op)) (np vn : Nat)
    (v : Nat → Nat → T) (hv : ∀ p, p < np → ∀ i, i < vn → okT (v p i)) (s0 : Nat → List T) (hs : ∀ p, p < np → s0 p = vec vn (v p)) :
    AllSchedules (commAllreduce D op vn np).prog np s0 fun s => ∀ p, p < np →
      s p = vec vn fun i => reduceAll (D.doOp op) (fun q => v q i) np := by
  unfold commAllreduce
  split
  · rename_i c
    subst c
    refine allSchedules_of_lockRun (T := 0) (nil_matched np) rfl _ ?_
    intro s hs' p hp
    rw [hs' p hp, hs p hp]; rfl
  · have hvec := gatherArray_assocOn D op hg vn
    refine allSchedules_of_lockRun (tree_matched (allreduce_good D op) np) (allreduce_run D op hvec np s0 fun p hp => ?_) _ ?_
    · rw [hs p hp]; exact vec_ok (hv p hp)
    · intro s hs' p hp
      rw [hs' p hp, if_pos hp, reduceAll_congr (by omega) hs]
      exact foldRanks_vec D op vn v 0 (np - 1)

/-- the integer domains (all operations; `bpr` when the domain has the width of `uint`) -/
theorem comm_allreduce_int (w : Nat) (op : Op) (np vn : Nat) (v : Nat → Nat → BitVec w) :
    AllSchedules (commAllreduce (intDom w w) op vn np).prog np (fun p => vec vn (v p)) fun s => ∀ p, p < np →
      s p = vec vn fun i => reduceAll ((intDom w w).doOp op) (fun q => v q i) np :=
  comm_allreduce_reduces _ _ (fun _ => True) (gs_op_commutative_monoid w op).toAssoc np vn v (fun _ _ _ _ => trivial) _ (fun _ _ => rfl)

example : reduceAll ((intDom 32 32).doOp .max) (fun q => BitVec.ofNat 32 (7 * q % 5)) 5 = 4#32 := by decide +kernel

/-- matching of the messages of the all-reduce and of the scan: see `AllSchedules`; explicitly, the sends and receives of the
two programs match for every number of processes, operation and vector length -/
theorem comm_tree_matching (D : Dom T) (op : Op) (vn np : Nat) :
    (commAllreduce D op vn np).Ok np ∧ (commScan D op vn np).Ok np := by
  constructor
  · unfold commAllreduce
    split
    · exact nil_matched np
    · exact tree_matched (allreduce_good D op) np
  · exact Coll.seq_ok (Coll.loc_ok _ _ _) (tree_matched (scan_good D op) np)

/-! ## C17 -/

/-- lockstep result of `comm_scan` -/
theorem comm_scan_run (D : Dom T) (op : Op) (okT : T → Prop) (hg : CommMonoidOn okT (D.doOp op) (D.identity op)) (np vn : Nat)
    (v : Nat → Nat → T) (hv : ∀ p, p < np → ∀ i, i < vn → okT (v p i)) (s0 : Nat → ScanSt T) (hs : ∀ p, p < np → (s0 p).v = vec vn (v p)) :
    ∃ sf, (commScan D op vn np).run np s0 = .ok sf ∧ ∀ p, p < np →
      (sf p).scan = (vec vn fun i => reduceBefore (D.doOp op) (D.identity op) (fun q => v q i) p) ∧
      (sf p).red = (vec vn fun i => reduceAll (D.doOp op) (fun q => v q i) np) ∧ (sf p).v = vec vn (v p) := by
  have hvec := gatherArray_monoid D op hg vn
  have hok1 : (Coll.loc (fun _ s => .ok (scanInit D op vn s)) (([], []) : List T × List T)).Ok np := Coll.loc_ok _ _ _
  let s1 : Nat → ScanSt T := fun p => if p < np then scanInit D op vn (s0 p) else s0 p
  have hrun1 : (Coll.loc (fun _ s => .ok (scanInit D op vn s)) (([], []) : List T × List T)).run np s0 = .ok s1 := by
    apply Coll.loc_run_ok
    intro p hp; simp [hp]
  have hred : ∀ p, p < np → (s1 p).red = vec vn (v p) := fun p hp => by simp [s1, hp, scanInit, hs p hp]
  have hrun2 := scan_tree_run D op hvec np s1 (fun p hp => by simp [s1, hp, scanInit])
    (fun p hp => by rw [hred p hp]; exact vec_ok (hv p hp))
  have hrun := Coll.seq_run (b := treeColl (scanOps D op) np) hok1 s0
  rw [hrun1, Outcome.bind, hrun2] at hrun
  refine ⟨_, hrun, ?_⟩
  intro p hp
  rw [if_pos hp]
  refine ⟨?_, ?_, ?_⟩
  · simp only
    rw [reduceBefore_congr hp hred]
    cases p with
    | zero => exact init_vec D op vn
    | succ p => exact foldRanks_vec D op vn v 0 p
  · simp only
    rw [reduceAll_congr (by omega) hred]
    exact foldRanks_vec D op vn v 0 (np - 1)
  · simp [s1, hp, scanInit, hs p hp]

/-- **C17**: for every number of processes, vector length and commutative monoid, under every schedule: `comm_scan` ends,
and then process `p` holds the reduction of the vectors of the processes `0..p-1` (the identity for `p = 0`) and the
reduction of all vectors; the input is unchanged -/
theorem comm_scan_prefix (D : Dom T) (op : Op) (okT : T → Prop) (hg : CommMonoidOn okT (D.doOp op) (D.identity op)) (np vn : Nat)
    (v : Nat → Nat → T) (hv : ∀ p, p < np → ∀ i, i < vn → okT (v p i)) (s0 : Nat → ScanSt T) (hs : ∀ p, p < np → (s0 p).v = vec vn (v p)) :
    AllSchedules (commScan D op vn np).prog np s0 fun s => ∀ p, p < np →
      (s p).scan = (vec vn fun i => reduceBefore (D.doOp op) (D.identity op) (fun q => v q i) p) ∧
      (s p).red = (vec vn fun i => reduceAll (D.doOp op) (fun q => v q i) np) ∧ (s p).v = vec vn (v p) := by
  obtain ⟨sf, e, h⟩ := comm_scan_run D op okT hg np vn v hv s0 hs
  refine allSchedules_of_lockRun (comm_tree_matching D op vn np).2 e _ ?_
  intro s hs' p hp
  rw [hs' p hp]
  exact h p hp

/-- the integer domains (all operations; `bpr` when the domain has the width of `uint`) -/
theorem comm_scan_int (w : Nat) (op : Op) (np vn : Nat) (v : Nat → Nat → BitVec w) :
    AllSchedules (commScan (intDom w w) op vn np).prog np (fun p => ⟨vec vn (v p), [], []⟩) fun s => ∀ p, p < np →
      (s p).scan = (vec vn fun i => reduceBefore ((intDom w w).doOp op) ((intDom w w).identity op) (fun q => v q i) p) ∧
      (s p).red = (vec vn fun i => reduceAll ((intDom w w).doOp op) (fun q => v q i) np) ∧ (s p).v = vec vn (v p) :=
  comm_scan_prefix _ _ (fun _ => True) (gs_op_commutative_monoid w op) np vn v (fun _ _ _ _ => trivial) _ (fun _ _ => rfl)

/-- with `add`, `scan` is the sum of the values on lower ranks -/
theorem comm_scan_add (w np : Nat) (f : Nat → BitVec w) (p : Nat) :
    reduceBefore ((intDom w w).doOp .add) ((intDom w w).identity .add) f p = ((List.range p).map f).sum := by
  cases p with
  | zero => rfl
  | succ p =>
    show foldRanks (· + ·) f 0 p = _
    induction p with
    | zero => simp [foldRanks]
    | succ p ih =>
      rw [foldRanks, ih, List.range_succ (n := p + 1), List.map_append, List.sum_append]
      simp

/-- **finding**: the scan needs commutativity, contributions are not combined in rank order: with the (non-commutative)
append of lists on four processes, rank 3 gets rank 2's contribution before those of ranks 0 and 1 -/
theorem comm_scan_not_rank_order :
    ∃ s, (commScan (⟨fun _ a b => a ++ b, fun _ => []⟩ : Dom (List Nat)) .add 1 4).run 4 (fun p => ⟨[[p]], [], []⟩) = .ok s ∧
      (s 3).scan = [[2, 0, 1]] := by
  have : ((fun o : Outcome (Nat → ScanSt (List Nat)) => match o with | .ok s => (s 3).scan == [[2, 0, 1]] | _ => false)
    ((commScan (⟨fun _ a b => a ++ b, fun _ => []⟩ : Dom (List Nat)) .add 1 4).run 4 (fun p => ⟨[[p]], [], []⟩))) = true := by
    decide +kernel
  revert this
  cases (commScan (⟨fun _ a b => a ++ b, fun _ => []⟩ : Dom (List Nat)) .add 1 4).run 4 (fun p => ⟨[[p]], [], []⟩) with
  | ok s => intro h; exact ⟨s, rfl, by simpa using h⟩
  | abort => intro h; cases h
  | ub => intro h; cases h

/-! ## comm_reduce -/

theorem foldl_assoc {okT : T → Prop} {g : T → T → T} {e : T} (h : CommMonoidOn okT g e) (l : List T) (hl : ∀ x ∈ l, okT x) (a : T) (ha : okT a) :
    l.foldl g a = g a (l.foldl g e) ∧ okT (l.foldl g e) := by
  induction l generalizing a with
  | nil => exact ⟨(h.idRight a ha).symm, h.okId⟩
  | cons x l ih =>
    simp only [List.mem_cons, forall_eq_or_imp] at hl
    obtain ⟨i1, i2⟩ := ih hl.2 (g a x) (h.closed _ _ ha hl.1)
    obtain ⟨j1, _⟩ := ih hl.2 (g e x) (h.closed _ _ h.okId hl.1)
    rw [List.foldl_cons, List.foldl_cons, i1, j1, h.idLeft x hl.1, h.assoc _ _ _ ha hl.1 i2]
    exact ⟨rfl, h.closed _ _ hl.1 i2⟩

/-- `comm_reduce` returns on every process the reduction of all entries of all arrays, in rank order -/
theorem comm_reduce_reduces (D : Dom T) (op : Op) (okT : T → Prop) (hg : CommMonoidOn okT (D.doOp op) (D.identity op)) (np : Nat)
    (s0 : Nat → List T) (hs : ∀ p, p < np → ∀ x ∈ s0 p, okT x) :
    AllSchedules (commReduce D op np).prog np s0 fun s => ∀ p, p < np →
      s p = [(((List.range np).map s0).flatten).foldl (D.doOp op) (D.identity op)] := by
  let f : Nat → T := fun p => reduceLocal D op (s0 p)
  have hf : ∀ p, p < np → okT (f p) := fun p hp => (foldl_assoc hg (s0 p) (hs p hp) _ hg.okId).2
  have hok1 : (Coll.loc (fun _ inp => .ok [reduceLocal D op inp]) ([] : List T)).Ok np := Coll.loc_ok _ _ _
  let s1 : Nat → List T := fun p => if p < np then [f p] else s0 p
  have hrun1 : (Coll.loc (fun _ inp => .ok [reduceLocal D op inp]) ([] : List T)).run np s0 = .ok s1 := by
    apply Coll.loc_run_ok
    intro p hp; simp [f]
  have hrun2 := allreduce_run D op (gatherArray_assocOn D op hg.toAssoc 1) np s1 (fun p hp => by
    simp only [s1, hp, if_true]; exact ⟨rfl, by simpa using hf p hp⟩)
  have hrun := Coll.seq_run (b := treeColl (allreduceOps D op) np) hok1 s0
  rw [hrun1, Outcome.bind, hrun2] at hrun
  refine allSchedules_of_lockRun (Coll.seq_ok hok1 (comm_tree_matching D op 1 np).1) hrun _ ?_
  intro s hs' p hp
  rw [hs' p hp, if_pos hp, reduceAll_congr (v' := fun q => vec 1 fun _ => f q) (by omega) (fun q hq => by simp [s1, hq, vec])]
  show foldRanks _ _ _ _ = _
  rw [foldRanks_vec D op 1 (fun q _ => f q)]
  simp only [vec, List.range_one, List.map_cons, List.map_nil, List.cons.injEq, and_true]
  have : ∀ k, k < np → foldRanks (D.doOp op) f 0 k = (((List.range (k + 1)).map s0).flatten).foldl (D.doOp op) (D.identity op) := by
    intro k hk
    have hmem : ∀ j, j ≤ np → ∀ x ∈ ((List.range j).map s0).flatten, okT x := by
      intro j hj x hx
      simp only [List.mem_flatten, List.mem_map, List.mem_range] at hx
      obtain ⟨l, ⟨q, hq, rfl⟩, hx⟩ := hx
      exact hs q (by omega) x hx
    induction k with
    | zero => simp [foldRanks, f, reduceLocal]
    | succ k ih =>
      rw [foldRanks, ih (by omega), List.range_succ (n := k + 1), List.map_append, List.flatten_append, List.foldl_append]
      have hk2 := foldl_assoc hg _ (hmem (k + 1) (by omega)) _ hg.okId
      simp only [List.map_cons, List.map_nil, List.flatten_cons, List.flatten_nil, List.append_nil]
      rw [(foldl_assoc hg (s0 (k + 1)) (hs _ hk) _ hk2.2).1]
      simp only [Nat.zero_add]
      rfl
  have := this (np - 1) (by omega)
  rw [Nat.sub_add_cancel (by omega)] at this
  exact this

example : ∀ p, p < 3 → ∀ x ∈ (fun p => [BitVec.ofNat 32 p, 5#32]) p, (fun _ => True) x := fun _ _ _ _ => trivial

end Gslib.Props
