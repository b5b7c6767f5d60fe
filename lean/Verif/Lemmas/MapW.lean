import Verif.Lemmas.Coll
import Verif.Model.GsTopo

/-! # Collective operations with messages of another type -/

namespace Gslib.Mpi
open Gslib
variable {S W W' : Type}

theorem Coll.mapW_ok {c : Coll S W} {P : Nat} (inj : W → W') (proj : W' → W) (h : c.Ok P) : (c.mapW inj proj).Ok P where
  labels p hp := List.pairwise_map.2 ((h.labels p hp).imp fun h => h)
  bound p hp s hs := by
    obtain ⟨z, hz, rfl⟩ := List.mem_map.1 hs
    exact h.bound p hp z hz
  recvNodup p hp s hs := by
    obtain ⟨z, hz, rfl⟩ := List.mem_map.1 hs
    exact h.recvNodup p hp z hz
  sendNodup p hp s hs := by
    obtain ⟨z, hz, rfl⟩ := List.mem_map.1 hs
    exact h.sendNodup p hp z hz
  send p hp s hs x hx := by
    obtain ⟨z, hz, rfl⟩ := List.mem_map.1 hs
    obtain ⟨h1, s', h2, h3, h4⟩ := h.send p hp z hz x hx
    exact ⟨h1, _, List.mem_map_of_mem h2, h3, h4⟩
  recv p hp s hs x hx := by
    obtain ⟨z, hz, rfl⟩ := List.mem_map.1 hs
    obtain ⟨h1, s', h2, h3, h4⟩ := h.recv p hp z hz x hx
    exact ⟨h1, _, List.mem_map_of_mem h2, h3, h4⟩

theorem stepAt_mapW (inj : W → W') (proj : W' → W) (pr : Prog S W) (l : Nat) :
    stepAt (pr.map (Step.mapW inj proj)) l = (stepAt pr l).map (Step.mapW inj proj) := by
  unfold stepAt
  rw [List.find?_map]
  rfl

theorem mapM_map_option {A B C : Type} (f : A → Option B) (g : B → C) : ∀ l : List A, l.mapM (fun a => (f a).map g) = (l.mapM f).map (List.map g)
  | [] => rfl
  | a :: l => by
    rw [List.mapM_cons, List.mapM_cons, mapM_map_option f g l]
    cases f a with
    | none => rfl
    | some b => cases l.mapM f <;> rfl

theorem Coll.mapW_run (inj : W → W') (proj : W' → W) (hpi : ∀ w, proj (inj w) = w) (c : Coll S W) (P : Nat) (d : Nat → S) :
    (c.mapW inj proj).run P d = c.run P d := by
  unfold Coll.run Coll.mapW
  simp only
  generalize c.T = T
  have hstep : ∀ l d, lockStep (fun p => (c.prog p).map (Step.mapW inj proj)) P l d = lockStep c.prog P l d := by
    intro l d
    unfold lockStep
    have e1 : preOf (fun p => (c.prog p).map (Step.mapW inj proj)) l d = preOf c.prog l d := by
      funext p
      unfold preOf
      rw [stepAt_mapW]
      cases stepAt (c.prog p) l <;> rfl
    have e2 : ∀ e, postOf (fun p => (c.prog p).map (Step.mapW inj proj)) P l e = postOf c.prog P l e := by
      intro e
      funext p
      unfold postOf
      rw [stepAt_mapW]
      have hg : ∀ recvs, gather (fun p => (c.prog p).map (Step.mapW inj proj)) P l e p recvs = (gather c.prog P l e p recvs).map (List.map inj) := by
        intro recvs
        unfold gather
        rw [← mapM_map_option]
        congr 1
        funext x
        split
        · rw [stepAt_mapW]
          cases stepAt (c.prog x.1) l with
          | none => rfl
          | some s =>
            simp only [Option.map_some, Step.mapW]
            split <;> rfl
        · rfl
      cases stepAt (c.prog p) l with
      | none => rfl
      | some s =>
        simp only [Option.map_some]
        rw [hg]
        simp only [Step.mapW]
        cases gather c.prog P l e p s.recvs with
        | none => rfl
        | some v =>
          simp only [Option.map_some, Outcome.ofOption, Outcome.bind, List.map_map]
          congr 1
          rw [show proj ∘ inj = id from funext hpi, List.map_id]
    simp only [e1, e2]
  induction T with
  | zero => rfl
  | succ T ih => rw [lockRun, lockRun, ih]; congr 1; funext d; exact hstep T d

end Gslib.Mpi
