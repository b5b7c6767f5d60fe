import Verif.Lemmas.Coll

/-!
# Simulation of collective operations
-/

namespace Gslib.Mpi
open Gslib

variable {S S' W A : Type}

/-- a run of `a` from states related by `R` is followed by `b`, ending in states related by `Q` -/
def Sim (P : Nat) (R Q : Nat → S → S' → Prop) (a : Coll S W) (b : Coll S' W) : Prop :=
  ∀ s s' t, (∀ p, p < P → R p (s p) (s' p)) → a.run P s = .ok t → ∃ t', b.run P s' = .ok t' ∧ ∀ p, p < P → Q p (t p) (t' p)

theorem Sim.seq {P : Nat} {R Q T : Nat → S → S' → Prop} {a1 a2 : Coll S W} {b1 b2 : Coll S' W} (h1 : Sim P R Q a1 b1) (h2 : Sim P Q T a2 b2) (ha : a1.Ok P) (hb : b1.Ok P) : Sim P R T (a1.seq a2) (b1.seq b2) := by
  intro s s' t hR e
  rw [Coll.seq_run ha] at e
  cases e1 : a1.run P s with
  | ok u =>
    rw [e1] at e
    obtain ⟨u', f1, hQ⟩ := h1 s s' u hR e1
    obtain ⟨t', f2, hT⟩ := h2 u u' t hQ e
    exact ⟨t', by rw [Coll.seq_run hb, f1]; exact f2, hT⟩
  | abort => rw [e1] at e; cases e
  | ub => rw [e1] at e; cases e

theorem Sim.loc {P : Nat} {R Q : Nat → S → S' → Prop} {f : Nat → S → Outcome S} {g : Nat → S' → Outcome S'} (w : W)
    (h : ∀ p, p < P → ∀ s s' t, R p s s' → f p s = .ok t → ∃ t', g p s' = .ok t' ∧ Q p t t') : Sim P R Q (Coll.loc f w) (Coll.loc g w) := by
  intro s s' t hR e
  rw [Coll.loc_run] at e
  obtain ⟨e1, _⟩ := seqAll_ok e
  have k : ∀ p, ∃ t', p < P → g p (s' p) = .ok t' ∧ Q p (t p) t' := by
    intro p
    by_cases hp : p < P
    · obtain ⟨t', q⟩ := h p hp (s p) (s' p) (t p) (hR p hp) (e1 p hp)
      exact ⟨t', fun _ => q⟩
    · exact ⟨s' p, fun h => absurd h hp⟩
  choose t' ht' using k
  refine ⟨_, Coll.loc_run_ok (g := t') fun p hp => (ht' p hp).1, fun p hp => ?_⟩
  rw [if_pos hp]
  exact (ht' p hp).2

theorem Sim.lift {P : Nat} {R Q : Nat → S → S' → Prop} {get : S → A} {set : S → A → S} {get' : S' → A} {set' : S' → A → S'} (hl : Lens get set) (hl' : Lens get' set') (c : Coll A W)
    (hg : ∀ p, p < P → ∀ s s', R p s s' → get s = get' s') (hq : ∀ p, p < P → ∀ s s' x, R p s s' → Q p (set s x) (set' s' x)) : Sim P R Q (c.lift get set) (c.lift get' set') := by
  intro s s' t hR e
  rw [Coll.lift_run hl c P s (fun p => get (s p)) (fun _ _ => rfl)] at e
  rw [Coll.lift_run hl' c P s' (fun p => get (s p)) (fun p hp => (hg p hp _ _ (hR p hp)).symm)]
  cases e1 : c.run P fun p => get (s p) with
  | ok f =>
    rw [e1] at e
    simp only [Outcome.bind] at e ⊢
    obtain rfl := Outcome.ok.inj e
    refine ⟨_, rfl, fun p hp => ?_⟩
    simp only [putAll, hp, if_true]
    exact hq p hp _ _ _ (hR p hp)
  | abort => rw [e1] at e; cases e
  | ub => rw [e1] at e; cases e

end Gslib.Mpi
