import Verif.Lemmas.MapW
import Verif.Lemmas.TransferRun
import Verif.Props.Transfer

/-! # Transfers of arrays of structs given as Lean structures -/

namespace Gslib.Gs
open Gslib Gslib.Mpi Gslib.Transfer Gslib.Spec Gslib.Props

/-- laws of a struct layout: `proc` is the processor field, `setp` assigns it, `fit`: all fields are in range -/
structure Layout.Ok {ρ : Type} (L : Layout ρ) (proc : ρ → Nat) (setp : Nat → ρ → ρ) (fit : ρ → Prop) : Prop where
  len : ∀ r, (L.enc r).length = L.size
  bytes : ∀ r, fit r → Bytes (L.enc r)
  dec : ∀ r, fit r → L.dec (L.enc r) = r
  off : L.pOff + 4 ≤ L.size
  big : 4 < L.size
  getp : ∀ r, fit r → leVal (((L.enc r).drop L.pOff).take 4) = proc r
  putp : ∀ r w, fit r → w < 4294967296 → (L.enc r).take L.pOff ++ leBytes w ++ (L.enc r).drop (L.pOff + 4) = L.enc (setp w r)
  fit_set : ∀ r w, fit r → w < 4294967296 → fit (setp w r)

/-- the rows for `p` -/
def arrived {ρ : Type} (np : Nat) (proc : ρ → Nat) (setp : Nat → ρ → ρ) (setSrc : Bool) (rows : Nat → List ρ) (p : Nat) : List ρ :=
  (List.range np).flatMap fun q => ((rows q).filter fun r => proc r = p).map (setp (if setSrc then q else p))

theorem typed_transfer_run {ρ : Type} {L : Layout ρ} {proc : ρ → Nat} {setp : Nat → ρ → ρ} {fit : ρ → Prop} (hL : L.Ok proc setp fit)
    {np : Nat} {setSrc : Bool} (rows : Nat → List ρ) (s0 : Nat → TrState) (hnp : np ≤ 4294967295)
    (hfit : ∀ q, q < np → ∀ r ∈ rows q, fit r ∧ proc r < np)
    (hs : ∀ q, q < np → (s0 q).cols = [(rows q).map L.enc])
    (hsmall : (∑ q ∈ Finset.range np, (rows q).length) * ((L.size - 4 + 3) / 4 + 3) * 4 < Crystal.intMax) :
    ∃ sf, (sarrayTransfer np L.size L.pOff setSrc).run np s0 = .ok sf ∧ ∀ p, p < np → ∃ out : List ρ,
      out.Perm (arrived np proc setp setSrc rows p) ∧ (sf p).cols = [out.map L.enc] := by
  have hin : Inp np ⟨[L.size], false, false, setSrc, L.pOff, L.size⟩ s0 (fun q => (rows q).map fun r => [L.enc r])
      (fun q => (rows q).map proc) := by
    refine ⟨⟨by simp, fun _ => by simpa using hL.off, ?_⟩, ?_, hnp, ?_⟩
    · have := hL.big
      simp [Params.rowSize, Params.off1]; omega
    · intro q hq
      refine ⟨?_, ?_, by simp, by simp, ?_, ?_, by simp⟩
      · rw [hs q hq]
        simp [colsOf, Function.comp_def]
      · intro r hr
        obtain ⟨x, hx, rfl⟩ := List.mem_map.1 hr
        refine ⟨by simp [hL.len], ?_⟩
        intro c hc
        rw [List.mem_singleton] at hc
        subst hc
        exact hL.bytes x (hfit q hq x hx).1
      · intro _
        rw [List.map_map]
        apply List.map_congr_left
        intro r hr
        exact (hL.getp r (hfit q hq r hr).1).symm
      · intro d hd
        obtain ⟨x, hx, rfl⟩ := List.mem_map.1 hd
        exact (hfit q hq x hx).2
    · simpa [Params.rowSize, Params.off1] using hsmall
  obtain ⟨sf, e, h⟩ := transferMany_run hin (fun hf => by simp at hf)
  refine ⟨sf, e, fun p hp => ?_⟩
  obtain ⟨out, h1, h2⟩ := h p hp
  have hr : received np (fun q => (rows q).map fun r => [L.enc r]) (fun q => (rows q).map proc)
      (fun q => outRow ⟨[L.size], false, false, setSrc, L.pOff, L.size⟩ q p) p
      = (arrived np proc setp setSrc rows p).map fun r => [L.enc r] := by
    unfold received arrived
    rw [List.map_flatMap]
    apply List.flatMap_congr
    intro q hq
    have hq' := List.mem_range.1 hq
    rw [List.zip_map', List.filter_map, List.map_map, List.map_map]
    apply List.map_congr_left
    intro r hr
    have hr' := List.mem_filter.1 hr
    have hf := (hfit q hq' r hr'.1).1
    simp only [Function.comp_apply, outRow, Bool.false_eq_true, if_false, setProcField, List.getD_cons_zero, List.tail_cons]
    rw [hL.putp r _ hf]
    split <;> omega
  rw [hr] at h1
  obtain ⟨l, hl1, hl2⟩ := perm_map_inv _ h1
  refine ⟨l, hl1, ?_⟩
  rw [h2, hl2]
  simp [colsOf, Function.comp_def]

theorem arrived_fit {ρ : Type} {L : Layout ρ} {proc : ρ → Nat} {setp : Nat → ρ → ρ} {fit : ρ → Prop} (hL : L.Ok proc setp fit)
    {np : Nat} {setSrc : Bool} (rows : Nat → List ρ) (hnp : np ≤ 4294967295)
    (hfit : ∀ q, q < np → ∀ r ∈ rows q, fit r ∧ proc r < np) {p : Nat} (hp : p < np) :
    ∀ r ∈ arrived np proc setp setSrc rows p, fit r := by
  intro r hr
  unfold arrived at hr
  simp only [List.mem_flatMap, List.mem_map, List.mem_filter, List.mem_range] at hr
  obtain ⟨q, hq, x, ⟨hx, _⟩, rfl⟩ := hr
  exact hL.fit_set _ _ (hfit q hq x hx).1 (by split <;> omega)

theorem lens_tr : Lens TopoSt.tr TopoSt.setTr := ⟨fun _ _ => rfl, fun _ => rfl, fun _ _ _ => rfl⟩

theorem lens_scan : Lens TopoSt.scan TopoSt.setScan := ⟨fun _ _ => rfl, fun _ => rfl, fun _ _ _ => rfl⟩

/-- a transfer within get_topology -/
theorem topoTransfer_run {ρ : Type} {L : Layout ρ} {proc : ρ → Nat} {setp : Nat → ρ → ρ} {fit : ρ → Prop} (hL : L.Ok proc setp fit)
    {np : Nat} {setSrc : Bool} (rows : Nat → List ρ) (s0 : Nat → TopoSt) (hnp : np ≤ 4294967295)
    (hfit : ∀ q, q < np → ∀ r ∈ rows q, fit r ∧ proc r < np)
    (hs : ∀ q, q < np → (s0 q).tr.cols = [(rows q).map L.enc])
    (hsmall : (∑ q ∈ Finset.range np, (rows q).length) * ((L.size - 4 + 3) / 4 + 3) * 4 < Crystal.intMax) :
    ∃ (t : Nat → TrState), (topoTransfer np L setSrc).run np s0 = .ok (fun p => if p < np then (s0 p).setTr (t p) else s0 p) ∧
      ∀ p, p < np → (getRows L (t p)).Perm (arrived np proc setp setSrc rows p) := by
  obtain ⟨sf, e, h⟩ := typed_transfer_run hL (setSrc := setSrc) rows (fun p => (s0 p).tr) hnp hfit hs hsmall
  refine ⟨sf, ?_, ?_⟩
  · unfold topoTransfer
    rw [Coll.lift_run lens_tr _ np s0 (fun p => (s0 p).tr) (fun _ _ => rfl), Coll.mapW_run _ _ (fun _ => rfl), e]
    rfl
  · intro p hp
    obtain ⟨out, h1, h2⟩ := h p hp
    unfold getRows
    rw [h2]
    simp only [List.headD_cons, List.map_map]
    have : List.map (L.dec ∘ L.enc) out = out := by
      conv => rhs; rw [← List.map_id out]
      apply List.map_congr_left
      intro r hr
      exact hL.dec r (arrived_fit hL rows hnp hfit hp r (h1.mem_iff.1 hr))
    rw [this]
    exact h1

theorem topoTransfer_ok {ρ : Type} (np : Nat) (L : Layout ρ) (setSrc : Bool) : (topoTransfer np L setSrc).Ok np :=
  Coll.lift_ok _ _ (Coll.mapW_ok _ _ (transferMany_ok _ _))

/-! ### the two layouts -/

theorem le8_length (x : Nat) : (le8 x).length = 8 := rfl

theorem unle_le8 (x : Nat) (h : x < 18446744073709551616) : unle (le8 x) = x := by
  simp [le8, le4, unle]; omega

theorem le8_bytes (x : Nat) : Bytes (le8 x) := by
  intro b hb
  rcases List.mem_append.1 hb with h | h <;> exact le4_bytes _ b h

theorem leVal_eq_unle (b : List Nat) : leVal b = unle b := (unle_eq_leVal b).symm

theorem bytes_append {a b : List Nat} (ha : Bytes a) (hb : Bytes b) : Bytes (a ++ b) := by
  intro x hx
  rcases List.mem_append.1 hx with h | h
  · exact ha x h
  · exact hb x h

/-- fields in range -/
def UniqueId.Fit (r : UniqueId) : Prop := r.id < 18446744073709551616 ∧ r.workProc < 4294967296 ∧ r.srcIf < 4294967296

/-- fields in range -/
def SharedWork.Fit (w : SharedWork) : Prop := w.id < 18446744073709551616 ∧ w.ord < 18446744073709551616 ∧ w.p1 < 4294967296 ∧
  w.p2 < 4294967296 ∧ w.i1f < 4294967296 ∧ w.i2f < 4294967296

theorem uniqueLayout_ok : uniqueLayout.Ok UniqueId.workProc (fun w r => { r with workProc := w }) UniqueId.Fit where
  len r := rfl
  bytes r _ := bytes_append (bytes_append (le8_bytes _) (le4_bytes _)) (le4_bytes _)
  dec r h := by
    obtain ⟨h1, h2, h3⟩ := h
    show (⟨unle (le8 r.id), unle (le4 r.workProc), unle (le4 r.srcIf)⟩ : UniqueId) = r
    rw [unle_le8 _ h1, unle_le4 _ h2, unle_le4 _ h3]
  off := by decide
  big := by decide
  getp r h := by
    show leVal (le4 r.workProc) = _
    rw [leVal_eq_unle, unle_le4 _ h.2.1]
  putp r w _ _ := rfl
  fit_set r w h hw := ⟨h.1, hw, h.2.2⟩

theorem workLayout_ok : workLayout.Ok SharedWork.p1 (fun w r => { r with p1 := w }) SharedWork.Fit where
  len r := rfl
  bytes r _ := bytes_append (bytes_append (bytes_append (bytes_append (bytes_append (le8_bytes _) (le8_bytes _)) (le4_bytes _)) (le4_bytes _)) (le4_bytes _)) (le4_bytes _)
  dec r h := by
    obtain ⟨h1, h2, h3, h4, h5, h6⟩ := h
    show (⟨unle (le8 r.id), unle (le8 r.ord), unle (le4 r.p1), unle (le4 r.p2), unle (le4 r.i1f), unle (le4 r.i2f)⟩ : SharedWork) = r
    rw [unle_le8 _ h1, unle_le8 _ h2, unle_le4 _ h3, unle_le4 _ h4, unle_le4 _ h5, unle_le4 _ h6]
  off := by decide
  big := by decide
  getp r h := by
    show leVal (le4 r.p1) = _
    rw [leVal_eq_unle, unle_le4 _ h.2.2.1]
  putp r w _ _ := rfl
  fit_set r w h hw := ⟨h.1, h.2.1, hw, h.2.2.2⟩

end Gslib.Gs
