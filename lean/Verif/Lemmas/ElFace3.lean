import Verif.Lemmas.ElSides3

/-!
# Helper lemmas: `get_face`, `get_edge` in 3D
-/

namespace Gslib.El
open Gslib.Tensor Gslib.Num Gslib.Spec Gslib.Props Polynomial Finset

variable {K : Type} [Field K] [LinearOrder K]

/-- the part of `sides` that belongs to a pair of faces -/
def InFace (e : El3 K) (dn : Fin 3) (a : Nat) : Prop :=
  match dn with
  | 0 => a < 12 * (e.n 1 * e.n 2)
  | 1 => 12 * (e.n 1 * e.n 2) ≤ a ∧ a < offRS e
  | 2 => offRS e ≤ a ∧ a < offE e 0

/-- what `face[2*dn+s].x[c]` points to once it is set -/
def facePtr (e : El3 K) (dn : Fin 3) (s : Nat) (c : Fin 3) : Ptr K :=
  match dn with
  | 0 => .sides (faceAt e 0 s 0 c)
  | 1 => .sides (faceAt e 1 s 0 c)
  | 2 => .user (e.x c) (e.n 0 * e.n 1 * (if s = 0 then 0 else e.n 2 - 1))

/-- what `edge[4*d+i].x[c]` points to once it is set -/
def edgePtr (e : El3 K) (d : Fin 3) (i : Nat) (c : Fin 3) : Ptr K := if i % 2 = 0 then facePtr e (d + 2) (i / 2) c else (facePtr e (d + 2) (i / 2) c).add (e.n d * (e.n (d + 1) - 1))

/-- the data of a pair of faces are there -/
structure FaceDone (e : El3 K) (st : ElSt3 K) (dn : Fin 3) : Prop where
  val : ∀ a, InFace e dn a → ent st.sides a = SV e a
  x : dn = 2 → st.faceX = some e.x

/-- the data of the edges along `d` are there -/
structure EdgeDone (e : El3 K) (st : ElSt3 K) (d : Fin 3) : Prop where
  face : FaceDone e st (d + 2)
  val : ∀ a, offE e d ≤ a → a < offE e d + 36 * e.n d → ent st.sides a = SV e a
  x : st.edgeX d = some fun i c => edgePtr e d i.val c

/-- the corner with number `q` -/
def cornerR3 (K : Type) [Field K] (q : Nat) : Fin 3 → K := ![sideEnd K (q % 2), sideEnd K (q / 2 % 2), sideEnd K (q / 4)]

/-- final contents of `pt` -/
noncomputable def PV (e : El3 K) (a : Nat) : K :=
  if a % 30 < 3 then (elMap3 e).X (cornerR3 K (a / 30)) (Fin.ofNat 3 (a % 30))
  else if a % 30 < 12 then (elMap3 e).J (cornerR3 K (a / 30)) (Fin.ofNat 3 ((a % 30 - 3) / 3)) (Fin.ofNat 3 ((a % 30 - 3) % 3))
  else (elMap3 e).H (cornerR3 K (a / 30)) (Fin.ofNat 3 ((a % 30 - 12) / 6)) (Fin.ofNat 6 ((a % 30 - 12) % 6))

/-- the data of the corners are there -/
def PtDone (e : El3 K) (st : ElSt3 K) : Prop := ∀ a, a < 240 → ent st.pt a = PV e a

/-- what is there stays there -/
structure Keeps (e : El3 K) (st st' : ElSt3 K) : Prop where
  sides : ∀ a, ent st.sides a = SV e a → ent st'.sides a = SV e a
  faceX : st.faceX = some e.x → st'.faceX = some e.x
  edgeX : ∀ d, st.edgeX d = (some fun i c => edgePtr e d i.val c) → st'.edgeX d = some fun i c => edgePtr e d i.val c
  pt : ∀ a, ent st.pt a = PV e a → ent st'.pt a = PV e a

theorem Keeps.refl (e : El3 K) (st : ElSt3 K) : Keeps e st st := ⟨fun _ h => h, fun h => h, fun _ h => h, fun _ h => h⟩

theorem Keeps.trans {e : El3 K} {a b c : ElSt3 K} (h : Keeps e a b) (h' : Keeps e b c) : Keeps e a c :=
  ⟨fun x hx => h'.sides x (h.sides x hx), fun hx => h'.faceX (h.faceX hx), fun d hx => h'.edgeX d (h.edgeX d hx), fun x hx => h'.pt x (h.pt x hx)⟩

theorem FaceDone.keep {e : El3 K} {st st' : ElSt3 K} {dn : Fin 3} (h : FaceDone e st dn) (k : Keeps e st st') : FaceDone e st' dn := ⟨fun a ha => k.sides a (h.val a ha), fun hd => k.faceX (h.x hd)⟩

theorem EdgeDone.keep {e : El3 K} {st st' : ElSt3 K} {d : Fin 3} (h : EdgeDone e st d) (k : Keeps e st st') : EdgeDone e st' d :=
  ⟨h.face.keep k, fun a h1 h2 => k.sides a (h.val a h1 h2), k.edgeX d h.x⟩

theorem PtDone.keep {e : El3 K} {st st' : ElSt3 K} (h : PtDone e st) (k : Keeps e st st') : PtDone e st' := fun a ha => k.pt a (h a ha)

/-- `side_init` says which data are there -/
structure Sides3 (e : El3 K) (nptMax : Nat) (st : ElSt3 K) : Prop where
  mem : El3Mem e nptMax st
  face : ∀ dn : Fin 3, st.sideInit &&& ((1 : U32) <<< dn.val) ≠ 0 → FaceDone e st dn
  edge : ∀ d : Fin 3, st.sideInit &&& ((8 : U32) <<< d.val) ≠ 0 → EdgeDone e st d
  pt : st.sideInit &&& 0x40 ≠ 0 → PtDone e st

theorem masks (i j : Fin 3) : (i ≠ j → ((1 : U32) <<< i.val) &&& ((1 : U32) <<< j.val) = 0) ∧ (i ≠ j → ((8 : U32) <<< i.val) &&& ((8 : U32) <<< j.val) = 0) ∧ ((1 : U32) <<< i.val) &&& ((8 : U32) <<< j.val) = 0 ∧
    ((8 : U32) <<< i.val) &&& ((1 : U32) <<< j.val) = 0 ∧ ((1 : U32) <<< i.val) &&& 0x40 = 0 ∧ ((8 : U32) <<< i.val) &&& 0x40 = 0 ∧ (0x40 : U32) &&& ((1 : U32) <<< i.val) = 0 ∧ (0x40 : U32) &&& ((8 : U32) <<< i.val) = 0 := by
  revert i j; decide

/-- the values of a face -/
theorem face_get {e : El3 K} (he : El3Ok e) {sd : List K} (hl : sd.length = sidesSize3 e) {dn : Fin 3} (hv : ∀ a, InFace e dn a → ent sd a = SV e a) {s : Nat} (hs : s < 2) (c : Fin 3) :
    e.n (dn + 1) * e.n (dn + 2) ≤ ((facePtr e dn s c).get sd).length ∧ ∀ j, j < e.n (dn + 1) * e.n (dn + 2) → ent ((facePtr e dn s c).get sd) j = faceV e dn s 0 c j := by
  have hc := c.isLt
  obtain ⟨o0, o1, o2, o3, o4⟩ := offE_vals e
  have oRS : offRS e = 12 * (e.n 1 * e.n 2) + 12 * (e.n 2 * e.n 0) := rfl
  have blk : ∀ N, (6 * s + 3 * 0 + c.val) * N + N ≤ 12 * N := fun N => by rw [← Nat.succ_mul]; exact Nat.mul_le_mul_right _ (by omega)
  rcases fin3 dn with rfl | rfl | rfl
  · have b := blk (e.n 1 * e.n 2)
    show e.n 1 * e.n 2 ≤ (sd.drop (faceAt e 0 s 0 c)).length ∧ ∀ j, j < e.n 1 * e.n 2 → ent (sd.drop (faceAt e 0 s 0 c)) j = _
    have ha : faceAt e 0 s 0 c = (6 * s + 3 * 0 + c.val) * (e.n 1 * e.n 2) := rfl
    refine ⟨by rw [List.length_drop]; omega, fun j hj => ?_⟩
    rw [ent_drop, hv _ (by show _ < _; omega)]
    exact SV_face e 0 c hs (by omega) (fun h => absurd h (by decide)) hj
  · have b := blk (e.n 2 * e.n 0)
    show e.n 2 * e.n 0 ≤ (sd.drop (faceAt e 1 s 0 c)).length ∧ ∀ j, j < e.n 2 * e.n 0 → ent (sd.drop (faceAt e 1 s 0 c)) j = _
    have ha : faceAt e 1 s 0 c = 12 * (e.n 1 * e.n 2) + (6 * s + 3 * 0 + c.val) * (e.n 2 * e.n 0) := rfl
    refine ⟨by rw [List.length_drop]; omega, fun j hj => ?_⟩
    rw [ent_drop, hv _ (by show _ ∧ _; omega)]
    exact SV_face e 1 c hs (by omega) (fun h => absurd h (by decide)) hj
  · have h2 := (he.dir 2).two
    have hx := he.x c
    show e.n 0 * e.n 1 ≤ ((e.x c).drop (e.n 0 * e.n 1 * (if s = 0 then 0 else e.n 2 - 1))).length ∧ ∀ j, j < e.n 0 * e.n 1 → ent ((e.x c).drop (e.n 0 * e.n 1 * (if s = 0 then 0 else e.n 2 - 1))) j = _
    refine ⟨?_, fun j hj => ?_⟩
    · rw [List.length_drop, hx, ← Nat.mul_sub]
      exact Nat.le_mul_of_pos_right _ (by split_ifs <;> omega)
    · unfold faceV faceA Lg
      rw [sum_end (he.dir 2) (fun i => ent (e.x c) (node e 2 i (j % e.n (2 + 1)) (j / e.n (2 + 1)))), ent_drop]
      congr 1
      generalize (if s = 0 then 0 else e.n 2 - 1) = i
      show e.n 0 * e.n 1 * i + j = j % e.n 0 + e.n 0 * (j / e.n 0 + e.n 1 * i)
      rw [Nat.mul_add, ← Nat.add_assoc, Nat.mod_add_div, Nat.mul_assoc, Nat.add_comm]

/-- the normal derivatives of a face -/
theorem face_norm {e : El3 K} {sd : List K} (hl : sd.length = sidesSize3 e) {dn : Fin 3} (hv : ∀ a, InFace e dn a → ent sd a = SV e a) {s : Nat} (hs : s < 2) (c : Fin 3) :
    faceN e (2 * dn.val + s) c = some (faceAt e dn s 1 c) ∧ e.n (dn + 1) * e.n (dn + 2) ≤ (sd.drop (faceAt e dn s 1 c)).length ∧
      ∀ j, j < e.n (dn + 1) * e.n (dn + 2) → ent (sd.drop (faceAt e dn s 1 c)) j = faceV e dn s 1 c j := by
  have hc := c.isLt
  obtain ⟨o0, o1, o2, o3, o4⟩ := offE_vals e
  have oRS : offRS e = 12 * (e.n 1 * e.n 2) + 12 * (e.n 2 * e.n 0) := rfl
  have blk : ∀ N, (6 * s + 3 * 1 + c.val) * N + N ≤ 12 * N := fun N => by rw [← Nat.succ_mul]; exact Nat.mul_le_mul_right _ (by omega)
  have blk' : ∀ N, (3 * s + c.val) * N + N ≤ 6 * N := fun N => by rw [← Nat.succ_mul]; exact Nat.mul_le_mul_right _ (by omega)
  rcases fin3 dn with rfl | rfl | rfl
  · have b := blk (e.n 1 * e.n 2)
    have ha : faceAt e 0 s 1 c = (6 * s + 3 * 1 + c.val) * (e.n 1 * e.n 2) := rfl
    show _ ∧ e.n 1 * e.n 2 ≤ _ ∧ ∀ j, j < e.n 1 * e.n 2 → _
    refine ⟨?_, by rw [List.length_drop]; omega, fun j hj => ?_⟩
    · rcases (by omega : s = 0 ∨ s = 1) with rfl | rfl <;> rfl
    · rw [ent_drop, hv _ (by show _ < _; omega)]
      exact SV_face e 0 c hs (by omega) (fun h => absurd h (by decide)) hj
  · have b := blk (e.n 2 * e.n 0)
    have ha : faceAt e 1 s 1 c = 12 * (e.n 1 * e.n 2) + (6 * s + 3 * 1 + c.val) * (e.n 2 * e.n 0) := rfl
    show _ ∧ e.n 2 * e.n 0 ≤ _ ∧ ∀ j, j < e.n 2 * e.n 0 → _
    refine ⟨?_, by rw [List.length_drop]; omega, fun j hj => ?_⟩
    · rcases (by omega : s = 0 ∨ s = 1) with rfl | rfl <;> rfl
    · rw [ent_drop, hv _ (by show _ ∧ _; omega)]
      exact SV_face e 1 c hs (by omega) (fun h => absurd h (by decide)) hj
  · have b := blk' (e.n 0 * e.n 1)
    have ha : faceAt e 2 s 1 c = offRS e + (3 * s + c.val) * (e.n 0 * e.n 1) := rfl
    show _ ∧ e.n 0 * e.n 1 ≤ _ ∧ ∀ j, j < e.n 0 * e.n 1 → _
    refine ⟨?_, by rw [List.length_drop]; omega, fun j hj => ?_⟩
    · rcases (by omega : s = 0 ∨ s = 1) with rfl | rfl
      · show some (offRS e + c.val * (e.n 0 * e.n 1)) = _; rw [ha, Nat.mul_zero, Nat.zero_add]
      · rfl
    · rw [ent_drop, hv _ (by show _ ∧ _; omega)]
      exact SV_face e 2 c hs (by omega) (fun _ => rfl) hj

theorem face_ptr {e : El3 K} {st : ElSt3 K} {dn : Fin 3} (h : FaceDone e st dn) {s : Nat} (hs : s < 2) (c : Fin 3) : faceX e st (2 * dn.val + s) c = some (facePtr e dn s c) := by
  rcases fin3 dn with rfl | rfl | rfl
  · rcases (by omega : s = 0 ∨ s = 1) with rfl | rfl
    · show some (Ptr.sides (c.val * (e.n 1 * e.n 2))) = some (Ptr.sides ((6 * 0 + 3 * 0 + c.val) * (e.n 1 * e.n 2))); simp
    · rfl
  · rcases (by omega : s = 0 ∨ s = 1) with rfl | rfl
    · show some (Ptr.sides (12 * (e.n 1 * e.n 2) + c.val * (e.n 2 * e.n 0))) = some (Ptr.sides (12 * (e.n 1 * e.n 2) + (6 * 0 + 3 * 0 + c.val) * (e.n 2 * e.n 0))); simp
    · rfl
  · have hx := h.x rfl
    rcases (by omega : s = 0 ∨ s = 1) with rfl | rfl
    · show st.faceX.map _ = _; rw [hx]; rfl
    · show st.faceX.map _ = _; rw [hx]; rfl

theorem _root_.Gslib.Spec.El3Mem.sides' {e : El3 K} {n : Nat} {st : ElSt3 K} (h : El3Mem e n st) : st.sides.length = sidesSize3 e := by
  rw [h.sides]; unfold sidesSize3 offRS; omega

/-- `get_face` -/
theorem getFace_run {e : El3 K} (he : El3Ok e) {nptMax : Nat} {st : ElSt3 K} (hm : Sides3 e nptMax st) (k : Fin 3) :
    ∃ st', getFace e k.val st = some st' ∧ Sides3 e nptMax st' ∧ FaceDone e st' k ∧ Keeps e st st' := by
  unfold getFace
  by_cases hb : st.sideInit &&& ((1 : U32) <<< k.val) = 0
  · rw [if_pos hb]
    have fin : ∀ st1 : ElSt3 K, El3Mem e nptMax st1 → FaceDone e st1 k → Keeps e st st1 → st1.sideInit = st.sideInit →
        ∃ st', (some st1).map (fun st : ElSt3 K => { st with sideInit := st.sideInit ||| ((1 : U32) <<< k.val) }) = some st' ∧ Sides3 e nptMax st' ∧ FaceDone e st' k ∧ Keeps e st st' := by
      intro st1 m1 f1 k1 i1
      have k2 : Keeps e st { st1 with sideInit := st1.sideInit ||| ((1 : U32) <<< k.val) } := ⟨k1.sides, k1.faceX, k1.edgeX, k1.pt⟩
      refine ⟨_, rfl, ⟨⟨m1.sides, m1.work, m1.pt⟩, ?_, ?_, ?_⟩, ⟨f1.val, f1.x⟩, k2⟩
      · intro dn h
        by_cases hd : k = dn
        · subst hd; exact ⟨f1.val, f1.x⟩
        · dsimp only at h
          rw [bit_or _ _ _ ((masks k dn).1 hd), i1] at h
          exact (hm.face dn h).keep k2
      · intro d h
        dsimp only at h
        rw [bit_or _ _ _ (masks k d).2.2.1, i1] at h
        exact (hm.edge d h).keep k2
      · intro h
        dsimp only at h
        rw [bit_or _ _ _ (masks k 0).2.2.2.2.1, i1] at h
        exact (hm.pt h).keep k2
    rcases fin3 k with rfl | rfl | rfl
    · obtain ⟨w, sd, e1, l1, l2, v⟩ := faceDataST_run he hm.mem
      show ∃ st', (faceDataST e st).map _ = some st' ∧ _
      rw [e1]
      exact fin _ ⟨l2.trans hm.mem.sides, l1.trans hm.mem.work, hm.mem.pt⟩ ⟨fun a ha => v a (Or.inl ha), fun h => absurd h (by decide)⟩ ⟨fun a ha => v a (Or.inr ha), fun h => h, fun _ h => h, fun _ h => h⟩ rfl
    · obtain ⟨w, sd, e1, l1, l2, v⟩ := faceDataTR_run he hm.mem
      show ∃ st', (faceDataTR e st).map _ = some st' ∧ _
      rw [e1]
      exact fin _ ⟨l2.trans hm.mem.sides, l1.trans hm.mem.work, hm.mem.pt⟩ ⟨fun a ha => v a (Or.inl ha), fun h => absurd h (by decide)⟩ ⟨fun a ha => v a (Or.inr ha), fun h => h, fun _ h => h, fun _ h => h⟩ rfl
    · obtain ⟨w, sd, e1, l1, l2, v⟩ := faceDataRS_run he hm.mem
      show ∃ st', (faceDataRS e st).map _ = some st' ∧ _
      rw [e1]
      exact fin _ ⟨l2.trans hm.mem.sides, l1.trans hm.mem.work, hm.mem.pt⟩ ⟨fun a ha => v a (Or.inl ha), fun _ => rfl⟩ ⟨fun a ha => v a (Or.inr ha), fun _ => rfl, fun _ h => h, fun _ h => h⟩ rfl
  · rw [if_neg hb]
    exact ⟨st, rfl, hm, hm.face k hb, Keeps.refl e st⟩

end Gslib.El
