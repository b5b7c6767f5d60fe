import Verif.Lemmas.SortMem
import Verif.Props.SarraySort
import Verif.Props.Sort
import Verif.Props.DynArray

/-!
# Property C62: sorting arrays in memory

Specification: `Verif/Spec/SortMem.lean`, `Spec/Strided` (memory), `Spec/SarraySort`. Model: `Verif/Model/SortMem.lean`.
-/

namespace Gslib.Props
open Gslib Gslib.Spec Gslib.Sorting Gslib.DynArray Gslib.Sarray Gslib.SortMem

variable {κ : Type} [LinearOrder κ]

/-- **C62**, sarray_sort and sarray_sort_2, _3, _4: for an array of `n` structs of `size` bytes at any address, less than 4 GB in total, and fields at any offsets, the bytes of the array are
rearranged struct by struct in the stable lexicographic order of the fields. No byte outside of the array changes. -/
theorem sarray_sort_in_memory (fs : List (MemField κ)) (base size n : Nat) (m : Bytes) (s : ScratchF κ) (hm : Allocated base (n * size) m) (hw : n * size < 4294967296)
    (hf : ∀ f ∈ fs, f.Stored base size n m) :
    ∃ m', sarraySortM fs base size n m s = .ok m' ∧ IsLexSort (fs.map MemField.key) (memRows base size n m) (memRows base size n m') ∧
      ∀ b, ¬ (base ≤ b ∧ b < base + n * size) → m' b = m b := by
  have hfit : ∀ f ∈ fs.map toField, f.Fits (memRows base size n m) := by
    intro g hg
    obtain ⟨g', hg', rfl⟩ := List.mem_map.1 hg
    exact toField_fits g' (hf g' hg')
  obtain ⟨out, e, hl⟩ := sarray_sort_lexicographic (fs.map toField) (memRows base size n m) s hfit
  have hkeys : (fs.map toField).map Field.key = fs.map MemField.key := by
    rw [List.map_map]
    exact List.map_congr_left fun f _ => toField_key f
  rw [hkeys] at hl
  obtain ⟨q, eq, hnil, hp, _⟩ := sortFields_spec (memRows base size n m) s (fs.map toField) hfit
  unfold sarraySortM
  unfold sarraySort at e
  rw [sortFieldsM_eq hw s fs hf]
  rw [eq] at e ⊢
  cases q with
  | none =>
    refine ⟨m, rfl, ?_, fun _ _ => rfl⟩
    have : memRows base size n m = out := Outcome.ok.inj e
    rw [← this] at hl
    exact hl
  | some p =>
    have hp := hp p rfl
    rw [memRows_length] at hp
    obtain ⟨out', m', e1, e2, e3, e4⟩ := sarrayPermuteM_eq hm hp
    refine ⟨m', ?_, ?_, e4⟩
    · show Outcome.ofOption ((sarrayPermuteM base size n m p).map (·.1)) = .ok m'
      rw [e2]
      rfl
    · have : Outcome.ofOption ((sarrayPermute (memRows base size n m) p).map (·.1)) = .ok out := e
      rw [e1] at this
      have : out' = out := Outcome.ok.inj this
      rw [e3, this]
      exact hl

/-- **C62**, sortp and sortp_long: the keys lie `stride` bytes apart; with and without a starting permutation -/
theorem sortp_in_memory (D : Nat) (perm : Option (List Nat)) (m : Bytes) (base stride : Nat) (A : List Nat) (s : ScratchP Nat) (hD : 0 < D) (hs : 0 < stride) (hA : ∀ x ∈ A, x < 256 ^ D)
    (hk : ∀ (i v : Nat), A[i]? = some v → HoldsAt m D (base + i * stride) v) (hw : A.length * stride < 4294967296) (hp : ∀ q, perm = some q → IsPermTable A.length q) :
    ∃ p, sortpIntM D perm m base stride A.length s = .ok p ∧ IsStableSortPerm A (perm.getD (List.range A.length)) p := by
  rw [sortpIntM_eq hs hp (fun i v h => (Fp.ld_iff hD).2 (hk i v h)) hw]
  cases perm with
  | none => exact sortp_stable D A s hA
  | some q => exact sortp_start_perm_stable D A q s hA (hp q rfl)

/-- **C62**, sortp_double and sortp_float -/
theorem sortp_real_in_memory (sz : Nat) (val : Nat → κ) (perm : Option (List Nat)) (m : Bytes) (base stride : Nat) (A : List Nat) (s : ScratchP κ) (hD : 0 < sz)
    (hk : ∀ (i v : Nat), A[i]? = some v → HoldsAt m sz (base + i * stride) v) (hw : A.length * stride < 4294967296) (hp : ∀ q, perm = some q → IsPermTable A.length q) :
    ∃ p, sortpRealM sz val perm m base stride A.length s = .ok p ∧ IsStableSortPerm (A.map val) (perm.getD (List.range A.length)) p := by
  rw [sortpRealM_eq hp (fun i v h => (Fp.ld_iff hD).2 (hk i v h)) hw]
  cases perm with
  | none => have := sortp_real_stable (A.map val) s; rwa [List.length_map] at this
  | some q => exact sortp_real_start_perm_stable (A.map val) q s (by rw [List.length_map]; exact hp q rfl)

/-- **C62**, sortv and sortv_long to another array -/
theorem sortv_in_memory (D : Nat) (m : Bytes) (base stride : Nat) (A : List Nat) (s : Scratch Nat) (hD : 0 < D) (hs : 0 < stride) (hA : ∀ x ∈ A, x < 256 ^ D)
    (hk : ∀ (i v : Nat), A[i]? = some v → HoldsAt m D (base + i * stride) v) (hw : A.length * stride < 4294967296) :
    ∃ out, sortvIntM D m base stride A.length s = .ok out ∧ out.Perm A ∧ out.Pairwise (· ≤ ·) := by
  rw [sortvIntM_eq hs (fun i v h => (Fp.ld_iff hD).2 (hk i v h)) hw]
  exact sortv_sorts D false A s hA

/-! ### beyond 4 GB -/

theorem countLoop_past {D stride en : Nat} {m : Bytes} (hs : 0 < stride) : ∀ (f a : Nat) (acc : Nat × (Nat → Nat → Nat)), en ≤ a → countLoop D m stride en f a acc = none
  | 0, _, _, _ => rfl
  | f + 1, a, acc, h => by
    rw [countLoop]
    cases Fp.ld D m a with
    | none => rfl
    | some v =>
      rw [Option.bind_some]
      simp only
      rw [if_pos (by omega)]
      exact countLoop_past hs f (a + stride) _ (by omega)

/-- **finding**: if the `n >= 256` keys take a multiple of 4 GB, the address of the end computed by the code is that of the first key; the loop that counts digits does not end at the end of the array:
whatever the memory contains, the pointer leaves it. -/
theorem sortp_four_gigabytes (D : Nat) (perm : Option (List Nat)) (m : Bytes) (base stride n : Nat) (s : ScratchP Nat) (hs : 0 < stride) (hn : 256 ≤ n) (hw : 4294967296 ∣ n * stride) :
    sortpIntM D perm m base stride n s = .ub := by
  have hc : countM D m base stride n = none := by
    unfold countM indexPtr
    rw [Nat.mod_eq_zero_of_dvd hw, Nat.add_zero]
    exact countLoop_past hs n base _ le_rfl
  unfold sortpIntM radixSortpM
  rw [if_neg (by omega), hc]
  rfl

/-- for instance an array of 2^26 structs of 64 bytes -/
example : 256 ≤ 67108864 ∧ 4294967296 ∣ 67108864 * 64 := by decide

/-! ### the buffer -/

theorem workOff_spec {al n : Nat} (h0 : 0 < al) (hal : al < 2147483648) (hn : n < 2147483648) : al ∣ workOff al n ∧ 4 * n ≤ workOff al n ∧ workOff al n < 4 * n + al := by
  have hw : wrap (n * 4) = n * 4 := Nat.mod_eq_of_lt (by unfold sizeMod; omega)
  unfold workOff
  rw [hw]
  obtain ⟨h1, h2, h3⟩ := align_as_least al (n * 4) h0 (by unfold sizeMod; omega)
  refine ⟨h1, by omega, ?_⟩
  have hd := Nat.div_add_mod (n * 4 + al - 1) al
  have hm := Nat.mod_lt (n * 4 + al - 1) h0
  have := h3 (al * ((n * 4 + al - 1) / al)) (Nat.dvd_mul_right _ _) (by omega)
  omega

/-- **C62**, the buffer of sortp, for less than 2^31 keys: in a buffer of the size that sortp reserves, the permutation and the entries of the two halves of the work space are aligned, do not overlap and
lie inside -/
theorem sortp_buffer (sz al n : Nat) (h0 : 0 < al) (hal : al < 2147483648) (hsz : 0 < sz) (hsz' : sz < 2147483648) (hdvd : al ∣ sz) (hn : n < 2147483648) :
    (∀ k, k < n → permOff k + 4 ≤ workOff al n) ∧
    ∀ b k, k < n → al ∣ workAt sz al n b k ∧ workOff al n ≤ workAt sz al n b k ∧ workAt sz al n b k + sz ≤ sortpReserve sz al n ∧
      ∀ b' k', k' < n → (b, k) ≠ (b', k') → workAt sz al n b k + sz ≤ workAt sz al n b' k' ∨ workAt sz al n b' k' + sz ≤ workAt sz al n b k := by
  obtain ⟨h1, h2, h3⟩ := workOff_spec h0 hal hn
  have hb : 2 * n * sz ≤ 4294967296 * 2147483648 := Nat.mul_le_mul (by omega) (by omega)
  have hr : sortpReserve sz al n = workOff al n + 2 * n * sz := by
    unfold sortpReserve
    rw [Nat.mod_eq_of_lt (show 2 * n < 4294967296 by omega)]
    unfold wrap sizeMod
    rw [Nat.mod_eq_of_lt (show 2 * n * sz < 18446744073709551616 by omega)]
    exact Nat.mod_eq_of_lt (by omega)
  have hlt : ∀ x y : Nat, x < y → x * sz + sz ≤ y * sz := by
    intro x y h
    have := Nat.mul_le_mul_right sz (show x + 1 ≤ y from h)
    rwa [Nat.add_mul, Nat.one_mul] at this
  refine ⟨fun k hk => by unfold permOff; omega, fun b k hk => ⟨?_, ?_, ?_, ?_⟩⟩
  · unfold workAt
    exact (Nat.dvd_add_right h1).2 (hdvd.mul_left _)
  · unfold workAt
    omega
  · rw [hr]
    unfold workAt
    have := hlt ((if b then n else 0) + k) (2 * n) (by split <;> omega)
    omega
  · intro b' k' hk' hne
    unfold workAt
    rcases Nat.lt_trichotomy ((if b then n else 0) + k) ((if b' then n else 0) + k') with h | h | h
    · left; have := hlt _ _ h; omega
    · exfalso
      apply hne
      cases b <;> cases b' <;> simp at h ⊢ <;> omega
    · right; have := hlt _ _ h; omega

example : 0 < 8 ∧ 8 ∣ 16 ∧ sortpReserve 16 8 300 = 1200 + 9600 ∧ workOff 8 300 = 1200 := by decide

/-- **finding**: with 2^31 keys `2*n` wraps: the buffer ends where the work space begins -/
theorem sortp_buffer_wraps : sortpReserve 16 8 2147483648 = workOff 8 2147483648 := by decide

/-- **C62**, the buffer of sarray_permute_buf: the permutation and the work space for one struct do not overlap and lie in the part that is reserved -/
theorem permute_buffer (al size n : Nat) (h0 : 0 < al) (hal : al < 2147483648) (hsz' : size < 4294967296) (hdvd : al ∣ size) (hn : n < 2147483648) :
    al ∣ permuteWork al n ∧ 4 * n ≤ permuteWork al n ∧ permuteWork al n + size ≤ permuteReserve al size n := by
  obtain ⟨h1, h2, h3⟩ := workOff_spec h0 hal hn
  refine ⟨h1, h2, ?_⟩
  have hw : wrap (wrap (n * 4) + size) = n * 4 + size := by
    unfold wrap sizeMod
    rw [Nat.mod_eq_of_lt (show n * 4 < 18446744073709551616 by omega)]
    exact Nat.mod_eq_of_lt (by omega)
  unfold permuteReserve
  rw [hw]
  obtain ⟨g1, g2, _⟩ := align_as_least al (n * 4 + size) h0 (by unfold sizeMod; omega)
  obtain ⟨c, hc⟩ := g1
  obtain ⟨d, hd⟩ := hdvd
  have hge : n * 4 ≤ al * (c - d) := by rw [Nat.mul_sub]; omega
  have hw' : wrap (n * 4) = n * 4 := Nat.mod_eq_of_lt (by unfold sizeMod; omega)
  have := (align_as_least al (n * 4) h0 (by unfold sizeMod; omega)).2.2 (al * (c - d)) (Nat.dvd_mul_right _ _) hge
  unfold permuteWork
  rw [hw', hc, hd]
  have hcd : al * d ≤ al * c := by omega
  rw [Nat.mul_sub] at this
  omega

example : permuteWork 8 3 = 16 ∧ permuteReserve 8 24 3 = 40 := by decide

/-! ### example: three structs of 12 bytes at address 100, sorted by the 4-byte field at offset 8 -/

/-- memory of the example: two other fields, then the key 7, 2, 5 -/
def exSortMem : Bytes := fun b =>
  if 100 ≤ b ∧ b < 136 then
    let i := (b - 100) / 12
    let k := (b - 100) % 12
    if k < 8 then some (10 + i, k) else some ([7, 2, 5].getD i 0, k - 8)
  else if b < 200 then some (b, 0) else none

example : Allocated 100 (3 * 12) exSortMem ∧ 3 * 12 < 4294967296 ∧ (MemField.int 4 8 : MemField Nat).Stored 100 12 3 exSortMem := by
  refine ⟨?_, by decide, by decide, by decide, ?_⟩
  · intro b h1 h2
    unfold exSortMem
    rw [if_pos ⟨h1, h2⟩]
    simp only
    split <;> rfl
  · intro i hi
    refine ⟨[7, 2, 5].getD i 0, ?_, ?_⟩
    · match i, hi with
      | 0, _ => decide
      | 1, _ => decide
      | 2, _ => decide
    · intro k hk
      unfold exSortMem
      have e1 : (100 + i * 12 + 8 + k - 100) / 12 = i := by omega
      have e2 : (100 + i * 12 + 8 + k - 100) % 12 = 8 + k := by omega
      rw [if_pos ⟨by omega, by omega⟩]
      simp only [e1, e2]
      rw [if_neg (by omega)]
      congr 2
      omega

/-- the run -/
example : (match sarraySortM [(MemField.int 4 8 : MemField Nat)] 100 12 3 exSortMem ⟨⟨fun _ => none, fun _ _ => none⟩, ⟨fun _ => none, fun _ _ => none⟩⟩ with
    | .ok m => [m 100, m 108, m 112, m 120, m 124, m 132, m 99, m 136]
    | _ => []) = [some (11, 0), some (2, 0), some (12, 0), some (5, 0), some (10, 0), some (7, 0), some (99, 0), some (136, 0)] := by decide +kernel

end Gslib.Props
