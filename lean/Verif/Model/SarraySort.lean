import Verif.Model.Sort

/-!
# Model of `src/sarray_sort.c`, `src/sarray_sort.h` and the tuple sorts of `src/fcrystal.c`
-/

namespace Gslib.Sarray
open Gslib Gslib.Sorting

variable {ρ κ : Type}

/-- sarray_sort.c:25-33, the inner `for(;;)` following a cycle of the permutation, together with the
final `memcpy(dst, item, size)`. `A` = rows, `fp` = `fperm`; the first argument is fuel. An index
outside `0..n-1` is undefined behaviour. -/
def cycle (n : Nat) (i : Nat) (item : ρ) : Nat → Nat → Int → (Nat → ρ) → (Nat → Int) →
    Option ((Nat → ρ) × (Nat → Int))
  | 0, _, _, _, _ => none
  | fuel + 1, dst, pi, A, fp =>
    if pi < 0 ∨ (n : Int) ≤ pi then none else
    let s := pi.toNat
    let A := Function.update A dst (A s)
    let ppi := fp s
    let fp := Function.update fp s (-ppi - 1)
    if ppi = (i : Int) then some (Function.update A s item, fp)
    else cycle n i item fuel s ppi A fp

/-- sarray_sort.c:19-35, the body of the loop over `i` -/
def permStep (n i : Nat) (A : Nat → ρ) (fp : Nat → Int) : Option ((Nat → ρ) × (Nat → Int)) :=
  let pi := fp i
  if pi < 0 then some (A, Function.update fp i (-pi - 1))
  else if pi = (i : Int) then some (A, fp)
  else cycle n i (A i) n i pi A fp

/-- sarray_sort.c:19 `for(i=0;i<n;++i)` -/
def permLoop (n : Nat) : Nat → Nat → (Nat → ρ) → (Nat → Int) → Option ((Nat → ρ) × (Nat → Int))
  | 0, _, A, fp => some (A, fp)
  | r + 1, i, A, fp => (permStep n i A fp).bind fun x => permLoop n r (i + 1) x.1 x.2

/-- sarray_sort.c:14-37 sarray_permute_: rows and permutation table after the call. A table that is not
as long as the array is undefined behaviour. (Indices are assumed to fit in `sint`.) -/
def sarrayPermute (A : List ρ) (perm : List Nat) : Option (List ρ × List Int) :=
  match A with
  | [] => some ([], perm.map Int.ofNat)
  | x :: xs =>
    if perm.length ≠ A.length then none else
    (permLoop A.length A.length 0 (fun k => (x :: xs).getD k x) (fun k => Int.ofNat (perm.getD k 0))).map
      fun r => ((List.range A.length).map r.1, (List.range A.length).map r.2)

/-- a sort field: `is_long` 0 (uint), 1 (ulong): unsigned integers of 4 or 8 bytes; 2 (float),
3 (double): real keys, in a linear order. sarray_sort.h:49-58 -/
inductive Field (ρ κ : Type) where
  | int (D : Nat) (f : ρ → Nat)
  | real (f : ρ → κ)

variable [LinearOrder κ]

/-- scratch contents available to the sorts -/
structure ScratchF (κ : Type) where
  i : ScratchP Nat
  r : ScratchP κ

/-- sarray_sort.h:49-58 sarray_sort_field -/
def sortField (f : Field ρ κ) (rows : List ρ) (keep : Option (List Nat)) (s : ScratchF κ) : Outcome (List Nat) :=
  match f with
  | .int D g => sortpInt D keep (rows.map g) s.i
  | .real g => sortpReal keep (rows.map g) s.r

/-- sarray_sort.h:60-86 (sarray_sort, _2, _3, _4) and fcrystal.c:113-118 / 137-145: the chain of field
sorts, from the last field (keep=0) to the first (keep=1). -/
def sortFields : List (Field ρ κ) → List ρ → ScratchF κ → Outcome (Option (List Nat))
  | [], _, _ => .ok none
  | f :: fs, rows, s => (sortFields fs rows s).bind fun q => (sortField f rows q s).bind fun p => .ok (some p)

/-- sarray_sort.h:60-86: sort the fields, then permute the rows. With no field nothing happens
(fcrystal.c:113, `if(--nk>=0)`). -/
def sarraySort (fs : List (Field ρ κ)) (rows : List ρ) (s : ScratchF κ) : Outcome (List ρ) :=
  (sortFields fs rows s).bind fun
    | none => .ok rows
    | some p => .ofOption ((sarrayPermute rows p).map (·.1))

/-- fcrystal.c:137-145: the sort field for (one-based) key `k` of a tuple of `mi` sint, `ml` slong (and
some double) components: a 4 byte column of `Ai` or an 8 byte column of `Al`, or the call aborts -/
def tupleField (mi ml : Nat) (key : Int) : Option (Field (List Nat × List Nat) κ) :=
  let k := key - 1
  if k < 0 ∨ (mi : Int) + ml ≤ k then none
  else if k < mi then some (.int 4 fun r => r.1.getD k.toNat 0)
  else some (.int 8 fun r => r.2.getD (k - mi).toNat 0)

/-- fcrystal.c:147-149 `if(*m) sarray_permute_buf_(...)` -/
def permuteIf (m : Nat) (A : List ρ) (t : List Nat) : Option (List ρ × List Int) :=
  if m ≠ 0 then sarrayPermute A t else some (A, t.map Int.ofNat)

/-- fcrystal.c:123-150 fcrystal_tuple_sort on parallel arrays `Ai`, `Al`, `Ad` (given row by row; the
`md` doubles of a row are an arbitrary value). The table left by one permutation is used for the next;
an array without columns is not touched. -/
def tupleSort {δ : Type} (mi ml md : Nat) (Ai Al : List (List Nat)) (Ad : List δ) (keys : List Int) (s : ScratchF κ) :
    Outcome (List (List Nat) × List (List Nat) × List δ) :=
  if keys = [] then .ok (Ai, Al, Ad) else
  match keys.mapM (tupleField (κ := κ) mi ml) with
  | none => .abort
  | some fs =>
    (sortFields fs (Ai.zip Al) s).bind fun
      | none => .ok (Ai, Al, Ad)
      | some p => .ofOption do
        let (Ai, t) ← permuteIf mi Ai p
        let (Al, t) ← permuteIf ml Al (t.map Int.toNat)
        let (Ad, _) ← permuteIf md Ad (t.map Int.toNat)
        some (Ai, Al, Ad)

/-- sarray_sort.h:88-92 sarray_perm_invert: `pinv[perm[i]] = i`; the initial contents of `pinv` is
arbitrary; an index outside the table is undefined behaviour. -/
def permInvert (perm : List Nat) (pinv0 : List Nat) : Option (List Nat) :=
  perm.zipIdx.foldlM (fun pinv (x : Nat × Nat) =>
    if x.1 < pinv.length then some (pinv.set x.1 x.2) else none) pinv0

end Gslib.Sarray
