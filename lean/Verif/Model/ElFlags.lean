/-!
# Constraint flags of findpts_el_2.c and findpts_el_3.c, bit masks of findpts.c

`unsigned` and `uint` are 32 bits wide.
-/

namespace Gslib.El
abbrev U32 := BitVec 32

/-- findpts_el_2.c:55-59 `num_constrained` -/
def numConstrained2 (flags : U32) : U32 :=
  let y := flags ||| flags >>> 1
  (y &&& 1) + (y >>> 2 &&& 1)

/-- findpts_el_2.c:61-64 `pt_flags_to_bin_noC` -/
def binNoC2 (flags : U32) : U32 := (flags >>> 2 &&& 3) * 3 + (flags &&& 3)

/-- findpts_el_2.c:68-72 `pt_flags_to_bin` -/
def bin2 (flags : U32) : U32 :=
  let mask := 0 - (flags >>> 4)
  (mask &&& 9) ||| (~~~mask &&& binNoC2 flags)

/-- findpts_el_2.c:75 `plus_1_mod_2` -/
def plus1mod2 (x : U32) : U32 := x ^^^ 1

/-- findpts_el_2.c:78-82 `which_bit` -/
def whichBit2 (x : U32) : U32 :=
  let y := x &&& 7
  (y - (y >>> 2)) ||| ((x - 1) &&& 4)

/-- findpts_el_2.c:84 `edge_index` -/
def edgeIndex2 (x : U32) : U32 := whichBit2 x - 1

/-- findpts_el_2.c:86-89 `point_index` -/
def pointIndex2 (x : U32) : U32 := ((x >>> 1) &&& 1) ||| ((x >>> 2) &&& 2)

/-- findpts_el_3.c:75-79 `num_constrained` -/
def numConstrained3 (flags : U32) : U32 :=
  let y := flags ||| flags >>> 1
  (y &&& 1) + (y >>> 2 &&& 1) + (y >>> 4 &&& 1)

/-- findpts_el_3.c:81-84 `pt_flags_to_bin_noC` -/
def binNoC3 (flags : U32) : U32 := ((flags >>> 4 &&& 3) * 3 + (flags >>> 2 &&& 3)) * 3 + (flags &&& 3)

/-- findpts_el_3.c:88-92 `pt_flags_to_bin` -/
def bin3 (flags : U32) : U32 :=
  let mask := 0 - (flags >>> 6)
  (mask &&& 27) ||| (~~~mask &&& binNoC3 flags)

/-- findpts_el_3.c:95 `plus_1_mod_3` -/
def plus1mod3 (x : U32) : U32 := ((x ||| x >>> 1) + 1) &&& 3

/-- findpts_el_3.c:96-100 `plus_2_mod_3` -/
def plus2mod3 (x : U32) : U32 :=
  let y := (x - 1) &&& 3
  y ^^^ (y >>> 1)

/-- findpts_el_3.c:103-107 `which_bit` -/
def whichBit3 (x : U32) : U32 :=
  let y := x &&& 7
  (y - (y >>> 2)) ||| ((x - 1) &&& 4) ||| (x >>> 4)

/-- findpts_el_3.c:109 `face_index` -/
def faceIndex3 (x : U32) : U32 := whichBit3 x - 1

/-- findpts_el_3.c:111-121 `edge_index` -/
def edgeIndex3 (x : U32) : U32 :=
  let y := ~~~((x >>> 1) ||| x)
  let rtsr := ((x >>> 1) &&& 1) ||| ((x >>> 2) &&& 2) ||| ((x >>> 3) &&& 4) ||| ((x <<< 2) &&& 8)
  let re := rtsr >>> 1
  let se := 4 ||| rtsr >>> 2
  let te := 8 ||| (rtsr &&& 3)
  ((0 - (y &&& 1)) &&& re) ||| ((0 - ((y >>> 2) &&& 1)) &&& se) ||| ((0 - ((y >>> 4) &&& 1)) &&& te)

/-- findpts_el_3.c:123-126 `point_index` -/
def pointIndex3 (x : U32) : U32 := ((x >>> 1) &&& 1) ||| ((x >>> 2) &&& 2) ||| ((x >>> 3) &&& 4)

/-- a byte of a mask -/
abbrev Byte := BitVec 8

/-- findpts.c:44-49 `set_bit`; `none` is a write outside the mask. `p[byte] |= 1u<<bit` computes in `unsigned` and stores the low
byte -/
def setBit (p : List Byte) (i : Nat) : Option (List Byte) :=
  match p[i / 8]? with
  | none => none
  | some b => some (p.set (i / 8) ((b.setWidth 32 ||| (1 : U32) <<< (i % 8)).setWidth 8))

/-- findpts.c:51-56 `get_bit` -/
def getBit (p : List Byte) (i : Nat) : Option U32 := p[i / 8]?.map fun b => ((b.setWidth 32 : U32) >>> (i % 8)) &&& 1

/-- findpts.c:58-63 `byte_bits` -/
def byteBits (x : Byte) : U32 := (List.range 8).foldl (fun sum bit => sum + (((x.setWidth 32 : U32) >>> bit) &&& 1)) 0

/-- findpts.c:65-70 `count_bits`, reading `n` bytes; `none` is a read outside the mask -/
def countBits : List Byte → Nat → U32 → Option U32
  | _, 0, sum => some sum
  | [], _ + 1, _ => none
  | b :: p, n + 1, sum => countBits p n (sum + byteBits b)

end Gslib.El
