import Verif.Model.Types
import Verif.Model.Fort

/-!
# type.h, type.c - descriptors as bytes in memory

`Model/Types.lean` treats a descriptor as a value with a list of pairs.  Here the same functions work on the
bytes of the object that `malloc` returned: fields are loads and stores at the offsets of LP64
(`sizeof(int) = 4`, `sizeof(long) = 8`, natural alignment), and an access that is not inside the object is
undefined behaviour.  The byte order is a parameter.

Simplifications: `pairs[k]` with `k >= 2` is the `k`-th element behind the declared array, as gcc compiles it
(type.h:31-34 explains why the array has two elements); arrays given by the caller are lists, as in
`Model/Types.lean`; allocation succeeds unless more than `PTRDIFF_MAX` bytes are asked for (`Model/Oom.lean`
treats failures).
-/

set_option autoImplicit false

namespace MpiSerial.Raw

/-- The bytes of one object. -/
abbrev Blob := List UInt8

/-- Load `n` bytes at offset `off`. -/
def Blob.ld (b : Blob) (off n : Nat) : Res (List UInt8) :=
  if off + n ≤ b.length then .ok ((b.drop off).take n) else .ub .badPtr

/-- Store bytes at offset `off`. -/
def Blob.st (b : Blob) (off : Nat) (bs : List UInt8) : Res Blob :=
  if off + bs.length ≤ b.length then .ok (b.take off ++ bs ++ b.drop (off + bs.length)) else .ub .badPtr

/-- Load an `int`. -/
def Blob.int (bo : ByteOrder) (b : Blob) (off : Nat) : Res Int := do
  let bs ← b.ld off 4
  return s32 (bo.value bs)

/-- Load a `long`. -/
def Blob.long (bo : ByteOrder) (b : Blob) (off : Nat) : Res Int := do
  let bs ← b.ld off 8
  return s64 (bo.value bs)

/-- Store an `int`. -/
def Blob.setInt (bo : ByteOrder) (b : Blob) (off : Nat) (v : Int) : Res Blob := b.st off (bo.bytes 4 v)

/-- Store a `long`. -/
def Blob.setLong (bo : ByteOrder) (b : Blob) (off : Nat) (v : Int) : Res Blob := b.st off (bo.bytes 8 v)

/-! ## Layout (type.h:17-36) -/

/-- type.h:25 `count`. -/
def offCount : Nat := 0
/-- type.h:26 `ub`. -/
def offUb : Nat := 8
/-- type.h:27 `lb`. -/
def offLb : Nat := 16
/-- type.h:28 `committed`. -/
def offCommitted : Nat := 24
/-- type.h:29 `o_lb`. -/
def offOLb : Nat := 28
/-- type.h:30 `o_ub`. -/
def offOUb : Nat := 32
/-- type.h:19, 35 `pairs[k].disp`. -/
def offDisp (k : Nat) : Nat := 40 + 16 * k
/-- type.h:20, 35 `pairs[k].type`. -/
def offType (k : Nat) : Nat := 48 + 16 * k
/-- `sizeof(Typestruct)`. -/
def sizeofTypestruct : Nat := 72
/-- `sizeof(typepair)`. -/
def sizeofTypepair : Nat := 16

/-- `malloc(size)`: null if the size exceeds `PTRDIFF_MAX`, otherwise an object with arbitrary contents. -/
def malloc (junk : Nat → UInt8) (size : Int) : Option Blob :=
  if size ≤ 9223372036854775807 then some ((List.range size.toNat).map junk) else none

/-! ## Bounds -/

/-- type.c:53-57 loop of `calc_padding`. -/
def calcPaddingLoop (cfg : Cfg) (bo : ByteOrder) (t : Blob) : Nat → Nat → Int → Res Int
  | 0, _, m => .ok m
  | n + 1, i, m => do
    let ty ← t.int bo (offType i)
    let len ← Simpletype_length cfg ty
    calcPaddingLoop cfg bo t n (i + 1) (if len > m then len else m)

/-- type.c:46-60 `calc_padding`. -/
def calc_padding (cfg : Cfg) (bo : ByteOrder) (t : Blob) : Res Int := do
  let count ← t.int bo offCount
  let m ← calcPaddingLoop cfg bo t count.toNat 0 INT_MIN
  return s32 m

/-- type.c:153-159 loop of `calc_lb`. -/
def calcLbLoop (bo : ByteOrder) (t : Blob) : Nat → Nat → Int → Res Int
  | 0, _, m => .ok m
  | n + 1, i, m => do
    let disp ← t.long bo (offDisp i)
    calcLbLoop bo t n (i + 1) (s32 (if disp < m then disp else m))

/-- type.c:147-161 `calc_lb`. -/
def calc_lb (bo : ByteOrder) (t : Blob) : Res Int := do
  let count ← t.int bo offCount
  calcLbLoop bo t count.toNat 0 INT_MAX

/-- type.c:174-180 loop of `calc_ub`. -/
def calcUbLoop (cfg : Cfg) (bo : ByteOrder) (t : Blob) : Nat → Nat → Int → Res Int
  | 0, _, m => .ok m
  | n + 1, i, m => do
    let ty ← t.int bo (offType i)
    let len ← Simpletype_length cfg ty
    let disp ← t.long bo (offDisp i)
    let e ← ck64 (disp + len)
    calcUbLoop cfg bo t n (i + 1) (if e > m then e else m)

/-- type.c:168-183 `calc_ub`. -/
def calc_ub (cfg : Cfg) (bo : ByteOrder) (t : Blob) : Res Int := do
  let count ← t.int bo offCount
  calcUbLoop cfg bo t count.toNat 0 INT_MIN

/-- type.c:188-208 `Type_extent`. -/
def Type_extent (cfg : Cfg) (bo : ByteOrder) (t : Blob) : Res Int := do
  let o_lb ← t.int bo offOLb
  let o_ub ← t.int bo offOUb
  let ub ← t.long bo offUb
  let lb ← t.long bo offLb
  if o_lb = 0 ∧ o_ub = 0 then do
    let epsilon ← calc_padding cfg bo t
    let d ← ck64 (ub - lb)
    if epsilon = 0 then .ub .divZero
    else do
      let mod := s32 (Int.tmod d epsilon)
      let epsilon ← if mod = 0 then pure 0 else ck32 (epsilon - mod)
      let e ← ck64 (d + epsilon)
      return u64 e
  else do
    let d ← ck64 (ub - lb)
    return u64 d

/-! ## Type_struct -/

/-- One block of a struct: `blocklens[i]`, `displacements[i]`, the object `*oldtypes_ptr[i]`. -/
structure Block where
  len : Int
  disp : Int
  ty : Blob

/-- type.c:274-310 first loop of `Type_struct`. -/
def structPass1 (bo : ByteOrder) : List Block → Pass1 → Res Pass1
  | [], s => .ok s
  | b :: bs, s => do
    let ty0 ← b.ty.int bo (offType 0)
    if ty0 = SIMPLE_LOWER then
      structPass1 bo bs { s with
        new_lb := if s.new_lb > b.disp then b.disp else s.new_lb, override_lower := true }
    else if ty0 = SIMPLE_UPPER then
      structPass1 bo bs { s with
        new_ub := if s.new_ub < b.disp then b.disp else s.new_ub, override_upper := true }
    else do
      let o_lb ← b.ty.int bo offOLb
      let o_ub ← b.ty.int bo offOUb
      let count ← b.ty.int bo offCount
      let a ← ck32 (b.len * count)
      let c ← ck32 (s.simpletype_count + a)
      structPass1 bo bs { s with
        override_lower := s.override_lower || o_lb != 0,
        override_upper := s.override_upper || o_ub != 0,
        simpletype_count := c }

/-- type.c:311-312 the size asked for: the `int` `simpletype_count-1` is converted to `size_t`. -/
def structSize (simpletype_count : Int) : Res Int := do
  let n ← ck32 (simpletype_count - 1)
  return u64 (sizeofTypestruct + u64 (u64 n * sizeofTypepair))

/-- State of the second loop of `Type_struct`: the object `*temp`, `newcount`, the bounds. -/
structure Pass2 where
  temp : Blob
  newcount : Nat
  new_lb : Int
  new_ub : Int

/-- type.c:245-251 `Copy_type`. -/
def Copy_type (bo : ByteOrder) (source : Blob) (k : Nat) (dest : Blob) (n : Nat) : Res Blob := do
  let ty ← source.int bo (offType k)
  let dest ← dest.setInt bo (offType n) ty
  let disp ← source.long bo (offDisp k)
  dest.setLong bo (offDisp n) disp

/-- type.c:345-354 innermost loop; `off` is `displacements[i] + tmp_offset`. -/
def structCopyPairs (bo : ByteOrder) (ty : Blob) (off : Int) : Nat → Nat → Pass2 → Res Pass2
  | 0, _, s => .ok s
  | n + 1, k, s => do
    let temp ← Copy_type bo ty k s.temp s.newcount
    let disp ← temp.long bo (offDisp s.newcount)
    let temp ← temp.setLong bo (offDisp s.newcount) (s64 (disp + off))
    structCopyPairs bo ty off n (k + 1) { s with temp := temp, newcount := s.newcount + 1 }

/-- type.c:330-355 loop over the repetitions `j` of one block. -/
def structReps (cfg : Cfg) (bo : ByteOrder) (b : Block) : Nat → Nat → Pass2 → Res Pass2
  | 0, _, s => .ok s
  | n + 1, j, s => do
    let extent ← Type_extent cfg bo b.ty
    let tmp_offset := u64 (j * extent)
    let o_lb ← b.ty.int bo offOLb
    let lb ← b.ty.long bo offLb
    let l := u64 (u64 (lb + b.disp) + tmp_offset)
    let new_lb := if o_lb ≠ 0 ∧ l < s.new_lb then l else s.new_lb
    let o_ub ← b.ty.int bo offOUb
    let ub ← b.ty.long bo offUb
    let u := u64 (u64 (ub + b.disp) + tmp_offset)
    let new_ub := if o_ub ≠ 0 ∧ u > s.new_ub then u else s.new_ub
    let count ← b.ty.int bo offCount
    let s ← structCopyPairs bo b.ty (u64 (b.disp + tmp_offset)) count.toNat 0
      { s with new_lb := new_lb, new_ub := new_ub }
    structReps cfg bo b n (j + 1) s

/-- type.c:319-358 second loop of `Type_struct`. -/
def structPass2 (cfg : Cfg) (bo : ByteOrder) : List Block → Pass2 → Res Pass2
  | [], s => .ok s
  | b :: bs, s => do
    let ty0 ← b.ty.int bo (offType 0)
    if ty0 = SIMPLE_LOWER ∨ ty0 = SIMPLE_UPPER then structPass2 cfg bo bs s
    else do
      let s ← structReps cfg bo b b.len.toNat 0 s
      structPass2 cfg bo bs s

/-- type.c:363-373 the lower bound of the new type. -/
def storeLower (bo : ByteOrder) (override_lower : Bool) (new_lb : Int) (temp : Blob) : Res Blob :=
  if override_lower then do
    let temp ← temp.setInt bo offOLb 1
    temp.setLong bo offLb new_lb
  else do
    let lb ← calc_lb bo temp
    temp.setLong bo offLb lb

/-- type.c:375-383 the upper bound of the new type. -/
def storeUpper (cfg : Cfg) (bo : ByteOrder) (override_upper : Bool) (new_ub : Int) (temp : Blob) : Res Blob :=
  if override_upper then do
    let temp ← temp.setInt bo offOUb 1
    temp.setLong bo offUb new_ub
  else do
    let ub ← calc_ub cfg bo temp
    temp.setLong bo offUb ub

/-- type.c:314-383 `Type_struct` after `malloc`: `count` is stored, the pairs are filled in, the other fields
stored. -/
def structFill (cfg : Cfg) (bo : ByteOrder) (blocks : List Block) (p1 : Pass1) (temp : Blob) : Res Blob := do
  let temp ← temp.setInt bo offCount p1.simpletype_count
  let p2 ← structPass2 cfg bo blocks ⟨temp, 0, p1.new_lb, p1.new_ub⟩
  let temp ← p2.temp.setInt bo offCommitted 0
  let temp ← storeLower bo p1.override_lower p2.new_lb temp
  storeUpper cfg bo p1.override_upper p2.new_ub temp

/-- type.c:259-389 `Type_struct`. -/
def Type_struct (cfg : Cfg) (bo : ByteOrder) (junk : Nat → UInt8) (blocks : List Block) : Res Blob := do
  let p1 ← structPass1 bo blocks {}
  let size ← structSize p1.simpletype_count
  match malloc junk size with
  | none => .ub .nullPtr
  | some temp => structFill cfg bo blocks p1 temp

/-! ## The other constructors -/

/-- type.c:427-445 `Type_contiguous`. -/
def Type_contiguous (cfg : Cfg) (bo : ByteOrder) (junk : Nat → UInt8) (count : Int) (old : Blob) : Res Blob := do
  let n ← vla count
  let extent ← Type_extent cfg bo old
  let blocks ← fill (fun i => .ok (⟨1, u64 (extent * i), old⟩ : Block)) n 0
  Type_struct cfg bo junk blocks

/-- type.c:466-484 `Type_hvector`. -/
def Type_hvector (cfg : Cfg) (bo : ByteOrder) (junk : Nat → UInt8) (count blocklen stride : Int) (old : Blob) :
    Res Blob := do
  let n ← vla count
  let _extent ← Type_extent cfg bo old
  let blocks ← fill (fun i => .ok (⟨blocklen, u64 (stride * i), old⟩ : Block)) n 0
  Type_struct cfg bo junk blocks

/-- type.c:527-537 `Type_vector`. -/
def Type_vector (cfg : Cfg) (bo : ByteOrder) (junk : Nat → UInt8) (count blocklen stride : Int) (old : Blob) :
    Res Blob := do
  let extent ← Type_extent cfg bo old
  let bstride := u64 (stride * extent)
  Type_hvector cfg bo junk count blocklen bstride old

/-- type.c:562-574 `Type_hindexed`. -/
def Type_hindexed (cfg : Cfg) (bo : ByteOrder) (junk : Nat → UInt8) (count : Int) (blocklens disps : List Int)
    (old : Blob) : Res Blob := do
  let n ← vla count
  let blocks ← fill (fun i => do
    let b ← rd blocklens i
    let d ← rd disps i
    return (⟨b, d, old⟩ : Block)) n 0
  Type_struct cfg bo junk blocks

/-- type.c:598-612 `Type_indexed`. -/
def Type_indexed (cfg : Cfg) (bo : ByteOrder) (junk : Nat → UInt8) (count : Int) (blocklens disps : List Int)
    (old : Blob) : Res Blob := do
  let n ← vla count
  let bdisps ← fill (fun i => do
    let extent ← Type_extent cfg bo old
    let d ← rd disps i
    return u64 (d * extent)) n 0
  Type_hindexed cfg bo junk count blocklens bdisps old

/-- type.c:635-645 `Type_create_indexed_block`. -/
def Type_create_indexed_block (cfg : Cfg) (bo : ByteOrder) (junk : Nat → UInt8) (count blocklen : Int)
    (disps : List Int) (old : Blob) : Res Blob := do
  let n ← vla count
  let blocklens ← fill (fun _ => .ok blocklen) n 0
  Type_indexed cfg bo junk count blocklens disps old

/-! ## Other functions -/

/-- type.c:694-695 loop of `Type_size`. -/
def typeSizeLoop (cfg : Cfg) (bo : ByteOrder) (t : Blob) : Nat → Nat → Int → Res Int
  | 0, _, s => .ok s
  | n + 1, i, s => do
    let ty ← t.int bo (offType i)
    let len ← Simpletype_length cfg ty
    let s ← ck32 (s + len)
    typeSizeLoop cfg bo t n (i + 1) s

/-- type.c:690-699 `Type_size`. -/
def Type_size (cfg : Cfg) (bo : ByteOrder) (t : Blob) : Res Int := do
  let count ← t.int bo offCount
  typeSizeLoop cfg bo t count.toNat 0 0

/-- type.c:716-720 `Type_lb`. -/
def Type_lb (bo : ByteOrder) (t : Blob) : Res Int := do
  let lb ← t.long bo offLb
  return u64 lb

/-- type.c:738-742 `Type_ub`. -/
def Type_ub (bo : ByteOrder) (t : Blob) : Res Int := do
  let ub ← t.long bo offUb
  return u64 ub

/-- type.c:799-805 `MPI_Type_commit`, the store into the descriptor. -/
def Type_commit (bo : ByteOrder) (t : Blob) : Res Blob := t.setInt bo offCommitted 1

/-- type.c:679-683 loop of `Type_dup`. -/
def dupLoop (bo : ByteOrder) (old : Blob) : Nat → Nat → Blob → Res Blob
  | 0, _, new => .ok new
  | n + 1, i, new => do
    let new ← Copy_type bo old i new i
    dupLoop bo old n (i + 1) new

/-- type.c:668-685 `Type_dup`: `sizeof(oldtype)` is the size of a pointer.  Nothing calls it. -/
def Type_dup (bo : ByteOrder) (junk : Nat → UInt8) (old : Blob) : Res Blob := do
  match malloc junk 8 with
  | none => .ub .nullPtr
  | some new =>
    let committed ← old.int bo offCommitted
    let new ← new.setInt bo offCommitted committed
    let lb ← old.long bo offLb
    let new ← new.setLong bo offLb lb
    let ub ← old.long bo offUb
    let new ← new.setLong bo offUb ub
    let o_lb ← old.int bo offOLb
    let new ← new.setInt bo offOLb o_lb
    let o_ub ← old.int bo offOUb
    let new ← new.setInt bo offOUb o_ub
    let count ← old.int bo offCount
    dupLoop bo old count.toNat 0 new

end MpiSerial.Raw
