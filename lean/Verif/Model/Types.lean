import Verif.Base

/-!
# type.h, type_const.c, type.c - datatype descriptors

Functions here work on descriptor values (`Typestruct`); handles and the descriptor heap are in
`Model/Sys.lean`.  An `MPI_Aint` (unsigned long, mpi.h:66) is an `Int` in `[0, 2^64)`.
-/

namespace MpiSerial

/-- Compile-time configuration: copy.c:73 `TYPE_CHECKING`, type.h:100-110 `FSIZE_REAL`,
`FSIZE_DPRECISION`. -/
structure Cfg where
  typeChecking : Bool := false
  fsizeReal : Int := 4
  fsizeDouble : Int := 8

/-- type.h:17-21 `typepair`. -/
structure Pair where
  disp : Int
  type : Int
  deriving DecidableEq, Repr

/-- type.h:23-36 `Typestruct`.  `pairs` is the whole allocated array, which can be longer than
`count` (and then ends in whatever the memory contained). -/
structure Typestruct where
  count : Int
  ub : Int
  lb : Int
  committed : Int
  o_lb : Int
  o_ub : Int
  pairs : List Pair
  deriving DecidableEq, Repr

/-- Contents of freshly malloc'ed memory, as far as `Type_struct` leaves it unwritten. -/
structure Garbage where
  o_lb : Int
  o_ub : Int
  pair : Nat → Pair

/-- type.h:53-54 `SIMPLE_LOWER`, `SIMPLE_UPPER`. -/
notation "SIMPLE_LOWER" => (12 : Int)
notation "SIMPLE_UPPER" => (13 : Int)

/-- Read `t->pairs[k]`. -/
def Typestruct.pair (t : Typestruct) (k : Int) : Res Pair :=
  if 0 ≤ k then
    match t.pairs[k.toNat]? with
    | some p => .ok p
    | none => .ub .badPtr
  else .ub .badPtr

/-- type.c:68-141 `Simpletype_length` (constants type.h:41-80; sizes LP64, long double 16,
MPI_Offset = long long mpi.h:237; FSIZE_* type.h:100-116). -/
def Simpletype_length (cfg : Cfg) (t : Int) : Res Int :=
  match t with
  | 0 => .ok 1                      -- SIMPLE_CHAR
  | 1 => .ok 2                      -- SIMPLE_SHORT
  | 2 => .ok 4                      -- SIMPLE_INT
  | 3 => .ok 8                      -- SIMPLE_LONG
  | 4 => .ok 1                      -- SIMPLE_UCHAR
  | 5 => .ok 2                      -- SIMPLE_USHORT
  | 6 => .ok 4                      -- SIMPLE_UINT
  | 7 => .ok 8                      -- SIMPLE_ULONG
  | 8 => .ok 4                      -- SIMPLE_FLOAT
  | 9 => .ok 8                      -- SIMPLE_DOUBLE
  | 10 => .ok 16                    -- SIMPLE_LDOUBLE
  | 11 => .ok 1                     -- SIMPLE_BYTE
  | 14 => .ok 4                     -- SIMPLE_FINTEGER
  | 15 => .ok cfg.fsizeReal         -- SIMPLE_FREAL
  | 16 => .ok cfg.fsizeDouble       -- SIMPLE_FDPRECISION
  | 17 => .ok (2 * cfg.fsizeReal)   -- SIMPLE_FCOMPLEX
  | 18 => .ok (2 * cfg.fsizeDouble) -- SIMPLE_FDCOMPLEX
  | 19 => .ok 4                     -- SIMPLE_FLOGICAL
  | 20 => .ok 1                     -- SIMPLE_FCHARACTER
  | 21 => .ok 1                     -- SIMPLE_FINTEGER1
  | 22 => .ok 2                     -- SIMPLE_FINTEGER2
  | 23 => .ok 4                     -- SIMPLE_FINTEGER4
  | 24 => .ok 8                     -- SIMPLE_FINTEGER8
  | 26 => .ok 4                     -- SIMPLE_FREAL4
  | 27 => .ok 8                     -- SIMPLE_FREAL8
  | 28 => .ok 16                    -- SIMPLE_FREAL16
  | 29 => .ok 8                     -- SIMPLE_FCOMPLEX8
  | 30 => .ok 16                    -- SIMPLE_FCOMPLEX16
  | 31 => .ok 32                    -- SIMPLE_FCOMPLEX32
  | 32 => .ok 8                     -- SIMPLE_LONGLONG
  | 33 => .ok 8                     -- SIMPLE_ULONGLONG
  | 34 => .ok 8                     -- SIMPLE_OFFSET
  | _ => .exit 1                    -- "Invalid simple type" (also SIMPLE_FINTEGER16, LOWER, UPPER)

/-! ## Bounds -/

/-- type.c:53-57 loop of `calc_padding`, from index `i`, `n` iterations left. -/
def calcPaddingLoop (cfg : Cfg) (t : Typestruct) : Nat → Nat → Int → Res Int
  | 0, _, m => .ok m
  | n + 1, i, m => do
    let p ← t.pair i
    let len ← Simpletype_length cfg p.type
    calcPaddingLoop cfg t n (i + 1) (if len > m then len else m)

/-- type.c:46-60 `calc_padding` (the `long` maximum is returned as `int`). -/
def calc_padding (cfg : Cfg) (t : Typestruct) : Res Int := do
  let m ← calcPaddingLoop cfg t t.count.toNat 0 INT_MIN
  return s32 m

/-- type.c:153-159 loop of `calc_lb`: `min_disp` is an `int`, the conditional is a `long`. -/
def calcLbLoop (t : Typestruct) : Nat → Nat → Int → Res Int
  | 0, _, m => .ok m
  | n + 1, i, m => do
    let p ← t.pair i
    calcLbLoop t n (i + 1) (s32 (if p.disp < m then p.disp else m))

/-- type.c:147-161 `calc_lb`. -/
def calc_lb (t : Typestruct) : Res Int := calcLbLoop t t.count.toNat 0 INT_MAX

/-- type.c:174-180 loop of `calc_ub`. -/
def calcUbLoop (cfg : Cfg) (t : Typestruct) : Nat → Nat → Int → Res Int
  | 0, _, m => .ok m
  | n + 1, i, m => do
    let p ← t.pair i
    let len ← Simpletype_length cfg p.type
    let e ← ck64 (p.disp + len)
    calcUbLoop cfg t n (i + 1) (if e > m then e else m)

/-- type.c:168-183 `calc_ub`. -/
def calc_ub (cfg : Cfg) (t : Typestruct) : Res Int := calcUbLoop cfg t t.count.toNat 0 INT_MIN

/-- type.c:188-208 `Type_extent` (C `%` truncates towards zero; `mod` is an `int`). -/
def Type_extent (cfg : Cfg) (t : Typestruct) : Res Int :=
  if t.o_lb = 0 ∧ t.o_ub = 0 then do
    let epsilon ← calc_padding cfg t
    let d ← ck64 (t.ub - t.lb)
    if epsilon = 0 then .ub .divZero
    else do
      let mod := s32 (Int.tmod d epsilon)
      let epsilon ← if mod = 0 then pure 0 else ck32 (epsilon - mod)
      let e ← ck64 (d + epsilon)
      return u64 e
  else do
    let d ← ck64 (t.ub - t.lb)
    return u64 d

/-- type.c:227-241 `Type_get_true_extent` (not called by the library). -/
def Type_get_true_extent (cfg : Cfg) (t : Typestruct) : Res Int := do
  let epsilon ← calc_padding cfg t
  let ub ← calc_ub cfg t
  let lb ← calc_lb t
  let d ← ck64 (ub - lb)
  if epsilon = 0 then .ub .divZero
  else do
    let mod := Int.tmod d epsilon
    let epsilon ← if mod = 0 then pure 0 else ck64 (epsilon - mod)
    let e ← ck64 (d + epsilon)
    return u64 e

/-! ## Type_struct -/

/-- One block of a struct: `blocklens[i]`, `displacements[i]` (MPI_Aint), `*oldtypes_ptr[i]`. -/
structure Block where
  len : Int
  disp : Int
  ty : Typestruct

/-- Local variables of the first loop of `Type_struct` (type.c:265-269). -/
structure Pass1 where
  override_lower : Bool := false
  override_upper : Bool := false
  new_lb : Int := LONG_MAX
  new_ub : Int := 9223372036854775808     -- LONG_MIN converted to unsigned long
  simpletype_count : Int := 0

/-- type.c:274-310 first loop of `Type_struct`; all bound comparisons are unsigned. -/
def structPass1 : List Block → Pass1 → Res Pass1
  | [], s => .ok s
  | b :: bs, s => do
    let p0 ← b.ty.pair 0
    if p0.type = SIMPLE_LOWER then
      structPass1 bs { s with
        new_lb := if s.new_lb > b.disp then b.disp else s.new_lb, override_lower := true }
    else if p0.type = SIMPLE_UPPER then
      structPass1 bs { s with
        new_ub := if s.new_ub < b.disp then b.disp else s.new_ub, override_upper := true }
    else do
      let a ← ck32 (b.len * b.ty.count)
      let c ← ck32 (s.simpletype_count + a)
      structPass1 bs { s with
        override_lower := s.override_lower || b.ty.o_lb != 0,
        override_upper := s.override_upper || b.ty.o_ub != 0,
        simpletype_count := c }

/-- State of the second loop of `Type_struct`: the array being filled, `newcount`, the bounds. -/
structure Pass2 where
  pairs : List Pair
  newcount : Nat
  new_lb : Int
  new_ub : Int

/-- `temp->pairs[k] = p`. -/
def setPair (pairs : List Pair) (k : Nat) (p : Pair) : Res (List Pair) :=
  if k < pairs.length then .ok (pairs.set k p) else .ub .badPtr

/-- type.c:345-354 innermost loop, with Copy_type (type.c:245-251); `off` is
`displacements[i] + tmp_offset`, added to the `long` displacement as unsigned and converted back. -/
def structCopyPairs (ty : Typestruct) (off : Int) : Nat → Nat → Pass2 → Res Pass2
  | 0, _, s => .ok s
  | n + 1, k, s => do
    let p ← ty.pair k
    let pairs ← setPair s.pairs s.newcount ⟨s64 (p.disp + off), p.type⟩
    structCopyPairs ty off n (k + 1) { s with pairs := pairs, newcount := s.newcount + 1 }

/-- type.c:330-355 loop over the repetitions `j` of one block. -/
def structReps (cfg : Cfg) (b : Block) : Nat → Nat → Pass2 → Res Pass2
  | 0, _, s => .ok s
  | n + 1, j, s => do
    let extent ← Type_extent cfg b.ty
    let tmp_offset := u64 (j * extent)
    let l := u64 (u64 (b.ty.lb + b.disp) + tmp_offset)
    let new_lb := if b.ty.o_lb ≠ 0 ∧ l < s.new_lb then l else s.new_lb
    let u := u64 (u64 (b.ty.ub + b.disp) + tmp_offset)
    let new_ub := if b.ty.o_ub ≠ 0 ∧ u > s.new_ub then u else s.new_ub
    let s ← structCopyPairs b.ty (u64 (b.disp + tmp_offset)) b.ty.count.toNat 0
      { s with new_lb := new_lb, new_ub := new_ub }
    structReps cfg b n (j + 1) s

/-- type.c:319-358 second loop of `Type_struct`. -/
def structPass2 (cfg : Cfg) : List Block → Pass2 → Res Pass2
  | [], s => .ok s
  | b :: bs, s => do
    let p0 ← b.ty.pair 0
    if p0.type = SIMPLE_LOWER ∨ p0.type = SIMPLE_UPPER then structPass2 cfg bs s
    else do
      let s ← structReps cfg b b.len.toNat 0 s
      structPass2 cfg bs s

/-- type.c:259-389 `Type_struct`.  The malloc (311-312) provides room for `simpletype_count + 1`
pairs (`sizeof(Typestruct)` already contains two and one is subtracted); with a count below -1 the
header itself does not fit. -/
def Type_struct (cfg : Cfg) (g : Garbage) (blocks : List Block) : Res Typestruct := do
  let p1 ← structPass1 blocks {}
  if p1.simpletype_count < -1 then .ub .badPtr
  else do
    let fresh := (List.range (p1.simpletype_count + 1).toNat).map g.pair
    let p2 ← structPass2 cfg blocks ⟨fresh, 0, p1.new_lb, p1.new_ub⟩
    let temp : Typestruct :=
      { count := p1.simpletype_count, ub := 0, lb := 0, committed := 0,
        o_lb := if p1.override_lower then 1 else g.o_lb,
        o_ub := if p1.override_upper then 1 else g.o_ub,
        pairs := p2.pairs }
    let lb ← if p1.override_lower then pure (s64 p2.new_lb) else calc_lb temp
    let ub ← if p1.override_upper then pure (s64 p2.new_ub) else calc_ub cfg temp
    return { temp with lb := lb, ub := ub }

/-! ## The other constructors -/

/-- Array read `a[i]` (a C array argument is a list; reading past it is an illegal access). -/
def rd {α : Type} (a : List α) (i : Nat) : Res α :=
  match a[i]? with
  | some x => .ok x
  | none => .ub .memAccess

/-- A loop `for (i = 0; i < n; i++) a[i] = f(i)` filling an array. -/
def fill {α : Type} (f : Nat → Res α) : Nat → Nat → Res (List α)
  | 0, _ => .ok []
  | n + 1, i => do
    let x ← f i
    let xs ← fill f n (i + 1)
    return x :: xs

/-- A variable-length array `T a[count]` needs a non-negative size (zero is accepted by gcc). -/
def vla (count : Int) : Res Nat := if count < 0 then .ub .negVLA else .ok count.toNat

/-- type.c:427-445 `Type_contiguous`. -/
def Type_contiguous (cfg : Cfg) (g : Garbage) (count : Int) (old : Typestruct) : Res Typestruct := do
  let n ← vla count
  let extent ← Type_extent cfg old
  let blocks ← fill (fun i => .ok ⟨1, u64 (extent * i), old⟩) n 0
  Type_struct cfg g blocks

/-- type.c:466-484 `Type_hvector`. -/
def Type_hvector (cfg : Cfg) (g : Garbage) (count blocklen stride : Int) (old : Typestruct) :
    Res Typestruct := do
  let n ← vla count
  let _extent ← Type_extent cfg old
  let blocks ← fill (fun i => .ok ⟨blocklen, u64 (stride * i), old⟩) n 0
  Type_struct cfg g blocks

/-- type.c:527-537 `Type_vector`. -/
def Type_vector (cfg : Cfg) (g : Garbage) (count blocklen stride : Int) (old : Typestruct) :
    Res Typestruct := do
  let extent ← Type_extent cfg old
  let bstride := u64 (stride * extent)
  Type_hvector cfg g count blocklen bstride old

/-- type.c:562-574 `Type_hindexed`. -/
def Type_hindexed (cfg : Cfg) (g : Garbage) (count : Int) (blocklens disps : List Int)
    (old : Typestruct) : Res Typestruct := do
  let n ← vla count
  let blocks ← fill (fun i => do
    let b ← rd blocklens i
    let d ← rd disps i
    return (⟨b, d, old⟩ : Block)) n 0
  Type_struct cfg g blocks

/-- type.c:598-612 `Type_indexed`. -/
def Type_indexed (cfg : Cfg) (g : Garbage) (count : Int) (blocklens disps : List Int)
    (old : Typestruct) : Res Typestruct := do
  let n ← vla count
  let bdisps ← fill (fun i => do
    let extent ← Type_extent cfg old
    let d ← rd disps i
    return u64 (d * extent)) n 0
  Type_hindexed cfg g count blocklens bdisps old

/-- type.c:635-645 `Type_create_indexed_block`. -/
def Type_create_indexed_block (cfg : Cfg) (g : Garbage) (count blocklen : Int) (disps : List Int)
    (old : Typestruct) : Res Typestruct := do
  let n ← vla count
  let blocklens ← fill (fun _ => .ok blocklen) n 0
  Type_indexed cfg g count blocklens disps old

/-! ## Queries -/

/-- type.c:694-695 loop of `Type_size`. -/
def typeSizeLoop (cfg : Cfg) (t : Typestruct) : Nat → Nat → Int → Res Int
  | 0, _, s => .ok s
  | n + 1, i, s => do
    let p ← t.pair i
    let len ← Simpletype_length cfg p.type
    let s ← ck32 (s + len)
    typeSizeLoop cfg t n (i + 1) s

/-- type.c:690-699 `Type_size`. -/
def Type_size (cfg : Cfg) (t : Typestruct) : Res Int := typeSizeLoop cfg t t.count.toNat 0 0

/-- type.c:716-720 `Type_lb` (`long` stored into an `MPI_Aint`). -/
def Type_lb (t : Typestruct) : Int := u64 t.lb

/-- type.c:738-742 `Type_ub`. -/
def Type_ub (t : Typestruct) : Int := u64 t.ub

/-! ## Predefined types -/

/-- A static one-element descriptor (type_const.c): the second pair is zero-initialised. -/
def static1 (ub type : Int) : Typestruct :=
  { count := 1, lb := 0, ub := ub, committed := 1, o_lb := 0, o_ub := 0,
    pairs := [⟨0, type⟩, ⟨0, 0⟩] }

/-- A static two-element descriptor (type_const.c:69-98). -/
def static2 (ub type0 disp1 type1 : Int) : Typestruct :=
  { count := 2, lb := 0, ub := ub, committed := 1, o_lb := 0, o_ub := 0,
    pairs := [⟨0, type0⟩, ⟨disp1, type1⟩] }

/-- type_const.c:7-162 the descriptors, in the order of type_const.c:171-184 `simpletypes[]`.
Entries 45..63 of the 64-element array are null. -/
def simpletypes (cfg : Cfg) : List Typestruct :=
  let fr := cfg.fsizeReal
  let fd := cfg.fsizeDouble
  [ static1 1 0, static1 2 1, static1 4 2, static1 8 3,                     -- char short int long
    static1 1 4, static1 2 5, static1 4 6, static1 8 7,                     -- unsigned variants
    static1 4 8, static1 8 9, static1 16 10, static1 1 11,                  -- float double ldouble byte
    static1 1 11, static1 0 12, static1 0 13, static1 4 14,                 -- packed lower upper integer
    static1 fr 15, static1 fd 16, static1 (2 * fr) 17, static1 (2 * fd) 18, -- real dprec complex dcomplex
    static1 4 19, static1 1 20,                                             -- logical character
    static2 (2 * fr) 15 fr 15, static2 (2 * fd) 16 fd 16,                   -- 2real 2dprecision
    static2 8 14 4 14,                                                      -- 2integer
    static2 8 8 4 2, static2 16 9 8 2, static2 16 3 8 2,                    -- float_int double_int long_int
    static2 8 2 4 2, static2 8 1 4 2, static2 32 10 16 2,                   -- 2int short_int ldouble_int
    static1 1 21, static1 2 22, static1 4 23, static1 8 24, static1 16 25,  -- integer1..integer16
    static1 4 26, static1 8 27, static1 16 28,                              -- real4..real16
    static1 8 29, static1 16 30, static1 32 31,                             -- complex8..complex32
    static1 8 32, static1 8 33, static1 8 34 ]                              -- longlong ulonglong offset

/-- A `Datatype` pointer: null, the address of a static descriptor, or a malloc'ed one. -/
inductive TPtr where
  | null
  | static (k : Nat)
  | heap (p : Nat)
  deriving DecidableEq, Repr

/-- type.c:36 `simpletypes[-1-handle]` for a negative handle: null entries 45..63, no element
from index 64 on. -/
def simpletypePtr (handle : Int) : Res TPtr :=
  let k := (-1 - handle).toNat
  if k < 45 then .ok (.static k)
  else if k < 64 then .ok .null
  else .ub .badPtr

end MpiSerial
