import Verif.Model.Types
import Verif.Model.Mem

/-!
# copy.c and pack.c on descriptors and memory
-/

namespace MpiSerial

/-- copy.c:82-83: `int` offset of entry `i` of the repeated type map:
`pairs[i % count].disp + (i / count) * extent`, computed in unsigned long, stored in an `int`. -/
def entryOffset (t : Typestruct) (extent : Int) (i : Nat) : Res Int :=
  if t.count = 0 then .ub .divZero
  else do
    let p ← t.pair (Int.tmod i t.count)
    return s32 (u64 (p.disp + u64 (Int.tdiv i t.count * extent)))

/-- copy.c:70-86 loop of `Pcopy_data2`, from element `i`, `n` iterations left. -/
def copyLoop (cfg : Cfg) (source : Int) (st : Typestruct) (sext : Int)
    (dest : Int) (dt : Typestruct) (dext : Int) : Nat → Nat → Mem → Res Mem
  | 0, _, m => .ok m
  | n + 1, i, m => do
    let soffset ← entryOffset st sext i
    let doffset ← entryOffset dt dext i
    let sp ← st.pair (Int.tmod i st.count)
    let dp ← dt.pair (Int.tmod i dt.count)
    if cfg.typeChecking ∧ sp.type ≠ dp.type then .exit 1
    else do
      let len ← Simpletype_length cfg dp.type
      let m ← memcpy m (padd dest doffset) (padd source soffset) len.toNat
      copyLoop cfg source st sext dest dt dext n (i + 1) m

/-- copy.c:42-88 `Pcopy_data2`.  (The element order of the TYPE_CHECKING test and the offset
computation inside one iteration is immaterial: both only read the descriptors.) -/
def Pcopy_data2 (cfg : Cfg) (m : Mem) (source src_count : Int) (st : Typestruct)
    (dest dest_count : Int) (dt : Typestruct) : Res Mem :=
  if st.committed = 0 ∨ dt.committed = 0 then .exit (-1)
  else do
    let a ← ck32 (st.count * src_count)
    let b ← ck32 (dt.count * dest_count)
    if a < b then .exit 1
    else do
      let sext ← Type_extent cfg st
      let dext ← Type_extent cfg dt
      copyLoop cfg source st sext dest dt dext b.toNat 0 m

/-! ## pack.c -/

/-- pack.c:47-57 inner loop of `Pack` (entry `j`, `n` left, copy `i`); returns memory and
`*position`.  `*position` is an `int` (addition checked); the memcpy size is a length. -/
def packEntries (cfg : Cfg) (inbuf : Int) (t : Typestruct) (extent outbuf outsize : Int) (i : Nat) :
    Nat → Nat → Mem × Int → Res (Mem × Int)
  | 0, _, s => .ok s
  | n + 1, j, (m, position) => do
    let p ← t.pair j
    let len ← Simpletype_length cfg p.type
    let e ← ck32 (position + len)
    if e > outsize then .exit 1
    else do
      let m ← memcpy m (padd outbuf position) (padd (padd inbuf p.disp) (u64 (extent * i))) len.toNat
      packEntries cfg inbuf t extent outbuf outsize i n (j + 1) (m, e)

/-- pack.c:45-58 outer loop of `Pack`. -/
def packLoop (cfg : Cfg) (inbuf : Int) (t : Typestruct) (extent outbuf outsize : Int) :
    Nat → Nat → Mem × Int → Res (Mem × Int)
  | 0, _, s => .ok s
  | n + 1, i, s => do
    let s ← packEntries cfg inbuf t extent outbuf outsize i t.count.toNat 0 s
    packLoop cfg inbuf t extent outbuf outsize n (i + 1) s

/-- pack.c:38-60 `Pack`. -/
def Pack (cfg : Cfg) (m : Mem) (inbuf incount : Int) (t : Typestruct)
    (outbuf outsize position : Int) : Res (Mem × Int) := do
  let extent ← Type_extent cfg t
  packLoop cfg inbuf t extent outbuf outsize incount.toNat 0 (m, position)

/-- pack.c:68-71 loop of `Pack_size`: accumulates in an `MPI_Aint`. -/
def packSizeLoop (cfg : Cfg) (t : Typestruct) : Nat → Nat → Int → Res Int
  | 0, _, s => .ok s
  | n + 1, i, s => do
    let p ← t.pair i
    let len ← Simpletype_length cfg p.type
    packSizeLoop cfg t n (i + 1) (u64 (s + len))

/-- pack.c:62-75 `Pack_size` (the `printf` is not modelled). -/
def Pack_size (cfg : Cfg) (incount : Int) (t : Typestruct) : Res Int := do
  let s ← packSizeLoop cfg t t.count.toNat 0 0
  return u64 (s * incount)

/-- pack.c:136-146 inner loop of `Unpack`. -/
def unpackEntries (cfg : Cfg) (inbuf insize outbuf : Int) (t : Typestruct) (extent : Int) (i : Nat) :
    Nat → Nat → Mem × Int → Res (Mem × Int)
  | 0, _, s => .ok s
  | n + 1, j, (m, position) => do
    let p ← t.pair j
    let len ← Simpletype_length cfg p.type
    let e ← ck32 (position + len)
    if e > insize then .exit 1
    else do
      let m ← memcpy m (padd (padd outbuf p.disp) (u64 (extent * i))) (padd inbuf position) len.toNat
      unpackEntries cfg inbuf insize outbuf t extent i n (j + 1) (m, e)

/-- pack.c:134-147 outer loop of `Unpack`. -/
def unpackLoop (cfg : Cfg) (inbuf insize outbuf : Int) (t : Typestruct) (extent : Int) :
    Nat → Nat → Mem × Int → Res (Mem × Int)
  | 0, _, s => .ok s
  | n + 1, i, s => do
    let s ← unpackEntries cfg inbuf insize outbuf t extent i t.count.toNat 0 s
    unpackLoop cfg inbuf insize outbuf t extent n (i + 1) s

/-- pack.c:126-149 `Unpack`. -/
def Unpack (cfg : Cfg) (m : Mem) (inbuf insize position outbuf outcount : Int)
    (t : Typestruct) : Res (Mem × Int) := do
  let extent ← Type_extent cfg t
  unpackLoop cfg inbuf insize outbuf t extent outcount.toNat 0 (m, position)

end MpiSerial
