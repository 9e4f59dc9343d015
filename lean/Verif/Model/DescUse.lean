import Verif.Model.Desc
import Verif.Model.Copy

/-!
# copy.c and pack.c on descriptors as bytes

`Model/Copy.lean` with the descriptors as in `Model/Desc.lean`: every read of a field is a load from the object.
The user's buffers are in `Mem`; the objects that hold descriptors are apart from it.
-/

set_option autoImplicit false

namespace MpiSerial.Raw

/-- copy.c:82-83 the offset of entry `i`: the index is an `int` division by `count`. -/
def entryOffset (bo : ByteOrder) (t : Blob) (extent : Int) (i : Nat) : Res Int := do
  let count ← t.int bo offCount
  if count = 0 then .ub .divZero
  else do
    let disp ← t.long bo (offDisp (Int.tmod i count).toNat)
    return s32 (u64 (disp + u64 (Int.tdiv i count * extent)))

/-- copy.c:74-75, 85 `pairs[i % count].type` -/
def entryType (bo : ByteOrder) (t : Blob) (i : Nat) : Res Int := do
  let count ← t.int bo offCount
  if count = 0 then .ub .divZero
  else t.int bo (offType (Int.tmod i count).toNat)

/-- copy.c:73-80 the comparison that TYPE_CHECKING adds. -/
def checkTypes (cfg : Cfg) (bo : ByteOrder) (st dt : Blob) (i : Nat) : Res Unit :=
  if cfg.typeChecking then do
    let a ← entryType bo st i
    let b ← entryType bo dt i
    if a ≠ b then .exit 1 else .ok ()
  else .ok ()

/-- copy.c:70-86 loop of `Pcopy_data2`. -/
def copyLoop (cfg : Cfg) (bo : ByteOrder) (source : Int) (st : Blob) (sext : Int) (dest : Int) (dt : Blob)
    (dext : Int) : Nat → Nat → Mem → Res Mem
  | 0, _, m => .ok m
  | n + 1, i, m => do
    checkTypes cfg bo st dt i
    let soffset ← entryOffset bo st sext i
    let doffset ← entryOffset bo dt dext i
    let ty ← entryType bo dt i
    let len ← Simpletype_length cfg ty
    let m ← memcpy m (padd dest doffset) (padd source soffset) len.toNat
    copyLoop cfg bo source st sext dest dt dext n (i + 1) m

/-- copy.c:42-88 `Pcopy_data2`. -/
def Pcopy_data2 (cfg : Cfg) (bo : ByteOrder) (m : Mem) (source src_count : Int) (st : Blob) (dest dest_count : Int)
    (dt : Blob) : Res Mem := do
  let sc ← st.int bo offCommitted
  let dc ← dt.int bo offCommitted
  if sc = 0 ∨ dc = 0 then .exit (-1)
  else do
    let scount ← st.int bo offCount
    let a ← ck32 (scount * src_count)
    let dcount ← dt.int bo offCount
    let b ← ck32 (dcount * dest_count)
    if a < b then .exit 1
    else do
      let sext ← Type_extent cfg bo st
      let dext ← Type_extent cfg bo dt
      copyLoop cfg bo source st sext dest dt dext b.toNat 0 m

/-- pack.c:47-57 inner loop of `Pack`. -/
def packEntries (cfg : Cfg) (bo : ByteOrder) (inbuf : Int) (t : Blob) (extent outbuf outsize : Int) (i : Nat) :
    Nat → Nat → Mem × Int → Res (Mem × Int)
  | 0, _, s => .ok s
  | n + 1, j, (m, position) => do
    let ty ← t.int bo (offType j)
    let len ← Simpletype_length cfg ty
    let e ← ck32 (position + len)
    if e > outsize then .exit 1
    else do
      let disp ← t.long bo (offDisp j)
      let m ← memcpy m (padd outbuf position) (padd (padd inbuf disp) (u64 (extent * i))) len.toNat
      packEntries cfg bo inbuf t extent outbuf outsize i n (j + 1) (m, e)

/-- pack.c:45-58 outer loop of `Pack`. -/
def packLoop (cfg : Cfg) (bo : ByteOrder) (inbuf : Int) (t : Blob) (extent outbuf outsize : Int) :
    Nat → Nat → Mem × Int → Res (Mem × Int)
  | 0, _, s => .ok s
  | n + 1, i, s => do
    let count ← t.int bo offCount
    let s ← packEntries cfg bo inbuf t extent outbuf outsize i count.toNat 0 s
    packLoop cfg bo inbuf t extent outbuf outsize n (i + 1) s

/-- pack.c:38-60 `Pack`. -/
def Pack (cfg : Cfg) (bo : ByteOrder) (m : Mem) (inbuf incount : Int) (t : Blob) (outbuf outsize position : Int) :
    Res (Mem × Int) := do
  let extent ← Type_extent cfg bo t
  packLoop cfg bo inbuf t extent outbuf outsize incount.toNat 0 (m, position)

/-- pack.c:68-71 loop of `Pack_size`. -/
def packSizeLoop (cfg : Cfg) (bo : ByteOrder) (t : Blob) : Nat → Nat → Int → Res Int
  | 0, _, s => .ok s
  | n + 1, i, s => do
    let ty ← t.int bo (offType i)
    let len ← Simpletype_length cfg ty
    packSizeLoop cfg bo t n (i + 1) (u64 (s + len))

/-- pack.c:62-75 `Pack_size`. -/
def Pack_size (cfg : Cfg) (bo : ByteOrder) (incount : Int) (t : Blob) : Res Int := do
  let count ← t.int bo offCount
  let s ← packSizeLoop cfg bo t count.toNat 0 0
  return u64 (s * incount)

/-- pack.c:136-146 inner loop of `Unpack`. -/
def unpackEntries (cfg : Cfg) (bo : ByteOrder) (inbuf insize outbuf : Int) (t : Blob) (extent : Int) (i : Nat) :
    Nat → Nat → Mem × Int → Res (Mem × Int)
  | 0, _, s => .ok s
  | n + 1, j, (m, position) => do
    let ty ← t.int bo (offType j)
    let len ← Simpletype_length cfg ty
    let e ← ck32 (position + len)
    if e > insize then .exit 1
    else do
      let disp ← t.long bo (offDisp j)
      let m ← memcpy m (padd (padd outbuf disp) (u64 (extent * i))) (padd inbuf position) len.toNat
      unpackEntries cfg bo inbuf insize outbuf t extent i n (j + 1) (m, e)

/-- pack.c:134-147 outer loop of `Unpack`. -/
def unpackLoop (cfg : Cfg) (bo : ByteOrder) (inbuf insize outbuf : Int) (t : Blob) (extent : Int) :
    Nat → Nat → Mem × Int → Res (Mem × Int)
  | 0, _, s => .ok s
  | n + 1, i, s => do
    let count ← t.int bo offCount
    let s ← unpackEntries cfg bo inbuf insize outbuf t extent i count.toNat 0 s
    unpackLoop cfg bo inbuf insize outbuf t extent n (i + 1) s

/-- pack.c:126-149 `Unpack`. -/
def Unpack (cfg : Cfg) (bo : ByteOrder) (m : Mem) (inbuf insize position outbuf outcount : Int) (t : Blob) :
    Res (Mem × Int) := do
  let extent ← Type_extent cfg bo t
  unpackLoop cfg bo inbuf insize outbuf t extent outcount.toNat 0 (m, position)

end MpiSerial.Raw
