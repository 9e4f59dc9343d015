import Verif.Base

/-!
# handles.c - handle management

`Loc` is the address `&blocks[block][index]` of a handle item.  The union stored in an item
(handles.c:31-38) is a type parameter `D` here; `Model/Sys.lean` instantiates it.
-/

namespace MpiSerial

/-- Address of a handle item: `&(blocks[block][index])`. -/
structure Loc where
  block : Nat
  index : Nat
  deriving DecidableEq, Repr

/-- handles.c:26-41 `struct _Handleitem`: handle number, free-list link, stored object. -/
structure Item (D : Type) where
  handle : Int
  next : Option Loc
  data : D

/-- handles.c:49 `#define BLOCK_ITEMS (256)`. -/
notation "BLOCK_ITEMS" => (256 : Nat)
/-- handles.c:66 `#define MAX_BLOCKS (1024)`. -/
notation "MAX_BLOCKS" => (1024 : Nat)

/-- handles.c:50 `HANDLE_TO_BLOCK(x) ((x) >> 8)` (arithmetic shift of an `int`). -/
def handleToBlock (x : Int) : Int := x >>> 8
/-- handles.c:51 `HANDLE_TO_INDEX(x) ((x) & 0xff)` on the two's-complement bits of an `int`. -/
def handleToIndex (x : Int) : Nat := (x % 4294967296).toNat &&& 0xff
/-- handles.c:52 `HANDLE(block,index) ((block << 8) | (index))`. -/
def mkHandle (block index : Nat) : Int := (((block <<< 8) ||| index : Nat) : Int)

/-- handles.c:68-74 static variables of the handle module.
`blocks[b]` is a valid pointer exactly for `b < nblocks` (handles.c:149-153,208-217), so the
pointer array itself is represented by `nblocks`; `items l` is `blocks[l.block][l.index]`. -/
structure HTab (D : Type) where
  needInit : Bool
  nblocks : Nat
  items : Loc → Item D
  nextfree : Option Loc

namespace HTab
variable {D : Type}

/-- `l` points into an allocated block. -/
def valid (t : HTab D) (l : Loc) : Prop := l.block < t.nblocks ∧ l.index < BLOCK_ITEMS
instance (t : HTab D) (l : Loc) : Decidable (t.valid l) := by unfold valid; exact inferInstance

/-- Assignment to an item. -/
def set (t : HTab D) (l : Loc) (it : Item D) : HTab D :=
  { t with items := fun l' => if l' = l then it else t.items l' }

/-- Assignment to the object stored in an item. -/
def setData (t : HTab D) (l : Loc) (d : D) : HTab D := t.set l { t.items l with data := d }

/-- Reading `*l`. -/
def deref (t : HTab D) (l : Loc) : Res (Item D) :=
  if t.valid l then .ok (t.items l) else .ub .badPtr

/-- State at program start: handles.c:68-74 (`need_to_init=1`; everything else static zero). -/
def start (d : D) : HTab D :=
  { needInit := true, nblocks := 0, items := fun _ => ⟨0, none, d⟩, nextfree := none }

end HTab

variable {D : Type}

/-- handles.c:110-124, body of `init_block`, with `last` = BLOCK_ITEMS-1 as a parameter: a loop
over the first `last` items, then the last one. -/
def initBlockN (t : HTab D) (block last : Nat) : HTab D :=
  let t := (List.range last).foldl
    (fun t i => t.set ⟨block, i⟩
      { t.items ⟨block, i⟩ with handle := mkHandle block i, next := some ⟨block, i + 1⟩ }) t
  t.set ⟨block, last⟩ { t.items ⟨block, last⟩ with handle := mkHandle block last, next := none }

/-- handles.c:110-124 `init_block`.  Returns the table; the returned pointer is always `&b[0]`. -/
def init_block (t : HTab D) (block : Nat) : HTab D := initBlockN t block (BLOCK_ITEMS - 1)

/-- handles.c:129-157 `init_handles`.  Setting `blocks[i]=NULL` for `i >= 1` is `nblocks := 1`. -/
def init_handles (t : HTab D) : HTab D :=
  let t := init_block t 0
  let new : Loc := ⟨0, 0⟩
  let t := { t with nextfree := (t.items new).next }
  let t := t.set new { t.items new with next := none }
  { t with nblocks := 1, needInit := false }

/-- handles.c:161-172 `mpi_destroy_handles`.  Freeing the malloc'ed blocks is implied by
`needInit`: every later use re-runs `init_handles`, which resets `nblocks`. -/
def mpi_destroy_handles (t : HTab D) : HTab D :=
  if t.needInit then t else { t with needInit := true }

/-- handles.c:178-225 `mpi_alloc_handle`: returns the table, the handle and the item address
(the C code returns `&(new->data)`).  The stored object is not cleared by the C code; in a
freshly malloc'ed block (handles.c:208) it is indeterminate, modelled by the argument `fresh`. -/
def mpi_alloc_handle (t : HTab D) (fresh : D) : Res (HTab D × Int × Loc) := do
  let t := if t.needInit then init_handles t else t
  match t.nextfree with
  | some new =>
    let it ← t.deref new
    let t := { t with nextfree := it.next }
    let t := t.set new { it with next := none }
    return (t, it.handle, new)
  | none =>
    if t.nblocks = MAX_BLOCKS then
      .abort "mpi_allocate_handle: max active handles exceeded"
    else
      let b := t.nblocks
      -- blocks[nblocks] = mpi_malloc(...): contents indeterminate
      let t := { t with items := fun l => if l.block = b then ⟨0, none, fresh⟩ else t.items l }
      let t := init_block t b
      let new : Loc := ⟨b, 0⟩
      let t := { t with nextfree := (t.items new).next }
      let t := t.set new { t.items new with next := none }
      let h := (t.items new).handle
      let t := { t with nblocks := t.nblocks + 1 }
      return (t, h, new)

/-- The address computation `&(blocks[block][index])` used at handles.c:258-265 and 285-292
(CHECKS off): `blocks[block]` is out of range for `block` outside 0..MAX_BLOCKS-1 and a null
pointer for unallocated blocks. -/
def itemAddr (t : HTab D) (handle : Int) : Res Loc :=
  let block := handleToBlock handle
  let index := handleToIndex handle
  if block < 0 ∨ (MAX_BLOCKS : Int) ≤ block then .ub .badPtr
  else if (t.nblocks : Int) ≤ block then .ub .nullPtr
  else .ok ⟨block.toNat, index⟩

/-- handles.c:247-266 `mpi_handle_to_ptr`: `none` is the null pointer. -/
def mpi_handle_to_ptr (t : HTab D) (handle : Int) : Res (HTab D × Option Loc) := do
  let t := if t.needInit then init_handles t else t
  if handle = 0 then return (t, none)
  else
    let l ← itemAddr t handle
    return (t, some l)

/-- handles.c:270-309 `mpi_free_handle` (CHECKS off). -/
def mpi_free_handle (t : HTab D) (handle : Int) : Res (HTab D) := do
  if handle = 0 then return t
  else if t.needInit then .abort "mpi_free_handle: handles not initialized"
  else
    let item ← itemAddr t handle
    let t := t.set item { t.items item with next := t.nextfree }
    return { t with nextfree := some item }

end MpiSerial
