import Verif.Model.Handles
import Verif.Model.Lists

/-!
# The build with `-DCHECKS`

handles.c and list.c contain consistency checks that are compiled only with `CHECKS` defined.  These are the
functions that differ in that build.
-/

set_option autoImplicit false

namespace MpiSerial

section Handles
variable {D : Type}

/-- handles.c:230-244 `verify_handle`.  (`index` is a masked value, never negative.) -/
def verify_handle (t : HTab D) (handle block : Int) (index : Nat) : Res Unit :=
  if (t.nblocks : Int) ≤ block ∨ block < 0 ∨ BLOCK_ITEMS ≤ index then .abort "mpi_verify_handle: bad handle"
  else if (t.items ⟨block.toNat, index⟩).handle ≠ handle then .abort "mpi_verify_handle: handle mismatch"
  else .ok ()

/-- handles.c:247-266 `mpi_handle_to_ptr` with CHECKS. -/
def mpi_handle_to_ptr_checks (t : HTab D) (handle : Int) : Res (HTab D × Option Loc) := do
  let t := if t.needInit then init_handles t else t
  if handle = 0 then return (t, none)
  else
    verify_handle t handle (handleToBlock handle) (handleToIndex handle)
    let l ← itemAddr t handle
    return (t, some l)

/-- handles.c:270-309 `mpi_free_handle` with CHECKS. -/
def mpi_free_handle_checks (t : HTab D) (handle : Int) : Res (HTab D) := do
  if handle = 0 then return t
  else if t.needInit then .abort "mpi_free_handle: handles not initialized"
  else
    verify_handle t handle (handleToBlock handle) (handleToIndex handle)
    let item ← itemAddr t handle
    if (t.items item).next.isSome then .abort "mpi_free_handle: handle still in use"
    else
      let t := t.set item { t.items item with next := t.nextfree }
      return { t with nextfree := some item }

end Handles

section Lists
variable {A : Type}

/-- The list heap with the additional field `list` of an item (listP.h:28-30): `owner n` is `item->list`.  Before
it is assigned the field of an item has an indeterminate value. -/
structure CHeap (A : Type) where
  heap : LHeap A
  owner : Nat → Nat

/-- Assignment `item->list = list`. -/
def CHeap.setOwner (c : CHeap A) (n l : Nat) : CHeap A :=
  { c with owner := fun k => if k = n then l else c.owner k }

/-- list.c:206-230 `AP_list_prepend` with CHECKS (line 217). -/
def AP_list_prepend_checks (c : CHeap A) (l : Nat) (data : A) : Res (CHeap A × Nat) := do
  let (h, n) ← AP_list_prepend c.heap l data
  return ({ c with heap := h }.setOwner n l, n)

/-- list.c:241-263 `AP_list_append` with CHECKS (line 251). -/
def AP_list_append_checks (c : CHeap A) (l : Nat) (data : A) : Res (CHeap A × Nat) := do
  let (h, n) ← AP_list_append c.heap l data
  return ({ c with heap := h }.setOwner n l, n)

/-- list.c:291-318 `AP_list_delete_item` with CHECKS (lines 294-300). -/
def AP_list_delete_item_checks (c : CHeap A) (l : Nat) (item : Nat) : Res (CHeap A) := do
  let _ ← c.heap.getN item
  if c.owner item ≠ l then .abort "AP_list_delete_item: item is not in list"
  else
    let h ← AP_list_delete_item c.heap l item
    return { c with heap := h }

/-- list.c:276-287 `AP_list_delete` with CHECKS. -/
def AP_list_delete_checks [DecidableEq A] (c : CHeap A) (l : Nat) (data : A) : Res (CHeap A × Int) := do
  match ← AP_list_search c.heap l data with
  | some item => do
    let c ← AP_list_delete_item_checks c l item
    return (c, 1)
  | none => return (c, 0)

/-- list.c:123-141 `AP_list_new` (the same with CHECKS). -/
def AP_list_new_checks (c : CHeap A) : Res (CHeap A × Nat) := do
  let (h, l) ← AP_list_new c.heap
  return ({ c with heap := h }, l)

/-- list.c:154-181 `AP_list_free` (the same with CHECKS). -/
def AP_list_free_checks (c : CHeap A) (l : Nat) : Res (CHeap A) := do
  let h ← AP_list_free c.heap l
  return { c with heap := h }

/-- list.c:528-559 `AP_list_duplicate` (the same with CHECKS: it does not assign the field `list` of the new
items). -/
def AP_list_duplicate_checks (g : Option Nat) (c : CHeap A) (l : Nat) : Res (CHeap A × Nat) := do
  let (h, l') ← AP_list_duplicate g c.heap l
  return ({ c with heap := h }, l')

end Lists

end MpiSerial
