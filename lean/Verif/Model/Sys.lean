import Verif.Model.Handles
import Verif.Model.Lists
import Verif.Model.Copy

/-!
# Global state of the library; comm.c, the datatype handles of type.c, copy_data2, MPI_Init

All static variables of the library that the modelled functions touch, plus user memory, are in
`Sys`.  Functions take the state and return the new one.

Output arguments (`MPI_Request *`, `MPI_Comm *`, `int *flag`, `MPI_Status *`) are results of the
model functions: the caller's variables are distinct objects that do not overlap the message
buffers.
-/

namespace MpiSerial

/-! ## Constants of mpi.h -/

/-- mpi.h:154 -/
notation "MPI_ANY_TAG" => (-1 : Int)
/-- mpi.h:156 -/
notation "MPI_ANY_SOURCE" => (-1 : Int)
/-- mpi.h:157 -/
notation "MPI_PROC_NULL" => (-2 : Int)
/-- mpi.h:158 -/
notation "MPI_ROOT" => (-3 : Int)
/-- mpi.h:160 -/
notation "MPI_REQUEST_NULL" => (0 : Int)
/-- mpi.h:60 -/
notation "MPI_UNDEFINED" => (-1 : Int)
/-- mpi.h `MPI_COMM_WORLD` -/
notation "MPI_COMM_WORLD" => (1 : Int)
/-- mpi.h `MPI_COMM_NULL` -/
notation "MPI_COMM_NULL" => (0 : Int)
/-- mpi.h `MPI_GROUP_NULL` -/
notation "MPI_GROUP_NULL" => (0 : Int)
/-- mpi.h `MPI_GROUP_EMPTY` -/
notation "MPI_GROUP_EMPTY" => (-1 : Int)
/-- mpiP.h:76 `MPI_GROUP_ONE` -/
notation "MPI_GROUP_ONE" => (1 : Int)
/-- mpi.h:68 `MPI_IN_PLACE` = `(void *)(-1)` -/
notation "MPI_IN_PLACE" => (18446744073709551615 : Int)

/-! ## Objects behind handles -/

/-- mpiP.h:82-89 `Comm`. -/
structure CommRec where
  sendlist : Nat
  recvlist : Nat
  num : Int
  deriving DecidableEq, Repr

/-- mpiP.h:93-103 `Req`.  `listitem` is written but never read by the library. -/
structure ReqRec where
  listitem : Option Nat
  buf : Int
  source : Int
  tag : Int
  complete : Int
  count : Int
  type : Int
  deriving DecidableEq, Repr

/-- handles.c:31-38 the union in a handle item: which member was stored last, and its value.
`raw` is storage that never held an object. -/
inductive Slot where
  | raw
  | comm (c : CommRec)
  | req (r : ReqRec)
  | dtype (p : TPtr)
  deriving DecidableEq, Repr

/-- Compile-time configuration, and the contents of memory the library reads without having
written it: `junk n` is what a slot that does not hold a request looks like when read as one (the
`n`-th time this happens), `garbage n` is the contents of the `n`-th malloc'ed type descriptor. -/
structure Env where
  cfg : Cfg
  junk : Nat → ReqRec
  garbage : Nat → Garbage

/-- Static variables: handle table (handles.c:68-74), list heap (list.c), malloc'ed datatype
descriptors, `num` (comm.c:17), `initialized` (mpi.c:7); user memory; `clock` numbers the
uninitialised storage (see `Env`). -/
structure Sys where
  handles : HTab Slot
  lists : LHeap Loc
  theap : Nat → Option Typestruct
  nextType : Nat
  num : Int
  initialized : Bool
  mem : Mem
  clock : Nat

/-- Program start: all statics as initialised (handles.c:68-74, list.c:21-22, comm.c:17, mpi.c:7). -/
def Sys.start (m : Mem) : Sys :=
  { handles := HTab.start .raw, lists := LHeap.empty, theap := fun _ => none, nextType := 0,
    num := 0, initialized := false, mem := m, clock := 0 }

/-! ## Reading through pointers -/

/-- `p->...` for a `Comm *p`. -/
def Sys.comm (s : Sys) : Option Loc → Res CommRec
  | none => .ub .nullPtr
  | some l => do
    let it ← s.handles.deref l
    match it.data with
    | .comm c => .ok c
    | _ => .ub .kind

/-- `p->...` for a `Req *p`. -/
def Sys.req (s : Sys) : Option Loc → Res ReqRec
  | none => .ub .nullPtr
  | some l => do
    let it ← s.handles.deref l
    match it.data with
    | .req r => .ok r
    | _ => .ub .kind

/-- Assignments to fields of `*p` for a `Req *p`. -/
def Sys.modReq (s : Sys) (l : Loc) (f : ReqRec → ReqRec) : Res Sys := do
  let r ← s.req (some l)
  return { s with handles := s.handles.setData l (.req (f r)) }

/-- `mpi_handle_to_ptr` on the system state. -/
def Sys.ptr (s : Sys) (h : Int) : Res (Sys × Option Loc) := do
  let (t, p) ← mpi_handle_to_ptr s.handles h
  return ({ s with handles := t }, p)

/-- `mpi_alloc_handle(&h, (void **) &r)` for a `Req *r`.  handles.c does not clear the storage:
a slot whose last object was a request still holds that request's fields, any other slot reads as
junk. -/
def Sys.allocReq (env : Env) (s : Sys) : Res (Sys × Int × Loc) := do
  let (t, h, l) ← mpi_alloc_handle s.handles .raw
  let r := match (t.items l).data with
    | .req r => r
    | _ => env.junk s.clock
  return ({ s with handles := t.setData l (.req r), clock := s.clock + 1 }, h, l)

/-! ## Datatype handles (type.c) -/

/-- `*(Datatype*) mpi_handle_to_datatype(handle)`, type.c:33-39: the descriptor pointer. -/
def handleToDatatype (s : Sys) (h : Int) : Res (Sys × TPtr) :=
  if h < 0 then do
    let p ← simpletypePtr h
    return (s, p)
  else do
    let (s, p) ← s.ptr h
    match p with
    | none => .ub .nullPtr
    | some l => do
      let it ← s.handles.deref l
      match it.data with
      | .dtype p => return (s, p)
      | _ => .ub .kind

/-- Reading the descriptor `*p`. -/
def derefType (env : Env) (s : Sys) : TPtr → Res Typestruct
  | .null => .ub .nullPtr
  | .static k =>
    match (simpletypes env.cfg)[k]? with
    | some t => .ok t
    | none => .ub .badPtr
  | .heap p =>
    match s.theap p with
    | some t => .ok t
    | none => .ub .badPtr

/-- Handle to descriptor, both steps.  Simplification: the constructors copy the pointer and read the descriptor after they have
allocated their handle; here it is read first.  For a null descriptor (MPI_SIGNED_CHAR, see C44) this means undefined behaviour
where the code would abort because no handle is left, or where a count of 0 means that nothing is read (type.c:562-574). -/
def typeOf (env : Env) (s : Sys) (h : Int) : Res (Sys × Typestruct) := do
  let (s, p) ← handleToDatatype s h
  let t ← derefType env s p
  return (s, t)

/-- Common part of all `MPI_Type_*` constructors (e.g. type.c:454-462): allocate a handle, build the
descriptor in malloc'ed memory (type.c:311), store its address in the handle's slot (type.c:387). -/
def newType (env : Env) (s : Sys) (build : Garbage → Res Typestruct) : Res (Sys × Int) := do
  let (t, h, l) ← mpi_alloc_handle s.handles .raw
  let ty ← build (env.garbage s.nextType)
  let p := s.nextType
  return ({ s with handles := t.setData l (.dtype (.heap p)),
                   theap := fun q => if q = p then some ty else s.theap q,
                   nextType := p + 1 }, h)

/-- type.c:454-462 `MPI_Type_contiguous`. -/
def MPI_Type_contiguous (env : Env) (s : Sys) (count old : Int) : Res (Sys × Int) := do
  let (s, t) ← typeOf env s old
  newType env s (fun g => Type_contiguous env.cfg g count t)

/-- type.c:494-502 `MPI_Type_hvector` and 512-520 `MPI_Type_create_hvector` (same body). -/
def MPI_Type_hvector (env : Env) (s : Sys) (count blocklen stride old : Int) : Res (Sys × Int) := do
  let (s, t) ← typeOf env s old
  newType env s (fun g => Type_hvector env.cfg g count blocklen stride t)

/-- type.c:548-557 `MPI_Type_vector`. -/
def MPI_Type_vector (env : Env) (s : Sys) (count blocklen stride old : Int) : Res (Sys × Int) := do
  let (s, t) ← typeOf env s old
  newType env s (fun g => Type_vector env.cfg g count blocklen stride t)

/-- type.c:585-593 `MPI_Type_hindexed`. -/
def MPI_Type_hindexed (env : Env) (s : Sys) (count : Int) (blocklens disps : List Int) (old : Int) :
    Res (Sys × Int) := do
  let (s, t) ← typeOf env s old
  newType env s (fun g => Type_hindexed env.cfg g count blocklens disps t)

/-- type.c:623-631 `MPI_Type_indexed`. -/
def MPI_Type_indexed (env : Env) (s : Sys) (count : Int) (blocklens disps : List Int) (old : Int) :
    Res (Sys × Int) := do
  let (s, t) ← typeOf env s old
  newType env s (fun g => Type_indexed env.cfg g count blocklens disps t)

/-- type.c:656-664 `MPI_Type_create_indexed_block`. -/
def MPI_Type_create_indexed_block (env : Env) (s : Sys) (count blocklen : Int) (disps : List Int)
    (old : Int) : Res (Sys × Int) := do
  let (s, t) ← typeOf env s old
  newType env s (fun g => Type_create_indexed_block env.cfg g count blocklen disps t)

/-- type.c:410-413: the component descriptors of `MPI_Type_struct`. -/
def structTypes (env : Env) (oldtypes : List Int) : Nat → Nat → Sys → Res (Sys × List Typestruct)
  | 0, _, s => .ok (s, [])
  | n + 1, i, s => do
    let h ← rd oldtypes i
    let (s, t) ← typeOf env s h
    let (s, ts) ← structTypes env oldtypes n (i + 1) s
    return (s, t :: ts)

/-- type.c:403-419 `MPI_Type_struct`; the three arrays become the block list of `Type_struct`. -/
def MPI_Type_struct (env : Env) (s : Sys) (count : Int) (blocklens disps oldtypes : List Int) :
    Res (Sys × Int) := do
  let n ← vla count
  let (s, ts) ← structTypes env oldtypes n 0 s
  newType env s (fun g => do
    let blocks ← fill (fun i => do
      let b ← rd blocklens i
      let d ← rd disps i
      let t ← rd ts i
      return (⟨b, d, t⟩ : Block)) n 0
    Type_struct env.cfg g blocks)

/-- type.c:799-805 `MPI_Type_commit`.  The static descriptors already have `committed = 1`
(type_const.c), so committing one changes nothing. -/
def MPI_Type_commit (env : Env) (s : Sys) (h : Int) : Res Sys := do
  let (s, p) ← handleToDatatype s h
  let t ← derefType env s p
  match p with
  | .heap q => return { s with theap := fun q' => if q' = q then some { t with committed := 1 }
                                                  else s.theap q' }
  | _ => return s

/-- C library `free(p)` of a descriptor. -/
def freeType (s : Sys) : TPtr → Res Sys
  | .null => .ok s
  | .static _ => .ub .badFree
  | .heap q =>
    match s.theap q with
    | some _ => .ok { s with theap := fun q' => if q' = q then none else s.theap q' }
    | none => .ub .badFree

/-- type.c:814-823 `MPI_Type_free`; the caller's handle variable is not changed. -/
def MPI_Type_free (s : Sys) (h : Int) : Res Sys := do
  let (s, p) ← handleToDatatype s h
  let s ← freeType s p
  let t ← mpi_free_handle s.handles h
  return { s with handles := t }

/-- type.c:216-221 `MPI_Type_extent`. -/
def MPI_Type_extent (env : Env) (s : Sys) (h : Int) : Res (Sys × Int) := do
  let (s, t) ← typeOf env s h
  let e ← Type_extent env.cfg t
  return (s, e)

/-- type.c:707-711 `MPI_Type_size`. -/
def MPI_Type_size (env : Env) (s : Sys) (h : Int) : Res (Sys × Int) := do
  let (s, t) ← typeOf env s h
  let e ← Type_size env.cfg t
  return (s, e)

/-- type.c:728-733 `MPI_Type_lb`. -/
def MPI_Type_lb (env : Env) (s : Sys) (h : Int) : Res (Sys × Int) := do
  let (s, t) ← typeOf env s h
  return (s, Type_lb t)

/-- type.c:750-755 `MPI_Type_ub`. -/
def MPI_Type_ub (env : Env) (s : Sys) (h : Int) : Res (Sys × Int) := do
  let (s, t) ← typeOf env s h
  return (s, Type_ub t)

/-! ## copy.c, pack.c on handles -/

/-- copy.c:30-37 `copy_data2`. -/
def copy_data2 (env : Env) (s : Sys) (source src_count src_type dest dest_count dest_type : Int) :
    Res Sys := do
  let (s, sp) ← handleToDatatype s src_type
  let (s, dp) ← handleToDatatype s dest_type
  let st ← derefType env s sp
  let dt ← derefType env s dp
  let m ← Pcopy_data2 env.cfg s.mem source src_count st dest dest_count dt
  return { s with mem := m }

/-- pack.c:23-34 `MPI_Pack`; returns `*position`. -/
def MPI_Pack (env : Env) (s : Sys) (inbuf incount datatype outbuf outsize position comm : Int) :
    Res (Sys × Int) := do
  let (s, t) ← typeOf env s datatype
  let (s, _) ← s.ptr comm
  let (m, pos) ← Pack env.cfg s.mem inbuf incount t outbuf outsize position
  return ({ s with mem := m }, pos)

/-- pack.c:84-94 `MPI_Pack_size`. -/
def MPI_Pack_size (env : Env) (s : Sys) (incount datatype comm : Int) : Res (Sys × Int) := do
  let (s, t) ← typeOf env s datatype
  let (s, _) ← s.ptr comm
  let n ← Pack_size env.cfg incount t
  return (s, n)

/-- pack.c:114-124 `MPI_Unpack`; returns `*position`. -/
def MPI_Unpack (env : Env) (s : Sys) (inbuf insize position outbuf outcount datatype comm : Int) :
    Res (Sys × Int) := do
  let (s, t) ← typeOf env s datatype
  let (s, _) ← s.ptr comm
  let (m, pos) ← Unpack env.cfg s.mem inbuf insize position outbuf outcount t
  return ({ s with mem := m }, pos)

/-! ## comm.c -/

/-- comm.c:13-27 `mpi_comm_new`. -/
def mpi_comm_new (s : Sys) : Res (Sys × Int) := do
  let (t, chandle, cptr) ← mpi_alloc_handle s.handles .raw
  let (h, sendlist) ← AP_list_new s.lists
  let (h, recvlist) ← AP_list_new h
  let num ← ck32 (s.num + 1)
  return ({ s with handles := t.setData cptr (.comm ⟨sendlist, recvlist, s.num⟩),
                   lists := h, num := num }, chandle)

/-- comm.c:50-78 `MPI_Comm_free` (the warnings about pending requests only print); returns `*comm`. -/
def MPI_Comm_free (s : Sys) (comm : Int) : Res (Sys × Int) := do
  let (s, mycomm) ← s.ptr comm
  let c ← s.comm mycomm
  let _ ← AP_list_size s.lists c.sendlist
  let h ← AP_list_free s.lists c.sendlist
  let _ ← AP_list_size h c.recvlist
  let h ← AP_list_free h c.recvlist
  let t ← mpi_free_handle s.handles comm
  return ({ s with lists := h, handles := t }, MPI_COMM_NULL)

/-- comm.c:93-98 `MPI_Comm_size`. -/
def MPI_Comm_size (_comm : Int) : Int := 1

/-- comm.c:111-116 `MPI_Comm_rank`. -/
def MPI_Comm_rank (_comm : Int) : Int := 0

/-- comm.c:132-142 `MPI_Comm_dup`. -/
def MPI_Comm_dup (s : Sys) (_comm : Int) : Res (Sys × Int) := mpi_comm_new s

/-- comm.c:157-165 `MPI_Comm_create`. -/
def MPI_Comm_create (s : Sys) (_comm group : Int) : Res (Sys × Int) :=
  if group = MPI_GROUP_NULL ∨ group = MPI_GROUP_EMPTY then .ok (s, MPI_COMM_NULL)
  else mpi_comm_new s

/-- comm.c:182-190 `MPI_Comm_split`. -/
def MPI_Comm_split (s : Sys) (_comm color _key : Int) : Res (Sys × Int) :=
  if color = MPI_UNDEFINED then .ok (s, MPI_COMM_NULL) else mpi_comm_new s

/-- comm.c:205-213 `MPI_Comm_group`. -/
def MPI_Comm_group (comm : Int) : Int :=
  if comm = MPI_COMM_NULL then MPI_GROUP_NULL else MPI_GROUP_ONE

/-- comm.c:229-239 `MPI_Intercomm_create`. -/
def MPI_Intercomm_create (s : Sys) (local_comm _local_leader peer_comm _remote_leader _tag : Int) :
    Res (Sys × Int) :=
  if local_comm = MPI_COMM_NULL ∧ peer_comm = MPI_COMM_NULL then .ok (s, MPI_COMM_NULL)
  else MPI_Comm_dup s MPI_COMM_WORLD

/-! ## mpi.c -/

/-- mpi.c:164-189 `MPI_Init` (`sizeof(MPI_Aint) = sizeof(void *)` on LP64, so the first test never
fires; the Fortran call-back is in `Model/Misc.lean`). -/
def MPI_Init (s : Sys) : Res Sys := do
  let (s, my_comm_world) ← mpi_comm_new s
  if my_comm_world ≠ MPI_COMM_WORLD then .abort "MPI_Init: conflicting MPI_COMM_WORLD"
  else return { s with initialized := true }

/-- mpi.c:158-162 `MPI_Init_thread`: returns `*provided`. -/
def MPI_Init_thread (s : Sys) (required : Int) : Res (Sys × Int) := do
  let s ← MPI_Init s
  return (s, required)

/-- mpi.c:211-218 `MPI_Finalize`. -/
def MPI_Finalize (s : Sys) : Sys :=
  { s with initialized := false, handles := mpi_destroy_handles s.handles }

/-- mpi.c:299-304 `MPI_Initialized`. -/
def MPI_Initialized (s : Sys) : Int := if s.initialized then 1 else 0

/-- mpi.c:232-236 `MPI_Abort`. -/
def MPI_Abort (_comm errorcode : Int) : Res Unit := .exit errorcode

end MpiSerial
