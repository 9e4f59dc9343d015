import Verif.Model.Misc
import Verif.Model.Cart

/-!
# The library when `malloc` may fail

Elsewhere `malloc` succeeds.  Here are the functions that call `malloc`, and those that call them, with both outcomes of
every `malloc`.  A computation is given which calls of `malloc` succeed (`Mallocs`, numbered from program start) and the
number of the next call.
-/

set_option autoImplicit false

namespace MpiSerial

namespace Oom

/-- Does the `k`-th call of `malloc` succeed? -/
abbrev Mallocs := Nat → Bool

/-- A computation that calls `malloc`: outcome and number of the next call. -/
def M (α : Type) : Type := Mallocs → Nat → Res α × Nat

/-- A computation that does not call `malloc`. -/
def lift {α : Type} (x : Res α) : M α := fun _ k => (x, k)

def bind {α β : Type} (x : M α) (f : α → M β) : M β := fun ok k =>
  match x ok k with
  | (.ok a, k) => f a ok k
  | (.abort m, k) => (.abort m, k)
  | (.exit c, k) => (.exit c, k)
  | (.ub u, k) => (.ub u, k)
  | (.hang, k) => (.hang, k)

instance : Monad M where
  pure a := lift (.ok a)
  bind := bind

instance : MonadLift Res M := ⟨lift⟩

/-- `malloc(...) != NULL` -/
def malloc : M Bool := fun ok k => (.ok (ok k), k + 1)

/-- A `malloc` whose failure the code reports: `if (!p) { print(msg); abort(); }`. -/
def mallocOr (msg : String) : M Unit := do
  let ok ← malloc
  if ok then pure () else lift (.abort msg)

/-- handles.c:79-92 `mpi_malloc` -/
def mpi_malloc : M Unit := mallocOr "mpi_malloc: failed to allocate bytes"

/-- handles.c:178-225 `mpi_alloc_handle` -/
def mpi_alloc_handle {D : Type} (t : HTab D) (fresh : D) : M (HTab D × Int × Loc) := do
  let t := if t.needInit then init_handles t else t
  match t.nextfree with
  | some new =>
    let it ← lift (t.deref new)
    let t := { t with nextfree := it.next }
    let t := t.set new { it with next := none }
    return (t, it.handle, new)
  | none =>
    if t.nblocks = MAX_BLOCKS then
      lift (.abort "mpi_allocate_handle: max active handles exceeded")
    else
      let b := t.nblocks
      mpi_malloc
      let t := { t with items := fun l => if l.block = b then ⟨0, none, fresh⟩ else t.items l }
      let t := init_block t b
      let new : Loc := ⟨b, 0⟩
      let t := { t with nextfree := (t.items new).next }
      let t := t.set new { t.items new with next := none }
      let h := (t.items new).handle
      let t := { t with nblocks := t.nblocks + 1 }
      return (t, h, new)

section
variable {A : Type}

/-- list.c:32-46 `AP_listitem_malloc` -/
def AP_listitem_malloc (h : LHeap A) (x : Node A) : M (LHeap A × Nat) := do
  let c ← lift (ck32 (h.itemcount + 1))
  mallocOr "AP_listitem_malloc: malloc failure"
  let n := h.nextNode
  let h := { h with itemcount := c, nextNode := n + 1 }
  return (h.setN n x, n)

/-- list.c:123-141 `AP_list_new` -/
def AP_list_new (h : LHeap A) : M (LHeap A × Nat) := do
  mallocOr "AP_list_new: malloc failure"
  let l := h.nextList
  let h := { h with nextList := l + 1 }
  let h := h.setL l ⟨none, none, 0⟩
  let c ← lift (ck32 (h.headcount + 1))
  return ({ h with headcount := c }, l)

/-- list.c:206-230 `AP_list_prepend` -/
def AP_list_prepend (h : LHeap A) (l : Nat) (data : A) : M (LHeap A × Nat) := do
  let L ← lift (h.getL l)
  let (h, new) ← AP_listitem_malloc h ⟨data, none, L.head⟩
  let h ← match L.head with
    | some hd => do let x ← lift (h.getN hd); pure (h.setN hd { x with prev := some new })
    | none => pure h
  let L := { L with head := some new }
  let L := match L.tail with
    | none => { L with tail := some new }
    | some _ => L
  let c ← lift (ck32 (L.count + 1))
  return (h.setL l { L with count := c }, new)

/-- list.c:241-263 `AP_list_append` -/
def AP_list_append (h : LHeap A) (l : Nat) (data : A) : M (LHeap A × Nat) := do
  let L ← lift (h.getL l)
  let (h, new) ← AP_listitem_malloc h ⟨data, L.tail, none⟩
  let (h, L) ← match L.tail with
    | some tl => do let x ← lift (h.getN tl); pure (h.setN tl { x with next := some new }, L)
    | none => pure (h, { L with head := some new })
  let L := { L with tail := some new }
  let c ← lift (ck32 (L.count + 1))
  return (h.setL l { L with count := c }, new)

/-- list.c:537-551 loop of `AP_list_duplicate` -/
def dupLoop (g : Option Nat) (newl : Nat) :
    Nat → LHeap A → Option Nat → Option Nat → M (LHeap A × Option Nat)
  | _, h, none, prev => lift (.ok (h, prev))
  | 0, _, some _, _ => lift .hang
  | fuel + 1, h, some cur, prev => do
    let x ← lift (h.getN cur)
    let (h, new) ← AP_listitem_malloc h ⟨x.data, prev, g⟩
    let h ← lift (dupLink h newl prev new)
    let x ← lift (h.getN cur)
    dupLoop g newl fuel h x.next (some new)

/-- list.c:528-559 `AP_list_duplicate` -/
def AP_list_duplicate (g : Option Nat) (h : LHeap A) (l : Nat) : M (LHeap A × Nat) := do
  let (h, newl) ← AP_list_new h
  let L ← lift (h.getL l)
  let (h, prev) ← dupLoop g newl (h.nextNode + 1) h L.head none
  let h ← lift (dupTerm h prev)
  let NL ← lift (h.getL newl)
  let L ← lift (h.getL l)
  return (h.setL newl { NL with tail := prev, count := L.count }, newl)

end

/-- `mpi_alloc_handle(&h, (void **) &r)` for a `Req *r` -/
def allocReq (env : Env) (s : Sys) : M (Sys × Int × Loc) := do
  let (t, h, l) ← mpi_alloc_handle s.handles .raw
  let r := match (t.items l).data with
    | .req r => r
    | _ => env.junk s.clock
  return ({ s with handles := t.setData l (.req r), clock := s.clock + 1 }, h, l)

/-- comm.c:13-27 `mpi_comm_new` -/
def mpi_comm_new (s : Sys) : M (Sys × Int) := do
  let (t, chandle, cptr) ← mpi_alloc_handle s.handles .raw
  let (h, sendlist) ← AP_list_new s.lists
  let (h, recvlist) ← AP_list_new h
  let num ← lift (ck32 (s.num + 1))
  return ({ s with handles := t.setData cptr (.comm ⟨sendlist, recvlist, s.num⟩),
                   lists := h, num := num }, chandle)

/-- comm.c:132-142 `MPI_Comm_dup` -/
def MPI_Comm_dup (s : Sys) (_comm : Int) : M (Sys × Int) := mpi_comm_new s

/-- comm.c:157-165 `MPI_Comm_create` -/
def MPI_Comm_create (s : Sys) (_comm group : Int) : M (Sys × Int) :=
  if group = MPI_GROUP_NULL ∨ group = MPI_GROUP_EMPTY then lift (.ok (s, MPI_COMM_NULL))
  else mpi_comm_new s

/-- comm.c:182-190 `MPI_Comm_split` -/
def MPI_Comm_split (s : Sys) (_comm color _key : Int) : M (Sys × Int) :=
  if color = MPI_UNDEFINED then lift (.ok (s, MPI_COMM_NULL)) else mpi_comm_new s

/-- comm.c:229-239 `MPI_Intercomm_create` -/
def MPI_Intercomm_create (s : Sys) (local_comm _local_leader peer_comm _remote_leader _tag : Int) : M (Sys × Int) :=
  if local_comm = MPI_COMM_NULL ∧ peer_comm = MPI_COMM_NULL then lift (.ok (s, MPI_COMM_NULL))
  else MPI_Comm_dup s MPI_COMM_WORLD

/-- cart.c:20-34 `MPI_Cart_create` -/
def MPI_Cart_create (s : Sys) (comm_old ndims : Int) (dims : List Int) : M (Sys × Int) := do
  lift (cartCheck dims ndims.toNat 0)
  MPI_Comm_dup s comm_old

/-- mpi.c:164-189 `MPI_Init` -/
def MPI_Init (s : Sys) : M Sys := do
  let (s, my_comm_world) ← mpi_comm_new s
  if my_comm_world ≠ MPI_COMM_WORLD then lift (.abort "MPI_Init: conflicting MPI_COMM_WORLD")
  else return { s with initialized := true }

/-- mpi.c:158-162 `MPI_Init_thread` -/
def MPI_Init_thread (s : Sys) (required : Int) : M (Sys × Int) := do
  let s ← MPI_Init s
  return (s, required)

/-- mpi.c:29-156 `mpi_init_fort` -/
def mpi_init_fort (env : Env) (a : FortArgs) (s : Sys) : M Sys := do
  let s ← MPI_Init s
  lift (mpi_init_fort_checks env a s)

/-- send.c:85-88 -/
def sendQueued (s : Sys) (buf tag : Int) (sendlist : Nat) (sreq : Loc) : M Sys := do
  let s ← lift (s.modReq sreq (fun r => { r with buf := buf, tag := tag, complete := 0 }))
  let (lists, item) ← AP_list_append s.lists sendlist sreq
  let s := { s with lists := lists }
  lift (s.modReq sreq (fun r => { r with listitem := some item }))

/-- send.c:36-95 `MPI_Isend` -/
def MPI_Isend (env : Env) (s : Sys) (buf count datatype dest tag comm : Int) : M (Sys × Int) := do
  let (s, mycomm) ← lift (s.ptr comm)
  if dest ≠ 0 ∧ dest ≠ MPI_PROC_NULL then lift (.abort "MPI_Isend: send to")
  else do
    let (s, request, sreq) ← allocReq env s
    if dest = MPI_PROC_NULL then do
      let s ← lift (s.modReq sreq (fun r => { r with complete := 1 }))
      return (s, request)
    else do
      let c ← lift (s.comm mycomm)
      let found ← lift (AP_list_search_func s.lists c.recvlist (mpi_match_recv s tag))
      match found with
      | some item => do
        let s ← lift (sendMatched env s buf count datatype tag c.recvlist item sreq)
        return (s, request)
      | none => do
        let s ← sendQueued s buf tag c.sendlist sreq
        return (s, request)

/-- recv.c:96-99 -/
def recvQueued (s : Sys) (buf tag : Int) (recvlist : Nat) (rreq : Loc) : M Sys := do
  let s ← lift (s.modReq rreq (fun r => { r with buf := buf, tag := tag, complete := 0 }))
  let (lists, item) ← AP_list_append s.lists recvlist rreq
  let s := { s with lists := lists }
  lift (s.modReq rreq (fun r => { r with listitem := some item }))

/-- recv.c:40-106 `MPI_Irecv` -/
def MPI_Irecv (env : Env) (s : Sys) (buf count datatype source tag comm : Int) : M (Sys × Int) := do
  let (s, mycomm) ← lift (s.ptr comm)
  if source ≠ 0 ∧ source ≠ MPI_ANY_SOURCE ∧ source ≠ MPI_PROC_NULL then
    lift (.abort "MPI_Irecv: bad source")
  else do
    let (s, request, rreq) ← allocReq env s
    let s ← lift (s.modReq rreq (fun r => { r with type := datatype, count := count }))
    if source = MPI_PROC_NULL then do
      let s ← lift (s.modReq rreq (fun r =>
        { r with complete := 1, source := MPI_PROC_NULL, tag := MPI_ANY_TAG }))
      return (s, request)
    else do
      let c ← lift (s.comm mycomm)
      let found ← lift (AP_list_search_func s.lists c.sendlist (mpi_match_send s tag))
      match found with
      | some item => do
        let s ← lift (recvMatched env s buf count datatype c.sendlist item rreq)
        return (s, request)
      | none => do
        let s ← recvQueued s buf tag c.recvlist rreq
        return (s, request)

/-- send.c:110-125 `MPI_Send`, also MPI_Ssend and MPI_Rsend -/
def MPI_Send (env : Env) (s : Sys) (buf count datatype dest tag comm : Int) : M Sys := do
  let (s, request) ← MPI_Isend env s buf count datatype dest tag comm
  let (s, _, _) ← lift (MPI_Wait s request (.obj ⟨0, 0, 0, 0⟩))
  return s

/-- send.c:188-211 `MPI_Irsend` -/
def MPI_Irsend (env : Env) (s : Sys) (buf count datatype dest tag comm : Int) : M (Sys × Int) := do
  let (s, request) ← MPI_Isend env s buf count datatype dest tag comm
  let (s, req) ← lift (s.ptr request)
  let r ← lift (s.req req)
  if r.complete = 0 then lift (.abort "MPI_Irsend: no matching receive found")
  else return (s, request)

/-- recv.c:123-141 `MPI_Recv` -/
def MPI_Recv (env : Env) (s : Sys) (buf count datatype source tag comm : Int) (status : StPtr) :
    M (Sys × StPtr) := do
  let (s, request) ← MPI_Irecv env s buf count datatype source tag comm
  let (s, _, status) ← lift (MPI_Wait s request status)
  match status with
  | .null => return (s, .null)
  | .obj st => return (s, .obj { st with get_count := count })
  | .bad => lift (.ub .memAccess)

/-- send.c:233-250 `MPI_Sendrecv` -/
def MPI_Sendrecv (env : Env) (s : Sys) (sendbuf sendcount sendtype dest sendtag recvbuf recvcount
    recvtype source recvtag comm : Int) (status : StPtr) : M (Sys × StPtr) := do
  let (s, request) ← MPI_Irecv env s recvbuf recvcount recvtype source recvtag comm
  let s ← MPI_Send env s sendbuf sendcount sendtype dest sendtag comm
  let (s, _, status) ← lift (MPI_Wait s request status)
  return (s, status)

/-! ## type.c: the result of `malloc` is not looked at -/

/-- type.c:259-390 `Type_struct`: line 314 writes through the result of `malloc`. -/
def Type_struct (cfg : Cfg) (g : Garbage) (blocks : List Block) : M Typestruct := do
  let p1 ← lift (structPass1 blocks {})
  let ok ← malloc
  if !ok then lift (.ub .nullPtr)
  else if p1.simpletype_count < -1 then lift (.ub .badPtr)
  else do
    let fresh := (List.range (p1.simpletype_count + 1).toNat).map g.pair
    let p2 ← lift (structPass2 cfg blocks ⟨fresh, 0, p1.new_lb, p1.new_ub⟩)
    let temp : Typestruct :=
      { count := p1.simpletype_count, ub := 0, lb := 0, committed := 0,
        o_lb := if p1.override_lower then 1 else g.o_lb,
        o_ub := if p1.override_upper then 1 else g.o_ub,
        pairs := p2.pairs }
    let lb ← lift (if p1.override_lower then pure (s64 p2.new_lb) else calc_lb temp)
    let ub ← lift (if p1.override_upper then pure (s64 p2.new_ub) else calc_ub cfg temp)
    return { temp with lb := lb, ub := ub }

/-- type.c:427-445 `Type_contiguous` -/
def Type_contiguous (cfg : Cfg) (g : Garbage) (count : Int) (old : Typestruct) : M Typestruct := do
  let n ← lift (vla count)
  let extent ← lift (Type_extent cfg old)
  let blocks ← lift (fill (fun i => .ok ⟨1, u64 (extent * i), old⟩) n 0)
  Type_struct cfg g blocks

/-- type.c:466-484 `Type_hvector` -/
def Type_hvector (cfg : Cfg) (g : Garbage) (count blocklen stride : Int) (old : Typestruct) : M Typestruct := do
  let n ← lift (vla count)
  let _extent ← lift (Type_extent cfg old)
  let blocks ← lift (fill (fun i => .ok ⟨blocklen, u64 (stride * i), old⟩) n 0)
  Type_struct cfg g blocks

/-- type.c:527-537 `Type_vector` -/
def Type_vector (cfg : Cfg) (g : Garbage) (count blocklen stride : Int) (old : Typestruct) : M Typestruct := do
  let extent ← lift (Type_extent cfg old)
  let bstride := u64 (stride * extent)
  Type_hvector cfg g count blocklen bstride old

/-- type.c:562-574 `Type_hindexed` -/
def Type_hindexed (cfg : Cfg) (g : Garbage) (count : Int) (blocklens disps : List Int) (old : Typestruct) :
    M Typestruct := do
  let n ← lift (vla count)
  let blocks ← lift (fill (fun i => do
    let b ← rd blocklens i
    let d ← rd disps i
    return (⟨b, d, old⟩ : Block)) n 0)
  Type_struct cfg g blocks

/-- type.c:598-612 `Type_indexed` -/
def Type_indexed (cfg : Cfg) (g : Garbage) (count : Int) (blocklens disps : List Int) (old : Typestruct) :
    M Typestruct := do
  let n ← lift (vla count)
  let bdisps ← lift (fill (fun i => do
    let extent ← Type_extent cfg old
    let d ← rd disps i
    return u64 (d * extent)) n 0)
  Type_hindexed cfg g count blocklens bdisps old

/-- type.c:635-645 `Type_create_indexed_block` -/
def Type_create_indexed_block (cfg : Cfg) (g : Garbage) (count blocklen : Int) (disps : List Int)
    (old : Typestruct) : M Typestruct := do
  let n ← lift (vla count)
  let blocklens ← lift (fill (fun _ => .ok blocklen) n 0)
  Type_indexed cfg g count blocklens disps old

/-- Common part of the `MPI_Type_*` constructors (e.g. type.c:454-462). -/
def newType (env : Env) (s : Sys) (build : Garbage → M Typestruct) : M (Sys × Int) := do
  let (t, h, l) ← mpi_alloc_handle s.handles .raw
  let ty ← build (env.garbage s.nextType)
  let p := s.nextType
  return ({ s with handles := t.setData l (.dtype (.heap p)),
                   theap := fun q => if q = p then some ty else s.theap q,
                   nextType := p + 1 }, h)

/-- type.c:454-462 `MPI_Type_contiguous` -/
def MPI_Type_contiguous (env : Env) (s : Sys) (count old : Int) : M (Sys × Int) := do
  let (s, t) ← lift (typeOf env s old)
  newType env s (fun g => Type_contiguous env.cfg g count t)

/-- type.c:494-502 `MPI_Type_hvector`, 512-520 `MPI_Type_create_hvector` -/
def MPI_Type_hvector (env : Env) (s : Sys) (count blocklen stride old : Int) : M (Sys × Int) := do
  let (s, t) ← lift (typeOf env s old)
  newType env s (fun g => Type_hvector env.cfg g count blocklen stride t)

/-- type.c:548-557 `MPI_Type_vector` -/
def MPI_Type_vector (env : Env) (s : Sys) (count blocklen stride old : Int) : M (Sys × Int) := do
  let (s, t) ← lift (typeOf env s old)
  newType env s (fun g => Type_vector env.cfg g count blocklen stride t)

/-- type.c:585-593 `MPI_Type_hindexed` -/
def MPI_Type_hindexed (env : Env) (s : Sys) (count : Int) (blocklens disps : List Int) (old : Int) :
    M (Sys × Int) := do
  let (s, t) ← lift (typeOf env s old)
  newType env s (fun g => Type_hindexed env.cfg g count blocklens disps t)

/-- type.c:623-631 `MPI_Type_indexed` -/
def MPI_Type_indexed (env : Env) (s : Sys) (count : Int) (blocklens disps : List Int) (old : Int) :
    M (Sys × Int) := do
  let (s, t) ← lift (typeOf env s old)
  newType env s (fun g => Type_indexed env.cfg g count blocklens disps t)

/-- type.c:656-664 `MPI_Type_create_indexed_block` -/
def MPI_Type_create_indexed_block (env : Env) (s : Sys) (count blocklen : Int) (disps : List Int) (old : Int) :
    M (Sys × Int) := do
  let (s, t) ← lift (typeOf env s old)
  newType env s (fun g => Type_create_indexed_block env.cfg g count blocklen disps t)

/-- type.c:403-419 `MPI_Type_struct` -/
def MPI_Type_struct (env : Env) (s : Sys) (count : Int) (blocklens disps oldtypes : List Int) :
    M (Sys × Int) := do
  let n ← lift (vla count)
  let (s, ts) ← lift (structTypes env oldtypes n 0 s)
  newType env s (fun g => do
    let blocks ← lift (fill (fun i => do
      let b ← rd blocklens i
      let d ← rd disps i
      let t ← rd ts i
      return (⟨b, d, t⟩ : Block)) n 0)
    Type_struct env.cfg g blocks)

end Oom

end MpiSerial
