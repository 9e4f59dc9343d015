import Verif.Model.Fort

/-!
# Calls on variables in memory

The functions of req.c, probe.c, pack.c, the end of MPI_Recv, the nonblocking calls of send.c and recv.c, the constructors of type.c with
array arguments, MPI_Group_translate_ranks and MPI_Cart_get, with loads and stores where the
code has them.  Model/P2P.lean has the same functions on values: arrays and statuses go in and come back.
-/

set_option autoImplicit false

namespace MpiSerial

namespace Place

/-- What an `int *` points to: a variable of the calling library function (with its value), or the memory of the program. -/
inductive Var where
  | mine (v : Int)
  | mem (p : Int)

/-- `*p` -/
def Var.get (bo : ByteOrder) (s : Sys) : Var → Res Int
  | .mine v => .ok v
  | .mem p => ldInt bo s.mem p

/-- `*p = v` -/
def Var.set (bo : ByteOrder) (s : Sys) (v : Int) : Var → Res (Sys × Var)
  | .mine _ => .ok (s, .mine v)
  | .mem p => do
    let s ← stInt bo s p v
    return (s, .mem p)

/-- A `MPI_Status *`: null, an address, or an address computed from null. -/
inductive StVar where
  | null
  | mem (p : Int)
  | bad
  deriving DecidableEq

/-- An argument `MPI_Status *` -/
def StVar.ofAddr (p : Int) : StVar := if p = 0 then .null else .mem p

/-- `&array_of_statuses[i]` -/
def StVar.elem (p : Int) (i : Nat) : StVar :=
  if p = 0 then (if i = 0 then .null else .bad) else .mem (p + 16 * i)

/-- `status->member = v` for the member at `offset` (mpi.h:183-190) -/
def StVar.store (bo : ByteOrder) (s : Sys) (offset v : Int) : StVar → Res Sys
  | .mem p => stInt bo s (p + offset) v
  | _ => .ub .memAccess

/-- req.c:19-52 `MPI_Test`: state, request and flag variables. -/
def MPI_Test (bo : ByteOrder) (s : Sys) (request flag : Var) (status : StVar) : Res (Sys × Var × Var) := do
  let h ← request.get bo s
  if h = MPI_REQUEST_NULL then do
    let s ← (if status ≠ .null then do
        let s ← status.store bo s 4 MPI_ANY_TAG
        status.store bo s 0 MPI_ANY_SOURCE
      else .ok s)
    let (s, flag) ← flag.set bo s 1
    return (s, request, flag)
  else do
    let h ← request.get bo s
    let (s, req) ← s.ptr h
    let r ← s.req req
    let (s, flag) ← flag.set bo s r.complete
    let f ← flag.get bo s
    if f ≠ 0 then do
      let s ← (if status ≠ .null then do
          let r ← s.req req
          let s ← status.store bo s 0 r.source
          let r ← s.req req
          status.store bo s 4 r.tag
        else .ok s)
      let h ← request.get bo s
      let t ← mpi_free_handle s.handles h
      let (s, request) ← request.set bo { s with handles := t } MPI_REQUEST_NULL
      return (s, request, flag)
    else return (s, request, flag)

/-- req.c:64-77 `MPI_Wait` -/
def MPI_Wait (bo : ByteOrder) (s : Sys) (request : Var) (status : StVar) : Res (Sys × Var) := do
  let (s, request, flag) ← MPI_Test bo s request (.mine 0) status
  let f ← flag.get bo s
  if f = 0 then .abort "MPI_Wait: request not complete, deadlock"
  else return (s, request)

/-- req.c:131-137 loop of `MPI_Testany`, `n` elements left, at index `i`; true: returned from within -/
def testanyLoop (bo : ByteOrder) (requests : Int) (status : StVar) : Nat → Nat → Sys → Var → Res (Sys × Var × Bool)
  | 0, _, s, flag => .ok (s, flag, false)
  | n + 1, i, s, flag => do
    let (s, _, flag) ← MPI_Test bo s (.mem (requests + 4 * i)) flag status
    let f ← flag.get bo s
    if f ≠ 0 then return (s, flag, true)
    else testanyLoop bo requests status n (i + 1) s flag

/-- req.c:126-143 `MPI_Testany` (`index` is not used) -/
def MPI_Testany (bo : ByteOrder) (s : Sys) (count requests : Int) (flag : Var) (status : StVar) : Res (Sys × Var) := do
  let (s, flag, found) ← testanyLoop bo requests status count.toNat 0 s flag
  if found then return (s, flag) else flag.set bo s 0

/-- req.c:93-110 `MPI_Waitany` -/
def MPI_Waitany (bo : ByteOrder) (s : Sys) (count requests : Int) (status : StVar) : Res Sys := do
  let (s, flag) ← MPI_Testany bo s count requests (.mine 0) status
  let f ← flag.get bo s
  if f = 0 then .abort "MPI_Waitany: no requests complete, deadlock"
  else return s

/-- req.c:166-172 loop of `MPI_Testall` -/
def testallLoop (bo : ByteOrder) (requests flag statuses : Int) : Nat → Nat → Sys → Res Sys
  | 0, _, s => .ok s
  | n + 1, i, s => do
    let (s, _, iflag) ← MPI_Test bo s (.mem (requests + 4 * i)) (.mine 0) (.elem statuses i)
    let f ← iflag.get bo s
    let s ← (if f = 0 then stInt bo s flag 0 else .ok s)
    testallLoop bo requests flag statuses n (i + 1) s

/-- req.c:158-175 `MPI_Testall` -/
def MPI_Testall (bo : ByteOrder) (s : Sys) (count requests flag statuses : Int) : Res Sys := do
  let s ← stInt bo s flag 1
  testallLoop bo requests flag statuses count.toNat 0 s

/-- req.c:199-208 loop of `MPI_Waitall` -/
def waitallLoop (bo : ByteOrder) (requests statuses : Int) : Nat → Nat → Sys → Res Sys
  | 0, _, s => .ok s
  | n + 1, i, s => do
    let (s, _, flag) ← MPI_Test bo s (.mem (requests + 4 * i)) (.mine 0) (.elem statuses i)
    let f ← flag.get bo s
    if f = 0 then .abort "MPI_Waitall: request not complete, deadlock"
    else waitallLoop bo requests statuses n (i + 1) s

/-- req.c:193-211 `MPI_Waitall` -/
def MPI_Waitall (bo : ByteOrder) (s : Sys) (count requests statuses : Int) : Res Sys :=
  waitallLoop bo requests statuses count.toNat 0 s

/-- req.c:233-240 loop of `MPI_Testsome` -/
def testsomeLoop (bo : ByteOrder) (requests outcount statuses : Int) : Nat → Nat → Sys → Res Sys
  | 0, _, s => .ok s
  | n + 1, i, s => do
    let (s, _, flag) ← MPI_Test bo s (.mem (requests + 4 * i)) (.mine 0) (.elem statuses i)
    let f ← flag.get bo s
    let s ← (if f ≠ 0 then do
        let v ← ldInt bo s.mem outcount
        let v ← ck32 (v + 1)
        stInt bo s outcount v
      else .ok s)
    testsomeLoop bo requests outcount statuses n (i + 1) s

/-- req.c:226-244 `MPI_Testsome` and 259-272 `MPI_Waitsome`, whose test of the pointer `outcount` never aborts
(`array_of_indices` is not used) -/
def MPI_Testsome (bo : ByteOrder) (s : Sys) (incount requests outcount statuses : Int) : Res Sys := do
  let s ← stInt bo s outcount 0
  testsomeLoop bo requests outcount statuses incount.toNat 0 s

/-- req.c:285-290 `MPI_Request_free` -/
def MPI_Request_free (bo : ByteOrder) (s : Sys) (req : Int) : Res Sys := do
  let h ← ldInt bo s.mem req
  let t ← mpi_free_handle s.handles h
  stInt bo { s with handles := t } req MPI_REQUEST_NULL

/-- probe.c:21-60 `MPI_Iprobe` -/
def MPI_Iprobe (bo : ByteOrder) (s : Sys) (source tag comm : Int) (flag : Var) (status : StVar) : Res (Sys × Var) := do
  let (s, mycomm) ← s.ptr comm
  if source ≠ 0 ∧ source ≠ MPI_ANY_SOURCE then .abort "MPI_Irecv: bad source"
  else do
    let c ← s.comm mycomm
    let found ← AP_list_search_func s.lists c.sendlist (mpi_match_send s tag)
    let (s, flag) ← flag.set bo s (if found.isNone then 0 else 1)
    let f ← flag.get bo s
    if f ≠ 0 then
      match found with
      | none => return (s, flag)
      | some item => do
        let sreq ← AP_listitem_data s.lists item
        let s ← (if status ≠ .null then do
            let s ← status.store bo s 0 0
            let q ← s.req (some sreq)
            status.store bo s 4 q.tag
          else .ok s)
        return (s, flag)
    else return (s, flag)

/-- probe.c:75-89 `MPI_Probe` -/
def MPI_Probe (bo : ByteOrder) (s : Sys) (source tag comm : Int) (status : StVar) : Res Sys := do
  let (s, flag) ← MPI_Iprobe bo s source tag comm (.mine 0) status
  let f ← flag.get bo s
  if f = 0 then .abort "MPI_Probe: no existing match, deadlock"
  else return s

/-- send.c:36-95 `MPI_Isend`: `mpi_alloc_handle` (send.c:57) stores into the request variable, then the message is transferred -/
def Isend (bo : ByteOrder) (env : Env) (s : Sys) (buf count datatype dest tag comm request : Int) : Res Sys := do
  let (s, mycomm) ← s.ptr comm
  if dest ≠ 0 ∧ dest ≠ MPI_PROC_NULL then .abort "MPI_Isend: send to"
  else do
    let (s, h, sreq) ← s.allocReq env
    let s ← stInt bo s request h
    if dest = MPI_PROC_NULL then s.modReq sreq (fun r => { r with complete := 1 })
    else do
      let c ← s.comm mycomm
      let found ← AP_list_search_func s.lists c.recvlist (mpi_match_recv s tag)
      match found with
      | some item => sendMatched env s buf count datatype tag c.recvlist item sreq
      | none => sendQueued s buf tag c.sendlist sreq

/-- send.c:188-211 `MPI_Irsend`: the request variable is read again -/
def Irsend (bo : ByteOrder) (env : Env) (s : Sys) (buf count datatype dest tag comm request : Int) : Res Sys := do
  let s ← Isend bo env s buf count datatype dest tag comm request
  let h ← ldInt bo s.mem request
  let (s, req) ← s.ptr h
  let r ← s.req req
  if r.complete = 0 then .abort "MPI_Irsend: no matching receive found" else return s

/-- recv.c:40-106 `MPI_Irecv`: likewise (recv.c:62) -/
def Irecv (bo : ByteOrder) (env : Env) (s : Sys) (buf count datatype source tag comm request : Int) : Res Sys := do
  let (s, mycomm) ← s.ptr comm
  if source ≠ 0 ∧ source ≠ MPI_ANY_SOURCE ∧ source ≠ MPI_PROC_NULL then .abort "MPI_Irecv: bad source"
  else do
    let (s, h, rreq) ← s.allocReq env
    let s ← stInt bo s request h
    let s ← s.modReq rreq (fun r => { r with type := datatype, count := count })
    if source = MPI_PROC_NULL then
      s.modReq rreq (fun r => { r with complete := 1, source := MPI_PROC_NULL, tag := MPI_ANY_TAG })
    else do
      let c ← s.comm mycomm
      let found ← AP_list_search_func s.lists c.sendlist (mpi_match_send s tag)
      match found with
      | some item => recvMatched env s buf count datatype c.sendlist item rreq
      | none => recvQueued s buf tag c.recvlist rreq

/-- recv.c:123-141 `MPI_Recv` (the request is a local variable) -/
def MPI_Recv (bo : ByteOrder) (env : Env) (s : Sys) (buf count datatype source tag comm : Int) (status : StVar) : Res Sys := do
  let (s, request) ← MPI_Irecv env s buf count datatype source tag comm
  let (s, _) ← MPI_Wait bo s (.mine request) status
  if status ≠ .null then status.store bo s 12 count else return s

/-- send.c:233-250 `MPI_Sendrecv` -/
def MPI_Sendrecv (bo : ByteOrder) (env : Env) (s : Sys) (sendbuf sendcount sendtype dest sendtag recvbuf recvcount
    recvtype source recvtag comm : Int) (status : StVar) : Res Sys := do
  let (s, request) ← MPI_Irecv env s recvbuf recvcount recvtype source recvtag comm
  let s ← MPI_Send env s sendbuf sendcount sendtype dest sendtag comm
  let (s, _) ← MPI_Wait bo s (.mine request) status
  return s

/-- pack.c:47-57 inner loop of `Pack` on the variable `*position` -/
def packEntries (bo : ByteOrder) (cfg : Cfg) (inbuf : Int) (t : Typestruct) (extent outbuf outsize position : Int) (i : Nat) :
    Nat → Nat → Sys → Res Sys
  | 0, _, s => .ok s
  | n + 1, j, s => do
    let p ← t.pair j
    let len ← Simpletype_length cfg p.type
    let v ← ldInt bo s.mem position
    let e ← ck32 (v + len)
    if e > outsize then .exit 1
    else do
      let v ← ldInt bo s.mem position
      let m ← memcpy s.mem (padd outbuf v) (padd (padd inbuf p.disp) (u64 (extent * i))) len.toNat
      let v ← ldInt bo m position
      let e ← ck32 (v + len)
      let s ← stInt bo { s with mem := m } position e
      packEntries bo cfg inbuf t extent outbuf outsize position i n (j + 1) s

/-- pack.c:45-58 outer loop of `Pack` -/
def packLoop (bo : ByteOrder) (cfg : Cfg) (inbuf : Int) (t : Typestruct) (extent outbuf outsize position : Int) : Nat → Nat → Sys → Res Sys
  | 0, _, s => .ok s
  | n + 1, i, s => do
    let s ← packEntries bo cfg inbuf t extent outbuf outsize position i t.count.toNat 0 s
    packLoop bo cfg inbuf t extent outbuf outsize position n (i + 1) s

/-- pack.c:23-34 `MPI_Pack` and 38-60 `Pack` -/
def MPI_Pack (bo : ByteOrder) (env : Env) (s : Sys) (inbuf incount datatype outbuf outsize position comm : Int) : Res Sys := do
  let (s, t) ← typeOf env s datatype
  let (s, _) ← s.ptr comm
  let extent ← Type_extent env.cfg t
  packLoop bo env.cfg inbuf t extent outbuf outsize position incount.toNat 0 s

/-- pack.c:136-146 inner loop of `Unpack` on the variable `*position` -/
def unpackEntries (bo : ByteOrder) (cfg : Cfg) (inbuf insize outbuf : Int) (t : Typestruct) (extent position : Int) (i : Nat) :
    Nat → Nat → Sys → Res Sys
  | 0, _, s => .ok s
  | n + 1, j, s => do
    let p ← t.pair j
    let len ← Simpletype_length cfg p.type
    let v ← ldInt bo s.mem position
    let e ← ck32 (v + len)
    if e > insize then .exit 1
    else do
      let v ← ldInt bo s.mem position
      let m ← memcpy s.mem (padd (padd outbuf p.disp) (u64 (extent * i))) (padd inbuf v) len.toNat
      let v ← ldInt bo m position
      let e ← ck32 (v + len)
      let s ← stInt bo { s with mem := m } position e
      unpackEntries bo cfg inbuf insize outbuf t extent position i n (j + 1) s

/-- pack.c:134-147 outer loop of `Unpack` -/
def unpackLoop (bo : ByteOrder) (cfg : Cfg) (inbuf insize outbuf : Int) (t : Typestruct) (extent position : Int) : Nat → Nat → Sys → Res Sys
  | 0, _, s => .ok s
  | n + 1, i, s => do
    let s ← unpackEntries bo cfg inbuf insize outbuf t extent position i t.count.toNat 0 s
    unpackLoop bo cfg inbuf insize outbuf t extent position n (i + 1) s

/-- pack.c:114-124 `MPI_Unpack` and 126-149 `Unpack` -/
def MPI_Unpack (bo : ByteOrder) (env : Env) (s : Sys) (inbuf insize position outbuf outcount datatype comm : Int) : Res Sys := do
  let (s, t) ← typeOf env s datatype
  let (s, _) ← s.ptr comm
  let extent ← Type_extent env.cfg t
  unpackLoop bo env.cfg inbuf insize outbuf t extent position outcount.toNat 0 s

/-! ## The bindings -/

/-- `mpi_c_status(status)` as an argument -/
def stat (c : FEnv) (p : Int) : StVar := .ofAddr (mpi_c_status c.ptrs p)

/-- send.c:24-31 -/
def mpi_isend (c : FEnv) (s : Sys) (buf count datatype dest tag comm req ierror : Int) : Res Sys := do
  let n ← ldInt c.bo s.mem count
  let t ← ldInt c.bo s.mem datatype
  let d ← ldInt c.bo s.mem dest
  let g ← ldInt c.bo s.mem tag
  let k ← ldInt c.bo s.mem comm
  let s ← Isend c.bo c.env s buf n t d g k req
  stInt c.bo s ierror 0

/-- send.c:176-184 -/
def mpi_irsend (c : FEnv) (s : Sys) (buf count datatype dest tag comm req ierror : Int) : Res Sys := do
  let n ← ldInt c.bo s.mem count
  let t ← ldInt c.bo s.mem datatype
  let d ← ldInt c.bo s.mem dest
  let g ← ldInt c.bo s.mem tag
  let k ← ldInt c.bo s.mem comm
  let s ← Irsend c.bo c.env s buf n t d g k req
  stInt c.bo s ierror 0

/-- recv.c:27-34 -/
def mpi_irecv (c : FEnv) (s : Sys) (buf count datatype source tag comm request ierror : Int) : Res Sys := do
  let n ← ldInt c.bo s.mem count
  let t ← ldInt c.bo s.mem datatype
  let d ← ldInt c.bo s.mem source
  let g ← ldInt c.bo s.mem tag
  let k ← ldInt c.bo s.mem comm
  let s ← Irecv c.bo c.env s buf n t d g k request
  stInt c.bo s ierror 0

/-- send.c:219-229 -/
def mpi_sendrecv (c : FEnv) (s : Sys) (sendbuf sendcount sendtype dest sendtag recvbuf recvcount recvtype source recvtag
    comm status ierror : Int) : Res Sys := do
  let sn ← ldInt c.bo s.mem sendcount
  let st ← ldInt c.bo s.mem sendtype
  let d ← ldInt c.bo s.mem dest
  let sg ← ldInt c.bo s.mem sendtag
  let rn ← ldInt c.bo s.mem recvcount
  let rt ← ldInt c.bo s.mem recvtype
  let sr ← ldInt c.bo s.mem source
  let rg ← ldInt c.bo s.mem recvtag
  let k ← ldInt c.bo s.mem comm
  let s ← MPI_Sendrecv c.bo c.env s sendbuf sn st d sg recvbuf rn rt sr rg k (stat c status)
  stInt c.bo s ierror 0

/-- recv.c:112-119 -/
def mpi_recv (c : FEnv) (s : Sys) (buf count datatype source tag comm status ierror : Int) : Res Sys := do
  let n ← ldInt c.bo s.mem count
  let t ← ldInt c.bo s.mem datatype
  let d ← ldInt c.bo s.mem source
  let g ← ldInt c.bo s.mem tag
  let k ← ldInt c.bo s.mem comm
  let s ← MPI_Recv c.bo c.env s buf n t d g k (stat c status)
  stInt c.bo s ierror 0

/-- probe.c:10-15 -/
def mpi_iprobe (c : FEnv) (s : Sys) (source tag comm flag status ierr : Int) : Res Sys := do
  let d ← ldInt c.bo s.mem source
  let g ← ldInt c.bo s.mem tag
  let k ← ldInt c.bo s.mem comm
  let (s, _) ← MPI_Iprobe c.bo s d g k (.mem flag) (stat c status)
  stInt c.bo s ierr 0

/-- probe.c:66-71 -/
def mpi_probe (c : FEnv) (s : Sys) (source tag comm status ierr : Int) : Res Sys := do
  let d ← ldInt c.bo s.mem source
  let g ← ldInt c.bo s.mem tag
  let k ← ldInt c.bo s.mem comm
  let s ← MPI_Probe c.bo s d g k (stat c status)
  stInt c.bo s ierr 0

/-- req.c:10-15 -/
def mpi_test (c : FEnv) (s : Sys) (request flag status ierror : Int) : Res Sys := do
  let (s, _, _) ← MPI_Test c.bo s (.mem request) (.mem flag) (stat c status)
  stInt c.bo s ierror 0

/-- req.c:56-60 -/
def mpi_wait (c : FEnv) (s : Sys) (request status ierror : Int) : Res Sys := do
  let (s, _) ← MPI_Wait c.bo s (.mem request) (stat c status)
  stInt c.bo s ierror 0

/-- req.c:83-89 -/
def mpi_waitany (c : FEnv) (s : Sys) (count requests status ierror : Int) : Res Sys := do
  let n ← ldInt c.bo s.mem count
  let s ← MPI_Waitany c.bo s n requests (stat c status)
  stInt c.bo s ierror 0

/-- req.c:117-124 -/
def mpi_testany (c : FEnv) (s : Sys) (count requests flag status ierr : Int) : Res Sys := do
  let n ← ldInt c.bo s.mem count
  let (s, _) ← MPI_Testany c.bo s n requests (.mem flag) (stat c status)
  stInt c.bo s ierr 0

/-- req.c:149-156 -/
def mpi_testall (c : FEnv) (s : Sys) (count requests flag statuses ierr : Int) : Res Sys := do
  let n ← ldInt c.bo s.mem count
  let s ← MPI_Testall c.bo s n requests flag (mpi_c_statuses c.ptrs statuses)
  stInt c.bo s ierr 0

/-- req.c:182-188 -/
def mpi_waitall (c : FEnv) (s : Sys) (count requests statuses ierror : Int) : Res Sys := do
  let n ← ldInt c.bo s.mem count
  let s ← MPI_Waitall c.bo s n requests (mpi_c_statuses c.ptrs statuses)
  stInt c.bo s ierror 0

/-- req.c:217-224 and 250-257 (`mpi_waitsome`) -/
def mpi_testsome (c : FEnv) (s : Sys) (incount requests outcount statuses ierr : Int) : Res Sys := do
  let n ← ldInt c.bo s.mem incount
  let s ← MPI_Testsome c.bo s n requests outcount (mpi_c_statuses c.ptrs statuses)
  stInt c.bo s ierr 0

/-- req.c:278-283 -/
def mpi_request_free (c : FEnv) (s : Sys) (request ierr : Int) : Res Sys := do
  let s ← MPI_Request_free c.bo s request
  stInt c.bo s ierr 0

/-- Common part of the `MPI_Type_*` constructors: mpi_alloc_handle stores the handle in the variable of the program (handles.c:191, 214) before the
descriptor is built (type.c:415-418, 591-592, 629-630, 662-663). -/
def newTypeAt (bo : ByteOrder) (env : Env) (s : Sys) (newtype : Int) (build : Sys → Garbage → Res Typestruct) : Res Sys := do
  let (t, h, l) ← mpi_alloc_handle s.handles .raw
  let s ← stInt bo { s with handles := t } newtype h
  let ty ← build s (env.garbage s.nextType)
  let p := s.nextType
  return { s with handles := s.handles.setData l (.dtype (.heap p)),
                  theap := fun q => if q = p then some ty else s.theap q,
                  nextType := p + 1 }

/-- type.c:585-593 `MPI_Type_hindexed`.  The arrays are read while the descriptor is built (type.c:277-352); nothing is stored for the program
meanwhile, so one reading stands for all. -/
def MPI_Type_hindexed (bo : ByteOrder) (env : Env) (s : Sys) (count blocklens disps old newtype : Int) : Res Sys := do
  let (s, t) ← typeOf env s old
  newTypeAt bo env s newtype (fun s g => do
    let bs ← ldInts bo s.mem blocklens count.toNat
    let ds ← ldAints bo s.mem disps count.toNat
    Type_hindexed env.cfg g count bs ds t)

/-- type.c:623-631 `MPI_Type_indexed`; the displacements are read in type.c:604-608. -/
def MPI_Type_indexed (bo : ByteOrder) (env : Env) (s : Sys) (count blocklens disps old newtype : Int) : Res Sys := do
  let (s, t) ← typeOf env s old
  newTypeAt bo env s newtype (fun s g => do
    let bs ← ldInts bo s.mem blocklens count.toNat
    let ds ← ldInts bo s.mem disps count.toNat
    Type_indexed env.cfg g count bs ds t)

/-- type.c:656-664 `MPI_Type_create_indexed_block` -/
def MPI_Type_create_indexed_block (bo : ByteOrder) (env : Env) (s : Sys) (count blocklen disps old newtype : Int) : Res Sys := do
  let (s, t) ← typeOf env s old
  newTypeAt bo env s newtype (fun s g => do
    let ds ← ldInts bo s.mem disps count.toNat
    Type_create_indexed_block env.cfg g count blocklen ds t)

/-- type.c:410-413: loop of `MPI_Type_struct` over the component types -/
def structTypesAt (bo : ByteOrder) (env : Env) (oldtypes : Int) : Nat → Nat → Sys → Res (Sys × List Typestruct)
  | 0, _, s => .ok (s, [])
  | n + 1, i, s => do
    let h ← ldInt bo s.mem (oldtypes + 4 * i)
    let (s, t) ← typeOf env s h
    let (s, ts) ← structTypesAt bo env oldtypes n (i + 1) s
    return (s, t :: ts)

/-- type.c:403-419 `MPI_Type_struct`: the component types are read before the handle is stored, the other two arrays after it. -/
def MPI_Type_struct (bo : ByteOrder) (env : Env) (s : Sys) (count blocklens disps oldtypes newtype : Int) : Res Sys := do
  let n ← vla count
  let (s, ts) ← structTypesAt bo env oldtypes n 0 s
  newTypeAt bo env s newtype (fun s g => do
    let bs ← ldInts bo s.mem blocklens count.toNat
    let ds ← ldAints bo s.mem disps count.toNat
    let blocks ← fill (fun i => do
      let b ← rd bs i
      let d ← rd ds i
      let t ← rd ts i
      return (⟨b, d, t⟩ : Block)) n 0
    Type_struct env.cfg g blocks)

/-- type.c:391-398 -/
def mpi_type_struct (c : FEnv) (s : Sys) (count blocklens displacements oldtypes newtype ierror : Int) : Res Sys := do
  let n ← ldInt c.bo s.mem count
  let s ← MPI_Type_struct c.bo c.env s n blocklens displacements oldtypes newtype
  stInt c.bo s ierror 0

/-- type.c:576-583 -/
def mpi_type_hindexed (c : FEnv) (s : Sys) (count blocklens displacements oldtype newtype ierr : Int) : Res Sys := do
  let n ← ldInt c.bo s.mem count
  let t ← ldInt c.bo s.mem oldtype
  let s ← MPI_Type_hindexed c.bo c.env s n blocklens displacements t newtype
  stInt c.bo s ierr 0

/-- type.c:614-620 -/
def mpi_type_indexed (c : FEnv) (s : Sys) (count blocklens displacements oldtype newtype ierr : Int) : Res Sys := do
  let n ← ldInt c.bo s.mem count
  let t ← ldInt c.bo s.mem oldtype
  let s ← MPI_Type_indexed c.bo c.env s n blocklens displacements t newtype
  stInt c.bo s ierr 0

/-- type.c:647-654 -/
def mpi_type_create_indexed_block (c : FEnv) (s : Sys) (count blocklen displacements oldtype newtype ierr : Int) : Res Sys := do
  let n ← ldInt c.bo s.mem count
  let b ← ldInt c.bo s.mem blocklen
  let t ← ldInt c.bo s.mem oldtype
  let s ← MPI_Type_create_indexed_block c.bo c.env s n b displacements t newtype
  stInt c.bo s ierr 0

/-- group.c:234-247 loop of `MPI_Group_translate_ranks` -/
def translateLoopAt (bo : ByteOrder) (ranks1 group2 ranks2 : Int) : Nat → Nat → Sys → Res Sys
  | 0, _, s => .ok s
  | n + 1, i, s => do
    let r ← ldInt bo s.mem (ranks1 + 4 * i)
    if r ≠ 0 then .abort "MPI_Group_translate_ranks: bad input rank"
    else do
      let v ← (if group2 ≠ MPI_GROUP_EMPTY then ldInt bo s.mem (ranks1 + 4 * i) else .ok MPI_UNDEFINED)
      let s ← stInt bo s (ranks2 + 4 * i) v
      translateLoopAt bo ranks1 group2 ranks2 n (i + 1) s

/-- group.c:214-252 `MPI_Group_translate_ranks` -/
def MPI_Group_translate_ranks (bo : ByteOrder) (s : Sys) (group1 n ranks1 group2 ranks2 : Int) : Res Sys :=
  if group1 = MPI_GROUP_NULL ∨ group2 = MPI_GROUP_NULL then .abort "MPI_Group_translate_ranks: null group passed in"
  else if n = 0 then .ok s
  else if group1 = MPI_GROUP_EMPTY then .abort "MPI_Group_translate_ranks: empty input group"
  else translateLoopAt bo ranks1 group2 ranks2 n.toNat 0 s

/-- cart.c:61-65 loop of `MPI_Cart_get` -/
def cartGetLoopAt (bo : ByteOrder) (dims coords : Int) : Nat → Nat → Sys → Res Sys
  | 0, _, s => .ok s
  | n + 1, i, s => do
    let s ← stInt bo s (dims + 4 * i) 1
    let s ← stInt bo s (coords + 4 * i) 0
    cartGetLoopAt bo dims coords n (i + 1) s

/-- group.c:204-210 -/
def mpi_group_translate_ranks (c : FEnv) (s : Sys) (group1 n ranks1 group2 ranks2 ierror : Int) : Res Sys := do
  let g ← ldInt c.bo s.mem group1
  let k ← ldInt c.bo s.mem n
  let g' ← ldInt c.bo s.mem group2
  let s ← MPI_Group_translate_ranks c.bo s g k ranks1 g' ranks2
  stInt c.bo s ierror 0

/-- cart.c:48-54 and 57-67 `MPI_Cart_get`, which looks at neither `comm` nor `periods` -/
def mpi_cart_get (c : FEnv) (s : Sys) (comm maxdims dims _periods coords ierr : Int) : Res Sys := do
  let _ ← ldInt c.bo s.mem comm
  let n ← ldInt c.bo s.mem maxdims
  let s ← cartGetLoopAt c.bo dims coords n.toNat 0 s
  stInt c.bo s ierr 0

/-- pack.c:12-19 -/
def mpi_pack (c : FEnv) (s : Sys) (inbuf incount datatype outbuf outsize position comm ierror : Int) : Res Sys := do
  let n ← ldInt c.bo s.mem incount
  let t ← ldInt c.bo s.mem datatype
  let z ← ldInt c.bo s.mem outsize
  let k ← ldInt c.bo s.mem comm
  let s ← MPI_Pack c.bo c.env s inbuf n t outbuf z position k
  stInt c.bo s ierror 0

/-- pack.c:103-111 -/
def mpi_unpack (c : FEnv) (s : Sys) (inbuf insize position outbuf outcount datatype comm ierror : Int) : Res Sys := do
  let z ← ldInt c.bo s.mem insize
  let n ← ldInt c.bo s.mem outcount
  let t ← ldInt c.bo s.mem datatype
  let k ← ldInt c.bo s.mem comm
  let s ← MPI_Unpack c.bo c.env s inbuf z position outbuf n t k
  stInt c.bo s ierror 0

end Place

end MpiSerial
