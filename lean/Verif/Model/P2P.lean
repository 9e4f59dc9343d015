import Verif.Model.Sys

/-!
# send.c, recv.c, probe.c, req.c, getcount.c
-/

namespace MpiSerial

/-! ## Status objects -/

/-- mpi.h:183-190 `MPI_Status`. -/
structure Status where
  MPI_SOURCE : Int
  MPI_TAG : Int
  MPI_ERROR : Int
  get_count : Int
  deriving DecidableEq, Repr

/-- A `MPI_Status *` argument: null (`MPI_STATUS_IGNORE`), the caller's object, or the non-null
invalid address `&((MPI_Status *)0)[i]`, `i >= 1`. -/
inductive StPtr where
  | null
  | obj (st : Status)
  | bad
  deriving DecidableEq, Repr

/-- `if (status != MPI_STATUS_IGNORE) { status->MPI_SOURCE = src; status->MPI_TAG = tag; }` -/
def StPtr.put (st : StPtr) (src tag : Int) : Res StPtr :=
  match st with
  | .null => .ok .null
  | .obj s => .ok (.obj { s with MPI_SOURCE := src, MPI_TAG := tag })
  | .bad => .ub .memAccess

/-! ## send.c -/

/-- send.c:11-15 `mpi_match_recv`. -/
def mpi_match_recv (s : Sys) (tag : Int) (r : Loc) : Res Bool := do
  let q ← s.req (some r)
  return q.tag = MPI_ANY_TAG || q.tag = tag

/-- recv.c:13-17 and probe.c:4-8 `mpi_match_send` (two identical static functions). -/
def mpi_match_send (s : Sys) (tag : Int) (r : Loc) : Res Bool := do
  let q ← s.req (some r)
  return tag = MPI_ANY_TAG || tag = q.tag

/-- send.c:67-83: a matching receive was found. -/
def sendMatched (env : Env) (s : Sys) (buf count datatype tag : Int) (recvlist : Nat) (item : Nat)
    (sreq : Loc) : Res Sys := do
  let rreq ← AP_listitem_data s.lists item
  let lists ← AP_list_delete_item s.lists recvlist item
  let s := { s with lists := lists }
  let r ← s.req (some rreq)
  let s ← copy_data2 env s buf count datatype r.buf r.count r.type
  let s ← s.modReq rreq (fun r => { r with complete := 1, source := 0, tag := tag })
  s.modReq sreq (fun r => { r with complete := 1 })

/-- send.c:85-88: no receive pending, the send is queued. -/
def sendQueued (s : Sys) (buf tag : Int) (sendlist : Nat) (sreq : Loc) : Res Sys := do
  let s ← s.modReq sreq (fun r => { r with buf := buf, tag := tag, complete := 0 })
  let (lists, item) ← AP_list_append s.lists sendlist sreq
  let s := { s with lists := lists }
  s.modReq sreq (fun r => { r with listitem := some item })

/-- send.c:36-95 `MPI_Isend`; returns the new request handle. -/
def MPI_Isend (env : Env) (s : Sys) (buf count datatype dest tag comm : Int) : Res (Sys × Int) := do
  let (s, mycomm) ← s.ptr comm
  if dest ≠ 0 ∧ dest ≠ MPI_PROC_NULL then .abort "MPI_Isend: send to"
  else do
    let (s, request, sreq) ← s.allocReq env
    if dest = MPI_PROC_NULL then do
      let s ← s.modReq sreq (fun r => { r with complete := 1 })
      return (s, request)
    else do
      let c ← s.comm mycomm
      let found ← AP_list_search_func s.lists c.recvlist (mpi_match_recv s tag)
      match found with
      | some item => do
        let s ← sendMatched env s buf count datatype tag c.recvlist item sreq
        return (s, request)
      | none => do
        let s ← sendQueued s buf tag c.sendlist sreq
        return (s, request)

/-! ## recv.c -/

/-- recv.c:77-94: a matching send was found.  Line 81 copies with the *receiver's* count and
datatype on both sides. -/
def recvMatched (env : Env) (s : Sys) (buf count datatype : Int) (sendlist : Nat) (item : Nat)
    (rreq : Loc) : Res Sys := do
  let sreq ← AP_listitem_data s.lists item
  let lists ← AP_list_delete_item s.lists sendlist item
  let s := { s with lists := lists }
  let q ← s.req (some sreq)
  let s ← copy_data2 env s q.buf count datatype buf count datatype
  let q ← s.req (some sreq)
  let s ← s.modReq rreq (fun r => { r with complete := 1, source := 0, tag := q.tag })
  s.modReq sreq (fun r => { r with complete := 1 })

/-- recv.c:96-99: no send pending, the receive is queued. -/
def recvQueued (s : Sys) (buf tag : Int) (recvlist : Nat) (rreq : Loc) : Res Sys := do
  let s ← s.modReq rreq (fun r => { r with buf := buf, tag := tag, complete := 0 })
  let (lists, item) ← AP_list_append s.lists recvlist rreq
  let s := { s with lists := lists }
  s.modReq rreq (fun r => { r with listitem := some item })

/-- recv.c:40-106 `MPI_Irecv`; returns the new request handle. -/
def MPI_Irecv (env : Env) (s : Sys) (buf count datatype source tag comm : Int) : Res (Sys × Int) := do
  let (s, mycomm) ← s.ptr comm
  if source ≠ 0 ∧ source ≠ MPI_ANY_SOURCE ∧ source ≠ MPI_PROC_NULL then
    .abort "MPI_Irecv: bad source"
  else do
    let (s, request, rreq) ← s.allocReq env
    let s ← s.modReq rreq (fun r => { r with type := datatype, count := count })
    if source = MPI_PROC_NULL then do
      let s ← s.modReq rreq (fun r =>
        { r with complete := 1, source := MPI_PROC_NULL, tag := MPI_ANY_TAG })
      return (s, request)
    else do
      let c ← s.comm mycomm
      let found ← AP_list_search_func s.lists c.sendlist (mpi_match_send s tag)
      match found with
      | some item => do
        let s ← recvMatched env s buf count datatype c.sendlist item rreq
        return (s, request)
      | none => do
        let s ← recvQueued s buf tag c.recvlist rreq
        return (s, request)

/-! ## req.c: single requests -/

/-- Results of a completion call: state, `*request`, `*flag`, `*status`. -/
structure TestRes where
  sys : Sys
  request : Int
  flag : Int
  status : StPtr

/-- req.c:19-52 `MPI_Test`. -/
def MPI_Test (s : Sys) (request : Int) (status : StPtr) : Res TestRes :=
  if request = MPI_REQUEST_NULL then do
    let status ← status.put MPI_ANY_SOURCE MPI_ANY_TAG
    return ⟨s, request, 1, status⟩
  else do
    let (s, req) ← s.ptr request
    let r ← s.req req
    if r.complete ≠ 0 then do
      let status ← status.put r.source r.tag
      let t ← mpi_free_handle s.handles request
      return ⟨{ s with handles := t }, MPI_REQUEST_NULL, r.complete, status⟩
    else return ⟨s, request, r.complete, status⟩

/-- req.c:64-77 `MPI_Wait`: state, `*request`, `*status`. -/
def MPI_Wait (s : Sys) (request : Int) (status : StPtr) : Res (Sys × Int × StPtr) := do
  let r ← MPI_Test s request status
  if r.flag = 0 then .abort "MPI_Wait: request not complete, deadlock"
  else return (r.sys, r.request, r.status)

/-- req.c:285-290 `MPI_Request_free`: state, `*req`. -/
def MPI_Request_free (s : Sys) (request : Int) : Res (Sys × Int) := do
  let t ← mpi_free_handle s.handles request
  return ({ s with handles := t }, MPI_REQUEST_NULL)

/-! ## Blocking calls -/

/-- send.c:110-125 `MPI_Send` (also `MPI_Ssend` send.c:143-147, `MPI_Rsend` send.c:163-167, which
just call it).  The status is a local variable of `MPI_Send` whose contents nobody reads. -/
def MPI_Send (env : Env) (s : Sys) (buf count datatype dest tag comm : Int) : Res Sys := do
  let (s, request) ← MPI_Isend env s buf count datatype dest tag comm
  let (s, _, _) ← MPI_Wait s request (.obj ⟨0, 0, 0, 0⟩)
  return s

/-- send.c:143-147 -/
def MPI_Ssend := MPI_Send
/-- send.c:163-167 -/
def MPI_Rsend := MPI_Send

/-- send.c:188-211 `MPI_Irsend`. -/
def MPI_Irsend (env : Env) (s : Sys) (buf count datatype dest tag comm : Int) : Res (Sys × Int) := do
  let (s, request) ← MPI_Isend env s buf count datatype dest tag comm
  let (s, req) ← s.ptr request
  let r ← s.req req
  if r.complete = 0 then .abort "MPI_Irsend: no matching receive found"
  else return (s, request)

/-- recv.c:123-141 `MPI_Recv`; returns `*status`. -/
def MPI_Recv (env : Env) (s : Sys) (buf count datatype source tag comm : Int) (status : StPtr) :
    Res (Sys × StPtr) := do
  let (s, request) ← MPI_Irecv env s buf count datatype source tag comm
  let (s, _, status) ← MPI_Wait s request status
  match status with
  | .null => return (s, .null)
  | .obj st => return (s, .obj { st with get_count := count })
  | .bad => .ub .memAccess

/-- send.c:233-250 `MPI_Sendrecv`; returns `*status`. -/
def MPI_Sendrecv (env : Env) (s : Sys) (sendbuf sendcount sendtype dest sendtag recvbuf recvcount
    recvtype source recvtag comm : Int) (status : StPtr) : Res (Sys × StPtr) := do
  let (s, request) ← MPI_Irecv env s recvbuf recvcount recvtype source recvtag comm
  let s ← MPI_Send env s sendbuf sendcount sendtype dest sendtag comm
  let (s, _, status) ← MPI_Wait s request status
  return (s, status)

/-! ## probe.c -/

/-- probe.c:21-60 `MPI_Iprobe`: state, `*flag`, `*status`. -/
def MPI_Iprobe (s : Sys) (source tag comm : Int) (status : StPtr) : Res (Sys × Int × StPtr) := do
  let (s, mycomm) ← s.ptr comm
  if source ≠ 0 ∧ source ≠ MPI_ANY_SOURCE then .abort "MPI_Irecv: bad source"
  else do
    let c ← s.comm mycomm
    let found ← AP_list_search_func s.lists c.sendlist (mpi_match_send s tag)
    match found with
    | none => return (s, 0, status)
    | some item => do
      let sreq ← AP_listitem_data s.lists item
      let q ← s.req (some sreq)
      let status ← status.put 0 q.tag
      return (s, 1, status)

/-- probe.c:75-89 `MPI_Probe`. -/
def MPI_Probe (s : Sys) (source tag comm : Int) (status : StPtr) : Res (Sys × StPtr) := do
  let (s, flag, status) ← MPI_Iprobe s source tag comm status
  if flag = 0 then .abort "MPI_Probe: no existing match, deadlock"
  else return (s, status)

/-! ## getcount.c -/

/-- getcount.c:19-23 `MPI_Get_count`. -/
def MPI_Get_count (st : Status) (_datatype : Int) : Int := st.get_count

/-- getcount.c:37-42 `MPI_Get_elements`. -/
def MPI_Get_elements (env : Env) (s : Sys) (st : Status) (datatype : Int) : Res (Sys × Int) := do
  let (s, t) ← typeOf env s datatype
  let n ← ck32 (st.get_count * t.count)
  return (s, n)

/-! ## req.c: arrays of requests -/

/-- The statuses argument of the array calls: null (`MPI_STATUSES_IGNORE`) or an array. -/
abbrev StArr := Option (List Status)

/-- `&array_of_statuses[i]`. -/
def StArr.at (a : StArr) (i : Nat) : Res StPtr :=
  match a with
  | none => if i = 0 then .ok .null else .ok .bad
  | some l => do let st ← rd l i; return .obj st

/-- Store back what a callee wrote through `&array_of_statuses[i]`. -/
def StArr.upd (a : StArr) (i : Nat) (p : StPtr) : StArr :=
  match a, p with
  | some l, .obj st => some (l.set i st)
  | a, _ => a

/-- Results of an array completion call. -/
structure ArrRes where
  sys : Sys
  reqs : List Int
  stats : StArr

/-- req.c:131-137 loop of `MPI_Testany`, `n` elements left, at index `i`. -/
def testanyLoop : Nat → Nat → Sys → List Int → StPtr → Res (Sys × List Int × Int × StPtr)
  | 0, _, s, reqs, status => .ok (s, reqs, 0, status)
  | n + 1, i, s, reqs, status => do
    let h ← rd reqs i
    let r ← MPI_Test s h status
    if r.flag ≠ 0 then return (r.sys, reqs.set i r.request, r.flag, r.status)
    else testanyLoop n (i + 1) r.sys (reqs.set i r.request) r.status

/-- req.c:126-143 `MPI_Testany`: state, array, `*index`, `*flag`, `*status`.  `*index` (value `index`
before the call) is never written. -/
def MPI_Testany (s : Sys) (count : Int) (reqs : List Int) (index : Int) (status : StPtr) :
    Res (Sys × List Int × Int × Int × StPtr) := do
  let (s, reqs, flag, status) ← testanyLoop count.toNat 0 s reqs status
  return (s, reqs, index, flag, status)

/-- req.c:93-110 `MPI_Waitany`: state, array, `*index`, `*status`. -/
def MPI_Waitany (s : Sys) (count : Int) (reqs : List Int) (index : Int) (status : StPtr) :
    Res (Sys × List Int × Int × StPtr) := do
  let (s, reqs, index, flag, status) ← MPI_Testany s count reqs index status
  if flag = 0 then .abort "MPI_Waitany: no requests complete, deadlock"
  else return (s, reqs, index, status)

/-- req.c:166-172 loop of `MPI_Testall`: the condition tests the pointer `flag`, which is not null,
so the loop never stops early. -/
def testallLoop : Nat → Nat → Sys → List Int → StArr → Int → Res (ArrRes × Int)
  | 0, _, s, reqs, sts, flag => .ok (⟨s, reqs, sts⟩, flag)
  | n + 1, i, s, reqs, sts, flag => do
    let h ← rd reqs i
    let p ← StArr.at sts i
    let r ← MPI_Test s h p
    testallLoop n (i + 1) r.sys (reqs.set i r.request) (StArr.upd sts i r.status)
      (if r.flag = 0 then 0 else flag)

/-- req.c:158-175 `MPI_Testall`. -/
def MPI_Testall (s : Sys) (count : Int) (reqs : List Int) (sts : StArr) : Res (ArrRes × Int) :=
  testallLoop count.toNat 0 s reqs sts 1

/-- req.c:199-208 loop of `MPI_Waitall`. -/
def waitallLoop : Nat → Nat → Sys → List Int → StArr → Res ArrRes
  | 0, _, s, reqs, sts => .ok ⟨s, reqs, sts⟩
  | n + 1, i, s, reqs, sts => do
    let h ← rd reqs i
    let p ← StArr.at sts i
    let r ← MPI_Test s h p
    if r.flag = 0 then .abort "MPI_Waitall: request not complete, deadlock"
    else waitallLoop n (i + 1) r.sys (reqs.set i r.request) (StArr.upd sts i r.status)

/-- req.c:193-211 `MPI_Waitall`. -/
def MPI_Waitall (s : Sys) (count : Int) (reqs : List Int) (sts : StArr) : Res ArrRes :=
  waitallLoop count.toNat 0 s reqs sts

/-- req.c:233-240 loop of `MPI_Testsome`. -/
def testsomeLoop : Nat → Nat → Sys → List Int → StArr → Int → Res (ArrRes × Int)
  | 0, _, s, reqs, sts, outcount => .ok (⟨s, reqs, sts⟩, outcount)
  | n + 1, i, s, reqs, sts, outcount => do
    let h ← rd reqs i
    let p ← StArr.at sts i
    let r ← MPI_Test s h p
    testsomeLoop n (i + 1) r.sys (reqs.set i r.request) (StArr.upd sts i r.status)
      (if r.flag = 0 then outcount else outcount + 1)

/-- Results of MPI_Testsome and MPI_Waitsome. -/
structure SomeRes where
  arr : ArrRes
  outcount : Int
  indices : List Int

/-- req.c:226-244 `MPI_Testsome`.  `array_of_indices` (`indices` before the call) is never written. -/
def MPI_Testsome (s : Sys) (incount : Int) (reqs : List Int) (indices : List Int) (sts : StArr) : Res SomeRes := do
  let (a, outcount) ← testsomeLoop incount.toNat 0 s reqs sts 0
  return ⟨a, outcount, indices⟩

/-- req.c:259-272 `MPI_Waitsome`: line 265 tests the pointer `outcount`, which is not null, so the
call never aborts. -/
def MPI_Waitsome (s : Sys) (incount : Int) (reqs : List Int) (indices : List Int) (sts : StArr) : Res SomeRes :=
  MPI_Testsome s incount reqs indices sts

end MpiSerial
