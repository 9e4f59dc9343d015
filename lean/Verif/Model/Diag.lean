import Verif.Model.P2P

/-!
# send.c, recv.c compiled with INFO or DEBUG

The preprocessor symbols INFO and DEBUG add statements that print.  Here are the functions that contain such
statements, with everything these statements read; the text printed is left out.  (The other printing
statements, comm.c:136-139 with INFO and handles.c:219-223 with HANDLE_INFO, read nothing but a
variable just written and a counter.  probe.c:31-35 does not compile with INFO: it mentions parameters MPI_Iprobe does
not have; so INFO can only be defined for the other files.)

`*((int *)buf)` is a read of 4 bytes; alignment is not considered.
-/

set_option autoImplicit false

namespace MpiSerial

/-- Which of the two symbols are defined. -/
structure Build where
  info : Bool
  debug : Bool
  deriving DecidableEq, Repr

namespace Diag

/-- Value of `*((int *)buf)` as an argument of printf. -/
def readInt (s : Sys) (buf : Int) : Res Unit := if s.mem.readable buf 4 then .ok () else .ub .memAccess

/-- recv.c:147-151 `print_item` -/
def print_item (s : Sys) (item : Loc) : Res Int := do
  let _ ← s.req (some item)
  return 0

/-- recv.c:154-163 `print_list` -/
def print_list (s : Sys) (list : Nat) : Res Unit := do
  let _ ← AP_list_apply s.lists list (print_item s)
  return ()

/-- `mycomm->num` as an argument of fprintf -/
def readNum (s : Sys) (mycomm : Option Loc) : Res Unit := do
  let _ ← s.comm mycomm
  return ()

/-- `rreq->tag` as an argument of printf -/
def readTag (s : Sys) (rreq : Loc) : Res Unit := do
  let _ ← s.req (some rreq)
  return ()

/-- A statement that is there only if the symbol is defined. -/
def only (defined : Bool) (x : Res Unit) : Res Unit := if defined then x else .ok ()

/-- send.c:67-83 -/
def sendMatched (b : Build) (env : Env) (s : Sys) (buf count datatype tag : Int) (recvlist : Nat) (item : Nat)
    (sreq : Loc) : Res Sys := do
  let rreq ← AP_listitem_data s.lists item
  let s ← MpiSerial.sendMatched env s buf count datatype tag recvlist item sreq
  only b.debug (readInt s buf)
  only b.debug (readTag s rreq)
  return s

/-- send.c:36-95 `MPI_Isend` -/
def MPI_Isend (b : Build) (env : Env) (s : Sys) (buf count datatype dest tag comm : Int) : Res (Sys × Int) := do
  let (s, mycomm) ← s.ptr comm
  only b.info (readNum s mycomm)
  if dest ≠ 0 ∧ dest ≠ MPI_PROC_NULL then .abort "MPI_Isend: send to"
  else do
    let (s, request, sreq) ← s.allocReq env
    if dest = MPI_PROC_NULL then do
      let s ← s.modReq sreq (fun r => { r with complete := 1 })
      return (s, request)
    else do
      let c ← s.comm mycomm
      let found ← AP_list_search_func s.lists c.recvlist (mpi_match_recv s tag)
      match found with
      | some item => do
        let s ← sendMatched b env s buf count datatype tag c.recvlist item sreq
        return (s, request)
      | none => do
        let s ← sendQueued s buf tag c.sendlist sreq
        only b.info (print_list s c.sendlist)
        only b.info (readNum s mycomm)
        return (s, request)

/-- recv.c:77-94 -/
def recvMatched (b : Build) (env : Env) (s : Sys) (buf count datatype : Int) (sendlist : Nat) (item : Nat)
    (rreq : Loc) : Res Sys := do
  let s ← MpiSerial.recvMatched env s buf count datatype sendlist item rreq
  only b.debug (readInt s buf)
  only b.debug (readTag s rreq)
  return s

/-- recv.c:40-106 `MPI_Irecv` -/
def MPI_Irecv (b : Build) (env : Env) (s : Sys) (buf count datatype source tag comm : Int) : Res (Sys × Int) := do
  let (s, mycomm) ← s.ptr comm
  only b.info (readNum s mycomm)
  if source ≠ 0 ∧ source ≠ MPI_ANY_SOURCE ∧ source ≠ MPI_PROC_NULL then
    .abort "MPI_Irecv: bad source"
  else do
    let (s, request, rreq) ← s.allocReq env
    let s ← s.modReq rreq (fun r => { r with type := datatype, count := count })
    if source = MPI_PROC_NULL then do
      let s ← s.modReq rreq (fun r =>
        { r with complete := 1, source := MPI_PROC_NULL, tag := MPI_ANY_TAG })
      return (s, request)
    else do
      let c ← s.comm mycomm
      let found ← AP_list_search_func s.lists c.sendlist (mpi_match_send s tag)
      match found with
      | some item => do
        let s ← recvMatched b env s buf count datatype c.sendlist item rreq
        return (s, request)
      | none => do
        let s ← recvQueued s buf tag c.recvlist rreq
        only b.info (print_list s c.recvlist)
        only b.info (readNum s mycomm)
        return (s, request)

/-- send.c:110-125 `MPI_Send`, also MPI_Ssend and MPI_Rsend -/
def MPI_Send (b : Build) (env : Env) (s : Sys) (buf count datatype dest tag comm : Int) : Res Sys := do
  let (s, request) ← MPI_Isend b env s buf count datatype dest tag comm
  let (s, _, _) ← MPI_Wait s request (.obj ⟨0, 0, 0, 0⟩)
  return s

/-- send.c:188-211 `MPI_Irsend` -/
def MPI_Irsend (b : Build) (env : Env) (s : Sys) (buf count datatype dest tag comm : Int) : Res (Sys × Int) := do
  let (s, request) ← MPI_Isend b env s buf count datatype dest tag comm
  let (s, req) ← s.ptr request
  let r ← s.req req
  if r.complete = 0 then .abort "MPI_Irsend: no matching receive found"
  else return (s, request)

/-- recv.c:123-141 `MPI_Recv` -/
def MPI_Recv (b : Build) (env : Env) (s : Sys) (buf count datatype source tag comm : Int) (status : StPtr) :
    Res (Sys × StPtr) := do
  let (s, request) ← MPI_Irecv b env s buf count datatype source tag comm
  let (s, _, status) ← MPI_Wait s request status
  match status with
  | .null => return (s, .null)
  | .obj st => return (s, .obj { st with get_count := count })
  | .bad => .ub .memAccess

/-- send.c:233-250 `MPI_Sendrecv` -/
def MPI_Sendrecv (b : Build) (env : Env) (s : Sys) (sendbuf sendcount sendtype dest sendtag recvbuf recvcount
    recvtype source recvtag comm : Int) (status : StPtr) : Res (Sys × StPtr) := do
  let (s, request) ← MPI_Irecv b env s recvbuf recvcount recvtype source recvtag comm
  let s ← MPI_Send b env s sendbuf sendcount sendtype dest sendtag comm
  let (s, _, status) ← MPI_Wait s request status
  return (s, status)

end Diag

end MpiSerial
