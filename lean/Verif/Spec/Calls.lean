import Verif.Spec.Arrays
import Verif.Spec.Coll
import Verif.Spec.Fate
import Verif.Model.Misc

/-!
# Programs as sequences of calls

`Call` has one constructor for every modelled function of the C interface that looks at or changes the
state of the library (the Fortran bindings call these).  The results of a call are forgotten here: a history
is a list of calls with arbitrary arguments.
-/

set_option autoImplicit false

namespace MpiSerial

inductive Call where
  /-- the program itself changes its memory -/
  | store (m : Mem)
  | init
  | initThread (required : Int)
  /-- the Fortran MPI_INIT and MPI_INIT_THREAD (mpi.c:29, fort.F90) -/
  | fortInit (a : FortArgs)
  | initialized
  | finalize
  | abort (comm code : Int)
  | commDup (comm : Int)
  | commCreate (comm group : Int)
  | commSplit (comm color key : Int)
  | intercommCreate (localComm localLeader peerComm remoteLeader tag : Int)
  | cartCreate (comm ndims : Int) (dims : List Int)
  | commFree (comm : Int)
  | isend (buf count dtype dest tag comm : Int)
  | irsend (buf count dtype dest tag comm : Int)
  /-- MPI_Send, MPI_Ssend, MPI_Rsend -/
  | send (buf count dtype dest tag comm : Int)
  | irecv (buf count dtype source tag comm : Int)
  | recv (buf count dtype source tag comm : Int) (st : StPtr)
  | sendrecv (sbuf scount stype dest stag rbuf rcount rtype source rtag comm : Int) (st : StPtr)
  | iprobe (source tag comm : Int) (st : StPtr)
  | probe (source tag comm : Int) (st : StPtr)
  | test (req : Int) (st : StPtr)
  | wait (req : Int) (st : StPtr)
  | requestFree (req : Int)
  | testany (count : Int) (reqs : List Int) (index : Int) (st : StPtr)
  | waitany (count : Int) (reqs : List Int) (index : Int) (st : StPtr)
  | testall (count : Int) (reqs : List Int) (sts : StArr)
  | waitall (count : Int) (reqs : List Int) (sts : StArr)
  | testsome (count : Int) (reqs indices : List Int) (sts : StArr)
  | waitsome (count : Int) (reqs indices : List Int) (sts : StArr)
  | typeContiguous (count old : Int)
  | typeHvector (count blocklen stride old : Int)
  | typeVector (count blocklen stride old : Int)
  | typeHindexed (count : Int) (blocklens disps : List Int) (old : Int)
  | typeIndexed (count : Int) (blocklens disps : List Int) (old : Int)
  | typeIndexedBlock (count blocklen : Int) (disps : List Int) (old : Int)
  | typeStruct (count : Int) (blocklens disps olds : List Int)
  | typeCommit (t : Int)
  | typeFree (t : Int)
  | typeExtent (t : Int)
  | typeSize (t : Int)
  | typeLb (t : Int)
  | typeUb (t : Int)
  | getElements (st : Status) (t : Int)
  | pack (inbuf incount t outbuf outsize position comm : Int)
  | packSize (incount t comm : Int)
  | unpack (inbuf insize position outbuf outcount t comm : Int)
  | barrier (comm : Int)
  | bcast (buf count t root comm : Int)
  | gather (sbuf scount stype rbuf rcount rtype root comm : Int)
  | gatherv (sbuf scount stype rbuf : Int) (rcounts displs : List Int) (rtype root comm : Int)
  | allgather (sbuf scount stype rbuf rcount rtype comm : Int)
  | allgatherv (sbuf scount stype rbuf : Int) (rcounts displs : List Int) (rtype comm : Int)
  | scatter (sbuf scount stype rbuf rcount rtype root comm : Int)
  | scatterv (sbuf : Int) (scounts displs : List Int) (stype rbuf rcount rtype root comm : Int)
  | reduce (sbuf rbuf count t op root comm : Int)
  | allreduce (sbuf rbuf count t op comm : Int)
  | reduceScatter (sbuf rbuf : Int) (rcounts : List Int) (t op comm : Int)
  | scan (sbuf rbuf count t op comm : Int)
  | alltoall (sbuf scount stype rbuf rcount rtype comm : Int)
  | alltoallv (sbuf : Int) (scounts sdispls : List Int) (stype rbuf : Int) (rcounts rdispls : List Int)
      (rtype comm : Int)
  | alltoallw (sbuf : Int) (scounts sdispls stypes : List Int) (rbuf : Int) (rcounts rdispls rtypes : List Int)
      (comm : Int)

/-- What a call does to the state of the library and to memory. -/
def Call.exec (env : Env) (s : Sys) : Call → Res Sys
  | .store m => .ok { s with mem := m }
  | .init => MPI_Init s
  | .initThread r => MPI_Init_thread s r >>= fun x => .ok x.1
  | .fortInit a => mpi_init_fort env a s
  | .initialized => .ok s
  | .finalize => .ok (MPI_Finalize s)
  | .abort comm code => MPI_Abort comm code >>= fun _ => .ok s
  | .commDup c => MPI_Comm_dup s c >>= fun x => .ok x.1
  | .commCreate c g => MPI_Comm_create s c g >>= fun x => .ok x.1
  | .commSplit c color key => MPI_Comm_split s c color key >>= fun x => .ok x.1
  | .intercommCreate a b c d e => MPI_Intercomm_create s a b c d e >>= fun x => .ok x.1
  | .cartCreate c n dims => MPI_Cart_create s c n dims >>= fun x => .ok x.1
  | .commFree c => MPI_Comm_free s c >>= fun x => .ok x.1
  | .isend b n t d g c => MPI_Isend env s b n t d g c >>= fun x => .ok x.1
  | .irsend b n t d g c => MPI_Irsend env s b n t d g c >>= fun x => .ok x.1
  | .send b n t d g c => MPI_Send env s b n t d g c
  | .irecv b n t d g c => MPI_Irecv env s b n t d g c >>= fun x => .ok x.1
  | .recv b n t d g c st => MPI_Recv env s b n t d g c st >>= fun x => .ok x.1
  | .sendrecv b n t d g b' n' t' d' g' c st => MPI_Sendrecv env s b n t d g b' n' t' d' g' c st >>= fun x => .ok x.1
  | .iprobe d g c st => MPI_Iprobe s d g c st >>= fun x => .ok x.1
  | .probe d g c st => MPI_Probe s d g c st >>= fun x => .ok x.1
  | .test r st => MPI_Test s r st >>= fun x => .ok x.sys
  | .wait r st => MPI_Wait s r st >>= fun x => .ok x.1
  | .requestFree r => MPI_Request_free s r >>= fun x => .ok x.1
  | .testany n rs i st => MPI_Testany s n rs i st >>= fun x => .ok x.1
  | .waitany n rs i st => MPI_Waitany s n rs i st >>= fun x => .ok x.1
  | .testall n rs sts => MPI_Testall s n rs sts >>= fun x => .ok x.1.sys
  | .waitall n rs sts => MPI_Waitall s n rs sts >>= fun x => .ok x.sys
  | .testsome n rs ix sts => MPI_Testsome s n rs ix sts >>= fun x => .ok x.arr.sys
  | .waitsome n rs ix sts => MPI_Waitsome s n rs ix sts >>= fun x => .ok x.arr.sys
  | .typeContiguous n t => MPI_Type_contiguous env s n t >>= fun x => .ok x.1
  | .typeHvector n b d t => MPI_Type_hvector env s n b d t >>= fun x => .ok x.1
  | .typeVector n b d t => MPI_Type_vector env s n b d t >>= fun x => .ok x.1
  | .typeHindexed n b d t => MPI_Type_hindexed env s n b d t >>= fun x => .ok x.1
  | .typeIndexed n b d t => MPI_Type_indexed env s n b d t >>= fun x => .ok x.1
  | .typeIndexedBlock n b d t => MPI_Type_create_indexed_block env s n b d t >>= fun x => .ok x.1
  | .typeStruct n b d t => MPI_Type_struct env s n b d t >>= fun x => .ok x.1
  | .typeCommit t => MPI_Type_commit env s t
  | .typeFree t => MPI_Type_free s t
  | .typeExtent t => MPI_Type_extent env s t >>= fun x => .ok x.1
  | .typeSize t => MPI_Type_size env s t >>= fun x => .ok x.1
  | .typeLb t => MPI_Type_lb env s t >>= fun x => .ok x.1
  | .typeUb t => MPI_Type_ub env s t >>= fun x => .ok x.1
  | .getElements st t => MPI_Get_elements env s st t >>= fun x => .ok x.1
  | .pack a b t c d e comm => MPI_Pack env s a b t c d e comm >>= fun x => .ok x.1
  | .packSize n t comm => MPI_Pack_size env s n t comm >>= fun x => .ok x.1
  | .unpack a b c d e t comm => MPI_Unpack env s a b c d e t comm >>= fun x => .ok x.1
  | .barrier c => MPI_Barrier s c
  | .bcast b n t r c => MPI_Bcast s b n t r c
  | .gather a b c d e f r comm => MPI_Gather env s a b c d e f r comm
  | .gatherv a b c d e f g r comm => MPI_Gatherv env s a b c d e f g r comm
  | .allgather a b c d e f comm => MPI_Allgather env s a b c d e f comm
  | .allgatherv a b c d e f g comm => MPI_Allgatherv env s a b c d e f g comm
  | .scatter a b c d e f r comm => MPI_Scatter env s a b c d e f r comm
  | .scatterv a b c d e f g r comm => MPI_Scatterv env s a b c d e f g r comm
  | .reduce a b n t op r comm => MPI_Reduce env s a b n t op r comm
  | .allreduce a b n t op comm => MPI_Allreduce env s a b n t op comm
  | .reduceScatter a b n t op comm => MPI_Reduce_scatter env s a b n t op comm
  | .scan a b n t op comm => MPI_Scan env s a b n t op comm
  | .alltoall a b c d e f comm => MPI_Alltoall env s a b c d e f comm
  | .alltoallv a b c d e f g h comm => MPI_Alltoallv env s a b c d e f g h comm
  | .alltoallw a b c d e f g h comm => MPI_Alltoallw env s a b c d e f g h comm

/-- Calls one after the other. -/
def execAll (env : Env) : List Call → Sys → Res Sys
  | [], s => .ok s
  | c :: cs, s => c.exec env s >>= execAll env cs

/-! ## C43 -/

def Call.isInit : Call → Bool
  | .init => true
  | .initThread _ => true
  | .fortInit _ => true
  | _ => false

def Call.isFinalize : Call → Bool
  | .finalize => true
  | _ => false

/-- The last MPI_Init/MPI_Init_thread in the list has not been followed by MPI_Finalize. -/
def StillInitialized (cs : List Call) : Prop :=
  ∃ before c after, cs = before ++ c :: after ∧ c.isInit = true ∧ ∀ d ∈ after, d.isFinalize = false

/-! ## C44 -/

/-- Undefined behaviour in handle, queue and descriptor management, or an endless loop. -/
def Corrupt : Fate → Prop
  | .hang => True
  | .ub .nullPtr => True
  | .ub .badPtr => True
  | .ub .badFree => True
  | .ub .kind => True
  | _ => False

def IsComm (L : Ledger) (h : Int) : Prop := ∃ c, (h, Obj.comm c) ∈ L.objs

/-- Operation `o` is pending on a communicator that exists. -/
def InFlight (L : Ledger) (o : Op) : Prop := o ∈ L.ops ∧ o.st = .pending ∧ ∃ h, (h, Obj.comm o.cid) ∈ L.objs

/-- Arguments of a point-to-point operation: a live communicator (or none, for MPI_PROC_NULL) and a
datatype. -/
def P2PArgs (env : Env) (L : Ledger) (dtype peer comm : Int) : Prop :=
  IsType env L dtype ∧ (IsComm L comm ∨ (comm = MPI_COMM_NULL ∧ peer = MPI_PROC_NULL))

/-- A call a correct program may make: handles are live and of the right kind, counts of datatype
constructors are not negative, arrays have the announced length, a pending request is not released, and
nothing in use by pending traffic is freed. -/
def Call.Wf (env : Env) (L : Ledger) : Call → Prop
  | .fortInit a => ∀ n ∈ ["MPI_INTEGER", "MPI_LOGICAL", "MPI_REAL", "MPI_DOUBLE_PRECISION", "MPI_COMPLEX"],
      -45 ≤ a.const n ∧ a.const n < 0
  | .commFree h => ∃ c, (h, Obj.comm c) ∈ L.objs ∧ ∀ o ∈ L.ops, o.st = .pending → o.cid ≠ c
  | .isend _ _ t d _ c | .irsend _ _ t d _ c | .send _ _ t d _ c => P2PArgs env L t d c
  | .irecv _ _ t d _ c | .recv _ _ t d _ c _ => P2PArgs env L t d c
  | .sendrecv _ _ t d _ _ _ t' d' _ c _ => P2PArgs env L t d c ∧ P2PArgs env L t' d' c
  | .iprobe _ _ c _ | .probe _ _ c _ => IsComm L c
  | .test r _ | .wait r _ => r = MPI_REQUEST_NULL ∨ ∃ i, (r, Obj.req i) ∈ L.objs
  | .requestFree r => ∃ i o, (r, Obj.req i) ∈ L.objs ∧ L.ops[i]? = some o ∧ o.st ≠ .pending
  | .testany n rs _ _ | .waitany n rs _ _ => n = rs.length ∧ WfReqs L rs
  | .testall n rs _ | .waitall n rs _ => n = rs.length ∧ WfReqs L rs
  | .testsome n rs _ _ | .waitsome n rs _ _ => n = rs.length ∧ WfReqs L rs
  | .typeContiguous n t => 0 ≤ n ∧ IsType env L t
  | .typeHvector n b _ t | .typeVector n b _ t => 0 ≤ n ∧ 0 ≤ b ∧ IsType env L t
  | .typeHindexed n b d t | .typeIndexed n b d t =>
      n = b.length ∧ n = d.length ∧ (∀ x ∈ b, 0 ≤ x) ∧ IsType env L t
  | .typeIndexedBlock n b d t => n = d.length ∧ 0 ≤ b ∧ IsType env L t
  | .typeStruct n b d ts =>
      n = b.length ∧ n = d.length ∧ n = ts.length ∧ (∀ x ∈ b, 0 ≤ x) ∧ ∀ t ∈ ts, IsType env L t
  | .typeCommit t => IsType env L t
  | .typeFree h => (∃ t, (h, Obj.dtype t) ∈ L.objs) ∧ ∀ o, InFlight L o → o.dtype ≠ h
  | .typeExtent t | .typeSize t | .typeLb t | .typeUb t | .getElements _ t => IsType env L t
  | .pack _ _ t _ _ _ c | .packSize _ t c | .unpack _ _ _ _ _ t c => IsType env L t ∧ IsComm L c
  | .gather _ _ t _ _ t' _ _ | .gatherv _ _ t _ _ _ t' _ _ | .allgather _ _ t _ _ t' _
  | .allgatherv _ _ t _ _ _ t' _ | .scatter _ _ t _ _ t' _ _ | .scatterv _ _ _ t _ _ t' _ _
  | .alltoall _ _ t _ _ t' _ | .alltoallv _ _ _ t _ _ _ t' _ => IsType env L t ∧ IsType env L t'
  | .reduce _ _ _ t _ _ _ | .allreduce _ _ _ t _ _ | .reduceScatter _ _ _ t _ _ | .scan _ _ _ t _ _ => IsType env L t
  | .alltoallw _ _ _ ts _ _ _ ts' _ => (∀ t ∈ ts, IsType env L t) ∧ ∀ t ∈ ts', IsType env L t
  | .store _ | .init | .initThread _ | .initialized | .finalize | .abort _ _ | .commDup _ | .commCreate _ _
  | .commSplit _ _ _ | .intercommCreate _ _ _ _ _ | .cartCreate _ _ _ | .barrier _ | .bcast _ _ _ _ _ => True

/-- The C `int` counters of the library have room for one more call: fewer than 2^31-1 communicators
were ever created (comm.c:17), fewer than 2^30-1 of them are left (two lists each, list.c:21-22), fewer than
2^31-2 operations are unmatched (list.c:22; MPI_Sendrecv posts two). -/
def Room (L : Ledger) : Prop :=
  L.ncomms < 2147483647 ∧ L.ncomms - L.nfreed < 1073741823 ∧ L.unmatched + 1 < 2147483647

instance (L : Ledger) : Decidable (Room L) := by unfold Room; infer_instance

/-- Histories of well-formed calls.  `L` is an account of what the calls did (`Steps`). -/
inductive WfReach (env : Env) : Sys → Ledger → Prop
  | start {m : Mem} : WfReach env (Sys.start m) .start
  | call {s s' : Sys} {L L' : Ledger} {c : Call} : WfReach env s L → Room L → c.Wf env L → c.exec env s = .ok s' →
      Steps env s L s' L' → WfReach env s' L'

end MpiSerial
