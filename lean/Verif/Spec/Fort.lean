import Verif.Model.Fort
import Verif.Spec.Fate
import Verif.Spec.Calls

/-!
# What a Fortran call means

Fortran passes every argument by reference.  `FCall.meaning` says for each MPI subroutine which variables are read
(INTEGER: 4 bytes, INTEGER(KIND=MPI_ADDRESS_KIND): 8 bytes, arrays of them, statuses of MPI_STATUS_SIZE = 4
INTEGERs), which C function is performed on their values, and which variables receive the results; `ierror` receives
MPI_SUCCESS.  Address-sized arguments are of kind MPI_ADDRESS_KIND (mpif.F90:8) as in the library's own tests
(tests/ftest.F90).

`Wrote` says what it means that variables receive values, byte by byte.
-/

set_option autoImplicit false

namespace MpiSerial

namespace Spec.Fort

/-- Unsigned number in the four bytes at `p`. -/
def word (bo : ByteOrder) (m : Mem) (p : Int) : Option Nat :=
  match m p, m (p + 1), m (p + 2), m (p + 3) with
  | some a, some b, some c, some d =>
    match bo with
    | .little => some (a.toNat + 256 * b.toNat + 65536 * c.toNat + 16777216 * d.toNat)
    | .big => some (16777216 * a.toNat + 65536 * b.toNat + 256 * c.toNat + d.toNat)
  | _, _, _, _ => none

/-- Value of the INTEGER at `p` (two's complement). -/
def intAt (bo : ByteOrder) (m : Mem) (p : Int) : Option Int :=
  (word bo m p).map fun (n : Nat) => if n < 2147483648 then (n : Int) else (n : Int) - 4294967296

/-- Value of the INTEGER(KIND=MPI_ADDRESS_KIND) at `p`, as an MPI_Aint (which is unsigned, mpi.h:66). -/
def addrAt (bo : ByteOrder) (m : Mem) (p : Int) : Option Int :=
  match word bo m p, word bo m (p + 4) with
  | some a, some b =>
    match bo with
    | .little => some ((a : Int) + 4294967296 * b)
    | .big => some (4294967296 * (a : Int) + b)
  | _, _ => none

/-- Values of `n` consecutive INTEGERs. -/
def intsAt (bo : ByteOrder) (m : Mem) (p : Int) (n : Nat) : Option (List Int) :=
  (List.range n).mapM fun (i : Nat) => intAt bo m (p + 4 * i)

/-- Values of `n` consecutive integers of address kind. -/
def addrsAt (bo : ByteOrder) (m : Mem) (p : Int) (n : Nat) : Option (List Int) :=
  (List.range n).mapM fun (i : Nat) => addrAt bo m (p + 8 * i)

/-- The status at `p`. -/
def statusAt (bo : ByteOrder) (m : Mem) (p : Int) : Option Status :=
  match intAt bo m p, intAt bo m (p + 4), intAt bo m (p + 8), intAt bo m (p + 12) with
  | some a, some b, some c, some d => some ⟨a, b, c, d⟩
  | _, _, _, _ => none

/-- A status argument: MPI_STATUS_IGNORE (or no variable at all), or a variable. -/
def statusArg (c : FEnv) (m : Mem) (p : Int) : Option StPtr :=
  if p = c.ptrs.status ∨ p = 0 then some .null else (statusAt c.bo m p).map .obj

/-- An array of `n` statuses: MPI_STATUSES_IGNORE (or none at all), or an array variable. -/
def statusesArg (c : FEnv) (m : Mem) (p : Int) (n : Nat) : Option StArr :=
  if p = c.ptrs.statuses ∨ p = 0 then some none
  else ((List.range n).mapM fun (i : Nat) => statusAt c.bo m (p + 16 * i)).map some

/-- A buffer argument that may be MPI_IN_PLACE. -/
def buffer (c : FEnv) (p : Int) : Int := if p = c.ptrs.in_place then MPI_IN_PLACE else p

/-- Variable (or array) at `addr` with elements of `width` bytes, which receives `vals`. -/
structure Out where
  addr : Int
  width : Nat
  vals : List Int

/-- An INTEGER variable receives `v`. -/
def Out.int (p v : Int) : Out := ⟨p, 4, [v]⟩
/-- An address-kind variable receives `v`. -/
def Out.long (p v : Int) : Out := ⟨p, 8, [v]⟩
/-- An INTEGER array receives `vs`. -/
def Out.ints (p : Int) (vs : List Int) : Out := ⟨p, 4, vs⟩
/-- A status argument receives `st` if it is a variable. -/
def Out.status (p : Int) : StPtr → Out
  | .obj st => ⟨p, 4, [st.MPI_SOURCE, st.MPI_TAG, st.MPI_ERROR, st.get_count]⟩
  | _ => ⟨p, 4, []⟩
/-- A status array receives `sts` if it is a variable. -/
def Out.statuses (p : Int) : StArr → Out
  | some l => ⟨p, 4, l.flatMap fun st => [st.MPI_SOURCE, st.MPI_TAG, st.MPI_ERROR, st.get_count]⟩
  | none => ⟨p, 4, []⟩

/-- Address `a` belongs to the variable. -/
def Out.covers (o : Out) (a : Int) : Prop := o.addr ≤ a ∧ a < o.addr + o.width * o.vals.length

/-- The byte of significance `k` (0: least) of element `i` of the variable. -/
def Out.byteAddr (bo : ByteOrder) (o : Out) (i k : Nat) : Int :=
  match bo with
  | .little => o.addr + o.width * i + k
  | .big => o.addr + o.width * i + (o.width - 1 - k)

/-- In memory `m` the variable holds its values: byte `k` of element `i` is digit `k` in base 256 of the value
(two's complement, i.e. modulo 256^width). -/
def Out.Held (bo : ByteOrder) (m : Mem) (o : Out) : Prop :=
  ∀ i v, o.vals[i]? = some v → ∀ k, k < o.width →
    ∃ b, m (o.byteAddr bo i k) = some b ∧ (b.toNat : Int) = v / 256 ^ k % 256

/-- `m'` is `m` with the variables set, and nothing else changed. -/
structure Wrote (bo : ByteOrder) (m m' : Mem) (outs : List Out) : Prop where
  held : ∀ o ∈ outs, o.Held bo m'
  frame : ∀ a, (∀ o ∈ outs, ¬ o.covers a) → m' a = m a

/-- The variables exist (their memory may be accessed) and do not overlap. -/
structure Variables (m : Mem) (outs : List Out) : Prop where
  accessible : ∀ o ∈ outs, ∀ a, o.covers a → (m a).isSome
  apart : outs.Pairwise fun o o' => ∀ a, o.covers a → ¬ o'.covers a

/-- `r` is what the C side computes: the new state and the values for the variables.  The Fortran call `f`
does the same and sets the variables; if the C side does not return, the Fortran call ends in the same way. -/
def Performs (bo : ByteOrder) (f : Res Sys) (r : Res (Sys × List Out)) : Prop :=
  match r with
  | .ok (s, outs) => ∃ m', f = .ok { s with mem := m' } ∧ Wrote bo s.mem m' outs
  | _ => f.fate = r.fate

end Spec.Fort

open Spec.Fort

/-- Calls of MPI subroutines from Fortran; arguments are addresses. -/
inductive FCall where
  | isend (buf count datatype dest tag comm request ierror : Int)
  | send (buf count datatype dest tag comm ierror : Int)
  | ssend (buf count datatype dest tag comm ierror : Int)
  | rsend (buf count datatype dest tag comm ierror : Int)
  | irsend (buf count datatype dest tag comm request ierror : Int)
  | sendrecv (sendbuf sendcount sendtype dest sendtag recvbuf recvcount recvtype source recvtag comm status ierror : Int)
  | irecv (buf count datatype source tag comm request ierror : Int)
  | recv (buf count datatype source tag comm status ierror : Int)
  | iprobe (source tag comm flag status ierror : Int)
  | probe (source tag comm status ierror : Int)
  | getCount (status datatype count ierror : Int)
  | getElements (status datatype count ierror : Int)
  | test (request flag status ierror : Int)
  | wait (request status ierror : Int)
  | waitany (count requests index status ierror : Int)
  | testany (count requests index flag status ierror : Int)
  | testall (count requests flag statuses ierror : Int)
  | waitall (count requests statuses ierror : Int)
  | testsome (incount requests outcount indices statuses ierror : Int)
  | waitsome (incount requests outcount indices statuses ierror : Int)
  | requestFree (request ierror : Int)
  | commFree (comm ierror : Int)
  | commSize (comm size ierror : Int)
  | commRank (comm rank ierror : Int)
  | commDup (comm newcomm ierror : Int)
  | commCreate (comm group newcomm ierror : Int)
  | commSplit (comm color key newcomm ierror : Int)
  | commGroup (comm group ierror : Int)
  | intercommCreate (localComm localLeader peerComm remoteLeader tag newintercomm ierror : Int)
  | groupIncl (group n ranks newgroup ierror : Int)
  | groupRangeIncl (group n ranges newgroup ierror : Int)
  | groupUnion (group1 group2 newgroup ierror : Int)
  | groupIntersection (group1 group2 newgroup ierror : Int)
  | groupDifference (group1 group2 newgroup ierror : Int)
  | groupFree (group ierror : Int)
  | groupTranslateRanks (group1 n ranks1 group2 ranks2 ierror : Int)
  | cartCreate (commOld ndims dims periods reorder commCart ierror : Int)
  | cartGet (comm maxdims dims periods coords ierror : Int)
  | cartCoords (comm rank maxdims coords ierror : Int)
  | dimsCreate (nnodes ndims dims ierror : Int)
  | barrier (comm ierror : Int)
  | bcast (buffer count datatype root comm ierror : Int)
  | gather (sendbuf sendcount sendtype recvbuf recvcount recvtype root comm ierror : Int)
  | gatherv (sendbuf sendcount sendtype recvbuf recvcounts displs recvtype root comm ierror : Int)
  | allgather (sendbuf sendcount sendtype recvbuf recvcount recvtype comm ierror : Int)
  | allgatherv (sendbuf sendcount sendtype recvbuf recvcounts displs recvtype comm ierror : Int)
  | scatter (sendbuf sendcount sendtype recvbuf recvcount recvtype root comm ierror : Int)
  | scatterv (sendbuf sendcounts displs sendtype recvbuf recvcount recvtype root comm ierror : Int)
  | reduce (sendbuf recvbuf count datatype op root comm ierror : Int)
  | allreduce (sendbuf recvbuf count datatype op comm ierror : Int)
  | reduceScatter (sendbuf recvbuf recvcounts datatype op comm ierror : Int)
  | scan (sendbuf recvbuf count datatype op comm ierror : Int)
  | alltoall (sendbuf sendcount sendtype recvbuf recvcount recvtype comm ierror : Int)
  | alltoallv (sendbuf sendcounts sdispls sendtype recvbuf recvcounts rdispls recvtype comm ierror : Int)
  | alltoallw (sendbuf sendcounts sdispls sendtypes recvbuf recvcounts rdispls recvtypes comm ierror : Int)
  | typeExtent (datatype extent ierror : Int)
  | typeStruct (count blocklens displacements oldtypes newtype ierror : Int)
  | typeContiguous (count oldtype newtype ierror : Int)
  | typeHvector (count blocklen stride oldtype newtype ierror : Int)
  | typeCreateHvector (count blocklen stride oldtype newtype ierror : Int)
  | typeVector (count blocklen stride oldtype newtype ierror : Int)
  | typeHindexed (count blocklens displacements oldtype newtype ierror : Int)
  | typeIndexed (count blocklens displacements oldtype newtype ierror : Int)
  | typeCreateIndexedBlock (count blocklen displacements oldtype newtype ierror : Int)
  | typeSize (datatype size ierror : Int)
  | typeLb (datatype lb ierror : Int)
  | typeUb (datatype ub ierror : Int)
  | getAddress (location address ierror : Int)
  | address (location address ierror : Int)
  | typeCommit (datatype ierror : Int)
  | typeFree (datatype ierror : Int)
  | pack (inbuf incount datatype outbuf outsize position comm ierror : Int)
  | packSize (incount datatype comm size ierror : Int)
  | unpack (inbuf insize position outbuf outcount datatype comm ierror : Int)
  | finalize (ierror : Int)
  | abort (comm errorcode ierror : Int)
  | initialized (flag ierror : Int)
  | getVersion (version subversion ierror : Int)
  | opCreate (func commute op ierror : Int)
  | opFree (op ierror : Int)
  | infoCreate (info ierror : Int)
  | infoSet (info key value ierror : Int)
  | infoFree (info ierror : Int)

/-- The binding that a Fortran program calls. -/
def FCall.exec (c : FEnv) (s : Sys) : FCall → Res Sys
  | .isend b n t d g k r e => Bind.mpi_isend c s b n t d g k r e
  | .send b n t d g k e => Bind.mpi_send c s b n t d g k e
  | .ssend b n t d g k e => Bind.mpi_ssend c s b n t d g k e
  | .rsend b n t d g k e => Bind.mpi_rsend c s b n t d g k e
  | .irsend b n t d g k r e => Bind.mpi_irsend c s b n t d g k r e
  | .sendrecv b n t d g b' n' t' d' g' k st e => Bind.mpi_sendrecv c s b n t d g b' n' t' d' g' k st e
  | .irecv b n t d g k r e => Bind.mpi_irecv c s b n t d g k r e
  | .recv b n t d g k st e => Bind.mpi_recv c s b n t d g k st e
  | .iprobe d g k b st e => Bind.mpi_iprobe c s d g k b st e
  | .probe d g k st e => Bind.mpi_probe c s d g k st e
  | .getCount st t n e => Bind.mpi_get_count c s st t n e
  | .getElements st t n e => Bind.mpi_get_elements c s st t n e
  | .test r b st e => Bind.mpi_test c s r b st e
  | .wait r st e => Bind.mpi_wait c s r st e
  | .waitany n rs i st e => Bind.mpi_waitany c s n rs i st e
  | .testany n rs i b st e => Bind.mpi_testany c s n rs i b st e
  | .testall n rs b st e => Bind.mpi_testall c s n rs b st e
  | .waitall n rs st e => Bind.mpi_waitall c s n rs st e
  | .testsome n rs o ix st e => Bind.mpi_testsome c s n rs o ix st e
  | .waitsome n rs o ix st e => Bind.mpi_waitsome c s n rs o ix st e
  | .requestFree r e => Bind.mpi_request_free c s r e
  | .commFree k e => Bind.mpi_comm_free c s k e
  | .commSize k n e => Bind.mpi_comm_size c s k n e
  | .commRank k n e => Bind.mpi_comm_rank c s k n e
  | .commDup k n e => Bind.mpi_comm_dup c s k n e
  | .commCreate k g n e => Bind.mpi_comm_create c s k g n e
  | .commSplit k l y n e => Bind.mpi_comm_split c s k l y n e
  | .commGroup k g e => Bind.mpi_comm_group c s k g e
  | .intercommCreate a b d r g n e => Bind.mpi_intercomm_create c s a b d r g n e
  | .groupIncl g n rs w e => Bind.mpi_group_incl c s g n rs w e
  | .groupRangeIncl g n rs w e => Bind.mpi_group_range_incl c s g n rs w e
  | .groupUnion g h w e => Bind.mpi_group_union c s g h w e
  | .groupIntersection g h w e => Bind.mpi_group_intersection c s g h w e
  | .groupDifference g h w e => Bind.mpi_group_difference c s g h w e
  | .groupFree g e => Bind.mpi_group_free c s g e
  | .groupTranslateRanks g n rs h qs e => Bind.mpi_group_translate_ranks c s g n rs h qs e
  | .cartCreate k n ds ps o w e => Bind.mpi_cart_create c s k n ds ps o w e
  | .cartGet k n ds ps xs e => Bind.mpi_cart_get c s k n ds ps xs e
  | .cartCoords k r n xs e => Bind.mpi_cart_coords c s k r n xs e
  | .dimsCreate k n ds e => Bind.mpi_dims_create c s k n ds e
  | .barrier k e => Bind.mpi_barrier c s k e
  | .bcast b n t r k e => Bind.mpi_bcast c s b n t r k e
  | .gather b n t b' n' t' r k e => Bind.mpi_gather c s b n t b' n' t' r k e
  | .gatherv b n t b' n' d t' r k e => Bind.mpi_gatherv c s b n t b' n' d t' r k e
  | .allgather b n t b' n' t' k e => Bind.mpi_allgather c s b n t b' n' t' k e
  | .allgatherv b n t b' n' d t' k e => Bind.mpi_allgatherv c s b n t b' n' d t' k e
  | .scatter b n t b' n' t' r k e => Bind.mpi_scatter c s b n t b' n' t' r k e
  | .scatterv b n d t b' n' t' r k e => Bind.mpi_scatterv c s b n d t b' n' t' r k e
  | .reduce b b' n t o r k e => Bind.mpi_reduce c s b b' n t o r k e
  | .allreduce b b' n t o k e => Bind.mpi_allreduce c s b b' n t o k e
  | .reduceScatter b b' n t o k e => Bind.mpi_reduce_scatter c s b b' n t o k e
  | .scan b b' n t o k e => Bind.mpi_scan c s b b' n t o k e
  | .alltoall b n t b' n' t' k e => Bind.mpi_alltoall c s b n t b' n' t' k e
  | .alltoallv b n d t b' n' d' t' k e => Bind.mpi_alltoallv c s b n d t b' n' d' t' k e
  | .alltoallw b n d t b' n' d' t' k e => Bind.mpi_alltoallw c s b n d t b' n' d' t' k e
  | .typeExtent t x e => Bind.mpi_type_extent c s t x e
  | .typeStruct n b d t w e => Bind.mpi_type_struct c s n b d t w e
  | .typeContiguous n t w e => Bind.mpi_type_contiguous c s n t w e
  | .typeHvector n b d t w e => Bind.mpi_type_hvector c s n b d t w e
  | .typeCreateHvector n b d t w e => Bind.mpi_type_create_hvector c s n b d t w e
  | .typeVector n b d t w e => Bind.mpi_type_vector c s n b d t w e
  | .typeHindexed n b d t w e => Bind.mpi_type_hindexed c s n b d t w e
  | .typeIndexed n b d t w e => Bind.mpi_type_indexed c s n b d t w e
  | .typeCreateIndexedBlock n b d t w e => Bind.mpi_type_create_indexed_block c s n b d t w e
  | .typeSize t x e => Bind.mpi_type_size c s t x e
  | .typeLb t x e => Bind.mpi_type_lb c s t x e
  | .typeUb t x e => Bind.mpi_type_ub c s t x e
  | .getAddress l x e => Bind.mpi_get_address c s l x e
  | .address l x e => Bind.mpi_address c s l x e
  | .typeCommit t e => Bind.mpi_type_commit c s t e
  | .typeFree t e => Bind.mpi_type_free c s t e
  | .pack a n t b z p k e => Bind.mpi_pack c s a n t b z p k e
  | .packSize n t k z e => Bind.mpi_pack_size c s n t k z e
  | .unpack a z p b n t k e => Bind.mpi_unpack c s a z p b n t k e
  | .finalize e => Bind.mpi_finalize c s e
  | .abort k x e => Bind.mpi_abort c s k x e
  | .initialized b e => Bind.mpi_initialized c s b e
  | .getVersion v w e => Bind.mpi_get_version c s v w e
  | .opCreate f k o e => Bind.mpi_op_create c s f k o e
  | .opFree o e => Bind.mpi_op_free c s o e
  | .infoCreate i e => Bind.mpi_info_create c s i e
  | .infoSet i k v e => Bind.mpi_info_set c s i k v e
  | .infoFree i e => Bind.mpi_info_free c s i e

/-- The effect of a Fortran call according to its interface: `none` if an argument that is read does not exist,
otherwise the outcome of the C function and the values the output variables receive. -/
def FCall.meaning (c : FEnv) (s : Sys) (fc : FCall) : Option (Res (Sys × List Out)) :=
  let int (p : Int) := intAt c.bo s.mem p
  let ints (p n : Int) := intsAt c.bo s.mem p n.toNat
  let addr (p : Int) := addrAt c.bo s.mem p
  let addrs (p n : Int) := addrsAt c.bo s.mem p n.toNat
  let status (p : Int) := statusArg c s.mem p
  let statuses (p n : Int) := statusesArg c s.mem p n.toNat
  let ok (e : Int) := Out.int e 0
  match fc with
  | .isend buf count datatype dest tag comm request e => do
    let n ← int count; let t ← int datatype; let d ← int dest; let g ← int tag; let k ← int comm
    return MPI_Isend c.env s buf n t d g k >>= fun x => .ok (x.1, [Out.int request x.2, ok e])
  | .send buf count datatype dest tag comm e => do
    let n ← int count; let t ← int datatype; let d ← int dest; let g ← int tag; let k ← int comm
    return MPI_Send c.env s buf n t d g k >>= fun x => .ok (x, [ok e])
  | .ssend buf count datatype dest tag comm e => do
    let n ← int count; let t ← int datatype; let d ← int dest; let g ← int tag; let k ← int comm
    return MPI_Ssend c.env s buf n t d g k >>= fun x => .ok (x, [ok e])
  | .rsend buf count datatype dest tag comm e => do
    let n ← int count; let t ← int datatype; let d ← int dest; let g ← int tag; let k ← int comm
    return MPI_Rsend c.env s buf n t d g k >>= fun x => .ok (x, [ok e])
  | .irsend buf count datatype dest tag comm request e => do
    let n ← int count; let t ← int datatype; let d ← int dest; let g ← int tag; let k ← int comm
    return MPI_Irsend c.env s buf n t d g k >>= fun x => .ok (x.1, [Out.int request x.2, ok e])
  | .sendrecv sendbuf sendcount sendtype dest sendtag recvbuf recvcount recvtype source recvtag comm st e => do
    let n ← int sendcount; let t ← int sendtype; let d ← int dest; let g ← int sendtag
    let n' ← int recvcount; let t' ← int recvtype; let d' ← int source; let g' ← int recvtag
    let k ← int comm; let o ← status st
    return MPI_Sendrecv c.env s sendbuf n t d g recvbuf n' t' d' g' k o >>= fun x => .ok (x.1, [Out.status st x.2, ok e])
  | .irecv buf count datatype source tag comm request e => do
    let n ← int count; let t ← int datatype; let d ← int source; let g ← int tag; let k ← int comm
    return MPI_Irecv c.env s buf n t d g k >>= fun x => .ok (x.1, [Out.int request x.2, ok e])
  | .recv buf count datatype source tag comm st e => do
    let n ← int count; let t ← int datatype; let d ← int source; let g ← int tag; let k ← int comm; let o ← status st
    return MPI_Recv c.env s buf n t d g k o >>= fun x => .ok (x.1, [Out.status st x.2, ok e])
  | .iprobe source tag comm flag st e => do
    let d ← int source; let g ← int tag; let k ← int comm; let o ← status st
    return MPI_Iprobe s d g k o >>= fun x => .ok (x.1, [Out.int flag x.2.1, Out.status st x.2.2, ok e])
  | .probe source tag comm st e => do
    let d ← int source; let g ← int tag; let k ← int comm; let o ← status st
    return MPI_Probe s d g k o >>= fun x => .ok (x.1, [Out.status st x.2, ok e])
  | .getCount st datatype count e => do
    let o ← statusAt c.bo s.mem st; let t ← int datatype
    return .ok (s, [Out.int count (MPI_Get_count o t), ok e])
  | .getElements st datatype count e => do
    let o ← statusAt c.bo s.mem st; let t ← int datatype
    return MPI_Get_elements c.env s o t >>= fun x => .ok (x.1, [Out.int count x.2, ok e])
  | .test request flag st e => do
    let r ← int request; let o ← status st
    return MPI_Test s r o >>= fun x => .ok (x.sys, [Out.int request x.request, Out.int flag x.flag, Out.status st x.status, ok e])
  | .wait request st e => do
    let r ← int request; let o ← status st
    return MPI_Wait s r o >>= fun x => .ok (x.1, [Out.int request x.2.1, Out.status st x.2.2, ok e])
  | .waitany count requests index st e => do
    let n ← int count; let rs ← ints requests n; let i ← int index; let o ← status st
    return MPI_Waitany s n rs i o >>= fun x =>
      .ok (x.1, [Out.ints requests x.2.1, Out.int index x.2.2.1, Out.status st x.2.2.2, ok e])
  | .testany count requests index flag st e => do
    let n ← int count; let rs ← ints requests n; let i ← int index; let o ← status st
    return MPI_Testany s n rs i o >>= fun x =>
      .ok (x.1, [Out.ints requests x.2.1, Out.int index x.2.2.1, Out.int flag x.2.2.2.1, Out.status st x.2.2.2.2, ok e])
  | .testall count requests flag sts e => do
    let n ← int count; let rs ← ints requests n; let o ← statuses sts n
    return MPI_Testall s n rs o >>= fun x =>
      .ok (x.1.sys, [Out.ints requests x.1.reqs, Out.int flag x.2, Out.statuses sts x.1.stats, ok e])
  | .waitall count requests sts e => do
    let n ← int count; let rs ← ints requests n; let o ← statuses sts n
    return MPI_Waitall s n rs o >>= fun x => .ok (x.sys, [Out.ints requests x.reqs, Out.statuses sts x.stats, ok e])
  | .testsome incount requests outcount indices sts e => do
    let n ← int incount; let rs ← ints requests n; let ix ← ints indices n; let o ← statuses sts n
    return MPI_Testsome s n rs ix o >>= fun x => .ok (x.arr.sys,
      [Out.ints requests x.arr.reqs, Out.int outcount x.outcount, Out.ints indices x.indices, Out.statuses sts x.arr.stats, ok e])
  | .waitsome incount requests outcount indices sts e => do
    let n ← int incount; let rs ← ints requests n; let ix ← ints indices n; let o ← statuses sts n
    return MPI_Waitsome s n rs ix o >>= fun x => .ok (x.arr.sys,
      [Out.ints requests x.arr.reqs, Out.int outcount x.outcount, Out.ints indices x.indices, Out.statuses sts x.arr.stats, ok e])
  | .requestFree request e => do
    let r ← int request
    return MPI_Request_free s r >>= fun x => .ok (x.1, [Out.int request x.2, ok e])
  | .commFree comm e => do
    let k ← int comm
    return MPI_Comm_free s k >>= fun x => .ok (x.1, [Out.int comm x.2, ok e])
  | .commSize comm size e => do
    let k ← int comm
    return .ok (s, [Out.int size (MPI_Comm_size k), ok e])
  | .commRank comm rank e => do
    let k ← int comm
    return .ok (s, [Out.int rank (MPI_Comm_rank k), ok e])
  | .commDup comm newcomm e => do
    let k ← int comm
    return MPI_Comm_dup s k >>= fun x => .ok (x.1, [Out.int newcomm x.2, ok e])
  | .commCreate comm group newcomm e => do
    let k ← int comm; let g ← int group
    return MPI_Comm_create s k g >>= fun x => .ok (x.1, [Out.int newcomm x.2, ok e])
  | .commSplit comm color key newcomm e => do
    let k ← int comm; let l ← int color; let y ← int key
    return MPI_Comm_split s k l y >>= fun x => .ok (x.1, [Out.int newcomm x.2, ok e])
  | .commGroup comm group e => do
    let k ← int comm
    return .ok (s, [Out.int group (MPI_Comm_group k), ok e])
  | .intercommCreate localComm localLeader peerComm remoteLeader tag newintercomm e => do
    let k ← int localComm; let l ← int localLeader; let p ← int peerComm; let r ← int remoteLeader; let g ← int tag
    return MPI_Intercomm_create s k l p r g >>= fun x => .ok (x.1, [Out.int newintercomm x.2, ok e])
  | .groupIncl group n ranks newgroup e => do
    let g ← int group; let k ← int n; let rs ← ints ranks k
    return MPI_Group_incl g k rs >>= fun x => .ok (s, [Out.int newgroup x, ok e])
  | .groupRangeIncl group n ranges newgroup e => do
    let g ← int group; let k ← int n
    let rs ← (List.range k.toNat).mapM fun (i : Nat) => do
      let a ← int (ranges + 12 * i); let b ← int (ranges + 12 * i + 4); let d ← int (ranges + 12 * i + 8)
      return (a, b, d)
    return MPI_Group_range_incl g k rs >>= fun x => .ok (s, [Out.int newgroup x, ok e])
  | .groupUnion group1 group2 newgroup e => do
    let g ← int group1; let h ← int group2
    return MPI_Group_union g h >>= fun x => .ok (s, [Out.int newgroup x, ok e])
  | .groupIntersection group1 group2 newgroup e => do
    let g ← int group1; let h ← int group2
    return MPI_Group_intersection g h >>= fun x => .ok (s, [Out.int newgroup x, ok e])
  | .groupDifference group1 group2 newgroup e => do
    let g ← int group1; let h ← int group2
    return MPI_Group_difference g h >>= fun x => .ok (s, [Out.int newgroup x, ok e])
  | .groupFree group e => return .ok (s, [Out.int group (MPI_Group_free 0), ok e])
  | .groupTranslateRanks group1 n ranks1 group2 ranks2 e => do
    let g ← int group1; let k ← int n; let rs ← ints ranks1 k; let h ← int group2; let qs ← ints ranks2 k
    return MPI_Group_translate_ranks g k rs h qs >>= fun x => .ok (s, [Out.ints ranks2 x, ok e])
  | .cartCreate commOld ndims dims _ reorder commCart e => do
    let k ← int commOld; let n ← int ndims; let ds ← ints dims n; let _ ← int reorder
    return MPI_Cart_create s k n ds >>= fun x => .ok (x.1, [Out.int commCart x.2, ok e])
  | .cartGet comm maxdims dims periods coords e => do
    let k ← int comm; let n ← int maxdims; let ds ← ints dims n; let ps ← ints periods n; let xs ← ints coords n
    return MPI_Cart_get k n ds ps xs >>= fun x =>
      .ok (s, [Out.ints dims x.1, Out.ints periods x.2.1, Out.ints coords x.2.2, ok e])
  | .cartCoords comm rank maxdims coords e => do
    let k ← int comm; let r ← int rank; let n ← int maxdims; let xs ← ints coords n
    return MPI_Cart_coords k r n xs >>= fun x => .ok (s, [Out.ints coords x, ok e])
  | .dimsCreate nnodes ndims dims e => do
    let k ← int nnodes; let n ← int ndims; let ds ← ints dims n
    return MPI_Dims_create k n ds >>= fun x => .ok (s, [Out.ints dims x, ok e])
  | .barrier comm e => do
    let k ← int comm
    return MPI_Barrier s k >>= fun x => .ok (x, [ok e])
  | .bcast buf count datatype root comm e => do
    let n ← int count; let t ← int datatype; let r ← int root; let k ← int comm
    return MPI_Bcast s buf n t r k >>= fun x => .ok (x, [ok e])
  | .gather sendbuf sendcount sendtype recvbuf recvcount recvtype root comm e => do
    let n ← int sendcount; let t ← int sendtype; let n' ← int recvcount; let t' ← int recvtype
    let r ← int root; let k ← int comm
    return MPI_Gather c.env s (buffer c sendbuf) n t recvbuf n' t' r k >>= fun x => .ok (x, [ok e])
  | .gatherv sendbuf sendcount sendtype recvbuf recvcounts displs recvtype root comm e => do
    let n ← int sendcount; let t ← int sendtype; let n' ← ints recvcounts 1; let d ← ints displs 1; let t' ← int recvtype
    let r ← int root; let k ← int comm
    return MPI_Gatherv c.env s (buffer c sendbuf) n t recvbuf n' d t' r k >>= fun x => .ok (x, [ok e])
  | .allgather sendbuf sendcount sendtype recvbuf recvcount recvtype comm e => do
    let n ← int sendcount; let t ← int sendtype; let n' ← int recvcount; let t' ← int recvtype
    let k ← int comm
    return MPI_Allgather c.env s (buffer c sendbuf) n t recvbuf n' t' k >>= fun x => .ok (x, [ok e])
  | .allgatherv sendbuf sendcount sendtype recvbuf recvcounts displs recvtype comm e => do
    let n ← int sendcount; let t ← int sendtype; let n' ← ints recvcounts 1; let d ← ints displs 1; let t' ← int recvtype
    let k ← int comm
    return MPI_Allgatherv c.env s (buffer c sendbuf) n t recvbuf n' d t' k >>= fun x => .ok (x, [ok e])
  | .scatter sendbuf sendcount sendtype recvbuf recvcount recvtype root comm e => do
    let n ← int sendcount; let t ← int sendtype; let n' ← int recvcount; let t' ← int recvtype
    let r ← int root; let k ← int comm
    return MPI_Scatter c.env s sendbuf n t (buffer c recvbuf) n' t' r k >>= fun x => .ok (x, [ok e])
  | .scatterv sendbuf sendcounts displs sendtype recvbuf recvcount recvtype root comm e => do
    let n ← ints sendcounts 1; let d ← ints displs 1; let t ← int sendtype; let n' ← int recvcount; let t' ← int recvtype
    let r ← int root; let k ← int comm
    return MPI_Scatterv c.env s sendbuf n d t (buffer c recvbuf) n' t' r k >>= fun x => .ok (x, [ok e])
  | .reduce sendbuf recvbuf count datatype op root comm e => do
    let n ← int count; let t ← int datatype; let o ← int op; let r ← int root; let k ← int comm
    return MPI_Reduce c.env s (buffer c sendbuf) recvbuf n t o r k >>= fun x => .ok (x, [ok e])
  | .allreduce sendbuf recvbuf count datatype op comm e => do
    let n ← int count; let t ← int datatype; let o ← int op; let k ← int comm
    return MPI_Allreduce c.env s (buffer c sendbuf) recvbuf n t o k >>= fun x => .ok (x, [ok e])
  | .reduceScatter sendbuf recvbuf recvcounts datatype op comm e => do
    let n ← ints recvcounts 1; let t ← int datatype; let o ← int op; let k ← int comm
    return MPI_Reduce_scatter c.env s (buffer c sendbuf) recvbuf n t o k >>= fun x => .ok (x, [ok e])
  | .scan sendbuf recvbuf count datatype op comm e => do
    let n ← int count; let t ← int datatype; let o ← int op; let k ← int comm
    return MPI_Scan c.env s (buffer c sendbuf) recvbuf n t o k >>= fun x => .ok (x, [ok e])
  | .alltoall sendbuf sendcount sendtype recvbuf recvcount recvtype comm e => do
    let n ← int sendcount; let t ← int sendtype; let n' ← int recvcount; let t' ← int recvtype
    let k ← int comm
    return MPI_Alltoall c.env s (buffer c sendbuf) n t recvbuf n' t' k >>= fun x => .ok (x, [ok e])
  | .alltoallv sendbuf sendcounts sdispls sendtype recvbuf recvcounts rdispls recvtype comm e => do
    let n ← ints sendcounts 1; let d ← ints sdispls 1; let t ← int sendtype
    let n' ← ints recvcounts 1; let d' ← ints rdispls 1; let t' ← int recvtype; let k ← int comm
    return MPI_Alltoallv c.env s (buffer c sendbuf) n d t recvbuf n' d' t' k >>= fun x => .ok (x, [ok e])
  | .alltoallw sendbuf sendcounts sdispls sendtypes recvbuf recvcounts rdispls recvtypes comm e => do
    let n ← ints sendcounts 1; let d ← ints sdispls 1; let t ← ints sendtypes 1
    let n' ← ints recvcounts 1; let d' ← ints rdispls 1; let t' ← ints recvtypes 1; let k ← int comm
    return MPI_Alltoallw c.env s (buffer c sendbuf) n d t recvbuf n' d' t' k >>= fun x => .ok (x, [ok e])
  | .typeExtent datatype extent e => do
    let t ← int datatype
    return MPI_Type_extent c.env s t >>= fun x => .ok (x.1, [Out.long extent x.2, ok e])
  | .typeStruct count blocklens displacements oldtypes newtype e => do
    let n ← int count; let b ← ints blocklens n; let d ← addrs displacements n; let t ← ints oldtypes n
    return MPI_Type_struct c.env s n b d t >>= fun x => .ok (x.1, [Out.int newtype x.2, ok e])
  | .typeContiguous count oldtype newtype e => do
    let n ← int count; let t ← int oldtype
    return MPI_Type_contiguous c.env s n t >>= fun x => .ok (x.1, [Out.int newtype x.2, ok e])
  | .typeHvector count blocklen stride oldtype newtype e => do
    let n ← int count; let b ← int blocklen; let d ← addr stride; let t ← int oldtype
    return MPI_Type_hvector c.env s n b d t >>= fun x => .ok (x.1, [Out.int newtype x.2, ok e])
  | .typeCreateHvector count blocklen stride oldtype newtype e => do
    let n ← int count; let b ← int blocklen; let d ← addr stride; let t ← int oldtype
    return MPI_Type_hvector c.env s n b d t >>= fun x => .ok (x.1, [Out.int newtype x.2, ok e])
  | .typeVector count blocklen stride oldtype newtype e => do
    let n ← int count; let b ← int blocklen; let d ← int stride; let t ← int oldtype
    return MPI_Type_vector c.env s n b d t >>= fun x => .ok (x.1, [Out.int newtype x.2, ok e])
  | .typeHindexed count blocklens displacements oldtype newtype e => do
    let n ← int count; let b ← ints blocklens n; let d ← addrs displacements n; let t ← int oldtype
    return MPI_Type_hindexed c.env s n b d t >>= fun x => .ok (x.1, [Out.int newtype x.2, ok e])
  | .typeIndexed count blocklens displacements oldtype newtype e => do
    let n ← int count; let b ← ints blocklens n; let d ← ints displacements n; let t ← int oldtype
    return MPI_Type_indexed c.env s n b d t >>= fun x => .ok (x.1, [Out.int newtype x.2, ok e])
  | .typeCreateIndexedBlock count blocklen displacements oldtype newtype e => do
    let n ← int count; let b ← int blocklen; let d ← ints displacements n; let t ← int oldtype
    return MPI_Type_create_indexed_block c.env s n b d t >>= fun x => .ok (x.1, [Out.int newtype x.2, ok e])
  | .typeSize datatype size e => do
    let t ← int datatype
    return MPI_Type_size c.env s t >>= fun x => .ok (x.1, [Out.int size x.2, ok e])
  | .typeLb datatype lb e => do
    let t ← int datatype
    return MPI_Type_lb c.env s t >>= fun x => .ok (x.1, [Out.long lb x.2, ok e])
  | .typeUb datatype ub e => do
    let t ← int datatype
    return MPI_Type_ub c.env s t >>= fun x => .ok (x.1, [Out.long ub x.2, ok e])
  | .getAddress location result e => return .ok (s, [Out.long result location, ok e])
  | .address location result e => return .ok (s, [Out.long result location, ok e])
  | .typeCommit datatype e => do
    let t ← int datatype
    return MPI_Type_commit c.env s t >>= fun x => .ok (x, [ok e])
  | .typeFree datatype e => do
    let t ← int datatype
    return MPI_Type_free s t >>= fun x => .ok (x, [ok e])
  | .pack inbuf incount datatype outbuf outsize position comm e => do
    let n ← int incount; let t ← int datatype; let z ← int outsize; let p ← int position; let k ← int comm
    return MPI_Pack c.env s inbuf n t outbuf z p k >>= fun x => .ok (x.1, [Out.int position x.2, ok e])
  | .packSize incount datatype comm size e => do
    let n ← int incount; let t ← int datatype; let k ← int comm
    return MPI_Pack_size c.env s n t k >>= fun x => .ok (x.1, [Out.int size x.2, ok e])
  | .unpack inbuf insize position outbuf outcount datatype comm e => do
    let z ← int insize; let p ← int position; let n ← int outcount; let t ← int datatype; let k ← int comm
    return MPI_Unpack c.env s inbuf z p outbuf n t k >>= fun x => .ok (x.1, [Out.int position x.2, ok e])
  | .finalize e => return .ok (MPI_Finalize s, [ok e])
  | .abort comm errorcode e => do
    let k ← int comm; let x ← int errorcode
    return MPI_Abort k x >>= fun _ => .ok (s, [ok e])
  | .initialized flag e => return .ok (s, [Out.int flag (MPI_Initialized s), ok e])
  | .getVersion version subversion e =>
    return .ok (s, [Out.int version MPI_Get_Version.1, Out.int subversion MPI_Get_Version.2, ok e])
  | .opCreate _ commute op e => do
    let _ ← int commute
    return .ok (s, [Out.int op 0, ok e])
  | .opFree _ e => return .ok (s, [ok e])
  | .infoCreate info e => return .ok (s, [Out.int info 0, ok e])
  | .infoSet info _ _ e => do
    let _ ← int info
    return .ok (s, [ok e])
  | .infoFree info e => return .ok (s, [Out.int info 0, ok e])

/-- What the bindings support: no MPI_IN_PLACE in the collectives listed (C46), and for the two hvector subroutines, which
read `blocklen` as an eight-byte integer, a little-endian machine and four more accessible bytes after that
variable.  MPI_PACK_SIZE, which stores eight bytes in its INTEGER result, is not supported at all. -/
def FCall.Supported (c : FEnv) (m : Mem) : FCall → Prop
  | .reduce sendbuf _ _ _ _ _ _ _ => sendbuf ≠ c.ptrs.in_place
  | .allreduce sendbuf _ _ _ _ _ _ => sendbuf ≠ c.ptrs.in_place
  | .reduceScatter sendbuf _ _ _ _ _ _ => sendbuf ≠ c.ptrs.in_place
  | .scan sendbuf _ _ _ _ _ _ => sendbuf ≠ c.ptrs.in_place
  | .alltoall sendbuf _ _ _ _ _ _ _ => sendbuf ≠ c.ptrs.in_place
  | .alltoallv sendbuf _ _ _ _ _ _ _ _ _ => sendbuf ≠ c.ptrs.in_place
  | .alltoallw sendbuf _ _ _ _ _ _ _ _ _ => sendbuf ≠ c.ptrs.in_place
  | .typeHvector _ blocklen _ _ _ _ => c.bo = .little ∧ ∀ i : Nat, i < 4 → (m (blocklen + 4 + i)).isSome
  | .typeCreateHvector _ blocklen _ _ _ _ => c.bo = .little ∧ ∀ i : Nat, i < 4 → (m (blocklen + 4 + i)).isSome
  | .packSize _ _ _ _ _ => False
  | _ => True

/-- A step of a Fortran program: it changes its own memory, calls MPI_INIT, or calls another subroutine. -/
inductive FStep where
  | store (m : Mem)
  | init (a : FortArgs)
  | call (fc : FCall)

def FStep.exec (c : FEnv) (s : Sys) : FStep → Res Sys
  | .store m => .ok { s with mem := m }
  | .init a => mpi_init_fort c.env a s
  | .call fc => fc.exec c s

/-- A Fortran program goes from state `s` to state `s'` using only what the bindings support. -/
inductive FRun (c : FEnv) : Sys → Sys → Prop where
  | refl (s : Sys) : FRun c s s
  | step {s s₁ s' : Sys} (st : FStep) (hs : ∀ fc, st = .call fc → fc.Supported c s.mem) (h : st.exec c s = .ok s₁)
      (hr : FRun c s₁ s') : FRun c s s'

end MpiSerial
