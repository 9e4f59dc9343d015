import Verif.Spec.Fort
import Verif.Spec.Ideal

/-!
# Fortran programs on a machine

`FCall.deed` says which call an MPI subroutine makes once its argument variables have been read, and which variables
receive the results.  It speaks of `Call` and of the memory of the program only, so a Fortran program can be run on the library,
on the reference machine (`Mach`) and on the machine of the standard (`Ideal`).

The source and tag fields of the status of a completed send are undefined (`C56_send_status`): the machines may write
anything there, so that a program has more than one possible run on them.
-/

set_option autoImplicit false

namespace MpiSerial

open Spec.Fort

/-- Status variable(s) at `p` receive the statuses of the answer. -/
def Out.doneAt (o : MpiSerial.Out) (p : Int) : Spec.Fort.Out := .ints p (o.done.flatMap StPtr.vals)

/-- What a Fortran call amounts to: a call, with the variables that receive its results, or the results of a function that
has nothing to do with the state of the library. -/
inductive FDeed where
  | call (call : Call) (outs : MpiSerial.Out → List Spec.Fort.Out)
  | quiet (r : Res (List Spec.Fort.Out))

/-- `none` if an argument that is read does not exist. -/
def FCall.deed (c : FEnv) (m : Mem) (fc : FCall) : Option FDeed :=
  let int (p : Int) := intAt c.bo m p
  let ints (p n : Int) := intsAt c.bo m p n.toNat
  let addr (p : Int) := addrAt c.bo m p
  let addrs (p n : Int) := addrsAt c.bo m p n.toNat
  let status (p : Int) := statusArg c m p
  let statuses (p n : Int) := statusesArg c m p n.toNat
  let ok (e : Int) := Out.int e 0
  match fc with
  | .isend buf count datatype dest tag comm request e => do
    let n ← int count; let t ← int datatype; let d ← int dest; let g ← int tag; let k ← int comm
    return .call (.isend buf n t d g k) fun o => [Out.int request (o.vals.headD 0), ok e]
  | .send buf count datatype dest tag comm e => do
    let n ← int count; let t ← int datatype; let d ← int dest; let g ← int tag; let k ← int comm
    return .call (.send buf n t d g k) fun _ => [ok e]
  | .ssend buf count datatype dest tag comm e => do
    let n ← int count; let t ← int datatype; let d ← int dest; let g ← int tag; let k ← int comm
    return .call (.send buf n t d g k) fun _ => [ok e]
  | .rsend buf count datatype dest tag comm e => do
    let n ← int count; let t ← int datatype; let d ← int dest; let g ← int tag; let k ← int comm
    return .call (.send buf n t d g k) fun _ => [ok e]
  | .irsend buf count datatype dest tag comm request e => do
    let n ← int count; let t ← int datatype; let d ← int dest; let g ← int tag; let k ← int comm
    return .call (.irsend buf n t d g k) fun o => [Out.int request (o.vals.headD 0), ok e]
  | .sendrecv sendbuf sendcount sendtype dest sendtag recvbuf recvcount recvtype source recvtag comm st e => do
    let n ← int sendcount; let t ← int sendtype; let d ← int dest; let g ← int sendtag
    let n' ← int recvcount; let t' ← int recvtype; let d' ← int source; let g' ← int recvtag
    let k ← int comm; let o ← status st
    return .call (.sendrecv sendbuf n t d g recvbuf n' t' d' g' k o) fun o => [Out.ints st o.vals, ok e]
  | .irecv buf count datatype source tag comm request e => do
    let n ← int count; let t ← int datatype; let d ← int source; let g ← int tag; let k ← int comm
    return .call (.irecv buf n t d g k) fun o => [Out.int request (o.vals.headD 0), ok e]
  | .recv buf count datatype source tag comm st e => do
    let n ← int count; let t ← int datatype; let d ← int source; let g ← int tag; let k ← int comm; let o ← status st
    return .call (.recv buf n t d g k o) fun o => [Out.ints st o.vals, ok e]
  | .iprobe source tag comm flag st e => do
    let d ← int source; let g ← int tag; let k ← int comm; let o ← status st
    return .call (.iprobe d g k o) fun o => [Out.int flag (o.vals.headD 0), Out.ints st o.vals.tail, ok e]
  | .probe source tag comm st e => do
    let d ← int source; let g ← int tag; let k ← int comm; let o ← status st
    return .call (.probe d g k o) fun o => [Out.ints st o.vals, ok e]
  | .getCount st datatype count e => do
    let o ← statusAt c.bo m st; let t ← int datatype
    return .quiet (.ok [Out.int count (MPI_Get_count o t), ok e])
  | .getElements st datatype count e => do
    let o ← statusAt c.bo m st; let t ← int datatype
    return .call (.getElements o t) fun o => [Out.int count (o.vals.headD 0), ok e]
  | .test request flag st e => do
    let r ← int request; let o ← status st
    return .call (.test r o) fun o => [Out.int request (o.vals.headD 0), Out.int flag (o.vals.getD 1 0), o.doneAt st, ok e]
  | .wait request st e => do
    let r ← int request; let o ← status st
    return .call (.wait r o) fun o => [Out.int request (o.vals.headD 0), o.doneAt st, ok e]
  | .waitany count requests index st e => do
    let n ← int count; let rs ← ints requests n; let i ← int index; let o ← status st
    return .call (.waitany n rs i o) fun o =>
      [Out.ints requests ((o.vals.drop 1).take n.toNat), Out.int index (o.vals.headD 0), o.doneAt st, ok e]
  | .testany count requests index flag st e => do
    let n ← int count; let rs ← ints requests n; let i ← int index; let o ← status st
    return .call (.testany n rs i o) fun o =>
      [Out.ints requests ((o.vals.drop 2).take n.toNat), Out.int index (o.vals.headD 0),
       Out.int flag (o.vals.getD 1 0), o.doneAt st, ok e]
  | .testall count requests flag sts e => do
    let n ← int count; let rs ← ints requests n; let o ← statuses sts n
    return .call (.testall n rs o) fun o =>
      [Out.ints requests ((o.vals.drop 1).take n.toNat), Out.int flag (o.vals.headD 0), o.doneAt sts, ok e]
  | .waitall count requests sts e => do
    let n ← int count; let rs ← ints requests n; let o ← statuses sts n
    return .call (.waitall n rs o) fun o => [Out.ints requests (o.vals.take n.toNat), o.doneAt sts, ok e]
  | .testsome incount requests outcount indices sts e => do
    let n ← int incount; let rs ← ints requests n; let ix ← ints indices n; let o ← statuses sts n
    return .call (.testsome n rs ix o) fun o =>
      [Out.ints requests ((o.vals.drop (n.toNat + 1)).take n.toNat), Out.int outcount (o.vals.headD 0),
       Out.ints indices ((o.vals.drop 1).take n.toNat), o.doneAt sts, ok e]
  | .waitsome incount requests outcount indices sts e => do
    let n ← int incount; let rs ← ints requests n; let ix ← ints indices n; let o ← statuses sts n
    return .call (.waitsome n rs ix o) fun o =>
      [Out.ints requests ((o.vals.drop (n.toNat + 1)).take n.toNat), Out.int outcount (o.vals.headD 0),
       Out.ints indices ((o.vals.drop 1).take n.toNat), o.doneAt sts, ok e]
  | .requestFree request e => do
    let r ← int request
    return .call (.requestFree r) fun o => [Out.int request (o.vals.headD 0), ok e]
  | .commFree comm e => do
    let k ← int comm
    return .call (.commFree k) fun o => [Out.int comm (o.vals.headD 0), ok e]
  | .commSize comm size e => do
    let k ← int comm
    return .quiet (.ok [Out.int size (MPI_Comm_size k), ok e])
  | .commRank comm rank e => do
    let k ← int comm
    return .quiet (.ok [Out.int rank (MPI_Comm_rank k), ok e])
  | .commDup comm newcomm e => do
    let k ← int comm
    return .call (.commDup k) fun o => [Out.int newcomm (o.vals.headD 0), ok e]
  | .commCreate comm group newcomm e => do
    let k ← int comm; let g ← int group
    return .call (.commCreate k g) fun o => [Out.int newcomm (o.vals.headD 0), ok e]
  | .commSplit comm color key newcomm e => do
    let k ← int comm; let l ← int color; let y ← int key
    return .call (.commSplit k l y) fun o => [Out.int newcomm (o.vals.headD 0), ok e]
  | .commGroup comm group e => do
    let k ← int comm
    return .quiet (.ok [Out.int group (MPI_Comm_group k), ok e])
  | .intercommCreate localComm localLeader peerComm remoteLeader tag newintercomm e => do
    let k ← int localComm; let l ← int localLeader; let p ← int peerComm; let r ← int remoteLeader; let g ← int tag
    return .call (.intercommCreate k l p r g) fun o => [Out.int newintercomm (o.vals.headD 0), ok e]
  | .groupIncl group n ranks newgroup e => do
    let g ← int group; let k ← int n; let rs ← ints ranks k
    return .quiet (MPI_Group_incl g k rs >>= fun x => .ok [Out.int newgroup x, ok e])
  | .groupRangeIncl group n ranges newgroup e => do
    let g ← int group; let k ← int n
    let rs ← (List.range k.toNat).mapM fun (i : Nat) => do
      let a ← int (ranges + 12 * i); let b ← int (ranges + 12 * i + 4); let d ← int (ranges + 12 * i + 8)
      return (a, b, d)
    return .quiet (MPI_Group_range_incl g k rs >>= fun x => .ok [Out.int newgroup x, ok e])
  | .groupUnion group1 group2 newgroup e => do
    let g ← int group1; let h ← int group2
    return .quiet (MPI_Group_union g h >>= fun x => .ok [Out.int newgroup x, ok e])
  | .groupIntersection group1 group2 newgroup e => do
    let g ← int group1; let h ← int group2
    return .quiet (MPI_Group_intersection g h >>= fun x => .ok [Out.int newgroup x, ok e])
  | .groupDifference group1 group2 newgroup e => do
    let g ← int group1; let h ← int group2
    return .quiet (MPI_Group_difference g h >>= fun x => .ok [Out.int newgroup x, ok e])
  | .groupFree group e => return .quiet (.ok [Out.int group (MPI_Group_free 0), ok e])
  | .groupTranslateRanks group1 n ranks1 group2 ranks2 e => do
    let g ← int group1; let k ← int n; let rs ← ints ranks1 k; let h ← int group2; let qs ← ints ranks2 k
    return .quiet (MPI_Group_translate_ranks g k rs h qs >>= fun x => .ok [Out.ints ranks2 x, ok e])
  | .cartCreate commOld ndims dims _ reorder commCart e => do
    let k ← int commOld; let n ← int ndims; let ds ← ints dims n; let _ ← int reorder
    return .call (.cartCreate k n ds) fun o => [Out.int commCart (o.vals.headD 0), ok e]
  | .cartGet comm maxdims dims periods coords e => do
    let k ← int comm; let n ← int maxdims; let ds ← ints dims n; let ps ← ints periods n; let xs ← ints coords n
    return .quiet (MPI_Cart_get k n ds ps xs >>= fun x =>
      .ok [Out.ints dims x.1, Out.ints periods x.2.1, Out.ints coords x.2.2, ok e])
  | .cartCoords comm rank maxdims coords e => do
    let k ← int comm; let r ← int rank; let n ← int maxdims; let xs ← ints coords n
    return .quiet (MPI_Cart_coords k r n xs >>= fun x => .ok [Out.ints coords x, ok e])
  | .dimsCreate nnodes ndims dims e => do
    let k ← int nnodes; let n ← int ndims; let ds ← ints dims n
    return .quiet (MPI_Dims_create k n ds >>= fun x => .ok [Out.ints dims x, ok e])
  | .barrier comm e => do
    let k ← int comm
    return .call (.barrier k) fun _ => [ok e]
  | .bcast buf count datatype root comm e => do
    let n ← int count; let t ← int datatype; let r ← int root; let k ← int comm
    return .call (.bcast buf n t r k) fun _ => [ok e]
  | .gather sendbuf sendcount sendtype recvbuf recvcount recvtype root comm e => do
    let n ← int sendcount; let t ← int sendtype; let n' ← int recvcount; let t' ← int recvtype
    let r ← int root; let k ← int comm
    return .call (.gather (buffer c sendbuf) n t recvbuf n' t' r k) fun _ => [ok e]
  | .gatherv sendbuf sendcount sendtype recvbuf recvcounts displs recvtype root comm e => do
    let n ← int sendcount; let t ← int sendtype; let n' ← ints recvcounts 1; let d ← ints displs 1; let t' ← int recvtype
    let r ← int root; let k ← int comm
    return .call (.gatherv (buffer c sendbuf) n t recvbuf n' d t' r k) fun _ => [ok e]
  | .allgather sendbuf sendcount sendtype recvbuf recvcount recvtype comm e => do
    let n ← int sendcount; let t ← int sendtype; let n' ← int recvcount; let t' ← int recvtype
    let k ← int comm
    return .call (.allgather (buffer c sendbuf) n t recvbuf n' t' k) fun _ => [ok e]
  | .allgatherv sendbuf sendcount sendtype recvbuf recvcounts displs recvtype comm e => do
    let n ← int sendcount; let t ← int sendtype; let n' ← ints recvcounts 1; let d ← ints displs 1; let t' ← int recvtype
    let k ← int comm
    return .call (.allgatherv (buffer c sendbuf) n t recvbuf n' d t' k) fun _ => [ok e]
  | .scatter sendbuf sendcount sendtype recvbuf recvcount recvtype root comm e => do
    let n ← int sendcount; let t ← int sendtype; let n' ← int recvcount; let t' ← int recvtype
    let r ← int root; let k ← int comm
    return .call (.scatter sendbuf n t (buffer c recvbuf) n' t' r k) fun _ => [ok e]
  | .scatterv sendbuf sendcounts displs sendtype recvbuf recvcount recvtype root comm e => do
    let n ← ints sendcounts 1; let d ← ints displs 1; let t ← int sendtype; let n' ← int recvcount; let t' ← int recvtype
    let r ← int root; let k ← int comm
    return .call (.scatterv sendbuf n d t (buffer c recvbuf) n' t' r k) fun _ => [ok e]
  | .reduce sendbuf recvbuf count datatype op root comm e => do
    let n ← int count; let t ← int datatype; let o ← int op; let r ← int root; let k ← int comm
    return .call (.reduce (buffer c sendbuf) recvbuf n t o r k) fun _ => [ok e]
  | .allreduce sendbuf recvbuf count datatype op comm e => do
    let n ← int count; let t ← int datatype; let o ← int op; let k ← int comm
    return .call (.allreduce (buffer c sendbuf) recvbuf n t o k) fun _ => [ok e]
  | .reduceScatter sendbuf recvbuf recvcounts datatype op comm e => do
    let n ← ints recvcounts 1; let t ← int datatype; let o ← int op; let k ← int comm
    return .call (.reduceScatter (buffer c sendbuf) recvbuf n t o k) fun _ => [ok e]
  | .scan sendbuf recvbuf count datatype op comm e => do
    let n ← int count; let t ← int datatype; let o ← int op; let k ← int comm
    return .call (.scan (buffer c sendbuf) recvbuf n t o k) fun _ => [ok e]
  | .alltoall sendbuf sendcount sendtype recvbuf recvcount recvtype comm e => do
    let n ← int sendcount; let t ← int sendtype; let n' ← int recvcount; let t' ← int recvtype
    let k ← int comm
    return .call (.alltoall (buffer c sendbuf) n t recvbuf n' t' k) fun _ => [ok e]
  | .alltoallv sendbuf sendcounts sdispls sendtype recvbuf recvcounts rdispls recvtype comm e => do
    let n ← ints sendcounts 1; let d ← ints sdispls 1; let t ← int sendtype
    let n' ← ints recvcounts 1; let d' ← ints rdispls 1; let t' ← int recvtype; let k ← int comm
    return .call (.alltoallv (buffer c sendbuf) n d t recvbuf n' d' t' k) fun _ => [ok e]
  | .alltoallw sendbuf sendcounts sdispls sendtypes recvbuf recvcounts rdispls recvtypes comm e => do
    let n ← ints sendcounts 1; let d ← ints sdispls 1; let t ← ints sendtypes 1
    let n' ← ints recvcounts 1; let d' ← ints rdispls 1; let t' ← ints recvtypes 1; let k ← int comm
    return .call (.alltoallw (buffer c sendbuf) n d t recvbuf n' d' t' k) fun _ => [ok e]
  | .typeExtent datatype extent e => do
    let t ← int datatype
    return .call (.typeExtent t) fun o => [Out.long extent (o.vals.headD 0), ok e]
  | .typeStruct count blocklens displacements oldtypes newtype e => do
    let n ← int count; let b ← ints blocklens n; let d ← addrs displacements n; let t ← ints oldtypes n
    return .call (.typeStruct n b d t) fun o => [Out.int newtype (o.vals.headD 0), ok e]
  | .typeContiguous count oldtype newtype e => do
    let n ← int count; let t ← int oldtype
    return .call (.typeContiguous n t) fun o => [Out.int newtype (o.vals.headD 0), ok e]
  | .typeHvector count blocklen stride oldtype newtype e => do
    let n ← int count; let b ← int blocklen; let d ← addr stride; let t ← int oldtype
    return .call (.typeHvector n b d t) fun o => [Out.int newtype (o.vals.headD 0), ok e]
  | .typeCreateHvector count blocklen stride oldtype newtype e => do
    let n ← int count; let b ← int blocklen; let d ← addr stride; let t ← int oldtype
    return .call (.typeHvector n b d t) fun o => [Out.int newtype (o.vals.headD 0), ok e]
  | .typeVector count blocklen stride oldtype newtype e => do
    let n ← int count; let b ← int blocklen; let d ← int stride; let t ← int oldtype
    return .call (.typeVector n b d t) fun o => [Out.int newtype (o.vals.headD 0), ok e]
  | .typeHindexed count blocklens displacements oldtype newtype e => do
    let n ← int count; let b ← ints blocklens n; let d ← addrs displacements n; let t ← int oldtype
    return .call (.typeHindexed n b d t) fun o => [Out.int newtype (o.vals.headD 0), ok e]
  | .typeIndexed count blocklens displacements oldtype newtype e => do
    let n ← int count; let b ← ints blocklens n; let d ← ints displacements n; let t ← int oldtype
    return .call (.typeIndexed n b d t) fun o => [Out.int newtype (o.vals.headD 0), ok e]
  | .typeCreateIndexedBlock count blocklen displacements oldtype newtype e => do
    let n ← int count; let b ← int blocklen; let d ← ints displacements n; let t ← int oldtype
    return .call (.typeIndexedBlock n b d t) fun o => [Out.int newtype (o.vals.headD 0), ok e]
  | .typeSize datatype size e => do
    let t ← int datatype
    return .call (.typeSize t) fun o => [Out.int size (o.vals.headD 0), ok e]
  | .typeLb datatype lb e => do
    let t ← int datatype
    return .call (.typeLb t) fun o => [Out.long lb (o.vals.headD 0), ok e]
  | .typeUb datatype ub e => do
    let t ← int datatype
    return .call (.typeUb t) fun o => [Out.long ub (o.vals.headD 0), ok e]
  | .getAddress location result e => return .quiet (.ok [Out.long result location, ok e])
  | .address location result e => return .quiet (.ok [Out.long result location, ok e])
  | .typeCommit datatype e => do
    let t ← int datatype
    return .call (.typeCommit t) fun _ => [ok e]
  | .typeFree datatype e => do
    let t ← int datatype
    return .call (.typeFree t) fun _ => [ok e]
  | .pack inbuf incount datatype outbuf outsize position comm e => do
    let n ← int incount; let t ← int datatype; let z ← int outsize; let p ← int position; let k ← int comm
    return .call (.pack inbuf n t outbuf z p k) fun o => [Out.int position (o.vals.headD 0), ok e]
  | .packSize incount datatype comm size e => do
    let n ← int incount; let t ← int datatype; let k ← int comm
    return .call (.packSize n t k) fun o => [Out.int size (o.vals.headD 0), ok e]
  | .unpack inbuf insize position outbuf outcount datatype comm e => do
    let z ← int insize; let p ← int position; let n ← int outcount; let t ← int datatype; let k ← int comm
    return .call (.unpack inbuf z p outbuf n t k) fun o => [Out.int position (o.vals.headD 0), ok e]
  | .finalize e => return .call .finalize fun _ => [ok e]
  | .abort comm errorcode e => do
    let k ← int comm; let x ← int errorcode
    return .call (.abort k x) fun _ => [ok e]
  | .initialized flag e => return .call .initialized fun o => [Out.int flag (o.vals.headD 0), ok e]
  | .getVersion version subversion e =>
    return .quiet (.ok [Out.int version MPI_Get_Version.1, Out.int subversion MPI_Get_Version.2, ok e])
  | .opCreate _ commute op e => do
    let _ ← int commute
    return .quiet (.ok [Out.int op 0, ok e])
  | .opFree _ e => return .quiet (.ok [ok e])
  | .infoCreate info e => return .quiet (.ok [Out.int info 0, ok e])
  | .infoSet info _ _ e => do
    let _ ← int info
    return .quiet (.ok [ok e])
  | .infoFree info e => return .quiet (.ok [Out.int info 0, ok e])

/-- The statuses handed to a completion call. -/
def Call.statuses : Call → List StPtr
  | .test _ st | .wait _ st | .testany _ _ _ st | .waitany _ _ _ st => [st]
  | .testall _ _ sts | .waitall _ _ sts | .testsome _ _ _ sts | .waitsome _ _ _ sts => sts.ptrs
  | _ => []

/-- A machine that calls can be made on. -/
structure FMachine (σ : Type) where
  mem : σ → Mem
  setMem : σ → Mem → σ
  answer : σ → Call → Res (σ × MpiSerial.Out)
  /-- the call is one the machine is meant for -/
  legal : σ → Call → Prop
  /-- all operations the call is to complete are receives -/
  receives : σ → Call → Prop

def Mach.machine (env : Env) : FMachine Mach where
  mem M := M.mem
  setMem M m := { M with mem := m }
  answer M c := M.answer env c
  legal M c := c.Wf env M.L
  receives M c := c.onlyReceives M.L

def Ideal.machine (env : Env) : FMachine Ideal where
  mem I := I.core.mem
  setMem I m := { I with core := { I.core with mem := m } }
  answer I c := I.answer env c
  legal I c := I.Legal env c
  receives I c := c.onlyReceives I.core.L

namespace FMachine

variable {σ : Type} (K : FMachine σ)

/-- `done` may be what a completion call writes where the machine answers `o`: the statuses passed by the caller with new
source and tag fields, which are those of `o` if all operations are receives. -/
def Writes (x : σ) (call : Call) (o : MpiSerial.Out) (done : List StPtr) : Prop :=
  done.map StPtr.kept = call.statuses.map StPtr.kept ∧ (K.receives x call → done = o.done)

/-- A Fortran call may take the machine from `x` to `x'`, where `outs` are the variables that are set. -/
inductive FMoves (c : FEnv) (x : σ) : FCall → σ → List Spec.Fort.Out → Prop where
  | call {fc : FCall} {call : Call} {f : MpiSerial.Out → List Spec.Fort.Out} {x' : σ} {o : MpiSerial.Out} {done : List StPtr}
      (hd : fc.deed c (K.mem x) = some (.call call f)) (ha : K.answer x call = .ok (x', o)) (hw : K.Writes x call o done) :
      FMoves c x fc x' (f ⟨o.vals, done⟩)
  | quiet {fc : FCall} {outs : List Spec.Fort.Out} (hd : fc.deed c (K.mem x) = some (.quiet (.ok outs))) : FMoves c x fc x outs

/-- A step of a Fortran program may take the machine from `x` to `x'`. -/
inductive FStep (c : FEnv) (x : σ) : MpiSerial.FStep → σ → Prop where
  | store (m : Mem) : FStep c x (.store m) (K.setMem x m)
  | init {a : FortArgs} {x' : σ} {o : MpiSerial.Out} (ha : K.answer x (.fortInit a) = .ok (x', o)) : FStep c x (.init a) x'
  | call {fc : FCall} {x' : σ} {outs : List Spec.Fort.Out} {m : Mem} (h : K.FMoves c x fc x' outs)
      (hw : Wrote c.bo (K.mem x') m outs) : FStep c x (.call fc) (K.setMem x' m)

/-- How a step ends that does not return. -/
def FFate (c : FEnv) (x : σ) : MpiSerial.FStep → Option Fate
  | .store _ => none
  | .init a => (K.answer x (.fortInit a)).fate
  | .call fc =>
    match fc.deed c (K.mem x) with
    | some (.call call _) => (K.answer x call).fate
    | some (.quiet r) => r.fate
    | none => some (.ub .memAccess)

/-- A step of a conforming Fortran program: the binding supports it, the arguments exist, the call is legal, and the
result variables exist and do not overlap. -/
def FLegal (c : FEnv) (x : σ) : MpiSerial.FStep → Prop
  | .store _ => True
  | .init a => K.legal x (.fortInit a)
  | .call fc => fc.Supported c (K.mem x) ∧ (∃ d, fc.deed c (K.mem x) = some d) ∧
      (∀ call f, fc.deed c (K.mem x) = some (.call call f) → K.legal x call) ∧
      ∀ x' outs, K.FMoves c x fc x' outs → Variables (K.mem x) outs

end FMachine

/-! ## Programs -/

/-- A Fortran program chooses its next step from the contents its memory has had so far (most recent first). -/
abbrev FProg := List Mem → Option FStep

/-- The first `n` steps of the program on the library: the contents of memory, and how it died if it did. -/
def FProg.run (c : FEnv) (p : FProg) : Nat → List Mem → Sys → List Mem × Option Fate
  | 0, seen, _ => (seen, none)
  | n + 1, seen, s =>
    match p seen with
    | none => (seen, none)
    | some st =>
      match st.exec c s with
      | .ok s' => p.run c n (s'.mem :: seen) s'
      | r => (seen, r.fate)

/-- `t` is a possible run of the first `n` steps on the machine. -/
def FProg.May {σ : Type} (K : FMachine σ) (c : FEnv) (p : FProg) : Nat → List Mem → σ → List Mem × Option Fate → Prop
  | 0, seen, _, t => t = (seen, none)
  | n + 1, seen, x, t =>
    match p seen with
    | none => t = (seen, none)
    | some st => (∃ x', K.FStep c x st x' ∧ p.May K c n (K.mem x' :: seen) x' t) ∨
        ∃ f, K.FFate c x st = some f ∧ t = (seen, some f)

/-- Whatever the machine writes where it has a choice, the first `n` steps are those of a conforming program. -/
def FProg.Conforms {σ : Type} (K : FMachine σ) (c : FEnv) (p : FProg) : Nat → List Mem → σ → Prop
  | 0, _, _ => True
  | n + 1, seen, x => ∀ st, p seen = some st → K.FLegal c x st ∧ ∀ x', K.FStep c x st x' → p.Conforms K c n (K.mem x' :: seen) x'

end MpiSerial
