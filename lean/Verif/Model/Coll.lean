import Verif.Model.Sys

/-!
# collective.c

All data movement goes through `copy_data2` (copy.c).  Count and displacement arrays are lists; only
entry 0 is read.  The communicator and the operator are never looked at; they are kept as arguments.
Calls that cannot fail or change anything (`MPI_Barrier`) are still functions on the state.
-/

namespace MpiSerial

/-- collective.c:18-21 `MPI_Barrier`. -/
def MPI_Barrier (s : Sys) (_comm : Int) : Res Sys := .ok s

/-- collective.c:36-50 `MPI_Bcast`. -/
def MPI_Bcast (s : Sys) (_buffer _count _datatype root _comm : Int) : Res Sys :=
  if root = MPI_ROOT then .ok s
  else if root ≠ 0 then .abort "MPI_Bcast: bad root"
  else .ok s

/-- collective.c:68-89 `MPI_Gather`. -/
def MPI_Gather (env : Env) (s : Sys) (sendbuf sendcount sendtype recvbuf recvcount recvtype root _comm : Int) :
    Res Sys :=
  if sendbuf = MPI_IN_PLACE then .ok s
  else if root = MPI_ROOT then .ok s
  else if root ≠ 0 then .abort "MPI_Gather: bad root"
  else copy_data2 env s sendbuf sendcount sendtype recvbuf recvcount recvtype

/-- `int offset = displs[0]*extent` (collective.c:127, 196, 284, 460-461): `displs[0]` is converted to
unsigned long, the product is truncated to `int`. -/
def displOffset (displ extent : Int) : Int := s32 (u64 (u64 displ * extent))

/-- collective.c:107-135 `MPI_Gatherv`. -/
def MPI_Gatherv (env : Env) (s : Sys) (sendbuf sendcount sendtype recvbuf : Int) (recvcounts displs : List Int)
    (recvtype root _comm : Int) : Res Sys :=
  if sendbuf = MPI_IN_PLACE then .ok s
  else if root = MPI_ROOT then .ok s
  else if root ≠ 0 then .abort "MPI_Gatherv: bad root"
  else do
    let (s, rt_extent) ← MPI_Type_extent env s recvtype
    let d ← rd displs 0
    let n ← rd recvcounts 0
    copy_data2 env s sendbuf sendcount sendtype (padd recvbuf (displOffset d rt_extent)) n recvtype

/-- collective.c:154-167 `MPI_Allgather`. -/
def MPI_Allgather (env : Env) (s : Sys) (sendbuf sendcount sendtype recvbuf recvcount recvtype _comm : Int) :
    Res Sys :=
  if sendbuf = MPI_IN_PLACE then .ok s
  else copy_data2 env s sendbuf sendcount sendtype recvbuf recvcount recvtype

/-- collective.c:185-204 `MPI_Allgatherv`. -/
def MPI_Allgatherv (env : Env) (s : Sys) (sendbuf sendcount sendtype recvbuf : Int) (recvcounts displs : List Int)
    (recvtype _comm : Int) : Res Sys :=
  if sendbuf = MPI_IN_PLACE then .ok s
  else do
    let (s, rt_extent) ← MPI_Type_extent env s recvtype
    let d ← rd displs 0
    let n ← rd recvcounts 0
    copy_data2 env s sendbuf sendcount sendtype (padd recvbuf (displOffset d rt_extent)) n recvtype

/-- collective.c:225-245 `MPI_Scatter`. -/
def MPI_Scatter (env : Env) (s : Sys) (sendbuf sendcount sendtype recvbuf recvcount recvtype root _comm : Int) :
    Res Sys :=
  if recvbuf = MPI_IN_PLACE then .ok s
  else if root = MPI_ROOT then .ok s
  else if root ≠ 0 then .abort "MPI_Scatter: bad root"
  else copy_data2 env s sendbuf sendcount sendtype recvbuf recvcount recvtype

/-- collective.c:265-291 `MPI_Scatterv`. -/
def MPI_Scatterv (env : Env) (s : Sys) (sendbuf : Int) (sendcounts displs : List Int) (sendtype recvbuf recvcount
    recvtype root _comm : Int) : Res Sys :=
  if recvbuf = MPI_IN_PLACE then .ok s
  else if root = MPI_ROOT then .ok s
  else if root ≠ 0 then .abort "MPI_Scatterv: bad root"
  else do
    let (s, st_extent) ← MPI_Type_extent env s sendtype
    let d ← rd displs 0
    let n ← rd sendcounts 0
    copy_data2 env s (padd sendbuf (displOffset d st_extent)) n sendtype recvbuf recvcount recvtype

/-- collective.c:310-324 `MPI_Reduce`. -/
def MPI_Reduce (env : Env) (s : Sys) (sendbuf recvbuf count datatype _op root _comm : Int) : Res Sys :=
  if root ≠ 0 then .abort "MPI_Reduce: bad root"
  else copy_data2 env s sendbuf count datatype recvbuf count datatype

/-- collective.c:341-352 `MPI_Allreduce`. -/
def MPI_Allreduce (env : Env) (s : Sys) (sendbuf recvbuf count datatype _op _comm : Int) : Res Sys :=
  if sendbuf = MPI_IN_PLACE then .ok s
  else copy_data2 env s sendbuf count datatype recvbuf count datatype

/-- collective.c:372-377 `MPI_Reduce_scatter`. -/
def MPI_Reduce_scatter (env : Env) (s : Sys) (sendbuf recvbuf : Int) (recvcounts : List Int)
    (datatype _op _comm : Int) : Res Sys := do
  let n ← rd recvcounts 0
  copy_data2 env s sendbuf n datatype recvbuf n datatype

/-- collective.c:395-401 `MPI_Scan`. -/
def MPI_Scan (env : Env) (s : Sys) (sendbuf recvbuf count datatype _op _comm : Int) : Res Sys :=
  copy_data2 env s sendbuf count datatype recvbuf count datatype

/-- collective.c:418-426 `MPI_Alltoall`. -/
def MPI_Alltoall (env : Env) (s : Sys) (sendbuf sendcount sendtype recvbuf recvcount recvtype _comm : Int) :
    Res Sys :=
  copy_data2 env s sendbuf sendcount sendtype recvbuf recvcount recvtype

/-- collective.c:445-471 `MPI_Alltoallv`. -/
def MPI_Alltoallv (env : Env) (s : Sys) (sendbuf : Int) (sendcounts sdispls : List Int) (sendtype recvbuf : Int)
    (recvcounts rdispls : List Int) (recvtype _comm : Int) : Res Sys := do
  let (s, st_extent) ← MPI_Type_extent env s sendtype
  let (s, rt_extent) ← MPI_Type_extent env s recvtype
  let sd ← rd sdispls 0
  let rdi ← rd rdispls 0
  let sn ← rd sendcounts 0
  let rn ← rd recvcounts 0
  copy_data2 env s (padd sendbuf (displOffset sd st_extent)) sn sendtype
    (padd recvbuf (displOffset rdi rt_extent)) rn recvtype

/-- collective.c:491-504 `MPI_Alltoallw`: displacements are bytes. -/
def MPI_Alltoallw (env : Env) (s : Sys) (sendbuf : Int) (sendcounts sdispls sendtypes : List Int) (recvbuf : Int)
    (recvcounts rdispls recvtypes : List Int) (_comm : Int) : Res Sys := do
  let sd ← rd sdispls 0
  let sn ← rd sendcounts 0
  let st ← rd sendtypes 0
  let rdi ← rd rdispls 0
  let rn ← rd recvcounts 0
  let rt ← rd recvtypes 0
  copy_data2 env s (padd sendbuf sd) sn st (padd recvbuf rdi) rn rt

/-- collective.c:510-513 `MPI_Op_f2c` -/
def MPI_Op_f2c (op : Int) : Int := op
/-- collective.c:519-522 `MPI_Op_c2f` -/
def MPI_Op_c2f (op : Int) : Int := op

end MpiSerial
