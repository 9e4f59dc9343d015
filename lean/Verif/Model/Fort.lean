import Verif.Model.Cart
import Verif.Model.Group
import Verif.Model.Misc
import Verif.Model.Stubs

/-!
# Fortran bindings: arguments in memory

A Fortran program passes addresses.  The bindings (functions named with `FC_FUNC`, mpiP.h:26-66) read scalar
arguments through `int *`, `long *` or `MPI_Aint *`, call the C function, and the results and `*ierror`
are stored through pointers.  Every C function returns MPI_SUCCESS (0).

Simplifications: an array argument, a status and an `INTENT(INOUT)` variable is read when the binding is called and
stored back after the C function has returned, in the order of the arguments (Fortran does not allow a
variable that is modified by a call to overlap another argument).  Arrays of counts and displacements of
collectives are read to length 1 (all that is used: communicators have one member).
-/

set_option autoImplicit false

namespace MpiSerial

/-- Byte order of the machine. -/
inductive ByteOrder where
  | little
  | big
  deriving DecidableEq, Repr

/-- The `n` bytes from `p` in order of address. -/
def ldBytes (m : Mem) (p : Int) : Nat → Res (List UInt8)
  | 0 => .ok []
  | n + 1 =>
    match m p with
    | none => .ub .memAccess
    | some b => do
      let bs ← ldBytes m (p + 1) n
      return b :: bs

/-- Number whose base 256 digits are `bs`, least significant first. -/
def ofDigits : List UInt8 → Nat
  | [] => 0
  | b :: bs => b.toNat + 256 * ofDigits bs

/-- Number stored as the bytes `bs`. -/
def ByteOrder.value : ByteOrder → List UInt8 → Nat
  | .little, bs => ofDigits bs
  | .big, bs => ofDigits bs.reverse

/-- `*p` for `int *p`. -/
def ldInt (bo : ByteOrder) (m : Mem) (p : Int) : Res Int := do
  let bs ← ldBytes m p 4
  return s32 (bo.value bs)

/-- `*p` for `long *p`. -/
def ldLong (bo : ByteOrder) (m : Mem) (p : Int) : Res Int := do
  let bs ← ldBytes m p 8
  return s64 (bo.value bs)

/-- `*p` for `MPI_Aint *p`. -/
def ldAint (bo : ByteOrder) (m : Mem) (p : Int) : Res Int := do
  let bs ← ldBytes m p 8
  return u64 (bo.value bs)

/-- `p[0]`, ..., `p[n-1]` for `int *p`. -/
def ldInts (bo : ByteOrder) (m : Mem) (p : Int) : Nat → Res (List Int)
  | 0 => .ok []
  | n + 1 => do
    let x ← ldInt bo m p
    let xs ← ldInts bo m (p + 4) n
    return x :: xs

/-- `p[0]`, ..., `p[n-1]` for `MPI_Aint *p`. -/
def ldAints (bo : ByteOrder) (m : Mem) (p : Int) : Nat → Res (List Int)
  | 0 => .ok []
  | n + 1 => do
    let x ← ldAint bo m p
    let xs ← ldAints bo m (p + 8) n
    return x :: xs

/-- `*p` for `MPI_Status *p` (mpi.h:183-190): four INTEGERs. -/
def ldStatus (bo : ByteOrder) (m : Mem) (p : Int) : Res Status := do
  let source ← ldInt bo m p
  let tag ← ldInt bo m (p + 4)
  let error ← ldInt bo m (p + 8)
  let count ← ldInt bo m (p + 12)
  return ⟨source, tag, error, count⟩

/-- `p[0]`, ..., `p[n-1]` for `MPI_Status *p`. -/
def ldStatuses (bo : ByteOrder) (m : Mem) (p : Int) : Nat → Res (List Status)
  | 0 => .ok []
  | n + 1 => do
    let x ← ldStatus bo m p
    let xs ← ldStatuses bo m (p + 16) n
    return x :: xs

/-- The `n` low bytes of `v`, least significant first. -/
def toDigits : Nat → Int → List UInt8
  | 0, _ => []
  | n + 1, v => UInt8.ofNat (v % 256).toNat :: toDigits n (v / 256)

/-- The `n` bytes that represent `v`. -/
def ByteOrder.bytes : ByteOrder → Nat → Int → List UInt8
  | .little, n, v => toDigits n v
  | .big, n, v => (toDigits n v).reverse

/-- Store the bytes `bs` at `p`. -/
def stBytes (m : Mem) : Int → List UInt8 → Res Mem
  | _, [] => .ok m
  | p, b :: bs =>
    match m p with
    | none => .ub .memAccess
    | some _ => do
      let m ← stBytes m (p + 1) bs
      return fun a => if a = p then some b else m a

/-- `*p = v` for `int *p`. -/
def stInt (bo : ByteOrder) (s : Sys) (p v : Int) : Res Sys := do
  let m ← stBytes s.mem p (bo.bytes 4 v)
  return { s with mem := m }

/-- `*p = v` for `long *p` or `MPI_Aint *p`. -/
def stLong (bo : ByteOrder) (s : Sys) (p v : Int) : Res Sys := do
  let m ← stBytes s.mem p (bo.bytes 8 v)
  return { s with mem := m }

/-- Store into the array of `int` at `p`. -/
def stInts (bo : ByteOrder) (s : Sys) (p : Int) : List Int → Res Sys
  | [] => .ok s
  | v :: vs => do
    let s ← stInt bo s p v
    stInts bo s (p + 4) vs

/-- The fields of a status in order. -/
def Status.fields (st : Status) : List Int := [st.MPI_SOURCE, st.MPI_TAG, st.MPI_ERROR, st.get_count]

/-- What a call wrote through a status pointer whose value is `p`. -/
def stStatus (bo : ByteOrder) (s : Sys) (p : Int) : StPtr → Res Sys
  | .obj st => stInts bo s p st.fields
  | _ => .ok s

/-- What a call wrote through a pointer to an array of statuses whose value is `p`. -/
def stStatuses (bo : ByteOrder) (s : Sys) (p : Int) : StArr → Res Sys
  | some l => stInts bo s p (l.flatMap Status.fields)
  | none => .ok s

/-- The machine and the addresses of the Fortran sentinels (mpi.c:12-14). -/
structure FEnv where
  env : Env
  bo : ByteOrder
  ptrs : FPtrs

namespace Bind

/-- `*p`, INTEGER -/
def int (c : FEnv) (s : Sys) (p : Int) : Res Int := ldInt c.bo s.mem p
/-- INTEGER array of length `n` -/
def ints (c : FEnv) (s : Sys) (p n : Int) : Res (List Int) := ldInts c.bo s.mem p n.toNat
/-- MPI_Aint array of length `n` -/
def aints (c : FEnv) (s : Sys) (p n : Int) : Res (List Int) := ldAints c.bo s.mem p n.toNat
/-- The object behind `mpi_c_status(status)`; the value does not matter if that pointer is null. -/
def status (c : FEnv) (s : Sys) (p : Int) : Res Status :=
  if mpi_c_status c.ptrs p = 0 then .ok ⟨0, 0, 0, 0⟩ else ldStatus c.bo s.mem p
/-- The array of `n` statuses behind `mpi_c_statuses(statuses)`. -/
def statuses (c : FEnv) (s : Sys) (p n : Int) : Res (List Status) :=
  if mpi_c_statuses c.ptrs p = 0 then .ok [] else ldStatuses c.bo s.mem p n.toNat

/-- `*ierror = MPI_SUCCESS` -/
def done (c : FEnv) (s : Sys) (ierror : Int) : Res Sys := stInt c.bo s ierror 0

/-! ## send.c, recv.c -/

/-- send.c:24-31 -/
def mpi_isend (c : FEnv) (s : Sys) (buf count datatype dest tag comm req ierror : Int) : Res Sys := do
  let n ← int c s count
  let t ← int c s datatype
  let d ← int c s dest
  let g ← int c s tag
  let k ← int c s comm
  let (s, h) ← MPI_Isend c.env s buf n t d g k
  let s ← stInt c.bo s req h
  done c s ierror

/-- send.c:101-106 -/
def mpi_send (c : FEnv) (s : Sys) (buf count datatype dest tag comm ierror : Int) : Res Sys := do
  let n ← int c s count
  let t ← int c s datatype
  let d ← int c s dest
  let g ← int c s tag
  let k ← int c s comm
  let s ← MPI_Send c.env s buf n t d g k
  done c s ierror

/-- send.c:134-139 (calls MPI_Send) -/
def mpi_ssend (c : FEnv) (s : Sys) (buf count datatype dest tag comm ierror : Int) : Res Sys := do
  let n ← int c s count
  let t ← int c s datatype
  let d ← int c s dest
  let g ← int c s tag
  let k ← int c s comm
  let s ← MPI_Send c.env s buf n t d g k
  done c s ierror

/-- send.c:154-159 (calls MPI_Send) -/
def mpi_rsend (c : FEnv) (s : Sys) (buf count datatype dest tag comm ierror : Int) : Res Sys := do
  let n ← int c s count
  let t ← int c s datatype
  let d ← int c s dest
  let g ← int c s tag
  let k ← int c s comm
  let s ← MPI_Send c.env s buf n t d g k
  done c s ierror

/-- send.c:176-184 -/
def mpi_irsend (c : FEnv) (s : Sys) (buf count datatype dest tag comm req ierror : Int) : Res Sys := do
  let n ← int c s count
  let t ← int c s datatype
  let d ← int c s dest
  let g ← int c s tag
  let k ← int c s comm
  let (s, h) ← MPI_Irsend c.env s buf n t d g k
  let s ← stInt c.bo s req h
  done c s ierror

/-- send.c:219-229 -/
def mpi_sendrecv (c : FEnv) (s : Sys) (sendbuf sendcount sendtype dest sendtag recvbuf recvcount recvtype source recvtag
    comm stat ierror : Int) : Res Sys := do
  let sn ← int c s sendcount
  let st ← int c s sendtype
  let d ← int c s dest
  let sg ← int c s sendtag
  let rn ← int c s recvcount
  let rt ← int c s recvtype
  let sr ← int c s source
  let rg ← int c s recvtag
  let k ← int c s comm
  let o ← status c s stat
  let (s, o) ← Fort.mpi_sendrecv c.ptrs c.env s sendbuf sn st d sg recvbuf rn rt sr rg k stat o
  let s ← stStatus c.bo s stat o
  done c s ierror

/-- recv.c:27-34 -/
def mpi_irecv (c : FEnv) (s : Sys) (buf count datatype source tag comm request ierror : Int) : Res Sys := do
  let n ← int c s count
  let t ← int c s datatype
  let d ← int c s source
  let g ← int c s tag
  let k ← int c s comm
  let (s, h) ← MPI_Irecv c.env s buf n t d g k
  let s ← stInt c.bo s request h
  done c s ierror

/-- recv.c:112-119 -/
def mpi_recv (c : FEnv) (s : Sys) (buf count datatype source tag comm stat ierror : Int) : Res Sys := do
  let n ← int c s count
  let t ← int c s datatype
  let d ← int c s source
  let g ← int c s tag
  let k ← int c s comm
  let o ← status c s stat
  let (s, o) ← Fort.mpi_recv c.ptrs c.env s buf n t d g k stat o
  let s ← stStatus c.bo s stat o
  done c s ierror

/-! ## probe.c, getcount.c -/

/-- probe.c:10-15 -/
def mpi_iprobe (c : FEnv) (s : Sys) (source tag comm flag stat ierr : Int) : Res Sys := do
  let d ← int c s source
  let g ← int c s tag
  let k ← int c s comm
  let o ← status c s stat
  let (s, b, o) ← Fort.mpi_iprobe c.ptrs s d g k stat o
  let s ← stInt c.bo s flag b
  let s ← stStatus c.bo s stat o
  done c s ierr

/-- probe.c:66-71 -/
def mpi_probe (c : FEnv) (s : Sys) (source tag comm stat ierr : Int) : Res Sys := do
  let d ← int c s source
  let g ← int c s tag
  let k ← int c s comm
  let o ← status c s stat
  let (s, o) ← Fort.mpi_probe c.ptrs s d g k stat o
  let s ← stStatus c.bo s stat o
  done c s ierr

/-- getcount.c:11-16 (`(MPI_Status *)status`, without `mpi_c_status`) -/
def mpi_get_count (c : FEnv) (s : Sys) (stat datatype count ierr : Int) : Res Sys := do
  let o ← ldStatus c.bo s.mem stat
  let t ← int c s datatype
  let s ← stInt c.bo s count (MPI_Get_count o t)
  done c s ierr

/-- getcount.c:29-34 -/
def mpi_get_elements (c : FEnv) (s : Sys) (stat datatype count ierr : Int) : Res Sys := do
  let o ← ldStatus c.bo s.mem stat
  let t ← int c s datatype
  let (s, n) ← MPI_Get_elements c.env s o t
  let s ← stInt c.bo s count n
  done c s ierr

/-! ## req.c -/

/-- req.c:10-15 -/
def mpi_test (c : FEnv) (s : Sys) (request flag stat ierror : Int) : Res Sys := do
  let r ← int c s request
  let o ← status c s stat
  let x ← Fort.mpi_test c.ptrs s r stat o
  let s ← stInt c.bo x.sys request x.request
  let s ← stInt c.bo s flag x.flag
  let s ← stStatus c.bo s stat x.status
  done c s ierror

/-- req.c:56-60 -/
def mpi_wait (c : FEnv) (s : Sys) (request stat ierror : Int) : Res Sys := do
  let r ← int c s request
  let o ← status c s stat
  let (s, r, o) ← Fort.mpi_wait c.ptrs s r stat o
  let s ← stInt c.bo s request r
  let s ← stStatus c.bo s stat o
  done c s ierror

/-- req.c:83-89 -/
def mpi_waitany (c : FEnv) (s : Sys) (count requests index stat ierror : Int) : Res Sys := do
  let n ← int c s count
  let rs ← ints c s requests n
  let i ← int c s index
  let o ← status c s stat
  let (s, rs, i, o) ← Fort.mpi_waitany c.ptrs s n rs i stat o
  let s ← stInts c.bo s requests rs
  let s ← stInt c.bo s index i
  let s ← stStatus c.bo s stat o
  done c s ierror

/-- req.c:117-124 -/
def mpi_testany (c : FEnv) (s : Sys) (count requests index flag stat ierr : Int) : Res Sys := do
  let n ← int c s count
  let rs ← ints c s requests n
  let i ← int c s index
  let o ← status c s stat
  let (s, rs, i, b, o) ← Fort.mpi_testany c.ptrs s n rs i stat o
  let s ← stInts c.bo s requests rs
  let s ← stInt c.bo s index i
  let s ← stInt c.bo s flag b
  let s ← stStatus c.bo s stat o
  done c s ierr

/-- req.c:149-156 -/
def mpi_testall (c : FEnv) (s : Sys) (count requests flag stats ierr : Int) : Res Sys := do
  let n ← int c s count
  let rs ← ints c s requests n
  let o ← statuses c s stats n
  let (x, b) ← Fort.mpi_testall c.ptrs s n rs stats o
  let s ← stInts c.bo x.sys requests x.reqs
  let s ← stInt c.bo s flag b
  let s ← stStatuses c.bo s stats x.stats
  done c s ierr

/-- req.c:182-188 -/
def mpi_waitall (c : FEnv) (s : Sys) (count requests stats ierror : Int) : Res Sys := do
  let n ← int c s count
  let rs ← ints c s requests n
  let o ← statuses c s stats n
  let x ← Fort.mpi_waitall c.ptrs s n rs stats o
  let s ← stInts c.bo x.sys requests x.reqs
  let s ← stStatuses c.bo s stats x.stats
  done c s ierror

/-- req.c:217-224 -/
def mpi_testsome (c : FEnv) (s : Sys) (incount requests outcount indices stats ierr : Int) : Res Sys := do
  let n ← int c s incount
  let rs ← ints c s requests n
  let ix ← ints c s indices n
  let o ← statuses c s stats n
  let x ← Fort.mpi_testsome c.ptrs s n rs ix stats o
  let s ← stInts c.bo x.arr.sys requests x.arr.reqs
  let s ← stInt c.bo s outcount x.outcount
  let s ← stInts c.bo s indices x.indices
  let s ← stStatuses c.bo s stats x.arr.stats
  done c s ierr

/-- req.c:250-257 -/
def mpi_waitsome (c : FEnv) (s : Sys) (incount requests outcount indices stats ierr : Int) : Res Sys := do
  let n ← int c s incount
  let rs ← ints c s requests n
  let ix ← ints c s indices n
  let o ← statuses c s stats n
  let x ← Fort.mpi_waitsome c.ptrs s n rs ix stats o
  let s ← stInts c.bo x.arr.sys requests x.arr.reqs
  let s ← stInt c.bo s outcount x.outcount
  let s ← stInts c.bo s indices x.indices
  let s ← stStatuses c.bo s stats x.arr.stats
  done c s ierr

/-- req.c:278-283 -/
def mpi_request_free (c : FEnv) (s : Sys) (request ierr : Int) : Res Sys := do
  let r ← int c s request
  let (s, r) ← MPI_Request_free s r
  let s ← stInt c.bo s request r
  done c s ierr

/-! ## comm.c, group.c, cart.c -/

/-- comm.c:33-37 -/
def mpi_comm_free (c : FEnv) (s : Sys) (comm ierror : Int) : Res Sys := do
  let k ← int c s comm
  let (s, k) ← MPI_Comm_free s k
  let s ← stInt c.bo s comm k
  done c s ierror

/-- comm.c:85-89 -/
def mpi_comm_size (c : FEnv) (s : Sys) (comm size ierror : Int) : Res Sys := do
  let k ← int c s comm
  let s ← stInt c.bo s size (MPI_Comm_size k)
  done c s ierror

/-- comm.c:104-108 -/
def mpi_comm_rank (c : FEnv) (s : Sys) (comm rank ierror : Int) : Res Sys := do
  let k ← int c s comm
  let s ← stInt c.bo s rank (MPI_Comm_rank k)
  done c s ierror

/-- comm.c:123-127 -/
def mpi_comm_dup (c : FEnv) (s : Sys) (comm newcomm ierror : Int) : Res Sys := do
  let k ← int c s comm
  let (s, h) ← MPI_Comm_dup s k
  let s ← stInt c.bo s newcomm h
  done c s ierror

/-- comm.c:148-153 -/
def mpi_comm_create (c : FEnv) (s : Sys) (comm group newcomm ierror : Int) : Res Sys := do
  let k ← int c s comm
  let g ← int c s group
  let (s, h) ← MPI_Comm_create s k g
  let s ← stInt c.bo s newcomm h
  done c s ierror

/-- comm.c:172-177 -/
def mpi_comm_split (c : FEnv) (s : Sys) (comm color key newcomm ierror : Int) : Res Sys := do
  let k ← int c s comm
  let l ← int c s color
  let y ← int c s key
  let (s, h) ← MPI_Comm_split s k l y
  let s ← stInt c.bo s newcomm h
  done c s ierror

/-- comm.c:196-201 -/
def mpi_comm_group (c : FEnv) (s : Sys) (comm group ierror : Int) : Res Sys := do
  let k ← int c s comm
  let s ← stInt c.bo s group (MPI_Comm_group k)
  done c s ierror

/-- comm.c:219-227 -/
def mpi_intercomm_create (c : FEnv) (s : Sys) (local_comm local_leader peer_comm remote_leader tag newintercomm ierr : Int) :
    Res Sys := do
  let k ← int c s local_comm
  let l ← int c s local_leader
  let p ← int c s peer_comm
  let r ← int c s remote_leader
  let g ← int c s tag
  let (s, h) ← MPI_Intercomm_create s k l p r g
  let s ← stInt c.bo s newintercomm h
  done c s ierr

/-- group.c:8-13 -/
def mpi_group_incl (c : FEnv) (s : Sys) (group n ranks newgroup ierror : Int) : Res Sys := do
  let g ← int c s group
  let k ← int c s n
  let rs ← ints c s ranks k
  let h ← MPI_Group_incl g k rs
  let s ← stInt c.bo s newgroup h
  done c s ierror

/-- Consecutive triples of an array (`int ranges[][3]`). -/
def triples : List Int → List (Int × Int × Int)
  | a :: b :: d :: l => (a, b, d) :: triples l
  | _ => []

/-- group.c:50-55 -/
def mpi_group_range_incl (c : FEnv) (s : Sys) (group n ranges newgroup ierror : Int) : Res Sys := do
  let g ← int c s group
  let k ← int c s n
  let rs ← ints c s ranges (3 * k)
  let h ← MPI_Group_range_incl g k (triples rs)
  let s ← stInt c.bo s newgroup h
  done c s ierror

/-- group.c:89-94 -/
def mpi_group_union (c : FEnv) (s : Sys) (group1 group2 newgroup ierror : Int) : Res Sys := do
  let g ← int c s group1
  let k ← int c s group2
  let h ← MPI_Group_union g k
  let s ← stInt c.bo s newgroup h
  done c s ierror

/-- group.c:120-125 -/
def mpi_group_intersection (c : FEnv) (s : Sys) (group1 group2 newgroup ierror : Int) : Res Sys := do
  let g ← int c s group1
  let k ← int c s group2
  let h ← MPI_Group_intersection g k
  let s ← stInt c.bo s newgroup h
  done c s ierror

/-- group.c:153-158 -/
def mpi_group_difference (c : FEnv) (s : Sys) (group1 group2 newgroup ierror : Int) : Res Sys := do
  let g ← int c s group1
  let k ← int c s group2
  let h ← MPI_Group_difference g k
  let s ← stInt c.bo s newgroup h
  done c s ierror

/-- group.c:185-189 (the old value of `*group` is not read) -/
def mpi_group_free (c : FEnv) (s : Sys) (group ierror : Int) : Res Sys := do
  let s ← stInt c.bo s group (MPI_Group_free 0)
  done c s ierror

/-- group.c:204-210 -/
def mpi_group_translate_ranks (c : FEnv) (s : Sys) (group1 n ranks1 group2 ranks2 ierror : Int) : Res Sys := do
  let g ← int c s group1
  let k ← int c s n
  let rs ← ints c s ranks1 k
  let g' ← int c s group2
  let qs ← ints c s ranks2 k
  let qs ← MPI_Group_translate_ranks g k rs g' qs
  let s ← stInts c.bo s ranks2 qs
  done c s ierror

/-- cart.c:10-17 (`periods` is passed on and not looked at) -/
def mpi_cart_create (c : FEnv) (s : Sys) (comm_old ndims dims _periods reorder comm_cart ierr : Int) : Res Sys := do
  let k ← int c s comm_old
  let n ← int c s ndims
  let ds ← ints c s dims n
  let _ ← int c s reorder
  let (s, h) ← MPI_Cart_create s k n ds
  let s ← stInt c.bo s comm_cart h
  done c s ierr

/-- cart.c:48-54 -/
def mpi_cart_get (c : FEnv) (s : Sys) (comm maxdims dims periods coords ierr : Int) : Res Sys := do
  let k ← int c s comm
  let n ← int c s maxdims
  let ds ← ints c s dims n
  let ps ← ints c s periods n
  let xs ← ints c s coords n
  let (ds, ps, xs) ← MPI_Cart_get k n ds ps xs
  let s ← stInts c.bo s dims ds
  let s ← stInts c.bo s periods ps
  let s ← stInts c.bo s coords xs
  done c s ierr

/-- cart.c:79-84 -/
def mpi_cart_coords (c : FEnv) (s : Sys) (comm rank maxdims coords ierr : Int) : Res Sys := do
  let k ← int c s comm
  let r ← int c s rank
  let n ← int c s maxdims
  let xs ← ints c s coords n
  let xs ← MPI_Cart_coords k r n xs
  let s ← stInts c.bo s coords xs
  done c s ierr

/-- cart.c:111-116 -/
def mpi_dims_create (c : FEnv) (s : Sys) (nnodes ndims dims ierr : Int) : Res Sys := do
  let k ← int c s nnodes
  let n ← int c s ndims
  let ds ← ints c s dims n
  let ds ← MPI_Dims_create k n ds
  let s ← stInts c.bo s dims ds
  done c s ierr

/-! ## collective.c -/

/-- collective.c:11-15 -/
def mpi_barrier (c : FEnv) (s : Sys) (comm ierror : Int) : Res Sys := do
  let k ← int c s comm
  let s ← MPI_Barrier s k
  done c s ierror

/-- collective.c:27-32 -/
def mpi_bcast (c : FEnv) (s : Sys) (buffer count datatype root comm ierror : Int) : Res Sys := do
  let n ← int c s count
  let t ← int c s datatype
  let r ← int c s root
  let k ← int c s comm
  let s ← MPI_Bcast s buffer n t r k
  done c s ierror

/-- collective.c:56-65 -/
def mpi_gather (c : FEnv) (s : Sys) (sendbuf sendcount sendtype recvbuf recvcount recvtype root comm ierror : Int) :
    Res Sys := do
  let sn ← int c s sendcount
  let st ← int c s sendtype
  let rn ← int c s recvcount
  let rt ← int c s recvtype
  let r ← int c s root
  let k ← int c s comm
  let s ← Fort.mpi_gather c.ptrs c.env s sendbuf sn st recvbuf rn rt r k
  done c s ierror

/-- collective.c:95-104 -/
def mpi_gatherv (c : FEnv) (s : Sys) (sendbuf sendcount sendtype recvbuf recvcounts displs recvtype root comm ierror : Int) :
    Res Sys := do
  let sn ← int c s sendcount
  let st ← int c s sendtype
  let rn ← ints c s recvcounts 1
  let ds ← ints c s displs 1
  let rt ← int c s recvtype
  let r ← int c s root
  let k ← int c s comm
  let s ← Fort.mpi_gatherv c.ptrs c.env s sendbuf sn st recvbuf rn ds rt r k
  done c s ierror

/-- collective.c:142-151 -/
def mpi_allgather (c : FEnv) (s : Sys) (sendbuf sendcount sendtype recvbuf recvcount recvtype comm ierror : Int) :
    Res Sys := do
  let sn ← int c s sendcount
  let st ← int c s sendtype
  let rn ← int c s recvcount
  let rt ← int c s recvtype
  let k ← int c s comm
  let s ← Fort.mpi_allgather c.ptrs c.env s sendbuf sn st recvbuf rn rt k
  done c s ierror

/-- collective.c:173-182 -/
def mpi_allgatherv (c : FEnv) (s : Sys) (sendbuf sendcount sendtype recvbuf recvcounts displs recvtype comm ierror : Int) :
    Res Sys := do
  let sn ← int c s sendcount
  let st ← int c s sendtype
  let rn ← ints c s recvcounts 1
  let ds ← ints c s displs 1
  let rt ← int c s recvtype
  let k ← int c s comm
  let s ← Fort.mpi_allgatherv c.ptrs c.env s sendbuf sn st recvbuf rn ds rt k
  done c s ierror

/-- collective.c:214-223 -/
def mpi_scatter (c : FEnv) (s : Sys) (sendbuf sendcount sendtype recvbuf recvcount recvtype root comm ierror : Int) :
    Res Sys := do
  let sn ← int c s sendcount
  let st ← int c s sendtype
  let rn ← int c s recvcount
  let rt ← int c s recvtype
  let r ← int c s root
  let k ← int c s comm
  let s ← Fort.mpi_scatter c.ptrs c.env s sendbuf sn st recvbuf rn rt r k
  done c s ierror

/-- collective.c:252-261 -/
def mpi_scatterv (c : FEnv) (s : Sys) (sendbuf sendcounts displs sendtype recvbuf recvcount recvtype root comm ierror : Int) :
    Res Sys := do
  let sn ← ints c s sendcounts 1
  let ds ← ints c s displs 1
  let st ← int c s sendtype
  let rn ← int c s recvcount
  let rt ← int c s recvtype
  let r ← int c s root
  let k ← int c s comm
  let s ← Fort.mpi_scatterv c.ptrs c.env s sendbuf sn ds st recvbuf rn rt r k
  done c s ierror

/-- collective.c:298-306 -/
def mpi_reduce (c : FEnv) (s : Sys) (sendbuf recvbuf count datatype op root comm ierror : Int) : Res Sys := do
  let n ← int c s count
  let t ← int c s datatype
  let o ← int c s op
  let r ← int c s root
  let k ← int c s comm
  let s ← Fort.mpi_reduce c.ptrs c.env s sendbuf recvbuf n t o r k
  done c s ierror

/-- collective.c:330-337 -/
def mpi_allreduce (c : FEnv) (s : Sys) (sendbuf recvbuf count datatype op comm ierror : Int) : Res Sys := do
  let n ← int c s count
  let t ← int c s datatype
  let o ← int c s op
  let k ← int c s comm
  let s ← Fort.mpi_allreduce c.ptrs c.env s sendbuf recvbuf n t o k
  done c s ierror

/-- collective.c:363-369 -/
def mpi_reduce_scatter (c : FEnv) (s : Sys) (sendbuf recvbuf recvcounts datatype op comm ierr : Int) : Res Sys := do
  let ns ← ints c s recvcounts 1
  let t ← int c s datatype
  let o ← int c s op
  let k ← int c s comm
  let s ← Fort.mpi_reduce_scatter c.ptrs c.env s sendbuf recvbuf ns t o k
  done c s ierr

/-- collective.c:383-391 -/
def mpi_scan (c : FEnv) (s : Sys) (sendbuf recvbuf count datatype op comm ierror : Int) : Res Sys := do
  let n ← int c s count
  let t ← int c s datatype
  let o ← int c s op
  let k ← int c s comm
  let s ← Fort.mpi_scan c.ptrs c.env s sendbuf recvbuf n t o k
  done c s ierror

/-- collective.c:406-415 -/
def mpi_alltoall (c : FEnv) (s : Sys) (sendbuf sendcount sendtype recvbuf recvcount recvtype comm ierror : Int) : Res Sys := do
  let sn ← int c s sendcount
  let st ← int c s sendtype
  let rn ← int c s recvcount
  let rt ← int c s recvtype
  let k ← int c s comm
  let s ← Fort.mpi_alltoall c.ptrs c.env s sendbuf sn st recvbuf rn rt k
  done c s ierror

/-- collective.c:432-442 -/
def mpi_alltoallv (c : FEnv) (s : Sys) (sendbuf sendcounts sdispls sendtype recvbuf recvcounts rdispls recvtype comm ierror : Int) :
    Res Sys := do
  let sn ← ints c s sendcounts 1
  let sd ← ints c s sdispls 1
  let st ← int c s sendtype
  let rn ← ints c s recvcounts 1
  let rd ← ints c s rdispls 1
  let rt ← int c s recvtype
  let k ← int c s comm
  let s ← Fort.mpi_alltoallv c.ptrs c.env s sendbuf sn sd st recvbuf rn rd rt k
  done c s ierror

/-- collective.c:477-487 -/
def mpi_alltoallw (c : FEnv) (s : Sys) (sendbuf sendcounts sdispls sendtypes recvbuf recvcounts rdispls recvtypes comm ierror : Int) :
    Res Sys := do
  let sn ← ints c s sendcounts 1
  let sd ← ints c s sdispls 1
  let st ← ints c s sendtypes 1
  let rn ← ints c s recvcounts 1
  let rd ← ints c s rdispls 1
  let rt ← ints c s recvtypes 1
  let k ← int c s comm
  let s ← Fort.mpi_alltoallw c.ptrs c.env s sendbuf sn sd st recvbuf rn rd rt k
  done c s ierror

/-! ## type.c, pack.c -/

/-- type.c:210-214 -/
def mpi_type_extent (c : FEnv) (s : Sys) (type extent ierr : Int) : Res Sys := do
  let t ← int c s type
  let (s, e) ← MPI_Type_extent c.env s t
  let s ← stLong c.bo s extent e
  done c s ierr

/-- type.c:391-398 -/
def mpi_type_struct (c : FEnv) (s : Sys) (count blocklens displacements oldtypes newtype ierror : Int) : Res Sys := do
  let n ← int c s count
  let bs ← ints c s blocklens n
  let ds ← aints c s displacements n
  let ts ← ints c s oldtypes n
  let (s, h) ← MPI_Type_struct c.env s n bs ds ts
  let s ← stInt c.bo s newtype h
  done c s ierror

/-- type.c:447-452 -/
def mpi_type_contiguous (c : FEnv) (s : Sys) (count oldtype newtype ierr : Int) : Res Sys := do
  let n ← int c s count
  let t ← int c s oldtype
  let (s, h) ← MPI_Type_contiguous c.env s n t
  let s ← stInt c.bo s newtype h
  done c s ierr

/-- type.c:486-492: `blocklen` and `stride` are read through `long *` and converted to `int` and
`MPI_Aint` -/
def mpi_type_hvector (c : FEnv) (s : Sys) (count blocklen stride oldtype newtype ierr : Int) : Res Sys := do
  let n ← int c s count
  let b ← ldLong c.bo s.mem blocklen
  let d ← ldLong c.bo s.mem stride
  let t ← int c s oldtype
  let (s, h) ← MPI_Type_hvector c.env s n (s32 b) (u64 d) t
  let s ← stInt c.bo s newtype h
  done c s ierr

/-- type.c:504-510 (`MPI_Type_create_hvector`, type.c:512-520, is the same function as `MPI_Type_hvector`) -/
def mpi_type_create_hvector (c : FEnv) (s : Sys) (count blocklen stride oldtype newtype ierr : Int) : Res Sys := do
  let n ← int c s count
  let b ← ldLong c.bo s.mem blocklen
  let d ← ldLong c.bo s.mem stride
  let t ← int c s oldtype
  let (s, h) ← MPI_Type_hvector c.env s n (s32 b) (u64 d) t
  let s ← stInt c.bo s newtype h
  done c s ierr

/-- type.c:539-546 -/
def mpi_type_vector (c : FEnv) (s : Sys) (count blocklen stride oldtype newtype ierr : Int) : Res Sys := do
  let n ← int c s count
  let b ← int c s blocklen
  let d ← int c s stride
  let t ← int c s oldtype
  let (s, h) ← MPI_Type_vector c.env s n b d t
  let s ← stInt c.bo s newtype h
  done c s ierr

/-- type.c:576-583 -/
def mpi_type_hindexed (c : FEnv) (s : Sys) (count blocklens displacements oldtype newtype ierr : Int) : Res Sys := do
  let n ← int c s count
  let bs ← ints c s blocklens n
  let ds ← aints c s displacements n
  let t ← int c s oldtype
  let (s, h) ← MPI_Type_hindexed c.env s n bs ds t
  let s ← stInt c.bo s newtype h
  done c s ierr

/-- type.c:614-620 -/
def mpi_type_indexed (c : FEnv) (s : Sys) (count blocklens displacements oldtype newtype ierr : Int) : Res Sys := do
  let n ← int c s count
  let bs ← ints c s blocklens n
  let ds ← ints c s displacements n
  let t ← int c s oldtype
  let (s, h) ← MPI_Type_indexed c.env s n bs ds t
  let s ← stInt c.bo s newtype h
  done c s ierr

/-- type.c:647-654 -/
def mpi_type_create_indexed_block (c : FEnv) (s : Sys) (count blocklen displacements oldtype newtype ierr : Int) : Res Sys := do
  let n ← int c s count
  let b ← int c s blocklen
  let ds ← ints c s displacements n
  let t ← int c s oldtype
  let (s, h) ← MPI_Type_create_indexed_block c.env s n b ds t
  let s ← stInt c.bo s newtype h
  done c s ierr

/-- type.c:701-705 -/
def mpi_type_size (c : FEnv) (s : Sys) (type size ierr : Int) : Res Sys := do
  let t ← int c s type
  let (s, n) ← MPI_Type_size c.env s t
  let s ← stInt c.bo s size n
  done c s ierr

/-- type.c:722-726 -/
def mpi_type_lb (c : FEnv) (s : Sys) (type lb ierr : Int) : Res Sys := do
  let t ← int c s type
  let (s, n) ← MPI_Type_lb c.env s t
  let s ← stLong c.bo s lb n
  done c s ierr

/-- type.c:744-748 -/
def mpi_type_ub (c : FEnv) (s : Sys) (type ub ierr : Int) : Res Sys := do
  let t ← int c s type
  let (s, n) ← MPI_Type_ub c.env s t
  let s ← stLong c.bo s ub n
  done c s ierr

/-- op.c:8-12 -/
def mpi_op_create (c : FEnv) (s : Sys) (func commute op ierr : Int) : Res Sys := do
  let k ← int c s commute
  let s ← match MPI_Op_create func k with
    | some x => stInt c.bo s op x
    | none => .ok s
  done c s ierr

/-- op.c:20-24 -/
def mpi_op_free (c : FEnv) (s : Sys) (op ierr : Int) : Res Sys := do
  let s ← match MPI_Op_free op with
    | some x => stInt c.bo s op x
    | none => .ok s
  done c s ierr

/-- info.c:9-13 -/
def mpi_info_create (c : FEnv) (s : Sys) (info ierror : Int) : Res Sys := do
  let s ← match MPI_Info_create with
    | some x => stInt c.bo s info x
    | none => .ok s
  done c s ierror

/-- info.c:28-32; key and value are not looked at -/
def mpi_info_set (c : FEnv) (s : Sys) (info _key _value ierror : Int) : Res Sys := do
  let _ ← int c s info
  done c s ierror

/-- info.c:51-55 -/
def mpi_info_free (c : FEnv) (s : Sys) (info ierror : Int) : Res Sys := do
  let s ← match MPI_Info_free info with
    | some x => stInt c.bo s info x
    | none => .ok s
  done c s ierror

/-- type.c:761-771 `FGet_address` and its binding; a pointer is an address in [0, 2^64) -/
def mpi_get_address (c : FEnv) (s : Sys) (loc address ierr : Int) : Res Sys := do
  let s ← stLong c.bo s address loc
  done c s ierr

/-- type.c:779-784 (the address is stored twice) -/
def mpi_address (c : FEnv) (s : Sys) (loc address ierr : Int) : Res Sys := do
  let s ← stLong c.bo s address loc
  let s ← stLong c.bo s address loc
  done c s ierr

/-- type.c:793-797 -/
def mpi_type_commit (c : FEnv) (s : Sys) (datatype ierr : Int) : Res Sys := do
  let t ← int c s datatype
  let s ← MPI_Type_commit c.env s t
  done c s ierr

/-- type.c:808-812 -/
def mpi_type_free (c : FEnv) (s : Sys) (datatype ierr : Int) : Res Sys := do
  let t ← int c s datatype
  let s ← MPI_Type_free s t
  done c s ierr

/-- pack.c:12-19 -/
def mpi_pack (c : FEnv) (s : Sys) (inbuf incount datatype outbuf outsize position comm ierror : Int) : Res Sys := do
  let n ← int c s incount
  let t ← int c s datatype
  let z ← int c s outsize
  let p ← int c s position
  let k ← int c s comm
  let (s, p) ← MPI_Pack c.env s inbuf n t outbuf z p k
  let s ← stInt c.bo s position p
  done c s ierror

/-- pack.c:77-82: the size is stored through `MPI_Aint *` -/
def mpi_pack_size (c : FEnv) (s : Sys) (incount datatype comm size ierr : Int) : Res Sys := do
  let n ← int c s incount
  let t ← int c s datatype
  let k ← int c s comm
  let (s, z) ← MPI_Pack_size c.env s n t k
  let s ← stLong c.bo s size z
  done c s ierr

/-- pack.c:103-111 -/
def mpi_unpack (c : FEnv) (s : Sys) (inbuf insize position outbuf outcount datatype comm ierror : Int) : Res Sys := do
  let z ← int c s insize
  let p ← int c s position
  let n ← int c s outcount
  let t ← int c s datatype
  let k ← int c s comm
  let (s, p) ← MPI_Unpack c.env s inbuf z p outbuf n t k
  let s ← stInt c.bo s position p
  done c s ierror

/-! ## mpi.c -/

/-- mpi.c:195-199 -/
def mpi_finalize (c : FEnv) (s : Sys) (ierror : Int) : Res Sys :=
  done c (MPI_Finalize s) ierror

/-- mpi.c:224-228 -/
def mpi_abort (c : FEnv) (s : Sys) (comm errorcode ierror : Int) : Res Sys := do
  let k ← int c s comm
  let e ← int c s errorcode
  MPI_Abort k e
  done c s ierror

/-- mpi.c:292-296 -/
def mpi_initialized (c : FEnv) (s : Sys) (flag ierror : Int) : Res Sys := do
  let s ← stInt c.bo s flag (MPI_Initialized s)
  done c s ierror

/-- mpi.c:345-348 -/
def mpi_get_version (c : FEnv) (s : Sys) (mpi_vers mpi_subvers ierror : Int) : Res Sys := do
  let s ← stInt c.bo s mpi_vers MPI_Get_Version.1
  let s ← stInt c.bo s mpi_subvers MPI_Get_Version.2
  done c s ierror

end Bind

end MpiSerial
