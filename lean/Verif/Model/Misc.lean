import Verif.Model.Group
import Verif.Model.Coll
import Verif.Model.P2P

/-!
# mpi.c, mpi.h/mpif.h/fort.F90: Fortran interface, strings

Character buffers are byte lists of the length the caller provides; an access behind the end is
`ub memAccess`.  `sprintf`, `strncpy`, `strlen`, `memset` follow the C standard.  What `gethostname`
returns and leaves in the buffer is a parameter.
-/

namespace MpiSerial

/-! ## Handle conversions (group.c and collective.c: see Model/Group and Model/Coll) -/

/-- comm.c:245-248 `MPI_Comm_f2c` -/
def MPI_Comm_f2c (comm : Int) : Int := comm
/-- comm.c:252-255 `MPI_Comm_c2f` -/
def MPI_Comm_c2f (comm : Int) : Int := comm
/-- req.c:297-300 `MPI_Request_f2c` -/
def MPI_Request_f2c (request : Int) : Int := request
/-- req.c:307-310 `MPI_Request_c2f` -/
def MPI_Request_c2f (request : Int) : Int := request

/-! ## Constants -/

/-- mpi.h:4-245: the `#define`d integer constants (pointer-valued ones are not listed).  Where the
model has a notation it is used here. -/
def mpi_h : List (String × Int) :=
  [("MPI_MAX_LIBRARY_VERSION_STRING", 80), ("MPI_COMM_WORLD", MPI_COMM_WORLD), ("MPI_COMM_NULL", MPI_COMM_NULL),
   ("MPI_GROUP_EMPTY", MPI_GROUP_EMPTY), ("MPI_GROUP_NULL", MPI_GROUP_NULL), ("MPI_SUCCESS", 0),
   ("MPI_ERR_BUFFER", -1), ("MPI_ERR_COUNT", -1), ("MPI_ERR_TYPE", -1), ("MPI_ERR_TAG", -1), ("MPI_ERR_COMM", -1),
   ("MPI_ERR_RANK", -1), ("MPI_ERR_REQUEST", -1), ("MPI_ERR_ROOT", -1), ("MPI_ERR_GROUP", -1), ("MPI_ERR_OP", -1),
   ("MPI_ERR_TOPOLOGY", -1), ("MPI_ERR_DIMS", -1), ("MPI_ERR_ARG", -1), ("MPI_ERR_UNKNOWN", -1),
   ("MPI_ERR_TRUNCATE", -1), ("MPI_ERR_OTHER", -1), ("MPI_ERR_INTERN", -1), ("MPI_PENDING", -1),
   ("MPI_ERR_IN_STATUS", -1), ("MPI_ERR_LASTCODE", -1), ("MPI_UNDEFINED", MPI_UNDEFINED), ("MPI_BOTTOM", 0),
   ("MPI_DATATYPE_NULL", 0), ("MPI_CHAR", -1), ("MPI_SIGNED_CHAR", -46), ("MPI_WCHAR", -47), ("MPI_SHORT", -2),
   ("MPI_INT", -3), ("MPI_LONG", -4), ("MPI_UNSIGNED_CHAR", -5), ("MPI_UNSIGNED_SHORT", -6), ("MPI_UNSIGNED", -7),
   ("MPI_UNSIGNED_LONG", -8), ("MPI_FLOAT", -9), ("MPI_DOUBLE", -10), ("MPI_LONG_DOUBLE", -11), ("MPI_BYTE", -12),
   ("MPI_PACKED", -13), ("MPI_LB", -14), ("MPI_UB", -15), ("MPI_INTEGER", -16), ("MPI_REAL", -17),
   ("MPI_DOUBLE_PRECISION", -18), ("MPI_COMPLEX", -19), ("MPI_DOUBLE_COMPLEX", -20), ("MPI_LOGICAL", -21),
   ("MPI_CHARACTER", -22), ("MPI_2REAL", -23), ("MPI_2DOUBLE_PRECISION", -24), ("MPI_2INTEGER", -25),
   ("MPI_FLOAT_INT", -26), ("MPI_DOUBLE_INT", -27), ("MPI_LONG_INT", -28), ("MPI_2INT", -29), ("MPI_SHORT_INT", -30),
   ("MPI_LONG_DOUBLE_INT", -31), ("MPI_INTEGER1", -32), ("MPI_INTEGER2", -33), ("MPI_INTEGER4", -34),
   ("MPI_INTEGER8", -35), ("MPI_INTEGER16", -36), ("MPI_REAL4", -37), ("MPI_REAL8", -38), ("MPI_REAL16", -39),
   ("MPI_COMPLEX8", -40), ("MPI_COMPLEX16", -41), ("MPI_COMPLEX32", -42), ("MPI_LONG_LONG_INT", -43),
   ("MPI_LONG_LONG", -43), ("MPI_UNSIGNED_LONG_LONG", -44), ("MPI_OFFSET", -45), ("MPI_ANY_TAG", MPI_ANY_TAG),
   ("MPI_ANY_SOURCE", MPI_ANY_SOURCE), ("MPI_PROC_NULL", MPI_PROC_NULL), ("MPI_ROOT", MPI_ROOT),
   ("MPI_REQUEST_NULL", MPI_REQUEST_NULL), ("MPI_MAX_ERROR_STRING", 128), ("MPI_MAX_PROCESSOR_NAME", 128),
   ("MPI_THREAD_SINGLE", 0), ("MPI_THREAD_FUNNELED", 1), ("MPI_THREAD_SERIALIZED", 2), ("MPI_THREAD_MULTIPLE", 3),
   ("MPI_ERRORS_ARE_FATAL", 0), ("MPI_ERRORS_RETURN", -1), ("MPI_OP_NULL", 0), ("MPI_MAX", 0), ("MPI_MIN", 0),
   ("MPI_SUM", 0), ("MPI_PROD", 0), ("MPI_LAND", 0), ("MPI_BAND", 0), ("MPI_LOR", 0), ("MPI_BOR", 0),
   ("MPI_LXOR", 0), ("MPI_BXOR", 0), ("MPI_MAXLOC", 0), ("MPI_MINLOC", 0), ("MPI_STATUS_SIZE", 4),
   ("MPI_INFO_NULL", 0)]

/-- mpif.h:6-344: the `parameter`s (MPI_OFFSET_KIND, a kind number, is left out). -/
def mpif_h : List (String × Int) :=
  [("MPI_COMM_WORLD", 1), ("MPI_BOTTOM", 0), ("MPI_ANY_SOURCE", -1), ("MPI_ANY_TAG", -1), ("MPI_TAG_UB", 1681915906),
   ("MPI_PROC_NULL", -2), ("MPI_ROOT", -3), ("MPI_COMM_NULL", 0), ("MPI_REQUEST_NULL", 0), ("MPI_GROUP_NULL", 0),
   ("MPI_GROUP_EMPTY", -1), ("MPI_MAX_ERROR_STRING", 128), ("MPI_MAX_PROCESSOR_NAME", 128), ("MPI_SUCCESS", 0),
   ("MPI_ERR_BUFFER", -1), ("MPI_ERR_COUNT", -1), ("MPI_ERR_TYPE", -1), ("MPI_ERR_TAG", -1), ("MPI_ERR_COMM", -1),
   ("MPI_ERR_RANK", -1), ("MPI_ERR_REQUEST", -1), ("MPI_ERR_ROOT", -1), ("MPI_ERR_GROUP", -1), ("MPI_ERR_OP", -1),
   ("MPI_ERR_TOPOLOGY", -1), ("MPI_ERR_DIMS", -1), ("MPI_ERR_ARG", -1), ("MPI_ERR_UNKNOWN", -1),
   ("MPI_ERR_TRUNCATE", -1), ("MPI_ERR_OTHER", -1), ("MPI_ERR_INTERN", -1), ("MPI_PENDING", -1),
   ("MPI_ERR_IN_STATUS", -1), ("MPI_ERR_LASTCODE", -1), ("MPI_ERRORS_RETURN", -1), ("MPI_THREAD_SINGLE", 0),
   ("MPI_THREAD_FUNNELED", 1), ("MPI_THREAD_SERIALIZED", 2), ("MPI_THREAD_MULTIPLE", 3), ("MPI_UNDEFINED", -1),
   ("MPI_STATUS_SIZE", 4), ("MPI_SOURCE", 1), ("MPI_TAG", 2), ("MPI_ERROR", 3), ("MPI_DATATYPE_NULL", 0),
   ("MPI_BYTE", -12), ("MPI_PACKED", -13), ("MPI_LB", -14), ("MPI_UB", -15), ("MPI_INTEGER", -16), ("MPI_REAL", -17),
   ("MPI_DOUBLE_PRECISION", -18), ("MPI_COMPLEX", -19), ("MPI_DOUBLE_COMPLEX", -20), ("MPI_LOGICAL", -21),
   ("MPI_CHARACTER", -22), ("MPI_2REAL", -23), ("MPI_2DOUBLE_PRECISION", -24), ("MPI_2INTEGER", -25),
   ("MPI_INTEGER1", -32), ("MPI_INTEGER2", -33), ("MPI_INTEGER4", -34), ("MPI_INTEGER8", -35), ("MPI_INTEGER16", -36),
   ("MPI_REAL4", -37), ("MPI_REAL8", -38), ("MPI_REAL16", -39), ("MPI_COMPLEX8", -40), ("MPI_COMPLEX16", -41),
   ("MPI_COMPLEX32", -42), ("MPI_LONG_LONG_INT", -43), ("MPI_LONG_LONG", -43), ("MPI_UNSIGNED_LONG_LONG", -44),
   ("MPI_OFFSET", -45), ("MPI_SUM", 0), ("MPI_MAX", 0), ("MPI_MIN", 0), ("MPI_PROD", 0), ("MPI_LAND", 0),
   ("MPI_BAND", 0), ("MPI_LOR", 0), ("MPI_BOR", 0), ("MPI_LXOR", 0), ("MPI_BXOR", 0), ("MPI_MINLOC", 0),
   ("MPI_MAXLOC", 0), ("MPI_OP_NULL", 0), ("MPI_MODE_RDONLY", 0), ("MPI_MODE_CREATE", 1), ("MPI_MODE_RDWR", 2),
   ("MPI_INFO_NULL", 0), ("MPI_MAX_LIBRARY_VERSION_STRING", 80), ("MPI_VERSION", 1), ("MPI_SUBVERSION", 0)]

/-- Value of a constant named in a header; a name that is not there does not compile, which is no
case of the model (the default is never reached for the names used below, see `C41_constants`). -/
def headerConst (t : List (String × Int)) (name : String) : Int := (t.lookup name).getD (-99999)

/-! ## mpi_init_fort -/

/-- mpi.c:30-48 the arguments of `mpi_init_fort` (the `int *` ones by value).  Unused are `fsource`,
`ftag`, `ferror`; `f_status` cancels out of every expression. -/
structure FortArgs where
  const : String → Int        -- `*f_<name>`
  fint1 : Int
  fint2 : Int
  flog1 : Int
  flog2 : Int
  freal1 : Int
  freal2 : Int
  fdub1 : Int
  fdub2 : Int
  fcomp1 : Int
  fcomp2 : Int

/-- mpi.c:74-79 `verify_eq`: the value of `err` after it. -/
def verify_eq (a : FortArgs) (name : String) (err : Int) : Int :=
  if a.const name ≠ headerConst mpi_h name then 1 else err

/-- mpi.c:97-103 `verify_size`: `size` is an `int`. -/
def verify_size (env : Env) (a : FortArgs) (name : String) (p1 p2 : Int) (s : Sys) (err : Int) : Res (Sys × Int) := do
  let (s, t) ← typeOf env s (a.const name)
  let p ← t.pair 0
  let len ← Simpletype_length env.cfg p.type
  return (s, if s32 (s64 (p2 - p1)) ≠ len then 1 else err)

/-- mpi.c:112-118 `verify_field`: member `name` of MPI_Status (mpi.h:183-190) is at byte `offset`;
the comparison is done in `unsigned long`. -/
def verify_field (a : FortArgs) (name : String) (offset : Int) (err : Int) : Res Int := do
  let d ← ck32 (a.const name - 1)
  return if u64 offset ≠ u64 (u64 d * 4) then 1 else err

/-- mpi.c:29-156 `mpi_init_fort` after MPI_Init (line 54): the checks.  `verify_eq_warn(MPI_REAL)`
(line 145) only prints. -/
def mpi_init_fort_checks (env : Env) (a : FortArgs) (s : Sys) : Res Sys := do
  let err := verify_eq a "MPI_COMM_WORLD" 0
  let err := verify_eq a "MPI_ANY_SOURCE" err
  let err := verify_eq a "MPI_ANY_TAG" err
  let err := verify_eq a "MPI_PROC_NULL" err
  let err := verify_eq a "MPI_ROOT" err
  let err := verify_eq a "MPI_COMM_NULL" err
  let err := verify_eq a "MPI_REQUEST_NULL" err
  let err := verify_eq a "MPI_GROUP_NULL" err
  let err := verify_eq a "MPI_GROUP_EMPTY" err
  let err := verify_eq a "MPI_UNDEFINED" err
  let err := verify_eq a "MPI_MAX_ERROR_STRING" err
  let err := verify_eq a "MPI_MAX_PROCESSOR_NAME" err
  let err := verify_eq a "MPI_STATUS_SIZE" err
  let err ← verify_field a "MPI_SOURCE" 0 err
  let err ← verify_field a "MPI_TAG" 4 err
  let err ← verify_field a "MPI_ERROR" 8 err
  let err := verify_eq a "MPI_INTEGER" err
  let (s, err) ← verify_size env a "MPI_INTEGER" a.fint1 a.fint2 s err
  let (s, err) ← verify_size env a "MPI_LOGICAL" a.flog1 a.flog2 s err
  let (s, err) ← verify_size env a "MPI_REAL" a.freal1 a.freal2 s err
  let err := verify_eq a "MPI_DOUBLE_PRECISION" err
  let (s, err) ← verify_size env a "MPI_DOUBLE_PRECISION" a.fdub1 a.fdub2 s err
  let (s, err) ← verify_size env a "MPI_COMPLEX" a.fcomp1 a.fcomp2 s err
  if err ≠ 0 then .abort "mpi-serial: mpi_init_fort" else return s

/-- mpi.c:29-156 `mpi_init_fort` -/
def mpi_init_fort (env : Env) (a : FortArgs) (s : Sys) : Res Sys := do
  let s ← MPI_Init s
  mpi_init_fort_checks env a s

/-- Storage sizes (bytes) of the default Fortran kinds as the Fortran compiler lays them out. -/
structure FortSizes where
  integer : Int
  logical : Int
  real : Int
  double : Int
  complex : Int

/-- Addresses of the local arrays of `mpi_init` (fort.F90:15-19). -/
structure FortLocals where
  fint : Int
  flog : Int
  freal : Int
  fdub : Int
  fcomp : Int

/-- fort.F90:30-47: the actual arguments: `parameter`s from mpif.h, and the addresses of elements 1
and 2 of each array. -/
def fortArgs (z : FortSizes) (p : FortLocals) : FortArgs :=
  { const := headerConst mpif_h
    fint1 := p.fint, fint2 := p.fint + z.integer, flog1 := p.flog, flog2 := p.flog + z.logical
    freal1 := p.freal, freal2 := p.freal + z.real, fdub1 := p.fdub, fdub2 := p.fdub + z.double
    fcomp1 := p.fcomp, fcomp2 := p.fcomp + z.complex }

/-- fort.F90:10-51 Fortran `mpi_init`. -/
def Fort.mpi_init (env : Env) (z : FortSizes) (p : FortLocals) (s : Sys) : Res Sys :=
  mpi_init_fort env (fortArgs z p) s

/-- fort.F90:1-8 Fortran `mpi_init_thread`: state and `provided`. -/
def Fort.mpi_init_thread (env : Env) (z : FortSizes) (p : FortLocals) (s : Sys) (required : Int) : Res (Sys × Int) := do
  let s ← Fort.mpi_init env z p s
  return (s, required)

/-! ## Strings -/

/-- `char *` argument: the bytes the caller provides. -/
abbrev CBuf := List UInt8

/-- `strlen`: reading past the end without finding a NUL is undefined. -/
def strlen : CBuf → Res Int
  | [] => .ub .memAccess
  | c :: cs => if c = 0 then .ok 0 else do let n ← strlen cs; return n + 1

/-- Store `text` at `buf[at..]`. -/
def putBytes (buf : CBuf) (at_ : Nat) (text : List UInt8) : Res CBuf :=
  if at_ + text.length ≤ buf.length then .ok (buf.take at_ ++ text ++ buf.drop (at_ + text.length))
  else .ub .memAccess

/-- `strncpy(dst, src, n)`, `src` given without its NUL: exactly `n` bytes are written. -/
def strncpy (dst : CBuf) (src : List UInt8) (n : Nat) : Res CBuf :=
  putBytes dst 0 (src.take n ++ List.replicate (n - src.length) 0)

/-- Decimal digits of a natural number, most significant first. -/
def digits (n : Nat) : List UInt8 :=
  if n < 10 then [UInt8.ofNat (48 + n)] else digits (n / 10) ++ [UInt8.ofNat (48 + n % 10)]
termination_by n

/-- What `%d` prints. -/
def printInt (x : Int) : List UInt8 := if x < 0 then 45 :: digits x.natAbs else digits x.natAbs

/-- Bytes of a string literal. -/
def lit (s : String) : List UInt8 := s.toList.map fun c => UInt8.ofNat c.toNat

/-- mpi.c:252-258 `MPI_Error_string`: buffer and `*resultlen`. -/
def MPI_Error_string (errorcode : Int) (string : CBuf) : Res (CBuf × Int) := do
  let string ← putBytes string 0 (lit "MPI Error: code " ++ printInt errorcode ++ lit "\n" ++ [0])
  let n ← strlen string
  return (string, s32 n)

/-- mpi.c:272-286 `MPI_Get_processor_name`; `gethostname` returned `ret` and wrote `host` at the start
of the buffer. -/
def MPI_Get_processor_name (ret : Int) (host : List UInt8) (name : CBuf) : Res (CBuf × Int) := do
  let name ← putBytes name 0 host
  let name ← if ret ≠ 0 then strncpy name (lit "unknown host name") 128 else .ok name
  let name ← putBytes name 127 [0]
  let n ← strlen name
  return (name, s32 n)

/-- mpi.c:16 -/
def mpi_version_string : List UInt8 := lit "mpi-serial 2.5.0"

/-- mpi.c:309-318 `MPI_Get_library_version` -/
def MPI_Get_library_version (version : CBuf) : Res (CBuf × Int) := do
  let version ← strncpy version mpi_version_string 80
  let version ← putBytes version 79 [0]
  let n ← strlen version
  return (version, s32 n)

/-- mpi.c:321-332 Fortran `mpi_get_library_version` -/
def Fort.mpi_get_library_version (version : CBuf) : Res (CBuf × Int) := do
  let (version, resultlen) ← MPI_Get_library_version version
  if resultlen > 79 then .abort "mpi_get_library_version"
  else
    let version ← putBytes version resultlen.toNat (List.replicate (80 - resultlen).toNat 32)
    return (version, resultlen)

/-- mpi.c:243-249 Fortran `mpi_error_string` -/
def Fort.mpi_error_string (errorcode : Int) (string : CBuf) : Res (CBuf × Int) := MPI_Error_string errorcode string

/-- mpi.c:264-269 Fortran `mpi_get_processor_name` -/
def Fort.mpi_get_processor_name (ret : Int) (host : List UInt8) (name : CBuf) : Res (CBuf × Int) :=
  MPI_Get_processor_name ret host name

/-- mpi.c:336-342 `MPI_Get_Version` -/
def MPI_Get_Version : Int × Int := (1, 0)

/-! ## Sentinels -/

/-- mpi.c:12-14 `f_MPI_STATUS_IGNORE`, `f_MPI_STATUSES_IGNORE`, `f_MPI_IN_PLACE`. -/
structure FPtrs where
  status : Int
  statuses : Int
  in_place : Int
  deriving DecidableEq, Repr

/-- Static pointers start as null. -/
def FPtrs.start : FPtrs := ⟨0, 0, 0⟩

/-- mpif.h:141-151 addresses in COMMON block /MPISERIAL/ placed at `b`, INTEGER of 4 bytes (which the
checks of `mpi_init_fort` establish): two arrays of 4 INTEGERs, then one INTEGER. -/
def commonBlock (b : Int) : FPtrs := ⟨b, b + 16, b + 32⟩

/-- mpi.c:356-361 `mpi_save_fort_pointers` (the old values are overwritten). -/
def mpi_save_fort_pointers (_ : FPtrs) (status statuses in_place : Int) : FPtrs := ⟨status, statuses, in_place⟩

/-- fort.F90:62-68 `mpi_get_fort_pointers` -/
def mpi_get_fort_pointers (b : Int) (f : FPtrs) : FPtrs :=
  mpi_save_fort_pointers f (commonBlock b).status (commonBlock b).statuses (commonBlock b).in_place

/-- mpi.c:365-371 `mpi_c_status`: a pointer (`MPI_STATUS_IGNORE` is 0, mpi.h:193). -/
def mpi_c_status (f : FPtrs) (status : Int) : Int := if status = f.status then 0 else status

/-- mpi.c:374-380 `mpi_c_statuses` -/
def mpi_c_statuses (f : FPtrs) (statuses : Int) : Int := if statuses = f.statuses then 0 else statuses

/-- mpi.c:383-389 `mpi_c_in_place` -/
def mpi_c_in_place (f : FPtrs) (buffer : Int) : Int := if buffer = f.in_place then MPI_IN_PLACE else buffer

/-! ## Fortran bindings that take a buffer or a status

`*ierror` is always set to MPI_SUCCESS (what the C function returns) and left out. -/

namespace Fort

/-- collective.c:56-65 -/
def mpi_gather (f : FPtrs) (env : Env) (s : Sys) (sendbuf sendcount sendtype recvbuf recvcount recvtype root comm : Int) :
    Res Sys := MPI_Gather env s (mpi_c_in_place f sendbuf) sendcount sendtype recvbuf recvcount recvtype root comm
/-- collective.c:95-104 -/
def mpi_gatherv (f : FPtrs) (env : Env) (s : Sys) (sendbuf sendcount sendtype recvbuf : Int) (recvcounts displs : List Int)
    (recvtype root comm : Int) : Res Sys :=
  MPI_Gatherv env s (mpi_c_in_place f sendbuf) sendcount sendtype recvbuf recvcounts displs recvtype root comm
/-- collective.c:142-151 -/
def mpi_allgather (f : FPtrs) (env : Env) (s : Sys) (sendbuf sendcount sendtype recvbuf recvcount recvtype comm : Int) :
    Res Sys := MPI_Allgather env s (mpi_c_in_place f sendbuf) sendcount sendtype recvbuf recvcount recvtype comm
/-- collective.c:173-182 -/
def mpi_allgatherv (f : FPtrs) (env : Env) (s : Sys) (sendbuf sendcount sendtype recvbuf : Int)
    (recvcounts displs : List Int) (recvtype comm : Int) : Res Sys :=
  MPI_Allgatherv env s (mpi_c_in_place f sendbuf) sendcount sendtype recvbuf recvcounts displs recvtype comm
/-- collective.c:214-223 -/
def mpi_scatter (f : FPtrs) (env : Env) (s : Sys) (sendbuf sendcount sendtype recvbuf recvcount recvtype root comm : Int) :
    Res Sys := MPI_Scatter env s sendbuf sendcount sendtype (mpi_c_in_place f recvbuf) recvcount recvtype root comm
/-- collective.c:252-261 -/
def mpi_scatterv (f : FPtrs) (env : Env) (s : Sys) (sendbuf : Int) (sendcounts displs : List Int)
    (sendtype recvbuf recvcount recvtype root comm : Int) : Res Sys :=
  MPI_Scatterv env s sendbuf sendcounts displs sendtype (mpi_c_in_place f recvbuf) recvcount recvtype root comm
/-- collective.c:298-306 -/
def mpi_reduce (_ : FPtrs) (env : Env) (s : Sys) (sendbuf recvbuf count datatype op root comm : Int) : Res Sys :=
  MPI_Reduce env s sendbuf recvbuf count datatype op root comm
/-- collective.c:330-338 -/
def mpi_allreduce (_ : FPtrs) (env : Env) (s : Sys) (sendbuf recvbuf count datatype op comm : Int) : Res Sys :=
  MPI_Allreduce env s sendbuf recvbuf count datatype op comm
/-- collective.c:363-369 -/
def mpi_reduce_scatter (_ : FPtrs) (env : Env) (s : Sys) (sendbuf recvbuf : Int) (recvcounts : List Int)
    (datatype op comm : Int) : Res Sys := MPI_Reduce_scatter env s sendbuf recvbuf recvcounts datatype op comm
/-- collective.c:383-391 -/
def mpi_scan (_ : FPtrs) (env : Env) (s : Sys) (sendbuf recvbuf count datatype op comm : Int) : Res Sys :=
  MPI_Scan env s sendbuf recvbuf count datatype op comm
/-- collective.c:406-415 -/
def mpi_alltoall (_ : FPtrs) (env : Env) (s : Sys) (sendbuf sendcount sendtype recvbuf recvcount recvtype comm : Int) :
    Res Sys := MPI_Alltoall env s sendbuf sendcount sendtype recvbuf recvcount recvtype comm
/-- collective.c:432-443 -/
def mpi_alltoallv (_ : FPtrs) (env : Env) (s : Sys) (sendbuf : Int) (sendcounts sdispls : List Int)
    (sendtype recvbuf : Int) (recvcounts rdispls : List Int) (recvtype comm : Int) : Res Sys :=
  MPI_Alltoallv env s sendbuf sendcounts sdispls sendtype recvbuf recvcounts rdispls recvtype comm
/-- collective.c:477-488 -/
def mpi_alltoallw (_ : FPtrs) (env : Env) (s : Sys) (sendbuf : Int) (sendcounts sdispls sendtypes : List Int)
    (recvbuf : Int) (recvcounts rdispls recvtypes : List Int) (comm : Int) : Res Sys :=
  MPI_Alltoallw env s sendbuf sendcounts sdispls sendtypes recvbuf recvcounts rdispls recvtypes comm

/-- The C pointer `p` as the model's status argument: null, or the object `st` at that address. -/
def statusArg (p : Int) (st : Status) : StPtr := if p = 0 then .null else .obj st
/-- The C pointer `p` as the model's status-array argument. -/
def statusesArg (p : Int) (sts : List Status) : StArr := if p = 0 then none else some sts

/-- recv.c:112-119; the Fortran status array is at `status` and holds `st` -/
def mpi_recv (f : FPtrs) (env : Env) (s : Sys) (buf count datatype source tag comm status : Int) (st : Status) :=
  MPI_Recv env s buf count datatype source tag comm (statusArg (mpi_c_status f status) st)
/-- send.c:219-229 -/
def mpi_sendrecv (f : FPtrs) (env : Env) (s : Sys) (sendbuf sendcount sendtype dest sendtag recvbuf recvcount recvtype
    source recvtag comm status : Int) (st : Status) :=
  MPI_Sendrecv env s sendbuf sendcount sendtype dest sendtag recvbuf recvcount recvtype source recvtag comm
    (statusArg (mpi_c_status f status) st)
/-- probe.c:10-15 -/
def mpi_iprobe (f : FPtrs) (s : Sys) (source tag comm status : Int) (st : Status) :=
  MPI_Iprobe s source tag comm (statusArg (mpi_c_status f status) st)
/-- probe.c:66-71 -/
def mpi_probe (f : FPtrs) (s : Sys) (source tag comm status : Int) (st : Status) :=
  MPI_Probe s source tag comm (statusArg (mpi_c_status f status) st)
/-- req.c:10-15 -/
def mpi_test (f : FPtrs) (s : Sys) (request status : Int) (st : Status) :=
  MPI_Test s request (statusArg (mpi_c_status f status) st)
/-- req.c:56-60 -/
def mpi_wait (f : FPtrs) (s : Sys) (request status : Int) (st : Status) :=
  MPI_Wait s request (statusArg (mpi_c_status f status) st)
/-- req.c:83-89 -/
def mpi_waitany (f : FPtrs) (s : Sys) (count : Int) (reqs : List Int) (index status : Int) (st : Status) :=
  MPI_Waitany s count reqs index (statusArg (mpi_c_status f status) st)
/-- req.c:117-124 -/
def mpi_testany (f : FPtrs) (s : Sys) (count : Int) (reqs : List Int) (index status : Int) (st : Status) :=
  MPI_Testany s count reqs index (statusArg (mpi_c_status f status) st)
/-- req.c:149-156 -/
def mpi_testall (f : FPtrs) (s : Sys) (count : Int) (reqs : List Int) (statuses : Int) (sts : List Status) :=
  MPI_Testall s count reqs (statusesArg (mpi_c_statuses f statuses) sts)
/-- req.c:182-189 -/
def mpi_waitall (f : FPtrs) (s : Sys) (count : Int) (reqs : List Int) (statuses : Int) (sts : List Status) :=
  MPI_Waitall s count reqs (statusesArg (mpi_c_statuses f statuses) sts)
/-- req.c:217-224 -/
def mpi_testsome (f : FPtrs) (s : Sys) (incount : Int) (reqs indices : List Int) (statuses : Int) (sts : List Status) :=
  MPI_Testsome s incount reqs indices (statusesArg (mpi_c_statuses f statuses) sts)
/-- req.c:250-257 -/
def mpi_waitsome (f : FPtrs) (s : Sys) (incount : Int) (reqs indices : List Int) (statuses : Int) (sts : List Status) :=
  MPI_Waitsome s incount reqs indices (statusesArg (mpi_c_statuses f statuses) sts)

end Fort

end MpiSerial
