import Verif.Model.Fort
import Verif.Proofs.Demo

/-!
# tests/ftest.F90 and tests/ftest_old.F90 replayed

Validation of the model of the Fortran bindings, not a proof about the library: every test subroutine that the main
program of tests/ftest.F90 calls (ftest.F90:5-772, without TEST_INTERNAL) is transcribed and run in the model, in the order
of the main program, each in the state the previous ones left, and so is tests/ftest_old.F90.  The kernel computes that
every comparison the tests make comes out as they expect.  Variables are at arbitrary distinct addresses, every constant
argument has a place of its own, memory never written holds 0xAA, the machine is little-endian, and values that are
REAL, DOUBLE PRECISION or COMPLEX in the tests are arbitrary bit patterns.  ftest_old.F90 calls MPI_UNPACK without the
last argument, which is undefined; here the argument is supplied.  Nothing else in the project depends on this file.
-/

set_option autoImplicit false

namespace MpiSerial.FTest

open MpiSerial.Bind

/-- The sentinels are at addresses the tests do not use. -/
def c : FEnv := ⟨env0, .little, ⟨1, 2, 3⟩⟩

/-- Bytes of a little-endian value. -/
def le : Nat → Int → List UInt8
  | 0, _ => []
  | n + 1, x => UInt8.ofNat (x % 256).toNat :: le n (x / 256)

/-- The program assigns to variables. -/
def poke (s : Sys) (a : Int) (l : List UInt8) : Sys :=
  { s with mem := fun x => if a ≤ x ∧ x < a + l.length then l[(x - a).toNat]? else s.mem x }

/-- Arrays of elements of `n` bytes. -/
def arr (s : Sys) (a : Int) (n : Nat) (l : List Int) : Sys := poke s a (l.flatMap (le n))

/-- Place of the `k`-th constant argument of a call. -/
def at_ (k : Int) : Int := 90000 + 16 * k

/-- Puts the constant arguments of a call into their places. -/
def consts (s : Sys) (l : List Int) : Sys := poke s 90000 (l.flatMap fun v => le 4 v ++ List.replicate 12 0x55)

/-- `n` bytes at `a` equal those at `b`. -/
def same (s : Sys) (a b : Int) (n : Nat) : Bool :=
  (List.range n).all fun (i : Nat) => (s.mem (a + i)).isSome && s.mem (a + i) == s.mem (b + i)

/-- Elements with these (Fortran) indices of two arrays of elements of `n` bytes agree. -/
def agree (s : Sys) (a b : Int) (n : Nat) (l : List Nat) : Bool :=
  l.all fun (i : Nat) => same s (a + n * (i - 1)) (b + n * (i - 1)) n

def upto (n : Nat) : List Int := (List.range n).map fun (i : Nat) => (i : Int) + 1

def a : Int := 1000
def b : Int := 3000
def blens : Int := 5000
def disps : Int := 5100
def dt : Int := 6000
def dt2 : Int := 6010
def req : Int := 6020
def ierr : Int := 6030
def pos : Int := 6040
def ext : Int := 6050
def INTEGER : Int := -16
def REAL : Int := -17
def DOUBLE : Int := -18
def COMPLEX : Int := -19
def DCOMPLEX : Int := -20
def LOGICAL : Int := -21
def CHARACTER : Int := -22
def PACKED : Int := -13
def WORLD : Int := 1

/-- Send `n` items of a type at `a` and receive as `k` items of another at `b`, as almost all the tests do. -/
def sendRecv (s : Sys) (n t k u : Int) : Res Sys := do
  let s ← mpi_isend c (consts s [n, 0, 0, WORLD]) a (at_ 0) t (at_ 1) (at_ 2) (at_ 3) req ierr
  mpi_irecv c (consts s [k, MPI_ANY_SOURCE, MPI_ANY_TAG, WORLD]) b (at_ 0) u (at_ 1) (at_ 2) (at_ 3) req ierr

/-- ftest.F90:52-83 -/
def test_contiguous (s : Sys) : Res (Sys × Bool) := do
  let s := arr (arr s a 4 (upto 5)) b 4 (List.replicate 5 0)
  let s ← mpi_type_contiguous c (consts s [5, INTEGER]) (at_ 0) (at_ 1) dt ierr
  let s ← mpi_type_commit c s dt ierr
  let s ← sendRecv s 1 dt 1 dt
  return (s, agree s a b 4 [1, 2, 3, 4, 5])

/-- ftest.F90:90-123 -/
def test_vector (s : Sys) : Res (Sys × Bool) := do
  let s := arr (arr s a 4 (upto 10)) b 4 (List.replicate 10 0)
  let s ← mpi_type_vector c (consts s [3, 2, 3, INTEGER]) (at_ 0) (at_ 1) (at_ 2) (at_ 3) dt ierr
  let s ← mpi_type_commit c s dt ierr
  let s ← sendRecv s 1 dt 1 dt
  return (s, agree s a b 4 [1, 2, 4, 5, 7, 8])

/-- ftest.F90:132-168; `4 * extent` is computed by the program (here at `ext`). -/
def test_simple_hvector (s : Sys) : Res (Sys × Bool) := do
  let s := arr (arr s a 4 (upto 10)) b 4 (List.replicate 10 0)
  let s ← mpi_type_extent c (consts s [INTEGER]) (at_ 0) ext ierr
  let e ← ldLong .little s.mem ext
  let s := arr s ext 8 [4 * e]
  let s ← mpi_type_hvector c (consts s [3, 2, INTEGER]) (at_ 0) (at_ 1) ext (at_ 2) dt ierr
  let s ← mpi_type_commit c s dt ierr
  let s ← sendRecv s 1 dt 1 dt
  return (s, agree s a b 4 [1, 2, 5, 6, 9, 10])

/-- ftest.F90:174-214 -/
def test_simple_indexed (s : Sys) : Res (Sys × Bool) := do
  let s := arr (arr s a 16 (upto 15)) b 16 (List.replicate 15 0)
  let s := arr (arr s blens 4 [2, 1, 3]) disps 4 [5, 0, 10]
  let s ← mpi_type_indexed c (consts s [3, DCOMPLEX]) (at_ 0) blens disps (at_ 1) dt ierr
  let s ← mpi_type_commit c s dt ierr
  let s ← sendRecv s 1 dt 1 dt
  return (s, agree s a b 16 [1, 6, 7, 11, 12, 13])

/-- ftest.F90:220-266 -/
def test_simple_bindexed (s : Sys) : Res (Sys × Bool) := do
  let s := arr (arr s a 4 (upto 10)) b 4 (List.replicate 10 0)
  let s := arr s disps 4 [0, 4, 7]
  let s ← mpi_type_create_indexed_block c (consts s [3, 2, INTEGER]) (at_ 0) (at_ 1) disps (at_ 2) dt ierr
  let s ← mpi_type_commit c s dt ierr
  let s ← sendRecv s 1 dt 1 dt
  return (s, agree s a b 4 [1, 2, 5, 6, 8, 9] && agree (arr s 9000 4 (List.replicate 10 0)) 9000 b 4 [3, 4, 7, 10])

/-- ftest.F90:272-319; MPI_SEND gets `req` for its last argument. -/
def test_simple_bindexed2 (s : Sys) : Res (Sys × Bool) := do
  let s := arr (arr s a 4 (upto 8)) b 4 (List.replicate 8 (-1))
  let s := arr s disps 4 [1, 3, 5, 7]
  let s ← mpi_type_create_indexed_block c (consts s [4, 1, INTEGER]) (at_ 0) (at_ 1) disps (at_ 2) dt ierr
  let s ← mpi_type_commit c s dt ierr
  let s ← mpi_irecv c (consts s [1, MPI_ANY_SOURCE, MPI_ANY_TAG, WORLD]) b (at_ 0) dt (at_ 1) (at_ 2) (at_ 3) req ierr
  let s ← mpi_send c (consts s [4, INTEGER, 0, 0, WORLD]) a (at_ 0) (at_ 1) (at_ 2) (at_ 3) (at_ 4) req
  return (s, agree (arr s 9000 4 [-1, 1, -1, 2, -1, 3, -1, 4]) 9000 b 4 [1, 2, 3, 4, 5, 6, 7, 8])

/-- ftest.F90:327-378; the differences of addresses are computed by the program. -/
def test_simple_hindexed (s : Sys) : Res (Sys × Bool) := do
  let s := arr (arr s a 4 (upto 10)) b 4 (List.replicate 10 0)
  let s := arr s blens 4 [2, 1, 3]
  let s ← mpi_address c s a 7000 ierr
  let base ← ldLong .little s.mem 7000
  let s ← mpi_address c s (a + 8) 7010 ierr
  let x ← ldLong .little s.mem 7010
  let s ← mpi_address c s (a + 20) 7010 ierr
  let y ← ldLong .little s.mem 7010
  let s := arr s disps 8 [x - base, 0, y - base]
  let s ← mpi_type_hindexed c (consts s [3, INTEGER]) (at_ 0) blens disps (at_ 1) dt ierr
  let s ← mpi_type_commit c s dt ierr
  let s ← sendRecv s 1 dt 1 dt
  return (s, agree s a b 4 [1, 3, 4, 6, 7, 8])

/-- ftest.F90:380-440 -/
def test_complex_indexed (s : Sys) : Res (Sys × Bool) := do
  let s := arr (arr s a 8 (upto 72)) b 8 (List.replicate 72 0)
  let s := arr (arr s blens 4 [3, 1, 4]) disps 4 [0, 5, 8]
  let s ← mpi_type_indexed c (consts s [3, DOUBLE]) (at_ 0) blens disps (at_ 1) dt ierr
  let s ← mpi_type_commit c s dt ierr
  let s := arr (arr s blens 4 [1, 2]) disps 4 [1, 4]
  let s ← mpi_type_indexed c (consts s [2]) (at_ 0) blens disps dt dt2 ierr
  let s ← mpi_type_commit c s dt2 ierr
  let s ← sendRecv s 1 dt2 1 dt2
  let ok := agree s a b 8 ([1, 4, 5].flatMap fun i => [1, 2, 3, 6, 9, 10, 11, 12].map fun j => j + 12 * i)
  let s ← mpi_type_free c s dt2 ierr
  let s ← mpi_type_free c s dt ierr
  return (s, ok)

/-- ftest.F90:446-507; the communicator is 0 here. -/
def test_packed (s : Sys) : Res (Sys × Bool) := do
  let s := arr (arr (arr (arr s 8000 4 [10]) 8010 4 [1097158263]) 8020 8 [4692750814092689408]) 8030 1 [120, 121, 122, 97, 98]
  let s := arr s pos 4 [0]
  let pack (s : Sys) (p n t : Int) : Res Sys :=
    mpi_pack c (consts s [n, t, 100, 0]) p (at_ 0) (at_ 1) a (at_ 2) pos (at_ 3) ierr
  let s ← pack s 8000 1 INTEGER
  let s ← pack s 8010 1 REAL
  let s ← pack s 8020 1 COMPLEX
  let s ← pack s 8030 5 CHARACTER
  let s ← mpi_isend c (consts s [PACKED, 0, 0, WORLD]) a pos (at_ 0) (at_ 1) (at_ 2) (at_ 3) req ierr
  let s ← mpi_irecv c (consts s [PACKED, MPI_ANY_SOURCE, MPI_ANY_TAG, WORLD]) b pos (at_ 0) (at_ 1) (at_ 2) (at_ 3) req ierr
  let s := arr s pos 4 [0]
  let unpack (s : Sys) (p n t : Int) : Res Sys :=
    mpi_unpack c (consts s [100, n, t, 0]) b (at_ 0) pos p (at_ 1) (at_ 2) (at_ 3) ierr
  let s ← unpack s 8100 1 INTEGER
  let s ← unpack s 8110 1 REAL
  let s ← unpack s 8120 1 COMPLEX
  let s ← unpack s 8130 5 CHARACTER
  return (s, same s 8000 8100 4 && same s 8010 8110 4 && same s 8020 8120 8 && same s 8030 8130 5)

/-- ftest.F90:509-541 -/
def test_multiple (s : Sys) : Res (Sys × Bool) := do
  let s := arr (arr s a 8 (upto 10)) b 8 (List.replicate 10 0)
  let s ← mpi_type_contiguous c (consts s [10, COMPLEX]) (at_ 0) (at_ 1) dt ierr
  let s ← mpi_type_commit c s dt ierr
  let s ← sendRecv (arr s 7020 4 [COMPLEX]) 1 dt 10 7020
  return (s, agree s a b 8 [1, 2, 3, 4, 5, 6, 7, 8, 9, 10])

/-- ftest.F90:546-596 -/
def test_multiple_indexed (s : Sys) : Res (Sys × Bool) := do
  let s := arr (arr s a 8 (upto 75)) b 8 (List.replicate 75 0)
  let s := arr (arr s blens 4 [1, 2, 3]) disps 4 [0, 5, 10]
  let s ← mpi_type_indexed c (consts s [3, COMPLEX]) (at_ 0) blens disps (at_ 1) dt ierr
  let s ← mpi_type_commit c s dt ierr
  let s ← mpi_type_contiguous c (consts s [5]) (at_ 0) dt dt2 ierr
  let s ← mpi_type_commit c s dt2 ierr
  let s ← sendRecv s 1 dt2 5 dt
  return (s, agree s a b 8 ([0, 1, 2, 3, 4].flatMap fun i => [1, 6, 7, 11, 12, 13].map fun j => j + 13 * i))

/-- ftest.F90:598-742; `scount` at 7030, `rcount` at 7040, `disp` at 7050. -/
def test_collectives (s : Sys) : Res (Sys × Bool) := do
  let s := arr s a 4 (upto 10)
  let s := arr (arr (arr s 7030 4 [1]) 7040 4 [1]) 7050 4 [0]
  let s := arr (arr s blens 4 [4, 2, 1]) disps 4 [0, 5, 8]
  let ok (s : Sys) := agree s a b 4 [1, 2, 3, 4, 6, 7, 9]
  let k (s : Sys) := consts (arr s b 4 (List.replicate 10 0)) [0, WORLD, 0]
  let sc : Int := 7030
  let rc : Int := 7040
  let di : Int := 7050
  let s ← mpi_type_indexed c (consts s [3, LOGICAL]) (at_ 0) blens disps (at_ 1) dt ierr
  let s ← mpi_type_commit c s dt ierr
  let s ← mpi_bcast c (k s) a sc dt (at_ 0) (at_ 1) ierr
  let s ← mpi_gather c (k s) a sc dt b rc dt (at_ 0) (at_ 1) ierr
  let b1 := ok s
  let s ← mpi_gatherv c (k s) a sc dt b rc di dt (at_ 0) (at_ 1) ierr
  let b2 := ok s
  let s ← mpi_allgather c (k s) a sc dt b rc dt (at_ 1) ierr
  let b3 := ok s
  let s ← mpi_allgatherv c (k s) a sc dt b rc di dt (at_ 1) ierr
  let b4 := ok s
  let s ← mpi_scatter c (k s) a sc dt b rc dt (at_ 0) (at_ 1) ierr
  let b5 := ok s
  let s ← mpi_scatterv c (k s) a sc di dt b rc dt (at_ 0) (at_ 1) ierr
  let b6 := ok s
  let s ← mpi_reduce c (k s) a b sc dt (at_ 2) (at_ 0) (at_ 1) ierr
  let b7 := ok s
  let s ← mpi_allreduce c (k s) a b sc dt (at_ 2) (at_ 1) ierr
  let b8 := ok s
  let s ← mpi_alltoall c (k s) a sc dt b rc dt (at_ 1) ierr
  let b9 := ok s
  let s ← mpi_alltoallv c (k s) a sc di dt b rc di dt (at_ 1) ierr
  let b10 := ok s
  let s ← mpi_reduce_scatter c (k s) a b rc dt (at_ 2) (at_ 1) ierr
  let b11 := ok s
  let s ← mpi_scan c (k s) a b sc dt (at_ 2) (at_ 1) ierr
  return (s, b1 && b2 && b3 && b4 && b5 && b6 && b7 && b8 && b9 && b10 && b11 && ok s)

/-- ftest.F90:748-772 -/
def test_mpi_version (s : Sys) : Res (Sys × Bool) := do
  let s ← mpi_get_version c s 7060 7070 ierr
  let s := arr (arr (arr s 9000 4 [0]) 9010 4 [headerConst mpif_h "MPI_VERSION"]) 9020 4 [headerConst mpif_h "MPI_SUBVERSION"]
  return (s, same s 9000 ierr 4 && same s 9010 7060 4 && same s 9020 7070 4)

/-- ftest.F90:23-35 -/
def tests : List (Sys → Res (Sys × Bool)) :=
  [test_contiguous, test_vector, test_simple_hvector, test_simple_indexed, test_simple_bindexed, test_simple_bindexed2,
   test_simple_hindexed, test_complex_indexed, test_packed, test_multiple, test_multiple_indexed, test_collectives,
   test_mpi_version]

def run : List (Sys → Res (Sys × Bool)) → Sys → Res (List Bool)
  | [], _ => .ok []
  | t :: ts, s => do
    let (s, x) ← t s
    let xs ← run ts s
    return x :: xs

def mem : Mem := fun _ => some 0xAA

/-- Initialisation from Fortran: the library compares the constants of the two languages and measures the Fortran types. -/
def init : Res Sys := Fort.mpi_init env0 ⟨4, 4, 4, 8, 8⟩ ⟨100, 120, 140, 160, 180⟩ (Sys.start mem)

example : (do let s ← init; run tests s) = .ok (List.replicate 13 true) := by decide +kernel

/-- A loop `do i=1,5`. -/
def each (s : Sys) (f : Sys → Int → Res Sys) : Res Sys := (upto 5).foldlM f s

/-- ftest_old.F90:2-164; the arrays of requests are at 11000 to 11300, the buffers at 12000 to 12300, `status` is at 13000,
`comm2` at 14000, `flag` at 14010, `temp` at 14020.  Receives are posted first, those on the second communicator with wild
cards. -/
def old : Res (List Bool) := do
  let el (base i : Int) : Int := base + 4 * (i - 1)
  let s ← mpi_initialized c (Sys.start mem) 14010 ierr
  let b0 := same (arr s 9000 4 [0]) 9000 14010 4
  let s ← Fort.mpi_init env0 ⟨4, 4, 4, 8, 8⟩ ⟨100, 120, 140, 160, 180⟩ s
  let s ← mpi_comm_dup c (consts s [WORLD]) (at_ 0) 14000 ierr
  let s ← mpi_initialized c s 14010 ierr
  let b1 := !same (arr s 9000 4 [0]) 9000 14010 4
  let s ← each s fun s i =>
    mpi_irecv c (consts s [1, INTEGER, 0, 100 + i, WORLD]) (el 12200 i) (at_ 0) (at_ 1) (at_ 2) (at_ 3) (at_ 4)
      (el 11200 i) ierr
  let s ← each s fun s i =>
    mpi_irecv c (consts s [1, INTEGER, MPI_ANY_SOURCE, MPI_ANY_TAG]) (el 12300 i) (at_ 0) (at_ 1) (at_ 2) (at_ 3) 14000
      (el 11300 i) ierr
  let s ← each s fun s i =>
    mpi_isend c (consts (arr s (el 12000 i) 4 [10 * i]) [1, INTEGER, 0, 100 + i, WORLD]) (el 12000 i) (at_ 0) (at_ 1)
      (at_ 2) (at_ 3) (at_ 4) (el 11000 i) ierr
  let s ← each s fun s i =>
    mpi_isend c (consts (arr s (el 12100 i) 4 [1000 + 10 * i]) [1, INTEGER, 0, 1100 + i]) (el 12100 i) (at_ 0) (at_ 1)
      (at_ 2) (at_ 3) 14000 (el 11100 i) ierr
  let b2 := agree s 12000 12200 4 [1, 2, 3, 4, 5]
  let b3 := agree s 12100 12300 4 [1, 2, 3, 4, 5]
  let s ← mpi_waitall c (consts s [5]) (at_ 0) 11000 13000 ierr
  let s ← mpi_waitall c (consts s [5]) (at_ 0) 11200 13000 ierr
  let tag (s : Sys) (n : Int) := (List.range 5).all fun (i : Nat) =>
    same (arr s 9000 4 [n + 1 + i]) 9000 (13000 + 16 * i + 4) 4
  let b4 := tag s 100
  let s ← mpi_waitall c (consts s [5]) (at_ 0) 11100 13000 ierr
  let s ← mpi_waitall c (consts s [5]) (at_ 0) 11300 13000 ierr
  let b5 := tag s 1100
  let s := arr s pos 4 [0]
  let s ← each s fun s i =>
    mpi_pack c (consts (arr s 14020 4 [100 + i]) [1, INTEGER, 20, WORLD]) 14020 (at_ 0) (at_ 1) 12000 (at_ 2) pos (at_ 3) ierr
  let s ← mpi_isend c (consts s [PACKED, 0, 0, WORLD]) 12000 pos (at_ 0) (at_ 1) (at_ 2) (at_ 3) 11000 ierr
  let s ← mpi_irecv c (consts s [PACKED, 0, 0, WORLD]) 12200 pos (at_ 0) (at_ 1) (at_ 2) (at_ 3) 11200 ierr
  let s ← mpi_waitall c (consts s [1]) (at_ 0) 11200 13000 ierr
  let s := arr s pos 4 [0]
  let s ← each s fun s i => do
    let s ← mpi_unpack c (consts s [20, 1, INTEGER, WORLD]) 12200 (at_ 0) pos 14020 (at_ 1) (at_ 2) (at_ 3) ierr
    if same (arr s 9000 4 [100 + i]) 9000 14020 4 then .ok s else .abort ""
  let b6 := agree s 12000 12200 4 [1, 2, 3, 4, 5]
  let _ ← mpi_finalize c s ierr
  return [b0, b1, b2, b3, b4, b5, b6]

example : old = .ok (List.replicate 7 true) := by decide +kernel

end MpiSerial.FTest
