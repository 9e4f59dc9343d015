import Verif.Model.P2P
import Verif.Model.Coll
import Verif.Proofs.Demo

/-!
# tests/ctest.c replayed

Validation of the model, not a proof about the library: every test function that `main` of tests/ctest.c calls
(ctest.c:21-965, without TEST_INTERNAL) is transcribed and run in the model, in the order of `main`, each in the
state the previous ones left.  The kernel computes that every comparison the tests make comes out as they expect.
Buffers are at arbitrary distinct addresses, uninitialised memory holds 0xAA, and the values that are `double` or
`float` in the test are arbitrary bit patterns.  Nothing else in the project depends on this file.
-/

set_option autoImplicit false

namespace MpiSerial.CTest

/-- Bytes of a little-endian value. -/
def le : Nat → Nat → List UInt8
  | 0, _ => []
  | n + 1, x => UInt8.ofNat x :: le n (x / 256)

/-- An array of `int`. -/
def ints (l : List Nat) : List UInt8 := l.flatMap (le 4)

/-- The program stores `l` at `a`. -/
def poke (s : Sys) (a : Int) (l : List UInt8) : Sys :=
  { s with mem := fun x => if a ≤ x ∧ x < a + l.length then l[(x - a).toNat]? else s.mem x }

/-- `n` bytes at `a` equal those at `b`. -/
def same (s : Sys) (a b : Int) (n : Nat) : Bool :=
  (List.range n).all fun (i : Nat) => (s.mem (a + i)).isSome && s.mem (a + i) == s.mem (b + i)

/-- The `int`s with these indices agree. -/
def sameInts (s : Sys) (a b : Int) (l : List Nat) : Bool :=
  l.all fun i => same s (a + 4 * i) (b + 4 * i) 4

def MPI_CHAR : Int := -1
def MPI_INT : Int := -3
def MPI_LONG : Int := -4
def MPI_FLOAT : Int := -9
def MPI_DOUBLE : Int := -10
def MPI_PACKED : Int := -13
def WORLD : Int := 1

/-- Send and receive as almost all the tests do. -/
def sendRecv (s : Sys) (a sc st b rc rt : Int) : Res Sys := do
  let (s, _) ← MPI_Isend env0 s a sc st 0 0 WORLD
  let (s, _) ← MPI_Irecv env0 s b rc rt 0 0 WORLD
  return s

/-- ctest.c:21-58 -/
def simple_contig (s : Sys) : Res (Sys × Bool) := do
  let s := poke s 1000 (ints [1, 2, 3, 4, 5])
  let (s, t) ← MPI_Type_contiguous env0 s 5 MPI_INT
  let s ← MPI_Type_commit env0 s t
  let (s, _) ← MPI_Isend env0 s 1000 1 t 0 0 WORLD
  let (s, _) ← MPI_Irecv env0 s 2000 1 t MPI_ANY_SOURCE MPI_ANY_TAG WORLD
  return (s, sameInts s 1000 2000 [0, 1, 2, 3, 4])

/-- ctest.c:62-100 -/
def simple_vector (s : Sys) : Res (Sys × Bool) := do
  let s := poke s 1000 (ints [1, 2, 3, 4, 5, 6, 7, 8, 9, 10])
  let s := poke s 2000 (List.replicate 40 0)
  let (s, t) ← MPI_Type_vector env0 s 3 2 3 MPI_INT
  let s ← MPI_Type_commit env0 s t
  let s ← sendRecv s 1000 1 t 2000 1 t
  return (s, sameInts s 1000 2000 [0, 1, 3, 4, 6, 7])

/-- ctest.c:104-141 -/
def simple_hvector (s : Sys) : Res (Sys × Bool) := do
  let s := poke s 1000 (ints [1, 2, 3, 4, 5, 6, 7, 8, 9, 10])
  let s := poke s 2000 (List.replicate 40 0)
  let (s, t) ← MPI_Type_hvector env0 s 3 2 16 MPI_INT
  let s ← MPI_Type_commit env0 s t
  let s ← sendRecv s 1000 1 t 2000 1 t
  return (s, sameInts s 1000 2000 [0, 1, 4, 5, 8, 9])

/-- ctest.c:145-186 -/
def simple_indexed (s : Sys) : Res (Sys × Bool) := do
  let s := poke s 1000 (ints [1, 2, 3, 4, 5, 6, 7, 8, 9, 10, 11, 12, 13, 14, 15])
  let s := poke s 2000 (List.replicate 60 0)
  let (s, t) ← MPI_Type_indexed env0 s 3 [2, 1, 3] [5, 0, 10] MPI_INT
  let s ← MPI_Type_commit env0 s t
  let s ← sendRecv s 1000 1 t 2000 1 t
  return (s, sameInts s 1000 2000 [0, 5, 6, 10, 11, 12])

/-- ctest.c:191-229 -/
def simple_bindexed (s : Sys) : Res (Sys × Bool) := do
  let s := poke s 1000 (ints [1, 2, 3, 4, 5, 6, 7, 8, 9, 10])
  let s := poke s 2000 (List.replicate 40 0)
  let (s, t) ← MPI_Type_create_indexed_block env0 s 3 2 [0, 4, 7] MPI_INT
  let s ← MPI_Type_commit env0 s t
  let s ← sendRecv s 1000 1 t 2000 1 t
  return (s, sameInts s 1000 2000 [0, 1, 4, 5, 7, 8])

/-- ctest.c:234-329 -/
def simple_bindexed2 (s : Sys) : Res (Sys × Bool) := do
  let s := poke s 1000 (ints [0, 1, 2, 3, 4, 5, 6, 7])
  let s := poke s 2000 (List.replicate 32 255)
  let (s, t) ← MPI_Type_create_indexed_block env0 s 4 1 [1, 3, 5, 7] MPI_INT
  let s ← MPI_Type_commit env0 s t
  let (s, r) ← MPI_Irecv env0 s 2000 1 t 0 1 WORLD
  let s ← MPI_Send env0 s 1000 4 MPI_INT 0 1 WORLD
  let (s, _, _) ← MPI_Wait s r (.obj ⟨0, 0, 0, 0⟩)
  let minusOne := poke s 3000 (List.replicate 4 255)
  return (s, (List.range 8).all fun i =>
    if i % 2 = 0 then same minusOne 3000 (2000 + 4 * i) 4 else same s (1000 + 4 * (i / 2)) (2000 + 4 * i) 4)

/-- ctest.c:335-374 -/
def simple_hindexed (s : Sys) : Res (Sys × Bool) := do
  let s := poke s 1000 (ints [1, 2, 3, 4, 5, 6, 7, 8, 9, 10])
  let s := poke s 2000 (List.replicate 40 0)
  let (s, t) ← MPI_Type_hindexed env0 s 3 [2, 1, 3] [8, 0, 20] MPI_INT
  let s ← MPI_Type_commit env0 s t
  let s ← sendRecv s 1000 1 t 2000 1 t
  return (s, sameInts s 1000 2000 [0, 2, 3, 5, 6, 7])

/-- ctest.c:482-514; the struct is `{int a @0; char b @4; char c @5; long d @8}`. -/
def simple_struct (s : Sys) : Res (Sys × Bool) := do
  let (s, t) ← MPI_Type_struct env0 s 3 [1, 2, 1] [0, 4, 8] [MPI_INT, MPI_CHAR, MPI_LONG]
  let s ← MPI_Type_commit env0 s t
  let s := poke s 1000 (le 4 10 ++ [120, 97, 77, 77] ++ le 8 3000)
  let s ← sendRecv s 1000 1 t 2000 1 t
  return (s, same s 1000 2000 6 && same s 1008 2008 8)

/-- ctest.c:519-579; `st` is `{long a @0; long b @8; char c @16; int d @20; int e @24}` (32 bytes),
`st2` is `{st a @0; int b @32; char c @36}`. -/
def complex_struct (s : Sys) : Res (Sys × Bool) := do
  let s := poke s 1000 (le 8 100 ++ le 8 200 ++ [120, 1, 2, 3] ++ le 4 45 ++ le 4 50)
  let s := poke s 3000 (le 8 40 ++ le 8 100 ++ [120, 1, 2, 3] ++ le 4 50 ++ le 4 20 ++ [4, 5, 6, 7] ++ le 4 100 ++ [103])
  let (s, t) ← MPI_Type_struct env0 s 3 [2, 2, 1] [0, 20, 16] [MPI_LONG, MPI_INT, MPI_CHAR]
  let s ← MPI_Type_commit env0 s t
  let s ← sendRecv s 1000 1 t 2000 1 t
  let b1 := same s 1000 2000 17 && same s 1020 2020 8
  let (s, t2) ← MPI_Type_struct env0 s 3 [1, 1, 1] [0, 32, 36] [t, MPI_INT, MPI_CHAR]
  let s ← MPI_Type_commit env0 s t2
  let s ← sendRecv s 3000 1 t2 4000 1 t2
  return (s, b1 && same s 3000 4000 17 && same s 3032 4032 5)

/-- ctest.c:585-692; `struct_t` is `{char a @0; long b @8; char c @16; int d @20; int e @24}` (32 bytes). -/
def indexed_struct (s : Sys) : Res (Sys × Bool) := do
  let s := poke s 1000 ((List.range 10).flatMap fun i =>
    [UInt8.ofNat i] ++ List.replicate 7 9 ++ le 8 (2 * i) ++ [UInt8.ofNat (65 + i)] ++ [9, 9, 9] ++ le 4 i ++
      le 4 (4294967296 - i) ++ [9, 9, 9, 9])
  let s := poke s 2000 (List.replicate 320 32)
  let (s, t) ← MPI_Type_struct env0 s 4 [1, 1, 1, 2] [0, 8, 16, 20] [MPI_CHAR, MPI_LONG, MPI_CHAR, MPI_INT]
  let s ← MPI_Type_commit env0 s t
  let (s, t2) ← MPI_Type_indexed env0 s 3 [3, 1, 2] [0, 5, 7] t
  let s ← MPI_Type_commit env0 s t2
  let s ← sendRecv s 1000 1 t2 2000 1 t2
  let eq (s : Sys) (i j : Int) : Bool := same s (1000 + 32 * i) (2000 + 32 * j) 1 &&
    same s (1008 + 32 * i) (2008 + 32 * j) 9 && same s (1020 + 32 * i) (2020 + 32 * j) 8
  let b1 := [0, 1, 2, 5, 7, 8].all fun i => eq s i i
  let s ← MPI_Gather env0 s 1000 1 t2 2000 6 t 0 WORLD
  return (s, b1 && eq s 0 0 && eq s 1 1 && eq s 2 2 && eq s 5 3 && eq s 7 4 && eq s 8 5)

/-- ctest.c:699-738 -/
def multiple (s : Sys) : Res (Sys × Bool) := do
  let s := poke s 1000 (ints [1, 2, 3, 4, 5])
  let s := poke s 2000 (List.replicate 20 0)
  let (s, t) ← MPI_Type_contiguous env0 s 5 MPI_INT
  let s ← MPI_Type_commit env0 s t
  let s ← sendRecv s 1000 5 MPI_INT 2000 1 t
  return (s, sameInts s 1000 2000 [0, 1, 2, 3, 4])

/-- ctest.c:740-780; `struct_t` is `{int a @0; double b @8; char c @16}` (24 bytes). -/
def multiple_struct (s : Sys) : Res (Sys × Bool) := do
  let s := poke s 1000 ((List.range 5).flatMap fun i =>
    le 4 i ++ [8, 8, 8, 8] ++ le 8 (0x402E000000000000 + i) ++ [UInt8.ofNat (97 + i)] ++ List.replicate 7 8)
  let s := poke s 2000 (List.replicate 120 0)
  let (s, t) ← MPI_Type_struct env0 s 3 [1, 1, 1] [0, 8, 16] [MPI_INT, MPI_DOUBLE, MPI_CHAR]
  let s ← MPI_Type_commit env0 s t
  let (s, t2) ← MPI_Type_contiguous env0 s 5 t
  let s ← MPI_Type_commit env0 s t2
  let s ← sendRecv s 1000 1 t2 2000 5 t
  return (s, (List.range 5).all fun (i : Nat) =>
    same s (1000 + 24 * i) (2000 + 24 * i) 4 && same s (1008 + 24 * i) (2008 + 24 * i) 9)

/-- ctest.c:785-821; `i` at 100, `c` at 200, `k` at 300, `buffer` at 1000, `recv` at 2000, `j`, `d`, `l` at 400, 500, 600. -/
def packed (s : Sys) : Res (Sys × Bool) := do
  let s := poke s 100 (le 4 8)
  let s := poke s 200 ((List.range 76).map (fun i => UInt8.ofNat (97 + i % 25)) ++ [0])
  let s := poke s 300 (le 8 0x3FCDFB5C8B6DB4C0)
  let (s, pos) ← MPI_Pack env0 s 100 1 MPI_INT 1000 110 0 WORLD
  let (s, pos) ← MPI_Pack env0 s 200 77 MPI_CHAR 1000 110 pos WORLD
  let (s, pos) ← MPI_Pack env0 s 300 1 MPI_DOUBLE 1000 110 pos WORLD
  let s ← sendRecv s 1000 pos MPI_PACKED 2000 pos MPI_PACKED
  let (s, pos) ← MPI_Unpack env0 s 2000 110 0 400 1 MPI_INT WORLD
  let (s, pos) ← MPI_Unpack env0 s 2000 110 pos 500 77 MPI_CHAR WORLD
  let (s, _) ← MPI_Unpack env0 s 2000 110 pos 600 1 MPI_DOUBLE WORLD
  return (s, same s 100 400 4 && same s 300 600 8)

/-- ctest.c:825-877; `s1` at 100, `s2` at 200, `x` at 300, `f` at 304, `y` at 308, `g` at 312, `buf` at 1000, `rbuf` at
2000.  The type is not committed, and MPI_Unpack gets communicator 0. -/
def packed_complex (s : Sys) : Res (Sys × Bool) := do
  let s := poke s 300 (le 4 10 ++ le 4 0x3EB0A3D7)
  let (s, t) ← MPI_Type_struct env0 s 3 [1, 1, 1] [0, 4, 8] [MPI_INT, MPI_CHAR, MPI_LONG]
  let s := poke s 100 (le 4 10 ++ [120, 97, 5, 5] ++ le 8 3000)
  let (s, _) ← MPI_Pack_size env0 s 1 t WORLD
  let (s, pos) ← MPI_Pack env0 s 300 1 MPI_INT 1000 100 0 WORLD
  let (s, pos) ← MPI_Pack env0 s 100 1 t 1000 100 pos WORLD
  let (s, pos) ← MPI_Pack env0 s 304 1 MPI_FLOAT 1000 100 pos WORLD
  let s ← sendRecv s 1000 pos MPI_PACKED 2000 pos MPI_PACKED
  let (s, pos) ← MPI_Unpack env0 s 2000 100 0 308 1 MPI_INT 0
  let (s, pos) ← MPI_Unpack env0 s 2000 100 pos 200 1 t 0
  let (s, _) ← MPI_Unpack env0 s 2000 100 pos 312 1 MPI_FLOAT 0
  return (s, same s 100 200 5 && same s 108 208 8 && same s 300 308 4 && same s 304 312 4)

/-- ctest.c:880-965; `struct_t` is `{int a @0; int b @4; double c @8; long d @16}`, `s1` at 1000, `s2` at 2000. -/
def collectives (s : Sys) : Res (Sys × Bool) := do
  let s := poke s 1000 (le 4 1 ++ le 4 2 ++ le 8 0x4010000000000000 ++ le 8 100)
  let clear (s : Sys) : Sys := poke s 2000 (List.replicate 24 0)
  let ok (s : Sys) : Bool := same s 1000 2000 24
  let (s, t) ← MPI_Type_struct env0 s 3 [2, 1, 1] [0, 8, 16] [MPI_INT, MPI_DOUBLE, MPI_LONG]
  let s ← MPI_Type_commit env0 s t
  let s ← MPI_Bcast s 1000 1 t 0 WORLD
  let s ← MPI_Gather env0 (clear s) 1000 1 t 2000 1 t 0 WORLD
  let b1 := ok s
  let s ← MPI_Gatherv env0 (clear s) 1000 1 t 2000 [1] [0] t 0 WORLD
  let b2 := ok s
  let s ← MPI_Allgather env0 (clear s) 1000 1 t 2000 1 t WORLD
  let b3 := ok s
  let s ← MPI_Allgatherv env0 (clear s) 1000 1 t 2000 [1] [0] t WORLD
  let b4 := ok s
  let s ← MPI_Scatter env0 (clear s) 1000 1 t 2000 1 t 0 WORLD
  let b5 := ok s
  let s ← MPI_Scatterv env0 (clear s) 1000 [1] [0] t 2000 1 t 0 WORLD
  let b6 := ok s
  let s ← MPI_Reduce env0 (clear s) 1000 2000 1 t 0 0 WORLD
  let b7 := ok s
  let s ← MPI_Allreduce env0 (clear s) 1000 2000 1 t 0 WORLD
  let b8 := ok s
  let s ← MPI_Alltoall env0 (clear s) 1000 1 t 2000 1 t WORLD
  let b9 := ok s
  let s ← MPI_Alltoallv env0 (clear s) 1000 [1] [0] t 2000 [1] [0] t WORLD
  let b10 := ok s
  let s ← MPI_Reduce_scatter env0 (clear s) 1000 2000 [1] t 0 WORLD
  let b11 := ok s
  let s ← MPI_Scan env0 (clear s) 1000 2000 1 t 0 WORLD
  return (s, b1 && b2 && b3 && b4 && b5 && b6 && b7 && b8 && b9 && b10 && b11 && ok s)

/-- ctest.c:1025-1066 -/
def tests : List (Sys → Res (Sys × Bool)) :=
  [simple_contig, simple_vector, simple_hvector, simple_indexed, simple_bindexed, simple_bindexed2, simple_hindexed,
   simple_struct, complex_struct, indexed_struct, multiple, multiple_struct, packed, packed_complex, collectives]

def run : List (Sys → Res (Sys × Bool)) → Sys → Res (List Bool)
  | [], _ => .ok []
  | t :: ts, s => do
    let (s, b) ← t s
    let bs ← run ts s
    return b :: bs

/-- The program starts with other bytes in memory than the tests expect. -/
def mem : Mem := fun _ => some 0xAA

example : (do let s ← MPI_Init (Sys.start mem); run tests s) = .ok (List.replicate 15 true) := by decide +kernel

/-- A loop body that yields a request handle for each index. -/
def each (s : Sys) (f : Sys → Nat → Res (Sys × Int)) : List Nat → Res (Sys × List Int)
  | [] => .ok (s, [])
  | i :: l => do
    let (s, r) ← f s i
    let (s, rs) ← each s f l
    return (s, r :: rs)

/-- ctest_old.c:8-170; `sbuf` at 1000, `sbuf2` at 2000, `rbuf` at 3000, `rbuf2` at 4000, `temp` at 5000.  Receives are posted
first and the sends come in the opposite order of tags; a second communicator uses the same tags. -/
def old : Res Bool := do
  let five := [0, 1, 2, 3, 4]
  let sts : StArr := some (List.replicate 10 ⟨0, 0, 0, 0⟩)
  let s ← MPI_Init (Sys.start mem)
  let (s, comm2) ← MPI_Comm_create s WORLD (MPI_Comm_group WORLD)
  let (s, rreq) ← each s (fun s i => MPI_Irecv env0 s (3000 + 8 * i) 1 (-29) 0 (100 + i) WORLD) five
  let (s, sreq2) ← each s (fun s i =>
    MPI_Isend env0 (poke s (2000 + 4 * i) (le 4 (1000 + 10 * i))) (2000 + 4 * i) 1 MPI_INT 0 (100 + i) comm2) five
  let (s, sreq) ← each s (fun s i =>
    MPI_Isend env0 (poke s (1000 + 8 * i) (le 4 (10 * i) ++ le 4 (10 * i + 1))) (1000 + 8 * i) 1 (-29) 0
      (100 + (4 - i)) WORLD) five
  let b1 := five.all fun (i : Nat) => same s (1000 + 4 * (9 - 2 * i)) (3000 + 4 * (2 * i + 1)) 4 &&
    same s (1000 + 4 * (8 - 2 * i)) (3000 + 4 * (2 * i)) 4
  let r ← MPI_Waitall s 5 sreq sts
  let r ← MPI_Waitall r.sys 5 rreq r.stats
  let tags := (r.stats.getD []).map (·.MPI_TAG)
  let (s, rreq2) ← each r.sys (fun s i => MPI_Irecv env0 s (4000 + 4 * i) 1 MPI_INT 0 (100 + i) comm2) five
  let b2 := sameInts s 2000 4000 five
  let r ← MPI_Waitall s 5 sreq2 r.stats
  let r ← MPI_Waitall r.sys 5 rreq2 r.stats
  let pack (s : Sys) (pos i : Int) : Res (Sys × Int) :=
    MPI_Pack env0 (poke s 5000 (le 4 (100 + i.toNat))) 5000 1 MPI_INT 1000 20 pos WORLD
  let (s, pos) ← pack r.sys 0 0
  let (s, pos) ← pack s pos 1
  let (s, pos) ← pack s pos 2
  let (s, pos) ← pack s pos 3
  let (s, pos) ← pack s pos 4
  let (s, _) ← MPI_Isend env0 s 1000 pos MPI_PACKED 0 0 WORLD
  let (s, rr) ← MPI_Irecv env0 s 3000 pos MPI_PACKED 0 0 WORLD
  let r ← MPI_Waitall s 1 [rr] r.stats
  let (s, pos) ← MPI_Unpack env0 r.sys 3000 20 0 5000 1 MPI_INT WORLD
  let (s, pos) ← MPI_Unpack env0 s 3000 20 pos 5000 1 MPI_INT WORLD
  let (s, pos) ← MPI_Unpack env0 s 3000 20 pos 5000 1 MPI_INT WORLD
  let (s, pos) ← MPI_Unpack env0 s 3000 20 pos 5000 1 MPI_INT WORLD
  let (s, pos) ← MPI_Unpack env0 s 3000 20 pos 5000 1 MPI_INT WORLD
  let b3 := sameInts s 1000 3000 five && pos == 20 && same (poke s 6000 (le 4 104)) 6000 5000 4
  return b1 && b2 && b3 && tags.take 5 == [100, 101, 102, 103, 104]

example : old = .ok true := by decide +kernel

end MpiSerial.CTest
