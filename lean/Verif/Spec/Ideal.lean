import Verif.Spec.Machine
import Verif.Spec.TypeUse
import Verif.Proofs.TypesNest

/-!
# A machine for the MPI standard

The reference machine of `Spec/Machine.lean` still moves data with the descriptors of the library.  Here datatypes are
those of the standard (`Spec.DType`: type maps and exact integers), a message moves the elements the standard says, and
the inquiry functions report the exact values.  What happens to communicators, requests and handle numbers is taken from
the reference machine, which holds no datatypes now.

`Ideal.Legal` says which calls a conforming program makes, within the limits of the library (DESIGN, section 7).
-/

set_option autoImplicit false

namespace MpiSerial

open Spec

/-! ## Predefined datatypes -/

/-- Sizes of the basic kinds: LP64, and the configured sizes of REAL and DOUBLE PRECISION.  The kinds are numbered as in
type.h:41-80. -/
def Spec.kindSize (cfg : Cfg) (k : Int) : Int :=
  let r := cfg.fsizeReal
  let d := cfg.fsizeDouble
  if k < 0 then 0
  else ([ 1, 2, 4, 8,         -- char, short, int, long
          1, 2, 4, 8,         -- unsigned char, short, int, long
          4, 8, 16, 1,        -- float, double, long double, byte
          0, 0,               -- the markers
          4, r, d, 2 * r, 2 * d, 4, 1,   -- INTEGER, REAL, DOUBLE PRECISION, COMPLEX, DOUBLE COMPLEX, LOGICAL, CHARACTER
          1, 2, 4, 8, 0,      -- INTEGER*1, *2, *4, *8 (there is no INTEGER*16)
          4, 8, 16,           -- REAL*4, *8, *16
          8, 16, 32,          -- COMPLEX*8, *16, *32
          8, 8, 8 ] : List Int)[k.toNat]?.getD 0   -- long long, unsigned long long, MPI_Offset

/-- One element of kind `k`. -/
def Spec.single (k : Int) : Option Comp := some (.data (plain [(0, k)]))

/-- An element of kind `a` followed by one of kind `b`, aligned as in a C structure. -/
def Spec.couple (cfg : Cfg) (a b : Int) : Option Comp :=
  some (.data (plain [(0, a), (roundUp (kindSize cfg a) (kindSize cfg b), b)]))

/-- What the predefined datatype handle `h` stands for (mpi.h, mpif.h: -1 is MPI_CHAR, ...). -/
def Spec.predefinedComp (cfg : Cfg) (h : Int) : Option Comp :=
  if h < 0 then
    ([ single 0, single 1, single 2, single 3,      -- MPI_CHAR, _SHORT, _INT, _LONG
       single 4, single 5, single 6, single 7,      -- unsigned
       single 8, single 9, single 10, single 11,    -- MPI_FLOAT, _DOUBLE, _LONG_DOUBLE, _BYTE
       single 11, some .lb, some .ub,               -- MPI_PACKED, _LB, _UB
       single 14, single 15, single 16, single 17, single 18, single 19, single 20,   -- MPI_INTEGER, ..., MPI_CHARACTER
       couple cfg 15 15, couple cfg 16 16, couple cfg 14 14,      -- MPI_2REAL, _2DOUBLE_PRECISION, _2INTEGER
       couple cfg 8 2, couple cfg 9 2, couple cfg 3 2,            -- MPI_FLOAT_INT, _DOUBLE_INT, _LONG_INT
       couple cfg 2 2, couple cfg 1 2, couple cfg 10 2,           -- MPI_2INT, _SHORT_INT, _LONG_DOUBLE_INT
       single 21, single 22, single 23, single 24, none,          -- MPI_INTEGER1, ..., MPI_INTEGER16 (no length, C29)
       single 26, single 27, single 28, single 29, single 30, single 31,   -- MPI_REAL4, ..., MPI_COMPLEX32
       single 32, single 33, single 34 ] : List (Option Comp))[(-1 - h).toNat]?.join
  else none

/-! ## Moving data -/

/-- Memory after the elements `send` have been delivered to the elements `recv`: each byte of the `i`-th element of
`recv` is that of the `i`-th element of `send`, all others are as before. -/
def delivered (sz : Int → Int) (m : Mem) (send recv : List Entry) : Mem := fun a =>
  match (recv.zip send).find? fun x => decide (x.1.1 ≤ a ∧ a < x.1.1 + sz x.1.2) with
  | some (d, e) => m (e.1 + (a - d.1))
  | none => m a

/-- The elements `es` lined up from address `start` on. -/
def lined (sz : Int → Int) : List Entry → Int → List Entry
  | [], _ => []
  | e :: es, start => (start, e.2) :: lined sz es (start + sz e.2)

/-! ## The machine -/

/-- `core`: communicators, requests, operations, handle numbers, memory.  `types`: live derived datatypes, and whether
they are committed. -/
structure Ideal where
  core : Mach
  types : List (Int × DType × Bool)

namespace Ideal

def start (m : Mem) : Ideal := ⟨.start m, []⟩

/-- The datatype or marker `h` stands for, and whether it is committed. -/
def comp (cfg : Cfg) (I : Ideal) (h : Int) : Option (Comp × Bool) :=
  if h < 0 then (predefinedComp cfg h).map fun c => (c, true)
  else (I.types.find? fun e => decide (e.1 = h)).map fun e => (.data e.2.1, e.2.2)

/-- The datatype `h` stands for. -/
def type (cfg : Cfg) (I : Ideal) (h : Int) : Res DType :=
  match I.comp cfg h with
  | some (.data τ, _) => .ok τ
  | _ => .ub .kind

def withMem (I : Ideal) (m : Mem) : Ideal := { I with core := { I.core with mem := m } }

/-- Data moves from one buffer to another. -/
def move (cfg : Cfg) (I : Ideal) (src scount stype dst dcount dtype : Int) : Res Ideal := do
  let τs ← I.type cfg stype
  let τr ← I.type cfg dtype
  return I.withMem (delivered (kindSize cfg) I.core.mem (placed (kindSize cfg) τs scount src) (placed (kindSize cfg) τr dcount dst))

def setL (I : Ideal) (L : Ledger) : Ideal := { I with core := { I.core with L := L } }

/-- A message is sent.  It goes to the receive posted first that accepts it. -/
def isend (cfg : Cfg) (I : Ideal) (buf count dtype dest tag comm : Int) : Res (Ideal × Int) :=
  if dest ≠ 0 ∧ dest ≠ MPI_PROC_NULL then .abort "MPI_Isend: send to"
  else do
    let (M, h) ← I.core.fresh
    let I := { I with core := M }
    if dest = MPI_PROC_NULL then return (I.setL (M.L.postNull .send tag buf count dtype h), h)
    else do
      let c ← M.cid comm
      match M.L.partner c .send tag with
      | none => return (I.setL (M.L.post .send c tag buf count dtype h), h)
      | some j =>
        match M.L.ops[j]? with
        | none => .ub .kind
        | some o => do
          let I ← I.move cfg buf count dtype o.buf o.count o.dtype
          return (I.setL (M.L.post .send c tag buf count dtype h), h)

/-- A receive is posted.  It takes the message sent first that it accepts. -/
def irecv (cfg : Cfg) (I : Ideal) (buf count dtype source tag comm : Int) : Res (Ideal × Int) :=
  if source ≠ 0 ∧ source ≠ MPI_ANY_SOURCE ∧ source ≠ MPI_PROC_NULL then .abort "MPI_Irecv: bad source"
  else do
    let (M, h) ← I.core.fresh
    let I := { I with core := M }
    if source = MPI_PROC_NULL then return (I.setL (M.L.postNull .recv tag buf count dtype h), h)
    else do
      let c ← M.cid comm
      match M.L.partner c .recv tag with
      | none => return (I.setL (M.L.post .recv c tag buf count dtype h), h)
      | some j =>
        match M.L.ops[j]? with
        | none => .ub .kind
        | some o => do
          let I ← I.move cfg o.buf o.count o.dtype buf count dtype
          return (I.setL (M.L.post .recv c tag buf count dtype h), h)

def wait (I : Ideal) (h : Int) (st : StPtr) : Res (Ideal × Int × StPtr) := do
  let (M, x) ← I.core.wait h st
  return ({ I with core := M }, x)

def send (cfg : Cfg) (I : Ideal) (buf count dtype dest tag comm : Int) : Res Ideal := do
  let (I, h) ← I.isend cfg buf count dtype dest tag comm
  let (I, _, _) ← I.wait h (.obj ⟨0, 0, 0, 0⟩)            -- the status is thrown away
  return I

def irsend (cfg : Cfg) (I : Ideal) (buf count dtype dest tag comm : Int) : Res (Ideal × Int) := do
  let (I, h) ← I.isend cfg buf count dtype dest tag comm
  let o ← I.core.op h
  if o.st = .pending then .abort "MPI_Irsend: no matching receive found"
  else return (I, h)

def recv (cfg : Cfg) (I : Ideal) (buf count dtype source tag comm : Int) (st : StPtr) : Res (Ideal × StPtr) := do
  let (I, h) ← I.irecv cfg buf count dtype source tag comm
  let (I, _, st) ← I.wait h st
  match st with
  | .null => return (I, .null)
  | .obj x => return (I, .obj { x with get_count := count })
  | .bad => .ub .memAccess

def sendrecv (cfg : Cfg) (I : Ideal) (sbuf scount stype dest stag rbuf rcount rtype source rtag comm : Int) (st : StPtr) :
    Res (Ideal × StPtr) := do
  let (I, h) ← I.irecv cfg rbuf rcount rtype source rtag comm
  let I ← I.send cfg sbuf scount stype dest stag comm
  let (I, _, st) ← I.wait h st
  return (I, st)

/-- A new datatype. -/
def newType (I : Ideal) (τ : DType) : Res (Ideal × Int) := do
  let (M, h) ← I.core.fresh
  return (⟨M, (h, τ, false) :: I.types⟩, h)

/-- The components of a structure: blocks of (length, displacement, datatype). -/
def blocks (cfg : Cfg) (I : Ideal) : List Int → List Int → List Int → Res (List (Nat × Int × Comp))
  | b :: bs, d :: ds, h :: hs =>
    match I.comp cfg h with
    | some (c, _) => do
      let r ← I.blocks cfg bs ds hs
      return (b.toNat, s64 d, c) :: r
    | none => .ub .kind
  | _, _, _ => .ok []

/-- Predefined datatypes are committed already. -/
def commit (I : Ideal) (h : Int) : Ideal :=
  { I with types := I.types.map fun e => if e.1 = h then (e.1, e.2.1, true) else e }

def typeFree (I : Ideal) (h : Int) : Ideal := ⟨I.core.release h, I.types.filter fun e => decide (e.1 ≠ h)⟩

/-- Nothing is handed back. -/
def quiet (x : Res Ideal) : Res (Ideal × Out) := x >>= fun I => .ok (I, ⟨[], []⟩)

/-- One integer is handed back. -/
def one (x : Res (Ideal × Int)) : Res (Ideal × Out) := x >>= fun r => .ok (r.1, ⟨[r.2], []⟩)

/-- One integer is handed back and nothing changes. -/
def tell (I : Ideal) (x : Res Int) : Res (Ideal × Out) := x >>= fun n => .ok (I, ⟨[n], []⟩)

/-- A status is handed back. -/
def oneStatus (x : Res (Ideal × StPtr)) : Res (Ideal × Out) := x >>= fun r => .ok (r.1, ⟨r.2.vals, []⟩)

/-- Collectives with a root: nothing happens for `MPI_ROOT`, any other root than 0 stops the program. -/
def rooted (I : Ideal) (root : Int) (msg : String) (x : Res Ideal) : Res (Ideal × Out) :=
  quiet (if root = MPI_ROOT then .ok I else if root ≠ 0 then .abort msg else x)

/-- The address in a vector collective: `displs[0]` extents behind `buf`. -/
def displaced (cfg : Cfg) (I : Ideal) (buf : Int) (displs : List Int) (h : Int) : Res Int := do
  let τ ← I.type cfg h
  let d ← rd displs 0
  return buf + d * extent (kindSize cfg) τ

/-- What the machine answers to a call, and its new state.  MPI_Aint values are written modulo 2^64. -/
def answer (env : Env) (I : Ideal) : Call → Res (Ideal × Out)
  | .isend b n t d g c => one (I.isend env.cfg b n t d g c)
  | .irsend b n t d g c => one (I.irsend env.cfg b n t d g c)
  | .send b n t d g c => quiet (I.send env.cfg b n t d g c)
  | .irecv b n t d g c => one (I.irecv env.cfg b n t d g c)
  | .recv b n t d g c st => oneStatus (I.recv env.cfg b n t d g c st)
  | .sendrecv b n t d g b' n' t' d' g' c st => oneStatus (I.sendrecv env.cfg b n t d g b' n' t' d' g' c st)
  | .typeContiguous n t => one (I.type env.cfg t >>= fun τ => I.newType (contiguous (kindSize env.cfg) n.toNat τ))
  | .typeHvector n b k t => one (I.type env.cfg t >>= fun τ => I.newType (hvector (kindSize env.cfg) n.toNat b.toNat (s64 k) τ))
  | .typeVector n b k t => one (I.type env.cfg t >>= fun τ => I.newType (vector (kindSize env.cfg) n.toNat b.toNat k τ))
  | .typeHindexed _ bs ks t => one (I.type env.cfg t >>= fun τ =>
      I.newType (hindexed (kindSize env.cfg) ((bs.zip ks).map fun x => (x.1.toNat, s64 x.2)) τ))
  | .typeIndexed _ bs ks t => one (I.type env.cfg t >>= fun τ =>
      I.newType (indexed (kindSize env.cfg) ((bs.zip ks).map fun x => (x.1.toNat, x.2)) τ))
  | .typeIndexedBlock _ b ks t => one (I.type env.cfg t >>= fun τ => I.newType (indexedBlock (kindSize env.cfg) b.toNat ks τ))
  | .typeStruct _ bs ks ts => one (I.blocks env.cfg bs ks ts >>= fun l => I.newType (struct (kindSize env.cfg) l))
  | .typeCommit t => quiet (.ok (I.commit t))
  | .typeFree t => quiet (.ok (I.typeFree t))
  | .typeExtent t => I.tell (I.type env.cfg t >>= fun τ => .ok (u64 (extent (kindSize env.cfg) τ)))
  | .typeSize t => I.tell (I.type env.cfg t >>= fun τ => .ok (size (kindSize env.cfg) τ))
  | .typeLb t => I.tell (I.type env.cfg t >>= fun τ => .ok (u64 (lb τ)))
  /- the upper bound of a predefined datatype includes the padding of the C structure -/
  | .typeUb t => I.tell (I.type env.cfg t >>= fun τ => .ok (u64 (if t < 0 then extent (kindSize env.cfg) τ else ub (kindSize env.cfg) τ)))
  | .getElements st t => I.tell (I.type env.cfg t >>= fun τ => .ok (st.get_count * τ.map.length))
  | .pack a n t b room pos _ => one (I.type env.cfg t >>= fun τ =>
      let es := placed (kindSize env.cfg) τ n a
      if pos + n * size (kindSize env.cfg) τ ≤ room then
        .ok (I.withMem (delivered (kindSize env.cfg) I.core.mem es (lined (kindSize env.cfg) es (b + pos))), pos + n * size (kindSize env.cfg) τ)
      else .exit 1)
  | .packSize n t _ => I.tell (I.type env.cfg t >>= fun τ => .ok (u64 (n * size (kindSize env.cfg) τ)))
  | .unpack a room pos b n t _ => one (I.type env.cfg t >>= fun τ =>
      let es := placed (kindSize env.cfg) τ n b
      if pos + n * size (kindSize env.cfg) τ ≤ room then
        .ok (I.withMem (delivered (kindSize env.cfg) I.core.mem (lined (kindSize env.cfg) es (a + pos)) es), pos + n * size (kindSize env.cfg) τ)
      else .exit 1)
  | .gather a n t b k u root _ =>
      if a = MPI_IN_PLACE then quiet (.ok I) else I.rooted root "MPI_Gather: bad root" (I.move env.cfg a n t b k u)
  | .gatherv a n t b ks ds u root _ =>
      if a = MPI_IN_PLACE then quiet (.ok I)
      else I.rooted root "MPI_Gatherv: bad root" (I.displaced env.cfg b ds u >>= fun b => rd ks 0 >>= fun k => I.move env.cfg a n t b k u)
  | .allgather a n t b k u _ => if a = MPI_IN_PLACE then quiet (.ok I) else quiet (I.move env.cfg a n t b k u)
  | .allgatherv a n t b ks ds u _ =>
      if a = MPI_IN_PLACE then quiet (.ok I)
      else quiet (I.displaced env.cfg b ds u >>= fun b => rd ks 0 >>= fun k => I.move env.cfg a n t b k u)
  | .scatter a n t b k u root _ =>
      if b = MPI_IN_PLACE then quiet (.ok I) else I.rooted root "MPI_Scatter: bad root" (I.move env.cfg a n t b k u)
  | .scatterv a ns ds t b k u root _ =>
      if b = MPI_IN_PLACE then quiet (.ok I)
      else I.rooted root "MPI_Scatterv: bad root" (I.displaced env.cfg a ds t >>= fun a => rd ns 0 >>= fun n => I.move env.cfg a n t b k u)
  | .reduce a b n t _ root _ => quiet (if root ≠ 0 then .abort "MPI_Reduce: bad root" else I.move env.cfg a n t b n t)
  | .allreduce a b n t _ _ => if a = MPI_IN_PLACE then quiet (.ok I) else quiet (I.move env.cfg a n t b n t)
  | .reduceScatter a b ns t _ _ => quiet (rd ns 0 >>= fun n => I.move env.cfg a n t b n t)
  | .scan a b n t _ _ => quiet (I.move env.cfg a n t b n t)
  | .alltoall a n t b k u _ => quiet (I.move env.cfg a n t b k u)
  | .alltoallv a ns sds t b ks rds u _ => quiet (I.displaced env.cfg a sds t >>= fun a => I.displaced env.cfg b rds u >>= fun b =>
      rd ns 0 >>= fun n => rd ks 0 >>= fun k => I.move env.cfg a n t b k u)
  | .alltoallw a ns sds ts b ks rds us _ => quiet (rd sds 0 >>= fun x => rd ns 0 >>= fun n => rd ts 0 >>= fun t =>
      rd rds 0 >>= fun y => rd ks 0 >>= fun k => rd us 0 >>= fun u => I.move env.cfg (a + x) n t (b + y) k u)
  | .finalize => quiet (.ok ⟨I.core.finalize, []⟩)
  | c => I.core.answer env c >>= fun x => .ok ({ I with core := x.1 }, x.2)

/-! ## Conforming calls -/

/-- `h` is a datatype (not a marker). -/
def IsData (cfg : Cfg) (I : Ideal) (h : Int) (τ : DType) : Prop := ∃ b, I.comp cfg h = some (.data τ, b)

/-- ... that may be used for communication. -/
def Usable (cfg : Cfg) (I : Ideal) (h : Int) (τ : DType) : Prop := I.comp cfg h = some (.data τ, true)

/-- The message fits the receive, and the program may access both buffers. -/
def LegalMove (cfg : Cfg) (I : Ideal) (sb sc : Int) (τs : DType) (rb rc : Int) (τr : DType) : Prop :=
  LegalExchange (kindSize cfg) (cfg.typeChecking = true) sb sc τs rb rc τr ∧
  Accessible (kindSize cfg) (fun a => (I.core.mem a).isSome) (placed (kindSize cfg) τr rc rb) ∧
  Accessible (kindSize cfg) (fun a => (I.core.mem a).isSome)
    ((placed (kindSize cfg) τs sc sb).take (placed (kindSize cfg) τr rc rb).length)

/-- Arguments of a transfer inside one call. -/
def LegalCopy (cfg : Cfg) (I : Ideal) (sb sc st rb rc rt : Int) : Prop :=
  ∃ τs τr, I.Usable cfg st τs ∧ I.Usable cfg rt τr ∧ I.LegalMove cfg sb sc τs rb rc τr

/-- Communicator and datatype of a message or receive. -/
def LegalArgs (cfg : Cfg) (I : Ideal) (dtype peer comm : Int) : Prop :=
  (∃ τ, I.Usable cfg dtype τ) ∧ (IsComm I.core.L comm ∨ (comm = MPI_COMM_NULL ∧ peer = MPI_PROC_NULL))

/-- A message that finds a receive waiting fits it. -/
def LegalSend (cfg : Cfg) (I : Ideal) (buf count dtype dest tag comm : Int) : Prop :=
  I.LegalArgs cfg dtype dest comm ∧ ∀ c j o, (comm, Obj.comm c) ∈ I.core.L.objs → I.core.L.partner c .send tag = some j →
    I.core.L.ops[j]? = some o → dest = 0 → I.LegalCopy cfg buf count dtype o.buf o.count o.dtype

/-- A message that a receive finds waiting fits it.  The code looks at the message with the datatype of the receive
(recv.c:81), which has to describe the same elements (DESIGN, section 7). -/
def LegalRecv (cfg : Cfg) (I : Ideal) (buf count dtype source tag comm : Int) : Prop :=
  I.LegalArgs cfg dtype source comm ∧ ∀ c j o, (comm, Obj.comm c) ∈ I.core.L.objs → I.core.L.partner c .recv tag = some j →
    I.core.L.ops[j]? = some o → source ≠ MPI_PROC_NULL →
    ∃ τs τr, I.Usable cfg o.dtype τs ∧ I.Usable cfg dtype τr ∧ I.LegalMove cfg o.buf o.count τs buf count τr ∧
      placed (kindSize cfg) τr count o.buf <+: placed (kindSize cfg) τs o.count o.buf

/-- Displacements of the vector collectives: entry 0 of the array is there, and the offset is an `int` (collective.c). -/
def LegalDispl (cfg : Cfg) (I : Ideal) (buf : Int) (displs : List Int) (h : Int) : Prop :=
  ∃ τ d, I.IsData cfg h τ ∧ rd displs 0 = .ok d ∧
    -2147483648 ≤ d * extent (kindSize cfg) τ ∧ d * extent (kindSize cfg) τ ≤ 2147483647 ∧
    0 ≤ buf + d * extent (kindSize cfg) τ ∧ buf + d * extent (kindSize cfg) τ < 18446744073709551616

/-- A call of a conforming program. -/
def Legal (env : Env) (I : Ideal) : Call → Prop
  | .isend b n t d g c | .irsend b n t d g c | .send b n t d g c => I.LegalSend env.cfg b n t d g c
  | .irecv b n t d g c | .recv b n t d g c _ => I.LegalRecv env.cfg b n t d g c
  | .sendrecv b n t d g b' n' t' d' g' c _ => I.LegalArgs env.cfg t d c ∧ I.LegalRecv env.cfg b' n' t' d' g' c ∧
      ∀ I' h, I.irecv env.cfg b' n' t' d' g' c = .ok (I', h) → I'.LegalSend env.cfg b n t d g c
  | .typeContiguous n t => 0 ≤ n ∧ ∃ τ, I.IsData env.cfg t τ ∧
      Small (kindSize env.cfg) ((List.range n.toNat).map fun (i : Nat) => (1, extent (kindSize env.cfg) τ * i, .data τ))
  | .typeHvector n b k t => 0 ≤ n ∧ 0 ≤ b ∧ 0 ≤ k ∧ k < 18446744073709551616 ∧ ∃ τ, I.IsData env.cfg t τ ∧
      Small (kindSize env.cfg) ((List.range n.toNat).map fun (i : Nat) => (b.toNat, s64 k * i, .data τ))
  | .typeVector n b k t => 0 ≤ n ∧ 0 ≤ b ∧ ∃ τ, I.IsData env.cfg t τ ∧
      Small (kindSize env.cfg) ((List.range n.toNat).map fun (i : Nat) => (b.toNat, k * extent (kindSize env.cfg) τ * i, .data τ))
  | .typeHindexed n bs ks t => n = bs.length ∧ n = ks.length ∧ (∀ x ∈ bs, 0 ≤ x) ∧ (∀ k ∈ ks, 0 ≤ k ∧ k < 18446744073709551616) ∧
      ∃ τ, I.IsData env.cfg t τ ∧ Small (kindSize env.cfg) ((bs.zip ks).map fun x => (x.1.toNat, s64 x.2, .data τ))
  | .typeIndexed n bs ks t => n = bs.length ∧ n = ks.length ∧ (∀ x ∈ bs, 0 ≤ x) ∧ ∃ τ, I.IsData env.cfg t τ ∧
      Small (kindSize env.cfg) ((bs.zip ks).map fun x => (x.1.toNat, x.2 * extent (kindSize env.cfg) τ, .data τ))
  | .typeIndexedBlock n b ks t => n = ks.length ∧ 0 ≤ b ∧ ∃ τ, I.IsData env.cfg t τ ∧
      Small (kindSize env.cfg) (ks.map fun d => (b.toNat, d * extent (kindSize env.cfg) τ, .data τ))
  | .typeStruct n bs ks ts => n = bs.length ∧ n = ks.length ∧ n = ts.length ∧ (∀ x ∈ bs, 0 ≤ x) ∧
      (∀ k ∈ ks, 0 ≤ k ∧ k < 18446744073709551616) ∧ ∃ l, I.blocks env.cfg bs ks ts = .ok l ∧ Small (kindSize env.cfg) l
  | .typeCommit t => ∃ τ, I.IsData env.cfg t τ
  | .typeFree h => 0 ≤ h ∧ (∃ τ, I.IsData env.cfg h τ) ∧ ∀ o, InFlight I.core.L o → o.dtype ≠ h
  | .typeExtent t | .typeLb t | .typeUb t => ∃ τ, I.IsData env.cfg t τ
  | .typeSize t => ∃ τ, I.IsData env.cfg t τ ∧ size (kindSize env.cfg) τ ≤ 2147483647
  | .getElements st t => ∃ τ, I.IsData env.cfg t τ ∧ -2147483648 ≤ st.get_count * τ.map.length ∧
      st.get_count * τ.map.length ≤ 2147483647
  | .pack a n t b room pos c => IsComm I.core.L c ∧ ∃ τ, I.IsData env.cfg t τ ∧ LegalPack (kindSize env.cfg) τ n a b pos room ∧
      Accessible (kindSize env.cfg) (fun x => (I.core.mem x).isSome) (placed (kindSize env.cfg) τ n a) ∧
      ∀ x, b + pos ≤ x → x < b + room → (I.core.mem x).isSome
  | .packSize _ t c => IsComm I.core.L c ∧ ∃ τ, I.IsData env.cfg t τ ∧ size (kindSize env.cfg) τ ≤ 2147483647
  | .unpack a room pos b n t c => IsComm I.core.L c ∧ ∃ τ, I.IsData env.cfg t τ ∧ LegalPack (kindSize env.cfg) τ n b a pos room ∧
      ElemsDisjoint (kindSize env.cfg) (placed (kindSize env.cfg) τ n b) ∧
      Accessible (kindSize env.cfg) (fun x => (I.core.mem x).isSome) (placed (kindSize env.cfg) τ n b) ∧
      ∀ x, a + pos ≤ x → x < a + room → (I.core.mem x).isSome
  | .gather a n t b k u root _ => (∃ τ, I.IsData env.cfg t τ) ∧ (∃ τ, I.IsData env.cfg u τ) ∧
      (a ≠ MPI_IN_PLACE → root = 0 → I.LegalCopy env.cfg a n t b k u)
  | .gatherv a n t b ks ds u root _ => (∃ τ, I.IsData env.cfg t τ) ∧ (∃ τ, I.IsData env.cfg u τ) ∧
      (a ≠ MPI_IN_PLACE → root = 0 → I.LegalDispl env.cfg b ds u ∧
        ∀ b' k, I.displaced env.cfg b ds u = .ok b' → rd ks 0 = .ok k → I.LegalCopy env.cfg a n t b' k u)
  | .allgather a n t b k u _ => (∃ τ, I.IsData env.cfg t τ) ∧ (∃ τ, I.IsData env.cfg u τ) ∧
      (a ≠ MPI_IN_PLACE → I.LegalCopy env.cfg a n t b k u)
  | .allgatherv a n t b ks ds u _ => (∃ τ, I.IsData env.cfg t τ) ∧ (∃ τ, I.IsData env.cfg u τ) ∧
      (a ≠ MPI_IN_PLACE → I.LegalDispl env.cfg b ds u ∧
        ∀ b' k, I.displaced env.cfg b ds u = .ok b' → rd ks 0 = .ok k → I.LegalCopy env.cfg a n t b' k u)
  | .scatter a n t b k u root _ => (∃ τ, I.IsData env.cfg t τ) ∧ (∃ τ, I.IsData env.cfg u τ) ∧
      (b ≠ MPI_IN_PLACE → root = 0 → I.LegalCopy env.cfg a n t b k u)
  | .scatterv a ns ds t b k u root _ => (∃ τ, I.IsData env.cfg t τ) ∧ (∃ τ, I.IsData env.cfg u τ) ∧
      (b ≠ MPI_IN_PLACE → root = 0 → I.LegalDispl env.cfg a ds t ∧
        ∀ a' n, I.displaced env.cfg a ds t = .ok a' → rd ns 0 = .ok n → I.LegalCopy env.cfg a' n t b k u)
  | .reduce a b n t _ root _ => (∃ τ, I.IsData env.cfg t τ) ∧ (root = 0 → I.LegalCopy env.cfg a n t b n t)
  | .allreduce a b n t _ _ => (∃ τ, I.IsData env.cfg t τ) ∧ (a ≠ MPI_IN_PLACE → I.LegalCopy env.cfg a n t b n t)
  | .reduceScatter a b ns t _ _ => (∃ τ, I.IsData env.cfg t τ) ∧ ∀ n, rd ns 0 = .ok n → I.LegalCopy env.cfg a n t b n t
  | .scan a b n t _ _ => I.LegalCopy env.cfg a n t b n t
  | .alltoall a n t b k u _ => I.LegalCopy env.cfg a n t b k u
  | .alltoallv a ns sds t b ks rds u _ => (∃ τ, I.IsData env.cfg t τ) ∧ (∃ τ, I.IsData env.cfg u τ) ∧
      I.LegalDispl env.cfg a sds t ∧ I.LegalDispl env.cfg b rds u ∧
      ∀ a' b' n k, I.displaced env.cfg a sds t = .ok a' → I.displaced env.cfg b rds u = .ok b' → rd ns 0 = .ok n → rd ks 0 = .ok k →
        I.LegalCopy env.cfg a' n t b' k u
  | .alltoallw a ns sds ts b ks rds us _ => (∀ t ∈ ts, ∃ τ, I.IsData env.cfg t τ) ∧ (∀ u ∈ us, ∃ τ, I.IsData env.cfg u τ) ∧
      (∀ x, rd sds 0 = .ok x → 0 ≤ a + x ∧ a + x < 18446744073709551616) ∧
      (∀ y, rd rds 0 = .ok y → 0 ≤ b + y ∧ b + y < 18446744073709551616) ∧
      ∀ x n t y k u, rd sds 0 = .ok x → rd ns 0 = .ok n → rd ts 0 = .ok t → rd rds 0 = .ok y → rd ks 0 = .ok k → rd us 0 = .ok u →
        I.LegalCopy env.cfg (a + x) n t (b + y) k u
  | c => c.Wf env I.core.L

end Ideal

/-! ## Programs -/

/-- The first `n` calls of a program on the machine (compare `Prog.run`). -/
def Prog.runIdeal (env : Env) (p : Prog) : Nat → List Obs → Ideal → List Obs × Option Fate
  | 0, seen, _ => (seen, none)
  | n + 1, seen, I =>
    match p seen with
    | none => (seen, none)
    | some c =>
      match I.answer env c with
      | .ok (I', o) => p.runIdeal env n (⟨c, o.vals, if knownReceives seen c then o.done else [], I'.core.mem⟩ :: seen) I'
      | r => (seen, r.fate)

/-- The first `n` calls are those of a conforming program. -/
def Prog.Conforms (env : Env) (p : Prog) : Nat → List Obs → Ideal → Prop
  | 0, _, _ => True
  | n + 1, seen, I => ∀ c, p seen = some c → I.Legal env c ∧ ∀ I' o, I.answer env c = .ok (I', o) →
      p.Conforms env n (⟨c, o.vals, if knownReceives seen c then o.done else [], I'.core.mem⟩ :: seen) I'

end MpiSerial
