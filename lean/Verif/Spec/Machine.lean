import Verif.Spec.Twin

/-!
# A reference machine

An MPI library for one process as one would describe it on paper: an account of the operations posted and of
the live objects (`Ledger`), a stack of free handle numbers, the memory of the program, and the number of
datatypes built so far.  There is no handle table, no linked list, no request record and no heap of descriptors.
What a call does to memory is said with the descriptor-level functions of `Model/Types.lean` and
`Model/Copy.lean` (their properties are C20-C34, C45-C59).
-/

set_option autoImplicit false

namespace MpiSerial

/-- Handle numbers: those on the stack `free` can be given out; the numbers below `256 * blocks` have been on
it at some time.  0 is never given out. -/
structure Pool where
  free : List Int
  blocks : Nat

namespace Pool

/-- The numbers `256*b+1, …, 256*b+255`. -/
def block (b : Nat) : List Int := (List.range' 1 255).map fun i : Nat => (256 * b + i : Int)

def start : Pool := ⟨block 0, 1⟩

/-- The number handed out next: the one returned last, or, if there is none, the next number never used (then the
255 numbers after it are put on the stack).  There are no more than 1024·256 numbers. -/
def take : Pool → Option (Int × Pool)
  | ⟨h :: fl, b⟩ => some (h, ⟨fl, b⟩)
  | ⟨[], b⟩ => if b = 1024 then none else some (256 * b, ⟨block b, b + 1⟩)

def give (P : Pool) (h : Int) : Pool := { P with free := h :: P.free }

end Pool

/-- The state of the machine.  `built` counts the datatypes constructed so far: the constructors leave parts of
the new descriptor as they find them (`Env.garbage`). -/
structure Mach where
  L : Ledger
  pool : Pool
  mem : Mem
  built : Nat

/-- What a completion call reports: the machine, `*request`, `*flag`, `*status`. -/
structure Tested where
  mach : Mach
  request : Int
  flag : Int
  status : StPtr

namespace Mach

def start (m : Mem) : Mach := ⟨.start, .start, m, 0⟩

/-- A new handle number. -/
def fresh (M : Mach) : Res (Mach × Int) :=
  match M.pool.take with
  | none => .abort "mpi_allocate_handle: max active handles exceeded"
  | some (h, P) => .ok ({ M with pool := P }, h)

/-- What a handle stands for. -/
def obj (M : Mach) (h : Int) : Option Obj := (M.L.objs.find? fun e => decide (e.1 = h)).map Prod.snd

/-- The communicator with handle `h`. -/
def cid (M : Mach) (h : Int) : Res Nat :=
  match M.obj h with
  | some (.comm c) => .ok c
  | _ => .ub .kind

/-- The operation with request `h`. -/
def op (M : Mach) (h : Int) : Res Op :=
  match M.obj h with
  | some (.req i) =>
    match M.L.ops[i]? with
    | some o => .ok o
    | none => .ub .kind
  | _ => .ub .kind

/-- The datatype with handle `h`. -/
def type (env : Env) (M : Mach) (h : Int) : Res Typestruct :=
  match M.L.desc env.cfg h with
  | some t => .ok t
  | none => .ub .kind

/-- Data moves from one buffer to another. -/
def copy (env : Env) (M : Mach) (src scount stype dst dcount dtype : Int) : Res Mach := do
  let a ← M.type env stype
  let b ← M.type env dtype
  let m ← Pcopy_data2 env.cfg M.mem src scount a dst dcount b
  return { M with mem := m }

/-! ## Communicators -/

def newComm (M : Mach) : Res (Mach × Int) := do
  let (M, h) ← M.fresh
  return ({ M with L := M.L.addComm h }, h)

/-- A constructor that makes no communicator in case `p`. -/
def newCommUnless (p : Prop) [Decidable p] (M : Mach) : Res (Mach × Int) := if p then .ok (M, MPI_COMM_NULL) else M.newComm

def init (M : Mach) : Res Mach := do
  let (M, h) ← M.newComm
  if h ≠ MPI_COMM_WORLD then .abort "MPI_Init: conflicting MPI_COMM_WORLD"
  else return { M with L := { M.L with inited := true } }

def finalize (M : Mach) : Mach := { M with L := M.L.finalize, pool := .start }

/-- Release of a handle. -/
def release (M : Mach) (h : Int) : Mach := { M with L := M.L.release h, pool := M.pool.give h }

def freeComm (M : Mach) (h : Int) : Mach := { M with L := M.L.freeComm h, pool := M.pool.give h }

/-! ## Messages -/

/-- A message is sent.  It goes to the receive posted first that accepts it. -/
def isend (env : Env) (M : Mach) (buf count dtype dest tag comm : Int) : Res (Mach × Int) :=
  if dest ≠ 0 ∧ dest ≠ MPI_PROC_NULL then .abort "MPI_Isend: send to"
  else do
    let (M, h) ← M.fresh
    if dest = MPI_PROC_NULL then return ({ M with L := M.L.postNull .send tag buf count dtype h }, h)
    else do
      let c ← M.cid comm
      match M.L.partner c .send tag with
      | none => return ({ M with L := M.L.post .send c tag buf count dtype h }, h)
      | some j =>
        match M.L.ops[j]? with
        | none => .ub .kind
        | some o => do
          let M ← M.copy env buf count dtype o.buf o.count o.dtype
          return ({ M with L := M.L.post .send c tag buf count dtype h }, h)

/-- A receive is posted.  It takes the message sent first that it accepts; what is moved is described by the
receiver's count and datatype on both sides (recv.c:81). -/
def irecv (env : Env) (M : Mach) (buf count dtype source tag comm : Int) : Res (Mach × Int) :=
  if source ≠ 0 ∧ source ≠ MPI_ANY_SOURCE ∧ source ≠ MPI_PROC_NULL then .abort "MPI_Irecv: bad source"
  else do
    let (M, h) ← M.fresh
    if source = MPI_PROC_NULL then return ({ M with L := M.L.postNull .recv tag buf count dtype h }, h)
    else do
      let c ← M.cid comm
      match M.L.partner c .recv tag with
      | none => return ({ M with L := M.L.post .recv c tag buf count dtype h }, h)
      | some j =>
        match M.L.ops[j]? with
        | none => .ub .kind
        | some o => do
          let M ← M.copy env o.buf count dtype buf count dtype
          return ({ M with L := M.L.post .recv c tag buf count dtype h }, h)

/-- Source and tag reported for the finished operation `o`. -/
def result (M : Mach) (o : Op) : Int × Int :=
  match o.kind, o.st with
  | .recv, .matched j => (0, ((M.L.ops[j]?).map Op.tag).getD 0)
  | .recv, .null => (MPI_PROC_NULL, MPI_ANY_TAG)
  | _, _ => (0, 0)                                        -- not specified

/-- Completion of a request. -/
def test (M : Mach) (h : Int) (st : StPtr) : Res Tested :=
  if h = MPI_REQUEST_NULL then do
    let st ← st.put MPI_ANY_SOURCE MPI_ANY_TAG
    return ⟨M, MPI_REQUEST_NULL, 1, st⟩
  else do
    let o ← M.op h
    if o.st = .pending then return ⟨M, h, 0, st⟩
    else do
      let st ← st.put (M.result o).1 (M.result o).2
      return ⟨M.release h, MPI_REQUEST_NULL, 1, st⟩

def wait (M : Mach) (h : Int) (st : StPtr) : Res (Mach × Int × StPtr) := do
  let r ← M.test h st
  if r.flag = 0 then .abort "MPI_Wait: request not complete, deadlock"
  else return (r.mach, r.request, r.status)

def send (env : Env) (M : Mach) (buf count dtype dest tag comm : Int) : Res Mach := do
  let (M, h) ← M.isend env buf count dtype dest tag comm
  let (M, _, _) ← M.wait h (.obj ⟨0, 0, 0, 0⟩)            -- the status is thrown away
  return M

def irsend (env : Env) (M : Mach) (buf count dtype dest tag comm : Int) : Res (Mach × Int) := do
  let (M, h) ← M.isend env buf count dtype dest tag comm
  let o ← M.op h
  if o.st = .pending then .abort "MPI_Irsend: no matching receive found"
  else return (M, h)

def recv (env : Env) (M : Mach) (buf count dtype source tag comm : Int) (st : StPtr) : Res (Mach × StPtr) := do
  let (M, h) ← M.irecv env buf count dtype source tag comm
  let (M, _, st) ← M.wait h st
  match st with
  | .null => return (M, .null)
  | .obj x => return (M, .obj { x with get_count := count })
  | .bad => .ub .memAccess

def sendrecv (env : Env) (M : Mach) (sbuf scount stype dest stag rbuf rcount rtype source rtag comm : Int) (st : StPtr) :
    Res (Mach × StPtr) := do
  let (M, h) ← M.irecv env rbuf rcount rtype source rtag comm
  let M ← M.send env sbuf scount stype dest stag comm
  let (M, _, st) ← M.wait h st
  return (M, st)

/-- Is there a message a receive would take?  Flag and status. -/
def iprobe (M : Mach) (source tag comm : Int) (st : StPtr) : Res (Int × StPtr) :=
  if source ≠ 0 ∧ source ≠ MPI_ANY_SOURCE then .abort "MPI_Irecv: bad source"
  else do
    let c ← M.cid comm
    match M.L.partner c .recv tag with
    | none => return (0, st)
    | some j =>
      match M.L.ops[j]? with
      | none => .ub .kind
      | some o => do
        let st ← st.put 0 o.tag
        return (1, st)

def probe (M : Mach) (source tag comm : Int) (st : StPtr) : Res StPtr := do
  let (flag, st) ← M.iprobe source tag comm st
  if flag = 0 then .abort "MPI_Probe: no existing match, deadlock"
  else return st

/-! ## Arrays of requests -/

/-- The requests are tested in order up to the first finished one: requests after the call, flag, status. -/
def testany (M : Mach) : List Int → StPtr → Res (Mach × List Int × Int × StPtr)
  | [], st => .ok (M, [], 0, st)
  | h :: hs, st => do
    let r ← M.test h st
    if r.flag ≠ 0 then return (r.mach, r.request :: hs, r.flag, r.status)
    else do
      let (M, hs, f, st) ← r.mach.testany hs r.status
      return (M, r.request :: hs, f, st)

/-- All requests are tested in order, from array index `i` on: requests after the call, flags, statuses. -/
def testeach (M : Mach) (i : Nat) : List Int → StArr → Res (Mach × List Int × List Int × StArr)
  | [], sts => .ok (M, [], [], sts)
  | h :: hs, sts => do
    let p ← sts.at i
    let r ← M.test h p
    let (M, hs, fs, sts) ← r.mach.testeach (i + 1) hs (sts.upd i r.status)
    return (M, r.request :: hs, r.flag :: fs, sts)

/-- The same, stopping the program at the first request that is not finished. -/
def waitall (M : Mach) (i : Nat) : List Int → StArr → Res (Mach × List Int × StArr)
  | [], sts => .ok (M, [], sts)
  | h :: hs, sts => do
    let p ← sts.at i
    let r ← M.test h p
    if r.flag = 0 then .abort "MPI_Waitall: request not complete, deadlock"
    else do
      let (M, hs, sts) ← r.mach.waitall (i + 1) hs (sts.upd i r.status)
      return (M, r.request :: hs, sts)

/-! ## Datatypes -/

def newType (env : Env) (M : Mach) (build : Garbage → Res Typestruct) : Res (Mach × Int) := do
  let (M, h) ← M.fresh
  let t ← build (env.garbage M.built)
  return ({ M with L := M.L.addType h t, built := M.built + 1 }, h)

/-- The datatypes of a structure. -/
def types (env : Env) (M : Mach) : List Int → Res (List Typestruct)
  | [] => .ok []
  | h :: hs => do
    let t ← M.type env h
    let ts ← M.types env hs
    return t :: ts

/-- Predefined datatypes are committed already. -/
def commit (M : Mach) (h : Int) : Mach := if h < 0 then M else { M with L := M.L.commit h }

/-- Byte offset of entry 0 of the arrays of the vector collectives. -/
def offset (env : Env) (displs : List Int) (t : Typestruct) : Res Int := do
  let e ← Type_extent env.cfg t
  let d ← rd displs 0
  return displOffset d e

/-! ## The Fortran start-up checks (mpi.c:29-156) -/

def verifySize (env : Env) (M : Mach) (a : FortArgs) (name : String) (p1 p2 err : Int) : Res Int := do
  let t ← M.type env (a.const name)
  let p ← t.pair 0
  let len ← Simpletype_length env.cfg p.type
  return if s32 (s64 (p2 - p1)) ≠ len then 1 else err

/-- The constants compared before and after the status fields. -/
def fortNames : List String := ["MPI_COMM_WORLD", "MPI_ANY_SOURCE", "MPI_ANY_TAG", "MPI_PROC_NULL", "MPI_ROOT", "MPI_COMM_NULL",
  "MPI_REQUEST_NULL", "MPI_GROUP_NULL", "MPI_GROUP_EMPTY", "MPI_UNDEFINED", "MPI_MAX_ERROR_STRING", "MPI_MAX_PROCESSOR_NAME",
  "MPI_STATUS_SIZE"]

def fortChecks (env : Env) (M : Mach) (a : FortArgs) : Res Unit := do
  let err := fortNames.foldl (fun err n => verify_eq a n err) 0
  let err ← verify_field a "MPI_SOURCE" 0 err
  let err ← verify_field a "MPI_TAG" 4 err
  let err ← verify_field a "MPI_ERROR" 8 err
  let err := verify_eq a "MPI_INTEGER" err
  let err ← M.verifySize env a "MPI_INTEGER" a.fint1 a.fint2 err
  let err ← M.verifySize env a "MPI_LOGICAL" a.flog1 a.flog2 err
  let err ← M.verifySize env a "MPI_REAL" a.freal1 a.freal2 err
  let err := verify_eq a "MPI_DOUBLE_PRECISION" err
  let err ← M.verifySize env a "MPI_DOUBLE_PRECISION" a.fdub1 a.fdub2 err
  let err ← M.verifySize env a "MPI_COMPLEX" a.fcomp1 a.fcomp2 err
  if err ≠ 0 then .abort "mpi-serial: mpi_init_fort" else return ()

/-! ## Every call -/

/-- Nothing is handed back. -/
def quiet (x : Res Mach) : Res (Mach × Out) := x >>= fun M => .ok (M, ⟨[], []⟩)

/-- One integer is handed back. -/
def one (x : Res (Mach × Int)) : Res (Mach × Out) := x >>= fun r => .ok (r.1, ⟨[r.2], []⟩)

/-- One integer is handed back and nothing changes. -/
def tell (M : Mach) (x : Res Int) : Res (Mach × Out) := x >>= fun n => .ok (M, ⟨[n], []⟩)

/-- A status is handed back. -/
def oneStatus (x : Res (Mach × StPtr)) : Res (Mach × Out) := x >>= fun r => .ok (r.1, ⟨r.2.vals, []⟩)

/-- Collectives with a root: nothing happens for `MPI_ROOT`, any other root than 0 stops the program. -/
def rooted (M : Mach) (root : Int) (msg : String) (x : Res Mach) : Res (Mach × Out) :=
  quiet (if root = MPI_ROOT then .ok M else if root ≠ 0 then .abort msg else x)

/-- What the machine answers to a call, and its new state. -/
def answer (env : Env) (M : Mach) : Call → Res (Mach × Out)
  | .store m => quiet (.ok { M with mem := m })
  | .init => quiet M.init
  | .initThread r => one (M.init >>= fun M => .ok (M, r))
  | .fortInit a => quiet (M.init >>= fun M => M.fortChecks env a >>= fun _ => .ok M)
  | .initialized => M.tell (.ok (if M.L.inited then 1 else 0))
  | .finalize => quiet (.ok M.finalize)
  | .abort _ code => .exit code
  | .commDup _ => one M.newComm
  | .commCreate _ g => one (newCommUnless (g = MPI_GROUP_NULL ∨ g = MPI_GROUP_EMPTY) M)
  | .commSplit _ color _ => one (newCommUnless (color = MPI_UNDEFINED) M)
  | .intercommCreate a _ b _ _ => one (newCommUnless (a = MPI_COMM_NULL ∧ b = MPI_COMM_NULL) M)
  | .cartCreate _ n dims => one (cartCheck dims n.toNat 0 >>= fun _ => M.newComm)
  | .commFree h => one (.ok (M.freeComm h, MPI_COMM_NULL))
  | .isend b n t d g c => one (M.isend env b n t d g c)
  | .irsend b n t d g c => one (M.irsend env b n t d g c)
  | .send b n t d g c => quiet (M.send env b n t d g c)
  | .irecv b n t d g c => one (M.irecv env b n t d g c)
  | .recv b n t d g c st => oneStatus (M.recv env b n t d g c st)
  | .sendrecv b n t d g b' n' t' d' g' c st => oneStatus (M.sendrecv env b n t d g b' n' t' d' g' c st)
  | .iprobe d g c st => M.iprobe d g c st >>= fun x => .ok (M, ⟨x.1 :: x.2.vals, []⟩)
  | .probe d g c st => oneStatus (M.probe d g c st >>= fun x => .ok (M, x))
  | .test r st => M.test r st >>= fun x => .ok (x.mach, .ofDone [x.request, x.flag] [x.status])
  | .wait r st => M.wait r st >>= fun x => .ok (x.1, .ofDone [x.2.1] [x.2.2])
  | .requestFree r => one (.ok (M.release r, MPI_REQUEST_NULL))
  | .testany _ rs i st => M.testany rs st >>= fun x => .ok (x.1, .ofDone (i :: x.2.2.1 :: x.2.1) [x.2.2.2])
  | .waitany _ rs i st => M.testany rs st >>= fun x =>
      if x.2.2.1 = 0 then .abort "MPI_Waitany: no requests complete, deadlock"
      else .ok (x.1, .ofDone (i :: x.2.1) [x.2.2.2])
  | .testall _ rs sts => M.testeach 0 rs sts >>= fun x =>
      .ok (x.1, .ofDone ((if x.2.2.1.all (· ≠ 0) then 1 else 0) :: x.2.1) x.2.2.2.ptrs)
  | .waitall _ rs sts => M.waitall 0 rs sts >>= fun x => .ok (x.1, .ofDone x.2.1 x.2.2.ptrs)
  | .testsome _ rs ix sts | .waitsome _ rs ix sts => M.testeach 0 rs sts >>= fun x =>
      .ok (x.1, .ofDone (((x.2.2.1.countP (· ≠ 0) : Nat) : Int) :: ix ++ x.2.1) x.2.2.2.ptrs)
  | .typeContiguous n t => one (M.type env t >>= fun d => M.newType env fun g => Type_contiguous env.cfg g n d)
  | .typeHvector n b k t => one (M.type env t >>= fun d => M.newType env fun g => Type_hvector env.cfg g n b k d)
  | .typeVector n b k t => one (M.type env t >>= fun d => M.newType env fun g => Type_vector env.cfg g n b k d)
  | .typeHindexed n bs ks t => one (M.type env t >>= fun d => M.newType env fun g => Type_hindexed env.cfg g n bs ks d)
  | .typeIndexed n bs ks t => one (M.type env t >>= fun d => M.newType env fun g => Type_indexed env.cfg g n bs ks d)
  | .typeIndexedBlock n b ks t => one (M.type env t >>= fun d => M.newType env fun g => Type_create_indexed_block env.cfg g n b ks d)
  | .typeStruct _ bs ks ts => one (M.types env ts >>= fun ds =>
      M.newType env fun g => Type_struct env.cfg g ((bs.zip (ks.zip ds)).map fun x => ⟨x.1, x.2.1, x.2.2⟩))
  | .typeCommit t => quiet (.ok (M.commit t))
  | .typeFree t => quiet (.ok (M.release t))
  | .typeExtent t => M.tell (M.type env t >>= fun d => Type_extent env.cfg d)
  | .typeSize t => M.tell (M.type env t >>= fun d => Type_size env.cfg d)
  | .typeLb t => M.tell (M.type env t >>= fun d => .ok (Type_lb d))
  | .typeUb t => M.tell (M.type env t >>= fun d => .ok (Type_ub d))
  | .getElements st t => M.tell (M.type env t >>= fun d => ck32 (st.get_count * d.count))
  | .pack a n t b size pos _ => one (M.type env t >>= fun d => Pack env.cfg M.mem a n d b size pos >>= fun x => .ok ({ M with mem := x.1 }, x.2))
  | .packSize n t _ => M.tell (M.type env t >>= fun d => Pack_size env.cfg n d)
  | .unpack a size pos b n t _ => one (M.type env t >>= fun d => Unpack env.cfg M.mem a size pos b n d >>= fun x => .ok ({ M with mem := x.1 }, x.2))
  | .barrier _ => quiet (.ok M)
  | .bcast _ _ _ root _ => M.rooted root "MPI_Bcast: bad root" (.ok M)
  | .gather a n t b k u root _ =>
      if a = MPI_IN_PLACE then quiet (.ok M) else M.rooted root "MPI_Gather: bad root" (M.copy env a n t b k u)
  | .gatherv a n t b ks ds u root _ =>
      if a = MPI_IN_PLACE then quiet (.ok M)
      else M.rooted root "MPI_Gatherv: bad root" (M.type env u >>= fun d => offset env ds d >>= fun o => rd ks 0 >>= fun k =>
        M.copy env a n t (padd b o) k u)
  | .allgather a n t b k u _ => if a = MPI_IN_PLACE then quiet (.ok M) else quiet (M.copy env a n t b k u)
  | .allgatherv a n t b ks ds u _ =>
      if a = MPI_IN_PLACE then quiet (.ok M)
      else quiet (M.type env u >>= fun d => offset env ds d >>= fun o => rd ks 0 >>= fun k => M.copy env a n t (padd b o) k u)
  | .scatter a n t b k u root _ =>
      if b = MPI_IN_PLACE then quiet (.ok M) else M.rooted root "MPI_Scatter: bad root" (M.copy env a n t b k u)
  | .scatterv a ns ds t b k u root _ =>
      if b = MPI_IN_PLACE then quiet (.ok M)
      else M.rooted root "MPI_Scatterv: bad root" (M.type env t >>= fun d => offset env ds d >>= fun o => rd ns 0 >>= fun n =>
        M.copy env (padd a o) n t b k u)
  | .reduce a b n t _ root _ => quiet (if root ≠ 0 then .abort "MPI_Reduce: bad root" else M.copy env a n t b n t)
  | .allreduce a b n t _ _ => if a = MPI_IN_PLACE then quiet (.ok M) else quiet (M.copy env a n t b n t)
  | .reduceScatter a b ns t _ _ => quiet (rd ns 0 >>= fun n => M.copy env a n t b n t)
  | .scan a b n t _ _ => quiet (M.copy env a n t b n t)
  | .alltoall a n t b k u _ => quiet (M.copy env a n t b k u)
  | .alltoallv a ns sds t b ks rds u _ => quiet (M.type env t >>= fun d => Type_extent env.cfg d >>= fun e =>
      M.type env u >>= fun d' => Type_extent env.cfg d' >>= fun e' => rd sds 0 >>= fun x => rd rds 0 >>= fun y =>
      rd ns 0 >>= fun n => rd ks 0 >>= fun k => M.copy env (padd a (displOffset x e)) n t (padd b (displOffset y e')) k u)
  | .alltoallw a ns sds ts b ks rds us _ => quiet (rd sds 0 >>= fun x => rd ns 0 >>= fun n => rd ts 0 >>= fun t =>
      rd rds 0 >>= fun y => rd ks 0 >>= fun k => rd us 0 >>= fun u => M.copy env (padd a x) n t (padd b y) k u)

end Mach

/-! ## Programs -/

/-- The first `n` calls of a program on the machine (compare `Prog.run`). -/
def Prog.runMach (env : Env) (p : Prog) : Nat → List Obs → Mach → List Obs × Option Fate
  | 0, seen, _ => (seen, none)
  | n + 1, seen, M =>
    match p seen with
    | none => (seen, none)
    | some c =>
      match M.answer env c with
      | .ok (M', o) => p.runMach env n (⟨c, o.vals, if knownReceives seen c then o.done else [], M'.mem⟩ :: seen) M'
      | r => (seen, r.fate)

/-- The first `n` calls are well formed, by the account of the machine. -/
def Prog.MachWf (env : Env) (p : Prog) : Nat → List Obs → Mach → Prop
  | 0, _, _ => True
  | n + 1, seen, M => ∀ c, p seen = some c → c.Wf env M.L ∧ ∀ M' o, M.answer env c = .ok (M', o) →
      p.MachWf env n (⟨c, o.vals, if knownReceives seen c then o.done else [], M'.mem⟩ :: seen) M'

end MpiSerial
