import Verif.Model.P2P
import Verif.Model.Cart

/-!
# Client's view of a history of MPI calls

A `Ledger` is what an observer of the API calls writes down: every posted operation in posting order
(its position is its identity), the live handles and what they stand for.  It knows nothing about
handle tables, linked lists or request records.  The matching rule in it is that of the MPI standard:
a message goes to the *earliest posted* receive still unmatched that accepts its tag, a receive takes
the *earliest posted* message still unmatched that it accepts.
-/

set_option autoImplicit false

namespace MpiSerial

inductive Kind where
  | send | recv
  deriving DecidableEq, Repr

/-- Other side. -/
def Kind.other : Kind → Kind
  | .send => .recv
  | .recv => .send

/-- What has become of a posted operation: nothing yet; matched with the operation posted as number
`partner`; or it was addressed to MPI_PROC_NULL. -/
inductive OpSt where
  | pending
  | matched (partner : Nat)
  | null
  deriving DecidableEq, Repr

/-- A posted operation.  `cid` identifies the communicator object (handles are recycled, `cid`s are
not); `h` is the request handle the call returned. -/
structure Op where
  kind : Kind
  cid : Nat
  tag : Int
  buf : Int
  count : Int
  dtype : Int
  h : Int
  st : OpSt
  deriving DecidableEq, Repr

/-- What a live handle stands for: a communicator, the request of operation `i`, a derived datatype. -/
inductive Obj where
  | comm (cid : Nat)
  | req (i : Nat)
  | dtype (t : Typestruct)
  deriving DecidableEq

structure Ledger where
  ops : List Op
  objs : List (Int × Obj)
  /-- communicators created so far / freed so far -/
  ncomms : Nat
  nfreed : Nat
  /-- operations that were still unmatched when their communicator was freed -/
  dropped : Nat
  /-- derived datatypes that were live when MPI_Finalize was called -/
  tlost : Nat
  /-- MPI_Init done and not followed by MPI_Finalize -/
  inited : Bool

/-- Nothing has happened yet. -/
def Ledger.start : Ledger := ⟨[], [], 0, 0, 0, 0, false⟩

/-- A receive posted with tag `rtag` accepts a message with tag `stag` (there is only one source). -/
def accepts (rtag stag : Int) : Bool := rtag = MPI_ANY_TAG || rtag = stag

/-- Two operations of opposite kind fit each other by tag. -/
def Op.fits (o : Op) (k : Kind) (tag : Int) : Bool :=
  match k with
  | .send => accepts o.tag tag      -- a message with `tag` arrives at receive `o`
  | .recv => accepts tag o.tag      -- a receive for `tag` meets message `o`

/-- `o` is waiting on communicator `c` for an operation of kind `k` with `tag`. -/
def Op.waits (o : Op) (c : Nat) (k : Kind) (tag : Int) : Bool :=
  decide (o.kind = k.other ∧ o.cid = c ∧ o.st = .pending) && o.fits k tag

namespace Ledger

/-- The earliest posted unmatched operation that an operation of kind `k` with `tag` on `c` matches. -/
def partner (L : Ledger) (c : Nat) (k : Kind) (tag : Int) : Option Nat :=
  L.ops.findIdx? (fun o => o.waits c k tag)

/-- Record that operation `j` was matched with operation `i`. -/
def settle (ops : List Op) (j i : Nat) : List Op :=
  ops.modify j (fun o => { o with st := .matched i })

/-- An operation of kind `k` is posted on communicator `c`; the call returned handle `h`. -/
def post (L : Ledger) (k : Kind) (c : Nat) (tag buf count dtype h : Int) : Ledger :=
  let i := L.ops.length
  match L.partner c k tag with
  | some j => { L with ops := settle L.ops j i ++ [⟨k, c, tag, buf, count, dtype, h, .matched j⟩],
                       objs := (h, .req i) :: L.objs }
  | none => { L with ops := L.ops ++ [⟨k, c, tag, buf, count, dtype, h, .pending⟩],
                     objs := (h, .req i) :: L.objs }

/-- An operation addressed to MPI_PROC_NULL is posted. -/
def postNull (L : Ledger) (k : Kind) (tag buf count dtype h : Int) : Ledger :=
  { L with ops := L.ops ++ [⟨k, 0, tag, buf, count, dtype, h, .null⟩],
           objs := (h, .req L.ops.length) :: L.objs }

/-- A handle was released. -/
def release (L : Ledger) (h : Int) : Ledger :=
  { L with objs := L.objs.filter (fun e => decide (e.1 ≠ h)) }

/-- Unmatched operations posted on the communicator with handle `h`. -/
def pendingOn (L : Ledger) (h : Int) : Nat :=
  L.ops.countP (fun o => decide (o.st = .pending ∧ (h, Obj.comm o.cid) ∈ L.objs))

/-- The communicator with handle `h` was freed: its unmatched operations are forgotten by the library. -/
def freeComm (L : Ledger) (h : Int) : Ledger :=
  { L.release h with nfreed := L.nfreed + 1, dropped := L.dropped + L.pendingOn h }

/-- Live derived datatypes. -/
def liveTypes (L : Ledger) : Nat :=
  L.objs.countP (fun e => match e.2 with
    | .dtype _ => true
    | _ => false)

/-- MPI_Finalize was called: every handle is gone. -/
def finalize (L : Ledger) : Ledger :=
  { L with objs := [], inited := false, tlost := L.tlost + L.liveTypes }

/-- A communicator was created with handle `h`. -/
def addComm (L : Ledger) (h : Int) : Ledger :=
  { L with objs := (h, .comm L.ncomms) :: L.objs, ncomms := L.ncomms + 1 }

/-- A constructor that may return MPI_COMM_NULL returned `h`. -/
def noteComm (L : Ledger) (h : Int) : Ledger := if h = MPI_COMM_NULL then L else L.addComm h

/-- A datatype was created with handle `h`. -/
def addType (L : Ledger) (h : Int) (t : Typestruct) : Ledger :=
  { L with objs := (h, .dtype t) :: L.objs }

/-- The datatype `h` was committed. -/
def commit (L : Ledger) (h : Int) : Ledger :=
  { L with objs := L.objs.map (fun e =>
      match e with
      | (h', .dtype t) => if h' = h then (h', .dtype { t with committed := 1 }) else (h', .dtype t)
      | e => e) }

/-- Number of operations not yet matched. -/
def unmatched (L : Ledger) : Nat := L.ops.countP (fun o => decide (o.st = .pending))

/-- The descriptor a datatype handle stands for: predefined (negative) or live derived type. -/
def desc (cfg : Cfg) (L : Ledger) (h : Int) : Option Typestruct :=
  if h < 0 then (simpletypes cfg)[(-1 - h).toNat]?
  else (L.objs.find? (fun e => decide (e.1 = h))).bind (fun e =>
    match e.2 with
    | .dtype t => some t
    | _ => none)

end Ledger

/-- Calls that create a communicator, with their outcome in state `s`. -/
inductive CommCall (s : Sys) : Res (Sys × Int) → Prop
  | dup (c) : CommCall s (MPI_Comm_dup s c)
  | create (c g) : CommCall s (MPI_Comm_create s c g)
  | split (c color key) : CommCall s (MPI_Comm_split s c color key)
  | intercomm (a b c d e) : CommCall s (MPI_Intercomm_create s a b c d e)
  | cart (c n) (dims : List Int) : CommCall s (MPI_Cart_create s c n dims)

/-- Calls that create a datatype from component types, with their outcome in state `s` and the
descriptor-level construction (type.c) they perform. -/
inductive TypeCall (env : Env) (L : Ledger) (s : Sys) : (Garbage → Res Typestruct) → Res (Sys × Int) → Prop
  | contiguous {count old t} : L.desc env.cfg old = some t →
      TypeCall env L s (fun g => Type_contiguous env.cfg g count t) (MPI_Type_contiguous env s count old)
  | hvector {count b d old t} : L.desc env.cfg old = some t →
      TypeCall env L s (fun g => Type_hvector env.cfg g count b d t) (MPI_Type_hvector env s count b d old)
  | vector {count b d old t} : L.desc env.cfg old = some t →
      TypeCall env L s (fun g => Type_vector env.cfg g count b d t) (MPI_Type_vector env s count b d old)
  | hindexed {count b d old t} : L.desc env.cfg old = some t →
      TypeCall env L s (fun g => Type_hindexed env.cfg g count b d t) (MPI_Type_hindexed env s count b d old)
  | indexed {count b d old t} : L.desc env.cfg old = some t →
      TypeCall env L s (fun g => Type_indexed env.cfg g count b d t) (MPI_Type_indexed env s count b d old)
  | indexedBlock {count b d old t} : L.desc env.cfg old = some t →
      TypeCall env L s (fun g => Type_create_indexed_block env.cfg g count b d t)
        (MPI_Type_create_indexed_block env s count b d old)
  | struct {blocklens disps olds : List Int} {ts : List Typestruct} :
      blocklens.length = olds.length → disps.length = olds.length →
      ts.length = olds.length →
      (∀ (i : Nat) h t, olds[i]? = some h → ts[i]? = some t → L.desc env.cfg h = some t) →
      TypeCall env L s
        (fun g => Type_struct env.cfg g ((blocklens.zip (disps.zip ts)).map (fun x => ⟨x.1, x.2.1, x.2.2⟩)))
        (MPI_Type_struct env s olds.length blocklens disps olds)

/-- One successful call.  Handles passed to a call are live and of the right kind; a request is freed
with MPI_Request_free only when its operation is not pending.  The numeric premises are the capacity
limits of the C `int` counters (comm.c:17 `num`, list.c:21-22). -/
inductive Step (env : Env) : Sys → Ledger → Sys → Ledger → Prop
  /-- anything that only changes user memory: the program itself, collectives, pack/unpack, probes -/
  | memory {s : Sys} {L m} : Step env s L { s with mem := m } L
  | init {s s' : Sys} {L} : L.ncomms < 2147483647 → L.ncomms - L.nfreed < 1073741823 →
      MPI_Init s = .ok s' →
      Step env s L s' { L.addComm MPI_COMM_WORLD with inited := true }
  | finalize {s : Sys} {L} : Step env s L (MPI_Finalize s) L.finalize
  | comm {s s' : Sys} {L h} {r : Res (Sys × Int)} : L.ncomms < 2147483647 → L.ncomms - L.nfreed < 1073741823 →
      CommCall s r → r = .ok (s', h) → Step env s L s' (L.noteComm h)
  | commFree {s s' : Sys} {L h c h'} : (h, .comm c) ∈ L.objs → MPI_Comm_free s h = .ok (s', h') →
      Step env s L s' (L.freeComm h)
  | isend {s s' : Sys} {L buf count dtype tag comm c h} : (comm, .comm c) ∈ L.objs →
      L.unmatched < 2147483647 →
      MPI_Isend env s buf count dtype 0 tag comm = .ok (s', h) →
      Step env s L s' (L.post .send c tag buf count dtype h)
  | irecv {s s' : Sys} {L buf count dtype src tag comm c h} : (comm, .comm c) ∈ L.objs →
      L.unmatched < 2147483647 → src ≠ MPI_PROC_NULL →
      MPI_Irecv env s buf count dtype src tag comm = .ok (s', h) →
      Step env s L s' (L.post .recv c tag buf count dtype h)
  | isendNull {s s' : Sys} {L buf count dtype tag comm h} :
      comm = MPI_COMM_NULL ∨ (∃ c, (comm, .comm c) ∈ L.objs) →
      MPI_Isend env s buf count dtype MPI_PROC_NULL tag comm = .ok (s', h) →
      Step env s L s' (L.postNull .send tag buf count dtype h)
  | irecvNull {s s' : Sys} {L buf count dtype tag comm h} :
      comm = MPI_COMM_NULL ∨ (∃ c, (comm, .comm c) ∈ L.objs) →
      MPI_Irecv env s buf count dtype MPI_PROC_NULL tag comm = .ok (s', h) →
      Step env s L s' (L.postNull .recv tag buf count dtype h)
  /-- MPI_Test (MPI_Wait, and the array calls, are sequences of these) -/
  | test {s : Sys} {L h i st} {r : TestRes} : (h, .req i) ∈ L.objs →
      MPI_Test s h st = .ok r →
      Step env s L r.sys (if r.flag = 0 then L else L.release h)
  | requestFree {s s' : Sys} {L h i o h'} : (h, .req i) ∈ L.objs → L.ops[i]? = some o →
      o.st ≠ .pending → MPI_Request_free s h = .ok (s', h') → Step env s L s' (L.release h)
  | newType {s s' : Sys} {L h t} {build : Garbage → Res Typestruct} {r : Res (Sys × Int)} :
      TypeCall env L s build r → r = .ok (s', h) →
      build (env.garbage s.nextType) = .ok t → Step env s L s' (L.addType h t)
  | commit {s s' : Sys} {L h t} : (h, .dtype t) ∈ L.objs → MPI_Type_commit env s h = .ok s' →
      Step env s L s' (L.commit h)
  | typeFree {s s' : Sys} {L h t} : (h, .dtype t) ∈ L.objs → MPI_Type_free s h = .ok s' →
      Step env s L s' (L.release h)

/-- A history of successful calls from program start. -/
inductive Reach (env : Env) : Sys → Ledger → Prop
  | start {m} : Reach env (Sys.start m) .start
  | step {s s' : Sys} {L L'} : Reach env s L → Step env s L s' L' → Reach env s' L'

end MpiSerial
