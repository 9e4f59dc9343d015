import Verif.Spec.Calls

/-!
# Programs that look at the results of their calls

handles.c does not clear the storage of a handle: a new request starts with the contents of the request that
had the slot before, or with whatever the slot held (`Env.junk`).  Here are the notions needed to say that no
program notices.
-/

set_option autoImplicit false

namespace MpiSerial

/-- The same machine with other leftovers in the storage of requests. -/
def Env.withJunk (env : Env) (j : Nat → ReqRec) : Env := { env with junk := j }

/-! ## What a call hands back to its caller -/

/-- `vals`: handles, flags, counts, positions, and the statuses of receives and probes.  `done`: the statuses
written by the completion calls (MPI_Test, MPI_Wait and the array versions). -/
structure Out where
  vals : List Int
  done : List StPtr
  deriving DecidableEq

/-- All fields of a status. -/
def StPtr.vals : StPtr → List Int
  | .obj s => [s.MPI_SOURCE, s.MPI_TAG, s.MPI_ERROR, s.get_count]
  | _ => []

/-- The fields of a status a completion call does not write. -/
def StPtr.kept : StPtr → List Int
  | .obj s => [s.MPI_ERROR, s.get_count]
  | _ => []

def StArr.ptrs (a : StArr) : List StPtr := (a.getD []).map .obj

/-- Results of a completion call: integers and statuses. -/
def Out.ofDone (vals : List Int) (done : List StPtr) : Out := ⟨vals ++ done.flatMap StPtr.kept, done⟩

/-- The new state together with everything handed back. -/
def Call.answer (env : Env) (s : Sys) (c : Call) : Res (Sys × Out) :=
  match c with
  | .initThread r => MPI_Init_thread s r >>= fun x => .ok (x.1, ⟨[x.2], []⟩)
  | .initialized => .ok (s, ⟨[MPI_Initialized s], []⟩)
  | .commDup c => MPI_Comm_dup s c >>= fun x => .ok (x.1, ⟨[x.2], []⟩)
  | .commCreate c g => MPI_Comm_create s c g >>= fun x => .ok (x.1, ⟨[x.2], []⟩)
  | .commSplit c color key => MPI_Comm_split s c color key >>= fun x => .ok (x.1, ⟨[x.2], []⟩)
  | .intercommCreate a b c d e => MPI_Intercomm_create s a b c d e >>= fun x => .ok (x.1, ⟨[x.2], []⟩)
  | .cartCreate c n dims => MPI_Cart_create s c n dims >>= fun x => .ok (x.1, ⟨[x.2], []⟩)
  | .commFree c => MPI_Comm_free s c >>= fun x => .ok (x.1, ⟨[x.2], []⟩)
  | .isend b n t d g c => MPI_Isend env s b n t d g c >>= fun x => .ok (x.1, ⟨[x.2], []⟩)
  | .irsend b n t d g c => MPI_Irsend env s b n t d g c >>= fun x => .ok (x.1, ⟨[x.2], []⟩)
  | .irecv b n t d g c => MPI_Irecv env s b n t d g c >>= fun x => .ok (x.1, ⟨[x.2], []⟩)
  | .recv b n t d g c st => MPI_Recv env s b n t d g c st >>= fun x => .ok (x.1, ⟨x.2.vals, []⟩)
  | .sendrecv b n t d g b' n' t' d' g' c st =>
      MPI_Sendrecv env s b n t d g b' n' t' d' g' c st >>= fun x => .ok (x.1, ⟨x.2.vals, []⟩)
  | .iprobe d g c st => MPI_Iprobe s d g c st >>= fun x => .ok (x.1, ⟨x.2.1 :: x.2.2.vals, []⟩)
  | .probe d g c st => MPI_Probe s d g c st >>= fun x => .ok (x.1, ⟨x.2.vals, []⟩)
  | .test r st => MPI_Test s r st >>= fun x => .ok (x.sys, .ofDone [x.request, x.flag] [x.status])
  | .wait r st => MPI_Wait s r st >>= fun x => .ok (x.1, .ofDone [x.2.1] [x.2.2])
  | .requestFree r => MPI_Request_free s r >>= fun x => .ok (x.1, ⟨[x.2], []⟩)
  | .testany n rs i st =>
      MPI_Testany s n rs i st >>= fun x => .ok (x.1, .ofDone (x.2.2.1 :: x.2.2.2.1 :: x.2.1) [x.2.2.2.2])
  | .waitany n rs i st => MPI_Waitany s n rs i st >>= fun x => .ok (x.1, .ofDone (x.2.2.1 :: x.2.1) [x.2.2.2])
  | .testall n rs sts => MPI_Testall s n rs sts >>= fun x => .ok (x.1.sys, .ofDone (x.2 :: x.1.reqs) x.1.stats.ptrs)
  | .waitall n rs sts => MPI_Waitall s n rs sts >>= fun x => .ok (x.sys, .ofDone x.reqs x.stats.ptrs)
  | .testsome n rs ix sts => MPI_Testsome s n rs ix sts >>= fun x =>
      .ok (x.arr.sys, .ofDone (x.outcount :: x.indices ++ x.arr.reqs) x.arr.stats.ptrs)
  | .waitsome n rs ix sts => MPI_Waitsome s n rs ix sts >>= fun x =>
      .ok (x.arr.sys, .ofDone (x.outcount :: x.indices ++ x.arr.reqs) x.arr.stats.ptrs)
  | .typeContiguous n t => MPI_Type_contiguous env s n t >>= fun x => .ok (x.1, ⟨[x.2], []⟩)
  | .typeHvector n b d t => MPI_Type_hvector env s n b d t >>= fun x => .ok (x.1, ⟨[x.2], []⟩)
  | .typeVector n b d t => MPI_Type_vector env s n b d t >>= fun x => .ok (x.1, ⟨[x.2], []⟩)
  | .typeHindexed n b d t => MPI_Type_hindexed env s n b d t >>= fun x => .ok (x.1, ⟨[x.2], []⟩)
  | .typeIndexed n b d t => MPI_Type_indexed env s n b d t >>= fun x => .ok (x.1, ⟨[x.2], []⟩)
  | .typeIndexedBlock n b d t => MPI_Type_create_indexed_block env s n b d t >>= fun x => .ok (x.1, ⟨[x.2], []⟩)
  | .typeStruct n b d t => MPI_Type_struct env s n b d t >>= fun x => .ok (x.1, ⟨[x.2], []⟩)
  | .typeExtent t => MPI_Type_extent env s t >>= fun x => .ok (x.1, ⟨[x.2], []⟩)
  | .typeSize t => MPI_Type_size env s t >>= fun x => .ok (x.1, ⟨[x.2], []⟩)
  | .typeLb t => MPI_Type_lb env s t >>= fun x => .ok (x.1, ⟨[x.2], []⟩)
  | .typeUb t => MPI_Type_ub env s t >>= fun x => .ok (x.1, ⟨[x.2], []⟩)
  | .getElements st t => MPI_Get_elements env s st t >>= fun x => .ok (x.1, ⟨[x.2], []⟩)
  | .pack a b t c d e comm => MPI_Pack env s a b t c d e comm >>= fun x => .ok (x.1, ⟨[x.2], []⟩)
  | .packSize n t comm => MPI_Pack_size env s n t comm >>= fun x => .ok (x.1, ⟨[x.2], []⟩)
  | .unpack a b c d e t comm => MPI_Unpack env s a b c d e t comm >>= fun x => .ok (x.1, ⟨[x.2], []⟩)
  | c => c.exec env s >>= fun s' => .ok (s', ⟨[], []⟩)

/-! ## Programs -/

/-- The kind of operation a call leaves behind a request for. -/
def Call.posts : Call → Option Kind
  | .isend .. | .irsend .. => some .send
  | .irecv .. => some .recv
  | _ => none

/-- The requests handed to a completion call. -/
def Call.requests : Call → List Int
  | .test r _ | .wait r _ => [r]
  | .testany _ rs _ _ | .waitany _ rs _ _ | .testall _ rs _ | .waitall _ rs _ | .testsome _ rs _ _ | .waitsome _ rs _ _ => rs
  | _ => []

/-- What the program knows after a call: which call it made, the integers and statuses handed back, and all of
its memory. -/
structure Obs where
  call : Call
  vals : List Int
  stats : List StPtr
  mem : Mem

/-- The kind of operation request `r` was last handed out for (most recent observation first). -/
def lastPost (seen : List Obs) (r : Int) : Option Kind :=
  seen.findSome? fun o => if o.vals = [r] then o.call.posts else none

/-- The program knows that all requests of the call are receives (or MPI_REQUEST_NULL). -/
def knownReceives (seen : List Obs) (c : Call) : Bool :=
  c.requests.all fun r => r == MPI_REQUEST_NULL || lastPost seen r == some .recv

/-- What the program gets to see of the results of a call.  The source and tag fields a completion call wrote
are shown for receives only (see `C56_send_status`). -/
def observe (seen : List Obs) (c : Call) (s : Sys) (o : Out) : Obs :=
  ⟨c, o.vals, if knownReceives seen c then o.done else [], s.mem⟩

/-- A program chooses its next call from what it has seen so far (most recent first); `none`: it stops. -/
abbrev Prog := List Obs → Option Call

/-- The first `n` calls of a program: what it has seen in the end, and how it died if it did. -/
def Prog.run (env : Env) (p : Prog) : Nat → List Obs → Sys → List Obs × Option Fate
  | 0, seen, _ => (seen, none)
  | n + 1, seen, s =>
    match p seen with
    | none => (seen, none)
    | some c =>
      match c.answer env s with
      | .ok (s', o) => p.run env n (observe seen c s' o :: seen) s'
      | r => (seen, r.fate)

/-- The first `n` calls of the program are well formed, each in the situation in which it is made. -/
def Prog.Wf (env : Env) (p : Prog) : Nat → List Obs → Sys → Prop
  | 0, _, _ => True
  | n + 1, seen, s => ∀ c, p seen = some c → (∀ L, WfReach env s L → c.Wf env L) ∧
      ∀ s' o, c.answer env s = .ok (s', o) → p.Wf env n (observe seen c s' o :: seen) s'

/-! ## States that differ in leftovers only -/

/-- Both are request records, or they are equal. -/
def SlotAgree (a b : Slot) : Prop := ((∃ r, a = .req r) ∧ ∃ r, b = .req r) ∨ a = b

/-- Equal except for the contents of request records. -/
structure TabAgree (t₁ t₂ : HTab Slot) : Prop where
  init : t₁.needInit = t₂.needInit
  nblocks : t₁.nblocks = t₂.nblocks
  nextfree : t₁.nextfree = t₂.nextfree
  handle : ∀ l, (t₁.items l).handle = (t₂.items l).handle
  next : ∀ l, (t₁.items l).next = (t₂.items l).next
  data : ∀ l, SlotAgree (t₁.items l).data (t₂.items l).data

/-- Equal except for the contents of request records. -/
structure Agree (s₁ s₂ : Sys) : Prop where
  tab : TabAgree s₁.handles s₂.handles
  rest : s₂ = { s₁ with handles := s₂.handles }

/-- Every request the call is to complete is a receive (or MPI_REQUEST_NULL). -/
def Call.onlyReceives (L : Ledger) (c : Call) : Prop :=
  ∀ r ∈ c.requests, ∀ i o, (r, Obj.req i) ∈ L.objs → L.ops[i]? = some o → o.kind = .recv

end MpiSerial
