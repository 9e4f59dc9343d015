import Verif.Spec.Coll

/-!
# Calls in which a message meets a receive

The outcome of such a call is reduced to what happens to user memory: the new contents, or the way the
program ended.
-/

set_option autoImplicit false

namespace MpiSerial

/-- `comm` is a live communicator and the table and queues have room for the requests of one call. -/
structure Ready (L : Ledger) (comm : Int) (c : Nat) : Prop where
  live : (comm, Obj.comm c) ∈ L.objs
  room : L.objs.length < 262143
  queue : L.unmatched < 2147483647

/-- A call made in state `s`, in which the message `(sb, sc, st)` is sent while the receive
`(rb, rc, rt)` is already waiting, with what the call does to memory. -/
inductive Delivers (env : Env) (s : Sys) (L : Ledger) : (sb sc st rb rc rt : Int) → Res Mem → Prop
  | isend {comm c buf count dtype tag j o} : Ready L comm c → Earliest L .recv c (fun t => accepts t tag) j o →
      Delivers env s L buf count dtype o.buf o.count o.dtype
        (MPI_Isend env s buf count dtype 0 tag comm >>= fun x => .ok x.1.mem)
  | send {comm c buf count dtype tag j o} : Ready L comm c → Earliest L .recv c (fun t => accepts t tag) j o →
      Delivers env s L buf count dtype o.buf o.count o.dtype
        (MPI_Send env s buf count dtype 0 tag comm >>= fun x => .ok x.mem)
  | irsend {comm c buf count dtype tag j o} : Ready L comm c → Earliest L .recv c (fun t => accepts t tag) j o →
      Delivers env s L buf count dtype o.buf o.count o.dtype
        (MPI_Irsend env s buf count dtype 0 tag comm >>= fun x => .ok x.1.mem)
  | sendrecv {comm sb sc st rb rc rt tag} : CanExchange L comm tag →
      Delivers env s L sb sc st rb rc rt
        (MPI_Sendrecv env s sb sc st 0 tag rb rc rt 0 tag comm .null >>= fun x => .ok x.1.mem)
  | collective {comm tag sb sc st rb rc rt r} : LikeSelfMessage env s L sb sc st rb rc rt r →
      CanExchange L comm tag → Delivers env s L sb sc st rb rc rt (r >>= fun s => .ok s.mem)

/-- A call made in state `s`, in which the receive `(rb, rc, rt)` is posted while the message
`(sb, sc, st)` is already waiting. -/
inductive Collects (env : Env) (s : Sys) (L : Ledger) : (sb sc st rb rc rt : Int) → Res Mem → Prop
  | irecv {comm c buf count dtype src tag j o} : Ready L comm c → src = 0 ∨ src = MPI_ANY_SOURCE →
      Earliest L .send c (fun t => accepts tag t) j o →
      Collects env s L o.buf o.count o.dtype buf count dtype
        (MPI_Irecv env s buf count dtype src tag comm >>= fun x => .ok x.1.mem)
  | recv {comm c buf count dtype src tag j o st} : Ready L comm c → src = 0 ∨ src = MPI_ANY_SOURCE → st ≠ StPtr.bad →
      Earliest L .send c (fun t => accepts tag t) j o →
      Collects env s L o.buf o.count o.dtype buf count dtype
        (MPI_Recv env s buf count dtype src tag comm st >>= fun x => .ok x.1.mem)

end MpiSerial
