import Verif.Spec.Exchange

/-!
# A call that leaves communication alone
-/

set_option autoImplicit false

namespace MpiSerial

/-- What a call does to memory. -/
def Res.memory {α : Type} (f : α → Sys) (r : Res α) : Res Mem := r >>= fun x => .ok (f x).mem

/-- What MPI_Test tells its caller: the request handle left behind, the flag, the status. -/
def TestRes.report (r : TestRes) : Int × Int × StPtr := (r.request, r.flag, r.status)

/-- Communication goes on in `s'` (ledger `L'`) as it would have in `s` (ledger `L`): memory holds the same
values; every request still held is reported in the same way; probes find the same messages; and every
message sent or receive posted next, described by a type that still exists, changes memory in the same
way. -/
structure GoesOn (env : Env) (s : Sys) (L : Ledger) (s' : Sys) (L' : Ledger) : Prop where
  mem : s'.mem = s.mem
  requests : ∀ h i st, (h, Obj.req i) ∈ L'.objs →
    (MPI_Test s' h st >>= fun r => Res.ok r.report) = (MPI_Test s h st >>= fun r => Res.ok r.report)
  probes : ∀ comm c src tag st, (comm, Obj.comm c) ∈ L.objs → src = 0 ∨ src = MPI_ANY_SOURCE →
    (MPI_Iprobe s' src tag comm st >>= fun x => Res.ok x.2) = (MPI_Iprobe s src tag comm st >>= fun x => Res.ok x.2)
  isend : ∀ comm c buf count dtype tag, Ready L comm c → IsType env L' dtype →
    (MPI_Isend env s' buf count dtype 0 tag comm).memory Prod.fst =
      (MPI_Isend env s buf count dtype 0 tag comm).memory Prod.fst
  irecv : ∀ comm c buf count dtype src tag, Ready L comm c → src = 0 ∨ src = MPI_ANY_SOURCE → IsType env L' dtype →
    (MPI_Irecv env s' buf count dtype src tag comm).memory Prod.fst =
      (MPI_Irecv env s buf count dtype src tag comm).memory Prod.fst

end MpiSerial
