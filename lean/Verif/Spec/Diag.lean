import Verif.Spec.Calls
import Verif.Model.Diag

/-!
# C57: what a program may do so that INFO and DEBUG only print
-/

set_option autoImplicit false

namespace MpiSerial

/-- What a call does in a build with INFO or DEBUG. -/
def Call.execIn (b : Build) (env : Env) (s : Sys) : Call → Res Sys
  | .isend p n t d g c => Diag.MPI_Isend b env s p n t d g c >>= fun x => .ok x.1
  | .irsend p n t d g c => Diag.MPI_Irsend b env s p n t d g c >>= fun x => .ok x.1
  | .send p n t d g c => Diag.MPI_Send b env s p n t d g c
  | .irecv p n t d g c => Diag.MPI_Irecv b env s p n t d g c >>= fun x => .ok x.1
  | .recv p n t d g c st => Diag.MPI_Recv b env s p n t d g c st >>= fun x => .ok x.1
  | .sendrecv p n t d g p' n' t' d' g' c st =>
      Diag.MPI_Sendrecv b env s p n t d g p' n' t' d' g' c st >>= fun x => .ok x.1
  | c => c.exec env s

/-- Calls one after the other. -/
def execAllIn (b : Build) (env : Env) : List Call → Sys → Res Sys
  | [], s => .ok s
  | c :: cs, s => c.execIn b env s >>= execAllIn b env cs

/-- What the printing statements read is there: with INFO the communicator is not MPI_COMM_NULL, with DEBUG the
buffer has 4 bytes (whatever the count). -/
def Shows (b : Build) (m : Mem) (buf comm : Int) : Prop :=
  (b.info = true → comm ≠ MPI_COMM_NULL) ∧ (b.debug = true → ∀ i : Nat, i < 4 → (m (buf + i)).isSome = true)

/-- The same for the arguments of a call. -/
def Call.Shows (b : Build) (m : Mem) : Call → Prop
  | .isend p _ _ _ _ c | .irsend p _ _ _ _ c | .send p _ _ _ _ c => MpiSerial.Shows b m p c
  | .irecv p _ _ _ _ c | .recv p _ _ _ _ c _ => MpiSerial.Shows b m p c
  | .sendrecv p _ _ _ _ p' _ _ _ _ c _ => MpiSerial.Shows b m p c ∧ MpiSerial.Shows b m p' c
  | _ => True

/-- Every call of the list is well-formed when its turn comes, and has what the printing statements read.
`L` is an account of what the calls before it did. -/
inductive GoodRun (b : Build) (env : Env) : Sys → Ledger → List Call → Prop
  | nil {s : Sys} {L : Ledger} : GoodRun b env s L []
  | cons {s : Sys} {L : Ledger} {c : Call} {cs : List Call} : Room L → c.Wf env L → c.Shows b s.mem →
      (∀ s' L', c.exec env s = .ok s' → Steps env s L s' L' → GoodRun b env s' L' cs) → GoodRun b env s L (c :: cs)

end MpiSerial
