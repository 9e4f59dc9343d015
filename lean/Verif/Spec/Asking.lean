import Verif.Spec.Twin

/-!
# Questions

Calls that only ask, and programs that differ in the questions they ask.
-/

set_option autoImplicit false

namespace MpiSerial

/-- The call is meant to find something out, or to do nothing. -/
def Call.asks : Call → Bool
  | .initialized | .iprobe .. | .probe .. | .typeExtent _ | .typeSize _ | .typeLb _ | .typeUb _ | .getElements .. | .packSize ..
  | .barrier _ | .bcast .. => true
  | _ => false

/-- Between MPI_Init and MPI_Finalize, going by the calls made so far (most recent first). -/
def between (seen : List Obs) : Bool :=
  match seen.find? fun o => o.call.isInit || o.call.isFinalize with
  | some o => o.call.isInit
  | none => false

/-- What is left of a record when the questions are struck out. -/
def deeds (seen : List Obs) : List Obs := seen.filter fun o => !o.call.asks

/-- `p` asks nothing, and `q` is `p` with questions: it makes the calls `p` makes, and asks whatever it likes between MPI_Init and MPI_Finalize. -/
structure Prog.WithQuestions (p q : Prog) : Prop where
  none : ∀ l c, p l = some c → c.asks = false
  some : ∀ seen, q seen = p (deeds seen) ∨ ∃ c, q seen = some c ∧ c.asks = true ∧ between seen = true

end MpiSerial
