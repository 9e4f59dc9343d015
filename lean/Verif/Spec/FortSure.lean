import Verif.Props.FortMach
import Verif.Spec.Twin

/-!
# Fortran programs that leave the machines no choice

The source and tag of the status of a completed send are undefined (`FMachine.Writes`).  A program that ignores the statuses
of its sends leaves the machines no choice.
-/

set_option autoImplicit false

namespace MpiSerial

/-- The same machine with other leftovers in the storage of requests. -/
def FEnv.withJunk (c : FEnv) (j : Nat → ReqRec) : FEnv := { c with env := c.env.withJunk j }

/-- The step leaves the machine no choice. -/
def FMachine.FSettled {σ : Type} (K : FMachine σ) (c : FEnv) (x : σ) : MpiSerial.FStep → Prop
  | .call fc => ∀ call f, fc.deed c (K.mem x) = some (.call call f) → K.Settled x call
  | _ => True

/-- No step of the program leaves the machine a choice. -/
def FProg.Settled {σ : Type} (K : FMachine σ) (c : FEnv) (p : FProg) : Nat → List Mem → σ → Prop
  | 0, _, _ => True
  | n + 1, seen, x => ∀ st, p seen = some st → K.FSettled c x st ∧ ∀ x', K.FStep c x st x' → p.Settled K c n (K.mem x' :: seen) x'

end MpiSerial
