import Verif.Spec.Twin

/-!
# C89: programs that ignore statuses
-/

set_option autoImplicit false

namespace MpiSerial

/-- The same call with MPI_STATUS_IGNORE, or MPI_STATUSES_IGNORE if it is about one request at most. -/
def Call.ignoring : Call → Call
  | .recv b n t d g c _ => .recv b n t d g c .null
  | .sendrecv b n t d g b' n' t' d' g' c _ => .sendrecv b n t d g b' n' t' d' g' c .null
  | .iprobe d g c _ => .iprobe d g c .null
  | .probe d g c _ => .probe d g c .null
  | .test r _ => .test r .null
  | .wait r _ => .wait r .null
  | .testany n rs i _ => .testany n rs i .null
  | .waitany n rs i _ => .waitany n rs i .null
  | .testall n rs sts => .testall n rs (if n ≤ 1 then none else sts)
  | .waitall n rs sts => .waitall n rs (if n ≤ 1 then none else sts)
  | .testsome n rs ix sts => .testsome n rs ix (if n ≤ 1 then none else sts)
  | .waitsome n rs ix sts => .waitsome n rs ix (if n ≤ 1 then none else sts)
  | c => c

/-- Status arguments point to something: a status, or an array with a status for the one request. -/
def Call.HasStatus : Call → Prop
  | .recv _ _ _ _ _ _ st | .sendrecv _ _ _ _ _ _ _ _ _ _ _ st | .iprobe _ _ _ st | .probe _ _ _ st | .test _ st | .wait _ st |
    .testany _ _ _ st | .waitany _ _ _ st => st ≠ .bad
  | .testall n _ sts | .waitall n _ sts | .testsome n _ _ sts | .waitsome n _ _ sts => n ≤ 1 → sts ≠ some []
  | _ => True

/-- The numbers handed back without those from statuses, which come last. -/
def Call.ownVals (v : List Int) : Call → List Int
  | .recv .. | .sendrecv .. | .probe .. => []
  | .iprobe .. | .wait .. => v.take 1
  | .test .. => v.take 2
  | .testany _ rs _ _ => v.take (rs.length + 2)
  | .waitany _ rs _ _ => v.take (rs.length + 1)
  | .testall n rs _ => if n ≤ 1 then v.take (rs.length + 1) else v
  | .waitall n rs _ => if n ≤ 1 then v.take rs.length else v
  | .testsome n rs ix _ | .waitsome n rs ix _ => if n ≤ 1 then v.take (ix.length + rs.length + 1) else v
  | _ => v

/-- What is left of the statuses. -/
def Call.ownStats (l : List StPtr) : Call → List StPtr
  | .testall n _ _ | .waitall n _ _ | .testsome n _ _ _ | .waitsome n _ _ _ => if n ≤ 1 then [] else l
  | _ => l.map fun _ => .null

/-- The results without the statuses. -/
def Out.ignoring (c : Call) (o : Out) : Out := ⟨c.ownVals o.vals, c.ownStats o.done⟩

def Obs.ignoring (o : Obs) : Obs := ⟨o.call.ignoring, o.call.ownVals o.vals, o.call.ownStats o.stats, o.mem⟩

/-- `q` is the program `p` without statuses: it makes the same calls, ignoring statuses, and so must choose them without looking at statuses. -/
def Prog.IgnoringTo (p q : Prog) : Prop := ∀ l, q (l.map Obs.ignoring) = (p l).map Call.ignoring

end MpiSerial
