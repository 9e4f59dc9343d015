import Verif.Spec.Compose

/-!
# How many handle numbers a call needs
-/

set_option autoImplicit false

namespace MpiSerial

/-- How many handle numbers the call needs at the same time. -/
def Call.needs : Call → Nat
  | .init | .initThread _ | .fortInit _ => 1
  | .commDup _ | .commCreate _ _ | .commSplit _ _ _ | .intercommCreate _ _ _ _ _ | .cartCreate _ _ _ => 1
  | .isend _ _ _ _ _ _ | .irsend _ _ _ _ _ _ | .send _ _ _ _ _ _ | .irecv _ _ _ _ _ _ | .recv _ _ _ _ _ _ _ => 1
  | .sendrecv _ _ _ _ _ _ _ _ _ _ _ _ => 2
  | .typeContiguous _ _ | .typeHvector _ _ _ _ | .typeVector _ _ _ _ | .typeHindexed _ _ _ _ | .typeIndexed _ _ _ _ => 1
  | .typeIndexedBlock _ _ _ _ | .typeStruct _ _ _ _ => 1
  | _ => 0

/-- How many handles the call leaves behind at most. -/
def Call.leaves : Call → Nat
  | .send _ _ _ _ _ _ | .recv _ _ _ _ _ _ _ | .sendrecv _ _ _ _ _ _ _ _ _ _ _ _ => 0
  | c => c.needs

end MpiSerial
