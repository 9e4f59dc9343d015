import Verif.Spec.Asking

/-!
# Waiting and polling

A program that waits for requests, and the program that polls them instead.
-/

set_option autoImplicit false

namespace MpiSerial

/-- The call waits for one request. -/
def Call.waits : Call → Bool
  | .wait .. | .waitany .. => true
  | _ => false

/-- The call polls. -/
def Call.polls : Call → Bool
  | .test .. | .testany .. => true
  | _ => false

/-- Polling in the place of waiting. -/
def Call.poll : Call → Call
  | .wait r st => .test r st
  | .waitany n rs i st => .testany n rs i st
  | c => c

/-- A poll, as a program that waits sees it: a poll in vain is nothing, another one is a wait that came back; the flag is gone. -/
def Obs.asWait (o : Obs) : Option Obs :=
  match o.call, o.vals with
  | .test r st, request :: flag :: rest => if flag = 0 then none else some ⟨.wait r st, request :: rest, o.stats, o.mem⟩
  | .testany n rs i st, index :: flag :: rest => if flag = 0 then none else some ⟨.waitany n rs i st, index :: rest, o.stats, o.mem⟩
  | _, _ => some o

/-- What a program that polls has seen, as a program that waits would have seen it. -/
def waited (seen : List Obs) : List Obs := seen.filterMap Obs.asWait

/-- The program that does as `p` does, but polls where `p` waits, until the poll is not in vain. -/
def Prog.polling (p : Prog) : Prog := fun seen => (p (waited seen)).map Call.poll

/-- `p` does not poll by itself, and waits between MPI_Init and MPI_Finalize only. -/
structure Prog.Waits (p : Prog) : Prop where
  polls : ∀ l c, p l = some c → c.polls = false
  between : ∀ l c, p l = some c → c.waits = true → between l = true

end MpiSerial
