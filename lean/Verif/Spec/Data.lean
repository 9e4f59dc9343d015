import Verif.Spec.Twin

/-!
# C77: runs that differ in the data only

The library is told addresses, counts and datatypes; the bytes at those addresses are none of its business.
-/

set_option autoImplicit false

namespace MpiSerial

/-- The same state of the library over another memory. -/
def Sys.on (s : Sys) (m : Mem) : Sys := { s with mem := m }

/-- The same addresses may be accessed; what is stored there may differ. -/
def Mem.SameShape (m n : Mem) : Prop := ∀ a, (m a).isSome = (n a).isSome

/-- The program changes its memory itself. -/
def Call.isStore : Call → Bool
  | .store _ => true
  | _ => false

/-! ## Two programs that compute with different data -/

/-- Accessible at the same addresses, and the two bytes at each address are in relation `R`. -/
def Mem.Related (R : UInt8 → UInt8 → Prop) (m n : Mem) : Prop :=
  ∀ a, (m a = none ∧ n a = none) ∨ ∃ x y, m a = some x ∧ n a = some y ∧ R x y

/-- The same call; what the programs write into their memory themselves is only related. -/
inductive Call.Related (R : UInt8 → UInt8 → Prop) : Call → Call → Prop
  | store {m n : Mem} : m.Related R n → Call.Related R (.store m) (.store n)
  | same {c : Call} : c.isStore = false → Call.Related R c c

/-- The same results; the data are only related. -/
structure Obs.Related (R : UInt8 → UInt8 → Prop) (o o' : Obs) : Prop where
  call : o.call.Related R o'.call
  vals : o.vals = o'.vals
  stats : o.stats = o'.stats
  mem : o.mem.Related R o'.mem

/-- Histories of related observations. -/
inductive Seen.Related (R : UInt8 → UInt8 → Prop) : List Obs → List Obs → Prop
  | nil : Seen.Related R [] []
  | cons {o o' : Obs} {l l' : List Obs} : o.Related R o' → Seen.Related R l l' → Seen.Related R (o :: l) (o' :: l')

/-- As long as their histories are related the programs make the same calls, and store related data. -/
def Prog.Related (R : UInt8 → UInt8 → Prop) (p q : Prog) : Prop :=
  ∀ l l', Seen.Related R l l' → (p l = none ∧ q l' = none) ∨ ∃ c c', p l = some c ∧ q l' = some c' ∧ c.Related R c'

end MpiSerial
