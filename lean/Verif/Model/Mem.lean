import Verif.Base

/-!
# User memory

User buffers are bytes addressed by integers in `[0, 2^64)`; `none` marks memory the process may not
access.  Library-internal objects (handle blocks, list nodes, type descriptors) are *not* in this
memory: they are disjoint from every user buffer (trusted: an application does not pass pointers
into the library's own heap objects).
-/

namespace MpiSerial

/-- Byte memory. -/
abbrev Mem := Int → Option UInt8

/-- `(char*) p + k` (pointer addition; addresses wrap modulo 2^64 as on the flat gcc targets). -/
def padd (p k : Int) : Int := (p + k) % 18446744073709551616

/-- All `n` bytes from `p` may be accessed. -/
def Mem.readable (m : Mem) (p : Int) (n : Nat) : Prop := ∀ i : Nat, i < n → (m (p + i)).isSome

instance (m : Mem) (p : Int) (n : Nat) : Decidable (m.readable p n) := by
  unfold Mem.readable; exact inferInstance

/-- C library `memcpy(d, s, n)`: undefined when a byte is not accessible or the ranges overlap. -/
def memcpy (m : Mem) (d s : Int) (n : Nat) : Res Mem :=
  if n = 0 then .ok m
  else if ¬ (m.readable d n ∧ m.readable s n) then .ub .memAccess
  else if d < s + n ∧ s < d + n then .ub .overlap
  else .ok (fun a => if d ≤ a ∧ a < d + n then m (s + (a - d)) else m a)

end MpiSerial
