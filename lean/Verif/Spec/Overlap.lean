import Verif.Spec.TypeUse

/-!
# C81: transfers element by element, also between buffers that overlap
-/

set_option autoImplicit false

namespace MpiSerial

open Spec

/-- A message `(sb, sc, τs)` and a receive `(rb, rc, τr)` as the standard allows them, except that the two buffers may overlap in any way and
the receive buffer itself may have overlapping elements: counts and offsets are `int`s, enough is sent, and if the library checks types they
are the same. -/
structure Exchangeable (sz : Int → Int) (strict : Prop) (sb sc : Int) (τs : DType) (rb rc : Int) (τr : DType) : Prop where
  srcCount : 0 ≤ sc
  dstCount : 0 ≤ rc
  srcFits : (τs.map.length : Int) * sc ≤ 2147483647
  dstFits : (τr.map.length : Int) * rc ≤ 2147483647
  enough : (placed sz τr rc rb).length ≤ (placed sz τs sc sb).length
  srcReach : ∀ x ∈ (placed sz τs sc sb).take (placed sz τr rc rb).length,
    -2147483648 ≤ x.1 - sb ∧ x.1 - sb ≤ 2147483647 ∧ 0 ≤ x.1 ∧ x.1 < 18446744073709551616
  dstReach : ∀ x ∈ placed sz τr rc rb,
    -2147483648 ≤ x.1 - rb ∧ x.1 - rb ≤ 2147483647 ∧ 0 ≤ x.1 ∧ x.1 < 18446744073709551616
  kinds : strict → ∀ x ∈ (placed sz τr rc rb).zip (placed sz τs sc sb), x.2.2 = x.1.2

/-- `n` bytes from `s` replace those from `d`. -/
def replaced (m : Mem) (d s n : Int) : Mem := fun a => if d ≤ a ∧ a < d + n then m (s + (a - d)) else m a

/-- One element after the other, in the order of the type maps. -/
def oneByOne (sz : Int → Int) : List (Entry × Entry) → Mem → Mem
  | [], m => m
  | (d, s) :: r, m => oneByOne sz r (replaced m d.1 s.1 (sz d.2))

/-- One element can be copied: the program may access both places, and they have no byte in common. -/
structure Copyable (sz : Int → Int) (m : Mem) (d s : Entry) : Prop where
  dst : ∀ a, InBytes a d.1 (sz d.2) → (m a).isSome = true
  src : ∀ a, InBytes a s.1 (sz d.2) → (m a).isSome = true
  apart : Apart d.1 (sz d.2) s.1 (sz d.2)

end MpiSerial
