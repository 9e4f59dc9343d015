import Verif.Props.Types
import Verif.Spec.Coll
import Verif.Spec.Asking

/-!
# Data in pieces

`a + b` consecutive items of a datatype are `a` items followed by `b` items: the second piece begins `a` times the
extent of the datatype after the first.
-/

set_option autoImplicit false

namespace MpiSerial

/-- The elements of `n` items of datatype `t`, `e` bytes apart, have offsets in the range of int. -/
def IntOffsets (t : Typestruct) (e : Int) (n : Nat) : Prop :=
  ∀ k : Nat, k < n → ∀ x ∈ typeMap t, -2147483648 ≤ x.1 + k * e ∧ x.1 + k * e ≤ 2147483647

/-- A buffer with `a + b` items of datatype `h` (type map that of `t`, extent `e`) can be divided: the offsets of its
elements and their number are values of type int. -/
structure Divides (env : Env) (s : Sys) (L : Ledger) (h : Int) (t : Typestruct) (e a b : Int) : Prop where
  desc : L.desc env.cfg h = some t
  extent : HasExtent env s h e
  first : 0 ≤ a
  second : 0 ≤ b
  offsets : IntOffsets t e (a + b).toNat
  number : (typeMap t).length * (a + b) ≤ INT_MAX

/-- Items sent and received hold the same number of elements in the first piece; in the second at least as many are
sent as received. -/
def SameElements (t t' : Typestruct) (a b a' b' : Int) : Prop :=
  (typeMap t).length * a = (typeMap t').length * a' ∧ (typeMap t').length * b' ≤ (typeMap t).length * b

end MpiSerial
