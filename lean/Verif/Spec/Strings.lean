import Verif.Model.Misc

/-!
# C strings and decimal numbers, independently of how they are produced
-/

set_option autoImplicit false

namespace MpiSerial

/-- The buffer holds the NUL-terminated string `text`. -/
def HoldsString (b : CBuf) (text : List UInt8) : Prop := 0 ∉ text ∧ ∃ rest, b = text ++ 0 :: rest

/-- `b` differs from `a` at most in its first `n` bytes. -/
def OnlyFirst (n : Nat) (a b : CBuf) : Prop := b.length = a.length ∧ b.drop n = a.drop n

/-- The first `n` bytes are a Fortran CHARACTER variable of length `n` whose value is `text`: the text followed by
blanks. -/
def HoldsFortran (n : Nat) (b : CBuf) (text : List UInt8) : Prop :=
  text.length ≤ n ∧ b.take n = text ++ List.replicate (n - text.length) 32

/-- Value of a sequence of ASCII digits read from left to right. -/
def digitsValue (ds : List UInt8) : Nat := ds.foldl (fun v d => 10 * v + (d.toNat - 48)) 0

/-- `ds` is a number in decimal: ASCII digits with the given value. -/
def IsNumeral (ds : List UInt8) (n : Nat) : Prop :=
  ds ≠ [] ∧ (∀ d ∈ ds, 48 ≤ d.toNat ∧ d.toNat ≤ 57) ∧ digitsValue ds = n

/-- `t` is the integer `x` in decimal, negative numbers with a minus sign. -/
def IsDecimal (t : List UInt8) (x : Int) : Prop :=
  (0 ≤ x ∧ IsNumeral t x.natAbs) ∨ (x < 0 ∧ ∃ ds, t = 45 :: ds ∧ IsNumeral ds x.natAbs)

end MpiSerial
