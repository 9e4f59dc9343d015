import Verif.Base
import Mathlib.Data.Int.Log
import Mathlib.Data.Rat.Floor
import Mathlib.Algebra.Order.Ring.Rat

/-!
# time.c

Numbers of type `double` are rationals.  An arithmetic operation gives the exact result rounded to 53
significant binary digits, ties to the even one (IEEE 754, rounding to nearest).  Exponent range,
infinities and NaN are left out: the values here are 0 or between 10^-6 and 2^54.
-/

set_option autoImplicit false

namespace MpiSerial

/-- Nearest integer, of two the even one. -/
def nearestEven (x : ℚ) : ℤ :=
  if x - ⌊x⌋ < 1 / 2 then ⌊x⌋
  else if 1 / 2 < x - ⌊x⌋ then ⌊x⌋ + 1
  else if ⌊x⌋ % 2 = 0 then ⌊x⌋ else ⌊x⌋ + 1

/-- `x` rounded to 53 significant digits. -/
def roundDouble (x : ℚ) : ℚ :=
  if x = 0 then 0
  else nearestEven (x / 2 ^ (Int.log 2 |x| - 52)) * 2 ^ (Int.log 2 |x| - 52)

/-- time.c:23-36 `MPI_Wtime`; `clock` is what `gettimeofday` delivers (`none`: it fails): seconds and
microseconds.  The conversions and the two operations are rounded; 1e6 is exact. -/
def MPI_Wtime (clock : Option (Int × Int)) : Res ℚ :=
  match clock with
  | none => .abort "MPI_Wtime: error calling gettimeofday()"
  | some (tv_sec, tv_usec) =>
    .ok (roundDouble (roundDouble tv_sec + roundDouble (roundDouble tv_usec / 1000000)))

end MpiSerial
