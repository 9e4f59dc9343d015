import Verif.Spec.FortMach
import Verif.Spec.Place

/-!
# Fortran programs whose completion calls work in place
-/

set_option autoImplicit false

namespace MpiSerial

/-- A step of a Fortran program, completion calls in place. -/
def FStep.inPlace (c : FEnv) (s : Sys) : FStep → Res Sys
  | .call fc => fc.inPlace c s
  | st => st.exec c s

/-- The first `n` steps of a Fortran program, completion calls in place: the contents of memory, and how it died if it did. -/
def FProg.runInPlace (c : FEnv) (p : FProg) : Nat → List Mem → Sys → List Mem × Option Fate
  | 0, seen, _ => (seen, none)
  | n + 1, seen, s =>
    match p seen with
    | none => (seen, none)
    | some st =>
      match st.inPlace c s with
      | .ok s' => p.runInPlace c n (s'.mem :: seen) s'
      | r => (seen, r.fate)

/-- Every call among the first `n` steps has proper arguments. -/
def FProg.Tidy (c : FEnv) (p : FProg) : Nat → List Mem → Sys → Prop
  | 0, _, _ => True
  | n + 1, seen, s => ∀ st, p seen = some st → (∀ fc, st = .call fc → fc.Tidy c s) ∧
      ∀ s', st.inPlace c s = .ok s' → p.Tidy c n (s'.mem :: seen) s'

end MpiSerial
