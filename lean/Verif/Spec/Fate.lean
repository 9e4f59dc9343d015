import Verif.Base

/-!
# Ways in which a call fails to return
-/

set_option autoImplicit false

namespace MpiSerial

/-- How the program ends instead of returning from a call. -/
inductive Fate where
  | abort (msg : String)
  | exit (code : Int)
  | ub (u : UB)
  | hang
  deriving DecidableEq

/-- `none`: the call returned. -/
def Res.fate {α : Type} : Res α → Option Fate
  | .ok _ => none
  | .abort m => some (.abort m)
  | .exit c => some (.exit c)
  | .ub u => some (.ub u)
  | .hang => some .hang

/-- The call does not end in one of the ways `B`. -/
def Res.Avoids {α : Type} (B : Fate → Prop) (r : Res α) : Prop := ∀ f, r.fate = some f → ¬ B f

end MpiSerial
