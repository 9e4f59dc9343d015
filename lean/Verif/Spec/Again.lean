import Verif.Spec.Overlap
import Verif.Spec.Exchange
import Verif.Props.TypeUse

/-!
# C92: one transfer after another
-/

set_option autoImplicit false

namespace MpiSerial

open Spec

/-- A call made in state `s` in which `sc` items `τs` at `sb` are sent and received as `rc` items `τr` at `rb`, with its
outcome `R`.  The datatypes are committed, the two sides have elements of the same kinds, and no byte is in both
buffers. -/
structure Transmits (env : Env) (s : Sys) (L : Ledger) (sz : Int → Int) (sb sc : Int) (τs : DType) (rb rc : Int) (τr : DType) (R : Res Mem) : Prop where
  call : ∃ st rt, Delivers env s L sb sc st rb rc rt R ∧ StandsFor env.cfg L st (.data τs) ∧ StandsFor env.cfg L rt (.data τr) ∧
    Committed env.cfg L st ∧ Committed env.cfg L rt
  fits : Exchangeable sz True sb sc τs rb rc τr
  apart : ElemsApart sz (placed sz τr rc rb) (placed sz τs sc sb)

end MpiSerial
