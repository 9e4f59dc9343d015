import Verif.Model.Sys

/-!
# type.c:829-866: print_typemap (builds with TEST_INTERNAL)

What is printed is a result here: the numbers, without the text between them.  The format says `%d` throughout.
`lb`, `ub`, `extent` and `disp` are 64 bits wide, so the C standard leaves the call of printf undefined; on the LP64
targets considered printf takes the lower 32 bits of each argument, and that is what is modelled.
-/

set_option autoImplicit false

namespace MpiSerial

/-- The numbers print_typemap prints. -/
structure Printout where
  count : Int
  lb : Int
  ub : Int
  extent : Int
  epsilon : Int
  /-- type, length and displacement of each entry -/
  entries : List (Int × Int × Int)
  deriving DecidableEq, Repr

/-- type.c:853-861 loop of `Pprint_typemap`, from entry `i`, `n` left. -/
def printLoopT (cfg : Cfg) (t : Typestruct) : Nat → Nat → Res (List (Int × Int × Int))
  | 0, _ => .ok []
  | n + 1, i => do
    let p ← t.pair i
    let len ← Simpletype_length cfg p.type
    let rest ← printLoopT cfg t n (i + 1)
    return (p.type, len, s32 p.disp) :: rest

/-- type.c:843-865 `Pprint_typemap`. -/
def Pprint_typemap (cfg : Cfg) (t : Typestruct) : Res Printout := do
  let extent ← Type_extent cfg t
  let epsilon ← calc_padding cfg t
  let entries ← printLoopT cfg t t.count.toNat 0
  return ⟨t.count, s32 t.lb, s32 t.ub, s32 extent, epsilon, entries⟩

/-- type.c:836-841 `print_typemap`; type.c:830-834 is the same for Fortran, with `*ierr = MPI_SUCCESS`. -/
def print_typemap (env : Env) (s : Sys) (h : Int) : Res (Sys × Printout) := do
  let (s, t) ← typeOf env s h
  let p ← Pprint_typemap env.cfg t
  return (s, p)

end MpiSerial
