import Verif.Spec.Twin

/-!
# C79: runs that differ in what malloc'ed datatype descriptors held before

`Type_struct` takes memory from malloc (type.c:311) and does not write all of it: the flags `o_lb`, `o_ub` only if they are to be
set (type.c:362-376), and one pair more is allocated than is used.
-/

set_option autoImplicit false

namespace MpiSerial

/-- The same environment with other garbage in malloc'ed descriptors. -/
def Env.withGarbage (env : Env) (g : Nat → Garbage) : Env := { env with garbage := g }

/-- Both read as MPI_LB, both as MPI_UB, or neither as one of them. -/
def SameMark (a b : Int) : Prop := (a = SIMPLE_LOWER ↔ b = SIMPLE_LOWER) ∧ (a = SIMPLE_UPPER ↔ b = SIMPLE_UPPER)

/-- The flags read as zero in both or in none. -/
def Garbage.SameFlags (g g' : Garbage) : Prop := (g.o_lb = 0 ↔ g'.o_lb = 0) ∧ (g.o_ub = 0 ↔ g'.o_ub = 0)

/-- The call does not build a datatype from one without entries. -/
def Call.NoEmpty (env : Env) (s : Sys) : Call → Prop
  | .typeContiguous _ t | .typeHvector _ _ _ t | .typeVector _ _ _ t | .typeHindexed _ _ _ t | .typeIndexed _ _ _ t
  | .typeIndexedBlock _ _ _ t => ∀ s' d, typeOf env s t = .ok (s', d) → d.count ≠ 0
  | .typeStruct n _ _ ts => ∀ s' l, structTypes env ts n.toNat 0 s = .ok (s', l) → ∀ d ∈ l, d.count ≠ 0
  | _ => True

/-- The constants `mpi_init` passes from mpif.h are those of predefined datatypes (negative). -/
def Call.Consts : Call → Prop
  | .fortInit a => ∀ n ∈ ["MPI_INTEGER", "MPI_LOGICAL", "MPI_REAL", "MPI_DOUBLE_PRECISION", "MPI_COMPLEX"], a.const n < 0
  | _ => True

/-- None of the first `n` calls of the program does. -/
def Prog.NoEmpty (env : Env) (p : Prog) : Nat → List Obs → Sys → Prop
  | 0, _, _ => True
  | n + 1, seen, s => ∀ c, p seen = some c → c.NoEmpty env s ∧
      ∀ s' o, c.answer env s = .ok (s', o) → p.NoEmpty env n (observe seen c s' o :: seen) s'

end MpiSerial
