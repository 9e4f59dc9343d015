import Verif.Spec.Calls
import Verif.Model.Oom

/-!
# C61: what running out of memory may do
-/

set_option autoImplicit false

namespace MpiSerial

/-- What a call does when `malloc` may fail.  The other calls do not allocate. -/
def Call.execOom (env : Env) (s : Sys) : Call → Oom.M Sys
  | .init => Oom.MPI_Init s
  | .initThread r => do let x ← Oom.MPI_Init_thread s r; return x.1
  | .fortInit a => Oom.mpi_init_fort env a s
  | .commDup c => do let x ← Oom.MPI_Comm_dup s c; return x.1
  | .commCreate c g => do let x ← Oom.MPI_Comm_create s c g; return x.1
  | .commSplit c color key => do let x ← Oom.MPI_Comm_split s c color key; return x.1
  | .intercommCreate a b c d e => do let x ← Oom.MPI_Intercomm_create s a b c d e; return x.1
  | .cartCreate c n dims => do let x ← Oom.MPI_Cart_create s c n dims; return x.1
  | .isend b n t d g c => do let x ← Oom.MPI_Isend env s b n t d g c; return x.1
  | .irsend b n t d g c => do let x ← Oom.MPI_Irsend env s b n t d g c; return x.1
  | .send b n t d g c => Oom.MPI_Send env s b n t d g c
  | .irecv b n t d g c => do let x ← Oom.MPI_Irecv env s b n t d g c; return x.1
  | .recv b n t d g c st => do let x ← Oom.MPI_Recv env s b n t d g c st; return x.1
  | .sendrecv b n t d g b' n' t' d' g' c st => do
      let x ← Oom.MPI_Sendrecv env s b n t d g b' n' t' d' g' c st; return x.1
  | .typeContiguous n t => do let x ← Oom.MPI_Type_contiguous env s n t; return x.1
  | .typeHvector n b d t => do let x ← Oom.MPI_Type_hvector env s n b d t; return x.1
  | .typeVector n b d t => do let x ← Oom.MPI_Type_vector env s n b d t; return x.1
  | .typeHindexed n b d t => do let x ← Oom.MPI_Type_hindexed env s n b d t; return x.1
  | .typeIndexed n b d t => do let x ← Oom.MPI_Type_indexed env s n b d t; return x.1
  | .typeIndexedBlock n b d t => do let x ← Oom.MPI_Type_create_indexed_block env s n b d t; return x.1
  | .typeStruct n b d t => do let x ← Oom.MPI_Type_struct env s n b d t; return x.1
  | c => Oom.lift (c.exec env s)

/-- Calls one after the other. -/
def execAllOom (env : Env) : List Call → Sys → Oom.M Sys
  | [], s => Oom.lift (.ok s)
  | c :: cs, s => do let s ← c.execOom env s; execAllOom env cs s

/-- The call makes a datatype. -/
def Call.makesType : Call → Bool
  | .typeContiguous .. | .typeHvector .. | .typeVector .. | .typeHindexed .. | .typeIndexed .. | .typeIndexedBlock ..
  | .typeStruct .. => true
  | _ => false

namespace Oom

/-- The program stopped with a message that says it ran out of memory. -/
def OutOfMemory {α : Type} (r : Res α) : Prop :=
  ∃ m : String, m ∈ ["mpi_malloc: failed to allocate bytes", "AP_listitem_malloc: malloc failure", "AP_list_new: malloc failure"] ∧
    r = .abort m

/-- `x` is a computation that allocates, `y` what it does if memory is plentiful.  It makes `n` allocations (`n` does
not depend on which succeed, except that it stops at the first that fails): if they all succeed the outcome is `y`, and if
one of them fails, the program stops with `Bad`. -/
def Reports {α : Type} (Bad : Res α → Prop) (x : M α) (y : Res α) : Prop :=
  ∀ k : Nat, ∃ n : Nat, ∀ ok : Mallocs,
    ((∀ i : Nat, k ≤ i → i < k + n → ok i = true) → x ok k = (y, k + n)) ∧
    ((∃ i : Nat, k ≤ i ∧ i < k + n ∧ ok i = false) → Bad (x ok k).1)

/-- The program stopped with such a message, or used a null pointer. -/
def OutOfMemoryOrNull {α : Type} (r : Res α) : Prop := OutOfMemory r ∨ r = .ub .nullPtr

end Oom

end MpiSerial
