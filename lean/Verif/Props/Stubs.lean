import Verif.Model.Stubs
import Verif.Model.Misc
import Verif.Props.Coll
import Verif.Spec.Calls

set_option autoImplicit false

/-! # C52: calls without library state deliver usable handles -/

namespace MpiSerial

/-- Value of a variable after a call that was given its address: what the call stored, or the value from
before. -/
def variable_ (before : Int) (stored : Option Int) : Int := stored.getD before

/-- C52, operations: whatever function and flag, whatever the variable held before, the created operation
can be used in every reduction with the result of any predefined operation; after MPI_Op_free the variable
holds MPI_OP_NULL. -/
theorem C52_operations (function commute before : Int) :
    (∀ (env : Env) (s : Sys) (sb rb n t root comm : Int) (ns : List Int) (name : String),
      name ∈ ["MPI_MAX", "MPI_MIN", "MPI_SUM", "MPI_PROD", "MPI_LAND", "MPI_BAND", "MPI_LOR", "MPI_BOR",
        "MPI_LXOR", "MPI_BXOR", "MPI_MAXLOC", "MPI_MINLOC"] →
      MPI_Reduce env s sb rb n t (variable_ before (MPI_Op_create function commute)) root comm
        = MPI_Reduce env s sb rb n t (headerConst mpi_h name) root comm ∧
      MPI_Allreduce env s sb rb n t (variable_ before (MPI_Op_create function commute)) comm
        = MPI_Allreduce env s sb rb n t (headerConst mpi_h name) comm ∧
      MPI_Reduce_scatter env s sb rb ns t (variable_ before (MPI_Op_create function commute)) comm
        = MPI_Reduce_scatter env s sb rb ns t (headerConst mpi_h name) comm ∧
      MPI_Scan env s sb rb n t (variable_ before (MPI_Op_create function commute)) comm
        = MPI_Scan env s sb rb n t (headerConst mpi_h name) comm) ∧
    variable_ (variable_ before (MPI_Op_create function commute))
        (MPI_Op_free (variable_ before (MPI_Op_create function commute))) = headerConst mpi_h "MPI_OP_NULL" := by
  refine ⟨fun env s sb rb n t root comm ns name _ => C35_operator .., ?_⟩
  show (0 : Int) = headerConst mpi_h "MPI_OP_NULL"
  decide

/-- C52, info objects: what is in the variable after MPI_Info_create does not depend on what it held,
MPI_Info_set leaves it, and MPI_Info_free leaves MPI_INFO_NULL in it.  A variable that holds an error handler keeps it in
MPI_Errhandler_set. -/
theorem C52_info (before : Int) :
    (∀ before', variable_ before MPI_Info_create = variable_ before' MPI_Info_create) ∧
    (∀ key value, variable_ before (MPI_Info_set before key value) = before) ∧
    variable_ before (MPI_Info_free before) = headerConst mpi_h "MPI_INFO_NULL" ∧
    (∀ comm, variable_ before (MPI_Errhandler_set comm before) = before) := by
  refine ⟨fun _ => rfl, fun _ _ => rfl, ?_, fun _ => rfl⟩
  show (0 : Int) = _
  decide

/-- C52 fails for MPI_Intercomm_merge: in every reachable state, whatever the arguments, a variable that
held MPI_COMM_NULL before the call does not hold a communicator afterwards; it holds what it held before. -/
theorem C52_fails_merge {env : Env} {s : Sys} {L : Ledger} (hr : Reach env s L) (intercomm high : Int) :
    (∀ before, variable_ before (MPI_Intercomm_merge intercomm high) = before) ∧
    ¬ IsComm L (variable_ MPI_COMM_NULL (MPI_Intercomm_merge intercomm high)) := by
  refine ⟨fun _ => rfl, ?_⟩
  rintro ⟨c, hc⟩
  obtain ⟨M, lst, hi⟩ := hr.inv
  have := hi.hst.pos (mem_keys hc)
  exact absurd this.1 (by unfold variable_ MPI_Intercomm_merge; decide)

/-- an operation created with some function, used where MPI_SUM could be used -/
example (env : Env) (s : Sys) :
    MPI_Allreduce env s 1000 2000 3 (-3) (variable_ 77 (MPI_Op_create 4096 1)) 1
      = MPI_Allreduce env s 1000 2000 3 (-3) (headerConst mpi_h "MPI_SUM") 1 :=
  ((C52_operations 4096 1 77).1 env s 1000 2000 3 (-3) 0 1 [] "MPI_SUM" (by decide)).2.1

example : ¬ IsComm H8.L (variable_ MPI_COMM_NULL (MPI_Intercomm_merge 6 0)) := (C52_fails_merge H8_ok 6 0).2

end MpiSerial
