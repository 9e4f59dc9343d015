import Verif.Spec.Twin

/-!
# C91: arguments that choose among processes

With one process there is nothing to choose: the wildcard for the source stands for the only process there is, every
reduction has one operand, and every communicator with a member consists of that process.
-/

set_option autoImplicit false

namespace MpiSerial

/-- MPI_ANY_SOURCE stands for process 0. -/
def plainSource (source : Int) : Int := if source = MPI_ANY_SOURCE then 0 else source

/-- Whatever the colour, it is the same for all processes - or the process is left out. -/
def plainColor (color : Int) : Int := if color = MPI_UNDEFINED then MPI_UNDEFINED else 0

/-- A group has the one process as its member, or none. -/
def plainGroup (group : Int) : Int :=
  if group = MPI_GROUP_NULL ∨ group = MPI_GROUP_EMPTY then MPI_GROUP_EMPTY else MPI_GROUP_ONE

/-- The call with the plainest choice of processes, communicators and operators. -/
def Call.plain : Call → Call
  | .irecv b n t d g c => .irecv b n t (plainSource d) g c
  | .recv b n t d g c st => .recv b n t (plainSource d) g c st
  | .sendrecv b n t d g b' n' t' d' g' c st => .sendrecv b n t d g b' n' t' (plainSource d') g' c st
  | .iprobe d g c st => .iprobe (plainSource d) g c st
  | .probe d g c st => .probe (plainSource d) g c st
  | .commDup _ => .commDup MPI_COMM_WORLD
  | .commCreate _ g => .commCreate MPI_COMM_WORLD (plainGroup g)
  | .commSplit _ color _ => .commSplit MPI_COMM_WORLD (plainColor color) 0
  | .intercommCreate a _ c _ _ => if a = MPI_COMM_NULL ∧ c = MPI_COMM_NULL then .intercommCreate MPI_COMM_NULL 0 MPI_COMM_NULL 0 0
      else .intercommCreate MPI_COMM_WORLD 0 MPI_COMM_WORLD 0 0
  | .cartCreate _ n dims => .cartCreate MPI_COMM_WORLD n dims
  | .barrier _ => .barrier MPI_COMM_WORLD
  | .bcast _ _ _ r _ => .bcast 0 0 0 r MPI_COMM_WORLD
  | .gather a b c d e f r _ => .gather a b c d e f r MPI_COMM_WORLD
  | .gatherv a b c d e f g r _ => .gatherv a b c d e f g r MPI_COMM_WORLD
  | .allgather a b c d e f _ => .allgather a b c d e f MPI_COMM_WORLD
  | .allgatherv a b c d e f g _ => .allgatherv a b c d e f g MPI_COMM_WORLD
  | .scatter a b c d e f r _ => .scatter a b c d e f r MPI_COMM_WORLD
  | .scatterv a b c d e f g r _ => .scatterv a b c d e f g r MPI_COMM_WORLD
  | .reduce a b n t _ r _ => .reduce a b n t 0 r MPI_COMM_WORLD
  | .allreduce a b n t _ _ => .allreduce a b n t 0 MPI_COMM_WORLD
  | .reduceScatter a b n t _ _ => .reduceScatter a b n t 0 MPI_COMM_WORLD
  | .scan a b n t _ _ => .scan a b n t 0 MPI_COMM_WORLD
  | .alltoall a b c d e f _ => .alltoall a b c d e f MPI_COMM_WORLD
  | .alltoallv a b c d e f g h _ => .alltoallv a b c d e f g h MPI_COMM_WORLD
  | .alltoallw a b c d e f g h _ => .alltoallw a b c d e f g h MPI_COMM_WORLD
  | c => c

def Obs.plain (o : Obs) : Obs := { o with call := o.call.plain }

/-- The two programs make calls that differ in such choices only, as long as what they have seen does not differ
otherwise. -/
def Prog.AlikePlain (p q : Prog) : Prop :=
  ∀ l l' : List Obs, l.map Obs.plain = l'.map Obs.plain → (p l).map Call.plain = (q l').map Call.plain

end MpiSerial
