import Verif.Spec.Data

/-!
# C84: runs that differ in where the data lie only

The operating system may put the data of a program somewhere else in the address space.  Then every pointer the
program hands to the library, and every byte it owns, is `δ` further on.
-/

set_option autoImplicit false

namespace MpiSerial

/-- The same bytes, each `δ` further on. -/
def Mem.moved (δ : Int) (m : Mem) : Mem := fun a => m (a - δ)

/-- All accessible bytes are in the address space, before and after the move. -/
def Mem.Fits (δ : Int) (m : Mem) : Prop :=
  ∀ a, (m a).isSome = true → 0 ≤ a ∧ a < 18446744073709551616 ∧ 0 ≤ a + δ ∧ a + δ < 18446744073709551616

/-- A buffer argument for which MPI_IN_PLACE, which is no address, may be given. -/
def movedOr (δ b : Int) : Int := if b = MPI_IN_PLACE then b else b + δ

/-- The same arguments of mpi_init_fort, with the local arrays of `mpi_init` elsewhere. -/
def FortArgs.moved (δ : Int) (a : FortArgs) : FortArgs :=
  { a with
    fint1 := a.fint1 + δ, fint2 := a.fint2 + δ, flog1 := a.flog1 + δ, flog2 := a.flog2 + δ
    freal1 := a.freal1 + δ, freal2 := a.freal2 + δ, fdub1 := a.fdub1 + δ, fdub2 := a.fdub2 + δ
    fcomp1 := a.fcomp1 + δ, fcomp2 := a.fcomp2 + δ }

/-- The same call on the moved data.  Everything that is not an address - counts, displacements, handles, tags,
positions - stays. -/
def Call.moved (δ : Int) : Call → Call
  | .store m => .store (m.moved δ)
  | .fortInit a => .fortInit (a.moved δ)
  | .isend b n t d g c => .isend (b + δ) n t d g c
  | .irsend b n t d g c => .irsend (b + δ) n t d g c
  | .send b n t d g c => .send (b + δ) n t d g c
  | .irecv b n t d g c => .irecv (b + δ) n t d g c
  | .recv b n t d g c st => .recv (b + δ) n t d g c st
  | .sendrecv b n t d g b' n' t' d' g' c st => .sendrecv (b + δ) n t d g (b' + δ) n' t' d' g' c st
  | .pack b n t b' z p c => .pack (b + δ) n t (b' + δ) z p c
  | .unpack b z p b' n t c => .unpack (b + δ) z p (b' + δ) n t c
  | .bcast b n t r c => .bcast (b + δ) n t r c
  | .gather b n t b' n' t' r c => .gather (movedOr δ b) n t (b' + δ) n' t' r c
  | .gatherv b n t b' ns ds t' r c => .gatherv (movedOr δ b) n t (b' + δ) ns ds t' r c
  | .allgather b n t b' n' t' c => .allgather (movedOr δ b) n t (b' + δ) n' t' c
  | .allgatherv b n t b' ns ds t' c => .allgatherv (movedOr δ b) n t (b' + δ) ns ds t' c
  | .scatter b n t b' n' t' r c => .scatter (b + δ) n t (movedOr δ b') n' t' r c
  | .scatterv b ns ds t b' n' t' r c => .scatterv (b + δ) ns ds t (movedOr δ b') n' t' r c
  | .reduce b b' n t o r c => .reduce (b + δ) (b' + δ) n t o r c
  | .allreduce b b' n t o c => .allreduce (movedOr δ b) (b' + δ) n t o c
  | .reduceScatter b b' ns t o c => .reduceScatter (b + δ) (b' + δ) ns t o c
  | .scan b b' n t o c => .scan (b + δ) (b' + δ) n t o c
  | .alltoall b n t b' n' t' c => .alltoall (b + δ) n t (b' + δ) n' t' c
  | .alltoallv b ns ds t b' ns' ds' t' c => .alltoallv (b + δ) ns ds t (b' + δ) ns' ds' t' c
  | .alltoallw b ns ds ts b' ns' ds' ts' c => .alltoallw (b + δ) ns ds ts (b' + δ) ns' ds' ts' c
  | c => c

/-- The move is possible: no buffer comes to lie where MPI_IN_PLACE points, and memory the program arranges for
itself fits into the address space in both places. -/
def Call.Moves (δ : Int) : Call → Prop
  | .store m => m.Fits δ
  | .gather b .. | .gatherv b .. | .allgather b .. | .allgatherv b .. | .allreduce b .. | .scatter _ _ _ b ..
  | .scatterv _ _ _ _ b .. => b ≠ MPI_IN_PLACE → b + δ ≠ MPI_IN_PLACE
  | _ => True

/-! ## The library's own record of addresses

A queued request holds the address of its buffer (mpiP.h:96). -/

def ReqRec.moved (δ : Int) (r : ReqRec) : ReqRec := { r with buf := r.buf + δ }

def Slot.moved (δ : Int) : Slot → Slot
  | .req r => .req (r.moved δ)
  | d => d

/-- The state of the library with every buffer address, and the program's data, moved. -/
def Sys.moved (δ : Int) (s : Sys) : Sys :=
  { s with
    handles := { s.handles with items := fun l => { s.handles.items l with data := (s.handles.items l).data.moved δ } }
    mem := s.mem.moved δ }

/-- What unused request storage holds is moved as well (this does not matter: C56). -/
def Env.moved (δ : Int) (env : Env) : Env := { env with junk := fun n => (env.junk n).moved δ }

/-! ## Programs -/

/-- What the program sees: the same numbers and statuses; its data elsewhere. -/
def Obs.moved (δ : Int) (o : Obs) : Obs := { o with call := o.call.moved δ, mem := o.mem.moved δ }

/-- `q` is the program `p` with its data moved: after the same observations it makes the same call. -/
def Prog.MovedTo (δ : Int) (p q : Prog) : Prop := ∀ l, q (l.map (Obs.moved δ)) = (p l).map (Call.moved δ)

end MpiSerial
