import Verif.Spec.Move
import Verif.Spec.FortMach

/-!
# C84 for Fortran programs

A Fortran program hands over nothing but addresses, so all arguments move, and so do the three variables of the
common blocks the library knows the addresses of (mpi.c:12-14).
-/

set_option autoImplicit false

namespace MpiSerial

/-- The same subroutine call, every argument `δ` further on. -/
def FCall.moved (δ : Int) : FCall → FCall
  | .isend a b c d e f g h => .isend (a + δ) (b + δ) (c + δ) (d + δ) (e + δ) (f + δ) (g + δ) (h + δ)
  | .send a b c d e f g => .send (a + δ) (b + δ) (c + δ) (d + δ) (e + δ) (f + δ) (g + δ)
  | .ssend a b c d e f g => .ssend (a + δ) (b + δ) (c + δ) (d + δ) (e + δ) (f + δ) (g + δ)
  | .rsend a b c d e f g => .rsend (a + δ) (b + δ) (c + δ) (d + δ) (e + δ) (f + δ) (g + δ)
  | .irsend a b c d e f g h => .irsend (a + δ) (b + δ) (c + δ) (d + δ) (e + δ) (f + δ) (g + δ) (h + δ)
  | .sendrecv a b c d e f g h i j k l m => .sendrecv (a + δ) (b + δ) (c + δ) (d + δ) (e + δ) (f + δ) (g + δ) (h + δ) (i + δ) (j + δ) (k + δ) (l + δ) (m + δ)
  | .irecv a b c d e f g h => .irecv (a + δ) (b + δ) (c + δ) (d + δ) (e + δ) (f + δ) (g + δ) (h + δ)
  | .recv a b c d e f g h => .recv (a + δ) (b + δ) (c + δ) (d + δ) (e + δ) (f + δ) (g + δ) (h + δ)
  | .iprobe a b c d e f => .iprobe (a + δ) (b + δ) (c + δ) (d + δ) (e + δ) (f + δ)
  | .probe a b c d e => .probe (a + δ) (b + δ) (c + δ) (d + δ) (e + δ)
  | .getCount a b c d => .getCount (a + δ) (b + δ) (c + δ) (d + δ)
  | .getElements a b c d => .getElements (a + δ) (b + δ) (c + δ) (d + δ)
  | .test a b c d => .test (a + δ) (b + δ) (c + δ) (d + δ)
  | .wait a b c => .wait (a + δ) (b + δ) (c + δ)
  | .waitany a b c d e => .waitany (a + δ) (b + δ) (c + δ) (d + δ) (e + δ)
  | .testany a b c d e f => .testany (a + δ) (b + δ) (c + δ) (d + δ) (e + δ) (f + δ)
  | .testall a b c d e => .testall (a + δ) (b + δ) (c + δ) (d + δ) (e + δ)
  | .waitall a b c d => .waitall (a + δ) (b + δ) (c + δ) (d + δ)
  | .testsome a b c d e f => .testsome (a + δ) (b + δ) (c + δ) (d + δ) (e + δ) (f + δ)
  | .waitsome a b c d e f => .waitsome (a + δ) (b + δ) (c + δ) (d + δ) (e + δ) (f + δ)
  | .requestFree a b => .requestFree (a + δ) (b + δ)
  | .commFree a b => .commFree (a + δ) (b + δ)
  | .commSize a b c => .commSize (a + δ) (b + δ) (c + δ)
  | .commRank a b c => .commRank (a + δ) (b + δ) (c + δ)
  | .commDup a b c => .commDup (a + δ) (b + δ) (c + δ)
  | .commCreate a b c d => .commCreate (a + δ) (b + δ) (c + δ) (d + δ)
  | .commSplit a b c d e => .commSplit (a + δ) (b + δ) (c + δ) (d + δ) (e + δ)
  | .commGroup a b c => .commGroup (a + δ) (b + δ) (c + δ)
  | .intercommCreate a b c d e f g => .intercommCreate (a + δ) (b + δ) (c + δ) (d + δ) (e + δ) (f + δ) (g + δ)
  | .groupIncl a b c d e => .groupIncl (a + δ) (b + δ) (c + δ) (d + δ) (e + δ)
  | .groupRangeIncl a b c d e => .groupRangeIncl (a + δ) (b + δ) (c + δ) (d + δ) (e + δ)
  | .groupUnion a b c d => .groupUnion (a + δ) (b + δ) (c + δ) (d + δ)
  | .groupIntersection a b c d => .groupIntersection (a + δ) (b + δ) (c + δ) (d + δ)
  | .groupDifference a b c d => .groupDifference (a + δ) (b + δ) (c + δ) (d + δ)
  | .groupFree a b => .groupFree (a + δ) (b + δ)
  | .groupTranslateRanks a b c d e f => .groupTranslateRanks (a + δ) (b + δ) (c + δ) (d + δ) (e + δ) (f + δ)
  | .cartCreate a b c d e f g => .cartCreate (a + δ) (b + δ) (c + δ) (d + δ) (e + δ) (f + δ) (g + δ)
  | .cartGet a b c d e f => .cartGet (a + δ) (b + δ) (c + δ) (d + δ) (e + δ) (f + δ)
  | .cartCoords a b c d e => .cartCoords (a + δ) (b + δ) (c + δ) (d + δ) (e + δ)
  | .dimsCreate a b c d => .dimsCreate (a + δ) (b + δ) (c + δ) (d + δ)
  | .barrier a b => .barrier (a + δ) (b + δ)
  | .bcast a b c d e f => .bcast (a + δ) (b + δ) (c + δ) (d + δ) (e + δ) (f + δ)
  | .gather a b c d e f g h i => .gather (a + δ) (b + δ) (c + δ) (d + δ) (e + δ) (f + δ) (g + δ) (h + δ) (i + δ)
  | .gatherv a b c d e f g h i j => .gatherv (a + δ) (b + δ) (c + δ) (d + δ) (e + δ) (f + δ) (g + δ) (h + δ) (i + δ) (j + δ)
  | .allgather a b c d e f g h => .allgather (a + δ) (b + δ) (c + δ) (d + δ) (e + δ) (f + δ) (g + δ) (h + δ)
  | .allgatherv a b c d e f g h i => .allgatherv (a + δ) (b + δ) (c + δ) (d + δ) (e + δ) (f + δ) (g + δ) (h + δ) (i + δ)
  | .scatter a b c d e f g h i => .scatter (a + δ) (b + δ) (c + δ) (d + δ) (e + δ) (f + δ) (g + δ) (h + δ) (i + δ)
  | .scatterv a b c d e f g h i j => .scatterv (a + δ) (b + δ) (c + δ) (d + δ) (e + δ) (f + δ) (g + δ) (h + δ) (i + δ) (j + δ)
  | .reduce a b c d e f g h => .reduce (a + δ) (b + δ) (c + δ) (d + δ) (e + δ) (f + δ) (g + δ) (h + δ)
  | .allreduce a b c d e f g => .allreduce (a + δ) (b + δ) (c + δ) (d + δ) (e + δ) (f + δ) (g + δ)
  | .reduceScatter a b c d e f g => .reduceScatter (a + δ) (b + δ) (c + δ) (d + δ) (e + δ) (f + δ) (g + δ)
  | .scan a b c d e f g => .scan (a + δ) (b + δ) (c + δ) (d + δ) (e + δ) (f + δ) (g + δ)
  | .alltoall a b c d e f g h => .alltoall (a + δ) (b + δ) (c + δ) (d + δ) (e + δ) (f + δ) (g + δ) (h + δ)
  | .alltoallv a b c d e f g h i j => .alltoallv (a + δ) (b + δ) (c + δ) (d + δ) (e + δ) (f + δ) (g + δ) (h + δ) (i + δ) (j + δ)
  | .alltoallw a b c d e f g h i j => .alltoallw (a + δ) (b + δ) (c + δ) (d + δ) (e + δ) (f + δ) (g + δ) (h + δ) (i + δ) (j + δ)
  | .typeExtent a b c => .typeExtent (a + δ) (b + δ) (c + δ)
  | .typeStruct a b c d e f => .typeStruct (a + δ) (b + δ) (c + δ) (d + δ) (e + δ) (f + δ)
  | .typeContiguous a b c d => .typeContiguous (a + δ) (b + δ) (c + δ) (d + δ)
  | .typeHvector a b c d e f => .typeHvector (a + δ) (b + δ) (c + δ) (d + δ) (e + δ) (f + δ)
  | .typeCreateHvector a b c d e f => .typeCreateHvector (a + δ) (b + δ) (c + δ) (d + δ) (e + δ) (f + δ)
  | .typeVector a b c d e f => .typeVector (a + δ) (b + δ) (c + δ) (d + δ) (e + δ) (f + δ)
  | .typeHindexed a b c d e f => .typeHindexed (a + δ) (b + δ) (c + δ) (d + δ) (e + δ) (f + δ)
  | .typeIndexed a b c d e f => .typeIndexed (a + δ) (b + δ) (c + δ) (d + δ) (e + δ) (f + δ)
  | .typeCreateIndexedBlock a b c d e f => .typeCreateIndexedBlock (a + δ) (b + δ) (c + δ) (d + δ) (e + δ) (f + δ)
  | .typeSize a b c => .typeSize (a + δ) (b + δ) (c + δ)
  | .typeLb a b c => .typeLb (a + δ) (b + δ) (c + δ)
  | .typeUb a b c => .typeUb (a + δ) (b + δ) (c + δ)
  | .getAddress a b c => .getAddress (a + δ) (b + δ) (c + δ)
  | .address a b c => .address (a + δ) (b + δ) (c + δ)
  | .typeCommit a b => .typeCommit (a + δ) (b + δ)
  | .typeFree a b => .typeFree (a + δ) (b + δ)
  | .pack a b c d e f g h => .pack (a + δ) (b + δ) (c + δ) (d + δ) (e + δ) (f + δ) (g + δ) (h + δ)
  | .packSize a b c d e => .packSize (a + δ) (b + δ) (c + δ) (d + δ) (e + δ)
  | .unpack a b c d e f g h => .unpack (a + δ) (b + δ) (c + δ) (d + δ) (e + δ) (f + δ) (g + δ) (h + δ)
  | .finalize a => .finalize (a + δ)
  | .abort a b c => .abort (a + δ) (b + δ) (c + δ)
  | .initialized a b => .initialized (a + δ) (b + δ)
  | .getVersion a b c => .getVersion (a + δ) (b + δ) (c + δ)
  | .opCreate a b c d => .opCreate (a + δ) (b + δ) (c + δ) (d + δ)
  | .opFree a b => .opFree (a + δ) (b + δ)
  | .infoCreate a b => .infoCreate (a + δ) (b + δ)
  | .infoSet a b c d => .infoSet (a + δ) (b + δ) (c + δ) (d + δ)
  | .infoFree a b => .infoFree (a + δ) (b + δ)

/-- A status variable is not at address 0, which is MPI_STATUS_IGNORE for C, in either place. -/
def StatusMoves (δ ignore p : Int) : Prop := p ≠ ignore → p ≠ 0 ∧ p + δ ≠ 0

/-- A buffer is not where MPI_IN_PLACE of C points, in either place. -/
def BufferMoves (δ b : Int) : Prop := b ≠ MPI_IN_PLACE ∧ b + δ ≠ MPI_IN_PLACE

/-- The move is possible.  MPI_ADDRESS and MPI_GET_ADDRESS are there to tell where the data lie. -/
def FCall.Moves (δ : Int) (f : FPtrs) : FCall → Prop
  | .recv _ _ _ _ _ _ st _ | .iprobe _ _ _ _ st _ | .probe _ _ _ st _ | .test _ _ st _ | .wait _ st _ | .waitany _ _ _ st _
  | .testany _ _ _ _ st _ | .sendrecv _ _ _ _ _ _ _ _ _ _ _ st _ => StatusMoves δ f.status st
  | .testall _ _ _ st _ | .waitall _ _ st _ | .testsome _ _ _ _ st _ | .waitsome _ _ _ _ st _ => StatusMoves δ f.statuses st
  | .gather b .. | .gatherv b .. | .allgather b .. | .allgatherv b .. | .scatter _ _ _ b .. | .scatterv _ _ _ _ b .. =>
    b ≠ f.in_place → BufferMoves δ b
  | .allreduce b .. => BufferMoves δ b
  | .getAddress .. | .address .. => False
  | _ => True

def FPtrs.moved (δ : Int) (f : FPtrs) : FPtrs := ⟨f.status + δ, f.statuses + δ, f.in_place + δ⟩

def FEnv.moved (δ : Int) (c : FEnv) : FEnv := { c with env := c.env.moved δ, ptrs := c.ptrs.moved δ }

def FStep.moved (δ : Int) : FStep → FStep
  | .store m => .store (m.moved δ)
  | .init a => .init (a.moved δ)
  | .call fc => .call (fc.moved δ)

def FStep.Moves (δ : Int) (f : FPtrs) : FStep → Prop
  | .store m => m.Fits δ
  | .init _ => True
  | .call fc => fc.Moves δ f

/-- `q` is the program `p` with its variables moved: having seen the same, it makes the same step. -/
def FProg.MovedTo (δ : Int) (p q : FProg) : Prop := ∀ l, q (l.map (Mem.moved δ)) = (p l).map (FStep.moved δ)

end MpiSerial
