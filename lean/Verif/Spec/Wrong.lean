import Verif.Spec.Calls

/-!
# Handles that do not denote what a call needs

C75: which calls look at the object behind a handle.
-/

set_option autoImplicit false

namespace MpiSerial

/-- The kinds of objects that have handles. -/
inductive ObjKind where
  | comm | req | dtype
  deriving DecidableEq

def Obj.sort : Obj → ObjKind
  | .comm _ => .comm
  | .req _ => .req
  | .dtype _ => .dtype

/-- `h` is the null handle, or the handle of a live object that is not of kind `k`. -/
def WrongHandle (L : Ledger) (k : ObjKind) (h : Int) : Prop :=
  h = 0 ∨ ∃ o, (h, o) ∈ L.objs ∧ o.sort ≠ k

/-- The call needs the object of kind `k` behind the handle `h`: ranks are such that a message can be meant, and
MPI_REQUEST_NULL, which MPI allows, is not meant. -/
inductive Call.Needs : Call → ObjKind → Int → Prop
  | commFree (c : Int) : Needs (.commFree c) .comm c
  | isend (b n t g c : Int) : Needs (.isend b n t 0 g c) .comm c
  | irsend (b n t g c : Int) : Needs (.irsend b n t 0 g c) .comm c
  | send (b n t g c : Int) : Needs (.send b n t 0 g c) .comm c
  | irecv (b n t : Int) {d : Int} (g c : Int) (hd : d = 0 ∨ d = MPI_ANY_SOURCE) : Needs (.irecv b n t d g c) .comm c
  | recv (b n t : Int) {d : Int} (g c : Int) (st : StPtr) (hd : d = 0 ∨ d = MPI_ANY_SOURCE) :
      Needs (.recv b n t d g c st) .comm c
  | sendrecv (b n t d g b' n' t' : Int) {d' : Int} (g' c : Int) (st : StPtr) (hd : d' = 0 ∨ d' = MPI_ANY_SOURCE) :
      Needs (.sendrecv b n t d g b' n' t' d' g' c st) .comm c
  | iprobe {d : Int} (g c : Int) (st : StPtr) (hd : d = 0 ∨ d = MPI_ANY_SOURCE) : Needs (.iprobe d g c st) .comm c
  | probe {d : Int} (g c : Int) (st : StPtr) (hd : d = 0 ∨ d = MPI_ANY_SOURCE) : Needs (.probe d g c st) .comm c
  | test {r : Int} (st : StPtr) (hr : r ≠ MPI_REQUEST_NULL) : Needs (.test r st) .req r
  | wait {r : Int} (st : StPtr) (hr : r ≠ MPI_REQUEST_NULL) : Needs (.wait r st) .req r
  | typeContiguous (n t : Int) : Needs (.typeContiguous n t) .dtype t
  | typeHvector (n b d t : Int) : Needs (.typeHvector n b d t) .dtype t
  | typeVector (n b d t : Int) : Needs (.typeVector n b d t) .dtype t
  | typeHindexed (n : Int) (b d : List Int) (t : Int) : Needs (.typeHindexed n b d t) .dtype t
  | typeIndexed (n : Int) (b d : List Int) (t : Int) : Needs (.typeIndexed n b d t) .dtype t
  | typeIndexedBlock (n b : Int) (d : List Int) (t : Int) : Needs (.typeIndexedBlock n b d t) .dtype t
  | typeCommit (t : Int) : Needs (.typeCommit t) .dtype t
  | typeFree (t : Int) : Needs (.typeFree t) .dtype t
  | typeExtent (t : Int) : Needs (.typeExtent t) .dtype t
  | typeSize (t : Int) : Needs (.typeSize t) .dtype t
  | typeLb (t : Int) : Needs (.typeLb t) .dtype t
  | typeUb (t : Int) : Needs (.typeUb t) .dtype t
  | getElements (st : Status) (t : Int) : Needs (.getElements st t) .dtype t
  | pack (a b t c d e comm : Int) : Needs (.pack a b t c d e comm) .dtype t
  | packSize (n t comm : Int) : Needs (.packSize n t comm) .dtype t
  | unpack (a b c d e t comm : Int) : Needs (.unpack a b c d e t comm) .dtype t
  | gather {a : Int} (b t d e f comm : Int) (ha : a ≠ MPI_IN_PLACE) : Needs (.gather a b t d e f 0 comm) .dtype t
  | allgather {a : Int} (b t d e f comm : Int) (ha : a ≠ MPI_IN_PLACE) : Needs (.allgather a b t d e f comm) .dtype t
  | reduce (a b n t op comm : Int) : Needs (.reduce a b n t op 0 comm) .dtype t
  | allreduce {a : Int} (b n t op comm : Int) (ha : a ≠ MPI_IN_PLACE) : Needs (.allreduce a b n t op comm) .dtype t
  | scan (a b n t op comm : Int) : Needs (.scan a b n t op comm) .dtype t
  | alltoall (a b t d e f comm : Int) : Needs (.alltoall a b t d e f comm) .dtype t

/-- The same call on another communicator, for calls that are about a communicator but send no messages. -/
def Call.onComm (x : Int) : Call → Option Call
  | .abort _ code => some (.abort x code)
  | .commDup _ => some (.commDup x)
  | .commCreate _ g => some (.commCreate x g)
  | .commSplit _ a b => some (.commSplit x a b)
  | .intercommCreate _ b p d e => if p = MPI_COMM_NULL then none else some (.intercommCreate x b p d e)
  | .cartCreate _ n dims => some (.cartCreate x n dims)
  | .barrier _ => some (.barrier x)
  | .bcast b n t r _ => some (.bcast b n t r x)
  | .gather a b c d e f r _ => some (.gather a b c d e f r x)
  | .gatherv a b c d e f g r _ => some (.gatherv a b c d e f g r x)
  | .allgather a b c d e f _ => some (.allgather a b c d e f x)
  | .allgatherv a b c d e f g _ => some (.allgatherv a b c d e f g x)
  | .scatter a b c d e f r _ => some (.scatter a b c d e f r x)
  | .scatterv a b c d e f g r _ => some (.scatterv a b c d e f g r x)
  | .reduce a b n t op r _ => some (.reduce a b n t op r x)
  | .allreduce a b n t op _ => some (.allreduce a b n t op x)
  | .reduceScatter a b n t op _ => some (.reduceScatter a b n t op x)
  | .scan a b n t op _ => some (.scan a b n t op x)
  | .alltoall a b c d e f _ => some (.alltoall a b c d e f x)
  | .alltoallv a b c d e f g h _ => some (.alltoallv a b c d e f g h x)
  | .alltoallw a b c d e f g h _ => some (.alltoallw a b c d e f g h x)
  | _ => none

end MpiSerial
