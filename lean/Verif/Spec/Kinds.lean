import Verif.Spec.Twin
import Verif.Spec.Garbage

/-!
# C93: runs that differ in the kinds of the elements only
-/

set_option autoImplicit false

namespace MpiSerial

/-- Two kinds of elements (`int`, `float`, ...) of the same size; the markers of MPI_LB and MPI_UB are like nothing else. -/
def SameSize (cfg : Cfg) (a b : Int) : Prop := Simpletype_length cfg b = Simpletype_length cfg a ∧ SameMark a b

/-- The same datatype as far as sizes and displacements go. -/
structure Typestruct.Kin (cfg : Cfg) (t t' : Typestruct) : Prop where
  count : t'.count = t.count
  ub : t'.ub = t.ub
  lb : t'.lb = t.lb
  committed : t'.committed = t.committed
  o_lb : t'.o_lb = t.o_lb
  o_ub : t'.o_ub = t.o_ub
  len : t'.pairs.length = t.pairs.length
  entries : ∀ (k : Nat) p p', t.pairs[k]? = some p → t'.pairs[k]? = some p' → p'.disp = p.disp ∧ SameSize cfg p.type p'.type

/-- The handles of two predefined datatypes with elements of the same sizes at the same places, or one and the same handle. -/
def KinTypes (cfg : Cfg) (h h' : Int) : Prop :=
  h' = h ∨ (h < 0 ∧ h' < 0 ∧ ∃ t t', (simpletypes cfg)[(-1 - h).toNat]? = some t ∧ (simpletypes cfg)[(-1 - h').toNat]? = some t' ∧
    t.Kin cfg t')

/-- Other names for the predefined datatypes: each stands for one of the same sizes. -/
def TypeRen (cfg : Cfg) (η : Int → Int) : Prop := ∀ h, KinTypes cfg h (η h)

variable (η : Int → Int)

/-- The same call with other names for the datatypes. -/
def Call.retype : Call → Call
  | .isend b n t d g c => .isend b n (η t) d g c
  | .irsend b n t d g c => .irsend b n (η t) d g c
  | .send b n t d g c => .send b n (η t) d g c
  | .irecv b n t d g c => .irecv b n (η t) d g c
  | .recv b n t d g c st => .recv b n (η t) d g c st
  | .sendrecv b n t d g b' n' t' d' g' c st => .sendrecv b n (η t) d g b' n' (η t') d' g' c st
  | .typeContiguous n t => .typeContiguous n (η t)
  | .typeHvector n b d t => .typeHvector n b d (η t)
  | .typeVector n b d t => .typeVector n b d (η t)
  | .typeHindexed n b d t => .typeHindexed n b d (η t)
  | .typeIndexed n b d t => .typeIndexed n b d (η t)
  | .typeIndexedBlock n b d t => .typeIndexedBlock n b d (η t)
  | .typeStruct n b d ts => .typeStruct n b d (ts.map η)
  | .typeCommit t => .typeCommit (η t)
  | .typeFree t => .typeFree (η t)
  | .typeExtent t => .typeExtent (η t)
  | .typeSize t => .typeSize (η t)
  | .typeLb t => .typeLb (η t)
  | .typeUb t => .typeUb (η t)
  | .getElements st t => .getElements st (η t)
  | .pack a b t c d e comm => .pack a b (η t) c d e comm
  | .packSize n t comm => .packSize n (η t) comm
  | .unpack a b c d e t comm => .unpack a b c d e (η t) comm
  | .bcast b n t r c => .bcast b n (η t) r c
  | .gather a b t x y t' r c => .gather a b (η t) x y (η t') r c
  | .gatherv a b t x ns ds t' r c => .gatherv a b (η t) x ns ds (η t') r c
  | .allgather a b t x y t' c => .allgather a b (η t) x y (η t') c
  | .allgatherv a b t x ns ds t' c => .allgatherv a b (η t) x ns ds (η t') c
  | .scatter a b t x y t' r c => .scatter a b (η t) x y (η t') r c
  | .scatterv a ns ds t x y t' r c => .scatterv a ns ds (η t) x y (η t') r c
  | .reduce a b n t o r c => .reduce a b n (η t) o r c
  | .allreduce a b n t o c => .allreduce a b n (η t) o c
  | .reduceScatter a b ns t o c => .reduceScatter a b ns (η t) o c
  | .scan a b n t o c => .scan a b n (η t) o c
  | .alltoall a b t x y t' c => .alltoall a b (η t) x y (η t') c
  | .alltoallv a ns ds t x ns' ds' t' c => .alltoallv a ns ds (η t) x ns' ds' (η t') c
  | .alltoallw a ns ds ts x ns' ds' ts' c => .alltoallw a ns ds (ts.map η) x ns' ds' (ts'.map η) c
  | c => c

/-! ## The library's own record of datatypes

A request holds the handle of its datatype (mpiP.h:102); the descriptors built by the program hold the kinds of the elements. -/

def ReqRec.retype (r : ReqRec) : ReqRec := { r with type := η r.type }

def Slot.retype : Slot → Slot
  | .req r => .req (r.retype η)
  | d => d

/-- The state with other names for the datatypes in the requests and with the descriptors `H`. -/
def Sys.typed (H : Nat → Option Typestruct) (s : Sys) : Sys :=
  { s with
    handles := { s.handles with items := fun l => { s.handles.items l with data := (s.handles.items l).data.retype η } }
    theap := H }

/-- The same descriptors as far as sizes and displacements go. -/
def HeapKin (cfg : Cfg) (h H : Nat → Option Typestruct) : Prop :=
  ∀ q, (h q = none ∧ H q = none) ∨ ∃ t t', h q = some t ∧ H q = some t' ∧ t.Kin cfg t'

/-- The state of the library is the same up to the kinds of the elements. -/
def Sys.KinTo (cfg : Cfg) (s s' : Sys) : Prop := ∃ H, HeapKin cfg s.theap H ∧ s' = s.typed η H

/-- The names in unused request storage (this does not matter: C56). -/
def Env.retype (env : Env) : Env := { env with junk := fun n => (env.junk n).retype η }

/-! ## Programs -/

/-- What the program sees: the same. -/
def Obs.retype (o : Obs) : Obs := { o with call := o.call.retype η }

/-- `q` is the program `p` with other names for its datatypes: after the same observations it makes the same call. -/
def Prog.RetypedTo (p q : Prog) : Prop := ∀ l, q (l.map (Obs.retype η)) = (p l).map (Call.retype η)

end MpiSerial
