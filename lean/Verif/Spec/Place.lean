import Verif.Spec.Fort
import Verif.Model.Place

/-!
# Calls work on the caller's variables

`FCall.inPlace` executes a Fortran call with the loads and stores of the C functions where the code has them (Model/Place.lean).
`FCall.own` lists the variables such a call may write, with their present values.
-/

set_option autoImplicit false

namespace MpiSerial

open Spec.Fort

/-- Storage that never held a request reads as one whose member `complete` is an `int` (mpiP.h:100). -/
def IntJunk (env : Env) : Prop := ∀ n, s32 (env.junk n).complete = (env.junk n).complete

/-- The call with its C function working in place. -/
def FCall.inPlace (c : FEnv) (s : Sys) : FCall → Res Sys
  | .isend buf n t d g k r e => Place.mpi_isend c s buf n t d g k r e
  | .irsend buf n t d g k r e => Place.mpi_irsend c s buf n t d g k r e
  | .irecv buf n t d g k r e => Place.mpi_irecv c s buf n t d g k r e
  | .sendrecv sb sn st d sg rb rn rt sr rg k o e => Place.mpi_sendrecv c s sb sn st d sg rb rn rt sr rg k o e
  | .recv buf n t d g k o e => Place.mpi_recv c s buf n t d g k o e
  | .iprobe d g k flag o e => Place.mpi_iprobe c s d g k flag o e
  | .probe d g k o e => Place.mpi_probe c s d g k o e
  | .test request flag o e => Place.mpi_test c s request flag o e
  | .wait request o e => Place.mpi_wait c s request o e
  | .waitany n requests _ o e => Place.mpi_waitany c s n requests o e
  | .testany n requests _ flag o e => Place.mpi_testany c s n requests flag o e
  | .testall n requests flag o e => Place.mpi_testall c s n requests flag o e
  | .waitall n requests o e => Place.mpi_waitall c s n requests o e
  | .testsome n requests outcount _ o e => Place.mpi_testsome c s n requests outcount o e
  | .waitsome n requests outcount _ o e => Place.mpi_testsome c s n requests outcount o e
  | .requestFree request e => Place.mpi_request_free c s request e
  | .pack a n t b z p k e => Place.mpi_pack c s a n t b z p k e
  | .unpack a z p b n t k e => Place.mpi_unpack c s a z p b n t k e
  | .typeStruct n b d t w e => Place.mpi_type_struct c s n b d t w e
  | .typeHindexed n b d t w e => Place.mpi_type_hindexed c s n b d t w e
  | .typeIndexed n b d t w e => Place.mpi_type_indexed c s n b d t w e
  | .typeCreateIndexedBlock n b d t w e => Place.mpi_type_create_indexed_block c s n b d t w e
  | .groupTranslateRanks g n rs h qs e => Place.mpi_group_translate_ranks c s g n rs h qs e
  | .cartGet k n ds ps xs e => Place.mpi_cart_get c s k n ds ps xs e
  | fc => fc.exec c s

/-- The variables of the call, holding what they hold in `m`. -/
def FCall.own (c : FEnv) (m : Mem) (fc : FCall) : Option (List Spec.Fort.Out) :=
  let int (p : Int) := (intAt c.bo m p).map (Out.int p)
  let ints (p n : Int) := (intAt c.bo m n).bind fun n => (intsAt c.bo m p n.toNat).map (Out.ints p)
  let status (p : Int) := (statusArg c m p).map (Out.status p)
  let statuses (p n : Int) := (intAt c.bo m n).bind fun n => (statusesArg c m p n.toNat).map (Out.statuses p)
  match fc with
  | .isend _ _ _ _ _ _ r e => do return [← int r, ← int e]
  | .irsend _ _ _ _ _ _ r e => do return [← int r, ← int e]
  | .irecv _ _ _ _ _ _ r e => do return [← int r, ← int e]
  | .sendrecv _ _ _ _ _ _ _ _ _ _ _ o e => do return [← int e, ← status o]
  | .recv _ _ _ _ _ _ o e => do return [← int e, ← status o]
  | .iprobe _ _ _ flag o e => do return [← int flag, ← status o, ← int e]
  | .probe _ _ _ o e => do return [← int e, ← status o]
  | .test request flag o e => do return [← int request, ← int flag, ← status o, ← int e]
  | .wait request o e => do return [← int request, ← int e, ← status o]
  | .waitany n requests index o e => do return [← ints requests n, ← int e, ← status o, ← int index]
  | .testany n requests index flag o e => do return [← ints requests n, ← int flag, ← status o, ← int index, ← int e]
  | .testall n requests flag o e => do return [← ints requests n, ← int flag, ← statuses o n, ← int e]
  | .waitall n requests o e => do return [← ints requests n, ← int e, ← statuses o n]
  | .testsome n requests outcount indices o e =>
    do return [← ints requests n, ← int outcount, ← statuses o n, ← ints indices n, ← int e]
  | .waitsome n requests outcount indices o e =>
    do return [← ints requests n, ← int outcount, ← statuses o n, ← ints indices n, ← int e]
  | .requestFree request e => do return [← int request, ← int e]
  | .pack _ _ _ _ _ p _ e => do return [← int p, ← int e]
  | .unpack _ _ p _ _ _ _ e => do return [← int p, ← int e]
  | .typeStruct _ _ _ _ w e | .typeHindexed _ _ _ _ w e | .typeIndexed _ _ _ _ w e | .typeCreateIndexedBlock _ _ _ _ w e =>
    do return [← int w, ← int e]
  | .groupTranslateRanks _ n _ _ qs e => do return [← ints qs n, ← int e]
  | .cartGet _ n ds ps xs e => do return [← ints ds n, ← ints ps n, ← ints xs n, ← int e]
  | _ => some []

/-- The integer variable at `p` takes no part in the call: whatever it holds, the call does the same and leaves it alone. -/
def Bystander (f : Sys → Res (Sys × Int)) (s : Sys) (p : Int) : Prop :=
  ∀ w : Mem, (∀ a, ¬ (p ≤ a ∧ a < p + 4) → w a = s.mem a) → (∀ a, (w a).isSome = (s.mem a).isSome) →
    f { s with mem := w } = f s >>= fun x => .ok ({ x.1 with mem := fun a => if p ≤ a ∧ a < p + 4 then w a else x.1.mem a }, x.2)

/-- The memory without the integer variable at `p`. -/
def hidden (m : Mem) (p : Int) : Mem := fun a => if p ≤ a ∧ a < p + 4 then none else m a

/-- The messages that a blocking receive takes in are not put over its own status variable; the request variable of a nonblocking call is not part
of a message that this call transfers.  (MPI_Irsend reads the handle again, as an `int`.)  The elements that MPI_Pack and MPI_Unpack copy do not
touch the position variable: it might as well not be there.  Nor is the new datatype part of the block lengths or displacements.  MPI_Group_translate_ranks
does not write on ranks that it has still to read (it may have one array for both). -/
def FCall.Clear (c : FEnv) (s : Sys) (fc : FCall) : Prop :=
  let int (p : Int) := intAt c.bo s.mem p
  match fc with
  | .isend buf n t d g k r _ => ∀ n' t' d' g' k', int n = some n' → int t = some t' → int d = some d' → int g = some g' → int k = some k' →
      Bystander (fun s => MPI_Isend c.env s buf n' t' d' g' k') s r
  | .irsend buf n t d g k r _ => ∀ n' t' d' g' k', int n = some n' → int t = some t' → int d = some d' → int g = some g' → int k = some k' →
      Bystander (fun s => MPI_Isend c.env s buf n' t' d' g' k') s r ∧
        ∀ x, MPI_Isend c.env s buf n' t' d' g' k' = .ok x → s32 x.2 = x.2
  | .irecv buf n t d g k r _ => ∀ n' t' d' g' k', int n = some n' → int t = some t' → int d = some d' → int g = some g' → int k = some k' →
      Bystander (fun s => MPI_Irecv c.env s buf n' t' d' g' k') s r
  | .recv buf n t d g k o _ => ∀ n' t' d' g' k' x, int n = some n' → int t = some t' → int d = some d' → int g = some g' →
      int k = some k' → MPI_Irecv c.env s buf n' t' d' g' k' = .ok x → statusArg c x.1.mem o = statusArg c s.mem o
  | .sendrecv sb sn st sd sg rb rn rt rd rg k o _ => ∀ n1 t1 d1 g1 n2 t2 d2 g2 k' x y, int sn = some n1 → int st = some t1 →
      int sd = some d1 → int sg = some g1 → int rn = some n2 → int rt = some t2 → int rd = some d2 → int rg = some g2 →
      int k = some k' → MPI_Irecv c.env s rb n2 t2 d2 g2 k' = .ok x → MPI_Send c.env x.1 sb n1 t1 d1 g1 k' = .ok y →
      statusArg c y.mem o = statusArg c s.mem o
  | .pack a n t b z p k _ => ∀ n' t' z' p' k', int n = some n' → int t = some t' → int z = some z' → int p = some p' → int k = some k' →
      ∀ e, MPI_Pack c.env { s with mem := hidden s.mem p } a n' t' b z' p' k' ≠ .ub e
  | .unpack a z p b n t k _ => ∀ z' p' n' t' k', int z = some z' → int p = some p' → int n = some n' → int t = some t' → int k = some k' →
      ∀ e, MPI_Unpack c.env { s with mem := hidden s.mem p } a z' p' b n' t' k' ≠ .ub e
  | .typeStruct n b d _ w _ | .typeHindexed n b d _ w _ => ∀ n', int n = some n' →
      (intsAt c.bo (hidden s.mem w) b n'.toNat).isSome = true ∧ (addrsAt c.bo (hidden s.mem w) d n'.toNat).isSome = true
  | .typeIndexed n b d _ w _ => ∀ n', int n = some n' →
      (intsAt c.bo (hidden s.mem w) b n'.toNat).isSome = true ∧ (intsAt c.bo (hidden s.mem w) d n'.toNat).isSome = true
  | .typeCreateIndexedBlock n _ d _ w _ => ∀ n', int n = some n' → (intsAt c.bo (hidden s.mem w) d n'.toNat).isSome = true
  | .groupTranslateRanks _ n rs _ qs _ => ∀ n', int n = some n' → ∀ i j : Nat, i < j → (j : Int) < n' → rs + 4 * j + 4 ≤ qs + 4 * i ∨ qs + 4 * i + 4 ≤ rs + 4 * j
  | _ => True

/-- MPI_TEST and its relatives, the probes, the blocking receives, the nonblocking calls, packing, the datatype constructors with array arguments and two more
calls that fill arrays: the calls of Model/Place.lean. -/
def FCall.worksInPlace : FCall → Bool
  | .isend .. | .irsend .. | .irecv .. | .sendrecv .. | .recv .. | .iprobe .. | .probe .. | .test .. | .wait .. | .waitany .. | .testany .. | .testall .. | .waitall .. | .testsome ..
  | .waitsome .. | .requestFree .. | .pack .. | .unpack .. | .typeStruct .. | .typeHindexed .. | .typeIndexed ..
  | .typeCreateIndexedBlock .. | .groupTranslateRanks .. | .cartGet .. => true
  | _ => false

/-- The arguments of the call are variables that do not overlap. -/
structure FCall.Tidy (c : FEnv) (s : Sys) (fc : FCall) : Prop where
  supported : fc.Supported c s.mem
  args : fc.worksInPlace = true → ∃ r outs, fc.meaning c s = some r ∧ fc.own c s.mem = some outs ∧ Variables s.mem outs ∧ fc.Clear c s ∧
    ∀ s' outs', r = .ok (s', outs') → Variables s.mem outs'

end MpiSerial
