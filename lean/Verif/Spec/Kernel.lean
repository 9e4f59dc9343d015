import Verif.Spec.Order

/-!
# A small set of calls

A layer that makes every other call out of the basic ones.  It uses the library as a program does: through calls and what
they hand back.
-/

set_option autoImplicit false

namespace MpiSerial

/-- The calls that are not made out of others. -/
def Call.Basic : Call → Prop
  | .store _ | .init | .fortInit _ | .initialized | .finalize | .abort _ _ => True
  | .commDup _ | .commFree _ => True
  | .isend .. | .irsend .. | .irecv .. | .iprobe .. | .test _ _ | .requestFree _ => True
  | .typeStruct .. | .typeCommit _ | .typeFree _ | .typeExtent _ | .typeSize _ | .typeLb _ | .typeUb _ => True
  | .getElements _ _ | .pack .. | .packSize .. | .unpack .. | .alltoall .. => True
  | _ => False

/-- The first integer handed back. -/
def Out.val (o : Out) : Int := o.vals.headD 0

/-- The flag of MPI_Test. -/
def Out.flag (o : Out) : Int := o.vals.tail.headD 0

namespace Engine

variable {σ : Type} (E : Engine σ)

/-- Nothing handed back. -/
def quiet (s : σ) : Res (σ × Out) := .ok (s, ⟨[], []⟩)

/-- MPI_Wait: MPI_Test must succeed. -/
def await (s : σ) (h : Int) (p : StPtr) : Res (σ × Int × StPtr) := do
  let (s, o) ← E s (.test h p)
  if o.flag = 0 then .abort "MPI_Wait: request not complete, deadlock"
  else return (s, o.val, o.done.headD p)

/-- MPI_Test for one request after the other until one is complete: the flag, requests and status. -/
def tryEach : Nat → Nat → σ → List Int → StPtr → Res (σ × Int × List Int × StPtr)
  | 0, _, s, rs, p => .ok (s, 0, rs, p)
  | n + 1, i, s, rs, p => do
    let h ← rd rs i
    let (s, o) ← E s (.test h p)
    if o.flag = 0 then tryEach n (i + 1) s (rs.set i o.val) (o.done.headD p)
    else return (s, o.flag, rs.set i o.val, o.done.headD p)

/-- MPI_Test for all requests: their flags, requests and statuses.  `must`: they have to be complete, otherwise the program
is stopped. -/
def testEach (must : Bool) : Nat → Nat → σ → List Int → StArr → Res (σ × List Int × List Int × StArr)
  | 0, _, s, rs, sts => .ok (s, [], rs, sts)
  | n + 1, i, s, rs, sts => do
    let h ← rd rs i
    let p ← StArr.at sts i
    let (s, o) ← E s (.test h p)
    if must = true ∧ o.flag = 0 then .abort "MPI_Waitall: request not complete, deadlock"
    else do
      let (s, flags, rs, sts) ← testEach must n (i + 1) s (rs.set i o.val) (sts.upd i (o.done.headD p))
      return (s, o.flag :: flags, rs, sts)

/-- MPI_Type_struct with `n` blocks of the same type. -/
def blocks (s : σ) (n : Int) (lens disps : List Int) (t : Int) : Res (σ × Out) :=
  E s (.typeStruct n lens disps (List.replicate n.toNat t))

/-- A blocking call on a root: nothing to do elsewhere than at rank 0. -/
def atRoot (name : String) (root : Int) (s : σ) (act : Res (σ × Out)) : Res (σ × Out) :=
  if root = MPI_ROOT then quiet s
  else if root = 0 then act
  else .abort (name ++ ": bad root")

/-- Data from here to here. -/
def move (s : σ) (sbuf scount stype rbuf rcount rtype comm : Int) : Res (σ × Out) := E s (.alltoall sbuf scount stype rbuf rcount rtype comm)

/-- Where item `displs[0]` of a buffer with elements of type `t` is. -/
def item (s : σ) (buf : Int) (displs : List Int) (t : Int) : Res (σ × Int) := do
  let (s, o) ← E s (.typeExtent t)
  let d ← rd displs 0
  return (s, padd buf (s32 (d * o.val)))

/-- A call, made out of basic calls. -/
def outOfBasic (s : σ) (c : Call) : Res (σ × Out) :=
  match c with
  | .initThread r => do
    let (s, _) ← E s .init
    return (s, ⟨[r], []⟩)
  -- communicators
  | .commCreate c g =>
    if g = MPI_GROUP_NULL ∨ g = MPI_GROUP_EMPTY then .ok (s, ⟨[MPI_COMM_NULL], []⟩) else E s (.commDup c)
  | .commSplit c color _ => if color = MPI_UNDEFINED then .ok (s, ⟨[MPI_COMM_NULL], []⟩) else E s (.commDup c)
  | .intercommCreate a _ b _ _ =>
    if a = MPI_COMM_NULL ∧ b = MPI_COMM_NULL then .ok (s, ⟨[MPI_COMM_NULL], []⟩) else E s (.commDup MPI_COMM_WORLD)
  | .cartCreate c n dims =>
    if (dims.take n.toNat).any (fun d => 1 < d) then .abort "MPI_Cart_create: Greater dimension than no. of procs"
    else if dims.length < n.toNat then .ub .memAccess
    else E s (.commDup c)
  -- messages
  | .wait h p => do
    let (s, h, p) ← E.await s h p
    return (s, .ofDone [h] [p])
  | .send b n t d g c => do
    let (s, o) ← E s (.isend b n t d g c)
    let (s, _, _) ← E.await s o.val (.obj ⟨0, 0, 0, 0⟩)
    quiet s
  | .recv b n t d g c p => do
    let (s, o) ← E s (.irecv b n t d g c)
    let (s, _, p) ← E.await s o.val p
    match p with
    | .null => quiet s
    | .obj st => return (s, ⟨[st.MPI_SOURCE, st.MPI_TAG, st.MPI_ERROR, n], []⟩)
    | .bad => .ub .memAccess
  | .sendrecv b n t d g b' n' t' d' g' c p => do
    let (s, r) ← E s (.irecv b' n' t' d' g' c)
    let (s, q) ← E s (.isend b n t d g c)
    let (s, _, _) ← E.await s q.val (.obj ⟨0, 0, 0, 0⟩)
    let (s, _, p) ← E.await s r.val p
    return (s, ⟨p.vals, []⟩)
  | .probe d g c p => do
    let (s, o) ← E s (.iprobe d g c p)
    if o.val = 0 then .abort "MPI_Probe: no existing match, deadlock" else return (s, ⟨o.vals.tail, []⟩)
  | .testany n rs i p => do
    let (s, flag, rs, p) ← E.tryEach n.toNat 0 s rs p
    return (s, .ofDone (i :: flag :: rs) [p])
  | .waitany n rs i p => do
    let (s, flag, rs, p) ← E.tryEach n.toNat 0 s rs p
    if flag = 0 then .abort "MPI_Waitany: no requests complete, deadlock" else return (s, .ofDone (i :: rs) [p])
  | .testall n rs sts => do
    let (s, flags, rs, sts) ← E.testEach false n.toNat 0 s rs sts
    return (s, .ofDone ((if 0 ∈ flags then 0 else 1) :: rs) sts.ptrs)
  | .waitall n rs sts => do
    let (s, _, rs, sts) ← E.testEach true n.toNat 0 s rs sts
    return (s, .ofDone rs sts.ptrs)
  | .testsome n rs ix sts | .waitsome n rs ix sts => do
    let (s, flags, rs, sts) ← E.testEach false n.toNat 0 s rs sts
    return (s, .ofDone ((flags.countP (· ≠ 0) : Int) :: ix ++ rs) sts.ptrs)
  -- datatypes
  | .typeContiguous n t => do
    let (s, e) ← E s (.typeExtent t)
    E.blocks s n (List.replicate n.toNat 1) ((List.range n.toNat).map fun (i : Nat) => u64 (i * e.val)) t
  | .typeHvector n b d t => do
    let (s, _) ← E s (.typeExtent t)
    E.blocks s n (List.replicate n.toNat b) ((List.range n.toNat).map fun (i : Nat) => u64 (i * d)) t
  | .typeVector n b d t => do
    let (s, e) ← E s (.typeExtent t)
    E.blocks s n (List.replicate n.toNat b) ((List.range n.toNat).map fun (i : Nat) => u64 (i * d * e.val)) t
  | .typeHindexed n b d t => do
    let (s, _) ← E s (.typeLb t)
    E.blocks s n b d t
  | .typeIndexed n b d t =>
    if n = 0 then do
      let (s, _) ← E s (.typeLb t)
      E.blocks s 0 [] [] t
    else do
      let (s, e) ← E s (.typeExtent t)
      E.blocks s n b (d.map fun x => u64 (x * e.val)) t
  | .typeIndexedBlock n b d t =>
    if n = 0 then do
      let (s, _) ← E s (.typeLb t)
      E.blocks s 0 [] [] t
    else do
      let (s, e) ← E s (.typeExtent t)
      E.blocks s n (List.replicate n.toNat b) (d.map fun x => u64 (x * e.val)) t
  -- collective calls
  | .barrier _ => quiet s
  | .bcast _ _ _ root _ => atRoot "MPI_Bcast" root s (quiet s)
  | .gather a b c d e f root comm =>
    if a = MPI_IN_PLACE then quiet s else atRoot "MPI_Gather" root s (E.move s a b c d e f comm)
  | .gatherv a b c d ns ds f root comm =>
    if a = MPI_IN_PLACE then quiet s
    else atRoot "MPI_Gatherv" root s do
      let (s, d) ← E.item s d ds f
      let n ← rd ns 0
      E.move s a b c d n f comm
  | .allgather a b c d e f comm => if a = MPI_IN_PLACE then quiet s else E.move s a b c d e f comm
  | .allgatherv a b c d ns ds f comm =>
    if a = MPI_IN_PLACE then quiet s
    else do
      let (s, d) ← E.item s d ds f
      let n ← rd ns 0
      E.move s a b c d n f comm
  | .scatter a b c d e f root comm =>
    if d = MPI_IN_PLACE then quiet s else atRoot "MPI_Scatter" root s (E.move s a b c d e f comm)
  | .scatterv a ns ds c d e f root comm =>
    if d = MPI_IN_PLACE then quiet s
    else atRoot "MPI_Scatterv" root s do
      let (s, a) ← E.item s a ds c
      let n ← rd ns 0
      E.move s a n c d e f comm
  | .reduce a b n t _ root comm => if root = 0 then E.move s a n t b n t comm else .abort "MPI_Reduce: bad root"
  | .allreduce a b n t _ comm => if a = MPI_IN_PLACE then quiet s else E.move s a n t b n t comm
  | .reduceScatter a b ns t _ comm => do
    let n ← rd ns 0
    E.move s a n t b n t comm
  | .scan a b n t _ comm => E.move s a n t b n t comm
  | .alltoallv a ns ds t b ns' ds' t' comm => do
    let (s, o) ← E s (.typeExtent t)
    let (s, o') ← E s (.typeExtent t')
    let d ← rd ds 0
    let d' ← rd ds' 0
    let n ← rd ns 0
    let n' ← rd ns' 0
    E.move s (padd a (s32 (d * o.val))) n t (padd b (s32 (d' * o'.val))) n' t' comm
  | .alltoallw a ns ds ts b ns' ds' ts' comm => do
    let d ← rd ds 0
    let n ← rd ns 0
    let t ← rd ts 0
    let d' ← rd ds' 0
    let n' ← rd ns' 0
    let t' ← rd ts' 0
    E.move s (padd a d) n t (padd b d') n' t' comm
  | c => E s c

end Engine

/-- Calls that make a datatype by repeating another. -/
def Call.repeatsType : Call → Bool
  | .typeContiguous .. | .typeHvector .. | .typeVector .. | .typeHindexed .. | .typeIndexed .. | .typeIndexedBlock .. => true
  | _ => false

/-- The first `n` calls of a program, answered by `answer`. -/
def Prog.runBy {σ : Type} (answer : σ → Call → Res (σ × Out)) (mem : σ → Mem) (p : Prog) : Nat → List Obs → σ → List Obs × Option Fate
  | 0, seen, _ => (seen, none)
  | n + 1, seen, s =>
    match p seen with
    | none => (seen, none)
    | some c =>
      match answer s c with
      | .ok (s', o) => p.runBy answer mem n (⟨c, o.vals, if knownReceives seen c then o.done else [], mem s'⟩ :: seen) s'
      | r => (seen, r.fate)

end MpiSerial
