import Verif.Spec.Machine

/-!
# Programs that do not look at handle numbers

To a program of the MPI standard a handle is opaque: it is obtained from a call, handed to other calls while the object
exists, and that is all.  Such a program is written down here as one that gives names to the handles it obtains (2, 3, 4, …
in the order in which it obtains them, no name twice) and never sees the numbers behind the names.  The constants of
mpi.h - the null handles 0, MPI_COMM_WORLD = 1, the predefined datatypes, which are negative - stand for themselves.
-/

set_option autoImplicit false

namespace MpiSerial

/-! ## Handles in calls and in results -/

/-- The call with every handle `x` replaced by `f x`.  Groups are constants (group.c). -/
def Call.withHandles (f : Int → Int) : Call → Call
  | .store m => .store m
  | .init => .init
  | .initThread r => .initThread r
  | .fortInit a => .fortInit a
  | .initialized => .initialized
  | .finalize => .finalize
  | .abort c code => .abort (f c) code
  | .commDup c => .commDup (f c)
  | .commCreate c g => .commCreate (f c) g
  | .commSplit c color key => .commSplit (f c) color key
  | .intercommCreate a b c d e => .intercommCreate (f a) b (f c) d e
  | .cartCreate c n dims => .cartCreate (f c) n dims
  | .commFree c => .commFree (f c)
  | .isend b n t d g c => .isend b n (f t) d g (f c)
  | .irsend b n t d g c => .irsend b n (f t) d g (f c)
  | .send b n t d g c => .send b n (f t) d g (f c)
  | .irecv b n t d g c => .irecv b n (f t) d g (f c)
  | .recv b n t d g c st => .recv b n (f t) d g (f c) st
  | .sendrecv b n t d g b' n' t' d' g' c st => .sendrecv b n (f t) d g b' n' (f t') d' g' (f c) st
  | .iprobe d g c st => .iprobe d g (f c) st
  | .probe d g c st => .probe d g (f c) st
  | .test r st => .test (f r) st
  | .wait r st => .wait (f r) st
  | .requestFree r => .requestFree (f r)
  | .testany n rs i st => .testany n (rs.map f) i st
  | .waitany n rs i st => .waitany n (rs.map f) i st
  | .testall n rs sts => .testall n (rs.map f) sts
  | .waitall n rs sts => .waitall n (rs.map f) sts
  | .testsome n rs ix sts => .testsome n (rs.map f) ix sts
  | .waitsome n rs ix sts => .waitsome n (rs.map f) ix sts
  | .typeContiguous n t => .typeContiguous n (f t)
  | .typeHvector n b k t => .typeHvector n b k (f t)
  | .typeVector n b k t => .typeVector n b k (f t)
  | .typeHindexed n bs ks t => .typeHindexed n bs ks (f t)
  | .typeIndexed n bs ks t => .typeIndexed n bs ks (f t)
  | .typeIndexedBlock n b ks t => .typeIndexedBlock n b ks (f t)
  | .typeStruct n bs ks ts => .typeStruct n bs ks (ts.map f)
  | .typeCommit t => .typeCommit (f t)
  | .typeFree t => .typeFree (f t)
  | .typeExtent t => .typeExtent (f t)
  | .typeSize t => .typeSize (f t)
  | .typeLb t => .typeLb (f t)
  | .typeUb t => .typeUb (f t)
  | .getElements st t => .getElements st (f t)
  | .pack a n t b size pos c => .pack a n (f t) b size pos (f c)
  | .packSize n t c => .packSize n (f t) (f c)
  | .unpack a size pos b n t c => .unpack a size pos b n (f t) (f c)
  | .barrier c => .barrier (f c)
  | .bcast b n t r c => .bcast b n (f t) r (f c)
  | .gather a n t b k u r c => .gather a n (f t) b k (f u) r (f c)
  | .gatherv a n t b ks ds u r c => .gatherv a n (f t) b ks ds (f u) r (f c)
  | .allgather a n t b k u c => .allgather a n (f t) b k (f u) (f c)
  | .allgatherv a n t b ks ds u c => .allgatherv a n (f t) b ks ds (f u) (f c)
  | .scatter a n t b k u r c => .scatter a n (f t) b k (f u) r (f c)
  | .scatterv a ns ds t b k u r c => .scatterv a ns ds (f t) b k (f u) r (f c)
  | .reduce a b n t op r c => .reduce a b n (f t) op r (f c)
  | .allreduce a b n t op c => .allreduce a b n (f t) op (f c)
  | .reduceScatter a b ns t op c => .reduceScatter a b ns (f t) op (f c)
  | .scan a b n t op c => .scan a b n (f t) op (f c)
  | .alltoall a n t b k u c => .alltoall a n (f t) b k (f u) (f c)
  | .alltoallv a ns sds t b ks rds u c => .alltoallv a ns sds (f t) b ks rds (f u) (f c)
  | .alltoallw a ns sds ts b ks rds us c => .alltoallw a ns sds (ts.map f) b ks rds (us.map f) (f c)

/-- The handles a call mentions. -/
def Call.handles : Call → List Int
  | .store _ | .init | .initThread _ | .fortInit _ | .initialized | .finalize => []
  | .abort c _ | .commDup c | .commCreate c _ | .commSplit c _ _ | .cartCreate c _ _ | .commFree c => [c]
  | .intercommCreate a _ c _ _ => [a, c]
  | .isend _ _ t _ _ c | .irsend _ _ t _ _ c | .send _ _ t _ _ c | .irecv _ _ t _ _ c | .recv _ _ t _ _ c _ => [t, c]
  | .sendrecv _ _ t _ _ _ _ t' _ _ c _ => [t, t', c]
  | .iprobe _ _ c _ | .probe _ _ c _ | .barrier c => [c]
  | .test r _ | .wait r _ | .requestFree r => [r]
  | .testany _ rs _ _ | .waitany _ rs _ _ | .testall _ rs _ | .waitall _ rs _ | .testsome _ rs _ _ | .waitsome _ rs _ _ => rs
  | .typeContiguous _ t | .typeHvector _ _ _ t | .typeVector _ _ _ t | .typeHindexed _ _ _ t | .typeIndexed _ _ _ t
  | .typeIndexedBlock _ _ _ t | .typeCommit t | .typeFree t | .typeExtent t | .typeSize t | .typeLb t | .typeUb t
  | .getElements _ t => [t]
  | .typeStruct _ _ _ ts => ts
  | .pack _ _ t _ _ _ c | .packSize _ t c | .unpack _ _ _ _ _ t c | .bcast _ _ t _ c | .reduce _ _ _ t _ _ c
  | .allreduce _ _ _ t _ c | .reduceScatter _ _ _ t _ c | .scan _ _ _ t _ c => [t, c]
  | .gather _ _ t _ _ u _ c | .gatherv _ _ t _ _ _ u _ c | .allgather _ _ t _ _ u c | .allgatherv _ _ t _ _ _ u c
  | .scatter _ _ t _ _ u _ c | .scatterv _ _ _ t _ _ u _ c | .alltoall _ _ t _ _ u c | .alltoallv _ _ _ t _ _ _ u c => [t, u, c]
  | .alltoallw _ _ _ ts _ _ _ us c => ts ++ us ++ [c]

/-- Where the handles are among the integers a call hands back: how many integers come before them, how many handles
there are (see `Call.answer`). -/
def Call.place : Call → Nat × Nat
  | .commDup _ | .commCreate _ _ | .commSplit _ _ _ | .intercommCreate _ _ _ _ _ | .cartCreate _ _ _ | .commFree _
  | .isend .. | .irsend .. | .irecv .. | .test _ _ | .wait _ _ | .requestFree _
  | .typeContiguous _ _ | .typeHvector _ _ _ _ | .typeVector _ _ _ _ | .typeHindexed _ _ _ _ | .typeIndexed _ _ _ _
  | .typeIndexedBlock _ _ _ _ | .typeStruct _ _ _ _ => (0, 1)
  | .testany _ rs _ _ => (2, rs.length)
  | .waitany _ rs _ _ | .testall _ rs _ => (1, rs.length)
  | .waitall _ rs _ => (0, rs.length)
  | .testsome _ rs ix _ | .waitsome _ rs ix _ => (ix.length + 1, rs.length)
  | _ => (0, 0)

/-- The handles among the integers handed back. -/
def Call.got (c : Call) (vals : List Int) : List Int := (vals.drop c.place.1).take c.place.2

/-- The integers handed back, with every handle `h` replaced by `f h`. -/
def Call.seenAs (c : Call) (f : Int → Int) (vals : List Int) : List Int :=
  vals.take c.place.1 ++ (c.got vals).map f ++ vals.drop (c.place.1 + c.place.2)

/-- The call makes a new object and hands back its handle. -/
def Call.makes : Call → Bool
  | .commDup _ | .commCreate _ _ | .commSplit _ _ _ | .intercommCreate _ _ _ _ _ | .cartCreate _ _ _
  | .isend .. | .irsend .. | .irecv ..
  | .typeContiguous _ _ | .typeHvector _ _ _ _ | .typeVector _ _ _ _ | .typeHindexed _ _ _ _ | .typeIndexed _ _ _ _
  | .typeIndexedBlock _ _ _ _ | .typeStruct _ _ _ _ => true
  | _ => false

/-- The handle `x` that was handed to the call is no longer good: the object was freed, or the request was completed and
MPI_REQUEST_NULL came back in its place. -/
def Call.ends (c : Call) (vals : List Int) (x : Int) : Bool :=
  match c with
  | .commFree y | .requestFree y | .typeFree y => decide (x = y)
  | .finalize => true
  | _ => (c.requests.zip (c.got vals)).any fun e => decide (e.1 = x ∧ e.2 = MPI_REQUEST_NULL)

/-! ## Names -/

/-- The names in use, with the numbers they stand for, and the next name. -/
structure Names where
  tab : List (Int × Int)
  next : Int

namespace Names

def start : Names := ⟨[], 2⟩

/-- The number behind a name. -/
def number (ν : Names) (x : Int) : Int := if x ≤ 1 then x else ((ν.tab.find? fun e => decide (e.1 = x)).map Prod.snd).getD 0

/-- The name of a number. -/
def name (ν : Names) (h : Int) : Int := if h ≤ 1 then h else ((ν.tab.find? fun e => decide (e.2 = h)).map Prod.fst).getD 0

/-- After a call (with names in it) that handed back `vals` (with numbers in it). -/
def after (ν : Names) (c : Call) (vals : List Int) : Names :=
  if c.makes then
    match vals with
    | [h] => if h ≤ 1 then ν else ⟨(ν.next, h) :: ν.tab, ν.next + 1⟩
    | _ => ν
  else { ν with tab := ν.tab.filter fun e => !c.ends vals e.1 }

end Names

/-- What the program gets to see of a call. -/
def Names.observe (ν : Names) (seen : List Obs) (c : Call) (o : Out) (m : Mem) : Obs :=
  ⟨c, c.seenAs (ν.after c o.vals).name o.vals, if knownReceives seen c then o.done else [], m⟩

/-! ## Strategies for handing out numbers -/

/-- How many numbers can still be handed out. -/
def Pool.left (P : Pool) : Nat := P.free.length + 256 * (1024 - P.blocks)

/-- `P` is a possible stock of free numbers when those in `used` are in use: the free numbers are positive, distinct and not
in use; so are those the stock is enlarged with; there are `n` in all; and 1, the number of MPI_COMM_WORLD in mpi.h, is
handed out first if it is not in use. -/
structure Pool.Serves (used : Int → Prop) (n : Nat) (P : Pool) : Prop where
  distinct : P.free.Nodup
  unused : ∀ h ∈ P.free, 0 < h ∧ ¬ used h
  later : P.blocks ≠ 1024 → ∀ h, used h ∨ h ∈ P.free → h < 256 * P.blocks
  blocks : 1 ≤ P.blocks ∧ P.blocks ≤ 1024
  amount : P.left = n
  world : ¬ used 1 → ∃ fl, P.free = 1 :: fl

/-- A way of choosing handle numbers: before every call the free numbers may be rearranged, or replaced by others.
`Strategy` gets to know how many calls have been made, the numbers in use and the free numbers. -/
abbrev Strategy := Nat → (Int → Prop) → Pool → Pool

/-- The numbers handed out are not in use, and they do not run out sooner or later than in the library. -/
def Strategy.Sound (A : Strategy) : Prop := ∀ k used P, P.Serves used P.left → (A k used P).Serves used P.left

/-- The number returned last is handed out first (handles.c:178-225, 270-309). -/
def Strategy.lifo : Strategy := fun _ _ P => P

def Mach.uses (M : Mach) (h : Int) : Prop := ∃ o, (h, o) ∈ M.L.objs

/-- The machine with numbers chosen by `A`. -/
def Mach.with (A : Strategy) (k : Nat) (M : Mach) : Mach := { M with pool := A k M.uses M.pool }

/-! ## Runs -/

/-- The first `n` calls of a program that uses names, on the machine with numbers chosen by `A` (`k` calls have been made). -/
def Prog.runNamed (env : Env) (A : Strategy) (p : Prog) : Nat → Nat → List Obs → Names → Mach → List Obs × Option Fate
  | 0, _, seen, _, _ => (seen, none)
  | n + 1, k, seen, ν, M =>
    match p seen with
    | none => (seen, none)
    | some c =>
      match (M.with A k).answer env (c.withHandles ν.number) with
      | .ok (M', o) => p.runNamed env A n (k + 1) (ν.observe seen c o M'.mem :: seen) (ν.after c o.vals) M'
      | r => (seen, r.fate)

/-- The same on the library. -/
def Prog.runNamedLib (env : Env) (p : Prog) : Nat → List Obs → Names → Sys → List Obs × Option Fate
  | 0, seen, _, _ => (seen, none)
  | n + 1, seen, ν, s =>
    match p seen with
    | none => (seen, none)
    | some c =>
      match (c.withHandles ν.number).answer env s with
      | .ok (s', o) => p.runNamedLib env n (ν.observe seen c o s'.mem :: seen) (ν.after c o.vals) s'
      | r => (seen, r.fate)

/-- Between MPI_Init and MPI_Finalize anything but MPI_Init; outside only MPI_Init, MPI_Initialized and MPI_Abort (and
changes of memory).  MPI_COMM_WORLD is not freed. -/
def Call.inSession (inited : Bool) : Call → Prop
  | .store _ | .initialized | .abort _ _ => True
  | .init | .initThread _ | .fortInit _ => inited = false
  | .commFree h => inited = true ∧ h ≠ MPI_COMM_WORLD
  | _ => inited = true

/-- The first `n` calls use handles properly: each is a constant or the name of an object that exists, and the call is well
formed by the account of the machine with numbers chosen by `A`. -/
def Prog.Opaque (env : Env) (A : Strategy) (p : Prog) : Nat → Nat → List Obs → Names → Mach → Prop
  | 0, _, _, _, _ => True
  | n + 1, k, seen, ν, M => ∀ c, p seen = some c →
      (∀ x ∈ c.handles, x ≤ 1 ∨ ∃ h, (x, h) ∈ ν.tab) ∧ c.inSession M.L.inited ∧ (c.withHandles ν.number).Wf env M.L ∧
      ∀ M' o, (M.with A k).answer env (c.withHandles ν.number) = .ok (M', o) →
        p.Opaque env A n (k + 1) (ν.observe seen c o M'.mem :: seen) (ν.after c o.vals) M'

end MpiSerial
