import Verif.Spec.Opaque

/-!
# Several parts of a program that take turns

A program is often made of parts (a library, a coupler, component models) that were written and tested separately.  Here a
part is a program that treats handles as opaque, has a region of memory to itself, and sends and receives messages on
communicators it made itself; one part at most uses MPI_COMM_WORLD for messages.  The parts run in one process, between one
MPI_Init and one MPI_Finalize, and take turns in any order: each turn is one call.
-/

set_option autoImplicit false

namespace MpiSerial

/-- The memory at the addresses in `R`; nothing else can be accessed. -/
def Mem.part (R : Int → Bool) (m : Mem) : Mem := fun a => if R a then m a else none

/-- `m` at the addresses in `R`, `m'` elsewhere. -/
def Mem.over (R : Int → Bool) (m m' : Mem) : Mem := fun a => if R a then m a else m' a

/-- Part of a program.  `region`: its memory.  `world`: it exchanges messages on MPI_COMM_WORLD. -/
structure Layer where
  prog : Prog
  region : Int → Bool
  world : Bool

/-- The communicator on which a call sends, receives or looks for messages. -/
def Call.channel : Call → Option Int
  | .isend _ _ _ _ _ c | .irsend _ _ _ _ _ c | .send _ _ _ _ _ c | .irecv _ _ _ _ _ c | .recv _ _ _ _ _ c _ => some c
  | .sendrecv _ _ _ _ _ _ _ _ _ _ c _ => some c
  | .iprobe _ _ c _ | .probe _ _ c _ => some c
  | _ => none

/-- What the part may do: change its own memory only, not call MPI_Finalize, and leave messages on MPI_COMM_WORLD to the
part that uses it. -/
def Layer.May (l : Layer) : Call → Prop
  | .store m => ∀ a, l.region a = false → m a = none
  | .finalize => False
  | c => c.channel = some MPI_COMM_WORLD → l.world = true

/-- When the part changes its memory, the rest of the memory stays as it is. -/
def Layer.call (l : Layer) (m : Mem) : Call → Call
  | .store x => .store (x.over l.region m)
  | c => c

/-! ## Runs -/

/-- The machine right after MPI_Init. -/
def Mach.session (m : Mem) : Mach := ⟨{ Ledger.start.addComm MPI_COMM_WORLD with inited := true }, ⟨(Pool.block 0).tail, 1⟩, m, 0⟩

/-- The first `n` calls of the part when it has the machine, and a memory that consists of its region, to itself. -/
def Layer.alone (env : Env) (m : Mem) (l : Layer) (n : Nat) : List Obs × Option Fate :=
  l.prog.runNamed env .lifo n 0 [] .start (.session (m.part l.region))

/-- How a run ended: what every part has seen, the turns left (if a call did not return, it was the call of the first of
these), and how the program died if it did. -/
structure Ended (ι : Type) where
  seen : ι → List Obs
  left : List ι
  fate : Option Fate

/-- The parts take turns as `turns` says.  All calls go to one machine. -/
def together {ι : Type} [DecidableEq ι] (env : Env) (l : ι → Layer) : List ι → (ι → List Obs) → (ι → Names) → Mach → Ended ι
  | [], seen, _, _ => ⟨seen, [], none⟩
  | i :: turns, seen, ν, M =>
    match (l i).prog (seen i) with
    | none => together env l turns seen ν M
    | some c =>
      match M.answer env ((l i).call M.mem (c.withHandles (ν i).number)) with
      | .ok (M', o) => together env l turns
          (fun j => if j = i then (ν i).observe (seen i) c o (M'.mem.part (l i).region) :: seen i else seen j)
          (fun j => if j = i then (ν i).after c o.vals else ν j) M'
      | r => ⟨seen, i :: turns, r.fate⟩

/-- The same on the library. -/
def togetherLib {ι : Type} [DecidableEq ι] (env : Env) (l : ι → Layer) : List ι → (ι → List Obs) → (ι → Names) → Sys → Ended ι
  | [], seen, _, _ => ⟨seen, [], none⟩
  | i :: turns, seen, ν, s =>
    match (l i).prog (seen i) with
    | none => togetherLib env l turns seen ν s
    | some c =>
      match ((l i).call s.mem (c.withHandles (ν i).number)).answer env s with
      | .ok (s', o) => togetherLib env l turns
          (fun j => if j = i then (ν i).observe (seen i) c o (s'.mem.part (l i).region) :: seen i else seen j)
          (fun j => if j = i then (ν i).after c o.vals else ν j) s'
      | r => ⟨seen, i :: turns, r.fate⟩

/-! ## What is asked of the parts -/

/-- By itself the part is a correct program: it treats handles as opaque, its calls are well formed, it does nothing undefined
(in particular it stays in its region), and it does only what a part may do. -/
def Layer.Correct (env : Env) (m : Mem) (l : Layer) : Prop := ∀ n,
  l.prog.Opaque env .lifo n 0 [] .start (.session (m.part l.region)) ∧
  (∀ c, l.prog (l.alone env m n).1 = some c → l.May c) ∧
  ∀ u, (l.alone env m n).2 ≠ some (.ub u)

/-- The regions do not overlap, and one part at most uses MPI_COMM_WORLD for messages. -/
structure Apart {ι : Type} (l : ι → Layer) : Prop where
  region : ∀ i j a, i ≠ j → (l i).region a = true → (l j).region a = false
  world : ∀ i j, (l i).world = true → (l j).world = true → i = j

/-- The storage in which new datatypes are built always has the same contents at first (see `Env.garbage`). -/
def Env.Steady (env : Env) : Prop := ∀ k, env.garbage k = env.garbage 0

/-- The message of the library when there are no handle numbers left (handles.c:201-206). -/
def exhausted : String := "mpi_allocate_handle: max active handles exceeded"

end MpiSerial
