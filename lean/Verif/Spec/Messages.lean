import Verif.Spec.Compose
import Verif.Spec.Coll

/-!
# Collectives as messages

With one process a collective that moves data does what a message to oneself does (C35).  Here a layer between the program
and the library takes this literally: it has a communicator to itself, and some of the collectives of the program it turns
into one MPI_Sendrecv on that communicator.  Which ones, and with which tags, may depend on everything that happened before.
-/

set_option autoImplicit false

namespace MpiSerial

instance (b d e : Int) : Decidable (DisplFits b d e) := by unfold DisplFits; infer_instance

/-- `a` is an address. -/
abbrev IsAddress (a : Int) : Prop := 0 ≤ a ∧ a < 18446744073709551616

/-- Where displacement `d`, in units of extent `e`, from address `b` leads. -/
def displaced (b d : Int) : Option Int → Option Int
  | some e => if DisplFits b d e then some (b + d * e) else none
  | none => none

/-- The message that stands for a collective: sent with tag `tag` to oneself on the communicator `comm`.  `extent` gives the
extents of datatypes.  There is none for calls that move no data (MPI_Barrier, MPI_Bcast, MPI_IN_PLACE, root other than 0), or
whose displacements lead nowhere. -/
def Call.asMessage (extent : Int → Option Int) (comm tag : Int) : Call → Option Call
  | .gather a n t b k u root _ => if a ≠ MPI_IN_PLACE ∧ root = 0 then some (.sendrecv a n t 0 tag b k u 0 tag comm .null) else none
  | .scatter a n t b k u root _ => if b ≠ MPI_IN_PLACE ∧ root = 0 then some (.sendrecv a n t 0 tag b k u 0 tag comm .null) else none
  | .allgather a n t b k u _ => if a ≠ MPI_IN_PLACE then some (.sendrecv a n t 0 tag b k u 0 tag comm .null) else none
  | .gatherv a n t b (k :: _) (d :: _) u root _ => if a ≠ MPI_IN_PLACE ∧ root = 0
      then (displaced b d (extent u)).map fun b => .sendrecv a n t 0 tag b k u 0 tag comm .null else none
  | .allgatherv a n t b (k :: _) (d :: _) u _ => if a ≠ MPI_IN_PLACE
      then (displaced b d (extent u)).map fun b => .sendrecv a n t 0 tag b k u 0 tag comm .null else none
  | .scatterv a (n :: _) (d :: _) t b k u root _ => if b ≠ MPI_IN_PLACE ∧ root = 0
      then (displaced a d (extent t)).map fun a => .sendrecv a n t 0 tag b k u 0 tag comm .null else none
  | .reduce a b n t _ root _ => if root = 0 then some (.sendrecv a n t 0 tag b n t 0 tag comm .null) else none
  | .allreduce a b n t _ _ => if a ≠ MPI_IN_PLACE then some (.sendrecv a n t 0 tag b n t 0 tag comm .null) else none
  | .reduceScatter a b (n :: _) t _ _ => some (.sendrecv a n t 0 tag b n t 0 tag comm .null)
  | .scan a b n t _ _ => some (.sendrecv a n t 0 tag b n t 0 tag comm .null)
  | .alltoall a n t b k u _ => some (.sendrecv a n t 0 tag b k u 0 tag comm .null)
  | .alltoallv a (n :: _) (d :: _) t b (k :: _) (e :: _) u _ => (displaced a d (extent t)).bind fun a =>
      (displaced b e (extent u)).map fun b => .sendrecv a n t 0 tag b k u 0 tag comm .null
  | .alltoallw a (n :: _) (d :: _) (t :: _) b (k :: _) (e :: _) (u :: _) _ =>
      if IsAddress (a + d) ∧ IsAddress (b + e) then some (.sendrecv (a + d) n t 0 tag (b + e) k u 0 tag comm .null) else none
  | _ => none

/-- The call made in place of `c`: the message, if there is to be one. -/
def Call.via (extent : Int → Option Int) (comm : Int) (tag : Option Int) (c : Call) : Call :=
  (tag.bind fun g => c.asMessage extent comm g).getD c

/-- What MPI_Type_extent tells (a `long`). -/
def Res.extent {α : Type} : Res (α × Out) → Option Int
  | .ok (_, ⟨[e], _⟩) => some (s64 e)
  | _ => none

/-- The first `n` calls of the program, some of them done as messages on the communicator `comm`, of which the program knows
nothing.  `pick` says whether the next call is to be a message, and with which tag.  The program gets to see what it would see
of the call it meant to make. -/
def Prog.runVia (env : Env) (pick : List Obs → Option Int) (comm : Int) (p : Prog) : Nat → List Obs → Names → Mach → List Obs × Option Fate
  | 0, seen, _, _ => (seen, none)
  | n + 1, seen, ν, M =>
    match p seen with
    | none => (seen, none)
    | some c =>
      match M.answer env ((c.withHandles ν.number).via (fun t => (M.answer env (.typeExtent t)).extent) comm (pick seen)) with
      | .ok (M', o) => p.runVia env pick comm n (ν.observe seen c o M'.mem :: seen) (ν.after c o.vals) M'
      | r => (seen, r.fate)

/-- The same on the library. -/
def Prog.runViaLib (env : Env) (pick : List Obs → Option Int) (comm : Int) (p : Prog) : Nat → List Obs → Names → Sys → List Obs × Option Fate
  | 0, seen, _, _ => (seen, none)
  | n + 1, seen, ν, s =>
    match p seen with
    | none => (seen, none)
    | some c =>
      match ((c.withHandles ν.number).via (fun t => ((Call.typeExtent t).answer env s).extent) comm (pick seen)).answer env s with
      | .ok (s', o) => p.runViaLib env pick comm n (ν.observe seen c o s'.mem :: seen) (ν.after c o.vals) s'
      | r => (seen, r.fate)

/-- The program as the only part of itself: all memory is its own, and it may use MPI_COMM_WORLD for messages. -/
def Prog.whole (p : Prog) : Layer := ⟨p, fun _ => true, true⟩

end MpiSerial
