import Verif.Spec.Opaque

/-!
# Completion step by step

MPI_Waitall completes its requests one after the other, MPI_Sendrecv sends, waits, and waits again (req.c:193-211,
send.c:233-250).  Here a layer between the program and the library does this by itself, with MPI_Wait, in an order of its
own choice.
-/

set_option autoImplicit false

namespace MpiSerial

/-- Something that answers calls: the library, or the machine. -/
abbrev Engine (σ : Type) := σ → Call → Res (σ × Out)

/-- The library. -/
def Engine.lib (env : Env) : Engine Sys := fun s c => c.answer env s

/-- The machine. -/
def Engine.mach (env : Env) : Engine Mach := fun M c => M.answer env c

/-- MPI_Wait for the requests `rs[i]`, one after the other, with the statuses `ps[i]`. -/
def Engine.waits {σ : Type} (E : Engine σ) : List Nat → σ → List Int → List StPtr → Res (σ × List Int × List StPtr)
  | [], s, rs, ps => .ok (s, rs, ps)
  | i :: is, s, rs, ps => do
    let h ← rd rs i
    let p ← rd ps i
    let (s, o) ← E s (.wait h p)
    E.waits is s (rs.set i (o.vals.headD 0)) (ps.set i (o.done.headD p))

/-- The statuses of the first `n` requests. -/
def StArr.each (a : StArr) (n : Nat) : List StPtr :=
  match a with
  | none => List.replicate n .null
  | some l => (l.take n).map .obj

/-- The array, with the statuses of the first requests filled in. -/
def StArr.back (a : StArr) (ps : List StPtr) : List StPtr :=
  match a with
  | none => []
  | some l => ps ++ (l.drop ps.length).map .obj

/-- A call, done step by step: MPI_Waitall as one MPI_Wait for each request, MPI_Sendrecv as MPI_Irecv, MPI_Isend and an
MPI_Wait for each.  The MPI_Waits of `n` requests come in the order `order n`. -/
def Engine.inSteps {σ : Type} (E : Engine σ) (order : Nat → List Nat) (s : σ) (c : Call) : Res (σ × Out) :=
  match c with
  | .waitall _ rs sts => do
    let (s, rs', ps) ← E.waits (order rs.length) s rs (sts.each rs.length)
    return (s, .ofDone rs' (sts.back ps))
  | .sendrecv b n t d g b' n' t' d' g' c st => do
    let (s, r) ← E s (.irecv b' n' t' d' g' c)
    let (s, q) ← E s (.isend b n t d g c)
    let (s, _, ps) ← E.waits (order 2) s [r.vals.headD 0, q.vals.headD 0] [st, .null]
    return (s, ⟨(ps.headD st).vals, []⟩)
  | c => E s c

/-- The call has a status for every request (MPI_STATUSES_IGNORE will do for one request only, see C18), and status
arguments point to something. -/
def Call.Roomy : Call → Prop
  | .waitall _ rs none => rs.length ≤ 1
  | .waitall _ rs (some l) => rs.length ≤ l.length
  | .sendrecv _ _ _ _ _ _ _ _ _ _ _ st => st ≠ .bad
  | _ => True

/-- The first `n` calls of a program that uses names, each done step by step.  The order of the MPI_Waits may depend on
everything that happened before. -/
def Prog.runSteps {σ : Type} (E : Engine σ) (mem : σ → Mem) (order : List Obs → Nat → List Nat) (p : Prog) :
    Nat → List Obs → Names → σ → List Obs × Option Fate
  | 0, seen, _, _ => (seen, none)
  | n + 1, seen, ν, s =>
    match p seen with
    | none => (seen, none)
    | some c =>
      match E.inSteps (order seen) s (c.withHandles ν.number) with
      | .ok (s', o) => p.runSteps E mem order n (ν.observe seen c o (mem s') :: seen) (ν.after c o.vals) s'
      | r => (seen, r.fate)

/-- How a program ended, up to the text of the message. -/
def Fate.kind : Fate → Fate
  | .abort _ => .abort ""
  | f => f

/-- What the program saw, and how it ended. -/
def ending (r : List Obs × Option Fate) : List Obs × Option Fate := (r.1, r.2.map Fate.kind)

end MpiSerial
