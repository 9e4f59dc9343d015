import Verif.Spec.Compose

/-!
# Releases that come late, or never

A layer between the program and the library may put off the program's MPI_Type_free and MPI_Request_free: the program is told
that the call was made, the layer keeps it in mind, and makes it later, or never.  Which calls are put off, and when which of
them are made up for, may depend on everything that happened before.
-/

set_option autoImplicit false

namespace MpiSerial

/-- What the program is told of a release that is put off: nothing for MPI_Type_free, MPI_REQUEST_NULL in the place of the
request for MPI_Request_free.  Other calls are not put off. -/
def Call.putOff : Call → Option Out
  | .typeFree _ => some ⟨[], []⟩
  | .requestFree _ => some ⟨[MPI_REQUEST_NULL], []⟩
  | _ => none

/-- Make up for some of the calls kept in mind; each number tells which one of those that remain (none, if there are not so many). -/
def makeUp {σ : Type} (answer : σ → Call → Res (σ × Out)) : List Nat → List Call → σ → Res (σ × List Call)
  | [], kept, s => .ok (s, kept)
  | i :: is, kept, s =>
    match kept[i]? with
    | none => makeUp answer is kept s
    | some c => answer s c >>= fun x => makeUp answer is (kept.eraseIdx i) x.1

/-- The first `n` calls of the program under the layer.  `off` says whether the next call, if it is a release, is put off;
`late` says which of those put off before (`kept`) are made up for before the next call.  `mem` gives the memory of a state. -/
def Prog.runLate {σ : Type} (answer : σ → Call → Res (σ × Out)) (mem : σ → Mem) (off : List Obs → Bool) (late : List Obs → List Nat) (p : Prog) :
    Nat → List Obs → Names → List Call → σ → List Obs × Option Fate
  | 0, seen, _, _, _ => (seen, none)
  | n + 1, seen, ν, kept, s =>
    match p seen with
    | none => (seen, none)
    | some c =>
      match makeUp answer (late seen) kept s with
      | .ok (s, kept) =>
        match if off seen then (c.withHandles ν.number).putOff else none with
        | some o => p.runLate answer mem off late n (ν.observe seen c o (mem s) :: seen) (ν.after c o.vals) (c.withHandles ν.number :: kept) s
        | none =>
          match answer s (c.withHandles ν.number) with
          | .ok (s', o) => p.runLate answer mem off late n (ν.observe seen c o (mem s') :: seen) (ν.after c o.vals) kept s'
          | r => (seen, r.fate)
      | r => (seen, r.fate)

/-- On the machine. -/
abbrev Prog.runLateM (env : Env) (off : List Obs → Bool) (late : List Obs → List Nat) (p : Prog) :=
  p.runLate (fun (M : Mach) c => M.answer env c) Mach.mem off late

/-- On the library. -/
abbrev Prog.runLateLib (env : Env) (off : List Obs → Bool) (late : List Obs → List Nat) (p : Prog) :=
  p.runLate (fun (s : Sys) c => c.answer env s) Sys.mem off late

end MpiSerial
