import Verif.Proofs.Kernel
import Verif.Props.Order

/-!
# C82: a small set of calls suffices

Of the 62 calls of `Call`, 26 do all the work.  A layer that makes the other 36 out of these - MPI_Send (send.c:110-126) is
MPI_Isend and MPI_Wait, MPI_Wait (req.c:64-77) is an MPI_Test that must succeed, MPI_Type_vector (type.c:548-557) is
MPI_Type_struct (type.c:403-419) with equal types, MPI_Gatherv (collective.c:107-135) is MPI_Alltoall (collective.c:418-426)
to an address computed with MPI_Type_extent - cannot be told from the library.
-/

set_option linter.unusedSimpArgs false
set_option autoImplicit false

namespace MpiSerial

/-- Every call that does not repeat a datatype may be made out of basic ones: for all arguments and in every state, whatever
happens - results, memory, the complete state of the library, abort with its message, exit, undefined behaviour - is the
same. -/
theorem C82_same (env : Env) (s : Sys) (c : Call) (hc : c.repeatsType = false) : (Engine.lib env).outOfBasic s c = c.answer env s := Kernel.same s c hc

/-- Every call may be made out of basic ones: it returns if and only if it returns, with the same results and leaving the same
state. -/
theorem C82_call (env : Env) (s : Sys) (c : Call) (x : Sys × Out) : (Engine.lib env).outOfBasic s c = .ok x ↔ c.answer env s = .ok x := by
  cases hc : c.repeatsType with
  | false => rw [Kernel.same s c hc]
  | true => exact Kernel.types s c hc x

/-- The layer makes basic calls only: with two systems that answer basic calls alike it does the same. -/
theorem C82_basic {σ : Type} {E F : Engine σ} (h : ∀ s c, c.Basic → E s c = F s c) (s : σ) (c : Call) : E.outOfBasic s c = F.outOfBasic s c :=
  Kernel.outOfBasic_congr h s c

/-- A program cannot tell the layer from the library: it sees the same results and the same memory, call for call, and with the
layer it is stopped if and only if it is stopped with the library. -/
theorem C82_program (env : Env) (p : Prog) (n : Nat) : ∀ (seen : List Obs) (s : Sys),
    (p.runBy (Engine.lib env).outOfBasic Sys.mem n seen s).1 = (p.run env n seen s).1 ∧
    ((p.runBy (Engine.lib env).outOfBasic Sys.mem n seen s).2 = none ↔ (p.run env n seen s).2 = none) := by
  induction n with
  | zero => intros; exact ⟨rfl, Iff.rfl⟩
  | succ n ih =>
    intro seen s
    simp only [Prog.runBy, Prog.run]
    cases hp : p seen with
    | none => exact ⟨rfl, Iff.rfl⟩
    | some c =>
      dsimp only
      have key := C82_call env s c
      cases hc : c.answer env s with
      | ok x => rw [(key x).2 hc]; exact ih _ _
      | _ =>
        cases ho : (Engine.lib env).outOfBasic s c with
        | ok x => cases ((key x).1 ho).symm.trans hc
        | _ => exact ⟨rfl, (by constructor <;> nofun)⟩

/-- If it does not repeat datatypes, it is stopped in the same way, too. -/
theorem C82_program_same (env : Env) (p : Prog) (hp : ∀ seen c, p seen = some c → c.repeatsType = false) (n : Nat) : ∀ (seen : List Obs) (s : Sys),
    p.runBy (Engine.lib env).outOfBasic Sys.mem n seen s = p.run env n seen s := by
  induction n with
  | zero => intros; rfl
  | succ n ih =>
    intro seen s
    simp only [Prog.runBy, Prog.run]
    cases hc : p seen with
    | none => rfl
    | some c =>
      dsimp only
      rw [C82_same env s c (hp seen c hc)]
      cases c.answer env s with
      | ok x => exact ih _ _
      | _ => rfl

/-! ## Instances -/

/-- A receive, a send, MPI_Waitall on both, MPI_Sendrecv, another receive. -/
example : twoAtOnce.runBy (Engine.lib env0).outOfBasic Sys.mem 6 [] (Sys.start mem0) = twoAtOnce.run env0 6 [] (Sys.start mem0) :=
  C82_program_same env0 twoAtOnce (fun seen c h => by
    unfold twoAtOnce at h
    split at h <;> cases h <;> rfl) 6 [] _

/-- Four items that are three apart, then a type of two of these, its extent and size; then two collective calls. -/
def columns : Prog
  | [] => some .init
  | [_] => some (.typeVector 4 1 3 (-7))
  | [t, _] => some (.typeContiguous 2 (t.vals.headD 0))
  | [u, _, _] => some (.typeExtent (u.vals.headD 0))
  | [_, u, _, _] => some (.typeSize (u.vals.headD 0))
  | [_, _, _, _, _] => some (.gather 100 4 (-1) 200 4 (-1) 0 1)
  | [_, _, _, _, _, _] => some (.reduce 100 300 1 (-1) 0 1 1)
  | _ => none

/-- All of it happens: the extents and sizes are seen, and the reduction with root 1 stops the program. -/
example : (columns.run env0 8 [] (Sys.start mem0)).1.map (fun o => o.vals) = [[], [32], [80], [3], [2], []] ∧
    (columns.run env0 8 [] (Sys.start mem0)).2 = some (.abort "MPI_Reduce: bad root") ∧
    (columns.runBy (Engine.lib env0).outOfBasic Sys.mem 8 [] (Sys.start mem0)).1.map (fun o => o.vals) = [[], [32], [80], [3], [2], []] ∧
    (columns.runBy (Engine.lib env0).outOfBasic Sys.mem 8 [] (Sys.start mem0)).2 = some (.abort "MPI_Reduce: bad root") := by
  decide +kernel

/-- Calls are really made out of others: a library in which MPI_Send, MPI_Wait, MPI_Type_vector and MPI_Gather do nothing but
abort is not noticed by the layer. -/
example (s : Sys) (c : Call) :
    Engine.outOfBasic (fun s c => match c with
      | .send .. | .wait .. | .typeVector .. | .gather .. => .abort "not there"
      | c => c.answer env0 s) s c = (Engine.lib env0).outOfBasic s c :=
  C82_basic (fun s c h => by cases c <;> first | rfl | exact h.elim) s c

end MpiSerial
