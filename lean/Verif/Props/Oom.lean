import Verif.Proofs.Oom
import Verif.Proofs.Demo

/-!
# Running out of memory (C61)
-/

set_option autoImplicit false

namespace MpiSerial

open Oom

/-- **C61** (calls): a call that makes no datatype makes some number of allocations.  If they all succeed it does what it
does with plentiful memory.  If one of them fails the program stops, with a message that says so: no pointer from a
failed allocation is used.  For every state and all arguments. -/
theorem C61_call_partial (env : Env) (s : Sys) (c : Call) (hc : c.makesType = false) :
    Reports OutOfMemory (c.execOom env s) (c.exec env s) :=
  call_reports stops_oom env s c hc

/-- **C61** (programs): so do any such calls one after the other. -/
theorem C61_program_partial (env : Env) (s : Sys) (cs : List Call) (hc : ∀ c ∈ cs, c.makesType = false) :
    Reports OutOfMemory (execAllOom env cs s) (execAll env cs s) :=
  program_reports stops_oom env (P := fun c => c.makesType = false) (fun s c h => call_reports stops_oom env s c h) cs s hc

/-- **C61** (lists): so do the functions of the list module that allocate. -/
theorem C61_lists {A : Type} (g : Option Nat) (h : LHeap A) (l : Nat) (d : A) :
    Reports OutOfMemory (Oom.AP_list_new h) (MpiSerial.AP_list_new h) ∧
    Reports OutOfMemory (Oom.AP_list_prepend h l d) (MpiSerial.AP_list_prepend h l d) ∧
    Reports OutOfMemory (Oom.AP_list_append h l d) (MpiSerial.AP_list_append h l d) ∧
    Reports OutOfMemory (Oom.AP_list_duplicate g h l) (MpiSerial.AP_list_duplicate g h l) :=
  ⟨new_reports stops_oom h, prepend_reports stops_oom h l d, append_reports stops_oom h l d,
    duplicate_reports stops_oom g h l⟩

/-- **C61** (all programs): with the constructors of datatypes a failed allocation still never goes unnoticed: the
program stops with the message or uses a null pointer.
Missing for the full statement: the second case, see `C61_fails_type`. -/
theorem C61_all_partial (env : Env) (s : Sys) (cs : List Call) :
    Reports OutOfMemoryOrNull (execAllOom env cs s) (execAll env cs s) :=
  program_reports (B := fun _ r => OutOfMemoryOrNull r) stops_null env (P := fun _ => True)
    (fun s c _ => call_reports_null env s c) cs s (fun _ _ => trivial)

/-- **C61 fails**: every constructor of datatypes, in every state and for all arguments for which it returns, makes an
allocation whose failure it does not notice (type.c:311-314): it writes through the null pointer. -/
theorem C61_fails_type {env : Env} {s s' : Sys} {c : Call} (hc : c.makesType = true) (hr : c.exec env s = .ok s') (k : Nat) :
    ∃ n : Nat, ∀ ok : Mallocs, (∀ i : Nat, k ≤ i → i < k + n → ok i = true) → ok (k + n) = false →
      (c.execOom env s ok k).1 = .ub .nullPtr :=
  call_faults env s c hc s' hr k

/-! ## Examples -/

/-- The allocations of a program that sends three bytes to itself: two lists for MPI_COMM_WORLD, an item for the
message, two lists for the duplicate. -/
def oomProg : List Call := [.init, .isend 100 3 (-1) 0 5 1, .recv 200 3 (-1) 0 5 1 .null, .commDup 1]

/-- Its outcome if the `n`-th allocation (from 0) fails. -/
def oomAt (n : Nat) : Res Sys := (execAllOom env0 oomProg (Sys.start mem0) (fun i => decide (i ≠ n)) 0).1

example : ∀ c ∈ oomProg, c.makesType = false := by decide

example : (List.range 6).map (fun n => match oomAt n with | .abort m => m | .ok _ => "" | _ => "?") =
    ["AP_list_new: malloc failure", "AP_list_new: malloc failure", "AP_listitem_malloc: malloc failure",
      "AP_list_new: malloc failure", "AP_list_new: malloc failure", ""] := by decide +kernel

/-- After MPI_Init a constructor makes one allocation. -/
example : ((Call.typeContiguous 3 (-1)).exec env0 H1.s).returned = true ∧
    (match ((Call.typeContiguous 3 (-1)).execOom env0 H1.s (fun i => decide (i ≠ 2)) 2).1 with
      | .ub .nullPtr => true
      | _ => false) = true := by decide +kernel

end MpiSerial
