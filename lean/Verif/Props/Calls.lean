import Verif.Proofs.Safe
import Verif.Proofs.Inited
import Verif.Proofs.Demo

/-!
# C43, C44: sequences of arbitrary calls
-/

set_option autoImplicit false

namespace MpiSerial

/-! ## C43 -/

/-- C43: after any sequence of calls with any arguments, started from program start, that all returned,
MPI_Initialized gives 1 exactly if some initialisation was not followed by MPI_Finalize, and 0 otherwise. -/
theorem C43_initialized {env : Env} {m : Mem} {cs : List Call} {s : Sys}
    (h : execAll env cs (Sys.start m) = .ok s) :
    (StillInitialized cs → MPI_Initialized s = 1) ∧ (¬ StillInitialized cs → MPI_Initialized s = 0) := by
  have := execAll_ini cs h
  simp only [Sys.start, Bool.false_eq_true, false_and, or_false] at this
  unfold MPI_Initialized
  exact ⟨fun hs => if_pos (this.2 hs), fun hs => if_neg fun h => hs (this.1 h)⟩

/-- Initialise, make traffic, finalise, initialise again: every call returns. -/
example : (execAll env0 [.init, .commDup 1, .isend 100 3 (-1) 0 5 1, .finalize, .initThread 3, .irecv 100 3 (-1) 0 5 1]
    (Sys.start mem0)).returned = true := by decide +kernel

/-- The same, ended by MPI_Finalize. -/
example : (execAll env0 [.init, .commDup 1, .isend 100 3 (-1) 0 5 1, .finalize, .initThread 3, .finalize, .typeCommit (-3)]
    (Sys.start mem0)).returned = true := by decide +kernel

example : StillInitialized [.init, .commDup 1, .finalize, .initThread 3, .irecv 100 3 (-1) 0 5 1] :=
  ⟨[.init, .commDup 1, .finalize], .initThread 3, [.irecv 100 3 (-1) 0 5 1], rfl, rfl, by simp [Call.isFinalize]⟩

example : MPI_Initialized ((execAll env0 [.init, .finalize, .initThread 3, .commDup 1] (Sys.start mem0)).getD (Sys.start mem0)) = 1 := by
  decide +kernel

example : MPI_Initialized ((execAll env0 [.init, .commDup 1, .finalize] (Sys.start mem0)).getD (Sys.start mem0)) = 0 := by
  decide +kernel

/-- C43: MPI_Init_thread does what MPI_Init does and provides the level that was required. -/
theorem C43_thread (s : Sys) (required : Int) :
    MPI_Init_thread s required = (MPI_Init s >>= fun s' => .ok (s', required)) := rfl

/-- C43: so does the Fortran MPI_INIT_THREAD. -/
theorem C43_thread_fortran (env : Env) (z : FortSizes) (p : FortLocals) (s : Sys) (required : Int) :
    Fort.mpi_init_thread env z p s required = (Fort.mpi_init env z p s >>= fun s' => .ok (s', required)) := rfl

example : ((MPI_Init_thread (Sys.start mem0) 2).getD (Sys.start mem0, 0)).2 = 2 := by decide +kernel

/-! ## C44 -/

/-- C44: after any history of well-formed calls, a well-formed call does not dereference a null or dangling handle,
list, request or datatype pointer, does not free anything twice, does not take an object for one of another kind,
and does not loop; and when it returns its effect has an account, so the history can be continued.
Partial: MPI_SIGNED_CHAR and MPI_WCHAR are not datatypes here (`C44_fails_signed_char`), and the C `int` counters
have to have room (`Room`). -/
theorem C44_safe_partial {env : Env} {s : Sys} {L : Ledger} (h : WfReach env s L) {c : Call} (hr : Room L)
    (hc : c.Wf env L) :
    (c.exec env s).Avoids Corrupt ∧ ∀ s', c.exec env s = .ok s' → ∃ L', Steps env s L s' L' := by
  obtain ⟨h1, h2⟩ := h.reach
  obtain ⟨h3, h4⟩ := Res.sat_iff.1 (Call.sat h1 h2 hr c hc)
  refine ⟨h3, fun s' hs => ?_⟩
  obtain ⟨L', h5, _⟩ := h4 s' hs
  exact ⟨L', h5⟩

/-- The account does not matter: what is a well-formed call is the same for any two accounts of a state (for
MPI_Type_free, the datatypes of pending sends are known only to the account). -/
theorem C44_account {env : Env} {s : Sys} {L L' : Ledger} (h : Reach env s L) (h' : Reach env s L') (c : Call)
    (hc : ∀ t, c ≠ .typeFree t) : c.Wf env L ↔ c.Wf env L' :=
  ⟨Call.Wf.agree h h' c hc, Call.Wf.agree h' h c hc⟩

theorem Demo.init_wf {d : Demo} (hw : WfReach env0 d.s d.L) (hr : decide (Room d.L) = true)
    (hx : (MPI_Init d.s).returned = true) : WfReach env0 d.init.s d.init.L := by
  rw [decide_eq_true_iff] at hr
  exact .call (c := .init) hw hr trivial (Res.eq_getD _ hx) (.one (.init hr.1 hr.2.1 (Res.eq_getD _ hx)))

theorem Demo.isend_wf {d : Demo} {buf count dtype tag comm : Int} {c : Nat} (hw : WfReach env0 d.s d.L)
    (hr : decide (Room d.L) = true) (hc : decide ((comm, Obj.comm c) ∈ d.L.objs) = true)
    (ht : -45 ≤ dtype ∧ dtype < 0) (hx : (MPI_Isend env0 d.s buf count dtype 0 tag comm).returned = true) :
    WfReach env0 (d.isend buf count dtype tag comm c).s (d.isend buf count dtype tag comm c).L := by
  rw [decide_eq_true_iff] at hr hc
  have he := Demo.isend_eq (d := d) c hx
  refine .call (c := .isend buf count dtype 0 tag comm) hw hr ⟨IsType.simple ht.1 ht.2, Or.inl ⟨c, hc⟩⟩ ?_
    (.one (.isend hc (by have := hr.2.2; omega) he))
  show (MPI_Isend env0 d.s buf count dtype 0 tag comm >>= fun x => Res.ok x.1) = _
  rw [he]; rfl

/-- A history of well-formed calls: MPI_Init and two sends. -/
theorem H3_wf : WfReach env0 H3.s H3.L :=
  Demo.isend_wf (Demo.isend_wf (Demo.init_wf .start (by decide +kernel) (by decide +kernel)) (by decide +kernel)
    (by decide +kernel) (by decide) (by decide +kernel)) (by decide +kernel) (by decide +kernel) (by decide) (by decide +kernel)

/-- A call to which the theorem applies there, and which returns. -/
example : (Call.recv 300 3 (-1) (-1) 5 1 (.obj ⟨0, 0, 0, 0⟩)).Wf env0 H3.L ∧ Room H3.L ∧
    ((Call.recv 300 3 (-1) (-1) 5 1 (.obj ⟨0, 0, 0, 0⟩)).exec env0 H3.s).returned = true :=
  ⟨⟨IsType.simple (by decide) (by decide), Or.inl ⟨0, by decide +kernel⟩⟩, by decide +kernel, by decide +kernel⟩

/-- C44 fails for MPI_SIGNED_CHAR and MPI_WCHAR (mpi.h:78-79): the table of predefined datatypes has no entry
for them (type.c:26, type_const.c), so any use dereferences a null pointer, in every state. -/
theorem C44_fails_signed_char (env : Env) (s : Sys) :
    headerConst mpi_h "MPI_SIGNED_CHAR" = -46 ∧ headerConst mpi_h "MPI_WCHAR" = -47 ∧
    (Call.typeSize (-46)).exec env s = .ub .nullPtr ∧ (Call.typeSize (-47)).exec env s = .ub .nullPtr ∧
    ∀ sb rb n op comm, sb ≠ MPI_IN_PLACE →
      (Call.allreduce sb rb n (-46) op comm).exec env s = .ub .nullPtr :=
  ⟨by decide +kernel, by decide +kernel, rfl, rfl, fun sb rb n op comm h => by
    show MPI_Allreduce env s sb rb n (-46) op comm = _
    unfold MPI_Allreduce
    rw [if_neg h]
    rfl⟩

/-- Releasing a pending request is outside C44, with reason: a later call takes the new owner of its storage for
the request. -/
example : (execAll env0 [.init, .irecv 100 1 (-1) 0 5 1, .requestFree 2, .commDup 1, .isend 100 1 (-1) 0 5 1]
    (Sys.start mem0)).fate = some (.ub .kind) := by decide +kernel

/-- So is freeing a datatype a pending receive needs: the send's own request, which reuses its handle, is taken
for it. -/
example : (execAll env0 [.init, .typeContiguous 2 (-1), .typeCommit 2, .irecv 100 1 2 0 5 1, .typeFree 2,
    .isend 100 1 (-1) 0 5 1] (Sys.start mem0)).fate = some (.ub .kind) := by decide +kernel

end MpiSerial
