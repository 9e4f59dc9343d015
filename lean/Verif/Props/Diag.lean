import Verif.Proofs.Diag
import Verif.Spec.Diag
import Verif.Props.Calls

/-!
# C57: builds with INFO or DEBUG
-/

set_option autoImplicit false

namespace MpiSerial

section
variable {env : Env} {s : Sys} {L : Ledger} {b : Build}

/-! ## Posting -/

/-- C57: MPI_Isend in any build, on a live communicator, is MPI_Isend - except that a DEBUG build, having delivered
the message to a waiting receive, goes on to read 4 bytes at the send buffer, however long the message is. -/
theorem C57_isend_partial (hr : Reach env s L) {comm : Int} {c : Nat} (hcm : (comm, Obj.comm c) ∈ L.objs)
    (hu : L.unmatched < 2147483647) (b : Build) (buf count dtype dest tag : Int) :
    Diag.MPI_Isend b env s buf count dtype dest tag comm =
      if b.debug = true ∧ dest = 0 ∧ (L.partner c .send tag).isSome = true ∧
          ¬ (∀ i : Nat, i < 4 → (s.mem (buf + i)).isSome = true) then
        MPI_Isend env s buf count dtype dest tag comm >>= fun _ => .ub .memAccess
      else MPI_Isend env s buf count dtype dest tag comm := by
  obtain ⟨M, lst, hi⟩ := hr.inv
  have h := isend_diag (b := b) (env := env) hi hcm hu buf count dtype dest tag
  unfold Mem.readable at h
  rw [h]

/-- C57: the same for MPI_Irecv and the receive buffer. -/
theorem C57_irecv_partial (hr : Reach env s L) {comm : Int} {c : Nat} (hcm : (comm, Obj.comm c) ∈ L.objs)
    (hu : L.unmatched < 2147483647) (b : Build) (buf count dtype src tag : Int) :
    Diag.MPI_Irecv b env s buf count dtype src tag comm =
      if b.debug = true ∧ src ≠ MPI_PROC_NULL ∧ (L.partner c .recv tag).isSome = true ∧
          ¬ (∀ i : Nat, i < 4 → (s.mem (buf + i)).isSome = true) then
        MPI_Irecv env s buf count dtype src tag comm >>= fun _ => .ub .memAccess
      else MPI_Irecv env s buf count dtype src tag comm := by
  obtain ⟨M, lst, hi⟩ := hr.inv
  have h := irecv_diag (b := b) (env := env) hi hcm hu buf count dtype src tag
  unfold Mem.readable at h
  rw [h]

/-- With neither symbol these are the functions without printing statements, in every state. -/
theorem diag_off (env : Env) (s : Sys) (buf count dtype peer tag comm : Int) :
    Diag.MPI_Isend ⟨false, false⟩ env s buf count dtype peer tag comm = MPI_Isend env s buf count dtype peer tag comm ∧
    Diag.MPI_Irecv ⟨false, false⟩ env s buf count dtype peer tag comm = MPI_Irecv env s buf count dtype peer tag comm := by
  have h1 : ∀ (s : Sys) (l x : Nat) (p : Loc), Diag.sendMatched ⟨false, false⟩ env s buf count dtype tag l x p =
      sendMatched env s buf count dtype tag l x p := by
    intro s l x p
    unfold Diag.sendMatched Diag.only
    simp only [Bool.false_eq_true, if_false, Res.ok_bind, bind_pure]
    unfold sendMatched
    cases AP_listitem_data s.lists x <;> rfl
  have h2 : ∀ (s : Sys) (l x : Nat) (p : Loc), Diag.recvMatched ⟨false, false⟩ env s buf count dtype l x p =
      recvMatched env s buf count dtype l x p := by
    intro s l x p
    unfold Diag.recvMatched Diag.only
    simp only [Bool.false_eq_true, if_false, Res.ok_bind, bind_pure]
  constructor
  · unfold Diag.MPI_Isend MPI_Isend Diag.only
    simp only [Bool.false_eq_true, if_false, Res.ok_bind, h1]
    rfl
  · unfold Diag.MPI_Irecv MPI_Irecv Diag.only
    simp only [Bool.false_eq_true, if_false, Res.ok_bind, h2]
    rfl

/-- MPI_PROC_NULL without INFO. -/
theorem isendNull_diag (hb : b.info = false) (env : Env) (s : Sys) (buf count dtype tag comm : Int) :
    Diag.MPI_Isend b env s buf count dtype MPI_PROC_NULL tag comm = MPI_Isend env s buf count dtype MPI_PROC_NULL tag comm := by
  unfold Diag.MPI_Isend MPI_Isend Diag.only
  simp [hb]

theorem irecvNull_diag (hb : b.info = false) (env : Env) (s : Sys) (buf count dtype tag comm : Int) :
    Diag.MPI_Irecv b env s buf count dtype MPI_PROC_NULL tag comm = MPI_Irecv env s buf count dtype MPI_PROC_NULL tag comm := by
  unfold Diag.MPI_Irecv MPI_Irecv Diag.only
  simp [hb]

theorem P2PArgs.isend_diag (hr : Reach env s L) {dtype dest comm : Int} (ha : P2PArgs env L dtype dest comm)
    (hu : L.unmatched < 2147483647) {buf : Int} (hs : Shows b s.mem buf comm) (count tag : Int) :
    Diag.MPI_Isend b env s buf count dtype dest tag comm = MPI_Isend env s buf count dtype dest tag comm := by
  rcases ha.2 with ⟨c, hc⟩ | ⟨h1, h2⟩
  · rw [C57_isend_partial hr hc hu, if_neg]
    exact fun h => h.2.2.2 (hs.2 h.1)
  · subst h2
    refine isendNull_diag ?_ env s buf count dtype tag comm
    cases hb : b.info with
    | false => rfl
    | true => exact absurd h1 (hs.1 hb)

theorem P2PArgs.irecv_diag (hr : Reach env s L) {dtype src comm : Int} (ha : P2PArgs env L dtype src comm)
    (hu : L.unmatched < 2147483647) {buf : Int} (hs : Shows b s.mem buf comm) (count tag : Int) :
    Diag.MPI_Irecv b env s buf count dtype src tag comm = MPI_Irecv env s buf count dtype src tag comm := by
  rcases ha.2 with ⟨c, hc⟩ | ⟨h1, h2⟩
  · rw [C57_irecv_partial hr hc hu, if_neg]
    exact fun h => h.2.2.2 (hs.2 h.1)
  · subst h2
    refine irecvNull_diag ?_ env s buf count dtype tag comm
    cases hb : b.info with
    | false => rfl
    | true => exact absurd h1 (hs.1 hb)

/-! ## Every function that prints -/

/-- C57: after any history of well-formed calls, if the communicator is not MPI_COMM_NULL (INFO) and the buffer has
4 bytes (DEBUG), every function that prints ends in the same way, with the same state, memory, handle and status, in
every build.  Partial: a correct program may use a shorter buffer (`C57_fails_debug`). -/
theorem C57_posts_partial (hw : WfReach env s L) (hm : Room L) {dtype peer comm buf : Int}
    (ha : P2PArgs env L dtype peer comm) (hs : Shows b s.mem buf comm) (count tag : Int) (st : StPtr) :
    Diag.MPI_Isend b env s buf count dtype peer tag comm = MPI_Isend env s buf count dtype peer tag comm ∧
    Diag.MPI_Irsend b env s buf count dtype peer tag comm = MPI_Irsend env s buf count dtype peer tag comm ∧
    Diag.MPI_Send b env s buf count dtype peer tag comm = MPI_Send env s buf count dtype peer tag comm ∧
    Diag.MPI_Irecv b env s buf count dtype peer tag comm = MPI_Irecv env s buf count dtype peer tag comm ∧
    Diag.MPI_Recv b env s buf count dtype peer tag comm st = MPI_Recv env s buf count dtype peer tag comm st := by
  have hu : L.unmatched < 2147483647 := by have := hm.2.2; omega
  have hr := hw.reach.1
  have h1 := ha.isend_diag hr hu hs count tag
  have h2 := ha.irecv_diag hr hu hs count tag
  refine ⟨h1, ?_, ?_, h2, ?_⟩
  · unfold Diag.MPI_Irsend MPI_Irsend; rw [h1]
  · unfold Diag.MPI_Send MPI_Send; rw [h1]
  · unfold Diag.MPI_Recv MPI_Recv; rw [h2]; rfl

theorem C57_sendrecv_partial (hw : WfReach env s L) (hm : Room L) {stype dest rtype src comm sbuf rbuf : Int}
    (ha : P2PArgs env L stype dest comm) (ha' : P2PArgs env L rtype src comm) (hs : Shows b s.mem sbuf comm)
    (hs' : Shows b s.mem rbuf comm) (scount stag rcount rtag : Int) (st : StPtr) :
    Diag.MPI_Sendrecv b env s sbuf scount stype dest stag rbuf rcount rtype src rtag comm st =
      MPI_Sendrecv env s sbuf scount stype dest stag rbuf rcount rtype src rtag comm st := by
  have hu := hm.2.2
  obtain ⟨hr, ht⟩ := hw.reach
  unfold Diag.MPI_Sendrecv MPI_Sendrecv
  rw [ha'.irecv_diag hr (by omega) hs' rcount rtag]
  refine Res.bind_eq_of_ok fun x hx => ?_
  obtain ⟨s1, r1⟩ := x
  obtain ⟨L', hp⟩ := (Res.sat_iff.1 (irecv_sat hr ht rbuf rcount rtag ha' (by omega))).2 _ hx
  have hr1 := hr.steps hp.steps
  have hd := irecv_dom (env := env) (m := s.mem) (s := s) (fun _ => rfl) rbuf rcount rtype src rtag comm _ hx
  dsimp only
  unfold Diag.MPI_Send MPI_Send
  rw [(ha.keep hr.nodup hr1.nodup hp.keeps).isend_diag hr1 (by have := hp.room; omega)
    ⟨hs.1, fun h i hi => by rw [hd]; exact hs.2 h i hi⟩ scount stag]

/-- C57: so every call does the same in every build. -/
theorem C57_call_partial (hw : WfReach env s L) (hm : Room L) {c : Call} (hc : c.Wf env L) (hs : c.Shows b s.mem) :
    c.execIn b env s = c.exec env s := by
  cases c with
  | isend p n t d g c => simp only [Call.execIn, Call.exec]; rw [(C57_posts_partial hw hm hc hs n g .null).1]
  | irsend p n t d g c => simp only [Call.execIn, Call.exec]; rw [(C57_posts_partial hw hm hc hs n g .null).2.1]
  | send p n t d g c => simp only [Call.execIn, Call.exec]; rw [(C57_posts_partial hw hm hc hs n g .null).2.2.1]
  | irecv p n t d g c => simp only [Call.execIn, Call.exec]; rw [(C57_posts_partial hw hm hc hs n g .null).2.2.2.1]
  | recv p n t d g c st => simp only [Call.execIn, Call.exec]; rw [(C57_posts_partial hw hm hc hs n g st).2.2.2.2]
  | sendrecv p n t d g p' n' t' d' g' c st =>
    simp only [Call.execIn, Call.exec]
    rw [C57_sendrecv_partial hw hm hc.1 hc.2 hs.1 hs.2]
  | _ => rfl

/-- C57: whole programs. -/
theorem C57_program_partial (hw : WfReach env s L) {cs : List Call} (hg : GoodRun b env s L cs) :
    execAllIn b env cs s = execAll env cs s := by
  induction hg with
  | nil => rfl
  | cons hm hc hs _ ih =>
    unfold execAllIn execAll
    rw [C57_call_partial hw hm hc hs]
    refine Res.bind_eq_of_ok fun s' hs' => ?_
    obtain ⟨hr, ht⟩ := hw.reach
    obtain ⟨L', h1, _⟩ := (Res.sat_iff.1 (Call.sat hr ht hm _ hc)).2 _ hs'
    exact ih _ _ hs' h1 (hw.call hm hc hs' h1)

/-- A program the theorem applies to: after MPI_Init and two sends, a receive of three characters into `mem0`. -/
example : WfReach env0 H3.s H3.L ∧ GoodRun ⟨true, true⟩ env0 H3.s H3.L [.recv 300 3 (-1) (-1) 5 1 (.obj ⟨0, 0, 0, 0⟩)] ∧
    (execAllIn ⟨true, true⟩ env0 [.recv 300 3 (-1) (-1) 5 1 (.obj ⟨0, 0, 0, 0⟩)] H3.s).returned = true :=
  ⟨H3_wf, .cons (by decide +kernel) ⟨IsType.simple (by decide) (by decide), Or.inl ⟨0, by decide +kernel⟩⟩
    ⟨by decide, fun _ => by decide +kernel⟩ (fun _ _ _ _ => .nil), by decide +kernel⟩

/-- There a message waits that the receive takes, and a later send with tag 5 finds no receive. -/
example : (H3.L.partner 0 .recv 5).isSome = true ∧ (H3.L.partner 0 .send 5).isSome = false := by decide +kernel

/-! ## Where it fails -/

/-- C57 fails: in every state, if a receive waits that matches, and the send buffer has fewer than 4 bytes - an
empty message with a null pointer, a message of one MPI_CHAR -, MPI_Isend in a DEBUG build does not return. -/
theorem C57_fails_debug_always (hr : Reach env s L) {comm : Int} {c : Nat} (hcm : (comm, Obj.comm c) ∈ L.objs)
    (hu : L.unmatched < 2147483647) {buf tag : Int} (hp : (L.partner c .send tag).isSome = true)
    (hm : ¬ (∀ i : Nat, i < 4 → (s.mem (buf + i)).isSome = true)) (info : Bool) (count dtype : Int) :
    (Diag.MPI_Isend ⟨info, true⟩ env s buf count dtype 0 tag comm).returned = false := by
  rw [C57_isend_partial hr hcm hu, if_pos ⟨rfl, rfl, hp, hm⟩]
  cases MPI_Isend env s buf count dtype 0 tag comm <;> rfl

/-- C57 fails with INFO for every posting on MPI_COMM_NULL, in every state: the number of the communicator is read
through the null pointer.  In the other builds one to or from MPI_PROC_NULL returns. -/
theorem C57_fails_info_always (debug : Bool) (env : Env) (s : Sys) (buf count dtype rank tag : Int) :
    Diag.MPI_Isend ⟨true, debug⟩ env s buf count dtype rank tag MPI_COMM_NULL = .ub .nullPtr ∧
    Diag.MPI_Irecv ⟨true, debug⟩ env s buf count dtype rank tag MPI_COMM_NULL = .ub .nullPtr ∧
    Diag.MPI_Isend ⟨false, debug⟩ env s buf count dtype MPI_PROC_NULL tag MPI_COMM_NULL =
      MPI_Isend env s buf count dtype MPI_PROC_NULL tag MPI_COMM_NULL ∧
    Diag.MPI_Irecv ⟨false, debug⟩ env s buf count dtype MPI_PROC_NULL tag MPI_COMM_NULL =
      MPI_Irecv env s buf count dtype MPI_PROC_NULL tag MPI_COMM_NULL :=
  ⟨rfl, rfl, isendNull_diag rfl env s buf count dtype tag _, irecvNull_diag rfl env s buf count dtype tag _⟩

end

/-- Memory where nothing is at addresses 0 to 15. -/
def memD : Mem := fun a => if 0 ≤ a ∧ a < 16 then none else some 0

/-- MPI_Init, an empty message sent from a null pointer and one received there. -/
def emptyMsg : List Call := [.init, .irecv 0 0 (-3) 0 5 1, .isend 0 0 (-3) 0 5 1]

/-- C57 fails: a legal program runs in the default build and with INFO, and has undefined behaviour with DEBUG. -/
theorem C57_fails_debug :
    (execAll env0 emptyMsg (Sys.start memD)).returned = true ∧
    (execAllIn ⟨true, false⟩ env0 emptyMsg (Sys.start memD)).returned = true ∧
    (execAllIn ⟨false, true⟩ env0 emptyMsg (Sys.start memD)).fate = some (.ub .memAccess) := by
  decide +kernel

/-- C57 fails: a message to MPI_PROC_NULL on MPI_COMM_NULL (an error in MPI that the library accepts) is undefined
behaviour with INFO. -/
theorem C57_fails_info :
    (execAll env0 [.init, .isend 0 0 (-3) MPI_PROC_NULL 5 MPI_COMM_NULL] (Sys.start memD)).returned = true ∧
    (execAllIn ⟨true, false⟩ env0 [.init, .isend 0 0 (-3) MPI_PROC_NULL 5 MPI_COMM_NULL] (Sys.start memD)).fate =
      some (.ub .nullPtr) := by
  decide +kernel

end MpiSerial
