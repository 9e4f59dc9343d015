import Verif.Spec.Wrong
import Verif.Proofs.Sys
import Verif.Props.Requests

/-!
# C75: wrong handles
-/

set_option autoImplicit false
set_option linter.unusedSimpArgs false

namespace MpiSerial

namespace Wrong

section
variable {env : Env} {s : Sys} {L : Ledger} {M : AbsLists Loc} {lst : Nat → Kind → Nat}

/-- A wrong handle leads nowhere, or to an object of another kind. -/
theorem ptr (hi : Inv s L M lst) {k : ObjKind} {h : Int} (hw : WrongHandle L k h) :
    (∃ s1, s.ptr h = .ok (s1, none) ∧ Inv s1 L M lst) ∨
    (s.ptr h = .ok (s, some (locOf h)) ∧ ∃ o, (h, o) ∈ L.objs ∧ o.sort ≠ k) := by
  rcases hw with rfl | ⟨o, hm, hk⟩
  · obtain ⟨s1, p, h1, hi1, -⟩ := hi.ptr_any (.inl rfl)
    cases p with
    | none => exact .inl ⟨s1, h1, hi1⟩
    | some l =>
      exfalso
      unfold Sys.ptr mpi_handle_to_ptr at h1
      rw [if_pos rfl] at h1
      cases h1
  · exact .inr ⟨Sys.ptr_live hi.hst (mem_keys hm), o, hm, hk⟩

/-- What is stored behind the handle of an object. -/
theorem data (hi : Inv s L M lst) {h : Int} {o : Obj} (hm : (h, o) ∈ L.objs) :
    (∃ c, dataAt s h = .comm c ∧ o.sort = .comm) ∨ (∃ r, dataAt s h = .req r ∧ o.sort = .req) ∨
    (∃ p, dataAt s h = .dtype p ∧ o.sort = .dtype) := by
  cases o with
  | comm c => obtain ⟨-, n, hn⟩ := hi.comm h c hm; exact .inl ⟨_, hn, rfl⟩
  | req i => obtain ⟨o, r, -, -, hr, -⟩ := hi.req h i hm; exact .inr (.inl ⟨r, hr, rfl⟩)
  | dtype t => obtain ⟨p, hp, -⟩ := hi.dtype h t hm; exact .inr (.inr ⟨_, hp, rfl⟩)

theorem comm_ub {H : List Int} {s' : Sys} (hi : Inv s L M lst) (hs' : HSt s'.handles H) {h : Int} {o : Obj} (hm : (h, o) ∈ L.objs)
    (hk : o.sort ≠ .comm) (hh : h ∈ H) (hd : dataAt s' h = dataAt s h) : s'.comm (some (locOf h)) = .ub .kind := by
  unfold Sys.comm; dsimp only; rw [hs'.deref hh, Res.ok_bind]
  rcases data hi hm with ⟨_, h1, h2⟩ | ⟨_, h1, -⟩ | ⟨_, h1, -⟩
  · exact absurd h2 hk
  all_goals
    rw [← hd] at h1; unfold dataAt at h1; rw [h1]

theorem req_ub (hi : Inv s L M lst) {h : Int} {o : Obj} (hm : (h, o) ∈ L.objs) (hk : o.sort ≠ .req) :
    s.req (some (locOf h)) = .ub .kind := by
  unfold Sys.req; dsimp only; rw [hi.hst.deref (mem_keys hm), Res.ok_bind]
  rcases data hi hm with ⟨_, h1, -⟩ | ⟨_, h1, h2⟩ | ⟨_, h1, -⟩
  · unfold dataAt at h1; rw [h1]
  · exact absurd h2 hk
  · unfold dataAt at h1; rw [h1]

theorem dtype_ub (hi : Inv s L M lst) {h : Int} (hw : WrongHandle L .dtype h) : ∃ u, handleToDatatype s h = .ub u := by
  have hp : ¬ h < 0 := by
    rcases hw with rfl | ⟨o, hm, -⟩
    · decide
    · have := (hi.hst.pos (mem_keys hm)).1; omega
  unfold handleToDatatype
  rw [if_neg hp]
  rcases ptr hi hw with ⟨s1, h1, -⟩ | ⟨h1, o, hm, hk⟩
  · exact ⟨.nullPtr, by rw [h1]; rfl⟩
  · refine ⟨.kind, ?_⟩
    rw [h1, Res.ok_bind]; dsimp only
    rw [hi.hst.deref (mem_keys hm), Res.ok_bind]
    rcases data hi hm with ⟨_, h2, -⟩ | ⟨_, h2, -⟩ | ⟨_, -, h2⟩
    · unfold dataAt at h2; rw [h2]
    · unfold dataAt at h2; rw [h2]
    · exact absurd h2 hk

/-- The call is undefined, or stopped because the handle table is full. -/
def Bad {α : Type} (L : Ledger) (r : Res α) : Prop := (∃ u, r = .ub u) ∨ (L.objs.length = 262143 ∧ r.aborted = true)

theorem Bad.bind {α β : Type} {r : Res α} (h : Bad L r) (f : α → Res β) : Bad L (r >>= f) := by
  rcases h with ⟨u, rfl⟩ | ⟨h1, h2⟩
  · exact .inl ⟨u, rfl⟩
  · cases r with
    | abort m => exact .inr ⟨h1, rfl⟩
    | _ => simp [Res.aborted] at h2

theorem isend_bad (hi : Inv s L M lst) {comm : Int} (hw : WrongHandle L .comm comm) (buf count dtype tag : Int) :
    Bad L (MPI_Isend env s buf count dtype 0 tag comm) := by
  unfold MPI_Isend
  have key : ∀ s1 p, s.ptr comm = .ok (s1, p) → Inv s1 L M lst →
      (p = none ∨ p = some (locOf comm) ∧ ∃ o, (comm, o) ∈ L.objs ∧ o.sort ≠ .comm) → Bad L (MPI_Isend env s buf count dtype 0 tag comm) := by
    intro s1 p h1 hi1 hp
    unfold MPI_Isend
    rw [h1, Res.ok_bind]; dsimp only
    rw [if_neg (by decide)]
    rcases allocReq_spec (env := env) hi1.hst with ⟨hlen, t, h, r0, ha, hst, hnew, hd, hold⟩ | ⟨hlen, ha⟩
    · rw [ha, Res.ok_bind]; dsimp only
      rw [if_neg (by decide)]
      rcases hp with rfl | ⟨rfl, o, hm, hk⟩
      · exact .inl ⟨.nullPtr, rfl⟩
      · exact .inl ⟨.kind, by
          rw [comm_ub (s' := { s1 with handles := t, clock := s1.clock + 1 }) hi1 hst hm hk (List.mem_cons_of_mem _ (mem_keys hm))
            (hold _ (mem_keys hm))]; rfl⟩
    · rw [List.length_map] at hlen
      exact Bad.bind (.inr ⟨hlen, ha⟩) _
  rcases ptr hi hw with ⟨s1, h1, hi1⟩ | ⟨h1, ho⟩
  · exact key s1 none h1 hi1 (.inl rfl)
  · exact key s _ h1 hi (.inr ⟨rfl, ho⟩)

theorem irecv_bad (hi : Inv s L M lst) {comm : Int} (hw : WrongHandle L .comm comm) {source : Int}
    (hd0 : source = 0 ∨ source = MPI_ANY_SOURCE) (buf count dtype tag : Int) : Bad L (MPI_Irecv env s buf count dtype source tag comm) := by
  have key : ∀ s1 p, s.ptr comm = .ok (s1, p) → Inv s1 L M lst →
      (p = none ∨ p = some (locOf comm) ∧ ∃ o, (comm, o) ∈ L.objs ∧ o.sort ≠ .comm) →
      Bad L (MPI_Irecv env s buf count dtype source tag comm) := by
    intro s1 p h1 hi1 hp
    unfold MPI_Irecv
    rw [h1, Res.ok_bind]; dsimp only
    rw [if_neg (by rcases hd0 with rfl | rfl <;> decide)]
    rcases allocReq_spec (env := env) hi1.hst with ⟨hlen, t, h, r0, ha, hst, hnew, hd, hold⟩ | ⟨hlen, ha⟩
    · rw [ha, Res.ok_bind]; dsimp only
      rw [Sys.modReq_live (s := { s1 with handles := t, clock := s1.clock + 1 }) hst (by simp) hd, Res.ok_bind]
      rw [if_neg (by rcases hd0 with rfl | rfl <;> decide)]
      rcases hp with rfl | ⟨rfl, o, hm, hk⟩
      · exact .inl ⟨.nullPtr, rfl⟩
      · have hp1 := hst.pos List.mem_cons_self
        have hp2 := hst.pos (List.mem_cons_of_mem h (mem_keys hm))
        have hne : comm ≠ h := fun he => hnew (he ▸ mem_keys hm)
        exact .inl ⟨.kind, by
          rw [comm_ub hi1 (HSt.put (s := { s1 with handles := t, clock := s1.clock + 1 }) hst h _) hm hk
            (List.mem_cons_of_mem _ (mem_keys hm))
            ((dataAt_put_ne _ (by omega) (by omega) hne).trans (hold _ (mem_keys hm)))]; rfl⟩
    · rw [List.length_map] at hlen
      exact Bad.bind (.inr ⟨hlen, ha⟩) _
  rcases ptr hi hw with ⟨s1, h1, hi1⟩ | ⟨h1, ho⟩
  · exact key s1 none h1 hi1 (.inl rfl)
  · exact key s _ h1 hi (.inr ⟨rfl, ho⟩)

theorem iprobe_bad (hi : Inv s L M lst) {comm : Int} (hw : WrongHandle L .comm comm) {source : Int}
    (hd0 : source = 0 ∨ source = MPI_ANY_SOURCE) (tag : Int) (st : StPtr) : Bad L (MPI_Iprobe s source tag comm st) := by
  unfold MPI_Iprobe
  rcases ptr hi hw with ⟨s1, h1, -⟩ | ⟨h1, o, hm, hk⟩
  · rw [h1, Res.ok_bind]; dsimp only
    rw [if_neg (by rcases hd0 with rfl | rfl <;> decide)]
    exact .inl ⟨.nullPtr, rfl⟩
  · rw [h1, Res.ok_bind]; dsimp only
    rw [if_neg (by rcases hd0 with rfl | rfl <;> decide), comm_ub hi hi.hst hm hk (mem_keys hm) rfl]
    exact .inl ⟨.kind, rfl⟩

theorem free_bad (hi : Inv s L M lst) {comm : Int} (hw : WrongHandle L .comm comm) : Bad L (MPI_Comm_free s comm) := by
  unfold MPI_Comm_free
  rcases ptr hi hw with ⟨s1, h1, -⟩ | ⟨h1, o, hm, hk⟩
  · rw [h1, Res.ok_bind]
    exact .inl ⟨.nullPtr, rfl⟩
  · rw [h1, Res.ok_bind]; dsimp only
    rw [comm_ub hi hi.hst hm hk (mem_keys hm) rfl]
    exact .inl ⟨.kind, rfl⟩

theorem test_bad (hi : Inv s L M lst) {r : Int} (hw : WrongHandle L .req r) (hr : r ≠ MPI_REQUEST_NULL) (st : StPtr) :
    Bad L (MPI_Test s r st) := by
  unfold MPI_Test
  rw [if_neg hr]
  rcases hw with h0 | ⟨o, hm, hk⟩
  · exact absurd h0 hr
  · rw [Sys.ptr_live hi.hst (mem_keys hm), Res.ok_bind]; dsimp only
    rw [req_ub hi hm hk]
    exact .inl ⟨.kind, rfl⟩

theorem type_bad (hi : Inv s L M lst) {h : Int} (hw : WrongHandle L .dtype h) : Bad L (typeOf env s h) := by
  obtain ⟨u, hu⟩ := dtype_ub hi hw
  unfold typeOf; rw [hu]; exact .inl ⟨u, rfl⟩

theorem copy_bad (hi : Inv s L M lst) {h : Int} (hw : WrongHandle L .dtype h) (a n b m t : Int) : Bad L (copy_data2 env s a n h b m t) := by
  obtain ⟨u, hu⟩ := dtype_ub hi hw
  unfold copy_data2; rw [hu]; exact .inl ⟨u, rfl⟩

end

end Wrong

open Wrong in
/-- C75 fails, always: in every reachable state a call that needs an object and is given the null handle or the handle of an
object of another kind is not refused with a message, but has undefined behaviour (unless a full handle table stops it
before it looks). -/
theorem C75_fails {env : Env} {s : Sys} {L : Ledger} (hr : Reach env s L) {c : Call} {k : ObjKind} {h : Int} (hc : c.Needs k h)
    (hw : WrongHandle L k h) :
    (∃ u, c.exec env s = .ub u) ∨ (L.objs.length = 262143 ∧ (c.exec env s).aborted = true) := by
  obtain ⟨M, lst, hi⟩ := hr.inv
  cases hc with
  | commFree => exact (free_bad hi hw).bind _
  | isend => exact (isend_bad hi hw _ _ _ _).bind _
  | irsend => exact ((isend_bad hi hw _ _ _ _).bind _).bind _
  | send => exact (isend_bad hi hw _ _ _ _).bind _
  | irecv _ _ _ _ _ hd => exact (irecv_bad hi hw hd _ _ _ _).bind _
  | recv _ _ _ _ _ _ hd => exact ((irecv_bad hi hw hd _ _ _ _).bind _).bind _
  | sendrecv _ _ _ _ _ _ _ _ _ _ _ hd => exact ((irecv_bad hi hw hd _ _ _ _).bind _).bind _
  | iprobe _ _ _ hd => exact (iprobe_bad hi hw hd _ _).bind _
  | probe _ _ _ hd => exact ((iprobe_bad hi hw hd _ _).bind _).bind _
  | test _ h0 => exact (test_bad hi hw h0 _).bind _
  | wait _ h0 => exact ((test_bad hi hw h0 _).bind _).bind _
  | typeContiguous => exact ((type_bad hi hw).bind _).bind _
  | typeHvector => exact ((type_bad hi hw).bind _).bind _
  | typeVector => exact ((type_bad hi hw).bind _).bind _
  | typeHindexed => exact ((type_bad hi hw).bind _).bind _
  | typeIndexed => exact ((type_bad hi hw).bind _).bind _
  | typeIndexedBlock => exact ((type_bad hi hw).bind _).bind _
  | typeCommit => obtain ⟨u, hu⟩ := dtype_ub hi hw; exact .inl ⟨u, by unfold Call.exec MPI_Type_commit; dsimp only; rw [hu]; rfl⟩
  | typeFree => obtain ⟨u, hu⟩ := dtype_ub hi hw; exact .inl ⟨u, by unfold Call.exec MPI_Type_free; dsimp only; rw [hu]; rfl⟩
  | typeExtent => exact ((type_bad hi hw).bind _).bind _
  | typeSize => exact ((type_bad hi hw).bind _).bind _
  | typeLb => exact ((type_bad hi hw).bind _).bind _
  | typeUb => exact ((type_bad hi hw).bind _).bind _
  | getElements => exact ((type_bad hi hw).bind _).bind _
  | pack => exact ((type_bad hi hw).bind _).bind _
  | packSize => exact ((type_bad hi hw).bind _).bind _
  | unpack => exact ((type_bad hi hw).bind _).bind _
  | gather _ _ _ _ _ _ ha =>
    have := copy_bad (env := env) hi hw
    unfold Call.exec MPI_Gather; dsimp only; rw [if_neg ha, if_neg (by decide), if_neg (by decide)]; exact this _ _ _ _ _
  | allgather _ _ _ _ _ _ ha =>
    unfold Call.exec MPI_Allgather; dsimp only; rw [if_neg ha]; exact copy_bad hi hw _ _ _ _ _
  | reduce =>
    unfold Call.exec MPI_Reduce; dsimp only; rw [if_neg (by decide)]; exact copy_bad hi hw _ _ _ _ _
  | allreduce _ _ _ _ _ ha =>
    unfold Call.exec MPI_Allreduce; dsimp only; rw [if_neg ha]; exact copy_bad hi hw _ _ _ _ _
  | scan => exact copy_bad hi hw _ _ _ _ _
  | alltoall => exact copy_bad hi hw _ _ _ _ _

/-- C75 fails for MPI_Request_free in another way: it gives back any live handle, whatever it denotes, and reports success.  The
object is lost: the number is not live any more. -/
theorem C75_fails_request_free {env : Env} {s : Sys} {L : Ledger} (hr : Reach env s L) {h : Int} {o : Obj} (hm : (h, o) ∈ L.objs) :
    ∃ s', MPI_Request_free s h = .ok (s', MPI_REQUEST_NULL) ∧ HSt s'.handles ((L.objs.map Prod.fst).erase h) := by
  obtain ⟨M, lst, hi⟩ := hr.inv
  obtain ⟨t, h1, h2, -⟩ := hi.hst.free (mem_keys hm)
  exact ⟨{ s with handles := t }, by unfold MPI_Request_free; rw [h1]; rfl, h2⟩

/-- C75 fails for the collectives and the constructors of communicators, which do not look at their communicator: given any number
instead - MPI_COMM_NULL, a request, a communicator freed long ago - they do exactly what they do with a communicator. -/
theorem C75_fails_ignored (env : Env) (s : Sys) (x : Int) {c c' : Call} (h : c.onComm x = some c') : c'.exec env s = c.exec env s := by
  cases c with
  | intercommCreate a b p d e =>
    unfold Call.onComm at h
    dsimp only at h
    split at h
    · cases h
    · next hp =>
      cases h
      unfold Call.exec MPI_Intercomm_create
      dsimp only
      rw [if_neg (fun hx => hp hx.2), if_neg (fun hx => hp hx.2)]
  | _ => first | cases h; rfl | cases h

/-- C75, the part that holds: MPI_REQUEST_NULL is accepted where MPI allows it.  MPI_Test and MPI_Wait report completion at once, with
the empty status, and nothing else happens; MPI_Request_free does nothing. -/
theorem C75_null_request_partial (s : Sys) (st : Status) :
    MPI_Test s MPI_REQUEST_NULL (.obj st) =
      .ok ⟨s, MPI_REQUEST_NULL, 1, .obj { st with MPI_SOURCE := MPI_ANY_SOURCE, MPI_TAG := MPI_ANY_TAG }⟩ ∧
    MPI_Test s MPI_REQUEST_NULL .null = .ok ⟨s, MPI_REQUEST_NULL, 1, .null⟩ ∧
    MPI_Wait s MPI_REQUEST_NULL (.obj st) =
      .ok (s, MPI_REQUEST_NULL, .obj { st with MPI_SOURCE := MPI_ANY_SOURCE, MPI_TAG := MPI_ANY_TAG }) ∧
    MPI_Wait s MPI_REQUEST_NULL .null = .ok (s, MPI_REQUEST_NULL, .null) ∧
    MPI_Request_free s MPI_REQUEST_NULL = .ok (s, MPI_REQUEST_NULL) :=
  ⟨rfl, rfl, rfl, rfl, rfl⟩

/-! ## Examples -/

/-- In a state with a few live objects: a message on a request handle, MPI_Wait for MPI_COMM_WORLD. -/
example : WrongHandle H8.L .comm 3 ∧ WrongHandle H8.L .req 1 ∧ WrongHandle H8.L .dtype 1 :=
  ⟨.inr ⟨.req 1, by decide +kernel, by decide⟩, .inr ⟨.comm 0, by decide +kernel, by decide⟩, .inr ⟨.comm 0, by decide +kernel, by decide⟩⟩

example : (∃ u, (Call.isend 100 1 (-1) 0 5 3).exec env0 H8.s = .ub u) ∨
    (H8.L.objs.length = 262143 ∧ ((Call.isend 100 1 (-1) 0 5 3).exec env0 H8.s).aborted = true) :=
  C75_fails H8_ok (.isend 100 1 (-1) 5 3) (.inr ⟨.req 1, by decide +kernel, by decide⟩)

/-- MPI_Wait for MPI_COMM_WORLD is undefined, MPI_Request_free takes it away. -/
example : (match (Call.wait 1 .null).exec env0 H8.s with | .ub .kind => true | _ => false) = true ∧
    (MPI_Request_free H8.s 1).returned = true := by decide +kernel

/-- A sum on MPI_COMM_NULL is done as on MPI_COMM_WORLD. -/
example (s : Sys) : (Call.allreduce 100 200 1 (-1) 0 MPI_COMM_NULL).exec env0 s = (Call.allreduce 100 200 1 (-1) 0 MPI_COMM_WORLD).exec env0 s :=
  C75_fails_ignored env0 s MPI_COMM_NULL rfl

end MpiSerial
