import Verif.Proofs.Release
import Verif.Spec.Fate

/-!
# Releasing objects while communication is in progress (C54)

The MPI standard lets a program free a request or a datatype that a pending operation still uses: the
object goes away when the operation is done.  The library releases the storage at once (req.c:285-290,
type.c:814-823), while its queues keep the address of the request record and the record keeps the datatype
handle.
-/

set_option linter.unusedSimpArgs false
set_option autoImplicit false

namespace MpiSerial

section
variable {env : Env} {s s' : Sys} {L L' : Ledger}

/-- C54, MPI_Request_free.  Partial: the operation of the request must not be pending
(`C54_fails_request`); the types of the receives in progress are live. -/
theorem C54_request_partial (hr : Reach env s L) {h : Int} {i : Nat} {o : Op} (hm : (h, Obj.req i) ∈ L.objs)
    (ho : L.ops[i]? = some o) (hp : o.st ≠ .pending)
    (hT : ∀ p, InFlight L p → p.kind = .recv → IsType env L p.dtype) :
    ∃ s', MPI_Request_free s h = .ok (s', MPI_REQUEST_NULL) ∧ GoesOn env s L s' (L.release h) := by
  obtain ⟨M, lst, hi⟩ := hr.inv
  obtain ⟨t, c1, c2, c3⟩ := hi.hst.free (mem_keys hm)
  obtain ⟨t', d1, d2⟩ := hi.release_req hm ho hp
  rw [c1] at d1
  cases d1
  refine ⟨{ s with handles := t }, by unfold MPI_Request_free; rw [c1]; rfl, ?_⟩
  refine goesOn hi d2 rfl rfl (fun e he => (mem_release.1 he).1) ?_ (List.length_filter_le _ _) (fun h' => c3 _) ?_
  · intro h' c hc
    refine mem_release.2 ⟨hc, fun he => ?_⟩
    have := hi.uniq hm (he ▸ hc)
    cases this
  · intro p hpm hk hps hc
    obtain ⟨u, hu⟩ := hT p ⟨hpm, hps, hc⟩ hk
    refine ⟨u, ?_⟩
    rcases (desc_iff hi.hst.nodup).1 hu with h1 | ⟨h1, h2⟩
    · exact (desc_iff d2.hst.nodup).2 (Or.inl h1)
    · refine (desc_iff d2.hst.nodup).2 (Or.inr ⟨h1, mem_release.2 ⟨h2, fun he => ?_⟩⟩)
      have := hi.uniq hm (he ▸ h2)
      cases this

/-- C54, MPI_Type_free.  Partial: no *receive* in progress uses the type (`C54_fails_type`).  A message in
progress may use it: its receiver does not look at the sender's type (recv.c:81). -/
theorem C54_type_partial (hr : Reach env s L) {h : Int} {t : Typestruct} (hm : (h, Obj.dtype t) ∈ L.objs)
    (hT : ∀ p, InFlight L p → p.kind = .recv → IsType env L p.dtype ∧ p.dtype ≠ h) :
    ∃ s', MPI_Type_free s h = .ok s' ∧ GoesOn env s L s' (L.release h) := by
  obtain ⟨M, lst, hi⟩ := hr.inv
  obtain ⟨s', h1, h2, h3, h4⟩ := typeFree_data hi hm
  refine ⟨s', h1, ?_⟩
  refine goesOn hi h3 h2 rfl (fun e he => (mem_release.1 he).1) ?_ (List.length_filter_le _ _) h4 ?_
  · intro h' c hc
    refine mem_release.2 ⟨hc, fun he => ?_⟩
    have := hi.uniq hm (he ▸ hc)
    cases this
  · intro p hpm hk hps hc
    obtain ⟨⟨u, hu⟩, hne⟩ := hT p ⟨hpm, hps, hc⟩ hk
    refine ⟨u, ?_⟩
    rcases (desc_iff hi.hst.nodup).1 hu with h1 | ⟨h1, h2⟩
    · exact (desc_iff h3.hst.nodup).2 (Or.inl h1)
    · exact (desc_iff h3.hst.nodup).2 (Or.inr ⟨h1, mem_release.2 ⟨h2, hne⟩⟩)

end

/-- C54 fails for the request of a pending receive: the next communicator takes its storage, and the
message arriving for the receive uses that communicator as a request record.  Without MPI_Request_free the
message is delivered. -/
theorem C54_fails_request :
    (do let (s, r) ← MPI_Irecv env0 H1.s 300 1 (-1) 0 5 1
        let (s, _) ← MPI_Request_free s r
        let (s, _) ← MPI_Comm_dup s 1
        MPI_Isend env0 s 100 1 (-1) 0 5 1).fate = some (.ub .kind) ∧
    ((do let (s, _) ← MPI_Irecv env0 H1.s 300 1 (-1) 0 5 1
         let (s, _) ← MPI_Comm_dup s 1
         let (s, _) ← MPI_Isend env0 s 100 1 (-1) 0 5 1
         return s.mem 300).getD none) = some 1 := by
  exact ⟨by decide +kernel, by decide +kernel⟩

/-- C54 fails for the request of a pending send: the next message takes its storage, and the first message
is never delivered (the receive for its tag is still not complete). -/
theorem C54_fails_request_send :
    ((do let (s, r) ← MPI_Isend env0 H1.s 100 1 (-1) 0 5 1
         let (s, _) ← MPI_Request_free s r
         let (s, _) ← MPI_Isend env0 s 101 1 (-1) 0 9 1
         let (s, r) ← MPI_Irecv env0 s 300 1 (-1) 0 5 1
         let t ← MPI_Test s r .null
         return t.flag).getD 7) = 0 ∧
    ((do let (s, _) ← MPI_Isend env0 H1.s 100 1 (-1) 0 5 1
         let (s, _) ← MPI_Isend env0 s 101 1 (-1) 0 9 1
         let (s, r) ← MPI_Irecv env0 s 300 1 (-1) 0 5 1
         let t ← MPI_Test s r .null
         return t.flag).getD 7) = 1 := by
  exact ⟨by decide +kernel, by decide +kernel⟩

/-- C54 fails for the type of a pending receive: the message's own request takes the slot of the type.
Without MPI_Type_free the message is delivered (the two bytes 1, 2, two bytes apart). -/
theorem C54_fails_type :
    (do let (s, _) ← MPI_Irecv env0 V2.s 300 1 2 0 5 1
        let s ← MPI_Type_free s 2
        MPI_Isend env0 s 100 2 (-1) 0 5 1).fate = some (.ub .kind) ∧
    ((do let (s, _) ← MPI_Irecv env0 V2.s 300 1 2 0 5 1
         let (s, _) ← MPI_Isend env0 s 100 2 (-1) 0 5 1
         return (s.mem 300, s.mem 302)).getD (none, none)) = (some 1, some 2) := by
  exact ⟨by decide +kernel, by decide +kernel⟩

/-! ## Instances -/

/-- A request whose operation is matched is freed while a receive is pending. -/
example : ∃ s', MPI_Request_free H5.s 2 = .ok (s', MPI_REQUEST_NULL) ∧ GoesOn env0 H5.s H5.L s' (H5.L.release 2) := by
  have hi : ∃ i, (2, Obj.req i) ∈ H5.L.objs ∧ (H5.L.ops[i]?.map Op.st).any (· ≠ .pending) = true := ⟨0, by decide +kernel⟩
  have hr : Reach env0 H5.s H5.L := H5_ok
  have hT : ∀ p ∈ H5.L.ops, (H5.L.desc env0.cfg p.dtype).isSome = true := by decide +kernel
  obtain ⟨i, h1, h2⟩ := hi
  cases ho : H5.L.ops[i]? with
  | none => rw [ho] at h2; cases h2
  | some o =>
    rw [ho] at h2
    exact C54_request_partial hr h1 ho (by simpa using h2) fun p hp _ => Option.isSome_iff_exists.1 (hT p hp.1)

/-- The type of a message in progress is freed. -/
example : ∃ s', MPI_Type_free V3.s 2 = .ok s' ∧ GoesOn env0 V3.s V3.L s' (V3.L.release 2) := by
  have hr : Reach env0 V3.s V3.L := V3_ok
  have hT : ∀ p ∈ V3.L.ops, p.kind = .recv → False := by decide +kernel
  have hm : ∃ t, V3.L.desc env0.cfg 2 = some t := Option.isSome_iff_exists.1 (by decide +kernel)
  obtain ⟨M, lst, hi⟩ := hr.inv
  obtain ⟨t, ht⟩ := hm
  rcases (desc_iff hi.hst.nodup).1 ht with ⟨h, _⟩ | ⟨_, h⟩
  · omega
  · exact C54_type_partial hr h fun p hp hk => (hT p hp.1 hk).elim

end MpiSerial
