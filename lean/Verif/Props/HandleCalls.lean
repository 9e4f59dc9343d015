import Verif.Props.Handles
import Verif.Props.Match

/-!
# C01, C02 at the level of MPI calls

`Props/Handles.lean` treats the handle table by itself.  Here the same two claims for histories of MPI
calls: which calls take and give back handles, and what else they write, is part of the claim.
-/

set_option autoImplicit false
set_option linter.unusedSimpArgs false

namespace MpiSerial

variable {env : Env} {s s' : Sys} {L L' : Ledger}

/-- **C01**, MPI calls: the handles that the calls have returned and that have not been released are
pairwise different, positive, and denote different storage. -/
theorem C01_calls (hr : Reach env s L) :
    (L.objs.map Prod.fst).Nodup ∧
    (∀ h o, (h, o) ∈ L.objs → 0 < h ∧ h ≤ INT_MAX ∧ h ≠ MPI_COMM_NULL ∧ h ≠ MPI_REQUEST_NULL ∧
      ∃ l, mpi_handle_to_ptr s.handles h = .ok (s.handles, some l)) ∧
    (∀ h o h' o', (h, o) ∈ L.objs → (h', o') ∈ L.objs → h ≠ h' → ∀ l l',
      mpi_handle_to_ptr s.handles h = .ok (s.handles, some l) →
      mpi_handle_to_ptr s.handles h' = .ok (s.handles, some l') → l ≠ l') := by
  obtain ⟨M, lst, hi⟩ := hr.inv
  refine ⟨hi.hst.nodup, ?_, ?_⟩
  · intro h o hm
    have := hi.hst.pos (mem_keys hm)
    exact ⟨by omega, by omega, by omega, by omega, _, hi.hst.lookup (mem_keys hm)⟩
  · intro h o h' o' hm hm' hne l l' h1 h2
    rw [hi.hst.lookup (mem_keys hm)] at h1
    rw [hi.hst.lookup (mem_keys hm')] at h2
    cases h1; cases h2
    have := hi.hst.pos (mem_keys hm)
    have := hi.hst.pos (mem_keys hm')
    exact fun e => hne (locOf_inj (by omega) (by omega) e)

/-- A history of calls none of which releases the handle `h` (MPI_Finalize releases every handle). -/
inductive Keeping (env : Env) (h : Int) : Sys → Ledger → Sys → Ledger → Prop
  | refl {s : Sys} {L : Ledger} : Keeping env h s L s L
  | step {s s' s'' : Sys} {L L' L'' : Ledger} : Keeping env h s L s' L' → Step env s' L' s'' L'' →
      (∃ o, (h, o) ∈ L''.objs) → Keeping env h s L s'' L''

/-- The object `o'` is `o`, a datatype having possibly been committed meanwhile. -/
def Obj.Same : Obj → Obj → Prop
  | .dtype t, o' => o' = .dtype t ∨ o' = .dtype { t with committed := 1 }
  | o, o' => o' = o

theorem Obj.Same.refl (o : Obj) : o.Same o := by
  cases o <;> simp [Obj.Same]

theorem Obj.Same.trans {a b c : Obj} (h1 : a.Same b) (h2 : b.Same c) : a.Same c := by
  cases a with
  | dtype t =>
    rcases h1 with rfl | rfl
    · exact h2
    · rcases h2 with rfl | rfl
      · exact Or.inr rfl
      · exact Or.inr rfl
  | _ => simp only [Obj.Same] at h1; subst h1; exact h2

theorem Step.same (hst : Step env s L s' L') {h : Int} {o o' : Obj} (hm : (h, o) ∈ L.objs)
    (hm' : (h, o') ∈ L'.objs) (hn : (L'.objs.map Prod.fst).Nodup) (hn0 : (L.objs.map Prod.fst).Nodup) : o.Same o' := by
  have sub : (h, o) ∈ L'.objs → o.Same o' := fun hx => by
    rw [nodup_fst_unique hn hm' hx]; exact .refl o
  have rel : (h, o') ∈ L.objs → o.Same o' := fun hx => by
    rw [nodup_fst_unique hn0 hx hm]; exact .refl o
  cases hst with
  | memory => exact sub hm
  | init => exact sub (by simp [Ledger.addComm, hm])
  | finalize => simp [Ledger.finalize] at hm'
  | comm => refine sub ?_; simp only [Ledger.noteComm]; split <;> simp [Ledger.addComm, hm]
  | commFree => exact rel (by simp only [Ledger.freeComm, Ledger.release, List.mem_filter] at hm'; exact hm'.1)
  | isend => refine sub ?_; simp only [Ledger.post]; split <;> simp [hm]
  | irecv => refine sub ?_; simp only [Ledger.post]; split <;> simp [hm]
  | isendNull => exact sub (by simp [Ledger.postNull, hm])
  | irecvNull => exact sub (by simp [Ledger.postNull, hm])
  | test =>
    refine rel ?_
    split at hm'
    · exact hm'
    · simp only [Ledger.release, List.mem_filter] at hm'; exact hm'.1
  | requestFree => exact rel (by simp only [Ledger.release, List.mem_filter] at hm'; exact hm'.1)
  | newType => exact sub (by simp [Ledger.addType, hm])
  | typeFree => exact rel (by simp only [Ledger.release, List.mem_filter] at hm'; exact hm'.1)
  | @commit h' =>
    simp only [Ledger.commit, List.mem_map] at hm'
    obtain ⟨e, he, hx⟩ := hm'
    split at hx
    · split at hx
      · cases hx
        rw [← nodup_fst_unique hn0 he hm]; exact Or.inr rfl
      · cases hx
        rw [← nodup_fst_unique hn0 he hm]; exact Or.inl rfl
    · subst hx; rw [← nodup_fst_unique hn0 he hm]; exact .refl _

/-- **C02**, MPI calls: as long as it is not released, a handle resolves to the same address and denotes
the same communicator, the request of the same operation, or the datatype with the same descriptor (up to
being committed), whatever calls are made.  The descriptor is the one found in the library's storage. -/
theorem C02_calls {h : Int} {o : Obj} (hr : Reach env s L) (hk : Keeping env h s L s' L') (hm : (h, o) ∈ L.objs) :
    (∃ o', (h, o') ∈ L'.objs ∧ o.Same o') ∧
    (∃ l, mpi_handle_to_ptr s.handles h = .ok (s.handles, some l) ∧
      mpi_handle_to_ptr s'.handles h = .ok (s'.handles, some l)) ∧
    (∀ t, o = .dtype t → ∃ p p', dataAt s h = .dtype (.heap p) ∧ s.theap p = some t ∧
      dataAt s' h = .dtype (.heap p') ∧
      (s'.theap p' = some t ∨ s'.theap p' = some { t with committed := 1 })) := by
  have key : Reach env s' L' ∧ ∃ o', (h, o') ∈ L'.objs ∧ o.Same o' := by
    induction hk with
    | refl => exact ⟨hr, o, hm, .refl o⟩
    | step _ hst hex ih =>
      obtain ⟨h1, o1, h2, h3⟩ := ih hr hm
      obtain ⟨o2, h4⟩ := hex
      have h5 := Reach.step h1 hst
      exact ⟨h5, o2, h4, h3.trans (hst.same h2 h4 (C01_calls h5).1 (C01_calls h1).1)⟩
  obtain ⟨hr', o', hm', hs⟩ := key
  obtain ⟨M, lst, hi⟩ := hr.inv
  obtain ⟨M', lst', hi'⟩ := hr'.inv
  refine ⟨⟨o', hm', hs⟩, ⟨_, hi.hst.lookup (mem_keys hm), hi'.hst.lookup (mem_keys hm')⟩, ?_⟩
  rintro t rfl
  obtain ⟨p, h1, h2⟩ := hi.dtype h t hm
  rcases hs with rfl | rfl
  · obtain ⟨p', h3, h4⟩ := hi'.dtype h _ hm'
    exact ⟨p, p', h1, h2, h3, .inl h4⟩
  · obtain ⟨p', h3, h4⟩ := hi'.dtype h _ hm'
    exact ⟨p, p', h1, h2, h3, .inr h4⟩

/-- Handle 6 (a duplicate of MPI_COMM_WORLD) in a history that goes on with three more calls. -/
example : Reach env0 H6.s H6.L ∧ (6, Obj.comm 1) ∈ H6.L.objs ∧ Keeping env0 6 H8.s H8.L H9.s H9.L ∧
    (6, Obj.comm 1) ∈ H8.L.objs :=
  ⟨H6_ok, by decide +kernel, .step .refl H9_step ⟨.comm 1, by decide +kernel⟩, by decide +kernel⟩

end MpiSerial
