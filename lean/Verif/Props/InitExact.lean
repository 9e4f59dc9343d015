import Verif.Props.Comms
import Verif.Props.Machine

/-!
# C04: when MPI_Init succeeds
-/

set_option autoImplicit false

namespace MpiSerial

/-- C04, exactly: after any history of well-formed calls (`Sim` holds after every one, by C62_call) MPI_Init returns if
and only if 1 is the number on top of the stack of free handle numbers, that is, 1 was never given out since the
program started or MPI_Finalize was called, or it is the number released last among those not given out again.
Otherwise it aborts. -/
theorem C04_exact {env : Env} {s : Sys} {M : Mach} (h : Sim env s M) (hr : Room M.L) :
    if M.pool.free.head? = some MPI_COMM_WORLD then ∃ s', MPI_Init s = .ok s' ∧ WorldReady env s M.L s'
    else (MPI_Init s).aborted = true := by
  obtain ⟨_, _, hi⟩ := h.reach.inv
  have htake : ∀ P' : Pool, M.pool.take = some (1, P') → M.pool.free.head? = some 1 := by
    intro P' ht
    generalize M.pool = P at ht
    obtain ⟨fl, b⟩ := P
    cases fl with
    | nil =>
      simp only [Pool.take] at ht
      split at ht
      · cases ht
      · simp only [Option.some.injEq, Prod.mk.injEq] at ht; omega
    | cons a fl =>
      simp only [Pool.take, Option.some.injEq, Prod.mk.injEq] at ht
      simp [ht.1]
  have htop : M.pool.free.head? = some 1 → ∃ P', M.pool.take = some (1, P') := by
    intro ht
    generalize M.pool = P at ht
    obtain ⟨fl, b⟩ := P
    cases fl with
    | nil => cases ht
    | cons a fl =>
      simp only [List.head?_cons, Option.some.injEq] at ht
      subst ht
      exact ⟨⟨fl, b⟩, rfl⟩
  rcases init_cases h.reach ⟨hr.1, hr.2.1⟩ (by have := hr.2.2; omega) with ⟨h1, fr, h2⟩ | ⟨s', h1, h2, h3⟩
  · rw [if_neg]
    · exact h1
    · intro ht
      obtain ⟨P', hP⟩ := htop ht
      rcases PoolRel.alloc hi.hst h.pool fr with ⟨_, t, a, P2, a1, a2, _⟩ | ⟨_, a2, _⟩
      · rw [hP] at a2
        cases a2
        exact h2 _ _ a1
      · rw [hP] at a2; cases a2
  · rw [if_pos]
    · exact ⟨s', h1, h2⟩
    · have hal : ∃ t l, mpi_alloc_handle s.handles Slot.raw = .ok (t, 1, l) := by
        unfold MPI_Init at h1
        obtain ⟨⟨s1, a⟩, h4, h5⟩ := Res.bind_eq_ok.1 h1
        dsimp only at h5
        by_cases ha : a = MPI_COMM_WORLD
        · unfold mpi_comm_new at h4
          obtain ⟨⟨t, b, l⟩, g1, g2⟩ := Res.bind_eq_ok.1 h4
          obtain ⟨_, _, g2⟩ := Res.bind_eq_ok.1 g2
          obtain ⟨_, _, g2⟩ := Res.bind_eq_ok.1 g2
          obtain ⟨_, _, g2⟩ := Res.bind_eq_ok.1 g2
          simp only [Res.pure_eq, Res.ok.injEq, Prod.mk.injEq] at g2
          have hb : b = 1 := g2.2.trans ha
          subst hb
          exact ⟨t, l, g1⟩
        · rw [if_pos ha] at h5; cases h5
      obtain ⟨t, l, e⟩ := hal
      rcases PoolRel.alloc hi.hst h.pool Slot.raw with ⟨_, t, a, P2, a1, a2, _⟩ | ⟨_, _, a3⟩
      · rw [e] at a1
        cases a1
        exact htake _ a2
      · rw [e] at a3; cases a3

/-- The machine before MPI_Init with handles 1 and 2 live, and with 1 released again (`C04_fails_released`): the hypotheses
are met on both sides. -/
example : (Mach.start mem0).pool.free.head? = some 1 ∧ Room (Mach.start mem0).L ∧
    (((Mach.start mem0).next (.commDup 1)).1.pool.free.head? = some 2) := by
  decide +kernel

/-- A communicator made before MPI_Init: the library and the machine are in step (`Sim`), and MPI_Init aborts. -/
example : ∃ s', Sim env0 s' ((Mach.start mem0).next (.commDup 1)).1 ∧ (MPI_Init s').aborted = true := by
  have hret : ((Call.commDup 1).answer env0 (Sys.start mem0)).returned = true := by decide +kernel
  cases ha : (Call.commDup 1).answer env0 (Sys.start mem0) with
  | ok p =>
    obtain ⟨s', o⟩ := p
    obtain ⟨_, h2⟩ := C62_call (.start env0 mem0) (by decide +kernel) (c := .commDup 1) trivial
    obtain ⟨M', o', g1, _, _, _, _, g6⟩ := h2 s' o ha
    have hM : ((Mach.start mem0).next (.commDup 1)).1 = M' := by unfold Mach.next; rw [g1]; rfl
    refine ⟨s', hM ▸ g6, ?_⟩
    have := C04_exact (M := ((Mach.start mem0).next (.commDup 1)).1) (hM ▸ g6) (by decide +kernel)
    rwa [if_neg (by decide +kernel)] at this
  | _ => rw [ha] at hret; cases hret

end MpiSerial
