import Verif.Proofs.Demo
import Verif.Props.Match
import Verif.Props.Handles
import Verif.Props.Cart

/-!
# MPI_Init, communicator constructors, MPI_Initialized (C04, C37, C43)
-/

set_option autoImplicit false
set_option linter.unusedSimpArgs false

namespace MpiSerial

variable {env : Env} {s s' : Sys} {L L' : Ledger}

/-- A communicator without pending traffic, as seen through the API: a probe for any tag finds no
message, and a message sent to it finds no receive. -/
structure Quiet (env : Env) (s : Sys) (h : Int) : Prop where
  noMessage : ∀ (src tag : Int) (st : StPtr), src = 0 ∨ src = MPI_ANY_SOURCE →
    ∃ s' : Sys, MPI_Iprobe s src tag h st = .ok (s', 0, st)
  noReceive : ∀ (buf count dtype tag r : Int) (s' : Sys),
    MPI_Isend env s buf count dtype 0 tag h = .ok (s', r) → Incomplete s' r

theorem partner_fresh {M : AbsLists Loc} {lst : Nat → Kind → Nat} (hi : Inv s L M lst) (k : Kind) (tag : Int) :
    L.partner L.ncomms k tag = none := by
  refine noOpen_partner (fun o ho hop => ?_)
  have := hi.ocid o ho hop.2.2
  have := hop.2.1
  omega

/-- A communicator just created is quiet. -/
theorem quiet_new {M M' : AbsLists Loc} {lst lst' : Nat → Kind → Nat} {h : Int} (hi0 : Inv s L M lst)
    (hi : Inv s' L' M' lst') (hops : L'.ops = L.ops) (hm : (h, Obj.comm L.ncomms) ∈ L'.objs)
    (hu : L.unmatched < 2147483647) : Quiet env s' h := by
  have hp : ∀ k tag, L'.partner L.ncomms k tag = none := fun k tag => by
    have := partner_fresh hi0 k tag
    unfold Ledger.partner at this ⊢
    rw [hops]; exact this
  have hu' : L'.unmatched < 2147483647 := by unfold Ledger.unmatched at hu ⊢; rw [hops]; exact hu
  constructor
  · intro src tag st hsrc
    rcases iprobe_spec hi hm hsrc tag st with ⟨_, h2⟩ | ⟨j, o, h2, _⟩
    · exact ⟨s', h2⟩
    · rw [hp] at h2; simp at h2
  · intro buf count dtype tag r s'' hok
    obtain ⟨_, _, _, h2⟩ := posted hi hm (isend_spec (env := env) hi hm hu' buf count dtype tag) hok
    rcases h2 with ⟨_, _, h4⟩ | ⟨j, o, h2, _⟩
    · exact h4
    · rw [hp] at h2; simp at h2

/-! ## C37 -/

/-- Room for one more communicator: fewer than 2^31-1 were ever created (the `int` counter `num` of
comm.c:17 does not overflow) and fewer than 2^30-1 are not freed (list.c:21 `headcount`). -/
def CommRoom (L : Ledger) : Prop := L.ncomms < 2147483647 ∧ L.ncomms - L.nfreed < 1073741823

/-- **C37.** Exactly when a constructor returns MPI_COMM_NULL: dup and cart_create never do; create for
the null or empty group; split for color MPI_UNDEFINED; intercomm_create for two null communicators. -/
theorem C37_null (hr : Reach env s L) (hroom : CommRoom L) :
    (∀ (c : Int) (s' : Sys), MPI_Comm_dup s c ≠ .ok (s', 0)) ∧
    (∀ (c n : Int) (dims : List Int) (s' : Sys), MPI_Cart_create s c n dims ≠ .ok (s', 0)) ∧
    (∀ c g : Int, (∃ s' : Sys, MPI_Comm_create s c g = .ok (s', 0)) ↔ g = MPI_GROUP_NULL ∨ g = MPI_GROUP_EMPTY) ∧
    (∀ c color key : Int, (∃ s' : Sys, MPI_Comm_split s c color key = .ok (s', 0)) ↔ color = MPI_UNDEFINED) ∧
    (∀ a b c d e : Int, (∃ s' : Sys, MPI_Intercomm_create s a b c d e = .ok (s', 0)) ↔
      a = MPI_COMM_NULL ∧ c = MPI_COMM_NULL) := by
  obtain ⟨M, lst, hi⟩ := hr.inv
  have key : ∀ s' : Sys, mpi_comm_new s ≠ .ok (s', 0) := by
    intro s' hx
    rcases commNew_spec hi hroom.1 hroom.2 with ⟨_, ha⟩ | ⟨_, t, s1, h, M', lst', fr, ha, _, _, _, hi'⟩
    · rw [hx] at ha; simp [Res.aborted] at ha
    · rw [ha] at hx
      have hp := hi'.hst.pos (h := h) (by simp [Ledger.addComm])
      simp only [Res.ok.injEq, Prod.mk.injEq] at hx
      omega
  refine ⟨fun _ s' => key s', ?_, ?_, ?_, ?_⟩
  · intro c n dims s' hx
    unfold MPI_Cart_create MPI_Comm_dup at hx
    cases hc : cartCheck dims n.toNat 0 with
    | ok a => rw [hc, Res.ok_bind] at hx; exact key s' hx
    | _ => rw [hc] at hx; simp at hx
  · intro c g
    unfold MPI_Comm_create
    split
    · next h => simp [h]
    · next h => simp [h, key]
  · intro c color k
    unfold MPI_Comm_split
    split
    · next h => simp [h]
    · next h => simp [h, key]
  · intro a b c d e
    unfold MPI_Intercomm_create MPI_Comm_dup
    split
    · next h => simp [h]
    · next h => simp [h, key]

/-- **C37.** A constructor that returns something else returns a new communicator: positive handle
different from every live handle, no pending traffic, no effect on user memory; the history goes on
with it as a live communicator. -/
theorem C37_fresh (hr : Reach env s L) (hroom : CommRoom L) (hu : L.unmatched < 2147483647)
    {r : Res (Sys × Int)} (hc : CommCall s r) {h : Int} (hok : r = .ok (s', h)) (h0 : h ≠ MPI_COMM_NULL) :
    0 < h ∧ h ∉ L.objs.map Prod.fst ∧ Quiet env s' h ∧ s'.mem = s.mem ∧ Reach env s' (L.addComm h) ∧
      (h, Obj.comm L.ncomms) ∈ (L.addComm h).objs := by
  obtain ⟨M, lst, hi⟩ := hr.inv
  have hstep : Reach env s' (L.noteComm h) := hr.step (.comm hroom.1 hroom.2 hc hok)
  rcases hc.eq (by rw [hok]; rfl) with he | he
  · rw [hok] at he
    simp only [Res.ok.injEq, Prod.mk.injEq] at he
    exact absurd he.2 h0
  · rcases commNew_spec hi hroom.1 hroom.2 with ⟨_, ha⟩ | ⟨_, t, s1, h', M', lst', fr, ha, hm, _, hn, hi'⟩
    · rw [← he, hok] at ha; simp [Res.aborted] at ha
    · rw [← he, hok] at ha
      simp only [Res.ok.injEq, Prod.mk.injEq] at ha
      obtain ⟨rfl, rfl⟩ := ha
      refine ⟨(hi'.hst.pos (h := h) (by simp [Ledger.addComm])).1, hn, quiet_new hi hi' rfl (by simp [Ledger.addComm]) hu, hm, ?_, by simp [Ledger.addComm]⟩
      unfold Ledger.noteComm at hstep
      rw [if_neg h0] at hstep
      exact hstep

/-- **C37.** The constructors never fail for another reason than a full handle table (262143 live
handles) or, for cart_create, a dimension above 1; with a full table they abort unless they return
MPI_COMM_NULL. -/
theorem C37_total (hr : Reach env s L) (hroom : CommRoom L) {r : Res (Sys × Int)} (hc : CommCall s r)
    (hcart : ∀ (c n : Int) (dims : List Int), r = MPI_Cart_create s c n dims →
      n ≤ dims.length ∧ ∀ d : Int, d ∈ dims.take n.toNat → d ≤ 1) :
    (L.objs.length < 262143 → r.returned = true) ∧
    (L.objs.length = 262143 → r.aborted = true ∨ r = .ok (s, MPI_COMM_NULL)) := by
  obtain ⟨M, lst, hi⟩ := hr.inv
  have he : r = .ok (s, MPI_COMM_NULL) ∨ r = mpi_comm_new s := by
    cases hc with
    | dup c => exact Or.inr rfl
    | create c g => unfold MPI_Comm_create; split <;> simp
    | split c a b => unfold MPI_Comm_split; split <;> simp
    | intercomm a b c d e => unfold MPI_Intercomm_create MPI_Comm_dup; split <;> simp
    | cart c n dims =>
      right
      obtain ⟨hl, hd⟩ := hcart c n dims rfl
      have := (C40_create s c n.toNat dims (by omega)).1 hd
      unfold MPI_Cart_create at this ⊢
      simp only [Int.toNat_natCast] at this
      exact this
  rcases he with he | he
  · rw [he]; exact ⟨fun _ => rfl, fun _ => Or.inr rfl⟩
  · rcases commNew_spec hi hroom.1 hroom.2 with ⟨hl, ha⟩ | ⟨hl, t, s1, h', M', lst', fr, ha, hm, _, hn, hi'⟩
    · rw [he]; exact ⟨fun _ => by omega, fun _ => Or.inl ha⟩
    · rw [he, ha]; exact ⟨fun _ => rfl, fun _ => by omega⟩

/-- **C37.** Every communicator has size 1 and rank 0. -/
theorem C37_singleton (c : Int) : MPI_Comm_size c = 1 ∧ MPI_Comm_rank c = 0 := ⟨rfl, rfl⟩

/-- In the history `H8` (eight live handles, pending traffic on world) there is room; each constructor
returns handle 9, and intercomm_create with one null communicator is not null. -/
example : CommRoom H8.L ∧ H8.L.unmatched < 2147483647 ∧
    ((MPI_Comm_create H8.s 1 1).getD (H8.s, 0)).2 = 9 ∧ ((MPI_Comm_split H8.s 1 0 5).getD (H8.s, 0)).2 = 9 ∧
    ((MPI_Cart_create H8.s 1 2 [1, 1]).getD (H8.s, 0)).2 = 9 ∧
    ((MPI_Intercomm_create H8.s 0 0 1 0 0).getD (H8.s, 0)).2 = 9 := by unfold CommRoom; decide +kernel

theorem probe_flag {r : Res (Sys × Int × StPtr)} {d : Sys × Int × StPtr} {x : Sys} {st : StPtr}
    (h : (r.getD d).2.1 = 1) (hx : r = .ok (x, 0, st)) : False := by
  subst hx; simp [Res.getD] at h

/-- World in `H8` has a pending message and a pending receive, the duplicate made of it has not. -/
example : ¬ Quiet env0 H8.s 1 ∧ Quiet env0 (H8.dup 1).s 9 := by
  constructor
  · intro h
    obtain ⟨x, hx⟩ := h.noMessage 0 5 .null (Or.inl rfl)
    have h1 : ((MPI_Iprobe H8.s 0 5 1 .null).getD (H8.s, 7, .null)).2.1 = 1 := by decide +kernel
    exact probe_flag h1 hx
  · have he : MPI_Comm_dup H8.s 1 = .ok ((H8.dup 1).s, (H8.dup 1).h) := Demo.dup_eq (by decide +kernel)
    have h9 : (H8.dup 1).h = 9 := by decide +kernel
    rw [h9] at he
    exact (C37_fresh H8_ok (by unfold CommRoom; decide +kernel) (by decide +kernel) (.dup 1) he (by decide)).2.2.1

/-! ## C04 -/

/-- The state MPI_Init must produce: MPI_COMM_WORLD is a live communicator without pending traffic,
MPI_Initialized says 1, user memory is untouched, and the history goes on. -/
structure WorldReady (env : Env) (s : Sys) (L : Ledger) (s' : Sys) : Prop where
  quiet : Quiet env s' MPI_COMM_WORLD
  inited : MPI_Initialized s' = 1
  mem : s'.mem = s.mem
  reach : Reach env s' { L.addComm MPI_COMM_WORLD with inited := true }

/-- What MPI_Init does, by the handle the allocation of the world communicator returns. -/
theorem init_cases (hr : Reach env s L) (hroom : CommRoom L) (hu : L.unmatched < 2147483647) :
    ((MPI_Init s).aborted = true ∧ ∃ fresh : Slot, ∀ t l, mpi_alloc_handle s.handles fresh ≠ .ok (t, 1, l)) ∨
    (∃ s', MPI_Init s = .ok s' ∧ WorldReady env s L s' ∧ 1 ∉ L.objs.map Prod.fst) := by
  obtain ⟨M, lst, hi⟩ := hr.inv
  unfold MPI_Init
  rcases commNew_spec hi hroom.1 hroom.2 with ⟨hl, ha⟩ | ⟨_, t, s1, h, M', lst', fr, ha, hm, hal, hn, hi'⟩
  · left
    refine ⟨?_, Slot.raw, fun t l he => ?_⟩
    · cases hx : mpi_comm_new s <;> rw [hx] at ha <;> simp [Res.aborted] at ha ⊢
    · rcases hi.hst.alloc Slot.raw with ⟨h1, _⟩ | ⟨_, h1⟩
      · simp at h1; omega
      · rw [he] at h1; simp [Res.aborted] at h1
  · by_cases h1 : h = 1
    · subst h1
      right
      have e : MPI_Init s = .ok { s1 with initialized := true } := by
        unfold MPI_Init; rw [ha, Res.ok_bind]; simp
      have h2 : Inv { s1 with initialized := true } { L.addComm 1 with inited := true } M' lst' :=
        ⟨hi'.hst, hi'.linv, hi'.comm, hi'.queue, hi'.linj, hi'.cinj, hi'.req, hi'.held, hi'.ocid,
          hi'.dtype, hi'.tinj, hi'.tbnd, hi'.num, rfl, hi'.icap, hi'.hcap, hi'.ncap⟩
      exact ⟨_, e, ⟨quiet_new hi h2 rfl (by simp [Ledger.addComm]) hu, rfl, hm,
        hr.step (.init hroom.1 hroom.2 e)⟩, hn⟩
    · left
      refine ⟨?_, fr, fun t' l he => ?_⟩
      · rw [ha, Res.ok_bind]; dsimp only; rw [if_pos h1]; rfl
      · rw [hal] at he
        simp only [Res.ok.injEq, Prod.mk.injEq] at he
        exact h1 he.2.1

/-- **C04.** In a fresh process MPI_Init succeeds and MPI_COMM_WORLD is ready. -/
theorem C04_fresh (env : Env) (m : Mem) :
    ∃ s', MPI_Init (Sys.start m) = .ok s' ∧ WorldReady env (Sys.start m) .start s' := by
  rcases init_cases (env := env) (Reach.start (m := m)) ⟨by decide, by decide⟩ (by decide) with ⟨_, fr, h⟩ | ⟨s', h1, h2, _⟩
  · obtain ⟨t, ht, _⟩ := first_alloc (t := (Sys.start m).handles) rfl fr
    exact absurd ht (h _ _)
  · exact ⟨s', h1, h2⟩

theorem finalize_needInit (s : Sys) : (MPI_Finalize s).handles.needInit = true := by
  unfold MPI_Finalize mpi_destroy_handles
  dsimp only
  split
  · assumption
  · rfl

/-- **C04.** After any history followed by MPI_Finalize, MPI_Init succeeds again and MPI_COMM_WORLD is
ready, whatever was live or pending before. -/
theorem C04_after_finalize (hr : Reach env s L) (hroom : CommRoom L) (hu : L.unmatched < 2147483647) :
    ∃ s', MPI_Init (MPI_Finalize s) = .ok s' ∧
      WorldReady env (MPI_Finalize s) L.finalize s' := by
  rcases init_cases (hr.step .finalize) hroom hu with ⟨_, fr, h⟩ | ⟨s', h1, h2, _⟩
  · obtain ⟨t, ht, _⟩ := first_alloc (finalize_needInit s) fr
    exact absurd ht (h _ _)
  · exact ⟨s', h1, h2⟩

/-- **C04.** While handle 1 is live (in particular after an MPI_Init not followed by MPI_Finalize, as
long as MPI_COMM_WORLD was not freed) MPI_Init aborts. -/
theorem C04_twice (hr : Reach env s L) (hroom : CommRoom L) (hu : L.unmatched < 2147483647)
    (h1 : MPI_COMM_WORLD ∈ L.objs.map Prod.fst) : (MPI_Init s).aborted = true := by
  rcases init_cases hr hroom hu with ⟨h, _⟩ | ⟨s', _, _, h2⟩
  · exact h
  · exact absurd h1 h2

/-- **C04.** After any history MPI_Init either aborts or makes MPI_COMM_WORLD, which was not live
before, a ready communicator: it never produces a different world handle. -/
theorem C04_init (hr : Reach env s L) (hroom : CommRoom L) (hu : L.unmatched < 2147483647) :
    (MPI_Init s).aborted = true ∨
    ∃ s', MPI_Init s = .ok s' ∧ WorldReady env s L s' ∧ MPI_COMM_WORLD ∉ L.objs.map Prod.fst := by
  rcases init_cases hr hroom hu with ⟨h, _⟩ | h
  · exact Or.inl h
  · exact Or.inr h

/-- A stretch of history since program start or MPI_Finalize in which no handle was released: every
call keeps the live handles live. -/
inductive NoRelease (env : Env) : Sys → Ledger → Prop
  | start {m : Mem} : NoRelease env (Sys.start m) .start
  | finalize {s : Sys} {L : Ledger} : Reach env s L →
      NoRelease env (MPI_Finalize s) L.finalize
  | step {s s' : Sys} {L L' : Ledger} : NoRelease env s L → Step env s L s' L' →
      (∀ h : Int, h ∈ L.objs.map Prod.fst → h ∈ L'.objs.map Prod.fst) → NoRelease env s' L'

theorem NoRelease.reach (h : NoRelease env s L) : Reach env s L := by
  induction h with
  | start => exact .start
  | finalize h => exact h.step .finalize
  | step _ h _ ih => exact ih.step h

theorem allocReq_first {h : Int} {l : Loc} (hn : ∀ fr : Slot, ∃ t, mpi_alloc_handle s.handles fr = .ok (t, 1, ⟨0, 1⟩))
    (hok : s.allocReq env = .ok (s', h, l)) : h = 1 := by
  obtain ⟨t, ht⟩ := hn .raw
  unfold Sys.allocReq at hok
  rw [ht, Res.ok_bind] at hok
  simp only [Res.pure_eq, Res.ok.injEq, Prod.mk.injEq] at hok
  exact hok.2.1.symm

theorem commNew_first {h : Int} (hn : s.handles.needInit = true) (hok : mpi_comm_new s = .ok (s', h)) : h = 1 := by
  obtain ⟨t, ht, _⟩ := first_alloc hn Slot.raw
  unfold mpi_comm_new at hok
  rw [ht, Res.ok_bind] at hok
  obtain ⟨a, _, hok⟩ := Res.bind_eq_ok.1 hok
  obtain ⟨b, _, hok⟩ := Res.bind_eq_ok.1 hok
  obtain ⟨c, _, hok⟩ := Res.bind_eq_ok.1 hok
  simp only [Res.pure_eq, Res.ok.injEq, Prod.mk.injEq] at hok
  exact hok.2.symm

theorem newType_first {h : Int} {build : Garbage → Res Typestruct} (hn : s.handles.needInit = true)
    (hok : newType env s build = .ok (s', h)) : h = 1 := by
  obtain ⟨t, ht, _⟩ := first_alloc hn Slot.raw
  unfold newType at hok
  rw [ht, Res.ok_bind] at hok
  obtain ⟨a, _, hok⟩ := Res.bind_eq_ok.1 hok
  simp only [Res.pure_eq, Res.ok.injEq, Prod.mk.injEq] at hok
  exact hok.2.symm

theorem ptr_null (hn : s.handles.needInit = true) :
    s.ptr 0 = .ok ({ s with handles := init_handles s.handles }, none) ∧
    ∀ fr : Slot, ∃ t, mpi_alloc_handle (init_handles s.handles) fr = .ok (t, 1, ⟨0, 1⟩) := by
  constructor
  · unfold Sys.ptr mpi_handle_to_ptr; rw [hn]; rfl
  · intro fr
    obtain ⟨t, ht, _⟩ := first_alloc hn fr
    rw [mpi_alloc_handle_needInit hn] at ht
    exact ⟨t, ht⟩

theorem isendNull_first {buf count dtype tag h : Int} (hn : s.handles.needInit = true)
    (hok : MPI_Isend env s buf count dtype MPI_PROC_NULL tag MPI_COMM_NULL = .ok (s', h)) : h = 1 := by
  obtain ⟨h1, h2⟩ := ptr_null hn
  unfold MPI_Isend at hok
  rw [h1, Res.ok_bind] at hok
  dsimp only at hok
  rw [if_neg (by simp)] at hok
  obtain ⟨⟨s2, h', l⟩, ha, hok⟩ := Res.bind_eq_ok.1 hok
  dsimp only at hok
  rw [if_pos rfl] at hok
  obtain ⟨_, _, hok⟩ := Res.bind_eq_ok.1 hok
  simp only [Res.pure_eq, Res.ok.injEq, Prod.mk.injEq] at hok
  rw [← hok.2]
  exact allocReq_first (s := { s with handles := init_handles s.handles }) h2 ha

theorem irecvNull_first {buf count dtype tag h : Int} (hn : s.handles.needInit = true)
    (hok : MPI_Irecv env s buf count dtype MPI_PROC_NULL tag MPI_COMM_NULL = .ok (s', h)) : h = 1 := by
  obtain ⟨h1, h2⟩ := ptr_null hn
  unfold MPI_Irecv at hok
  rw [h1, Res.ok_bind] at hok
  dsimp only at hok
  rw [if_neg (by simp)] at hok
  obtain ⟨⟨s2, h', l⟩, ha, hok⟩ := Res.bind_eq_ok.1 hok
  dsimp only at hok
  obtain ⟨_, _, hok⟩ := Res.bind_eq_ok.1 hok
  rw [if_pos rfl] at hok
  obtain ⟨_, _, hok⟩ := Res.bind_eq_ok.1 hok
  simp only [Res.pure_eq, Res.ok.injEq, Prod.mk.injEq] at hok
  rw [← hok.2]
  exact allocReq_first (s := { s with handles := init_handles s.handles }) h2 ha

/-- In such a stretch the first handle handed out is 1, and it stays live. -/
theorem NoRelease.first (h : NoRelease env s L) :
    (L.objs = [] ∧ s.handles.needInit = true) ∨ 1 ∈ L.objs.map Prod.fst := by
  induction h with
  | start => exact Or.inl ⟨rfl, rfl⟩
  | @finalize s L _ => exact Or.inl ⟨rfl, finalize_needInit s⟩
  | @step s s' L L' hnr hs hk ih =>
    obtain ⟨M, lst, hi⟩ := hnr.reach.inv
    rcases ih with ⟨h0, hn⟩ | h1
    · cases hs with
      | memory => exact Or.inl ⟨h0, hn⟩
      | init _ _ h => right; simp [Ledger.addComm]
      | finalize => exact Or.inl ⟨rfl, finalize_needInit s⟩
      | comm _ _ hc hr =>
        rcases hc.eq (by rw [hr]; rfl) with he | he
        · rw [hr] at he
          simp only [Res.ok.injEq, Prod.mk.injEq] at he
          obtain ⟨rfl, rfl⟩ := he
          exact Or.inl ⟨by simpa [Ledger.noteComm] using h0, hn⟩
        · rw [he] at hr
          have := commNew_first hn hr
          subst this
          right; simp [Ledger.noteComm, Ledger.addComm]
      | commFree hm => rw [h0] at hm; simp at hm
      | isend hm => rw [h0] at hm; simp at hm
      | irecv hm => rw [h0] at hm; simp at hm
      | isendNull hm hok =>
        rcases hm with rfl | ⟨c, hm⟩
        · have := isendNull_first hn hok
          subst this
          right; simp [Ledger.postNull]
        · rw [h0] at hm; simp at hm
      | irecvNull hm hok =>
        rcases hm with rfl | ⟨c, hm⟩
        · have := irecvNull_first hn hok
          subst this
          right; simp [Ledger.postNull]
        · rw [h0] at hm; simp at hm
      | test hm => rw [h0] at hm; simp at hm
      | requestFree hm => rw [h0] at hm; simp at hm
      | newType hc hr =>
        rw [hc.eq hi] at hr
        have := newType_first hn hr
        subst this
        right; simp [Ledger.addType]
      | commit hm => rw [h0] at hm; simp at hm
      | typeFree hm => rw [h0] at hm; simp at hm
    · exact Or.inr (hk 1 h1)

/-- **C04** (partial). A handle-creating call since program start or the last MPI_Finalize, with no
handle released since, makes MPI_Init abort.  Missing: the full claim (any handle-creating call) is
false, see `C04_fails_released`; but `C04_init` holds for every history. -/
theorem C04_handles_before_init_partial (h : NoRelease env s L) (hroom : CommRoom L) (hu : L.unmatched < 2147483647)
    (hl : L.objs ≠ []) : (MPI_Init s).aborted = true := by
  rcases h.first with ⟨h0, _⟩ | h1
  · exact absurd h0 hl
  · exact C04_twice h.reach hroom hu h1


/-- Before MPI_Init: a communicator (handle 1), a second one (handle 2), and the first one freed. -/
def E1 : Demo := (Demo.start mem0).dup 1
def E2 : Demo := E1.dup 1
def E3 : Demo := E2.commFree 1

theorem E1_ok : E1.Ok := Demo.dup_ok (Demo.start_ok _) (by decide +kernel) (by decide +kernel)
theorem E2_ok : E2.Ok := Demo.dup_ok E1_ok (by decide +kernel) (by decide +kernel)
theorem E3_ok : E3.Ok := Demo.commFree_ok 0 E2_ok (by decide +kernel) (by decide +kernel)

/-- **C04 fails** literally: two handle-creating calls before MPI_Init, one of the handles still live,
but MPI_Init does not abort because handle 1 was freed again. -/
theorem C04_fails_released : Reach env0 E3.s E3.L ∧ MPI_Initialized E3.s = 0 ∧ E3.L.objs.map Prod.fst = [2] ∧
    (MPI_Init E3.s).returned = true :=
  ⟨E3_ok, by decide +kernel, by decide +kernel, by decide +kernel⟩

/-- `H8` meets the premises (world is live: a second MPI_Init aborts), and `E2` is a stretch without
releases before MPI_Init. -/
example : CommRoom H8.L ∧ MPI_COMM_WORLD ∈ H8.L.objs.map Prod.fst ∧ (MPI_Init H8.s).aborted = true ∧
    (MPI_Init (MPI_Finalize H8.s)).returned = true := by unfold CommRoom; decide +kernel

example : NoRelease env0 E2.s E2.L ∧ E2.L.objs ≠ [] ∧ (MPI_Init E2.s).aborted = true := by
  refine ⟨?_, by decide +kernel, by decide +kernel⟩
  refine .step (.step (.start (m := mem0)) (s' := E1.s) (L' := E1.L) ?_ (by simp [Ledger.start])) (s' := E2.s) (L' := E2.L) ?_ ?_
  · exact Demo.dup_step (d := Demo.start mem0) (by decide +kernel) (by decide +kernel)
  · exact Demo.dup_step (d := E1) (by decide +kernel) (by decide +kernel)
  · have h1 : E1.L.objs.map Prod.fst = [1] := by decide +kernel
    have h2 : E2.L.objs.map Prod.fst = [2, 1] := by decide +kernel
    rw [h1, h2]; simp

end MpiSerial
