import Verif.Proofs.Observe
import Verif.Proofs.Demo

/-!
# Matching of sends and receives (C09-C12)

A `Reach env s L` is a history of successful calls from program start that led to library state `s`;
the ledger `L` is the observer's list of the calls (`Spec/P2P.lean`).  The theorems tie what MPI_Test,
MPI_Wait, MPI_Iprobe and user memory show in the *concrete* state to that list.
-/

set_option linter.unusedSimpArgs false
set_option autoImplicit false

namespace MpiSerial

section
variable {env : Env} {s s' : Sys} {L L' : Ledger} {M : AbsLists Loc} {lst : Nat → Kind → Nat}

/-! ## C09 -/

/-- C09, a send: it is delivered to the earliest posted unmatched receive that accepts it, whose
request and whose buffer alone are affected; if there is none, nothing is affected and it stays
unmatched. -/
theorem C09_isend (hr : Reach env s L) {comm : Int} {c : Nat} (hcm : (comm, .comm c) ∈ L.objs)
    (hu : L.unmatched < 2147483647) {buf count dtype tag h : Int}
    (hok : MPI_Isend env s buf count dtype 0 tag comm = .ok (s', h)) :
    (NoOpen L .recv c (fun t => accepts t tag) ∧ s'.mem = s.mem ∧ Incomplete s' h ∧
      ∀ h' i, (h', Obj.req i) ∈ L.objs → (Complete s' h' ↔ Complete s h')) ∨
    (∃ j o, Earliest L .recv c (fun t => accepts t tag) j o ∧ (o.h, Obj.req j) ∈ L.objs ∧
      Complete s' h ∧ CompleteAs s' o.h 0 tag ∧
      (∀ h' i, (h', Obj.req i) ∈ L.objs → i ≠ j → (Complete s' h' ↔ Complete s h')) ∧
      ∀ st dt, L.desc env.cfg dtype = some st → L.desc env.cfg o.dtype = some dt →
        Pcopy_data2 env.cfg s.mem buf count st o.buf o.count dt = .ok s'.mem) := by
  obtain ⟨M, lst, hi⟩ := hr.inv
  obtain ⟨_, _, h1, h2⟩ := posted hi hcm (isend_spec (env := env) hi hcm hu buf count dtype tag) hok
  rcases h2 with ⟨hp, h3, h4⟩ | ⟨j, o, hp, hj, h3, h4, _, h5, _, h6⟩
  · exact Or.inl ⟨partner_noOpen hp, h3, h4, fun h' i hm => h1 h' i hm (by rw [hp]; simp)⟩
  · obtain ⟨o', he⟩ := partner_earliest hp
    have := he.1
    rw [hj] at this
    cases this
    refine Or.inr ⟨j, o, he, h3, h4, h5 rfl, fun h' i hm hne => h1 h' i hm ?_, h6⟩
    rw [hp]; simp only [ne_eq, Option.some.injEq]; omega

/-- C09, a receive: it takes the earliest posted unmatched message that it accepts, whose request alone
is affected; if there is none, nothing is affected and it stays unmatched.  (The data is taken from the
sender's buffer; see C30 about the type used, recv.c:81.) -/
theorem C09_irecv (hr : Reach env s L) {comm : Int} {c : Nat} (hcm : (comm, .comm c) ∈ L.objs)
    (hu : L.unmatched < 2147483647) {buf count dtype src tag h : Int} (hsrc : src ≠ MPI_PROC_NULL)
    (hok : MPI_Irecv env s buf count dtype src tag comm = .ok (s', h)) :
    (NoOpen L .send c (fun t => accepts tag t) ∧ s'.mem = s.mem ∧ Incomplete s' h ∧
      ∀ h' i, (h', Obj.req i) ∈ L.objs → (Complete s' h' ↔ Complete s h')) ∨
    (∃ j o, Earliest L .send c (fun t => accepts tag t) j o ∧ (o.h, Obj.req j) ∈ L.objs ∧
      CompleteAs s' h 0 o.tag ∧ Complete s' o.h ∧
      (∀ h' i, (h', Obj.req i) ∈ L.objs → i ≠ j → (Complete s' h' ↔ Complete s h')) ∧
      ∀ dt, L.desc env.cfg dtype = some dt →
        Pcopy_data2 env.cfg s.mem o.buf count dt buf count dt = .ok s'.mem) := by
  obtain ⟨M, lst, hi⟩ := hr.inv
  obtain ⟨_, _, h1, h2⟩ := posted hi hcm
    (irecv_spec (env := env) hi hcm hu (irecv_src hsrc hok) buf count dtype tag) hok
  rcases h2 with ⟨hp, h3, h4⟩ | ⟨j, o, hp, hj, h3, h4, h5, _, h6, h7⟩
  · exact Or.inl ⟨partner_noOpen hp, h3, h4, fun h' i hm => h1 h' i hm (by rw [hp]; simp)⟩
  · obtain ⟨o', he⟩ := partner_earliest hp
    have := he.1
    rw [hj] at this
    cases this
    refine Or.inr ⟨j, o, he, h3, h6 rfl, h5, fun h' i hm hne => h1 h' i hm ?_, fun dt hdt => h7 dt dt hdt hdt⟩
    rw [hp]; simp only [ne_eq, Option.some.injEq]; omega

/-- C09, whole histories: of two operations of one kind on one communicator, where the partner of the
later one would also have accepted the earlier one, the earlier one is complete, and its partner comes
before the partner of the later one. -/
theorem C09_non_overtaking (hr : Reach env s L) {x x' y' : Nat} {a a' b' : Op} (ha : L.ops[x]? = some a)
    (ha' : L.ops[x']? = some a') (hlt : x < x') (hk : a'.kind = a.kind) (hc : a'.cid = a.cid)
    (hn : a.st ≠ .null) (hm' : a'.st = .matched y') (hb' : L.ops[y']? = some b')
    (hf : if a.kind = .send then accepts b'.tag a.tag = true else accepts a.tag b'.tag = true) :
    ∃ y b, L.ops[y]? = some b ∧ a.st = .matched y ∧ y < y' ∧
      ((a.h, Obj.req x) ∈ L.objs → Complete s a.h ∧ (a.kind = .recv → CompleteAs s a.h 0 b.tag)) := by
  obtain ⟨M, lst, hi⟩ := hr.inv
  have ho := hr.opsInv
  obtain ⟨y, h1, h2⟩ := ho.order ha ha' hlt hk hc hn hm' hb' (fits_iff.2 hf)
  obtain ⟨b, h3, _⟩ := ho.sym x y a ha h1
  exact ⟨y, b, h3, h1, h2, fun hm => ⟨hi.complete hm ha (by rw [h1]; simp),
    fun hkr => hi.completeAs hm ha hkr h1 h3⟩⟩

/-- C09: two messages with the same tag on one communicator are received in the order they were
sent. -/
theorem C09_messages_in_order (hr : Reach env s L) {x x' y' : Nat} {a a' : Op} (ha : L.ops[x]? = some a)
    (ha' : L.ops[x']? = some a') (hlt : x < x') (hk : a.kind = .send) (hk' : a'.kind = .send)
    (hc : a'.cid = a.cid) (ht : a'.tag = a.tag) (hn : a.st ≠ .null) (hm' : a'.st = .matched y') :
    ∃ y, a.st = .matched y ∧ y < y' ∧ ((a.h, Obj.req x) ∈ L.objs → Complete s a.h) := by
  obtain ⟨b', h1, _, _, _, h5⟩ := hr.opsInv.sym x' y' a' ha' hm'
  obtain ⟨y, b, _, h6, h7, h8⟩ := C09_non_overtaking hr ha ha' hlt (by rw [hk, hk']) hc hn hm' h1 (by
    rw [if_pos hk]; rw [hk', ht] at h5; exact h5)
  exact ⟨y, h6, h7, fun hm => (h8 hm).1⟩

/-- C09: of two receives on one communicator that both accept the message the later one got, the earlier
one got an earlier message. -/
theorem C09_receives_in_order (hr : Reach env s L) {x x' y' : Nat} {a a' b' : Op} (ha : L.ops[x]? = some a)
    (ha' : L.ops[x']? = some a') (hlt : x < x') (hk : a.kind = .recv) (hk' : a'.kind = .recv)
    (hc : a'.cid = a.cid) (hn : a.st ≠ .null) (hm' : a'.st = .matched y') (hb' : L.ops[y']? = some b')
    (ht : accepts a.tag b'.tag = true) :
    ∃ y b, L.ops[y]? = some b ∧ a.st = .matched y ∧ y < y' ∧
      ((a.h, Obj.req x) ∈ L.objs → CompleteAs s a.h 0 b.tag) := by
  obtain ⟨y, b, h5, h6, h7, h8⟩ := C09_non_overtaking hr ha ha' hlt (by rw [hk, hk']) hc hn hm' hb' (by
    rw [if_neg (by rw [hk]; simp)]; exact ht)
  exact ⟨y, b, h5, h6, h7, fun hm => (h8 hm).2 hk⟩

/-! ## C10 -/

/-- C10: a request that MPI_Test reports complete (and that was not addressed to MPI_PROC_NULL) was
matched with exactly one operation: of the other kind, on the same communicator, with an accepted tag;
that one was matched with it and with no third operation. -/
theorem C10_one_partner (hr : Reach env s L) {h : Int} {i : Nat} {a : Op} (hm : (h, Obj.req i) ∈ L.objs)
    (ha : L.ops[i]? = some a) (hn : a.st ≠ .null) (hdone : Complete s h) :
    ∃ j b, a.st = .matched j ∧ L.ops[j]? = some b ∧ b.st = .matched i ∧ b.kind = a.kind.other ∧
      b.cid = a.cid ∧ (if a.kind = .send then accepts b.tag a.tag = true else accepts a.tag b.tag = true) ∧
      ∀ i' a', L.ops[i']? = some a' → a'.st = .matched j → i' = i := by
  obtain ⟨M, lst, hi⟩ := hr.inv
  have hp := (hi.complete_iff hm ha).1 hdone
  cases hst : a.st with
  | null => exact absurd hst hn
  | pending => exact absurd hst hp
  | matched j =>
    obtain ⟨b, h1, h2, h3, h4, h5⟩ := hr.opsInv.sym i j a ha hst
    refine ⟨j, b, rfl, h1, h2, h3, h4, fits_iff.1 h5, ?_⟩
    intro i' a' ha' hst'
    obtain ⟨b', h6, h7, _⟩ := hr.opsInv.sym i' j a' ha' hst'
    rw [h1] at h6
    cases h6
    rw [h2] at h7
    simp only [OpSt.matched.injEq] at h7
    exact h7.symm

/-- C10: a matched pair never matches again: whatever calls follow, both operations keep their partner,
and their requests, as long as they are live, keep reporting completion, with the same tag. -/
theorem C10_never_again (hr : Reach env s L) (hs : Steps env s L s' L') {i j : Nat} {a b : Op}
    (ha : L.ops[i]? = some a) (hst : a.st = .matched j) (hb : L.ops[j]? = some b) :
    L'.ops[i]? = some a ∧ L'.ops[j]? = some b ∧
    ((a.h, Obj.req i) ∈ L'.objs → Complete s' a.h ∧ (a.kind = .recv → CompleteAs s' a.h 0 b.tag)) := by
  have hbst : b.st = .matched i := by
    obtain ⟨b', h1, h2, _⟩ := hr.opsInv.sym i j a ha hst
    rw [hb] at h1
    cases h1
    exact h2
  have key : L'.ops[i]? = some a ∧ L'.ops[j]? = some b := by
    clear hr
    induction hs with
    | refl => exact ⟨ha, hb⟩
    | step _ h ih => exact ⟨h.matched_stays (ih ha hb).1 hst, h.matched_stays (ih ha hb).2 hbst⟩
  obtain ⟨M, lst, hi⟩ := (hr.steps hs).inv
  exact ⟨key.1, key.2, fun hm => ⟨hi.complete hm key.1 (by rw [hst]; simp),
    fun hk => hi.completeAs hm key.1 hk hst key.2⟩⟩

/-- C10: no message is delivered without having been sent: a receive that changes memory, or completes
at once, finds an unmatched message it accepts among those sent on its communicator. -/
theorem C10_no_delivery_without_send (hr : Reach env s L) {comm : Int} {c : Nat}
    (hcm : (comm, .comm c) ∈ L.objs) (hu : L.unmatched < 2147483647) {buf count dtype src tag h : Int}
    (hsrc : src ≠ MPI_PROC_NULL) (hok : MPI_Irecv env s buf count dtype src tag comm = .ok (s', h))
    (hd : s'.mem ≠ s.mem ∨ Complete s' h) :
    ∃ o ∈ L.ops, o.open .send c ∧ accepts tag o.tag = true := by
  rcases C09_irecv hr hcm hu hsrc hok with ⟨_, h1, h2, _⟩ | ⟨j, o, he, _⟩
  · rcases hd with hd | hd
    · exact absurd h1 hd
    · exact (not_complete_and_incomplete hd h2).elim
  · exact ⟨o, List.mem_of_getElem? he.1, he.2.1, he.2.2.1⟩

/-! ## C11 -/

/-- C11: a call changes the pending traffic of a communicator only if it is a send or receive posted on
that very communicator. -/
theorem C11_traffic (hs : Step env s L s' L') (c' : Nat) :
    (∀ k, L'.traffic k c' = L.traffic k c') ∨
    (∃ comm buf count dtype src tag h, (comm, Obj.comm c') ∈ L.objs ∧
      (MPI_Isend env s buf count dtype 0 tag comm = .ok (s', h) ∨
       MPI_Irecv env s buf count dtype src tag comm = .ok (s', h))) := by
  have hpost : ∀ k c tag buf count dtype h k', c ≠ c' →
      (L.post k c tag buf count dtype h).traffic k' c' = L.traffic k' c' := by
    intro k c tag buf count dtype h k' hne
    have hnew : ∀ st, ([⟨k, c, tag, buf, count, dtype, h, st⟩] : List Op).filter
        (fun o => decide (o.open k' c')) = [] := by
      intro st
      rw [List.filter_cons, if_neg]
      · rfl
      · rw [decide_eq_true_iff]
        exact fun h => hne h.2.1
    cases hp : L.partner c k tag with
    | none =>
      rw [Ledger.post_none hp]
      unfold Ledger.traffic
      rw [List.filter_append, hnew, List.append_nil]
    | some j =>
      rw [Ledger.post_some hp]
      obtain ⟨A, o, B, hops, rfl, ho, hA⟩ := Ledger.partner_some hp
      rw [waits_iff] at ho
      unfold Ledger.traffic
      dsimp only
      rw [List.filter_append, hnew, List.append_nil, hops, settle_split, List.filter_append,
        List.filter_append, List.filter_cons, List.filter_cons, if_neg, if_neg]
      · rw [decide_eq_true_iff]
        exact fun h => hne (ho.1.2.1.symm.trans h.2.1)
      · rw [decide_eq_true_iff]
        exact fun h => hne (ho.1.2.1.symm.trans h.2.1)
  have hnull : ∀ k tag buf count dtype h k',
      (L.postNull k tag buf count dtype h).traffic k' c' = L.traffic k' c' := by
    intro k tag buf count dtype h k'
    unfold Ledger.traffic Ledger.postNull
    dsimp only
    rw [List.filter_append, List.filter_cons, if_neg, List.filter_nil, List.append_nil]
    simp [Op.open]
  cases hs with
  | memory => exact Or.inl fun _ => rfl
  | init => exact Or.inl fun _ => rfl
  | finalize => exact Or.inl fun _ => rfl
  | comm => left; intro k; unfold Ledger.noteComm; split <;> rfl
  | commFree => exact Or.inl fun _ => rfl
  | @isend _ _ buf count dtype tag comm c h hcm hu hok =>
    by_cases hne : c = c'
    · subst hne
      exact Or.inr ⟨comm, buf, count, dtype, 0, tag, h, hcm, Or.inl hok⟩
    · exact Or.inl fun k => hpost _ _ _ _ _ _ _ k hne
  | @irecv _ _ buf count dtype src tag comm c h hcm hu hsrc hok =>
    by_cases hne : c = c'
    · subst hne
      exact Or.inr ⟨comm, buf, count, dtype, src, tag, h, hcm, Or.inr hok⟩
    · exact Or.inl fun k => hpost _ _ _ _ _ _ _ k hne
  | isendNull => exact Or.inl fun k => hnull ..
  | irecvNull => exact Or.inl fun k => hnull ..
  | test => left; intro k; split <;> rfl
  | requestFree => exact Or.inl fun _ => rfl
  | newType => exact Or.inl fun _ => rfl
  | commit => exact Or.inl fun _ => rfl
  | typeFree => exact Or.inl fun _ => rfl

/-- C11: completion of a request changes only through a send or receive posted on the communicator of
its own operation. -/
theorem C11_requests (hr : Reach env s L) (hs : Step env s L s' L') {h : Int} {i : Nat} {o : Op}
    (ho : L.ops[i]? = some o) (hm : (h, Obj.req i) ∈ L.objs) (hm' : (h, Obj.req i) ∈ L'.objs) :
    (Complete s' h ↔ Complete s h) ∨
    (∃ comm buf count dtype src tag h, (comm, Obj.comm o.cid) ∈ L.objs ∧
      (MPI_Isend env s buf count dtype 0 tag comm = .ok (s', h) ∨
       MPI_Irecv env s buf count dtype src tag comm = .ok (s', h))) := by
  obtain ⟨M, lst, hi⟩ := hr.inv
  obtain ⟨M', lst', hi'⟩ := (hr.step hs).inv
  rcases hs.op_cases ho with h1 | h1
  · left
    rw [hi.complete_iff hm ho, hi'.complete_iff hm' h1]
  · exact Or.inr h1

/-- C11: what a probe on a communicator reports changes only through a send or receive posted on that
communicator. -/
theorem C11_probe (hr : Reach env s L) (hs : Step env s L s' L') {comm' : Int} {c' : Nat}
    (hm : (comm', Obj.comm c') ∈ L.objs) (hm' : (comm', Obj.comm c') ∈ L'.objs) :
    (∀ src tag st, src = 0 ∨ src = MPI_ANY_SOURCE →
      (MPI_Iprobe s' src tag comm' st >>= fun r => Res.ok r.2) =
      (MPI_Iprobe s src tag comm' st >>= fun r => Res.ok r.2)) ∨
    (∃ comm buf count dtype src tag h, (comm, Obj.comm c') ∈ L.objs ∧
      (MPI_Isend env s buf count dtype 0 tag comm = .ok (s', h) ∨
       MPI_Irecv env s buf count dtype src tag comm = .ok (s', h))) := by
  obtain ⟨M, lst, hi⟩ := hr.inv
  obtain ⟨M', lst', hi'⟩ := (hr.step hs).inv
  rcases C11_traffic hs c' with h1 | h1
  rotate_left
  · exact Or.inr h1
  left
  intro src tag st hsrc
  rw [iprobe_traffic hi hm hsrc, iprobe_traffic hi' hm' hsrc, h1]

/-- C11: what a probe finds was sent on the communicator probed and is unmatched. -/
theorem C11_probe_own (hr : Reach env s L) {comm : Int} {c : Nat} (hm : (comm, Obj.comm c) ∈ L.objs)
    {src tag : Int} (hsrc : src = 0 ∨ src = MPI_ANY_SOURCE) {st : Status} {flag : Int} {st' : StPtr}
    (hok : MPI_Iprobe s src tag comm (.obj st) = .ok (s', flag, st')) (hf : flag ≠ 0) :
    ∃ o ∈ L.ops, o.open .send c ∧ st' = .obj { st with MPI_SOURCE := 0, MPI_TAG := o.tag } := by
  obtain ⟨M, lst, hi⟩ := hr.inv
  rcases iprobe_spec hi hm hsrc tag (.obj st) with ⟨hp, he⟩ | ⟨j, o, hp, hj, he⟩
  · rw [hok] at he
    simp only [Res.ok.injEq, Prod.mk.injEq] at he
    exact absurd he.2.1 hf
  · obtain ⟨o', h1⟩ := partner_earliest hp
    have := h1.1
    rw [hj] at this
    cases this
    refine ⟨o, List.mem_of_getElem? hj, h1.2.1, ?_⟩
    rw [hok] at he
    simp only [StPtr.put, Res.ok_bind, Res.ok.injEq, Prod.mk.injEq] at he
    exact he.2.2

/-! ## C12 -/

/-- C12: two requests of opposite kind on one communicator that MPI_Test reports incomplete cannot
match each other. -/
theorem C12_no_pending_pair (hr : Reach env s L) {x y : Nat} {a b : Op} (ha : L.ops[x]? = some a)
    (hb : L.ops[y]? = some b) (hxa : (a.h, Obj.req x) ∈ L.objs) (hyb : (b.h, Obj.req y) ∈ L.objs)
    (hka : a.kind = .send) (hkb : b.kind = .recv) (hc : a.cid = b.cid) (hia : Incomplete s a.h)
    (hib : Incomplete s b.h) : accepts b.tag a.tag = false := by
  obtain ⟨M, lst, hi⟩ := hr.inv
  have h1 := hr.opsInv.no_pair ha hb (by rw [hka, hkb]; rfl) hc.symm ((hi.incomplete_iff hxa ha).1 hia)
    ((hi.incomplete_iff hyb hb).1 hib)
  rw [hka] at h1
  exact h1

/-- C12: MPI_Wait reports deadlock only for an operation that no unmatched operation on its
communicator could match. -/
theorem C12_deadlock_not_premature (hr : Reach env s L) {x : Nat} {a : Op} (ha : L.ops[x]? = some a)
    (hxa : (a.h, Obj.req x) ∈ L.objs) {st : StPtr} (hw : (MPI_Wait s a.h st).aborted = true) :
    ∀ b ∈ L.ops, b.open a.kind.other a.cid →
      (if a.kind = .send then accepts b.tag a.tag else accepts a.tag b.tag) = false := by
  obtain ⟨M, lst, hi⟩ := hr.inv
  have hp : a.st = .pending := by
    by_cases hp : a.st = .pending
    · exact hp
    · exfalso
      obtain ⟨t, src, tag, _, _, h⟩ := wait_done hi hxa ha hp
      rw [h st] at hw
      cases st <;> simp [StPtr.put, Res.aborted] at hw
  intro b hb hop
  obtain ⟨y, hlt, hy⟩ := List.getElem_of_mem hb
  have hy' : L.ops[y]? = some b := by rw [List.getElem?_eq_getElem hlt, hy]
  have h1 := hr.opsInv.no_pair ha hy' hop.1 hop.2.1 hp hop.2.2
  cases hk : a.kind <;> rw [hk] at h1 <;> exact h1

end

/-! ## The hypotheses can be met

`H1` ... `H8` are stages of a concrete history (`Proofs/Demo.lean`): two messages with tag 5 and a
receive for tag 9 on MPI_COMM_WORLD are pending, a receive for any tag has taken the first message, a
message with tag 9 is pending on a duplicate of MPI_COMM_WORLD. -/

/-- C09_irecv: in `H4` a receive for any tag finds the two messages with tag 5 and takes the first. -/
example : MPI_Irecv env0 H4.s 300 3 (-1) (-1) (-1) 1 = .ok (H5.s, H5.h) ∧ Reach env0 H4.s H4.L ∧
    (1, Obj.comm 0) ∈ H4.L.objs ∧ CompleteAs H5.s H5.h 0 5 ∧ Complete H5.s 2 ∧ ¬ Complete H5.s 3 ∧
    H5.s.mem 300 = some 1 ∧ H5.s.mem 302 = some 3 := by
  obtain ⟨M, lst, hi⟩ := H5_ok.inv
  refine ⟨H5_eq, H4_ok, by decide +kernel, ?_, ?_, ?_, by decide +kernel, by decide +kernel⟩
  · exact hi.completeAs (i := 3) (j := 0) (o := ⟨.recv, 0, -1, 300, 3, -1, 5, .matched 0⟩)
      (p := ⟨.send, 0, 5, 100, 3, -1, 2, .matched 3⟩) (by decide +kernel) (by decide +kernel) rfl rfl (by decide +kernel)
  · exact hi.complete (i := 0) (o := ⟨.send, 0, 5, 100, 3, -1, 2, .matched 3⟩) (by decide +kernel)
      (by decide +kernel) (by decide)
  · intro h1
    exact not_complete_and_incomplete h1 (hi.incomplete (i := 1) (o := ⟨.send, 0, 5, 101, 1, -1, 3, .pending⟩)
      (by decide +kernel) (by decide +kernel) rfl)

/-- C09_isend: in `H4` a message with tag 9 goes to the pending receive for tag 9. -/
example : MPI_Isend env0 H4.s 102 1 (-1) 0 9 1 =
      .ok ((H4.isend 102 1 (-1) 9 1 0).s, (H4.isend 102 1 (-1) 9 1 0).h) ∧
    (H4.isend 102 1 (-1) 9 1 0).s.mem 200 = some 3 ∧
    Earliest H4.L .recv 0 (fun t => accepts t 9) 2 ⟨.recv, 0, 9, 200, 1, -1, 4, .pending⟩ := by
  refine ⟨Demo.isend_eq 0 (by decide +kernel), by decide +kernel, by decide +kernel, by decide, rfl, ?_⟩
  intro j' o' hlt hj' hop
  have h0 : H4.L.ops = [⟨.send, 0, 5, 100, 3, -1, 2, .pending⟩, ⟨.send, 0, 5, 101, 1, -1, 3, .pending⟩,
    ⟨.recv, 0, 9, 200, 1, -1, 4, .pending⟩] := by decide +kernel
  rw [h0] at hj'
  match j', hlt with
  | 0, _ => simp at hj'; subst hj'; cases hop.1
  | 1, _ => simp at hj'; subst hj'; cases hop.1

/-- In `H9` both messages with tag 5 are matched, in order (hypotheses of C09_messages_in_order,
C09_receives_in_order, C09_non_overtaking). -/
example : ∃ y, (⟨.send, 0, 5, 100, 3, -1, 2, .matched 3⟩ : Op).st = .matched y ∧ y < 6 ∧ Complete H9.s 2 := by
  obtain ⟨y, h1, h2, h3⟩ := C09_messages_in_order H9_ok (x := 0) (x' := 1) (y' := 6)
    (a := ⟨.send, 0, 5, 100, 3, -1, 2, .matched 3⟩) (a' := ⟨.send, 0, 5, 101, 1, -1, 3, .matched 6⟩)
    (by decide +kernel) (by decide +kernel) (by decide) rfl rfl rfl rfl (by decide) rfl
  exact ⟨y, h1, h2, h3 (by decide +kernel)⟩

example : ∃ y, (⟨.recv, 0, -1, 300, 3, -1, 5, .matched 0⟩ : Op).st = .matched y ∧ y < 1 ∧
    ∃ b : Op, H9.L.ops[y]? = some b ∧ CompleteAs H9.s 5 0 b.tag := by
  obtain ⟨y, b, h0, h1, h2, h3⟩ := C09_receives_in_order H9_ok (x := 3) (x' := 6) (y' := 1)
    (a := ⟨.recv, 0, -1, 300, 3, -1, 5, .matched 0⟩) (a' := ⟨.recv, 0, 5, 500, 1, -1, 9, .matched 1⟩)
    (b' := ⟨.send, 0, 5, 101, 1, -1, 3, .matched 6⟩)
    (by decide +kernel) (by decide +kernel) (by decide) rfl rfl rfl (by decide) rfl (by decide +kernel) (by decide)
  exact ⟨y, h1, h2, b, h0, h3 (by decide +kernel)⟩

/-- C10_one_partner: request 5 of `H8`. -/
example : ∃ j b, (⟨.recv, 0, -1, 300, 3, -1, 5, .matched 0⟩ : Op).st = .matched j ∧ H8.L.ops[j]? = some b ∧
    b.kind = .send := by
  obtain ⟨M, lst, hi⟩ := H8_ok.inv
  obtain ⟨j, b, h1, h2, _, h3, _⟩ := C10_one_partner H8_ok (h := 5) (i := 3)
    (a := ⟨.recv, 0, -1, 300, 3, -1, 5, .matched 0⟩) (by decide +kernel) (by decide +kernel) (by decide)
    (hi.complete (i := 3) (o := ⟨.recv, 0, -1, 300, 3, -1, 5, .matched 0⟩) (by decide +kernel) (by decide +kernel)
      (by decide))
  exact ⟨j, b, h1, h2, h3⟩

/-- C10_no_delivery_without_send and C10_never_again: from `H8` to `H9`. -/
example : MPI_Irecv env0 H8.s 500 1 (-1) 0 5 1 = .ok (H9.s, H9.h) ∧ H9.s.mem 500 = some 2 ∧
    H8.s.mem 500 = some 0 := ⟨H9_eq, by decide +kernel, by decide +kernel⟩
example : Steps env0 H8.s H8.L H9.s H9.L := .step .refl H9_step

/-- C11: the message with tag 9 on the duplicate is pending although a receive for tag 9 is pending on
MPI_COMM_WORLD; a probe sees it on the duplicate only. -/
example : (MPI_Iprobe H8.s 0 9 1 .null).getD (H8.s, 5, .null) |>.2.1 |> (· = 0) := by decide +kernel
example : (MPI_Iprobe H8.s 0 9 6 .null).getD (H8.s, 5, .null) |>.2.1 |> (· = 1) := by decide +kernel
example : H8.L.traffic .recv 0 = [⟨.recv, 0, 9, 200, 1, -1, 4, .pending⟩] ∧
    H8.L.traffic .send 1 = [⟨.send, 1, 9, 100, 1, -1, 7, .pending⟩] := by decide +kernel

/-- C12: the incomplete requests 3 (tag 5) and 4 (tag 9) of `H8`. -/
example : accepts 9 5 = false := by
  obtain ⟨M, lst, hi⟩ := H8_ok.inv
  exact C12_no_pending_pair H8_ok (x := 1) (y := 2) (a := ⟨.send, 0, 5, 101, 1, -1, 3, .pending⟩)
    (b := ⟨.recv, 0, 9, 200, 1, -1, 4, .pending⟩) (by decide +kernel) (by decide +kernel) (by decide +kernel)
    (by decide +kernel) rfl rfl rfl
    (hi.incomplete (i := 1) (o := ⟨.send, 0, 5, 101, 1, -1, 3, .pending⟩) (by decide +kernel) (by decide +kernel) rfl)
    (hi.incomplete (i := 2) (o := ⟨.recv, 0, 9, 200, 1, -1, 4, .pending⟩) (by decide +kernel) (by decide +kernel) rfl)

example : (MPI_Wait H8.s 3 .null).aborted = true := by decide +kernel

end MpiSerial
