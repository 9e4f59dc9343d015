import Verif.Proofs.Blocking
import Verif.Props.Match

/-!
# Requests, status, blocking calls, probes (C13-C17, C21, C45)

Notation as in `Props/Match.lean`.  `262143` is the number of handles the table can hold (C03): a call
that needs a new request when all are in use aborts.
-/

set_option linter.unusedSimpArgs false
set_option autoImplicit false

namespace MpiSerial

section
variable {env : Env} {s s' : Sys} {L L' : Ledger}

/-! ## C13 -/

/-- C13, nonblocking: the request of a matched receive reports source 0 and the tag the sender gave, by
MPI_Test and by MPI_Wait. -/
theorem C13_status (hr : Reach env s L) {h : Int} {i j : Nat} {o : Op} (hm : (h, Obj.req i) ∈ L.objs)
    (ho : L.ops[i]? = some o) (hk : o.kind = .recv) (hst : o.st = .matched j) :
    ∃ p, L.ops[j]? = some p ∧ p.kind = .send ∧ CompleteAs s h 0 p.tag ∧
      ∀ st, ∃ s', MPI_Wait s h (.obj st) = .ok (s', 0, .obj { st with MPI_SOURCE := 0, MPI_TAG := p.tag }) := by
  obtain ⟨M, lst, hi⟩ := hr.inv
  obtain ⟨p, h1, _, h3, _⟩ := hr.opsInv.sym i j o ho hst
  refine ⟨p, h1, by rw [h3, hk]; rfl, hi.completeAs hm ho hk hst h1, ?_⟩
  obtain ⟨t, src, tag, hd, _, hw⟩ := wait_done hi hm ho (by rw [hst]; simp)
  have := hd hk
  rw [hst] at this
  obtain ⟨rfl, p', h4, rfl⟩ := this
  rw [h1] at h4
  cases h4
  intro st
  exact ⟨_, hw _⟩

/-- C13, MPI_Recv: the status tells source 0 and the tag of the message taken. -/
theorem C13_recv (hr : Reach env s L) {comm : Int} {c : Nat} (hcm : (comm, .comm c) ∈ L.objs)
    (hu : L.unmatched < 2147483647) {buf count dtype src tag : Int} (hsrc : src = 0 ∨ src = MPI_ANY_SOURCE)
    {st : Status} {st' : StPtr}
    (hok : MPI_Recv env s buf count dtype src tag comm (.obj st) = .ok (s', st')) :
    ∃ j o, Earliest L .send c (fun t => accepts tag t) j o ∧
      st' = .obj { st with MPI_SOURCE := 0, MPI_TAG := o.tag, get_count := count } := by
  obtain ⟨M, lst, hi⟩ := hr.inv
  rcases recv_spec (env := env) hi hcm hu hsrc buf count dtype tag (.obj st) (by simp) with
    ⟨_, h⟩ | ⟨_, _, h⟩ | ⟨_, j, o, h, X, M', S, hp, hj, _, _, h6, _⟩
  · rw [hok] at h; cases h
  · rw [hok] at h; cases h
  · obtain ⟨o', he⟩ := partner_earliest hp
    have := he.1
    rw [hj] at this
    cases this
    refine ⟨j, o, he, ?_⟩
    rw [hok] at h6
    obtain ⟨m, _, h7⟩ := Res.bind_eq_ok.1 h6.symm
    simp only [Res.ok.injEq, Prod.mk.injEq] at h7
    exact h7.2.symm

theorem unmatched_post_le {k : Kind} {c : Nat} {tag buf count dtype h : Int} :
    (L.post k c tag buf count dtype h).unmatched ≤ L.unmatched + 1 := by
  cases hp : L.partner c k tag with
  | none => rw [unmatched_post_none hp]; exact Nat.le_refl _
  | some j =>
    rw [Ledger.post_some hp]
    obtain ⟨A, o, B, hops, rfl, _, _⟩ := Ledger.partner_some hp
    unfold Ledger.unmatched
    dsimp only
    rw [hops, settle_split]
    simp only [List.countP_append, List.countP_cons, List.countP_nil]
    simp
    omega

theorem isend_dest (hi : ∃ M lst, Inv s L M lst) {comm : Int} {c : Nat} (hcm : (comm, Obj.comm c) ∈ L.objs)
    {buf count dtype dest tag : Int} (hd : dest ≠ 0 ∧ dest ≠ MPI_PROC_NULL) :
    (MPI_Isend env s buf count dtype dest tag comm).aborted = true := by
  obtain ⟨M, lst, hi⟩ := hi
  unfold MPI_Isend
  rw [Sys.ptr_live hi.hst (mem_keys hcm), Res.ok_bind]
  dsimp only
  rw [if_pos hd]
  rfl

/-- C13, MPI_Sendrecv: the receive half reports source 0 and the tag of the message it took: the
earliest message waiting for it, or the one just sent. -/
theorem C13_sendrecv (hr : Reach env s L) {comm : Int} {c : Nat} (hcm : (comm, .comm c) ∈ L.objs)
    (hu : L.unmatched + 1 < 2147483647) {sbuf scount stype dest stag rbuf rcount rtype src rtag : Int}
    (hsrc : src = 0 ∨ src = MPI_ANY_SOURCE) {st : Status} {st' : StPtr}
    (hok : MPI_Sendrecv env s sbuf scount stype dest stag rbuf rcount rtype src rtag comm (.obj st) = .ok (s', st')) :
    ∃ tag, st' = .obj { st with MPI_SOURCE := 0, MPI_TAG := tag } ∧
      ((∃ j o, Earliest L .send c (fun t => accepts rtag t) j o ∧ tag = o.tag) ∨
       (NoOpen L .send c (fun t => accepts rtag t) ∧ tag = stag ∧ accepts rtag stag = true)) := by
  obtain ⟨M, lst, hi⟩ := hr.inv
  unfold MPI_Sendrecv at hok
  obtain ⟨⟨s1, h1⟩, hirecv, hok⟩ := Res.bind_eq_ok.1 hok
  obtain ⟨s2, hsend, hok⟩ := Res.bind_eq_ok.1 hok
  obtain ⟨⟨s3, h3, st3⟩, hwait, hok⟩ := Res.bind_eq_ok.1 hok
  simp only [Res.pure_eq, Res.ok.injEq, Prod.mk.injEq] at hok
  obtain ⟨rfl, rfl⟩ := hok
  try dsimp only at hsend
  try dsimp only at hwait
  obtain ⟨⟨M1, hi1⟩, hn1, _⟩ := posted hi hcm
    (irecv_spec (env := env) hi hcm (by omega) hsrc rbuf rcount rtype rtag) hirecv
  have hnew := post_new (L := L) .recv c rtag rbuf rcount rtype h1
  generalize hL1 : L.post .recv c rtag rbuf rcount rtype h1 = L1 at *
  have hobj1 : L1.objs = (h1, .req L.ops.length) :: L.objs := by rw [← hL1]; exact post_objs ..
  have hcm1 : (comm, Obj.comm c) ∈ L1.objs := by rw [hobj1]; exact List.mem_cons_of_mem _ hcm
  have hu1 : L1.unmatched < 2147483647 := by
    have := unmatched_post_le (L := L) (k := .recv) (c := c) (tag := rtag) (buf := rbuf) (count := rcount)
      (dtype := rtype) (h := h1)
    rw [hL1] at this; omega
  -- the state before the final wait
  have key : ∃ (L2 : Ledger) (M2 : AbsLists Loc), Inv s2 L2 M2 lst ∧ (h1, Obj.req L.ops.length) ∈ L2.objs ∧
      (∀ (i : Nat) (o : Op), L1.ops[i]? = some o → ∃ o' : Op, L2.ops[i]? = some o' ∧ o'.tag = o.tag ∧ o'.kind = o.kind ∧
        (o.st ≠ .pending → o' = o) ∧
        (o.st = .pending → o'.kind = .recv → o'.st = .pending ∨ ∃ (y : Nat) (p : Op), o'.st = .matched y ∧ L2.ops[y]? = some p ∧
          p.tag = stag ∧ accepts o.tag stag = true)) := by
    by_cases hd : dest = 0
    · subst hd
      rcases send_spec (env := env) hi1 hcm1 hu1 sbuf scount stype stag with
        ⟨_, h⟩ | ⟨_, _, h⟩ | ⟨_, j, o, h, X, M2, S, hp, hj, _, hn2, h6, h7⟩
      · rw [hsend] at h; cases h
      · rw [hsend] at h; cases h
      · rw [hsend] at h6
        obtain ⟨m, _, h8⟩ := Res.bind_eq_ok.1 h6.symm
        simp only [Res.ok.injEq] at h8
        subst h8
        refine ⟨_, M2, (h7 m).2, ?_, ?_⟩
        · rw [mem_release]
          refine ⟨mem_post (by rw [hobj1]; simp), fun he => hn2 ?_⟩
          rw [hobj1, ← he]; simp
        · intro i o' hio'
          have ho := post_old .send c stag sbuf scount stype h hio'
          by_cases he : L1.partner c .send stag = some i
          · rw [if_pos he] at ho
            obtain ⟨o2, hear⟩ := partner_earliest he
            have := hear.1
            rw [hio'] at this
            cases this
            refine ⟨_, ho, rfl, rfl, fun hne => absurd hear.2.1.2.2 hne, fun _ _ => Or.inr ⟨_, _, rfl, post_new .send c stag sbuf scount stype h, rfl, ?_⟩⟩
            exact hear.2.2.1
          · rw [if_neg he] at ho
            exact ⟨o', ho, rfl, rfl, fun _ => rfl, fun h _ => Or.inl h⟩
    · by_cases hd2 : dest = MPI_PROC_NULL
      · subst hd2
        rcases sendNull_spec (env := env) hi1 (Or.inr (mem_keys hcm1)) sbuf scount stype stag with
          ⟨_, h⟩ | ⟨_, s2', h, hn2, _, h3, h4⟩
        · rw [hsend] at h; cases h
        · rw [hsend] at h3
          cases h3
          refine ⟨_, M1, h4, ?_, ?_⟩
          · rw [mem_release]
            refine ⟨List.mem_cons_of_mem _ (by rw [hobj1]; simp), fun he => hn2 ?_⟩
            rw [hobj1, ← he]; simp
          · intro i o hio
            exact ⟨o, getElem?_append_some hio, rfl, rfl, fun _ => rfl, fun h _ => Or.inl h⟩
      · have h := isend_dest (env := env) ⟨M1, lst, hi1⟩ hcm1 (buf := sbuf) (count := scount) (dtype := stype)
          (tag := stag) ⟨hd, hd2⟩
        unfold MPI_Send at hsend
        obtain ⟨x, h4, _⟩ := Res.bind_eq_ok.1 hsend
        rw [h4] at h
        cases h
  obtain ⟨L2, M2, hi2, hlive, hops⟩ := key
  obtain ⟨o2, q1, q2, q3, q4, q5⟩ := hops _ _ hnew
  have hdone : o2.st ≠ .pending := by
    intro hp
    have := wait_pending hi2 hlive q1 hp (.obj st)
    rw [hwait] at this
    cases this
  obtain ⟨t, src', tag', hd, _, hw⟩ := wait_done hi2 hlive q1 hdone
  have hw' := hw (.obj st)
  rw [hwait] at hw'
  obtain ⟨st4, h4, h5⟩ := Res.bind_eq_ok.1 hw'.symm
  simp only [Res.ok.injEq, Prod.mk.injEq] at h5
  simp only [StPtr.put, Res.ok.injEq] at h4
  obtain ⟨_, _, rfl⟩ := h5
  have hdd := hd q3
  cases hp : L.partner c .recv rtag with
  | some j =>
    rw [hp] at q4
    have he := q4 (by simp)
    rw [he] at hdd
    obtain ⟨rfl, p, h6, rfl⟩ := hdd
    obtain ⟨o, hear⟩ := partner_earliest hp
    have h7 := post_old .recv c rtag rbuf rcount rtype h1 hear.1
    rw [hL1] at h7
    obtain ⟨p', h8, h9, _⟩ := hops _ _ h7
    rw [h6] at h8
    cases h8
    refine ⟨_, h4.symm, Or.inl ⟨j, o, hear, ?_⟩⟩
    rw [h9]
    split <;> rfl
  | none =>
    rw [hp] at q5
    rcases q5 rfl q3 with h6 | ⟨y, p, h6, h7, h8, h9⟩
    · exact absurd h6 hdone
    · rw [h6] at hdd
      obtain ⟨rfl, p', h10, rfl⟩ := hdd
      rw [h7] at h10
      cases h10
      exact ⟨_, h4.symm, Or.inr ⟨partner_noOpen hp, h8, h9⟩⟩

/-! ## C14 -/

/-- C14: MPI_Test reports a request complete exactly if its operation was matched or was addressed to
MPI_PROC_NULL, and incomplete otherwise. -/
theorem C14_test (hr : Reach env s L) {h : Int} {i : Nat} {o : Op} (hm : (h, Obj.req i) ∈ L.objs)
    (ho : L.ops[i]? = some o) :
    (Complete s h ↔ (∃ j, o.st = .matched j) ∨ o.st = .null) ∧ (Incomplete s h ↔ o.st = .pending) := by
  obtain ⟨M, lst, hi⟩ := hr.inv
  refine ⟨?_, hi.incomplete_iff hm ho⟩
  rw [hi.complete_iff hm ho]
  cases o.st <;> simp

/-- C14: MPI_Wait returns exactly if the operation was matched or was addressed to MPI_PROC_NULL; it
aborts otherwise. -/
theorem C14_wait (hr : Reach env s L) {h : Int} {i : Nat} {o : Op} (hm : (h, Obj.req i) ∈ L.objs)
    (ho : L.ops[i]? = some o) {st : StPtr} (hst : st ≠ .bad) :
    ((MPI_Wait s h st).returned = true ↔ (∃ j, o.st = .matched j) ∨ o.st = .null) ∧
    ((MPI_Wait s h st).aborted = true ↔ o.st = .pending) := by
  obtain ⟨M, lst, hi⟩ := hr.inv
  by_cases hp : o.st = .pending
  · have h1 := wait_pending hi hm ho hp st
    rw [hp]
    revert h1
    cases MPI_Wait s h st <;> simp [Res.aborted, Res.returned]
  · obtain ⟨t, src, tag, _, _, hw⟩ := wait_done hi hm ho hp
    rw [hw st]
    cases st with
    | bad => exact absurd rfl hst
    | _ => revert hp; cases o.st <;> simp [StPtr.put, Res.aborted, Res.returned]

/-! ## C15 -/

/-- C15, MPI_Send, MPI_Ssend, MPI_Rsend to rank 0: they abort if no receive waits for the message;
if one does, the outcome is that of copying the data to the earliest such receive - in particular they
return whenever the copy does. -/
theorem C15_send (hr : Reach env s L) {comm : Int} {c : Nat} (hcm : (comm, .comm c) ∈ L.objs)
    (hu : L.unmatched < 2147483647) {f : Env → Sys → Int → Int → Int → Int → Int → Int → Res Sys}
    (hf : f = MPI_Send ∨ f = MPI_Ssend ∨ f = MPI_Rsend) (buf count dtype tag : Int) :
    (NoOpen L .recv c (fun t => accepts t tag) → (f env s buf count dtype 0 tag comm).aborted = true) ∧
    (∀ j o, Earliest L .recv c (fun t => accepts t tag) j o → L.objs.length < 262143 →
      ∀ st dt, L.desc env.cfg dtype = some st → L.desc env.cfg o.dtype = some dt →
      ∃ S : Mem → Sys, (∀ m, (S m).mem = m) ∧ f env s buf count dtype 0 tag comm =
        (Pcopy_data2 env.cfg s.mem buf count st o.buf o.count dt >>= fun m => .ok (S m))) := by
  obtain ⟨M, lst, hi⟩ := hr.inv
  have hf' : f = MPI_Send := by rcases hf with h | h | h <;> exact h
  subst hf'
  rcases send_spec (env := env) hi hcm hu buf count dtype tag with
    ⟨h1, h2⟩ | ⟨h1, h2, h3⟩ | ⟨h1, j, o, h, X, M', S, hp, hj, hX, _, h6, h7⟩
  · exact ⟨fun _ => h2, fun _ _ _ hlt => by omega⟩
  · refine ⟨fun _ => h3, fun j o he => ?_⟩
    have := earliest_partner (k := .send) he
    rw [h2] at this; cases this
  · refine ⟨fun hno => ?_, fun j' o' he _ st dt hst hdt => ⟨S, fun m => (h7 m).1, ?_⟩⟩
    · have := noOpen_partner (k := .send) hno
      rw [hp] at this; cases this
    · have := earliest_partner (k := .send) he
      rw [hp] at this
      cases this
      have := he.1
      rw [hj] at this
      cases this
      rw [h6, hX st dt hst (by rw [if_pos rfl]; exact hdt), if_pos rfl]

/-- C15, MPI_Recv from rank 0 or MPI_ANY_SOURCE: it aborts if no message it accepts is pending; if one
is, the outcome is that of copying the data of the earliest such message. -/
theorem C15_recv (hr : Reach env s L) {comm : Int} {c : Nat} (hcm : (comm, .comm c) ∈ L.objs)
    (hu : L.unmatched < 2147483647) {src : Int} (hsrc : src = 0 ∨ src = MPI_ANY_SOURCE)
    (buf count dtype tag : Int) {st : StPtr} (hst : st ≠ .bad) :
    (NoOpen L .send c (fun t => accepts tag t) → (MPI_Recv env s buf count dtype src tag comm st).aborted = true) ∧
    (∀ j o, Earliest L .send c (fun t => accepts tag t) j o → L.objs.length < 262143 →
      ∀ dt, L.desc env.cfg dtype = some dt →
      ∃ S : Mem → Sys, (∀ m, (S m).mem = m) ∧ MPI_Recv env s buf count dtype src tag comm st =
        (Pcopy_data2 env.cfg s.mem o.buf count dt buf count dt >>= fun m => .ok (S m,
          st.map (fun st => { st with MPI_SOURCE := 0, MPI_TAG := o.tag, get_count := count })))) := by
  obtain ⟨M, lst, hi⟩ := hr.inv
  rcases recv_spec (env := env) hi hcm hu hsrc buf count dtype tag st hst with
    ⟨h1, h2⟩ | ⟨h1, h2, h3⟩ | ⟨h1, j, o, h, X, M', S, hp, hj, hX, _, h6, h7⟩
  · exact ⟨fun _ => h2, fun _ _ _ hlt => by omega⟩
  · refine ⟨fun _ => h3, fun j o he => ?_⟩
    have := earliest_partner (k := .recv) he
    rw [h2] at this; cases this
  · refine ⟨fun hno => ?_, fun j' o' he _ dt hdt => ⟨S, fun m => (h7 m).1, ?_⟩⟩
    · have := noOpen_partner (k := .recv) hno
      rw [hp] at this; cases this
    · have := earliest_partner (k := .recv) he
      rw [hp] at this
      cases this
      have := he.1
      rw [hj] at this
      cases this
      rw [h6, hX dt dt hdt (by rw [if_neg (by simp)]; exact hdt), if_neg (by simp)]

theorem Inv.readComplete {M : AbsLists Loc} {lst : Nat → Kind → Nat} (hi : Inv s L M lst) {h : Int} {i : Nat}
    {o : Op} (hm : (h, Obj.req i) ∈ L.objs) (ho : L.ops[i]? = some o) :
    ∃ r, s.ptr h = .ok (s, some (locOf h)) ∧ s.req (some (locOf h)) = .ok r ∧
      (r.complete = 0 ↔ o.st = .pending) := by
  obtain ⟨o', r, h1, _, h2, h3⟩ := hi.req _ _ hm
  rw [ho] at h1
  cases h1
  refine ⟨r, Sys.ptr_live hi.hst (mem_keys hm), Sys.req_live hi.hst (mem_keys hm) h2, ?_⟩
  unfold RecOk at h3
  cases hst : o.st <;> rw [hst] at h3 <;> simp [h3.1]

/-- C15, MPI_Irsend to rank 0: it aborts exactly if no receive waits for the message (or no handle is
left); otherwise the outcome is that of copying the data, with a complete request. -/
theorem C15_irsend (hr : Reach env s L) {comm : Int} {c : Nat} (hcm : (comm, .comm c) ∈ L.objs)
    (hu : L.unmatched < 2147483647) (buf count dtype tag : Int) :
    (NoOpen L .recv c (fun t => accepts t tag) → (MPI_Irsend env s buf count dtype 0 tag comm).aborted = true) ∧
    (∀ j o, Earliest L .recv c (fun t => accepts t tag) j o → L.objs.length < 262143 →
      ∀ st dt, L.desc env.cfg dtype = some st → L.desc env.cfg o.dtype = some dt →
      ∃ (S : Mem → Sys) (h : Int), (∀ m, (S m).mem = m ∧ Complete (S m) h ∧ CompleteAs (S m) o.h 0 tag) ∧
        MPI_Irsend env s buf count dtype 0 tag comm =
        (Pcopy_data2 env.cfg s.mem buf count st o.buf o.count dt >>= fun m => .ok (S m, h))) := by
  obtain ⟨M, lst, hi⟩ := hr.inv
  rcases isend_spec (env := env) hi hcm hu buf count dtype tag with
    ⟨hl, ha⟩ | ⟨hl, hp, s1, h1, M', hok, hm, hn, hi'⟩ | ⟨hl, j, o, s1, h1, M', X, hp, hj, hok, hn, hX, hi'⟩
  · refine ⟨fun _ => ?_, fun _ _ _ hlt => by omega⟩
    unfold MPI_Irsend
    revert ha
    cases MPI_Isend env s buf count dtype 0 tag comm <;> simp [Res.aborted]
  · refine ⟨fun _ => ?_, fun j o he => ?_⟩
    · have hnewo := post_new (L := L) .send c tag buf count dtype h1
      rw [hp] at hnewo
      obtain ⟨r, h2, h3, h4⟩ := hi'.readComplete (h := h1) (by rw [post_objs]; simp) hnewo
      unfold MPI_Irsend
      rw [hok, Res.ok_bind]
      dsimp only
      rw [h2, Res.ok_bind]
      dsimp only
      rw [h3, Res.ok_bind, if_pos (h4.2 rfl)]
      rfl
    · have := earliest_partner (k := .send) he
      rw [hp] at this; cases this
  · refine ⟨fun hno => ?_, fun j' o' he _ st dt hst hdt => ?_⟩
    · have := noOpen_partner (k := .send) hno
      rw [hp] at this; cases this
    · have := earliest_partner (k := .send) he
      rw [hp] at this
      cases this
      have := he.1
      rw [hj] at this
      cases this
      have hX' := hX st dt hst (by rw [if_pos rfl]; exact hdt)
      rw [if_pos rfl] at hX'
      have hnewo := post_new (L := L) .send c tag buf count dtype h1
      rw [hp] at hnewo
      have hold := post_old .send c tag buf count dtype h1 hj
      rw [if_pos hp] at hold
      refine ⟨fun m => { s1 with mem := m }, h1, fun m => ?_, ?_⟩
      · have him := hi'.setMem m
        refine ⟨rfl, him.complete (i := L.ops.length) (by rw [post_objs]; simp) hnewo (by simp), ?_⟩
        have hkr : o.kind = .recv := he.2.1.1
        refine him.completeAs (i := j) (j := L.ops.length) ?_ hold hkr rfl hnewo
        rw [post_objs]
        exact List.mem_cons_of_mem _ (hi.held j o hj he.2.1.2.2 comm (by rw [he.2.1.2.1]; exact hcm))
      · unfold MPI_Irsend
        rw [hok, ← hX']
        cases X with
        | ok m =>
          have him := hi'.setMem m
          obtain ⟨r, h2, h3, h4⟩ := him.readComplete (h := h1) (i := L.ops.length) (by rw [post_objs]; simp) hnewo
          rw [Res.ok_bind, Res.ok_bind]
          dsimp only
          rw [h2, Res.ok_bind]
          dsimp only
          rw [h3, Res.ok_bind, if_neg (fun h => by have := h4.1 h; simp at this)]
          rfl
        | _ => rfl

/-- C15, MPI_PROC_NULL: the blocking calls and MPI_Irsend return (while a handle is left) and change no
memory. -/
theorem C15_null (hr : Reach env s L) {comm : Int} (hc : comm = MPI_COMM_NULL ∨ comm ∈ L.objs.map Prod.fst)
    (hroom : L.objs.length < 262143) (buf count dtype tag : Int) {st : StPtr} (hst : st ≠ .bad) :
    (∀ f, f = MPI_Send ∨ f = MPI_Ssend ∨ f = MPI_Rsend →
      ∃ s', f env s buf count dtype MPI_PROC_NULL tag comm = .ok s' ∧ s'.mem = s.mem) ∧
    (∃ s' h, MPI_Irsend env s buf count dtype MPI_PROC_NULL tag comm = .ok (s', h) ∧ s'.mem = s.mem) ∧
    (∃ s' st', MPI_Recv env s buf count dtype MPI_PROC_NULL tag comm st = .ok (s', st') ∧ s'.mem = s.mem) := by
  obtain ⟨M, lst, hi⟩ := hr.inv
  refine ⟨fun f hf => ?_, ?_, ?_⟩
  · have hf' : f = MPI_Send := by rcases hf with h | h | h <;> exact h
    subst hf'
    rcases sendNull_spec (env := env) hi hc buf count dtype tag with ⟨h1, _⟩ | ⟨_, s', h, _, h2, h3, _⟩
    · omega
    · exact ⟨s', h3, h2⟩
  · rcases isendNull_spec (env := env) hi hc buf count dtype tag with ⟨h1, _⟩ | ⟨_, s', h, h2, h3, h4, h5⟩
    · omega
    · obtain ⟨r, h6, h7, h8⟩ := h5.readComplete (h := h) (i := L.ops.length)
        (o := ⟨.send, 0, tag, buf, count, dtype, h, .null⟩) (by simp [Ledger.postNull]) (by simp [Ledger.postNull])
      refine ⟨s', h, ?_, h3⟩
      unfold MPI_Irsend
      rw [h2, Res.ok_bind]
      dsimp only
      rw [h6, Res.ok_bind]
      dsimp only
      rw [h7, Res.ok_bind, if_neg (fun h => by have := h8.1 h; simp at this)]
      rfl
  · rcases recvNull_spec (env := env) hi hc buf count dtype tag st hst with ⟨h1, _⟩ | ⟨_, s', h, _, h2, h3, _⟩
    · omega
    · exact ⟨s', _, h3, h2⟩

/-- C15: any other destination or source aborts. -/
theorem C15_other (hr : Reach env s L) {comm : Int} {c : Nat} (hcm : (comm, .comm c) ∈ L.objs)
    (buf count dtype tag : Int) (st : StPtr) :
    (∀ dest, dest ≠ 0 → dest ≠ MPI_PROC_NULL →
      (MPI_Send env s buf count dtype dest tag comm).aborted = true ∧
      (MPI_Irsend env s buf count dtype dest tag comm).aborted = true) ∧
    (∀ src, src ≠ 0 → src ≠ MPI_ANY_SOURCE → src ≠ MPI_PROC_NULL →
      (MPI_Recv env s buf count dtype src tag comm st).aborted = true) := by
  constructor
  · intro dest h1 h2
    have h3 := isend_dest (env := env) hr.inv hcm (buf := buf) (count := count) (dtype := dtype) (tag := tag) ⟨h1, h2⟩
    unfold MPI_Send MPI_Irsend
    revert h3
    cases MPI_Isend env s buf count dtype dest tag comm <;> simp [Res.aborted]
  · intro src h1 h2 h3
    obtain ⟨M, lst, hi⟩ := hr.inv
    unfold MPI_Recv MPI_Irecv
    rw [Sys.ptr_live hi.hst (mem_keys hcm), Res.ok_bind]
    dsimp only
    rw [if_pos ⟨h1, h2, h3⟩]
    rfl

/-- C15, MPI_Sendrecv to oneself with an accepted tag, when neither queue holds an older candidate: the
outcome is that of copying the data; in particular it returns whenever the copy does. -/
theorem C15_sendrecv (hr : Reach env s L) {comm : Int} {c : Nat} (hcm : (comm, .comm c) ∈ L.objs)
    (hu : L.unmatched + 1 < 2147483647) {src : Int} (hsrc : src = 0 ∨ src = MPI_ANY_SOURCE)
    (sbuf scount stype stag rbuf rcount rtype rtag : Int) {st : StPtr} (hst : st ≠ .bad)
    (h1 : NoOpen L .send c (fun t => accepts rtag t)) (h2 : NoOpen L .recv c (fun t => accepts t stag))
    (ha : accepts rtag stag = true) (hroom : L.objs.length + 1 < 262143) {ts tr : Typestruct}
    (hts : L.desc env.cfg stype = some ts) (htr : L.desc env.cfg rtype = some tr) :
    ∃ S : Mem → Sys, (∀ m, (S m).mem = m) ∧
    MPI_Sendrecv env s sbuf scount stype 0 stag rbuf rcount rtype src rtag comm st =
      (Pcopy_data2 env.cfg s.mem sbuf scount ts rbuf rcount tr >>= fun m => .ok (S m,
        st.map (fun st => { st with MPI_SOURCE := 0, MPI_TAG := stag }))) := by
  obtain ⟨M, lst, hi⟩ := hr.inv
  exact sendrecv_self hi hcm hu hsrc sbuf scount stype stag rbuf rcount rtype rtag st hst
    (noOpen_partner (k := .recv) h1) (noOpen_partner (k := .send) h2) ha hroom hts htr

/-! ## C16 -/

theorem postNull_traffic (k : Kind) (tag buf count dtype h : Int) (k' : Kind) (c' : Nat) :
    (L.postNull k tag buf count dtype h).traffic k' c' = L.traffic k' c' := by
  unfold Ledger.traffic Ledger.postNull
  dsimp only
  rw [List.filter_append, List.filter_cons, if_neg, List.filter_nil, List.append_nil]
  simp [Op.open]

/-- What a MPI_PROC_NULL operation leaves alone: memory, completion of every other request, every
probe. -/
def Undisturbed (s : Sys) (L : Ledger) (s' : Sys) : Prop :=
  s'.mem = s.mem ∧
  (∀ h i, (h, Obj.req i) ∈ L.objs → (Complete s' h ↔ Complete s h) ∧ (Incomplete s' h ↔ Incomplete s h)) ∧
  (∀ comm c src tag st, (comm, Obj.comm c) ∈ L.objs → src = 0 ∨ src = MPI_ANY_SOURCE →
    (MPI_Iprobe s' src tag comm st >>= fun r => Res.ok r.2) =
    (MPI_Iprobe s src tag comm st >>= fun r => Res.ok r.2))

theorem null_undisturbed {M M' : AbsLists Loc} {lst lst' : Nat → Kind → Nat} {k : Kind} {tag buf count dtype h : Int}
    (hi : Inv s L M lst) (hi' : Inv s' (L.postNull k tag buf count dtype h) M' lst') (hm : s'.mem = s.mem) :
    Undisturbed s L s' := by
  refine ⟨hm, ?_, ?_⟩
  · intro h' i hh
    obtain ⟨o, ho, _⟩ := hi.opOf hh
    have hh' : (h', Obj.req i) ∈ (L.postNull k tag buf count dtype h).objs := List.mem_cons_of_mem _ hh
    have ho' := postNull_old k tag buf count dtype h ho
    rw [hi.complete_iff hh ho, hi.incomplete_iff hh ho, hi'.complete_iff hh' ho', hi'.incomplete_iff hh' ho']
    exact ⟨Iff.rfl, Iff.rfl⟩
  · intro comm c src tag' st hcm hsrc
    rw [iprobe_traffic hi hcm hsrc, iprobe_traffic hi' (List.mem_cons_of_mem _ hcm) hsrc, postNull_traffic]

/-- C16, MPI_Isend to MPI_PROC_NULL: it returns a complete request (aborting only when no handle is
left) and disturbs nothing.  The communicator handle may be null or any live handle. -/
theorem C16_isend (hr : Reach env s L) {comm : Int} (hc : comm = MPI_COMM_NULL ∨ comm ∈ L.objs.map Prod.fst)
    (hroom : L.objs.length < 262143) (buf count dtype tag : Int) :
    ∃ s' h, MPI_Isend env s buf count dtype MPI_PROC_NULL tag comm = .ok (s', h) ∧ Complete s' h ∧
      h ∉ L.objs.map Prod.fst ∧ Undisturbed s L s' := by
  obtain ⟨M, lst, hi⟩ := hr.inv
  rcases isendNull_spec (env := env) hi hc buf count dtype tag with ⟨h1, _⟩ | ⟨_, s', h, h2, h3, h4, h5⟩
  · omega
  · refine ⟨s', h, h2, ?_, h4, null_undisturbed hi h5 h3⟩
    exact h5.complete (i := L.ops.length) (o := ⟨.send, 0, tag, buf, count, dtype, h, .null⟩)
      (by simp [Ledger.postNull]) (by simp [Ledger.postNull]) (by simp)

/-- C16, MPI_Irecv from MPI_PROC_NULL: the same, and the status is (MPI_PROC_NULL, MPI_ANY_TAG). -/
theorem C16_irecv (hr : Reach env s L) {comm : Int} (hc : comm = MPI_COMM_NULL ∨ comm ∈ L.objs.map Prod.fst)
    (hroom : L.objs.length < 262143) (buf count dtype tag : Int) :
    ∃ s' h, MPI_Irecv env s buf count dtype MPI_PROC_NULL tag comm = .ok (s', h) ∧ Complete s' h ∧
      CompleteAs s' h MPI_PROC_NULL MPI_ANY_TAG ∧ h ∉ L.objs.map Prod.fst ∧ Undisturbed s L s' := by
  obtain ⟨M, lst, hi⟩ := hr.inv
  rcases irecvNull_spec (env := env) hi hc buf count dtype tag with ⟨h1, _⟩ | ⟨_, s', h, h2, h3, h4, h5⟩
  · omega
  · have hm : (h, Obj.req L.ops.length) ∈ (L.postNull .recv tag buf count dtype h).objs := by simp [Ledger.postNull]
    have ho : (L.postNull .recv tag buf count dtype h).ops[L.ops.length]? =
        some ⟨.recv, 0, tag, buf, count, dtype, h, .null⟩ := by simp [Ledger.postNull]
    exact ⟨s', h, h2, h5.complete hm ho (by simp), h5.completeAs_null hm ho rfl rfl, h4, null_undisturbed hi h5 h3⟩

/-- C16, MPI_Recv from MPI_PROC_NULL: it returns with status (MPI_PROC_NULL, MPI_ANY_TAG), memory
unchanged. -/
theorem C16_recv (hr : Reach env s L) {comm : Int} (hc : comm = MPI_COMM_NULL ∨ comm ∈ L.objs.map Prod.fst)
    (hroom : L.objs.length < 262143) (buf count dtype tag : Int) (st : Status) :
    ∃ s', MPI_Recv env s buf count dtype MPI_PROC_NULL tag comm (.obj st) = .ok (s', .obj { st with
      MPI_SOURCE := MPI_PROC_NULL, MPI_TAG := MPI_ANY_TAG, get_count := count }) ∧ s'.mem = s.mem := by
  obtain ⟨M, lst, hi⟩ := hr.inv
  rcases recvNull_spec (env := env) hi hc buf count dtype tag (.obj st) (by simp) with ⟨h1, _⟩ | ⟨_, s', h, _, h2, h3, _⟩
  · omega
  · exact ⟨s', h3, h2⟩

/-! ## C17 -/

/-- C17: an MPI_Test that reports completion sets the caller's handle to MPI_REQUEST_NULL, releases the
handle - it is the next one to be handed out - and changes nothing else. -/
theorem C17_test_success (hr : Reach env s L) {h : Int} {i : Nat} (hm : (h, Obj.req i) ∈ L.objs) {st : StPtr}
    {r : TestRes} (hok : MPI_Test s h st = .ok r) (hf : r.flag ≠ 0) :
    r.request = MPI_REQUEST_NULL ∧ r.flag = 1 ∧ mpi_free_handle s.handles h = .ok r.sys.handles ∧
    r.sys = { s with handles := r.sys.handles } ∧ Reach env r.sys (L.release h) ∧
    ∀ fresh, ∃ t l, mpi_alloc_handle r.sys.handles fresh = .ok (t, h, l) := by
  have hr' := hr.step (.test hm hok)
  rw [if_neg hf] at hr'
  obtain ⟨M, lst, hi⟩ := hr.inv
  obtain ⟨o, ho, _⟩ := hi.opOf hm
  have hp : o.st ≠ .pending := by
    intro hp
    rw [test_pending hi hm ho hp st] at hok
    cases hok
    exact hf rfl
  have hfree : mpi_free_handle s.handles h = .ok r.sys.handles ∧ r.sys = { s with handles := r.sys.handles } ∧
      r.request = MPI_REQUEST_NULL ∧ r.flag = 1 := by
    obtain ⟨t, src, tag, _, _, ht⟩ := test_done hi hm ho hp
    obtain ⟨t', h1, _⟩ := hi.release_req hm ho hp
    have hok' := hok
    rw [ht st] at hok
    obtain ⟨st', _, h2⟩ := Res.bind_eq_ok.1 hok
    cases h2
    refine ⟨?_, rfl, rfl, rfl⟩
    obtain ⟨r, h3, h4, h5⟩ := hi.readComplete hm ho
    have hpos := hi.hst.pos (mem_keys hm)
    unfold MPI_Test at hok'
    rw [if_neg (by omega), h3, Res.ok_bind] at hok'
    dsimp only at hok'
    rw [h4, Res.ok_bind, if_pos (fun h => hp (h5.1 h))] at hok'
    obtain ⟨st'', _, h6⟩ := Res.bind_eq_ok.1 hok'
    obtain ⟨t'', h7, h8⟩ := Res.bind_eq_ok.1 h6
    simp only [Res.pure_eq, Res.ok.injEq, TestRes.mk.injEq] at h8
    have h9 : t'' = t := congrArg Sys.handles h8.1
    rw [← h9]
    exact h7
  refine ⟨hfree.2.2.1, hfree.2.2.2, hfree.1, hfree.2.1, hr', fun fresh => ?_⟩
  obtain ⟨t, l, h1, _⟩ := hi.hst.lifo (mem_keys hm) hfree.1 fresh
  exact ⟨t, l, h1⟩

/-- C17: MPI_Wait that returns is an MPI_Test that reports completion. -/
theorem C17_wait_success (hr : Reach env s L) {h : Int} {i : Nat} (hm : (h, Obj.req i) ∈ L.objs) {st st' : StPtr}
    {h' : Int} (hok : MPI_Wait s h st = .ok (s', h', st')) :
    h' = MPI_REQUEST_NULL ∧ mpi_free_handle s.handles h = .ok s'.handles ∧
    s' = { s with handles := s'.handles } ∧ Reach env s' (L.release h) ∧
    ∀ fresh, ∃ t l, mpi_alloc_handle s'.handles fresh = .ok (t, h, l) := by
  unfold MPI_Wait at hok
  obtain ⟨r, h1, h2⟩ := Res.bind_eq_ok.1 hok
  split at h2
  · cases h2
  next hf =>
    simp only [Res.pure_eq, Res.ok.injEq, Prod.mk.injEq] at h2
    obtain ⟨rfl, rfl, rfl⟩ := h2
    obtain ⟨q1, _, q2, q3, q4, q5⟩ := C17_test_success hr hm h1 hf
    exact ⟨q1, q2, q3, q4, q5⟩

/-- MPI_Test called `n + 1` times in a row with the caller's variables. -/
def testTimes : Nat → Sys → Int → StPtr → Res TestRes
  | 0, s, h, st => MPI_Test s h st
  | n + 1, s, h, st => MPI_Test s h st >>= fun r => testTimes n r.sys r.request r.status

/-- C17: an MPI_Test that reports no completion changes nothing at all, however often it is
repeated. -/
theorem C17_test_unsuccessful (hr : Reach env s L) {h : Int} {i : Nat} (hm : (h, Obj.req i) ∈ L.objs) {st : StPtr}
    {r : TestRes} (hok : MPI_Test s h st = .ok r) (hf : r.flag = 0) (n : Nat) :
    testTimes n s h st = .ok ⟨s, h, 0, st⟩ := by
  obtain ⟨M, lst, hi⟩ := hr.inv
  obtain ⟨o, ho, _⟩ := hi.opOf hm
  have hp : o.st = .pending := by
    by_cases hp : o.st = .pending
    · exact hp
    · obtain ⟨t, src, tag, _, _, ht⟩ := test_done hi hm ho hp
      rw [ht st] at hok
      obtain ⟨st', _, h2⟩ := Res.bind_eq_ok.1 hok
      cases h2
      cases hf
  have h1 := test_pending hi hm ho hp st
  induction n with
  | zero => exact h1
  | succ n ih => unfold testTimes; rw [h1, Res.ok_bind]; exact ih

/-- C17: MPI_Test and MPI_Wait on MPI_REQUEST_NULL succeed at once, with the empty status, in every
state. -/
theorem C17_null (s : Sys) (st : Status) :
    MPI_Test s MPI_REQUEST_NULL (.obj st) =
      .ok ⟨s, MPI_REQUEST_NULL, 1, .obj { st with MPI_SOURCE := MPI_ANY_SOURCE, MPI_TAG := MPI_ANY_TAG }⟩ ∧
    MPI_Test s MPI_REQUEST_NULL .null = .ok ⟨s, MPI_REQUEST_NULL, 1, .null⟩ ∧
    MPI_Wait s MPI_REQUEST_NULL (.obj st) =
      .ok (s, MPI_REQUEST_NULL, .obj { st with MPI_SOURCE := MPI_ANY_SOURCE, MPI_TAG := MPI_ANY_TAG }) ∧
    MPI_Wait s MPI_REQUEST_NULL .null = .ok (s, MPI_REQUEST_NULL, .null) := ⟨rfl, rfl, rfl, rfl⟩

/-! ## C21 -/

/-- C21: either no unmatched message on the communicator is acceptable: then MPI_Iprobe reports flag 0,
MPI_Probe aborts, and a receive posted now does not complete; or there is an earliest such message: then
MPI_Iprobe reports flag 1, source 0 and its tag, MPI_Probe returns the same, and a receive posted now
takes that message.  Neither changes anything. -/
theorem C21_iprobe (hr : Reach env s L) {comm : Int} {c : Nat} (hcm : (comm, .comm c) ∈ L.objs) {src : Int}
    (hsrc : src = 0 ∨ src = MPI_ANY_SOURCE) (tag : Int) :
    (NoOpen L .send c (fun t => accepts tag t) ∧
      (∀ st, MPI_Iprobe s src tag comm st = .ok (s, 0, st) ∧ (MPI_Probe s src tag comm st).aborted = true) ∧
      ∀ buf count dtype s' h, L.unmatched < 2147483647 →
        MPI_Irecv env s buf count dtype src tag comm = .ok (s', h) → Incomplete s' h) ∨
    (∃ j o, Earliest L .send c (fun t => accepts tag t) j o ∧
      (∀ st, st ≠ .bad → MPI_Iprobe s src tag comm st = .ok (s, 1, st.map fun st => { st with MPI_SOURCE := 0, MPI_TAG := o.tag }) ∧
        MPI_Probe s src tag comm st = .ok (s, st.map fun st => { st with MPI_SOURCE := 0, MPI_TAG := o.tag })) ∧
      ∀ buf count dtype s' h, L.unmatched < 2147483647 →
        MPI_Irecv env s buf count dtype src tag comm = .ok (s', h) →
        CompleteAs s' h 0 o.tag ∧ Incomplete s o.h ∧ Complete s' o.h ∧
        ∀ dt, L.desc env.cfg dtype = some dt →
          Pcopy_data2 env.cfg s.mem o.buf count dt buf count dt = .ok s'.mem) := by
  obtain ⟨M, lst, hi⟩ := hr.inv
  have hne : src ≠ MPI_PROC_NULL := by rcases hsrc with h | h <;> subst h <;> decide
  cases hp : L.partner c .recv tag with
  | none =>
    left
    have hpr : ∀ st, MPI_Iprobe s src tag comm st = .ok (s, 0, st) := by
      intro st
      rcases iprobe_spec hi hcm hsrc tag st with ⟨_, he⟩ | ⟨j, o, hp', _⟩
      · exact he
      · rw [hp] at hp'; cases hp'
    refine ⟨partner_noOpen hp, fun st => ⟨hpr st, ?_⟩, ?_⟩
    · unfold MPI_Probe
      rw [hpr st, Res.ok_bind]
      dsimp only
      rw [if_pos rfl]
      rfl
    · intro buf count dtype s' h hu hok
      rcases C09_irecv hr hcm hu hne hok with ⟨_, _, h1, _⟩ | ⟨j, o, he, _⟩
      · exact h1
      · have := earliest_partner (k := .recv) he
        rw [hp] at this; cases this
  | some j =>
    right
    obtain ⟨o, he⟩ := partner_earliest hp
    have hpr : ∀ st, st ≠ .bad → MPI_Iprobe s src tag comm st =
        .ok (s, 1, st.map fun st => { st with MPI_SOURCE := 0, MPI_TAG := o.tag }) := by
      intro st hst
      rcases iprobe_spec hi hcm hsrc tag st with ⟨hp', _⟩ | ⟨j', o', hp', ho', h1⟩
      · rw [hp] at hp'; cases hp'
      · rw [hp] at hp'
        cases hp'
        have := he.1
        rw [ho'] at this
        cases this
        rw [h1]
        cases st with
        | bad => exact absurd rfl hst
        | _ => rfl
    refine ⟨j, o, he, fun st hst => ⟨hpr st hst, ?_⟩, ?_⟩
    · unfold MPI_Probe
      rw [hpr st hst, Res.ok_bind]
      dsimp only
      rw [if_neg (by decide)]
      rfl
    · intro buf count dtype s' h hu hok
      rcases C09_irecv hr hcm hu hne hok with ⟨h1, _⟩ | ⟨j', o', he', h1, h2, h3, _, h4⟩
      · have := noOpen_partner (k := .recv) h1
        rw [hp] at this; cases this
      · obtain ⟨rfl, rfl⟩ := he.unique he'
        exact ⟨h2, hi.incomplete h1 he.1 he.2.1.2.2, h3, h4⟩

/-- C21: probing any other source aborts (as does the receive, C15). -/
theorem C21_other (hr : Reach env s L) {comm : Int} {c : Nat} (hcm : (comm, .comm c) ∈ L.objs) {src : Int}
    (h1 : src ≠ 0) (h2 : src ≠ MPI_ANY_SOURCE) (tag : Int) (st : StPtr) :
    (MPI_Iprobe s src tag comm st).aborted = true ∧ (MPI_Probe s src tag comm st).aborted = true := by
  obtain ⟨M, lst, hi⟩ := hr.inv
  have : (MPI_Iprobe s src tag comm st) = .abort "MPI_Irecv: bad source" := by
    unfold MPI_Iprobe
    rw [Sys.ptr_live hi.hst (mem_keys hcm), Res.ok_bind]
    dsimp only
    rw [if_pos ⟨h1, h2⟩]
  unfold MPI_Probe
  rw [this]
  exact ⟨rfl, rfl⟩

/-! ## C45 -/

theorem post_release_objs {k : Kind} {c : Nat} {tag buf count dtype h : Int} (hn : h ∉ L.objs.map Prod.fst) :
    ((L.post k c tag buf count dtype h).release h).objs = L.objs := by
  unfold Ledger.release
  dsimp only
  rw [post_objs, List.filter_cons, if_neg (by simp), List.filter_eq_self]
  intro e he
  rw [decide_eq_true_iff]
  exact fun h1 => hn (List.mem_map.2 ⟨e, he, h1⟩)

/-- C45, for a message at least as long as the receive: after MPI_Recv, MPI_Get_count is the number of elements
received - that many elements of the type have been copied from the sender's buffer, and it is the smaller of the
lengths of message and receive - and MPI_Get_elements that number times the entries of the type.  (Missing: messages
shorter than the receive, for which the claim is false, `C45_fails`.) -/
theorem C45_count_partial (hr : Reach env s L) {comm : Int} {c : Nat} (hcm : (comm, .comm c) ∈ L.objs)
    (hu : L.unmatched < 2147483647) {buf count dtype src tag : Int} (hsrc : src = 0 ∨ src = MPI_ANY_SOURCE)
    {st : Status} {st' : StPtr} {j : Nat} {o : Op}
    (he : Earliest L .send c (fun t => accepts tag t) j o) (hlen : count ≤ o.count)
    {t : Typestruct} (ht : L.desc env.cfg dtype = some t)
    (hok : MPI_Recv env s buf count dtype src tag comm (.obj st) = .ok (s', st')) :
    ∃ x n, st' = .obj x ∧ n = min o.count count ∧
      Pcopy_data2 env.cfg s.mem o.buf n t buf n t = .ok s'.mem ∧
      MPI_Get_count x dtype = n ∧ MPI_Get_elements env s' x dtype = .ok (s', n * t.count) := by
  obtain ⟨M, lst, hi⟩ := hr.inv
  rcases recv_spec (env := env) hi hcm hu hsrc buf count dtype tag (.obj st) (by simp) with
    ⟨_, h⟩ | ⟨_, _, h⟩ | ⟨_, j', o', h, X, M', S, hp, hj, hX, hn, h6, h7⟩
  · rw [hok] at h; cases h
  · rw [hok] at h; cases h
  · have hp' := earliest_partner (k := .recv) he
    rw [hp] at hp'
    cases hp'
    rw [he.1] at hj
    cases hj
    rw [hok] at h6
    obtain ⟨m, hm, h8⟩ := Res.bind_eq_ok.1 h6.symm
    simp only [Res.ok.injEq, Prod.mk.injEq] at h8
    obtain ⟨rfl, rfl⟩ := h8
    have hX' := hX _ _ ht (by rw [if_neg (by simp)]; exact ht)
    rw [if_neg (by simp), hm] at hX'
    refine ⟨_, count, rfl, by omega, by rw [(h7 m).1]; exact hX'.symm, rfl, ?_⟩
    have hd : ((L.post .recv c tag buf count dtype h).release h).desc env.cfg dtype = some t := by
      unfold Ledger.desc at ht ⊢
      rw [post_release_objs hn]
      exact ht
    have hfit : ck32 (t.count * count) = .ok (t.count * count) := by
      unfold Pcopy_data2 at hX'
      split at hX'
      · cases hX'
      · obtain ⟨a, ha, _⟩ := Res.bind_eq_ok.1 hX'.symm
        unfold ck32 at ha ⊢
        split at ha
        · next hh => rw [if_pos hh]
        · cases ha
    unfold MPI_Get_elements
    rw [(h7 m).2.typeOf hd, Res.ok_bind]
    dsimp only
    rw [Int.mul_comm, hfit, Int.mul_comm]
    rfl

/-- C45, in general (no assumption on the state): the count MPI_Recv leaves in the status is the one of the receive,
whatever was sent - also for a receive from MPI_PROC_NULL, which gets nothing. -/
theorem C45_reported (env : Env) (s s' : Sys) (buf count dtype src tag comm : Int) (st : Status) (st' : StPtr)
    (hok : MPI_Recv env s buf count dtype src tag comm (.obj st) = .ok (s', st')) :
    ∃ x, st' = .obj x ∧ ∀ t, MPI_Get_count x t = count := by
  unfold MPI_Recv at hok
  obtain ⟨⟨s1, h⟩, _, hok⟩ := Res.bind_eq_ok.1 hok
  obtain ⟨⟨s2, h', p⟩, _, hok⟩ := Res.bind_eq_ok.1 hok
  cases p with
  | null =>
    exfalso
    rename_i h2
    unfold MPI_Wait at h2
    obtain ⟨r, hr, h2⟩ := Res.bind_eq_ok.1 h2
    split at h2
    · cases h2
    · have h2 := Res.ok.inj h2
      have : r.status = .null := congrArg (fun z => z.2.2) h2
      revert hr
      unfold MPI_Test
      intro hr
      split at hr
      · cases hr
        cases this
      · obtain ⟨⟨s3, q⟩, _, hr⟩ := Res.bind_eq_ok.1 hr
        obtain ⟨r', _, hr⟩ := Res.bind_eq_ok.1 hr
        split at hr
        · obtain ⟨z, hz, hr⟩ := Res.bind_eq_ok.1 hr
          cases hz
          obtain ⟨t, _, hr⟩ := Res.bind_eq_ok.1 hr
          cases hr
          cases this
        · cases hr
          cases this
  | obj x =>
    cases hok
    exact ⟨_, rfl, fun _ => rfl⟩
  | bad => cases hok

/-- C45 fails whenever the message is shorter than the receive: the number reported is not the number sent. -/
theorem C45_fails_always {env : Env} {s s' : Sys} {L : Ledger} {c j : Nat} {o : Op} {buf count dtype src tag comm : Int} {st : Status} {st' : StPtr}
    (_he : Earliest L .send c (fun t => accepts tag t) j o) (hlt : o.count < count)
    (hok : MPI_Recv env s buf count dtype src tag comm (.obj st) = .ok (s', st')) :
    ∃ x, st' = .obj x ∧ MPI_Get_count x dtype ≠ o.count := by
  obtain ⟨x, h1, h2⟩ := C45_reported env s s' buf count dtype src tag comm st st' hok
  exact ⟨x, h1, by rw [h2]; omega⟩

/-- The calls that complete nonblocking receives, MPI_Sendrecv and the probes never set the count: what MPI_Get_count
returns afterwards is what the status held before the call. -/
theorem C45_fails_nonblocking (env : Env) (s : Sys) (st : Status) :
    (∀ h r, MPI_Test s h (.obj st) = .ok r → ∃ x, r.status = .obj x ∧ x.get_count = st.get_count) ∧
    (∀ h r, MPI_Wait s h (.obj st) = .ok r → ∃ x, r.2.2 = .obj x ∧ x.get_count = st.get_count) ∧
    (∀ sb sc stt d sg rb rc rt src rg comm r, MPI_Sendrecv env s sb sc stt d sg rb rc rt src rg comm (.obj st) = .ok r →
      ∃ x, r.2 = .obj x ∧ x.get_count = st.get_count) ∧
    (∀ src tag comm r, MPI_Probe s src tag comm (.obj st) = .ok r → ∃ x, r.2 = .obj x ∧ x.get_count = st.get_count) := by
  have test : ∀ s h r, MPI_Test s h (.obj st) = .ok r → ∃ x, r.status = .obj x ∧ x.get_count = st.get_count := by
    intro s h r hr
    unfold MPI_Test at hr
    split at hr
    · cases hr
      exact ⟨_, rfl, rfl⟩
    · obtain ⟨⟨s3, q⟩, _, hr⟩ := Res.bind_eq_ok.1 hr
      obtain ⟨r', _, hr⟩ := Res.bind_eq_ok.1 hr
      split at hr
      · obtain ⟨z, hz, hr⟩ := Res.bind_eq_ok.1 hr
        cases hz
        obtain ⟨t, _, hr⟩ := Res.bind_eq_ok.1 hr
        cases hr
        exact ⟨_, rfl, rfl⟩
      · cases hr
        exact ⟨_, rfl, rfl⟩
  have wait : ∀ s h r, MPI_Wait s h (.obj st) = .ok r → ∃ x, r.2.2 = .obj x ∧ x.get_count = st.get_count := by
    intro s h r hr
    unfold MPI_Wait at hr
    obtain ⟨q, hq, hr⟩ := Res.bind_eq_ok.1 hr
    split at hr
    · cases hr
    · cases hr
      exact test s h q hq
  refine ⟨test s, wait s, ?_, ?_⟩
  · intro sb sc stt d sg rb rc rt src rg comm r hr
    unfold MPI_Sendrecv at hr
    obtain ⟨⟨s1, h⟩, _, hr⟩ := Res.bind_eq_ok.1 hr
    obtain ⟨s2, _, hr⟩ := Res.bind_eq_ok.1 hr
    obtain ⟨q, hq, hr⟩ := Res.bind_eq_ok.1 hr
    cases hr
    exact wait s2 h q hq
  · intro src tag comm r hr
    unfold MPI_Probe at hr
    obtain ⟨⟨s1, f, p⟩, h1, hr⟩ := Res.bind_eq_ok.1 hr
    dsimp only at hr
    split at hr
    · cases hr
    · next hf =>
      cases hr
      unfold MPI_Iprobe at h1
      obtain ⟨⟨s2, q⟩, _, h1⟩ := Res.bind_eq_ok.1 h1
      dsimp only at h1
      split at h1
      · cases h1
      · obtain ⟨c, _, h1⟩ := Res.bind_eq_ok.1 h1
        obtain ⟨fd, _, h1⟩ := Res.bind_eq_ok.1 h1
        split at h1
        · cases h1
          exact absurd rfl hf
        · obtain ⟨a, _, h1⟩ := Res.bind_eq_ok.1 h1
          obtain ⟨b, _, h1⟩ := Res.bind_eq_ok.1 h1
          obtain ⟨z, hz, h1⟩ := Res.bind_eq_ok.1 h1
          cases hz
          cases h1
          exact ⟨_, rfl, rfl⟩

end

/-- One message of one byte, tag 7, pending on MPI_COMM_WORLD. -/
def HC : Demo := H1.isend 100 1 (-1) 7 1 0
theorem HC_ok : HC.Ok := Demo.isend_ok H1_ok (by decide +kernel) (by decide +kernel)

/-- C45 is false for a message shorter than the receive: one element (of type MPI_CHAR, -1) was sent,
three are reported - and three are copied out of the sender's buffer, recv.c:81. -/
theorem C45_fails : Reach env0 HC.s HC.L ∧ (∃ o, Earliest HC.L .send 0 (fun t => accepts 7 t) 0 o ∧ o.count = 1) ∧
    ∃ s' st', MPI_Recv env0 HC.s 300 3 (-1) 0 7 1 (.obj ⟨0, 0, 0, 0⟩) = .ok (s', .obj st') ∧
      MPI_Get_count st' (-1) = 3 ∧ s'.mem 302 = some 3 := by
  refine ⟨HC_ok, ⟨⟨.send, 0, 7, 100, 1, -1, 2, .pending⟩, ⟨by decide +kernel, by decide, by decide, ?_⟩, rfl⟩, ?_⟩
  · intro j' o' hlt; omega
  · have h1 : (MPI_Recv env0 HC.s 300 3 (-1) 0 7 1 (.obj ⟨0, 0, 0, 0⟩)).returned = true := by decide +kernel
    have h2 := Res.eq_getD (HC.s, StPtr.null) h1
    have h3 : ((MPI_Recv env0 HC.s 300 3 (-1) 0 7 1 (.obj ⟨0, 0, 0, 0⟩)).getD (HC.s, StPtr.null)).2 =
        .obj ⟨0, 7, 0, 3⟩ := by decide +kernel
    have h4 : ((MPI_Recv env0 HC.s 300 3 (-1) 0 7 1 (.obj ⟨0, 0, 0, 0⟩)).getD (HC.s, StPtr.null)).1.mem 302 = some 3 := by
      decide +kernel
    generalize (MPI_Recv env0 HC.s 300 3 (-1) 0 7 1 (.obj ⟨0, 0, 0, 0⟩)).getD (HC.s, StPtr.null) = x at h2 h3 h4
    obtain ⟨s', st'⟩ := x
    dsimp only at h3 h4
    subst h3
    exact ⟨s', _, h2, rfl, h4⟩

/-- C45_fails_always: `HC`; C45_reported: nothing is received, three elements are reported; C45_fails_nonblocking: the
count 7 of the status survives. -/
example {s' : Sys} {st' : StPtr} (h : MPI_Recv env0 HC.s 300 3 (-1) 0 7 1 (.obj ⟨0, 0, 0, 0⟩) = .ok (s', st')) :
    ∃ x, st' = .obj x ∧ MPI_Get_count x (-1) ≠ 1 :=
  C45_fails_always (L := HC.L) (c := 0) (j := 0) (o := ⟨.send, 0, 7, 100, 1, -1, 2, .pending⟩)
    ⟨by decide +kernel, by decide, by decide, fun _ _ h => absurd h (Nat.not_lt_zero _)⟩ (by decide) h
example : ((MPI_Recv env0 HC.s 300 3 (-1) (-2) 7 1 (.obj ⟨0, 0, 0, 0⟩)).getD (HC.s, .null)).2 = .obj ⟨-2, -1, 0, 3⟩ := by
  decide +kernel
example : ((MPI_Irecv env0 HC.s 300 1 (-1) 0 7 1 >>= fun x => MPI_Wait x.1 x.2 (.obj ⟨0, 0, 0, 7⟩)).getD (HC.s, 0, .null)).2.2 =
    .obj ⟨0, 7, 0, 7⟩ := by decide +kernel

/-! ## The hypotheses can be met

`H8` (`Proofs/Demo.lean`): on MPI_COMM_WORLD a message with tag 5 (request 3) and a receive for tag 9
(request 4) are pending, request 5 is a receive for any tag that took a message with tag 5, request 8 a
receive from MPI_PROC_NULL. -/

/-- C13_status: request 5. -/
example : CompleteAs H8.s 5 0 5 := by
  obtain ⟨p, h1, _, h2, _⟩ := C13_status H8_ok (h := 5) (i := 3) (j := 0)
    (o := ⟨.recv, 0, -1, 300, 3, -1, 5, .matched 0⟩) (by decide +kernel) (by decide +kernel) rfl rfl
  rw [H8_ops] at h1
  cases h1
  exact h2

/-- C13_recv, C15_recv: MPI_Recv of any tag takes the message with tag 5. -/
example : (MPI_Recv env0 H8.s 500 1 (-1) 0 (-1) 1 (.obj ⟨7, 7, 7, 7⟩)).getD (H8.s, .null) |>.2 |>
    (· = .obj ⟨0, 5, 7, 1⟩) := by decide +kernel

/-- C13_sendrecv, C15_sendrecv: a message with tag 6 to oneself; and with a receive for any tag, which
takes the older message with tag 5 instead (then nobody takes the message just sent: deadlock). -/
example : (MPI_Sendrecv env0 H8.s 102 1 (-1) 0 6 600 1 (-1) 0 6 1 (.obj ⟨7, 7, 7, 7⟩)).getD (H8.s, .null) |>
    (fun r => r.2 = .obj ⟨0, 6, 7, 7⟩ ∧ r.1.mem 600 = some 3) := by decide +kernel
example : (MPI_Sendrecv env0 H8.s 102 1 (-1) 0 6 600 1 (-1) 0 (-1) 1 (.obj ⟨7, 7, 7, 7⟩)).aborted = true := by
  decide +kernel
example : (MPI_Sendrecv env0 H8.s 102 1 (-1) 0 9 600 1 (-1) 0 (-1) 1 (.obj ⟨7, 7, 7, 7⟩)).getD (H8.s, .null) |>
    (fun r => r.2 = .obj ⟨0, 5, 7, 7⟩ ∧ r.1.mem 600 = some 2 ∧ r.1.mem 200 = some 3) := by decide +kernel

/-- C14: requests 3 (pending), 5 (matched), 8 (MPI_PROC_NULL). -/
example : (MPI_Wait H8.s 3 .null).aborted = true ∧ (MPI_Wait H8.s 5 .null).returned = true ∧
    (MPI_Wait H8.s 8 .null).returned = true := by decide +kernel
example : Incomplete H8.s 3 := (C14_test H8_ok (i := 1) (o := ⟨.send, 0, 5, 101, 1, -1, 3, .pending⟩)
  (by decide +kernel) (by decide +kernel)).2.2 rfl

/-- C15_send, C15_irsend: tag 9 finds a receive, tag 5 does not. -/
example : (MPI_Send env0 H8.s 102 1 (-1) 0 9 1).getD H8.s |>.mem 200 |> (· = some 3) := by decide +kernel
example : (MPI_Ssend env0 H8.s 102 1 (-1) 0 5 1).aborted = true := by decide +kernel
example : (MPI_Irsend env0 H8.s 102 1 (-1) 0 9 1).returned = true ∧
    (MPI_Irsend env0 H8.s 102 1 (-1) 0 5 1).aborted = true := by decide +kernel

/-- C15_null, C16. -/
example : ∃ s' h, MPI_Irecv env0 H8.s 0 7 (-1) MPI_PROC_NULL 5 1 = .ok (s', h) ∧
    CompleteAs s' h MPI_PROC_NULL MPI_ANY_TAG ∧ Undisturbed H8.s H8.L s' := by
  obtain ⟨s', h, h1, _, h2, _, h3⟩ := C16_irecv H8_ok (comm := 1) (Or.inr (by decide +kernel)) (by decide +kernel) 0 7 (-1) 5
  exact ⟨s', h, h1, h2, h3⟩

/-- C17: request 5 succeeds, request 3 does not. -/
example : (MPI_Test H8.s 5 .null).getD ⟨H8.s, 0, 0, .null⟩ |> (fun r => r.flag = 1 ∧ r.request = 0) := by
  decide +kernel
example : (MPI_Test H8.s 3 .null).getD ⟨H8.s, 0, 7, .null⟩ |> (fun r => r.flag = 0 ∧ r.request = 3) := by
  decide +kernel

/-- C21: on MPI_COMM_WORLD any tag finds the message with tag 5, tag 9 finds none. -/
example : (MPI_Probe H8.s 0 (-1) 1 (.obj ⟨7, 7, 7, 7⟩)).getD (H8.s, .null) |>.2 |> (· = .obj ⟨0, 5, 7, 7⟩) := by
  decide +kernel
example : (MPI_Probe H8.s 0 9 1 .null).aborted = true := by decide +kernel

/-- C45_count_partial: three elements sent; three, or two, received. -/
example : (MPI_Recv env0 H2.s 300 2 (-1) 0 5 1 (.obj ⟨7, 7, 7, 7⟩)).getD (H2.s, .null) |>.2 |>
    (· = .obj ⟨0, 5, 7, 2⟩) := by decide +kernel
example : (MPI_Recv env0 H2.s 300 3 (-1) 0 5 1 (.obj ⟨7, 7, 7, 7⟩)).getD (H2.s, .null) |>.2 |>
    (· = .obj ⟨0, 5, 7, 3⟩) := by decide +kernel

end MpiSerial
