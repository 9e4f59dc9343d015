import Verif.Proofs.Observe

/-!
# Blocking calls: post, then MPI_Wait
-/

set_option linter.unusedSimpArgs false
set_option autoImplicit false

namespace MpiSerial

section
variable {env : Env} {s s' : Sys} {L L' : Ledger} {M : AbsLists Loc} {lst : Nat → Kind → Nat}

/-- What the copy of a matched pair is, when both types are live. -/
def CopyIs (env : Env) (L : Ledger) (m : Mem) (k : Kind) (buf count dtype : Int) (o : Op) (X : Res Mem) : Prop :=
  ∀ st dt, L.desc env.cfg dtype = some st → L.desc env.cfg (if k = .send then o.dtype else dtype) = some dt →
    X = (if k = .send then Pcopy_data2 env.cfg m buf count st o.buf o.count dt
         else Pcopy_data2 env.cfg m o.buf count st buf count st)

/-- Post and wait: `r` is the outcome of the post. -/
theorem post_wait {k : Kind} {c : Nat} {tag buf count dtype : Int}
    {r : Res (Sys × Int)} (hps : PostSpec env s L lst k c tag buf count dtype r) (st : StPtr) :
    (L.objs.length = 262143 ∧ r.aborted = true ∧ (r >>= fun x => MPI_Wait x.1 x.2 st).aborted = true) ∨
    (L.objs.length < 262143 ∧ L.partner c k tag = none ∧ r.returned = true ∧
      (r >>= fun x => MPI_Wait x.1 x.2 st).aborted = true) ∨
    (L.objs.length < 262143 ∧ ∃ j o h X M' src tag', ∃ S : Mem → Sys, L.partner c k tag = some j ∧
      L.ops[j]? = some o ∧ CopyIs env L s.mem k buf count dtype o X ∧ h ∉ L.objs.map Prod.fst ∧
      (r >>= fun x => MPI_Wait x.1 x.2 st) =
        (X >>= fun m => StPtr.put st src tag' >>= fun st' => .ok (S m, 0, st')) ∧
      (k = .recv → src = 0 ∧ tag' = o.tag) ∧
      ∀ m, (S m).mem = m ∧ Inv (S m) ((L.post k c tag buf count dtype h).release h) M' lst) := by
  have hobj := fun h => post_objs (L := L) k c tag buf count dtype h
  rcases hps with ⟨hl, ha⟩ | ⟨hl, hp, s1, h1, M', hr, hm, hn, hi'⟩ | ⟨hl, j, o, s1, h1, M', X, hp, hj, hr, hn, hX, hi'⟩
  · left
    refine ⟨hl, ha, ?_⟩
    cases r <;> simp [Res.aborted] at ha ⊢
  · right; left
    refine ⟨hl, hp, by rw [hr]; rfl, ?_⟩
    rw [hr, Res.ok_bind]
    have hnewo := post_new (L := L) k c tag buf count dtype h1
    rw [hp] at hnewo
    exact wait_pending hi' (by rw [hobj]; simp) hnewo rfl st
  · right; right
    have hnewo := post_new (L := L) k c tag buf count dtype h1
    rw [hp] at hnewo
    have hnewm : (h1, Obj.req L.ops.length) ∈ (L.post k c tag buf count dtype h1).objs := by rw [hobj]; simp
    obtain ⟨t, src, tag', hd, hi2, hw⟩ := wait_done hi' hnewm hnewo (by simp)
    have hmem : ∀ m, ∃ s2 : Sys, (∀ st, MPI_Wait { s1 with mem := m } h1 st =
        (StPtr.put st src tag' >>= fun st' => .ok (s2, 0, st'))) ∧ s2.mem = m ∧
        Inv s2 ((L.post k c tag buf count dtype h1).release h1) M' lst := by
      intro m
      obtain ⟨o1, r1, q1, _, q2, q3⟩ := hi'.req _ _ hnewm
      have hi'' := hi'.setMem m
      obtain ⟨o2, r2, p1, _, p2, p3⟩ := hi''.req _ _ hnewm
      obtain ⟨t2, src2, tag2, hd2, hi3, hw2⟩ := wait_done hi'' hnewm hnewo (by simp)
      refine ⟨_, ?_, rfl, hi3⟩
      -- the two runs read the same record
      have e1 := hw (.obj ⟨0, 0, 0, 0⟩)
      have e2 := hw2 (.obj ⟨0, 0, 0, 0⟩)
      have hpos := hi'.hst.pos (mem_keys hnewm)
      unfold MPI_Wait MPI_Test at e1 e2
      rw [if_neg (by omega), Sys.ptr_live hi'.hst (mem_keys hnewm), Res.ok_bind] at e1
      rw [if_neg (by omega), Sys.ptr_live hi''.hst (mem_keys hnewm), Res.ok_bind] at e2
      dsimp only at e1 e2
      rw [Sys.req_live hi'.hst (mem_keys hnewm) q2, Res.ok_bind] at e1
      have q2' : dataAt { s1 with mem := m } h1 = .req r1 := q2
      rw [Sys.req_live hi''.hst (mem_keys hnewm) q2', Res.ok_bind] at e2
      have hcomp : r1.complete ≠ 0 := by
        rw [hnewo] at q1
        cases q1
        unfold RecOk at q3
        have : r1.complete = 1 := q3.1
        omega
      rw [if_pos hcomp] at e1 e2
      simp only [StPtr.put, Res.ok_bind] at e1 e2
      obtain ⟨t1, f1, _⟩ := hi'.hst.free (mem_keys hnewm)
      rw [f1] at e1
      have f1' : mpi_free_handle ({ s1 with mem := m } : Sys).handles h1 = .ok t1 := f1
      rw [f1'] at e2
      simp only [Res.ok_bind, Res.pure_eq] at e1 e2
      rw [if_neg hcomp] at e1 e2
      simp only [Res.ok.injEq, Prod.mk.injEq, StPtr.obj.injEq, Status.mk.injEq] at e1 e2
      have g1 : src2 = src := by rw [← e1.2.2.1, ← e2.2.2.1]
      have g2 : tag2 = tag' := by rw [← e1.2.2.2.1, ← e2.2.2.2.1]
      intro st
      rw [hw2 st, g1, g2]
    obtain ⟨S, hS⟩ := Classical.axiomOfChoice hmem
    refine ⟨hl, j, o, h1, X, M', src, tag', S, hp, hj, hX, hn, ?_, ?_, fun m => ⟨(hS m).2.1, (hS m).2.2⟩⟩
    · rw [hr]
      cases X with
      | ok m => simp only [Res.ok_bind]; exact (hS m).1 st
      | abort _ => rfl
      | exit _ => rfl
      | ub _ => rfl
      | hang => rfl
    · intro hk
      have := hd hk
      dsimp only at this
      obtain ⟨h2, p, h3, h4⟩ := this
      have hjo := post_old k c tag buf count dtype h1 hj
      rw [if_pos hp, h3] at hjo
      cases hjo
      exact ⟨h2, h4⟩

theorem send_eq (buf count dtype dest tag comm : Int) :
    MPI_Send env s buf count dtype dest tag comm =
      ((MPI_Isend env s buf count dtype dest tag comm >>= fun x => MPI_Wait x.1 x.2 (.obj ⟨0, 0, 0, 0⟩)) >>=
        fun y => .ok y.1) := by
  rw [bind_assoc]; rfl

/-- `status->get_count = count` when a status was supplied. -/
def setCount (count : Int) : StPtr → Res StPtr
  | .null => .ok .null
  | .obj st => .ok (.obj { st with get_count := count })
  | .bad => .ub .memAccess

theorem recv_eq (buf count dtype src tag comm : Int) (st : StPtr) :
    MPI_Recv env s buf count dtype src tag comm st =
      ((MPI_Irecv env s buf count dtype src tag comm >>= fun x => MPI_Wait x.1 x.2 st) >>=
        fun y => setCount count y.2.2 >>= fun st' => .ok (y.1, st')) := by
  unfold MPI_Recv
  rw [bind_assoc]
  congr 1
  funext x
  dsimp only
  cases MPI_Wait x.1 x.2 st with
  | ok y =>
    simp only [Res.ok_bind]
    obtain ⟨y1, y2, y3⟩ := y
    cases y3 <;> rfl
  | abort _ => rfl
  | exit _ => rfl
  | ub _ => rfl
  | hang => rfl

/-- MPI_Send to rank 0. -/
theorem send_spec (hi : Inv s L M lst) {comm : Int} {c : Nat} (hcm : (comm, Obj.comm c) ∈ L.objs)
    (hu : L.unmatched < 2147483647) (buf count dtype tag : Int) :
    (L.objs.length = 262143 ∧ (MPI_Send env s buf count dtype 0 tag comm).aborted = true) ∨
    (L.objs.length < 262143 ∧ L.partner c .send tag = none ∧
      (MPI_Send env s buf count dtype 0 tag comm).aborted = true) ∨
    (L.objs.length < 262143 ∧ ∃ j o h X M', ∃ S : Mem → Sys, L.partner c .send tag = some j ∧
      L.ops[j]? = some o ∧ CopyIs env L s.mem .send buf count dtype o X ∧ h ∉ L.objs.map Prod.fst ∧
      MPI_Send env s buf count dtype 0 tag comm = (X >>= fun m => .ok (S m)) ∧
      ∀ m, (S m).mem = m ∧ Inv (S m) ((L.post .send c tag buf count dtype h).release h) M' lst) := by
  rw [send_eq]
  rcases post_wait (isend_spec (env := env) hi hcm hu buf count dtype tag) (.obj ⟨0, 0, 0, 0⟩) with
    ⟨h1, _, h2⟩ | ⟨h1, h2, _, h3⟩ | ⟨h1, j, o, h, X, M', src, tag', S, h2, h3, h4, h5, h6, _, h7⟩
  · left
    refine ⟨h1, ?_⟩
    revert h2
    generalize (MPI_Isend env s buf count dtype 0 tag comm >>= _) = r
    intro h2
    cases r <;> simp [Res.aborted] at h2 ⊢
  · right; left
    refine ⟨h1, h2, ?_⟩
    revert h3
    generalize (MPI_Isend env s buf count dtype 0 tag comm >>= _) = r
    intro h3
    cases r <;> simp [Res.aborted] at h3 ⊢
  · right; right
    refine ⟨h1, j, o, h, X, M', S, h2, h3, h4, h5, ?_, h7⟩
    rw [h6]
    cases X <;> rfl

/-- MPI_Recv from rank 0 or any source. -/
theorem recv_spec (hi : Inv s L M lst) {comm : Int} {c : Nat} (hcm : (comm, Obj.comm c) ∈ L.objs)
    (hu : L.unmatched < 2147483647) {src : Int} (hsrc : src = 0 ∨ src = MPI_ANY_SOURCE)
    (buf count dtype tag : Int) (st : StPtr) (hst : st ≠ .bad) :
    (L.objs.length = 262143 ∧ (MPI_Recv env s buf count dtype src tag comm st).aborted = true) ∨
    (L.objs.length < 262143 ∧ L.partner c .recv tag = none ∧
      (MPI_Recv env s buf count dtype src tag comm st).aborted = true) ∨
    (L.objs.length < 262143 ∧ ∃ j o h X M', ∃ S : Mem → Sys, L.partner c .recv tag = some j ∧
      L.ops[j]? = some o ∧ CopyIs env L s.mem .recv buf count dtype o X ∧ h ∉ L.objs.map Prod.fst ∧
      MPI_Recv env s buf count dtype src tag comm st = (X >>= fun m => .ok (S m,
        st.map (fun st => { st with MPI_SOURCE := 0, MPI_TAG := o.tag, get_count := count }))) ∧
      ∀ m, (S m).mem = m ∧ Inv (S m) ((L.post .recv c tag buf count dtype h).release h) M' lst) := by
  rw [recv_eq]
  rcases post_wait (irecv_spec (env := env) hi hcm hu hsrc buf count dtype tag) st with
    ⟨h1, _, h2⟩ | ⟨h1, h2, _, h3⟩ | ⟨h1, j, o, h, X, M', src', tag', S, h2, h3, h4, h5, h6, h6', h7⟩
  · left
    refine ⟨h1, ?_⟩
    revert h2
    generalize (MPI_Irecv env s buf count dtype src tag comm >>= _) = r
    intro h2
    cases r <;> simp [Res.aborted] at h2 ⊢
  · right; left
    refine ⟨h1, h2, ?_⟩
    revert h3
    generalize (MPI_Irecv env s buf count dtype src tag comm >>= _) = r
    intro h3
    cases r <;> simp [Res.aborted] at h3 ⊢
  · right; right
    refine ⟨h1, j, o, h, X, M', S, h2, h3, h4, h5, ?_, h7⟩
    rw [h6]
    obtain ⟨rfl, rfl⟩ := h6' rfl
    cases X <;> cases st <;> first | rfl | exact absurd rfl hst

/-! ## MPI_PROC_NULL -/

theorem null_wait {k : Kind} {tag buf count dtype : Int} {r : Res (Sys × Int)}
    (hn : NullSpec s L M lst k tag buf count dtype r) (st : StPtr) :
    (L.objs.length = 262143 ∧ (r >>= fun x => MPI_Wait x.1 x.2 st).aborted = true) ∨
    (L.objs.length < 262143 ∧ ∃ s' h src tag', h ∉ L.objs.map Prod.fst ∧ s'.mem = s.mem ∧
      (r >>= fun x => MPI_Wait x.1 x.2 st) = (StPtr.put st src tag' >>= fun st' => .ok (s', 0, st')) ∧
      (k = .recv → src = MPI_PROC_NULL ∧ tag' = MPI_ANY_TAG) ∧
      Inv s' ((L.postNull k tag buf count dtype h).release h) M lst) := by
  rcases hn with ⟨hl, ha⟩ | ⟨hl, s1, h, hr, hm, hn, hi⟩
  · left
    refine ⟨hl, ?_⟩
    cases r <;> simp [Res.aborted] at ha ⊢
  · right
    have hnewm : (h, Obj.req L.ops.length) ∈ (L.postNull k tag buf count dtype h).objs := by
      simp [Ledger.postNull]
    have hnewo : (L.postNull k tag buf count dtype h).ops[L.ops.length]? =
        some ⟨k, 0, tag, buf, count, dtype, h, .null⟩ := by simp [Ledger.postNull]
    obtain ⟨t, src, tag', hd, hi2, hw⟩ := wait_done hi hnewm hnewo (by simp)
    refine ⟨hl, { s1 with handles := t }, h, src, tag', hn, hm, ?_, ?_, hi2⟩
    · rw [hr, Res.ok_bind]; exact hw st
    · intro hk; exact hd hk

theorem sendNull_spec (hi : Inv s L M lst) {comm : Int}
    (hc : comm = MPI_COMM_NULL ∨ comm ∈ L.objs.map Prod.fst) (buf count dtype tag : Int) :
    (L.objs.length = 262143 ∧ (MPI_Send env s buf count dtype MPI_PROC_NULL tag comm).aborted = true) ∨
    (L.objs.length < 262143 ∧ ∃ s' h, h ∉ L.objs.map Prod.fst ∧ s'.mem = s.mem ∧
      MPI_Send env s buf count dtype MPI_PROC_NULL tag comm = .ok s' ∧
      Inv s' ((L.postNull .send tag buf count dtype h).release h) M lst) := by
  rw [send_eq]
  rcases null_wait (isendNull_spec (env := env) hi hc buf count dtype tag) (.obj ⟨0, 0, 0, 0⟩) with
    ⟨h1, h2⟩ | ⟨h1, s', h, src, tag', h2, h3, h4, _, h5⟩
  · left
    refine ⟨h1, ?_⟩
    revert h2
    generalize (MPI_Isend env s buf count dtype MPI_PROC_NULL tag comm >>= _) = r
    intro h2
    cases r <;> simp [Res.aborted] at h2 ⊢
  · right
    refine ⟨h1, s', h, h2, h3, ?_, h5⟩
    rw [h4]; rfl

theorem recvNull_spec (hi : Inv s L M lst) {comm : Int}
    (hc : comm = MPI_COMM_NULL ∨ comm ∈ L.objs.map Prod.fst) (buf count dtype tag : Int) (st : StPtr)
    (hst : st ≠ .bad) :
    (L.objs.length = 262143 ∧ (MPI_Recv env s buf count dtype MPI_PROC_NULL tag comm st).aborted = true) ∨
    (L.objs.length < 262143 ∧ ∃ s' h, h ∉ L.objs.map Prod.fst ∧ s'.mem = s.mem ∧
      MPI_Recv env s buf count dtype MPI_PROC_NULL tag comm st = .ok (s',
        st.map (fun st => { st with MPI_SOURCE := MPI_PROC_NULL, MPI_TAG := MPI_ANY_TAG, get_count := count })) ∧
      Inv s' ((L.postNull .recv tag buf count dtype h).release h) M lst) := by
  rw [recv_eq]
  rcases null_wait (irecvNull_spec (env := env) hi hc buf count dtype tag) st with
    ⟨h1, h2⟩ | ⟨h1, s', h, src, tag', h2, h3, h4, h4', h5⟩
  · left
    refine ⟨h1, ?_⟩
    revert h2
    generalize (MPI_Irecv env s buf count dtype MPI_PROC_NULL tag comm >>= _) = r
    intro h2
    cases r <;> simp [Res.aborted] at h2 ⊢
  · right
    refine ⟨h1, s', h, h2, h3, ?_, h5⟩
    obtain ⟨rfl, rfl⟩ := h4' rfl
    rw [h4]
    cases st <;> first | rfl | exact absurd rfl hst

/-! ## MPI_Sendrecv -/

theorem desc_post {cfg : Cfg} {h' : Int} {t : Typestruct} {k : Kind} {c : Nat} {tag buf count dtype h : Int}
    (hn : h ∉ L.objs.map Prod.fst) (hd : L.desc cfg h' = some t) :
    (L.post k c tag buf count dtype h).desc cfg h' = some t := by
  unfold Ledger.desc at hd ⊢
  rw [post_objs]
  split
  · next hneg => rw [if_pos hneg] at hd; exact hd
  · next hneg =>
    rw [if_neg hneg] at hd
    by_cases he : h = h'
    · exfalso
      subst he
      have : L.objs.find? (fun e => decide (e.1 = h)) = none := by
        rw [List.find?_eq_none]
        intro e he
        rw [decide_eq_true_iff]
        exact fun h1 => hn (List.mem_map.2 ⟨e, he, h1⟩)
      rw [this] at hd
      cases hd
    · rw [List.find?_cons, show decide ((h, Obj.req L.ops.length).1 = h') = false from decide_eq_false he]
      exact hd

theorem mem_post {o : Obj} {h h' : Int} {k : Kind} {c : Nat} {tag buf count dtype : Int} (hm : (h', o) ∈ L.objs) :
    (h', o) ∈ (L.post k c tag buf count dtype h).objs := by
  rw [post_objs]; exact List.mem_cons_of_mem _ hm

theorem unmatched_post_none {k : Kind} {c : Nat} {tag buf count dtype h : Int} (hp : L.partner c k tag = none) :
    (L.post k c tag buf count dtype h).unmatched = L.unmatched + 1 := by
  rw [Ledger.post_none hp]
  unfold Ledger.unmatched
  dsimp only
  rw [List.countP_append]
  simp

/-- A receive just posted is the one that the next accepted message goes to, if no older receive wants
it. -/
theorem partner_after_recv {c : Nat} {rtag buf count dtype h stag : Int}
    (h1 : L.partner c .recv rtag = none) (h2 : L.partner c .send stag = none)
    (ha : accepts rtag stag = true) :
    (L.post .recv c rtag buf count dtype h).partner c .send stag = some L.ops.length := by
  rw [Ledger.post_none h1]
  unfold Ledger.partner
  dsimp only
  rw [List.findIdx?_append]
  unfold Ledger.partner at h2
  rw [h2]
  have hw : (⟨.recv, c, rtag, buf, count, dtype, h, .pending⟩ : Op).waits c .send stag = true := by
    rw [waits_iff]; exact ⟨⟨rfl, rfl, rfl⟩, ha⟩
  simp [List.findIdx?_cons, hw]

/-- MPI_Sendrecv with itself. -/
theorem sendrecv_self (hi : Inv s L M lst) {comm : Int} {c : Nat} (hcm : (comm, Obj.comm c) ∈ L.objs)
    (hu : L.unmatched + 1 < 2147483647) {src : Int} (hsrc : src = 0 ∨ src = MPI_ANY_SOURCE)
    (sbuf scount stype stag rbuf rcount rtype rtag : Int) (st : StPtr) (hst : st ≠ .bad)
    (h1 : L.partner c .recv rtag = none) (h2 : L.partner c .send stag = none)
    (ha : accepts rtag stag = true) (hroom : L.objs.length + 1 < 262143) {ts tr : Typestruct}
    (hts : L.desc env.cfg stype = some ts) (htr : L.desc env.cfg rtype = some tr) :
    ∃ S : Mem → Sys, (∀ m, (S m).mem = m) ∧
    MPI_Sendrecv env s sbuf scount stype 0 stag rbuf rcount rtype src rtag comm st =
      (Pcopy_data2 env.cfg s.mem sbuf scount ts rbuf rcount tr >>= fun m => .ok (S m,
        st.map (fun st => { st with MPI_SOURCE := 0, MPI_TAG := stag }))) := by
  unfold MPI_Sendrecv
  rcases irecv_spec (env := env) hi hcm (by omega) hsrc rbuf rcount rtype rtag with
    ⟨hl, _⟩ | ⟨hl, hp, s1, h, M1, hr, hm, hn, hi1⟩ | ⟨hl, j, o, s1, h, M1, X, hp, _⟩
  · omega
  rotate_left
  · rw [h1] at hp; cases hp
  rw [hr, Res.ok_bind]
  dsimp only
  have hu1 := unmatched_post_none (buf := rbuf) (count := rcount) (dtype := rtype) (h := h) h1
  have hl1 : (L.post .recv c rtag rbuf rcount rtype h).objs.length = L.objs.length + 1 := by
    rw [post_objs]; rfl
  have hp1 := partner_after_recv (buf := rbuf) (count := rcount) (dtype := rtype) (h := h) h1 h2 ha
  have hnewo := post_new (L := L) .recv c rtag rbuf rcount rtype h
  rw [h1] at hnewo
  dsimp only at hnewo
  rcases send_spec (env := env) hi1 (mem_post hcm) (by omega) sbuf scount stype stag with
    ⟨hl2, _⟩ | ⟨_, hp2, _⟩ | ⟨_, j, o, h', X, M2, S, hp2, hj, hX, hn2, hs, hS⟩
  · omega
  · rw [hp1] at hp2; cases hp2
  · rw [hp1] at hp2
    cases hp2
    rw [hnewo] at hj
    cases hj
    have hX' := hX ts tr (desc_post hn hts) (desc_post hn htr)
    rw [if_pos rfl, hm] at hX'
    dsimp only at hX'
    have hwm : ∀ m, ∃ s2 : Sys, s2.mem = m ∧ MPI_Wait (S m) h st = .ok (s2, 0,
        st.map (fun st => { st with MPI_SOURCE := 0, MPI_TAG := stag })) := by
      intro m
      obtain ⟨hSm, hiS⟩ := hS m
      have hne : h ≠ h' := fun he => hn2 (by rw [post_objs, ← he]; simp)
      have hlive : (h, Obj.req L.ops.length) ∈
          (((L.post .recv c rtag rbuf rcount rtype h).post .send c stag sbuf scount stype h').release h').objs := by
        rw [mem_release]
        refine ⟨?_, hne⟩
        apply mem_post
        rw [post_objs]; simp
      have hop := post_old .send c stag sbuf scount stype h' hnewo
      rw [if_pos hp1] at hop
      have hop2 := post_new (L := L.post .recv c rtag rbuf rcount rtype h) .send c stag sbuf scount stype h'
      obtain ⟨t, src', tag', hd, _, hw⟩ := wait_done hiS hlive hop (by simp)
      obtain ⟨q1, p, q2, q3⟩ := hd rfl
      have : p.tag = stag := by
        rw [show (((L.post .recv c rtag rbuf rcount rtype h).post .send c stag sbuf scount stype h').release h').ops
          = ((L.post .recv c rtag rbuf rcount rtype h).post .send c stag sbuf scount stype h').ops from rfl, hop2] at q2
        cases q2
        rfl
      refine ⟨{ S m with handles := t }, hSm, ?_⟩
      · rw [hw st, q1, q3, this]
        cases st <;> first | rfl | exact absurd rfl hst
    obtain ⟨S2, hS2⟩ := Classical.axiomOfChoice hwm
    refine ⟨S2, fun m => (hS2 m).1, ?_⟩
    rw [hs, hX']
    cases Pcopy_data2 env.cfg s.mem sbuf scount ts rbuf rcount tr with
    | ok m => simp only [Res.ok_bind]; rw [(hS2 m).2]; rfl
    | abort _ => rfl
    | exit _ => rfl
    | ub _ => rfl
    | hang => rfl

end

end MpiSerial
