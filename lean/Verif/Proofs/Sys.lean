import Verif.Proofs.P2P

/-!
# Every call of the system preserves the simulation invariant
-/

set_option linter.unusedSimpArgs false
set_option autoImplicit false

namespace MpiSerial

section
variable {env : Env} {s : Sys} {L : Ledger} {M : AbsLists Loc} {lst : Nat → Kind → Nat}

/-! ## Null communicator, MPI_PROC_NULL -/

theorem Inv.ptr_any (hi : Inv s L M lst) {comm : Int}
    (hc : comm = MPI_COMM_NULL ∨ comm ∈ L.objs.map Prod.fst) :
    ∃ s1 p, s.ptr comm = .ok (s1, p) ∧ Inv s1 L M lst ∧ s1.mem = s.mem := by
  by_cases hc0 : comm ∈ L.objs.map Prod.fst
  · exact ⟨s, _, Sys.ptr_live hi.hst hc0, hi, rfl⟩
  · have : comm = 0 := by
      rcases hc with h | h
      · exact h
      · exact absurd h hc0
    subst this
    rcases hi.hst with ⟨h1, h2⟩ | ⟨fl, h1⟩
    · refine ⟨{ s with handles := init_handles s.handles }, none, ?_, ?_, rfl⟩
      · unfold Sys.ptr mpi_handle_to_ptr
        rw [h1]; rfl
      · have hobj : L.objs = [] := by simpa using h2
        refine ⟨Or.inr ⟨_, by rw [h2]; exact init_handles_inv _⟩, hi.linv, ?_, ?_, ?_, ?_, ?_, ?_, hi.ocid, ?_, ?_,
          hi.tbnd, hi.num, hi.ini, hi.icap, hi.hcap, hi.ncap⟩ <;> rw [hobj] <;> simp
    · refine ⟨s, none, ?_, hi, rfl⟩
      unfold Sys.ptr mpi_handle_to_ptr
      rw [h1.init]; rfl

/-- Posting to MPI_PROC_NULL. -/
def NullSpec (s : Sys) (L : Ledger) (M : AbsLists Loc) (lst : Nat → Kind → Nat) (k : Kind)
    (tag buf count dtype : Int) (r : Res (Sys × Int)) : Prop :=
  (L.objs.length = 262143 ∧ r.aborted = true) ∨
  (L.objs.length < 262143 ∧ ∃ s' h, r = .ok (s', h) ∧ s'.mem = s.mem ∧ h ∉ L.objs.map Prod.fst ∧
    Inv s' (L.postNull k tag buf count dtype h) M lst)

theorem isendNull_spec (hi : Inv s L M lst) {comm : Int}
    (hc : comm = MPI_COMM_NULL ∨ comm ∈ L.objs.map Prod.fst) (buf count dtype tag : Int) :
    NullSpec s L M lst .send tag buf count dtype
      (MPI_Isend env s buf count dtype MPI_PROC_NULL tag comm) := by
  obtain ⟨s1, p, h1, hi1, hm1⟩ := hi.ptr_any hc
  unfold MPI_Isend
  rw [h1, Res.ok_bind]
  dsimp only
  rw [if_neg (by simp)]
  rcases allocReq_spec (env := env) hi1.hst with ⟨hlen, t, h, r0, ha, hst, hnew, hd, hold⟩ | ⟨hlen, ha⟩
  · right
    rw [ha, Res.ok_bind]
    dsimp only
    rw [if_pos rfl]
    rw [List.length_map] at hlen
    rw [Sys.modReq_live (s := { s1 with handles := t, clock := s1.clock + 1 }) hst (by simp) hd, Res.ok_bind]
    refine ⟨hlen, _, h, rfl, hm1, hnew, ?_⟩
    refine hi1.post_null (r := { r0 with complete := 1 }) (hst.setData _ _) ?_ (dataAt_put_self _ _ _)
      ⟨rfl, by simp⟩ rfl ⟨rfl, rfl, rfl, rfl⟩
    intro h' hh'
    have hp := hst.pos (List.mem_cons_self)
    have hp' := hst.pos (List.mem_cons_of_mem h hh')
    have hne : h' ≠ h := fun he => hnew (he ▸ hh')
    exact (dataAt_put_ne _ (h := h) (h' := h') (by omega) (by omega) hne).trans (hold h' hh')
  · left
    refine ⟨by simpa using hlen, ?_⟩
    cases hr : s1.allocReq env <;> rw [hr] at ha <;> simp [Res.aborted] at ha ⊢

theorem irecvNull_spec (hi : Inv s L M lst) {comm : Int}
    (hc : comm = MPI_COMM_NULL ∨ comm ∈ L.objs.map Prod.fst) (buf count dtype tag : Int) :
    NullSpec s L M lst .recv tag buf count dtype
      (MPI_Irecv env s buf count dtype MPI_PROC_NULL tag comm) := by
  obtain ⟨s1, p, h1, hi1, hm1⟩ := hi.ptr_any hc
  unfold MPI_Irecv
  rw [h1, Res.ok_bind]
  dsimp only
  rw [if_neg (by simp)]
  rcases allocReq_spec (env := env) hi1.hst with ⟨hlen, t, h, r0, ha, hst, hnew, hd, hold⟩ | ⟨hlen, ha⟩
  · right
    rw [ha, Res.ok_bind]
    dsimp only
    rw [List.length_map] at hlen
    rw [Sys.modReq_live (s := { s1 with handles := t, clock := s1.clock + 1 }) hst (by simp) hd, Res.ok_bind]
    rw [if_pos rfl]
    rw [Sys.modReq_live (HSt.put (s := { s1 with handles := t, clock := s1.clock + 1 }) hst h _) (by simp)
      (dataAt_put_self _ _ _), Res.ok_bind]
    refine ⟨hlen, _, h, rfl, hm1, hnew, ?_⟩
    rw [Sys.put_put]
    refine hi1.post_null (r := { r0 with type := dtype, count := count, complete := 1, source := -2, tag := -1 })
      (hst.setData _ _) ?_ (dataAt_put_self _ _ _) ⟨rfl, fun _ => ⟨rfl, rfl⟩⟩ rfl ⟨rfl, rfl, rfl, rfl⟩
    intro h' hh'
    have hp := hst.pos (List.mem_cons_self)
    have hp' := hst.pos (List.mem_cons_of_mem h hh')
    have hne : h' ≠ h := fun he => hnew (he ▸ hh')
    exact (dataAt_put_ne _ (h := h) (h' := h') (by omega) (by omega) hne).trans (hold h' hh')
  · left
    refine ⟨by simpa using hlen, ?_⟩
    cases hr : s1.allocReq env <;> rw [hr] at ha <;> simp [Res.aborted] at ha ⊢

/-! ## Releasing handles -/

theorem erase_fst {β : Type} {l : List (Int × β)} (hn : (l.map Prod.fst).Nodup) (h : Int) :
    (l.map Prod.fst).erase h = (l.filter (fun e => decide (e.1 ≠ h))).map Prod.fst := by
  induction l with
  | nil => rfl
  | cons x l ih =>
    simp only [List.map_cons, List.nodup_cons] at hn
    rw [List.map_cons, List.erase_cons, List.filter_cons]
    by_cases hx : x.1 = h
    · rw [if_pos (by simpa using hx), if_neg (by simpa using hx)]
      subst hx
      have : l.filter (fun e => decide (e.1 ≠ x.1)) = l := by
        rw [List.filter_eq_self]
        intro e he
        simp only [ne_eq, decide_eq_true_eq]
        exact fun h2 => hn.1 (List.mem_map.2 ⟨e, he, h2⟩)
      rw [this]
    · rw [if_neg (by simpa using hx), if_pos (by simpa using hx), List.map_cons, ih hn.2]

theorem mem_release {L : Ledger} {h h' : Int} {o : Obj} :
    (h', o) ∈ (L.release h).objs ↔ (h', o) ∈ L.objs ∧ h' ≠ h := by
  unfold Ledger.release; simp [List.mem_filter]

/-- The handle `h` is released. -/
theorem Inv.remove (hi : Inv s L M lst) {h : Int} {s' : Sys} {M' : AbsLists Loc} (nf dr : Nat)
    (hst : HSt s'.handles ((L.objs.map Prod.fst).erase h))
    (hdata : ∀ h', dataAt s' h' = dataAt s h')
    (hreq : ∀ i o, (h, Obj.req i) ∈ L.objs → L.ops[i]? = some o → o.st ≠ .pending)
    (hl : LInv s'.lists M')
    (hq : ∀ h' c k q, (h', Obj.comm c) ∈ L.objs → h' ≠ h → (lst c k, q) ∈ M → (lst c k, q) ∈ M')
    (hic : s'.lists.itemcount + dr = s.lists.itemcount + L.dropped)
    (hhc : s'.lists.headcount = 2 * (L.ncomms - nf) ∧ s'.lists.headcount ≤ 2147483647)
    (hth : ∀ h' t p, (h', Obj.dtype t) ∈ L.objs → h' ≠ h → dataAt s h' = .dtype (.heap p) →
      s'.theap p = s.theap p)
    (htb : ∀ p, s'.nextType ≤ p → s'.theap p = none) (hnum : s'.num = s.num)
    (hini : s'.initialized = s.initialized) :
    Inv s' { L.release h with nfreed := nf, dropped := dr } M' lst := by
  have hcold : ∀ (h' : Int) (o : Obj), (h', o) ∈ (L.release h).objs → (h', o) ∈ L.objs :=
    fun h' o hm => (mem_release.1 hm).1
  refine ⟨?_, hl, ?_, ?_, ?_, ?_, ?_, ?_, hi.ocid, ?_, ?_, htb, hnum.trans hi.num, hini.trans hi.ini, ?_, hhc,
    hi.ncap⟩
  · show HSt s'.handles ((L.objs.filter _).map Prod.fst)
    rw [← erase_fst hi.hst.nodup]; exact hst
  · intro h' c hm
    rw [hdata]; exact hi.comm h' c (hcold _ _ hm)
  · intro h' c hm k
    obtain ⟨q, h1, h2⟩ := hi.queue h' c (hcold _ _ hm) k
    exact ⟨q, hq _ _ _ _ (hcold _ _ hm) (mem_release.1 hm).2 h1, h2⟩
  · intro h1 c1 h2 c2 k1 k2 m1 m2
    exact hi.linj _ _ _ _ _ _ (hcold _ _ m1) (hcold _ _ m2)
  · intro h1 h2 c1 m1 m2
    exact hi.cinj _ _ _ (hcold _ _ m1) (hcold _ _ m2)
  · intro h' i hm
    rw [hdata]; exact hi.req h' i (hcold _ _ hm)
  · intro i o hio hp h' hm
    have := hi.held i o hio hp h' (hcold _ _ hm)
    refine mem_release.2 ⟨this, ?_⟩
    intro he
    exact hreq i o (he ▸ this) hio hp
  · intro h' t hm
    obtain ⟨p, h1, h2⟩ := hi.dtype h' t (hcold _ _ hm)
    refine ⟨p, (hdata _).trans h1, ?_⟩
    rw [hth h' t p (hcold _ _ hm) (mem_release.1 hm).2 h1]; exact h2
  · intro h1 t1 h2 t2 p m1 m2
    rw [hdata, hdata]
    exact hi.tinj _ _ _ _ _ (hcold _ _ m1) (hcold _ _ m2)
  · have := hi.icap
    exact ⟨hic.trans this.1, this.2⟩

/-- A finished request is released. -/
theorem Inv.release_req (hi : Inv s L M lst) {h : Int} {i : Nat} {o : Op}
    (hm : (h, Obj.req i) ∈ L.objs) (hio : L.ops[i]? = some o) (hp : o.st ≠ .pending) :
    ∃ t, mpi_free_handle s.handles h = .ok t ∧ Inv { s with handles := t } (L.release h) M lst := by
  obtain ⟨t, h1, h2, h3⟩ := hi.hst.free (mem_keys hm)
  refine ⟨t, h1, ?_⟩
  refine hi.remove (s' := { s with handles := t }) L.nfreed L.dropped h2 ?_ ?_ hi.linv ?_ rfl hi.hcap ?_ hi.tbnd rfl rfl
  · intro h'; exact h3 _
  · intro i' o' hm' hio'
    have := hi.uniq hm hm'
    simp only [Obj.req.injEq] at this
    subst this
    rw [hio] at hio'
    cases hio'
    exact hp
  · intro _ _ _ _ _ _ h; exact h
  · intros; rfl

/-! ## Completion -/

theorem test_pending (hi : Inv s L M lst) {h : Int} {i : Nat} {o : Op} (hm : (h, Obj.req i) ∈ L.objs)
    (hio : L.ops[i]? = some o) (hp : o.st = .pending) (st : StPtr) :
    MPI_Test s h st = .ok ⟨s, h, 0, st⟩ := by
  have hpos := hi.hst.pos (mem_keys hm)
  obtain ⟨o', r, h1, _, h2, h3⟩ := hi.req _ _ hm
  rw [hio] at h1
  cases h1
  unfold RecOk at h3
  rw [hp] at h3
  unfold MPI_Test
  rw [if_neg (by omega), Sys.ptr_live hi.hst (mem_keys hm), Res.ok_bind]
  dsimp only
  rw [Sys.req_live hi.hst (mem_keys hm) h2, Res.ok_bind, if_neg (by rw [h3.1]; simp), h3.1]
  rfl

/-- What MPI_Test reports for a finished operation `o`: source and tag. -/
def DoneInfo (L : Ledger) (o : Op) (src tag : Int) : Prop :=
  o.kind = .recv →
    match o.st with
    | .pending => False
    | .matched j => src = 0 ∧ ∃ p, L.ops[j]? = some p ∧ tag = p.tag
    | .null => src = MPI_PROC_NULL ∧ tag = MPI_ANY_TAG

theorem test_done (hi : Inv s L M lst) {h : Int} {i : Nat} {o : Op} (hm : (h, Obj.req i) ∈ L.objs)
    (hio : L.ops[i]? = some o) (hp : o.st ≠ .pending) :
    ∃ t src tag, DoneInfo L o src tag ∧ Inv { s with handles := t } (L.release h) M lst ∧
      ∀ st, MPI_Test s h st = (StPtr.put st src tag >>= fun st' => .ok ⟨{ s with handles := t }, 0, 1, st'⟩) := by
  have hpos := hi.hst.pos (mem_keys hm)
  obtain ⟨o', r, h1, _, h2, h3⟩ := hi.req _ _ hm
  rw [hio] at h1
  cases h1
  obtain ⟨t, h4, h5⟩ := hi.release_req hm hio hp
  refine ⟨t, r.source, r.tag, ?_, h5, ?_⟩
  · unfold RecOk at h3
    unfold DoneInfo
    intro hk
    cases hst : o.st with
    | pending => exact hp hst
    | matched j => rw [hst] at h3; exact h3.2 hk
    | null => rw [hst] at h3; exact h3.2 hk
  · intro st
    have hc : r.complete = 1 := by
      unfold RecOk at h3
      cases hst : o.st with
      | pending => exact absurd hst hp
      | matched j => rw [hst] at h3; exact h3.1
      | null => rw [hst] at h3; exact h3.1
    unfold MPI_Test
    rw [if_neg (by omega), Sys.ptr_live hi.hst (mem_keys hm), Res.ok_bind]
    dsimp only
    rw [Sys.req_live hi.hst (mem_keys hm) h2, Res.ok_bind, if_pos (by rw [hc]; simp), h4, hc]
    rfl

theorem requestFree_spec (hi : Inv s L M lst) {h : Int} {i : Nat} {o : Op} (hm : (h, Obj.req i) ∈ L.objs)
    (hio : L.ops[i]? = some o) (hp : o.st ≠ .pending) :
    ∃ s', MPI_Request_free s h = .ok (s', 0) ∧ Inv s' (L.release h) M lst ∧ s'.mem = s.mem := by
  obtain ⟨t, h4, h5⟩ := hi.release_req hm hio hp
  refine ⟨_, ?_, h5, rfl⟩
  unfold MPI_Request_free
  rw [h4]; rfl

/-! ## Communicators -/

/-- `mpi_comm_new` when the counters have room. -/
theorem commNew_spec (hi : Inv s L M lst) (h1 : L.ncomms < 2147483647)
    (h2 : L.ncomms - L.nfreed < 1073741823) :
    (L.objs.length = 262143 ∧ (mpi_comm_new s).aborted = true) ∨
    (L.objs.length < 262143 ∧ ∃ t s' h M' lst' fresh, mpi_comm_new s = .ok (s', h) ∧ s'.mem = s.mem ∧
      mpi_alloc_handle s.handles fresh = .ok (t, h, locOf h) ∧
      h ∉ L.objs.map Prod.fst ∧ Inv s' (L.addComm h) M' lst') := by
  unfold mpi_comm_new
  rcases hi.hst.alloc Slot.raw with ⟨hlen, t, h, ha, hst, hnew, hold⟩ | ⟨hlen, ha⟩
  rotate_left
  · left
    refine ⟨by simpa using hlen, ?_⟩
    cases hr : mpi_alloc_handle s.handles Slot.raw <;> rw [hr] at ha <;> simp [Res.aborted] at ha ⊢
  right
  rw [List.length_map] at hlen
  rw [ha, Res.ok_bind]
  dsimp only
  have hhc := hi.hcap
  obtain ⟨l1, b1, b2⟩ := hi.linv.new (by omega)
  have hc1 : l1.headcount = s.lists.headcount + 1 := by rw [b2.hcount, hi.linv.hcount]; simp
  rw [b1, Res.ok_bind]
  dsimp only
  obtain ⟨l2, c1, c2⟩ := b2.new (by omega)
  have hc2 : l2.headcount = s.lists.headcount + 2 := by rw [c2.hcount, hi.linv.hcount]; simp; omega
  have hic2 : l2.itemcount = s.lists.itemcount := by rw [c2.icount, hi.linv.icount]; simp
  rw [c1, Res.ok_bind]
  dsimp only
  have hnum := hi.num
  rw [ck32_ok (by omega) (by omega), Res.ok_bind]
  have hkeys := c2.keys
  simp only [List.map_cons, List.nodup_cons, List.mem_cons, not_or] at hkeys
  refine ⟨hlen, t, _, h, (l1.nextList, []) :: (s.lists.nextList, []) :: M, fun c k => if c = L.ncomms then (if k = .send then s.lists.nextList else l1.nextList)
    else lst c k, Slot.raw, rfl, rfl, ha, hnew, ?_⟩
  have hpos : ∀ h' ∈ h :: L.objs.map Prod.fst, (0 : Int) ≤ h' := fun h' hh' => by
    have := hst.pos hh'; omega
  have hdata : ∀ (d : Slot) (h' : Int), h' ∈ L.objs.map Prod.fst →
      ((t.setData (locOf h) d).items (locOf h')).data = dataAt s h' := by
    intro d h' hh'
    have hne : h' ≠ h := fun he => hnew (he ▸ hh')
    rw [HTab.setData_items, if_neg, hold h' hh']
    · rfl
    · intro he; exact hne (locOf_inj (hpos h' (List.mem_cons_of_mem _ hh')) (hpos h (by simp)) he)
  have hself : ∀ d : Slot, ((t.setData (locOf h) d).items (locOf h)).data = d := by
    intro d; rw [HTab.setData_items, if_pos rfl]
  have hcases : ∀ h' c, (h', Obj.comm c) ∈ (L.addComm h).objs → (h' = h ∧ c = L.ncomms) ∨
      ((h', Obj.comm c) ∈ L.objs ∧ c < L.ncomms) := by
    intro h' c hm
    unfold Ledger.addComm at hm
    simp only [List.mem_cons, Prod.mk.injEq, Obj.comm.injEq] at hm
    rcases hm with hm | hm
    · exact Or.inl hm
    · exact Or.inr ⟨hm, (hi.comm _ _ hm).1⟩
  have hold' : ∀ h' (o : Obj), (∀ c, o ≠ .comm c) → (h', o) ∈ (L.addComm h).objs → (h', o) ∈ L.objs := by
    intro h' o ho hm
    unfold Ledger.addComm at hm
    simp only [List.mem_cons, Prod.mk.injEq] at hm
    rcases hm with ⟨_, hm⟩ | hm
    · exact absurd hm (ho _)
    · exact hm
  have hlold : ∀ h' c k, (h', Obj.comm c) ∈ L.objs → ∃ q, (lst c k, q) ∈ M := fun h' c k hm =>
    let ⟨q, h1, _⟩ := hi.queue h' c hm k; ⟨q, h1⟩
  have hlne : ∀ h' c k, (h', Obj.comm c) ∈ L.objs → lst c k ≠ s.lists.nextList ∧ lst c k ≠ l1.nextList := by
    intro h' c k hm
    obtain ⟨q, hq⟩ := hlold h' c k hm
    have hq' : lst c k ∈ M.map Prod.fst := List.mem_map.2 ⟨_, hq, rfl⟩
    exact ⟨fun he => hkeys.2.1 (he ▸ hq'), fun he => hkeys.1.2 (he ▸ hq')⟩
  refine ⟨hst.setData _ _, c2, ?_, ?_, ?_, ?_, ?_, ?_, ?_, ?_, ?_, hi.tbnd, ?_, hi.ini, ?_, ?_, ?_⟩
  · intro h' c hm
    rcases hcases h' c hm with ⟨rfl, rfl⟩ | ⟨hm', hlt⟩
    · refine ⟨by simp [Ledger.addComm], s.num, ?_⟩
      unfold dataAt
      rw [hself]
      simp
    · obtain ⟨_, n, hn⟩ := hi.comm h' c hm'
      refine ⟨by simp only [Ledger.addComm]; omega, n, ?_⟩
      unfold dataAt
      rw [hdata _ _ (mem_keys hm'), hn, if_neg (by omega), if_neg (by omega)]
  · intro h' c hm k
    rcases hcases h' c hm with ⟨rfl, rfl⟩ | ⟨hm', hlt⟩
    · refine ⟨[], ?_, ?_⟩
      · rw [if_pos rfl]; split <;> simp
      · have : queueOf L.ops k L.ncomms = [] := by
          unfold queueOf
          rw [List.filter_eq_nil_iff]
          intro o ho hp
          rw [Op.pendOn_iff] at hp
          have := hi.ocid o ho hp.2.2
          omega
        show List.map Prod.snd [] = (queueOf L.ops k L.ncomms).map _
        rw [this]; rfl
    · obtain ⟨q, d1, d2⟩ := hi.queue h' c hm' k
      rw [if_neg (by omega)]
      exact ⟨q, by simp [d1], d2⟩
  · intro h1 c1 h2 c2 k1 k2 m1 m2 he
    rcases hcases _ _ m1 with ⟨rfl, rfl⟩ | ⟨m1', hlt1⟩ <;> rcases hcases _ _ m2 with ⟨rfl, rfl⟩ | ⟨m2', hlt2⟩
    · rw [if_pos rfl, if_pos rfl] at he
      refine ⟨rfl, ?_⟩
      cases k1 <;> cases k2 <;> simp at he ⊢
      · exact hkeys.1.1 he.symm
      · exact hkeys.1.1 he
    · rw [if_pos rfl, if_neg (show ¬ c2 = L.ncomms by omega)] at he
      have := hlne _ _ k2 m2'
      split at he
      · exact absurd he.symm this.1
      · exact absurd he.symm this.2
    · rw [if_pos rfl, if_neg (by omega)] at he
      have := hlne _ _ k1 m1'
      split at he
      · exact absurd he this.1
      · exact absurd he this.2
    · rw [if_neg (by omega), if_neg (by omega)] at he
      exact hi.linj _ _ _ _ _ _ m1' m2' he
  · intro h1 h2 c m1 m2
    rcases hcases _ _ m1 with ⟨rfl, rfl⟩ | ⟨m1', hlt1⟩ <;> rcases hcases _ _ m2 with ⟨rfl, _⟩ | ⟨m2', hlt2⟩
    · rfl
    · omega
    · omega
    · exact hi.cinj _ _ _ m1' m2'
  · intro h' i hm
    have hm := hold' _ _ (by simp) hm
    obtain ⟨o, r, d1, d2, d3, d4⟩ := hi.req h' i hm
    exact ⟨o, r, d1, d2, (hdata _ _ (mem_keys hm)).trans d3, d4⟩
  · intro i o hio hp h' hm
    rcases hcases _ _ hm with ⟨_, hcid⟩ | ⟨hm', _⟩
    · have := hi.ocid o (List.mem_of_getElem? hio) hp
      omega
    · exact List.mem_cons_of_mem _ (hi.held i o hio hp h' hm')
  · intro o ho hp
    have := hi.ocid o ho hp
    simp only [Ledger.addComm]; omega
  · intro h' ty hm
    have hm := hold' _ _ (by simp) hm
    obtain ⟨p, d1, d2⟩ := hi.dtype h' ty hm
    exact ⟨p, (hdata _ _ (mem_keys hm)).trans d1, d2⟩
  · intro h1 t1 h2 t2 p m1 m2 e1 e2
    have m1 := hold' _ _ (by simp) m1
    have m2 := hold' _ _ (by simp) m2
    exact hi.tinj _ _ _ _ _ m1 m2 ((hdata _ _ (mem_keys m1)).symm.trans e1)
      ((hdata _ _ (mem_keys m2)).symm.trans e2)
  · simp only [Ledger.addComm]; omega
  · exact ⟨by rw [hic2]; exact hi.icap.1, hi.icap.2⟩
  · simp only [Ledger.addComm]; rw [hc2]; omega
  · simp only [Ledger.addComm]; omega

/-- The unmatched operations of a live communicator are the ones in its two lists. -/
theorem Inv.pendingOn (hi : Inv s L M lst) {h : Int} {c : Nat} (hm : (h, Obj.comm c) ∈ L.objs) :
    L.pendingOn h = (queueOf L.ops .send c).length + (queueOf L.ops .recv c).length := by
  unfold Ledger.pendingOn queueOf
  have hiff : ∀ o : Op, (h, Obj.comm o.cid) ∈ L.objs ↔ o.cid = c := fun o =>
    ⟨fun h1 => by have := hi.uniq hm h1; simp at this; exact this.symm, fun h1 => h1 ▸ hm⟩
  simp only [hiff]
  rw [← List.countP_eq_length_filter, ← List.countP_eq_length_filter]
  induction L.ops with
  | nil => rfl
  | cons o os ih =>
    simp only [List.countP_cons, ih]
    simp only [decide_eq_true_eq, Op.pendOn_iff]
    cases o.kind <;> by_cases h1 : o.cid = c <;> by_cases h2 : o.st = .pending <;> simp [h1, h2] <;> omega

theorem commFree_spec (hi : Inv s L M lst) {h : Int} {c : Nat} (hm : (h, Obj.comm c) ∈ L.objs) :
    ∃ s' M', MPI_Comm_free s h = .ok (s', MPI_COMM_NULL) ∧ s'.mem = s.mem ∧
      Inv s' (L.freeComm h) M' lst := by
  obtain ⟨_, n, hd⟩ := hi.comm _ _ hm
  obtain ⟨qs, hqs, hls⟩ := hi.queue _ _ hm .send
  obtain ⟨qr, hqr, hlr⟩ := hi.queue _ _ hm .recv
  have hls := congrArg List.length hls
  have hlr := congrArg List.length hlr
  simp only [List.length_map] at hls hlr
  have hpd := hi.pendingOn hm
  have hne : lst c .recv ≠ lst c .send := fun he => by
    have := (hi.linj _ _ _ _ _ _ hm hm he).2
    cases this
  have hic := hi.icap
  have hhc := hi.hcap
  obtain ⟨l1, M1, a1, a2, a3, a4, a5⟩ := hi.linv.free_at hqs (by omega) (by omega)
  obtain ⟨l2, M2, b1, b2, b3, b4, b5⟩ := a2.free_at (a3 _ _ hne hqr) (by omega) (by omega)
  obtain ⟨t, c1, c2, c3⟩ := hi.hst.free (mem_keys hm)
  refine ⟨{ s with lists := l2, handles := t }, M2, ?_, rfl, ?_⟩
  · unfold MPI_Comm_free
    rw [Sys.ptr_live hi.hst (mem_keys hm), Res.ok_bind]
    dsimp only
    rw [Sys.comm_live hi.hst (mem_keys hm) hd, Res.ok_bind]
    dsimp only
    rw [hi.linv.size hqs, Res.ok_bind, a1, Res.ok_bind, a2.size (a3 _ _ hne hqr), Res.ok_bind, b1, Res.ok_bind, c1]
    rfl
  · refine hi.remove (s' := { s with lists := l2, handles := t }) _ _ c2 (fun h' => c3 _) ?_ b2 ?_ ?_ ?_ ?_ hi.tbnd rfl rfl
    · intro i o hm'
      have := hi.uniq hm hm'
      cases this
    · intro h' c' k q hm' hne' hq
      have hc : c' ≠ c := fun he => hne' (hi.cinj _ _ _ (he ▸ hm') hm)
      have h1 : lst c' k ≠ lst c .send := fun he => hc (hi.linj _ _ _ _ _ _ hm' hm he).1
      have h2 : lst c' k ≠ lst c .recv := fun he => hc (hi.linj _ _ _ _ _ _ hm' hm he).1
      exact b3 _ _ h2 (a3 _ _ h1 hq)
    · dsimp only; omega
    · dsimp only; omega
    · intros; rfl

/-! ## MPI_Finalize -/

theorem Inv.finalize (hi : Inv s L M lst) : Inv (MPI_Finalize s) L.finalize M lst := by
  refine ⟨hi.hst.destroy, hi.linv, ?_, ?_, ?_, ?_, ?_, ?_, hi.ocid, ?_, ?_,
          hi.tbnd, hi.num, rfl, hi.icap, hi.hcap, hi.ncap⟩ <;> simp [Ledger.finalize]

/-! ## Datatypes -/

theorem Inv.typesOk (hi : Inv s L M lst) : TypesOk s L (L.objs.map Prod.fst) := fun h t hm =>
  ⟨mem_keys hm, hi.dtype h t hm⟩

theorem Inv.typeOf (hi : Inv s L M lst) {h : Int} {t : Typestruct} (hd : L.desc env.cfg h = some t) :
    typeOf env s h = .ok (s, t) := by
  obtain ⟨p, h1, h2⟩ := typeOf_desc hi.hst hi.typesOk hd
  unfold MpiSerial.typeOf
  rw [h1, Res.ok_bind]
  dsimp only
  rw [h2]; rfl

theorem newType_spec (hi : Inv s L M lst) (build : Garbage → Res Typestruct) :
    (L.objs.length = 262143 ∧ (newType env s build).aborted = true) ∨
    (L.objs.length < 262143 ∧ ∃ (s' : Typestruct → Sys) (h : Int), h ∉ L.objs.map Prod.fst ∧
      (newType env s build = build (env.garbage s.nextType) >>= fun ty => .ok (s' ty, h)) ∧
      ∀ ty, (s' ty).mem = s.mem ∧ Inv (s' ty) (L.addType h ty) M lst) := by
  unfold newType
  rcases hi.hst.alloc Slot.raw with ⟨hlen, t, h, ha, hst, hnew, hold⟩ | ⟨hlen, ha⟩
  rotate_left
  · left
    refine ⟨by simpa using hlen, ?_⟩
    cases hr : mpi_alloc_handle s.handles Slot.raw <;> rw [hr] at ha <;> simp [Res.aborted] at ha ⊢
  right
  rw [List.length_map] at hlen
  rw [ha, Res.ok_bind]
  dsimp only
  refine ⟨hlen, fun ty => _, h, hnew, rfl, ?_⟩
  intro ty
  refine ⟨rfl, ?_⟩
  dsimp only
  have hpos : ∀ h' ∈ h :: L.objs.map Prod.fst, (0 : Int) ≤ h' := fun h' hh' => by
    have := hst.pos hh'; omega
  have hdata : ∀ (d : Slot) (h' : Int), h' ∈ L.objs.map Prod.fst →
      ((t.setData (locOf h) d).items (locOf h')).data = dataAt s h' := by
    intro d h' hh'
    have hne : h' ≠ h := fun he => hnew (he ▸ hh')
    rw [HTab.setData_items, if_neg, hold h' hh']
    · rfl
    · intro he; exact hne (locOf_inj (hpos h' (List.mem_cons_of_mem _ hh')) (hpos h (by simp)) he)
  have hself : ∀ d : Slot, ((t.setData (locOf h) d).items (locOf h)).data = d := by
    intro d; rw [HTab.setData_items, if_pos rfl]
  have hold' : ∀ h' (o : Obj), (∀ c, o ≠ .dtype c) → (h', o) ∈ (L.addType h ty).objs → (h', o) ∈ L.objs := by
    intro h' o ho hm
    unfold Ledger.addType at hm
    simp only [List.mem_cons, Prod.mk.injEq] at hm
    rcases hm with ⟨_, hm⟩ | hm
    · exact absurd hm (ho _)
    · exact hm
  have htlt : ∀ h' t' p, (h', Obj.dtype t') ∈ L.objs → dataAt s h' = .dtype (.heap p) → p < s.nextType := by
    intro h' t' p hm hd
    obtain ⟨p', d1, d2⟩ := hi.dtype h' t' hm
    rw [hd] at d1
    simp only [Slot.dtype.injEq, TPtr.heap.injEq] at d1
    subst d1
    rcases Nat.lt_or_ge p s.nextType with h3 | h3
    · exact h3
    · rw [hi.tbnd p h3] at d2; cases d2
  refine ⟨hst.setData _ _, hi.linv, ?_, ?_, ?_, ?_, ?_, ?_, hi.ocid, ?_, ?_, ?_, hi.num, hi.ini, hi.icap, hi.hcap,
    hi.ncap⟩
  · intro h' c hm
    have hm := hold' _ _ (by simp) hm
    obtain ⟨d1, n, d2⟩ := hi.comm h' c hm
    exact ⟨d1, n, (hdata _ _ (mem_keys hm)).trans d2⟩
  · intro h' c hm k
    exact hi.queue h' c (hold' _ _ (by simp) hm) k
  · intro h1 c1 h2 c2 k1 k2 m1 m2
    exact hi.linj _ _ _ _ _ _ (hold' _ _ (by simp) m1) (hold' _ _ (by simp) m2)
  · intro h1 h2 c m1 m2
    exact hi.cinj _ _ _ (hold' _ _ (by simp) m1) (hold' _ _ (by simp) m2)
  · intro h' i hm
    have hm := hold' _ _ (by simp) hm
    obtain ⟨o, r, d1, d2, d3, d4⟩ := hi.req h' i hm
    exact ⟨o, r, d1, d2, (hdata _ _ (mem_keys hm)).trans d3, d4⟩
  · intro i o hio hp h' hm
    exact List.mem_cons_of_mem _ (hi.held i o hio hp h' (hold' _ _ (by simp) hm))
  · intro h' t' hm
    unfold Ledger.addType at hm
    simp only [List.mem_cons, Prod.mk.injEq, Obj.dtype.injEq] at hm
    rcases hm with ⟨rfl, rfl⟩ | hm
    · exact ⟨s.nextType, hself _, by simp⟩
    · obtain ⟨p, d1, d2⟩ := hi.dtype h' t' hm
      refine ⟨p, (hdata _ _ (mem_keys hm)).trans d1, ?_⟩
      have := htlt _ _ _ hm d1
      dsimp only
      rw [if_neg (by omega)]; exact d2
  · intro h1 t1 h2 t2 p m1 m2 e1 e2
    unfold Ledger.addType at m1 m2
    simp only [List.mem_cons, Prod.mk.injEq, Obj.dtype.injEq] at m1 m2
    unfold dataAt at e1 e2
    rcases m1 with ⟨rfl, _⟩ | m1 <;> rcases m2 with ⟨rfl, _⟩ | m2
    · rfl
    · rw [hself] at e1
      rw [hdata _ _ (mem_keys m2)] at e2
      simp only [Slot.dtype.injEq, TPtr.heap.injEq] at e1
      have := htlt _ _ _ m2 e2
      omega
    · rw [hself] at e2
      rw [hdata _ _ (mem_keys m1)] at e1
      simp only [Slot.dtype.injEq, TPtr.heap.injEq] at e2
      have := htlt _ _ _ m1 e1
      omega
    · rw [hdata _ _ (mem_keys m1)] at e1
      rw [hdata _ _ (mem_keys m2)] at e2
      exact hi.tinj _ _ _ _ _ m1 m2 e1 e2
  · intro p hp
    dsimp only at hp ⊢
    rw [if_neg (by omega)]
    exact hi.tbnd p (by omega)

theorem typeFree_spec (hi : Inv s L M lst) {h : Int} {ty : Typestruct} (hm : (h, Obj.dtype ty) ∈ L.objs) :
    ∃ s', MPI_Type_free s h = .ok s' ∧ s'.mem = s.mem ∧ Inv s' (L.release h) M lst := by
  obtain ⟨p, d1, d2⟩ := hi.dtype _ _ hm
  have hpos := hi.hst.pos (mem_keys hm)
  obtain ⟨t, c1, c2, c3⟩ := hi.hst.free (mem_keys hm)
  refine ⟨{ s with theap := fun q' => if q' = p then none else s.theap q', handles := t }, ?_, rfl, ?_⟩
  · unfold MPI_Type_free handleToDatatype
    rw [if_neg (by omega), Sys.ptr_live hi.hst (mem_keys hm), Res.ok_bind]
    dsimp only
    rw [hi.hst.deref (mem_keys hm), Res.ok_bind]
    unfold dataAt at d1
    rw [d1]
    dsimp only
    rw [Res.pure_bind']
    dsimp only [freeType]
    rw [d2]
    dsimp only
    rw [Res.ok_bind]
    dsimp only
    rw [c1]; rfl
  · refine hi.remove (s' := { s with theap := fun q' => if q' = p then none else s.theap q', handles := t }) L.nfreed
      L.dropped c2 (fun h' => c3 _) ?_ hi.linv ?_ rfl hi.hcap ?_ ?_ rfl rfl
    · intro i o hm'
      have := hi.uniq hm hm'
      cases this
    · intro _ _ _ _ _ _ h; exact h
    · intro h' t' p' hm' hne hd
      dsimp only
      rw [if_neg]
      intro he
      subst he
      exact hne (hi.tinj _ _ _ _ _ hm' hm hd d1)
    · intro p' hp'
      dsimp only at hp' ⊢
      split
      · rfl
      · exact hi.tbnd p' hp'

theorem mem_commit {L : Ledger} {h h' : Int} {o : Obj} :
    (h', o) ∈ (L.commit h).objs ↔
      ((h', o) ∈ L.objs ∧ (h' ≠ h ∨ ∀ t, o ≠ .dtype t)) ∨
      (h' = h ∧ ∃ t, (h, Obj.dtype t) ∈ L.objs ∧ o = .dtype { t with committed := 1 }) := by
  unfold Ledger.commit
  simp only [List.mem_map]
  constructor
  · rintro ⟨⟨h1, o1⟩, h2, h3⟩
    cases o1 with
    | comm c => simp only [Prod.mk.injEq] at h3; obtain ⟨rfl, rfl⟩ := h3; exact Or.inl ⟨h2, Or.inr (by simp)⟩
    | req i => simp only [Prod.mk.injEq] at h3; obtain ⟨rfl, rfl⟩ := h3; exact Or.inl ⟨h2, Or.inr (by simp)⟩
    | dtype t =>
      simp only at h3
      split at h3
      · next he =>
        simp only [Prod.mk.injEq] at h3
        obtain ⟨rfl, rfl⟩ := h3
        subst he
        exact Or.inr ⟨rfl, t, h2, rfl⟩
      · next he =>
        simp only [Prod.mk.injEq] at h3
        obtain ⟨rfl, rfl⟩ := h3
        exact Or.inl ⟨h2, Or.inl he⟩
  · rintro (⟨h1, h2⟩ | ⟨rfl, t, h1, rfl⟩)
    · refine ⟨_, h1, ?_⟩
      cases o with
      | comm c => rfl
      | req i => rfl
      | dtype t =>
        rcases h2 with h2 | h2
        · simp [h2]
        · exact absurd rfl (h2 t)
    · exact ⟨_, h1, by simp⟩

theorem commit_keys (L : Ledger) (h : Int) : (L.commit h).objs.map Prod.fst = L.objs.map Prod.fst := by
  unfold Ledger.commit
  rw [List.map_map]
  apply List.map_congr_left
  rintro ⟨h', o⟩ _
  cases o with
  | comm c => rfl
  | req i => rfl
  | dtype t => simp only [Function.comp]; split <;> rfl

theorem typeCommit_spec (hi : Inv s L M lst) {h : Int} {ty : Typestruct} (hm : (h, Obj.dtype ty) ∈ L.objs) :
    ∃ s', MPI_Type_commit env s h = .ok s' ∧ s'.mem = s.mem ∧ Inv s' (L.commit h) M lst := by
  obtain ⟨p, d1, d2⟩ := hi.dtype _ _ hm
  have hpos := hi.hst.pos (mem_keys hm)
  refine ⟨{ s with theap := fun q' => if q' = p then some { ty with committed := 1 } else s.theap q' }, ?_, rfl, ?_⟩
  · unfold MPI_Type_commit handleToDatatype
    rw [if_neg (by omega), Sys.ptr_live hi.hst (mem_keys hm), Res.ok_bind]
    dsimp only
    rw [hi.hst.deref (mem_keys hm), Res.ok_bind]
    have d1' := d1
    unfold dataAt at d1'
    rw [d1']
    dsimp only
    rw [Res.pure_bind']
    dsimp only [derefType]
    rw [d2]
    rfl
  · have hold' : ∀ h' (o : Obj), (∀ c, o ≠ .dtype c) → (h', o) ∈ (L.commit h).objs → (h', o) ∈ L.objs := by
      intro h' o ho hm'
      rcases mem_commit.1 hm' with ⟨h1, _⟩ | ⟨_, t, _, h1⟩
      · exact h1
      · exact absurd h1 (ho _)
    have hnew' : ∀ h' (o : Obj), (∀ c, o ≠ .dtype c) → (h', o) ∈ L.objs → (h', o) ∈ (L.commit h).objs :=
      fun h' o ho hm' => mem_commit.2 (Or.inl ⟨hm', Or.inr ho⟩)
    have htold : ∀ h' t', (h', Obj.dtype t') ∈ (L.commit h).objs → ∃ t'', (h', Obj.dtype t'') ∈ L.objs := by
      intro h' t' hm'
      rcases mem_commit.1 hm' with ⟨h1, _⟩ | ⟨rfl, t, h1, _⟩
      · exact ⟨_, h1⟩
      · exact ⟨_, h1⟩
    refine ⟨by rw [commit_keys]; exact hi.hst, hi.linv, ?_, ?_, ?_, ?_, ?_, ?_, hi.ocid, ?_, ?_, ?_, hi.num, hi.ini,
      hi.icap, hi.hcap, hi.ncap⟩
    · intro h' c hm'; exact hi.comm h' c (hold' _ _ (by simp) hm')
    · intro h' c hm' k
      exact hi.queue h' c (hold' _ _ (by simp) hm') k
    · intro h1 c1 h2 c2 k1 k2 m1 m2
      exact hi.linj _ _ _ _ _ _ (hold' _ _ (by simp) m1) (hold' _ _ (by simp) m2)
    · intro h1 h2 c m1 m2
      exact hi.cinj _ _ _ (hold' _ _ (by simp) m1) (hold' _ _ (by simp) m2)
    · intro h' i hm'; exact hi.req h' i (hold' _ _ (by simp) hm')
    · intro i o hio hp h' hm'
      exact hnew' _ _ (by simp) (hi.held i o hio hp h' (hold' _ _ (by simp) hm'))
    · intro h' t' hm'
      dsimp only
      rcases mem_commit.1 hm' with ⟨h1, h2⟩ | ⟨rfl, t, h1, h2⟩
      · obtain ⟨p', e1, e2⟩ := hi.dtype _ _ h1
        refine ⟨p', e1, ?_⟩
        rw [if_neg]
        · exact e2
        · intro he
          subst he
          rcases h2 with h2 | h2
          · exact h2 (hi.tinj _ _ _ _ _ h1 hm e1 d1)
          · exact absurd rfl (h2 t')
      · have := hi.uniq h1 hm
        simp only [Obj.dtype.injEq] at this h2
        subst this
        exact ⟨p, d1, by rw [if_pos rfl, h2]⟩
    · intro h1 t1 h2 t2 p' m1 m2
      obtain ⟨_, m1⟩ := htold _ _ m1
      obtain ⟨_, m2⟩ := htold _ _ m2
      exact hi.tinj _ _ _ _ _ m1 m2
    · intro p' hp'
      dsimp only at hp' ⊢
      rw [if_neg]
      · exact hi.tbnd p' hp'
      · intro he
        subst he
        rw [hi.tbnd p' hp'] at d2; cases d2

theorem fill_eq {α : Type} {f : Nat → Res α} : ∀ (l : List α) (i : Nat),
    (∀ (j : Nat) x, l[j]? = some x → f (i + j) = .ok x) → fill f l.length i = .ok l
  | [], _, _ => rfl
  | a :: l, i, h => by
    have h0 := h 0 a rfl
    have h1 := fill_eq l (i + 1) (fun j x hx => by
      have := h (j + 1) x (by simpa using hx)
      rw [show i + 1 + j = i + (j + 1) by omega]; exact this)
    rw [List.length_cons, fill, show f i = .ok a from h0, Res.ok_bind, h1]
    rfl

theorem structTypes_eq (hi : Inv s L M lst) (olds : List Int) : ∀ (ts : List Typestruct) (i : Nat),
    (∀ (j : Nat) t, ts[j]? = some t → ∃ h, olds[i + j]? = some h ∧ L.desc env.cfg h = some t) →
    structTypes env olds ts.length i s = .ok (s, ts)
  | [], _, _ => rfl
  | a :: ts, i, h => by
    obtain ⟨h0, h1, h2⟩ := h 0 a rfl
    have h3 := structTypes_eq hi olds ts (i + 1) (fun j x hx => by
      have := h (j + 1) x (by simpa using hx)
      rw [show i + 1 + j = i + (j + 1) by omega]; exact this)
    have h1' : rd olds i = .ok h0 := by unfold rd; rw [show olds[i]? = some h0 from h1]
    rw [List.length_cons, structTypes, h1', Res.ok_bind, hi.typeOf h2, Res.ok_bind]
    dsimp only
    rw [h3, Res.ok_bind]
    rfl

/-- All constructors of derived datatypes are `newType` around the construction of `Model/Types`. -/
theorem TypeCall.eq (hi : Inv s L M lst) {build : Garbage → Res Typestruct} {r : Res (Sys × Int)}
    (h : TypeCall env L s build r) : r = newType env s build := by
  cases h with
  | contiguous hd => unfold MPI_Type_contiguous; rw [hi.typeOf hd, Res.ok_bind]
  | hvector hd => unfold MPI_Type_hvector; rw [hi.typeOf hd, Res.ok_bind]
  | vector hd => unfold MPI_Type_vector; rw [hi.typeOf hd, Res.ok_bind]
  | hindexed hd => unfold MPI_Type_hindexed; rw [hi.typeOf hd, Res.ok_bind]
  | indexed hd => unfold MPI_Type_indexed; rw [hi.typeOf hd, Res.ok_bind]
  | indexedBlock hd => unfold MPI_Type_create_indexed_block; rw [hi.typeOf hd, Res.ok_bind]
  | @struct bl ds olds ts h1 h2 h3 hd =>
    unfold MPI_Type_struct vla
    rw [if_neg (by omega), Res.ok_bind, Int.toNat_natCast, ← h3, structTypes_eq hi olds ts 0, Res.ok_bind]
    · dsimp only
      congr 1
      funext g
      generalize hb : (bl.zip (ds.zip ts)).map (fun x => (⟨x.1, x.2.1, x.2.2⟩ : Block)) = blocks
      have hlen : blocks.length = ts.length := by
        rw [← hb]; simp; omega
      rw [← hlen, fill_eq blocks 0, Res.ok_bind]
      intro j x hx
      rw [← hb, List.getElem?_map, Option.map_eq_some_iff] at hx
      obtain ⟨⟨b, d, t⟩, hz, rfl⟩ := hx
      rw [List.getElem?_zip_eq_some, List.getElem?_zip_eq_some] at hz
      simp only at hz
      rw [Nat.zero_add]
      unfold rd
      rw [hz.1, hz.2.1, hz.2.2]
      rfl
    · intro j t ht
      have hlt : j < olds.length := by
        rw [← h3]
        rcases Nat.lt_or_ge j ts.length with h4 | h4
        · exact h4
        · rw [List.getElem?_eq_none h4] at ht; cases ht
      refine ⟨olds[j], by rw [Nat.zero_add, List.getElem?_eq_getElem hlt], ?_⟩
      exact hd j _ _ (List.getElem?_eq_getElem hlt) ht

/-! ## Every history -/

theorem CommCall.eq {r : Res (Sys × Int)} (h : CommCall s r) (hx : r.returned = true) :
    r = .ok (s, MPI_COMM_NULL) ∨ r = mpi_comm_new s := by
  cases h with
  | dup c => exact Or.inr rfl
  | create c g => unfold MPI_Comm_create; split <;> simp
  | split c a b => unfold MPI_Comm_split; split <;> simp
  | intercomm a b c d e => unfold MPI_Intercomm_create MPI_Comm_dup; split <;> simp
  | cart c n dims =>
    right
    unfold MPI_Cart_create MPI_Comm_dup at *
    cases hc : cartCheck dims n.toNat 0 with
    | ok a => rfl
    | _ => rw [hc] at hx; simp [Res.returned] at hx

theorem Step.inv {s' : Sys} {L' : Ledger} (hi : Inv s L M lst) (h : Step env s L s' L') :
    ∃ M' lst', Inv s' L' M' lst' := by
  cases h with
  | memory => exact ⟨M, lst, hi.setMem _⟩
  | init h1 h2 h3 =>
    unfold MPI_Init at h3
    rcases commNew_spec hi h1 h2 with ⟨_, ha⟩ | ⟨_, t, s1, h, M', lst', fr, ha, _, _, _, hi'⟩
    · cases hr : mpi_comm_new s <;> rw [hr] at ha h3 <;> simp [Res.aborted] at ha h3
    · rw [ha, Res.ok_bind] at h3
      dsimp only at h3
      split at h3
      · cases h3
      · next hw =>
        simp only [Res.pure_eq, Res.ok.injEq] at h3
        subst h3
        simp only [ne_eq, Decidable.not_not] at hw
        subst hw
        exact ⟨M', lst', ⟨hi'.hst, hi'.linv, hi'.comm, hi'.queue, hi'.linj, hi'.cinj, hi'.req, hi'.held, hi'.ocid,
          hi'.dtype, hi'.tinj, hi'.tbnd, hi'.num, rfl, hi'.icap, hi'.hcap, hi'.ncap⟩⟩
  | finalize => exact ⟨M, lst, hi.finalize⟩
  | comm h1 h2 hc hr =>
    rcases hc.eq (by rw [hr]; rfl) with he | he <;> rw [he] at hr
    · simp only [Res.ok.injEq, Prod.mk.injEq] at hr
      obtain ⟨rfl, rfl⟩ := hr
      exact ⟨M, lst, by simpa [Ledger.noteComm] using hi⟩
    · rcases commNew_spec hi h1 h2 with ⟨_, ha⟩ | ⟨_, t, s1, h, M', lst', fr, ha, _, _, _, hi'⟩
      · rw [hr] at ha; simp [Res.aborted] at ha
      · rw [ha] at hr
        simp only [Res.ok.injEq, Prod.mk.injEq] at hr
        obtain ⟨rfl, rfl⟩ := hr
        have hp := hi'.hst.pos (h := h) (by simp [Ledger.addComm])
        refine ⟨M', lst', ?_⟩
        unfold Ledger.noteComm
        rw [if_neg (by omega)]
        exact hi'
  | commFree hm hr =>
    obtain ⟨s1, M', h1, _, h2⟩ := commFree_spec hi hm
    rw [h1] at hr
    simp only [Res.ok.injEq, Prod.mk.injEq] at hr
    obtain ⟨rfl, _⟩ := hr
    exact ⟨M', lst, h2⟩
  | isend hm hu hr =>
    rcases isend_spec (env := env) hi hm hu _ _ _ _ with ⟨_, h⟩ | ⟨_, _, s1, h1, M', h2, _, _, h3⟩ |
      ⟨_, j, o, s1, h1, M', X, _, _, h2, _, _, h3⟩
    · rw [hr] at h; simp [Res.aborted] at h
    · rw [h2] at hr
      simp only [Res.ok.injEq, Prod.mk.injEq] at hr
      obtain ⟨rfl, rfl⟩ := hr
      exact ⟨M', lst, h3⟩
    · rw [h2, Res.bind_eq_ok] at hr
      obtain ⟨m, _, hr⟩ := hr
      simp only [Res.ok.injEq, Prod.mk.injEq] at hr
      obtain ⟨rfl, rfl⟩ := hr
      exact ⟨M', lst, h3.setMem m⟩
  | @irecv _ _ _ _ _ src _ _ _ _ hm hu hsrc hr =>
    have hsrc' : src = 0 ∨ src = -1 := by
      rcases Classical.em (src = 0 ∨ src = -1) with h | h
      · exact h
      · exfalso
        unfold MPI_Irecv at hr
        rw [Sys.ptr_live hi.hst (mem_keys hm), Res.ok_bind] at hr
        dsimp only at hr
        rw [if_pos (by omega)] at hr
        cases hr
    rcases irecv_spec (env := env) hi hm hu hsrc' _ _ _ _ with ⟨_, h⟩ | ⟨_, _, s1, h1, M', h2, _, _, h3⟩ |
      ⟨_, j, o, s1, h1, M', X, _, _, h2, _, _, h3⟩
    · rw [hr] at h; simp [Res.aborted] at h
    · rw [h2] at hr
      simp only [Res.ok.injEq, Prod.mk.injEq] at hr
      obtain ⟨rfl, rfl⟩ := hr
      exact ⟨M', lst, h3⟩
    · rw [h2, Res.bind_eq_ok] at hr
      obtain ⟨m, _, hr⟩ := hr
      simp only [Res.ok.injEq, Prod.mk.injEq] at hr
      obtain ⟨rfl, rfl⟩ := hr
      exact ⟨M', lst, h3.setMem m⟩
  | isendNull hm hr =>
    rcases isendNull_spec (env := env) hi (hm.imp id (fun ⟨c, h⟩ => mem_keys h)) _ _ _ _ with ⟨_, h⟩ |
      ⟨_, s1, h1, h2, _, _, h3⟩
    · rw [hr] at h; simp [Res.aborted] at h
    · rw [h2] at hr
      simp only [Res.ok.injEq, Prod.mk.injEq] at hr
      obtain ⟨rfl, rfl⟩ := hr
      exact ⟨M, lst, h3⟩
  | irecvNull hm hr =>
    rcases irecvNull_spec (env := env) hi (hm.imp id (fun ⟨c, h⟩ => mem_keys h)) _ _ _ _ with ⟨_, h⟩ |
      ⟨_, s1, h1, h2, _, _, h3⟩
    · rw [hr] at h; simp [Res.aborted] at h
    · rw [h2] at hr
      simp only [Res.ok.injEq, Prod.mk.injEq] at hr
      obtain ⟨rfl, rfl⟩ := hr
      exact ⟨M, lst, h3⟩
  | @test _ h i st r hm hr =>
    obtain ⟨o, _, hio, _⟩ := hi.req _ _ hm
    by_cases hp : o.st = .pending
    · rw [test_pending hi hm hio hp] at hr
      simp only [Res.ok.injEq] at hr
      subst hr
      exact ⟨M, lst, by simpa using hi⟩
    · obtain ⟨t, src, tag, _, hi', ht⟩ := test_done hi hm hio hp
      rw [ht, Res.bind_eq_ok] at hr
      obtain ⟨st', _, hr⟩ := hr
      simp only [Res.ok.injEq] at hr
      subst hr
      exact ⟨M, lst, by simpa using hi'⟩
  | requestFree hm hio hp hr =>
    obtain ⟨s1, h1, h2, _⟩ := requestFree_spec hi hm hio hp
    rw [h1] at hr
    simp only [Res.ok.injEq, Prod.mk.injEq] at hr
    obtain ⟨rfl, _⟩ := hr
    exact ⟨M, lst, h2⟩
  | newType hc hr hb =>
    rw [hc.eq hi] at hr
    rcases newType_spec (env := env) hi _ with ⟨_, h⟩ | ⟨_, s1, h1, _, h2, h3⟩
    · rw [hr] at h; simp [Res.aborted] at h
    · rw [h2, hb, Res.ok_bind] at hr
      simp only [Res.ok.injEq, Prod.mk.injEq] at hr
      obtain ⟨rfl, rfl⟩ := hr
      exact ⟨M, lst, (h3 _).2⟩
  | commit hm hr =>
    obtain ⟨s1, h1, _, h2⟩ := typeCommit_spec (env := env) hi hm
    rw [h1] at hr
    simp only [Res.ok.injEq] at hr
    subst hr
    exact ⟨M, lst, h2⟩
  | typeFree hm hr =>
    obtain ⟨s1, h1, _, h2⟩ := typeFree_spec hi hm
    rw [h1] at hr
    simp only [Res.ok.injEq] at hr
    subst hr
    exact ⟨M, lst, h2⟩

/-- Every reachable state represents its ledger. -/
theorem Reach.inv (h : Reach env s L) : ∃ M lst, Inv s L M lst := by
  induction h with
  | start => exact ⟨_, _, Inv.start _⟩
  | step _ hst ih =>
    obtain ⟨M, lst, hi⟩ := ih
    exact hst.inv hi

end

end MpiSerial
