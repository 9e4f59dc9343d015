import Verif.Proofs.Sys
import Verif.Proofs.Ledger
import Verif.Spec.Observe

/-!
# Observations follow the ledger
-/

set_option linter.unusedSimpArgs false
set_option autoImplicit false

namespace MpiSerial

section
variable {env : Env} {s s' : Sys} {L L' : Ledger} {M : AbsLists Loc} {lst : Nat → Kind → Nat}

theorem Reach.steps (h : Reach env s L) (hs : Steps env s L s' L') : Reach env s' L' := by
  induction hs with
  | refl => exact h
  | step _ h2 ih => exact (ih h).step h2

theorem not_complete_and_incomplete {h : Int} (h1 : Complete s h) (h2 : Incomplete s h) : False := by
  obtain ⟨⟨r, h3, h4⟩, _⟩ := h1
  obtain ⟨r', h5, h6⟩ := h2 .null
  rw [h3] at h5
  cases h5
  omega

/-! ## Earliest and NoOpen against `partner` -/

/-- The tags of waiting operations that an operation of kind `k` with `tag` fits. -/
def wants (k : Kind) (tag : Int) : Int → Bool := fun t =>
  match k with
  | .send => accepts t tag
  | .recv => accepts tag t

theorem waits_iff {o : Op} {c : Nat} {k : Kind} {tag : Int} :
    o.waits c k tag = true ↔ o.open k.other c ∧ wants k tag o.tag = true := by
  unfold Op.waits Op.open
  rw [Bool.and_eq_true, decide_eq_true_iff]
  cases k <;> rfl

theorem partner_noOpen {c k tag} (h : L.partner c k tag = none) : NoOpen L k.other c (wants k tag) := by
  intro o ho hop
  have := Ledger.partner_none h o ho
  rw [← Bool.not_eq_true, waits_iff] at this
  cases hw : wants k tag o.tag with
  | false => rfl
  | true => exact absurd ⟨hop, hw⟩ this

theorem noOpen_partner {c k tag} (h : NoOpen L k.other c (wants k tag)) : L.partner c k tag = none := by
  unfold Ledger.partner
  rw [List.findIdx?_eq_none_iff]
  intro o ho
  rw [← Bool.not_eq_true, waits_iff]
  rintro ⟨h1, h2⟩
  rw [h o ho h1] at h2
  cases h2

theorem partner_earliest {c k tag j} (h : L.partner c k tag = some j) :
    ∃ o, Earliest L k.other c (wants k tag) j o := by
  obtain ⟨A, o, B, hops, rfl, ho, hA⟩ := Ledger.partner_some h
  rw [waits_iff] at ho
  refine ⟨o, by rw [hops]; simp, ho.1, ho.2, ?_⟩
  intro j' o' hlt hj' hop
  rw [hops, List.getElem?_append_left hlt] at hj'
  have := hA o' (List.mem_of_getElem? hj')
  rw [← Bool.not_eq_true, waits_iff] at this
  cases hw : wants k tag o'.tag with
  | false => rfl
  | true => exact absurd ⟨hop, hw⟩ this

theorem Earliest.unique {k c p j j' o o'} (h : Earliest L k c p j o) (h' : Earliest L k c p j' o') :
    j = j' ∧ o = o' := by
  have hjj : j = j' := by
    rcases Nat.lt_trichotomy j j' with hlt | he | hlt
    · have := h'.2.2.2 j o hlt h.1 h.2.1
      rw [h.2.2.1] at this; cases this
    · exact he
    · have := h.2.2.2 j' o' hlt h'.1 h'.2.1
      rw [h'.2.2.1] at this; cases this
  subst hjj
  have := h.1
  rw [h'.1] at this
  cases this
  exact ⟨rfl, rfl⟩

theorem earliest_partner {c k tag j o} (h : Earliest L k.other c (wants k tag) j o) :
    L.partner c k tag = some j := by
  cases hp : L.partner c k tag with
  | none =>
    have := partner_noOpen hp o (List.mem_of_getElem? h.1) h.2.1
    rw [h.2.2.1] at this; cases this
  | some j' =>
    obtain ⟨o', h'⟩ := partner_earliest hp
    rw [(h.unique h').1]

/-! ## Ledger after a post -/

theorem post_objs (k : Kind) (c : Nat) (tag buf count dtype h : Int) :
    (L.post k c tag buf count dtype h).objs = (h, .req L.ops.length) :: L.objs := by
  unfold Ledger.post
  cases L.partner c k tag <;> rfl

theorem settle_length (ops : List Op) (j i : Nat) : (Ledger.settle ops j i).length = ops.length := by
  unfold Ledger.settle; simp

theorem post_new (k : Kind) (c : Nat) (tag buf count dtype h : Int) :
    (L.post k c tag buf count dtype h).ops[L.ops.length]? = some ⟨k, c, tag, buf, count, dtype, h,
      match L.partner c k tag with | some j => .matched j | none => .pending⟩ := by
  cases hp : L.partner c k tag with
  | none => rw [Ledger.post_none hp]; simp
  | some j =>
    rw [Ledger.post_some hp]
    show (Ledger.settle L.ops j L.ops.length ++ _)[L.ops.length]? = _
    rw [List.getElem?_append_right (by rw [settle_length]; exact Nat.le_refl _), settle_length]
    simp

theorem post_old {i : Nat} {o : Op} (k : Kind) (c : Nat) (tag buf count dtype h : Int)
    (hi : L.ops[i]? = some o) :
    (L.post k c tag buf count dtype h).ops[i]? =
      some (if L.partner c k tag = some i then { o with st := .matched L.ops.length } else o) := by
  cases hp : L.partner c k tag with
  | none =>
    rw [Ledger.post_none hp, if_neg (by simp)]
    exact getElem?_append_some hi
  | some j =>
    rw [Ledger.post_some hp]
    refine getElem?_append_some ?_
    unfold Ledger.settle
    rw [List.getElem?_modify, hi]
    by_cases he : j = i
    · subst he; simp
    · rw [if_neg (by simpa using he)]; simp [he]

theorem postNull_old {i : Nat} {o : Op} (k : Kind) (tag buf count dtype h : Int)
    (hi : L.ops[i]? = some o) : (L.postNull k tag buf count dtype h).ops[i]? = some o :=
  getElem?_append_some hi

/-! ## Completion -/

theorem Inv.opOf (hi : Inv s L M lst) {h : Int} {i : Nat} (hm : (h, Obj.req i) ∈ L.objs) :
    ∃ o, L.ops[i]? = some o ∧ o.h = h := by
  obtain ⟨o, _, h1, h2, _⟩ := hi.req _ _ hm
  exact ⟨o, h1, h2⟩

theorem Inv.incomplete (hi : Inv s L M lst) {h : Int} {i : Nat} {o : Op} (hm : (h, Obj.req i) ∈ L.objs)
    (hio : L.ops[i]? = some o) (hp : o.st = .pending) : Incomplete s h := fun st =>
  ⟨_, test_pending hi hm hio hp st, rfl⟩

theorem Inv.complete (hi : Inv s L M lst) {h : Int} {i : Nat} {o : Op} (hm : (h, Obj.req i) ∈ L.objs)
    (hio : L.ops[i]? = some o) (hp : o.st ≠ .pending) : Complete s h := by
  obtain ⟨t, src, tag, _, _, ht⟩ := test_done hi hm hio hp
  refine ⟨⟨_, by rw [ht]; rfl, rfl⟩, fun st => ⟨_, by rw [ht]; rfl, rfl⟩⟩

theorem Inv.complete_iff (hi : Inv s L M lst) {h : Int} {i : Nat} {o : Op} (hm : (h, Obj.req i) ∈ L.objs)
    (hio : L.ops[i]? = some o) : Complete s h ↔ o.st ≠ .pending :=
  ⟨fun h1 h2 => not_complete_and_incomplete h1 (hi.incomplete hm hio h2), hi.complete hm hio⟩

theorem Inv.incomplete_iff (hi : Inv s L M lst) {h : Int} {i : Nat} {o : Op} (hm : (h, Obj.req i) ∈ L.objs)
    (hio : L.ops[i]? = some o) : Incomplete s h ↔ o.st = .pending := by
  constructor
  · intro h1
    by_cases h2 : o.st = .pending
    · exact h2
    · exact (not_complete_and_incomplete (hi.complete hm hio h2) h1).elim
  · exact hi.incomplete hm hio

theorem Inv.completeAs (hi : Inv s L M lst) {h : Int} {i j : Nat} {o p : Op} (hm : (h, Obj.req i) ∈ L.objs)
    (hio : L.ops[i]? = some o) (hk : o.kind = .recv) (hp : o.st = .matched j) (hj : L.ops[j]? = some p) :
    CompleteAs s h 0 p.tag := by
  obtain ⟨t, src, tag, hd, _, ht⟩ := test_done hi hm hio (by rw [hp]; simp)
  intro st
  refine ⟨_, by rw [ht]; rfl, rfl, ?_⟩
  have := hd hk
  rw [hp] at this
  obtain ⟨rfl, p', h1, rfl⟩ := this
  rw [hj] at h1
  cases h1
  rfl

theorem Inv.completeAs_null (hi : Inv s L M lst) {h : Int} {i : Nat} {o : Op} (hm : (h, Obj.req i) ∈ L.objs)
    (hio : L.ops[i]? = some o) (hk : o.kind = .recv) (hp : o.st = .null) :
    CompleteAs s h MPI_PROC_NULL MPI_ANY_TAG := by
  obtain ⟨t, src, tag, hd, _, ht⟩ := test_done hi hm hio (by rw [hp]; simp)
  intro st
  refine ⟨_, by rw [ht]; rfl, rfl, ?_⟩
  have := hd hk
  rw [hp] at this
  obtain ⟨rfl, rfl⟩ := this
  rfl

/-! ## Wait -/

theorem wait_pending (hi : Inv s L M lst) {h : Int} {i : Nat} {o : Op} (hm : (h, Obj.req i) ∈ L.objs)
    (hio : L.ops[i]? = some o) (hp : o.st = .pending) (st : StPtr) : (MPI_Wait s h st).aborted = true := by
  unfold MPI_Wait
  rw [test_pending hi hm hio hp, Res.ok_bind]
  dsimp only
  rw [if_pos rfl]
  rfl

theorem wait_done (hi : Inv s L M lst) {h : Int} {i : Nat} {o : Op} (hm : (h, Obj.req i) ∈ L.objs)
    (hio : L.ops[i]? = some o) (hp : o.st ≠ .pending) :
    ∃ t src tag, DoneInfo L o src tag ∧ Inv { s with handles := t } (L.release h) M lst ∧
      ∀ st, MPI_Wait s h st = (StPtr.put st src tag >>= fun st' => .ok ({ s with handles := t }, 0, st')) := by
  obtain ⟨t, src, tag, hd, hi', ht⟩ := test_done hi hm hio hp
  refine ⟨t, src, tag, hd, hi', ?_⟩
  intro st
  unfold MPI_Wait
  rw [ht st]
  cases StPtr.put st src tag <;> rfl

/-! ## Probe -/

theorem iprobe_spec (hi : Inv s L M lst) {comm : Int} {c : Nat} (hcm : (comm, Obj.comm c) ∈ L.objs)
    {src : Int} (hsrc : src = 0 ∨ src = MPI_ANY_SOURCE) (tag : Int) (st : StPtr) :
    (L.partner c .recv tag = none ∧ MPI_Iprobe s src tag comm st = .ok (s, 0, st)) ∨
    (∃ j o, L.partner c .recv tag = some j ∧ L.ops[j]? = some o ∧
      MPI_Iprobe s src tag comm st = (StPtr.put st 0 o.tag >>= fun st' => .ok (s, 1, st'))) := by
  obtain ⟨_, n, hcd⟩ := hi.comm _ _ hcm
  obtain ⟨q, hq, hqs⟩ := hi.queue _ _ hcm .send
  have hreq : ∀ o ∈ queueOf L.ops Kind.recv.other c, ∃ r, s.req (some (locOf o.h)) = .ok r ∧ r.tag = o.tag := by
    intro o ho
    obtain ⟨h1, r, h2, _, h4, _⟩ := hi.queue_recs hcm ho
    exact ⟨r, Sys.req_live hi.hst h1 h2, h4⟩
  unfold MPI_Iprobe
  rw [Sys.ptr_live hi.hst (mem_keys hcm), Res.ok_bind]
  dsimp only
  rw [if_neg (by omega), Sys.comm_live hi.hst (mem_keys hcm) hcd, Res.ok_bind]
  dsimp only
  cases hp : L.partner c .recv tag with
  | none =>
    left
    have hsr : AP_list_search_func s.lists (lst c .send) (mpi_match_send s tag) = .ok none :=
      search_none (k := .recv) hi.linv hq hqs hreq hp
    rw [hsr, Res.ok_bind]
    exact ⟨rfl, rfl⟩
  | some j =>
    right
    obtain ⟨A, o, B, hops, rfl, ho, hA⟩ := Ledger.partner_some hp
    obtain ⟨q1, x, q2, h1, h2, h3, h4⟩ := search_some (k := .recv) hi.linv hq hops ho hA hqs hreq
    refine ⟨A.length, o, rfl, by rw [hops]; simp, ?_⟩
    have h4' : AP_list_search_func s.lists (lst c .send) (mpi_match_send s tag) = .ok (some x) := h4
    rw [h4', Res.ok_bind]
    dsimp only
    have hoq : o ∈ queueOf L.ops Kind.recv.other c := by
      rw [waits_iff] at ho
      exact mem_queueOf.2 ⟨by rw [hops]; simp, ho.1.1, ho.1.2.1, ho.1.2.2⟩
    obtain ⟨r, h5, h6⟩ := hreq o hoq
    rw [hi.linv.data hq (x := x) (a := locOf o.h) (by rw [h1]; simp), Res.ok_bind, h5, Res.ok_bind, h6]
    rfl

/-! ## What a successful post does -/

theorem fits_iff {b : Op} {k : Kind} {tag : Int} :
    b.fits k tag = true ↔ (if k = .send then accepts b.tag tag = true else accepts tag b.tag = true) := by
  cases k <;> simp [Op.fits]

/-- What a successful post does. -/
theorem posted (hi : Inv s L M lst) {k : Kind} {c : Nat} {hc : Int} (hcm : (hc, Obj.comm c) ∈ L.objs)
    {tag buf count dtype h : Int} {r : Res (Sys × Int)}
    (hps : PostSpec env s L lst k c tag buf count dtype r) (hok : r = .ok (s', h)) :
    (∃ M', Inv s' (L.post k c tag buf count dtype h) M' lst) ∧ h ∉ L.objs.map Prod.fst ∧
    (∀ h' i, (h', Obj.req i) ∈ L.objs → L.partner c k tag ≠ some i → (Complete s' h' ↔ Complete s h')) ∧
    ((L.partner c k tag = none ∧ s'.mem = s.mem ∧ Incomplete s' h) ∨
     (∃ j o, L.partner c k tag = some j ∧ L.ops[j]? = some o ∧ (o.h, Obj.req j) ∈ L.objs ∧
        Complete s' h ∧ Complete s' o.h ∧
        (k = .send → CompleteAs s' o.h 0 tag) ∧ (k = .recv → CompleteAs s' h 0 o.tag) ∧
        (∀ st dt, L.desc env.cfg dtype = some st →
          L.desc env.cfg (if k = .send then o.dtype else dtype) = some dt →
          (if k = .send then Pcopy_data2 env.cfg s.mem buf count st o.buf o.count dt
           else Pcopy_data2 env.cfg s.mem o.buf count st buf count st) = .ok s'.mem))) := by
  have hobj := post_objs (L := L) k c tag buf count dtype h
  have hnewm : (h, Obj.req L.ops.length) ∈ (L.post k c tag buf count dtype h).objs := by rw [hobj]; simp
  have hnewo := post_new (L := L) k c tag buf count dtype h
  have others : (∃ M', Inv s' (L.post k c tag buf count dtype h) M' lst) →
      ∀ h' i, (h', Obj.req i) ∈ L.objs → L.partner c k tag ≠ some i → (Complete s' h' ↔ Complete s h') := by
    rintro ⟨M', hi'⟩ h' i hm hne
    obtain ⟨o, ho, _⟩ := hi.opOf hm
    have ho' := post_old k c tag buf count dtype h ho
    rw [if_neg hne] at ho'
    rw [hi.complete_iff hm ho, hi'.complete_iff (by rw [hobj]; exact List.mem_cons_of_mem _ hm) ho']
  rcases hps with ⟨_, ha⟩ | ⟨_, hp, s1, h1, M', hr, hm, hn, hi'⟩ | ⟨_, j, o, s1, h1, M', X, hp, hj, hr, hn, hX, hi'⟩
  · rw [hok] at ha; cases ha
  · rw [hok] at hr
    simp only [Res.ok.injEq, Prod.mk.injEq] at hr
    obtain ⟨rfl, rfl⟩ := hr
    refine ⟨⟨M', hi'⟩, hn, others ⟨M', hi'⟩, Or.inl ⟨hp, hm, ?_⟩⟩
    rw [hp] at hnewo
    exact hi'.incomplete hnewm hnewo rfl
  · rw [hok] at hr
    obtain ⟨m, hm, hr⟩ := Res.bind_eq_ok.1 hr.symm
    simp only [Res.ok.injEq, Prod.mk.injEq] at hr
    obtain ⟨rfl, rfl⟩ := hr
    have hi' := hi'.setMem m
    have hjl : (o.h, Obj.req j) ∈ L.objs := by
      obtain ⟨o1, he⟩ := partner_earliest hp
      have := he.1
      rw [hj] at this
      cases this
      exact hi.held j o hj he.2.1.2.2 hc (he.2.1.2.1.symm ▸ hcm)
    have hjl' : (o.h, Obj.req j) ∈ (L.post k c tag buf count dtype h1).objs := by
      rw [hobj]; exact List.mem_cons_of_mem _ hjl
    have hjo := post_old k c tag buf count dtype h1 hj
    rw [if_pos hp] at hjo
    rw [hp] at hnewo
    have hko : o.kind = k.other := by
      obtain ⟨o1, he⟩ := partner_earliest hp
      have := he.1
      rw [hj] at this
      cases this
      exact he.2.1.1
    refine ⟨⟨M', hi'⟩, hn, others ⟨M', hi'⟩, Or.inr ⟨j, o, hp, hj, hjl, ?_, ?_, ?_, ?_, ?_⟩⟩
    · exact hi'.complete hnewm hnewo (by simp)
    · exact hi'.complete hjl' hjo (by simp)
    · intro hk
      subst hk
      exact hi'.completeAs hjl' hjo hko rfl hnewo
    · intro hk
      subst hk
      exact hi'.completeAs (p := { o with st := .matched L.ops.length }) hnewm hnewo rfl rfl hjo
    · intro st dt h1 h2
      rw [← hX st dt h1 h2]; exact hm

theorem irecv_src {buf count dtype src tag comm h : Int} (hsrc : src ≠ MPI_PROC_NULL)
    (hok : MPI_Irecv env s buf count dtype src tag comm = .ok (s', h)) : src = 0 ∨ src = MPI_ANY_SOURCE := by
  unfold MPI_Irecv at hok
  obtain ⟨⟨s1, p⟩, _, h2⟩ := Res.bind_eq_ok.1 hok
  dsimp only at h2
  split at h2
  · cases h2
  · omega

theorem Step.matched_stays (h : Step env s L s' L') {i j : Nat} {a : Op} (ha : L.ops[i]? = some a)
    (hst : a.st = .matched j) : L'.ops[i]? = some a := by
  have hpost : ∀ k c tag buf count dtype h, (L.post k c tag buf count dtype h).ops[i]? = some a := by
    intro k c tag buf count dtype h
    rw [post_old k c tag buf count dtype h ha, if_neg]
    intro hp
    obtain ⟨o, he⟩ := partner_earliest hp
    have := he.1
    rw [ha] at this
    cases this
    have := he.2.1.2.2
    rw [hst] at this
    cases this
  cases h with
  | memory => exact ha
  | init => exact ha
  | finalize => exact ha
  | comm => unfold Ledger.noteComm; split <;> exact ha
  | commFree => exact ha
  | isend => exact hpost ..
  | irecv => exact hpost ..
  | isendNull => exact postNull_old _ _ _ _ _ _ ha
  | irecvNull => exact postNull_old _ _ _ _ _ _ ha
  | test => split <;> exact ha
  | requestFree => exact ha
  | newType => exact ha
  | commit => exact ha
  | typeFree => exact ha

theorem traffic_eq (k : Kind) (c : Nat) : L.traffic k c = queueOf L.ops k c := rfl

theorem find_filter {α : Type} (l : List α) (p q : α → Bool) :
    l.find? (fun x => p x && q x) = (l.filter p).find? q := by
  induction l with
  | nil => rfl
  | cons x l ih =>
    rw [List.find?_cons, List.filter_cons]
    cases hp : p x with
    | false => rw [Bool.false_and, if_neg (by simp)]; exact ih
    | true =>
      rw [Bool.true_and, if_pos rfl, List.find?_cons]
      cases hq : q x with
      | false => exact ih
      | true => rfl

/-- The message a probe sees is determined by the pending traffic. -/
theorem partner_find {c : Nat} {k : Kind} {tag : Int} :
    (L.partner c k tag = none ∧ (L.traffic k.other c).find? (fun o => o.fits k tag) = none) ∨
    (∃ j o, L.partner c k tag = some j ∧ L.ops[j]? = some o ∧
      (L.traffic k.other c).find? (fun o => o.fits k tag) = some o) := by
  have hf : (L.traffic k.other c).find? (fun o => o.fits k tag) = L.ops.find? (fun o => o.waits c k tag) := by
    unfold Ledger.traffic
    rw [← find_filter]; rfl
  rw [hf]
  cases hp : L.partner c k tag with
  | none =>
    left
    refine ⟨rfl, ?_⟩
    rw [List.find?_eq_none]
    intro o ho
    rw [Ledger.partner_none hp o ho]; simp
  | some j =>
    right
    obtain ⟨A, o, B, hops, rfl, ho, hA⟩ := Ledger.partner_some hp
    refine ⟨A.length, o, rfl, by rw [hops]; simp, ?_⟩
    rw [List.find?_eq_some_iff_append]
    exact ⟨ho, A, B, hops, fun x hx => by simp [hA x hx]⟩

/-- What a call does to an operation posted before: nothing, or it matches it. -/
theorem Step.op_cases (h : Step env s L s' L') {i : Nat} {o : Op} (ho : L.ops[i]? = some o) :
    L'.ops[i]? = some o ∨
    (∃ comm buf count dtype src tag h, (comm, Obj.comm o.cid) ∈ L.objs ∧
      (MPI_Isend env s buf count dtype 0 tag comm = .ok (s', h) ∨
       MPI_Irecv env s buf count dtype src tag comm = .ok (s', h))) := by
  have hpost : ∀ k c tag buf count dtype h, (L.post k c tag buf count dtype h).ops[i]? = some o ∨ o.cid = c := by
    intro k c tag buf count dtype h
    rw [post_old k c tag buf count dtype h ho]
    by_cases hp : L.partner c k tag = some i
    · right
      obtain ⟨o', he⟩ := partner_earliest hp
      have := he.1
      rw [ho] at this
      cases this
      exact he.2.1.2.1
    · rw [if_neg hp]; exact Or.inl rfl
  cases h with
  | memory => exact Or.inl ho
  | init => exact Or.inl ho
  | finalize => exact Or.inl ho
  | comm => left; unfold Ledger.noteComm; split <;> exact ho
  | commFree => exact Or.inl ho
  | @isend _ _ buf count dtype tag comm c h hcm hu hok =>
    rcases hpost .send c tag buf count dtype h with h1 | h1
    · exact Or.inl h1
    · exact Or.inr ⟨comm, buf, count, dtype, 0, tag, h, h1 ▸ hcm, Or.inl hok⟩
  | @irecv _ _ buf count dtype src tag comm c h hcm hu hsrc hok =>
    rcases hpost .recv c tag buf count dtype h with h1 | h1
    · exact Or.inl h1
    · exact Or.inr ⟨comm, buf, count, dtype, src, tag, h, h1 ▸ hcm, Or.inr hok⟩
  | isendNull => exact Or.inl (postNull_old _ _ _ _ _ _ ho)
  | irecvNull => exact Or.inl (postNull_old _ _ _ _ _ _ ho)
  | test => left; split <;> exact ho
  | requestFree => exact Or.inl ho
  | newType => exact Or.inl ho
  | commit => exact Or.inl ho
  | typeFree => exact Or.inl ho

/-- What a probe reports, from the pending traffic. -/
theorem iprobe_traffic (hi : Inv s L M lst) {comm : Int} {c : Nat} (hcm : (comm, Obj.comm c) ∈ L.objs)
    {src : Int} (hsrc : src = 0 ∨ src = MPI_ANY_SOURCE) (tag : Int) (st : StPtr) :
    (MPI_Iprobe s src tag comm st >>= fun r => Res.ok r.2) =
      match (L.traffic .send c).find? (fun o => o.fits .recv tag) with
      | none => .ok (0, st)
      | some o => StPtr.put st 0 o.tag >>= fun st' => .ok (1, st') := by
  rcases iprobe_spec hi hcm hsrc tag st with ⟨hp, he⟩ | ⟨j, o, hp, hj, he⟩ <;>
  rcases partner_find (L := L) (c := c) (k := .recv) (tag := tag) with ⟨q, q1⟩ | ⟨j1, o1, q2, q3, q4⟩
  · rw [he, show (L.traffic .send c).find? (fun o => o.fits .recv tag) = none from q1]; rfl
  · rw [hp] at q2; cases q2
  · rw [hp] at q; cases q
  · rw [hp] at q2
    cases q2
    rw [hj] at q3
    cases q3
    rw [he, show (L.traffic .send c).find? (fun o => o.fits .recv tag) = some o from q4]
    dsimp only
    cases StPtr.put st 0 o.tag <;> rfl

end

end MpiSerial
