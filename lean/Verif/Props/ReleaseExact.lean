import Verif.Props.Release

/-!
# C54: what happens to operations whose request or type was freed, for all histories
-/

set_option linter.unusedSimpArgs false
set_option autoImplicit false

namespace MpiSerial

section
variable {A : Type}

/-- A search that meets an item whose test fails, before one that is accepted. -/
theorem searchLoop_stop {h : LHeap A} {f : A → Res Bool} {u : UB} {x : Nat} {a : A} {B : List (Nat × A)} (hu : f a = .ub u) :
    ∀ (s : List (Nat × A)) (fuel : Nat) (p : Option Nat), (s ++ (x, a) :: B).length ≤ fuel →
      DSeg h.nodes p (s ++ (x, a) :: B) none → (∀ e ∈ s, f e.2 = .ok false) →
      searchLoop f fuel h ((s ++ (x, a) :: B).head?.map Prod.fst) = .ub u := by
  intro s
  induction s with
  | nil =>
    intro fuel p hf hs _
    obtain ⟨h1, h2⟩ := hs
    cases fuel with
    | zero => simp at hf
    | succ fuel =>
      simp only [List.nil_append, List.head?_cons, Option.map_some, searchLoop, LHeap.getN, h1, Res.ok_bind, hu]
      rfl
  | cons e s ih =>
    intro fuel p hf hs hg
    obtain ⟨y, b⟩ := e
    obtain ⟨h1, h2⟩ := hs
    cases fuel with
    | zero => simp at hf
    | succ fuel =>
      simp only [List.cons_append, List.head?_cons, Option.map_some, searchLoop, LHeap.getN, h1, Res.ok_bind]
      rw [hg (y, b) (by simp)]
      simp only [Res.ok_bind, Option.or_none, Bool.false_eq_true, if_false]
      exact ih fuel _ (by simp at hf ⊢; omega) h2 (fun e he => hg e (by simp [he]))

theorem LInv.search_stop {h : LHeap A} {M : AbsLists A} {l : Nat} {s : List (Nat × A)} {x : Nat} {a : A} {B : List (Nat × A)}
    (hi : LInv h M) (hm : (l, s ++ (x, a) :: B) ∈ M) {f : A → Res Bool} {u : UB} (hs : ∀ e ∈ s, f e.2 = .ok false)
    (hu : f a = .ub u) : AP_list_search_func h l f = .ub u := by
  unfold AP_list_search_func
  rw [hi.getL hm, Res.ok_bind]
  have := hi.len_le hm
  exact searchLoop_stop hu s _ none (by omega) (hi.segs l _ hm) hs
end

section
variable {env : Env} {s : Sys} {L : Ledger}

/-- C54 fails for the request of a pending receive, after every history: MPI_Request_free succeeds, the next
communicator gets the same handle, and the next message on the communicator of the receive that no earlier receive is
waiting for - whether it is meant for this receive or not - is compared with that communicator as if it were a
request record. -/
theorem C54_fails_request_always (hr : Reach env s L) {h comm tag : Int} {i : Nat} {o : Op} (hm : (h, Obj.req i) ∈ L.objs)
    (ho : L.ops[i]? = some o) (hk : o.kind = .recv) (hp : o.st = .pending) (hcm : (comm, Obj.comm o.cid) ∈ L.objs)
    (hfirst : ∀ (j : Nat) p, j < i → L.ops[j]? = some p → p.waits o.cid .send tag = false) (hroom : L.objs.length < 262143)
    (hn : L.ncomms < 2147483647) (hn' : L.ncomms - L.nfreed < 1073741823) (old buf count dtype : Int) :
    ∃ s₁ s₂, MPI_Request_free s h = .ok (s₁, MPI_REQUEST_NULL) ∧ MPI_Comm_dup s₁ old = .ok (s₂, h) ∧
      MPI_Isend env s₂ buf count dtype 0 tag comm = .ub .kind := by
  obtain ⟨M, lst, hi⟩ := hr.inv
  obtain ⟨t₁, c1, c2, c3⟩ := hi.hst.free (mem_keys hm)
  obtain ⟨t₂, l, d1, d2, d3⟩ := hi.hst.lifo (mem_keys hm) c1 Slot.raw
  rw [hi.hst.lookup (mem_keys hm)] at d3
  cases d3
  have hne : comm ≠ h := fun he => by
    subst he
    cases hi.uniq hm hcm
  have hlenE : (L.objs.map Prod.fst).length = ((L.objs.map Prod.fst).erase h).length + 1 := by
    have := List.length_erase_of_mem (mem_keys hm)
    have := List.length_pos_of_mem (mem_keys hm)
    omega
  have hmE : ∀ h' : Int, h' ∈ L.objs.map Prod.fst → h' ≠ h → h' ∈ (L.objs.map Prod.fst).erase h := fun h' hh' hn =>
    (List.mem_erase_of_ne hn).2 hh'
  rcases c2.alloc Slot.raw with ⟨_, t₂', h', e1, e2, e3, e4⟩ | ⟨e1, _⟩
  rotate_left
  · rw [List.length_map] at hlenE; omega
  rw [d1] at e1
  cases e1
  have hhc := hi.hcap
  obtain ⟨l1, b1, b2⟩ := hi.linv.new (by omega)
  have hc1 : l1.headcount = s.lists.headcount + 1 := by rw [b2.hcount, hi.linv.hcount]; simp
  obtain ⟨l2, g1, g2⟩ := b2.new (by omega)
  have hnum := hi.num
  refine ⟨{ s with handles := t₁ }, { s with handles := t₂.setData (locOf h) (.comm ⟨s.lists.nextList, l1.nextList, s.num⟩), lists := l2, num := s.num + 1 }, ?_, ?_, ?_⟩
  · unfold MPI_Request_free; rw [c1]; rfl
  · show mpi_comm_new _ = _
    unfold mpi_comm_new
    dsimp only
    rw [d1, Res.ok_bind]
    dsimp only
    rw [b1, Res.ok_bind]
    dsimp only
    rw [g1, Res.ok_bind]
    dsimp only
    rw [ck32_ok (by omega) (by omega), Res.ok_bind]
    rfl
  generalize hs2 : ({ s with handles := t₂.setData (locOf h) (.comm ⟨s.lists.nextList, l1.nextList, s.num⟩), lists := l2, num := s.num + 1 } : Sys) = s₂
  have hst2 : HSt s₂.handles (h :: (L.objs.map Prod.fst).erase h) := by rw [← hs2]; exact e2.setData _ _
  have hlists : s₂.lists = l2 := by rw [← hs2]
  have hpos : ∀ h' ∈ L.objs.map Prod.fst, (0 : Int) ≤ h' := fun h' hh' => by have := hi.hst.pos hh'; omega
  have hself : ∃ c, dataAt s₂ h = .comm c := by
    refine ⟨⟨s.lists.nextList, l1.nextList, s.num⟩, ?_⟩
    rw [← hs2]
    unfold dataAt
    dsimp only
    rw [HTab.setData_items, if_pos rfl]
  have hdata : ∀ h' ∈ L.objs.map Prod.fst, h' ≠ h → dataAt s₂ h' = dataAt s h' := by
    intro h' hh' hn
    rw [← hs2]
    unfold dataAt
    dsimp only
    rw [HTab.setData_items, if_neg, e4 h' (hmE h' hh' hn), c3]
    intro he; exact hn (locOf_inj (hpos h' hh') (hpos h (mem_keys hm)) he)
  clear hs2 d1 e4 e2
  have hcm2 : comm ∈ h :: (L.objs.map Prod.fst).erase h := List.mem_cons_of_mem _ (hmE comm (mem_keys hcm) hne)
  unfold MPI_Isend
  rw [Sys.ptr_live hst2 hcm2, Res.ok_bind]
  dsimp only
  rw [if_neg (by simp)]
  rcases allocReq_spec (env := env) hst2 with ⟨_, t₃, h3, r0, a1, a2, a3, a4, a5⟩ | ⟨a1, _⟩
  rotate_left
  · rw [List.length_cons, ← hlenE, List.length_map] at a1; omega
  rw [a1, Res.ok_bind]
  dsimp only
  rw [if_neg (by simp)]
  generalize hs3 : ({ s₂ with handles := t₃, clock := s₂.clock + 1 } : Sys) = s₃
  have hst3 : HSt s₃.handles (h3 :: h :: (L.objs.map Prod.fst).erase h) := by rw [← hs3]; exact a2
  have hl3 : s₃.lists = l2 := by rw [← hs3]; exact hlists
  have hdata3 : ∀ h' ∈ h :: (L.objs.map Prod.fst).erase h, dataAt s₃ h' = dataAt s₂ h' := by rw [← hs3]; exact a5
  clear hs3 a1 a5 a4
  obtain ⟨_, n, hcd⟩ := hi.comm _ _ hcm
  rw [Sys.comm_live hst3 (List.mem_cons_of_mem _ hcm2) (by rw [hdata3 _ hcm2, hdata _ (mem_keys hcm) hne]; exact hcd), Res.ok_bind]
  dsimp only
  obtain ⟨q, hq, hqs⟩ := hi.queue _ _ hcm .recv
  have hlt : i < L.ops.length := by
    rcases Nat.lt_or_ge i L.ops.length with h1 | h1
    · exact h1
    · rw [List.getElem?_eq_none h1] at ho; cases ho
  have hops : L.ops = L.ops.take i ++ o :: L.ops.drop (i + 1) := by
    rw [List.getElem?_eq_getElem hlt] at ho
    rw [← Option.some.inj ho, ← List.drop_eq_getElem_cons hlt, List.take_append_drop]
  obtain ⟨o', r, f1, f2, f3, _⟩ := hi.req _ _ hm
  rw [ho] at f1
  cases f1
  have hpo : o.pendOn .recv o.cid = true := Op.pendOn_iff.2 ⟨hk, rfl, hp⟩
  have hque : queueOf L.ops .recv o.cid = queueOf (L.ops.take i) .recv o.cid ++ o :: queueOf (L.ops.drop (i + 1)) .recv o.cid := by
    unfold queueOf
    conv => lhs; rw [hops]
    rw [List.filter_append, List.filter_cons, if_pos hpo]
  rw [hque, List.map_append, List.map_cons, List.map_eq_append_iff] at hqs
  obtain ⟨q1, q', rfl, hq1, hq2⟩ := hqs
  rw [List.map_eq_cons_iff] at hq2
  obtain ⟨⟨x, b⟩, q2, rfl, hb, _⟩ := hq2
  have hstop : AP_list_search_func s₃.lists (lst o.cid .recv) (mpi_match_recv s₃ tag) = .ub .kind := by
    rw [hl3]
    refine g2.search_stop (List.mem_cons_of_mem _ (List.mem_cons_of_mem _ hq)) ?_ ?_
    · intro e he
      have : e.2 ∈ (queueOf (L.ops.take i) .recv o.cid).map fun o => locOf o.h := hq1 ▸ List.mem_map.2 ⟨e, he, rfl⟩
      obtain ⟨p, hpq, hpe⟩ := List.mem_map.1 this
      obtain ⟨p1, p2, p3, p4⟩ := mem_queueOf.1 hpq
      obtain ⟨j, hj, rfl⟩ := List.getElem_of_mem p1
      rw [List.length_take] at hj
      rw [List.getElem_take] at *
      have hj' : L.ops[j]? = some L.ops[j] := List.getElem?_eq_getElem (by omega)
      obtain ⟨w1, r', w2, _, w4, _⟩ := hi.queue_recs hcm (mem_queueOf.2 ⟨List.mem_of_getElem? hj', p2, p3, p4⟩)
      have hheld := hi.held j _ hj' p4 comm (p3 ▸ hcm)
      have hjne : L.ops[j].h ≠ h := fun he => by
        rw [he] at hheld
        have := hi.uniq hm hheld
        cases this
        omega
      have hin := List.mem_cons_of_mem h (hmE _ w1 hjne)
      have hreq : s₃.req (some e.2) = .ok r' := by
        rw [← hpe]
        exact Sys.req_live hst3 (List.mem_cons_of_mem _ hin) (by rw [hdata3 _ hin, hdata _ w1 hjne]; exact w2)
      have hw := hfirst j _ (by omega) hj'
      rw [Op.waits_eq, show Kind.send.other = .recv from rfl, Op.pendOn_iff.2 ⟨p2, p3, p4⟩, Bool.true_and] at hw
      unfold mpi_match_recv
      rw [hreq, Res.ok_bind, w4]
      unfold Op.fits at hw
      simp only [Res.pure_eq, Res.ok.injEq]
      simpa [accepts] using hw
    · obtain ⟨c', hc'⟩ := hself
      unfold mpi_match_recv
      have hin : h ∈ h :: (L.objs.map Prod.fst).erase h := by simp
      have hd := (hdata3 h hin).trans hc'
      unfold dataAt at hd
      dsimp only at hb
      rw [hb, f2]
      unfold Sys.req
      dsimp only
      rw [hst3.deref (List.mem_cons_of_mem _ hin), Res.ok_bind, hd]
      rfl
  rw [hl3] at hstop
  rw [hlists, hstop]
  rfl

/-- C54 fails for the type of a pending receive, after every history: MPI_Type_free succeeds, and the message that
meets the receive takes the slot of the type for its own request, so that the copy uses a request record as a
datatype. -/
theorem C54_fails_type_always (hr : Reach env s L) {h comm tag : Int} {ty : Typestruct} {i : Nat} {o : Op} {c : Nat}
    (hm : (h, Obj.dtype ty) ∈ L.objs) (hcm : (comm, Obj.comm c) ∈ L.objs) (hp : L.partner c .send tag = some i)
    (ho : L.ops[i]? = some o) (hty : o.dtype = h) {dtype : Int} (hd : (L.desc env.cfg dtype).isSome = true)
    (buf count : Int) :
    ∃ s₁, MPI_Type_free s h = .ok s₁ ∧ MPI_Isend env s₁ buf count dtype 0 tag comm = .ub .kind := by
  obtain ⟨M, lst, hi⟩ := hr.inv
  obtain ⟨s₁, h1, h2, h3, h4⟩ := typeFree_data hi hm
  refine ⟨s₁, h1, ?_⟩
  have hne : comm ≠ h := fun he => by
    subst he
    cases hi.uniq hm hcm
  -- the handle is taken again by the request
  have hlifo : ∃ t l, mpi_alloc_handle s₁.handles Slot.raw = .ok (t, h, l) := by
    obtain ⟨p, d1, d2⟩ := hi.dtype _ _ hm
    have hpos := hi.hst.pos (mem_keys hm)
    obtain ⟨t, c1, c2, c3⟩ := hi.hst.free (mem_keys hm)
    unfold MPI_Type_free handleToDatatype at h1
    rw [if_neg (by omega), Sys.ptr_live hi.hst (mem_keys hm), Res.ok_bind] at h1
    dsimp only at h1
    rw [hi.hst.deref (mem_keys hm), Res.ok_bind] at h1
    unfold dataAt at d1
    rw [d1] at h1
    dsimp only at h1
    rw [Res.pure_bind'] at h1
    dsimp only [freeType] at h1
    rw [d2] at h1
    dsimp only at h1
    rw [Res.ok_bind] at h1
    dsimp only at h1
    rw [c1] at h1
    injection h1 with h1
    subst h1
    obtain ⟨t2, l, e1, _⟩ := hi.hst.lifo (mem_keys hm) c1 Slot.raw
    exact ⟨t2, l, e1⟩
  have hcm1 : (comm, Obj.comm c) ∈ (L.release h).objs := mem_release.2 ⟨hcm, hne⟩
  have hp1 : (L.release h).partner c .send tag = some i := hp
  have hlen1 : ((L.release h).objs.map Prod.fst).length < 262143 := by
    obtain ⟨t, l, e⟩ := hlifo
    rcases h3.hst.alloc Slot.raw with ⟨g, _⟩ | ⟨_, g⟩
    · exact g
    · rw [e] at g; cases g
  unfold MPI_Isend
  rw [Sys.ptr_live h3.hst (mem_keys hcm1), Res.ok_bind]
  dsimp only
  rw [if_neg (by simp)]
  rcases allocReq_spec (env := env) h3.hst with ⟨_, t, h', r0, ha, hst, hnew, hdn, hold⟩ | ⟨hl, _⟩
  rotate_left
  · omega
  have hh : h' = h := by
    obtain ⟨t2, l, e⟩ := hlifo
    unfold Sys.allocReq at ha
    rw [e] at ha
    simp only [Res.ok_bind, Res.pure_eq, Res.ok.injEq, Prod.mk.injEq] at ha
    exact ha.2.1.symm
  subst hh
  rw [ha, Res.ok_bind]
  dsimp only
  rw [if_neg (by simp)]
  generalize hs1 : ({ s₁ with handles := t, clock := s₁.clock + 1 } : Sys) = s2
  have e1 : s2.lists = s₁.lists := by rw [← hs1]
  have hst1 : HSt s2.handles (h' :: (L.release h').objs.map Prod.fst) := by rw [← hs1]; exact hst
  have hd1 : dataAt s2 h' = .req r0 := by rw [← hs1]; exact hdn
  have hold1 : ∀ x ∈ (L.release h').objs.map Prod.fst, dataAt s2 x = dataAt s₁ x := by rw [← hs1]; exact hold
  clear ha hst hdn hold hs1
  obtain ⟨_, n, hcd⟩ := h3.comm _ _ hcm1
  rw [Sys.comm_live hst1 (List.mem_cons_of_mem _ (mem_keys hcm1)) (by rw [hold1 _ (mem_keys hcm1)]; exact hcd),
    Res.ok_bind]
  dsimp only
  obtain ⟨q, hq, hqs⟩ := h3.queue _ _ hcm1 .recv
  have hreq : ∀ o ∈ queueOf (L.release h').ops Kind.send.other c,
      ∃ r, s2.req (some (locOf o.h)) = .ok r ∧ r.tag = o.tag := by
    intro o ho
    obtain ⟨h1, r, h2, _, h4, _⟩ := h3.queue_recs hcm1 ho
    exact ⟨r, Sys.req_live hst1 (List.mem_cons_of_mem _ h1) (by rw [hold1 _ h1]; exact h2), h4⟩
  have hl1 : LInv s2.lists M := by rw [e1]; exact h3.linv
  obtain ⟨A, o', B, hops, hAl, ho', hA⟩ := Ledger.partner_some hp1
  have hoo : o' = o := by
    have : (L.release h').ops[i]? = some o := ho
    rw [hops, ← hAl] at this
    simpa using this
  subst hoo
  obtain ⟨q1, x, q2, rfl, hq1, hq2, hsr⟩ := search_some (k := .send) hl1 hq hops ho' hA hqs hreq
  have hsr : AP_list_search_func s2.lists (lst c .recv) (mpi_match_recv s2 tag) = .ok (some x) := hsr
  rw [e1] at hsr
  rw [hsr, Res.ok_bind]
  dsimp only
  unfold sendMatched
  rw [hl1.data hq (x := x) (a := locOf o'.h) (by simp), Res.ok_bind]
  obtain ⟨l2, M2, b1, _⟩ := hl1.delete_at hq (by rw [e1]; have := h3.icap; omega)
  rw [b1, Res.ok_bind]
  dsimp only
  have howait := ho'
  rw [Op.waits_eq, Bool.and_eq_true] at howait
  have hoq : o' ∈ queueOf (L.release h').ops Kind.send.other c := by
    rw [mem_queueOf, hops]; exact ⟨by simp, Op.pendOn_iff.1 howait.1⟩
  obtain ⟨hok, ro, hdo, _, _, _, hoc⟩ := h3.queue_recs hcm1 hoq
  have hoc := (hoc (mem_queueOf.1 hoq).2.1)
  generalize hs3 : ({ s2 with lists := l2 } : Sys) = s3
  have f1 : s3.handles = s2.handles := by rw [← hs3]
  have hst3 : HSt s3.handles (h' :: (L.release h').objs.map Prod.fst) := by rw [f1]; exact hst1
  have hd3 : dataAt s3 h' = .req r0 := by unfold dataAt; rw [f1]; exact hd1
  have hdo3 : dataAt s3 o'.h = .req ro := by
    have := hold1 _ hok
    unfold dataAt at this ⊢
    rw [f1, this]; exact hdo
  rw [Sys.req_live hst3 (List.mem_cons_of_mem _ hok) hdo3, Res.ok_bind]
  have hro : ro.type = h' := by rw [hoc.2, hty]
  have hbad : handleToDatatype s3 h' = .ub .kind := by
    have hpos := hi.hst.pos (mem_keys hm)
    have hin : h' ∈ h' :: (L.release h').objs.map Prod.fst := by simp
    unfold handleToDatatype
    rw [if_neg (by omega), Sys.ptr_live hst3 hin, Res.ok_bind]
    dsimp only
    rw [hst3.deref hin, Res.ok_bind]
    unfold dataAt at hd3
    rw [hd3]
  have hsrc : handleToDatatype s3 dtype = .ub .kind ∨ ∃ p, handleToDatatype s3 dtype = .ok (s3, p) := by
    by_cases hdh : dtype = h'
    · left; rw [hdh]; exact hbad
    · right
      obtain ⟨u, hu⟩ := Option.isSome_iff_exists.1 hd
      rcases (desc_iff hi.hst.nodup).1 hu with ⟨g1, g2⟩ | ⟨g1, g2⟩
      · have hlt : (-1 - dtype).toNat < 45 := by
          have := (List.getElem?_eq_some_iff.1 g2).1
          rwa [simpletypes_length] at this
        refine ⟨.static (-1 - dtype).toNat, ?_⟩
        unfold handleToDatatype simpletypePtr
        rw [if_pos g1]
        dsimp only
        rw [if_pos hlt]; rfl
      · have hin := List.mem_cons_of_mem h' (mem_keys (mem_release.2 ⟨g2, hdh⟩ : (dtype, Obj.dtype u) ∈ (L.release h').objs))
        obtain ⟨p, d1, _⟩ := h3.dtype _ _ (mem_release.2 ⟨g2, hdh⟩ : (dtype, Obj.dtype u) ∈ (L.release h').objs)
        have hdd : dataAt s3 dtype = .dtype (.heap p) := by
          have := hold1 dtype (mem_keys (mem_release.2 ⟨g2, hdh⟩ : (dtype, Obj.dtype u) ∈ (L.release h').objs))
          unfold dataAt at this d1 ⊢
          rw [f1, this]; exact d1
        refine ⟨.heap p, ?_⟩
        unfold handleToDatatype
        rw [if_neg (by omega), Sys.ptr_live hst3 hin, Res.ok_bind]
        dsimp only
        rw [hst3.deref hin, Res.ok_bind]
        unfold dataAt at hdd
        rw [hdd]; rfl
  unfold copy_data2
  rcases hsrc with hs | ⟨p, hs⟩
  · rw [hs]; rfl
  · rw [hs, Res.ok_bind]
    dsimp only
    rw [hro, hbad]; rfl

/-- C54 fails for the request of a pending send, after every history: MPI_Request_free succeeds, the next message (with
another tag, and not met by a receive) takes the storage of the request, and the first message - the only one with its
tag, and found by MPI_Iprobe until then - is gone. -/
theorem C54_fails_request_send_always (hr : Reach env s L) {h comm tag : Int} {i : Nat} {o : Op} (hm : (h, Obj.req i) ∈ L.objs)
    (ho : L.ops[i]? = some o) (hk : o.kind = .send) (hp : o.st = .pending) (hcm : (comm, Obj.comm o.cid) ∈ L.objs)
    (hany : o.tag ≠ MPI_ANY_TAG) (hone : ∀ (j : Nat) p, j ≠ i → L.ops[j]? = some p → p.waits o.cid .recv o.tag = false)
    (htag : tag ≠ o.tag) (hnone : L.partner o.cid .send tag = none) (hu : L.unmatched < 2147483647)
    (buf count dtype : Int) :
    MPI_Iprobe s 0 o.tag comm .null = .ok (s, 1, .null) ∧
    ∃ s₁ s₂, MPI_Request_free s h = .ok (s₁, MPI_REQUEST_NULL) ∧
      MPI_Isend env s₁ buf count dtype 0 tag comm = .ok (s₂, h) ∧ MPI_Iprobe s₂ 0 o.tag comm .null = .ok (s₂, 0, .null) := by
  obtain ⟨M, lst, hi⟩ := hr.inv
  constructor
  · have hw : o.waits o.cid .recv o.tag = true := by
      rw [Op.waits_eq, show Kind.recv.other = .send from rfl, Op.pendOn_iff.2 ⟨hk, rfl, hp⟩]
      simp [Op.fits, accepts]
    rcases iprobe_spec hi hcm (Or.inl rfl) o.tag .null with ⟨h1, _⟩ | ⟨j, p, _, _, h3⟩
    · have := Ledger.partner_none h1 o (List.mem_of_getElem? ho)
      rw [hw] at this; cases this
    · rw [h3]; rfl
  obtain ⟨t₁, c1, c2, c3⟩ := hi.hst.free (mem_keys hm)
  obtain ⟨t₂, l, d1, _, d3⟩ := hi.hst.lifo (mem_keys hm) c1 Slot.raw
  have hne : comm ≠ h := fun he => by
    subst he
    cases hi.uniq hm hcm
  have hmE : ∀ h' : Int, h' ∈ L.objs.map Prod.fst → h' ≠ h → h' ∈ (L.objs.map Prod.fst).erase h := fun h' hh' hn =>
    (List.mem_erase_of_ne hn).2 hh'
  generalize hs1 : ({ s with handles := t₁ } : Sys) = s₁
  have el1 : s₁.lists = s.lists := by rw [← hs1]
  have hst1 : HSt s₁.handles ((L.objs.map Prod.fst).erase h) := by rw [← hs1]; exact c2
  have hdat1 : ∀ x, dataAt s₁ x = dataAt s x := by rw [← hs1]; exact fun x => c3 _
  have hal : mpi_alloc_handle s₁.handles Slot.raw = .ok (t₂, h, l) := by rw [← hs1]; exact d1
  refine ⟨s₁, ?_⟩
  have hfree : MPI_Request_free s h = .ok (s₁, MPI_REQUEST_NULL) := by
    unfold MPI_Request_free; rw [c1, ← hs1]; rfl
  have hcmE := hmE comm (mem_keys hcm) hne
  rcases allocReq_spec (env := env) hst1 with ⟨_, t, h', r0, ha, hst, hnew, hdn, hold⟩ | ⟨_, ha⟩
  rotate_left
  · unfold Sys.allocReq at ha; rw [hal] at ha; cases ha
  have hh : h' = h := by
    unfold Sys.allocReq at ha
    rw [hal] at ha
    simp only [Res.ok_bind, Res.pure_eq, Res.ok.injEq, Prod.mk.injEq] at ha
    exact ha.2.1.symm
  subst hh
  generalize hs2 : ({ s₁ with handles := t, clock := s₁.clock + 1 } : Sys) = s2 at ha
  have e1 : s2.lists = s.lists := by rw [← hs2]; exact el1
  have hst2 : HSt s2.handles (h' :: (L.objs.map Prod.fst).erase h') := by rw [← hs2]; exact hst
  have hd2 : dataAt s2 h' = .req r0 := by rw [← hs2]; exact hdn
  have hold2 : ∀ x ∈ L.objs.map Prod.fst, x ≠ h' → dataAt s2 x = dataAt s x := fun x hx hn => by
    rw [← hdat1 x, ← hs2]; exact hold x (hmE x hx hn)
  have hpos : ∀ x ∈ L.objs.map Prod.fst, (0 : Int) ≤ x := fun x hx => by have := hi.hst.pos hx; omega
  clear hs2 hst hdn hold
  -- the pending receives are other records
  have hrec : ∀ k, ∀ p ∈ queueOf L.ops k o.cid, p.h ≠ h' → ∃ r, dataAt s2 p.h = .req r ∧ r.tag = p.tag ∧
      p.h ∈ h' :: (L.objs.map Prod.fst).erase h' := by
    intro k p hpq hn
    obtain ⟨w1, r, w2, _, w4, _⟩ := hi.queue_recs hcm hpq
    exact ⟨r, (hold2 _ w1 hn).trans w2, w4, List.mem_cons_of_mem _ (hmE _ w1 hn)⟩
  have hidx : ∀ p ∈ L.ops, p.st = .pending → p.cid = o.cid → p.h = h' → p = o := by
    intro p hpm h1 h2 h3
    obtain ⟨j, hj, hjp⟩ := List.getElem_of_mem hpm
    have hj' : L.ops[j]? = some p := by rw [List.getElem?_eq_getElem hj, hjp]
    have := hi.held j p hj' h1 comm (h2 ▸ hcm)
    rw [h3] at this
    cases hi.uniq hm this
    rw [ho] at hj'
    cases hj'; rfl
  obtain ⟨_, n, hcd⟩ := hi.comm _ _ hcm
  have hcd2 : dataAt s2 comm = .comm ⟨lst o.cid .send, lst o.cid .recv, n⟩ := (hold2 _ (mem_keys hcm) hne).trans hcd
  have hl2 : LInv s2.lists M := by rw [e1]; exact hi.linv
  obtain ⟨qr, hqr, hqrs⟩ := hi.queue _ _ hcm .recv
  have hsr : AP_list_search_func s2.lists (lst o.cid .recv) (mpi_match_recv s2 tag) = .ok none := by
    refine search_none (k := .send) hl2 hqr hqrs ?_ hnone
    intro p hpq
    have hpn : p.h ≠ h' := fun he => by
      obtain ⟨p1, p2, p3, p4⟩ := mem_queueOf.1 hpq
      have := hidx p p1 p4 p3 he
      subst this
      rw [hk] at p2; cases p2
    obtain ⟨r, w1, w2, w3⟩ := hrec _ p hpq hpn
    exact ⟨r, Sys.req_live hst2 w3 w1, w2⟩
  obtain ⟨q, hq, hqs⟩ := hi.queue _ _ hcm .send
  obtain ⟨l3, M3, x, b1, b2, b3, _⟩ := hl2.append_at hq (locOf h') (by rw [e1]; have := hi.icap; omega)
  generalize hr1 : ({ r0 with buf := buf, tag := tag, complete := 0 } : ReqRec) = r1
  have ht1 : r1.tag = tag := by rw [← hr1]
  have hpm : ∀ r : ReqRec, ∀ x ∈ L.objs.map Prod.fst, x ≠ h' → dataAt (s2.put h' (.req r)) x = dataAt s2 x := fun r x hx hn =>
    dataAt_put_ne _ (hpos _ (mem_keys hm)) (hpos x hx) hn
  refine ⟨({ s2.put h' (.req r1) with lists := l3 } : Sys).put h' (.req { r1 with listitem := some x }), hfree, ?_, ?_⟩
  · unfold MPI_Isend
    rw [Sys.ptr_live hst1 hcmE, Res.ok_bind]
    dsimp only
    rw [if_neg (by simp), ha, Res.ok_bind]
    dsimp only
    rw [if_neg (by simp), Sys.comm_live hst2 (List.mem_cons_of_mem _ hcmE) hcd2, Res.ok_bind]
    dsimp only
    rw [hsr, Res.ok_bind]
    dsimp only
    unfold sendQueued
    rw [Sys.modReq_live hst2 (by simp) hd2, Res.ok_bind, hr1]
    have : AP_list_append (s2.put h' (.req r1)).lists (lst o.cid .send) (locOf h') = .ok (l3, x) := b1
    rw [this, Res.ok_bind]
    dsimp only
    rw [Sys.modReq_live (s := { s2.put h' (.req r1) with lists := l3 }) (L := h' :: (L.objs.map Prod.fst).erase h') (r := r1) (hst2.put h' _) (by simp)
      (dataAt_put_self s2 h' (.req r1)), Res.ok_bind]
    rfl
  · generalize hs4 : (({ s2.put h' (.req r1) with lists := l3 } : Sys).put h' (.req { r1 with listitem := some x })) = s4
    have hst4 : HSt s4.handles (h' :: (L.objs.map Prod.fst).erase h') := by rw [← hs4]; exact (hst2.put h' _).put h' _
    have hl4 : s4.lists = l3 := by rw [← hs4]; rfl
    have hself : dataAt s4 h' = .req { r1 with listitem := some x } := by rw [← hs4]; exact dataAt_put_self _ _ _
    have hoth : ∀ x ∈ L.objs.map Prod.fst, x ≠ h' → dataAt s4 x = dataAt s2 x := fun y hy hn => by
      rw [← hs4]
      exact (dataAt_put_ne (s := { s2.put h' (.req r1) with lists := l3 }) _ (hpos _ (mem_keys hm)) (hpos y hy) hn).trans (hpm r1 y hy hn)
    clear hs4
    have hno : ∀ e ∈ q ++ [(x, locOf h')], mpi_match_send s4 o.tag e.2 = .ok false := by
      have hmine : mpi_match_send s4 o.tag (locOf h') = .ok false := by
        unfold mpi_match_send
        rw [Sys.req_live hst4 (by simp) hself, Res.ok_bind]
        simp only [Res.pure_eq, Res.ok.injEq, ht1]
        simp [hany, Ne.symm htag]
      intro e he
      rcases List.mem_append.1 he with he | he
      · have : e.2 ∈ (queueOf L.ops .send o.cid).map fun o => locOf o.h := hqs ▸ List.mem_map.2 ⟨e, he, rfl⟩
        obtain ⟨p, hpq, hpe⟩ := List.mem_map.1 this
        rw [← hpe]
        by_cases hpn : p.h = h'
        · rw [hpn]; exact hmine
        obtain ⟨r, w1, w2, w3⟩ := hrec _ p hpq hpn
        obtain ⟨p1, p2, p3, p4⟩ := mem_queueOf.1 hpq
        obtain ⟨j, hj, hjp⟩ := List.getElem_of_mem p1
        have hj' : L.ops[j]? = some p := by rw [List.getElem?_eq_getElem hj, hjp]
        obtain ⟨_, _, f1, f2, _⟩ := hi.req _ _ hm
        rw [ho] at f1
        cases f1
        have hji : j ≠ i := fun he => by
          rw [he, ho] at hj'
          cases hj'
          exact hpn f2
        have hw := hone j p hji hj'
        rw [Op.waits_eq, show Kind.recv.other = .send from rfl, Op.pendOn_iff.2 ⟨p2, p3, p4⟩, Bool.true_and] at hw
        unfold Op.fits at hw
        have hkey := (hi.queue_recs hcm hpq).1
        unfold mpi_match_send
        rw [Sys.req_live hst4 w3 ((hoth _ hkey hpn).trans w1), Res.ok_bind, w2]
        simp only [Res.pure_eq, Res.ok.injEq]
        simpa [accepts] using hw
      · rw [List.mem_singleton] at he
        rw [he]; exact hmine
    have hsr4 : AP_list_search_func s4.lists (lst o.cid .send) (mpi_match_send s4 o.tag) = .ok none := by
      rw [hl4, b2.search_func b3 (g := fun _ => false) hno]
      simp
    unfold MPI_Iprobe
    rw [Sys.ptr_live hst4 (List.mem_cons_of_mem _ hcmE), Res.ok_bind]
    dsimp only
    rw [if_neg (by simp), Sys.comm_live hst4 (List.mem_cons_of_mem _ hcmE) ((hoth _ (mem_keys hcm) hne).trans hcd2), Res.ok_bind]
    dsimp only
    rw [hsr4]
    rfl

end

/-! ## Instances -/

/-- A receive with tag 5 into 300, posted after MPI_Init. -/
def RX1 : Demo := H1.irecv 300 1 (-1) 0 5 1 0
theorem RX1_ok : RX1.Ok := Demo.irecv_ok H1_ok (by decide +kernel) (by decide +kernel)
/-- A receive of one committed vector. -/
def RX2 : Demo := V2.irecv 300 1 2 0 5 1 0
theorem RX2_ok : RX2.Ok := Demo.irecv_ok V2_ok (by decide +kernel) (by decide +kernel)

/-- The hypotheses of `C54_fails_request_always` are met; the message need not fit the receive (tag 9 does not). -/
example : Reach env0 RX1.s RX1.L ∧ (2, Obj.req 0) ∈ RX1.L.objs ∧ (1, Obj.comm 0) ∈ RX1.L.objs ∧
    (RX1.L.ops[0]?.any fun o => o.kind = .recv ∧ o.st = .pending ∧ o.cid = 0) = true ∧ RX1.L.objs.length < 262143 ∧
    RX1.L.ncomms < 2147483647 ∧ RX1.L.ncomms - RX1.L.nfreed < 1073741823 :=
  ⟨RX1_ok, by decide +kernel, by decide +kernel, by decide +kernel, by decide +kernel, by decide +kernel, by decide +kernel⟩

example : ∃ s₁ s₂, MPI_Request_free RX1.s 2 = .ok (s₁, MPI_REQUEST_NULL) ∧ MPI_Comm_dup s₁ 1 = .ok (s₂, 2) ∧
    MPI_Isend env0 s₂ 100 1 (-1) 0 9 1 = .ub .kind := by
  have h0 : (RX1.L.ops[0]?.any fun o => o.kind = .recv ∧ o.st = .pending ∧ o.cid = 0) = true := by decide +kernel
  have hr : Reach env0 RX1.s RX1.L := RX1_ok
  have hc : (1, Obj.comm 0) ∈ RX1.L.objs := by decide +kernel
  cases ho : RX1.L.ops[0]? with
  | none => rw [ho] at h0; cases h0
  | some o =>
    rw [ho] at h0
    have h1 : o.kind = .recv ∧ o.st = .pending ∧ o.cid = 0 := by simpa using h0
    exact C54_fails_request_always hr (i := 0) (by decide +kernel) ho h1.1 h1.2.1 (by rw [h1.2.2]; exact hc)
      (fun j p hj => absurd hj (by omega)) (by decide +kernel) (by decide +kernel) (by decide +kernel) 1 100 1 (-1)

/-- The hypotheses of `C54_fails_type_always` are met. -/
example : Reach env0 RX2.s RX2.L ∧ (∃ ty, (2, Obj.dtype ty) ∈ RX2.L.objs) ∧ (1, Obj.comm 0) ∈ RX2.L.objs ∧
    RX2.L.partner 0 .send 5 = some 0 ∧ (RX2.L.ops[0]?.map Op.dtype) = some 2 ∧
    (RX2.L.desc env0.cfg (-1)).isSome = true := by
  refine ⟨RX2_ok, ?_, by decide +kernel, by decide +kernel, by decide +kernel, by decide +kernel⟩
  have hm : ∃ t, RX2.L.desc env0.cfg 2 = some t := Option.isSome_iff_exists.1 (by decide +kernel)
  have hr : Reach env0 RX2.s RX2.L := RX2_ok
  obtain ⟨M, lst, hi⟩ := hr.inv
  obtain ⟨t, ht⟩ := hm
  rcases (desc_iff hi.hst.nodup).1 ht with ⟨h, _⟩ | ⟨_, h⟩
  · omega
  · exact ⟨t, h⟩

/-- A message with tag 5 not yet received. -/
def RX3 : Demo := H1.isend 100 1 (-1) 5 1 0
theorem RX3_ok : RX3.Ok := Demo.isend_ok H1_ok (by decide +kernel) (by decide +kernel)

/-- The hypotheses of `C54_fails_request_send_always` are met. -/
example : Reach env0 RX3.s RX3.L ∧ (2, Obj.req 0) ∈ RX3.L.objs ∧ (1, Obj.comm 0) ∈ RX3.L.objs ∧ RX3.L.ops.length = 1 ∧
    (RX3.L.ops[0]?.any fun o => o.kind = .send ∧ o.st = .pending ∧ o.cid = 0 ∧ o.tag = 5) = true ∧
    RX3.L.partner 0 .send 9 = none ∧ RX3.L.unmatched < 2147483647 :=
  ⟨RX3_ok, by decide +kernel, by decide +kernel, by decide +kernel, by decide +kernel, by decide +kernel, by decide +kernel⟩

end MpiSerial
