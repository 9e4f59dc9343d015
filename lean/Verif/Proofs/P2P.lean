import Verif.Spec.P2P
import Verif.Props.Handles
import Verif.Props.Lists

/-!
# The concrete system simulates the ledger
-/

set_option linter.unusedSimpArgs false
set_option autoImplicit false

namespace MpiSerial

/-! ## List heap operations, pointwise -/

section Lists
variable {A : Type}

theorem LInv.append_at {h : LHeap A} {M : AbsLists A} {l s} (hi : LInv h M) (hm : (l, s) ∈ M) (a : A)
    (hc : h.itemcount < 2147483647) :
    ∃ h' M' x, AP_list_append h l a = .ok (h', x) ∧ LInv h' M' ∧
      (l, s ++ [(x, a)]) ∈ M' ∧ (∀ l' s', l' ≠ l → (l', s') ∈ M → (l', s') ∈ M') ∧
      h'.itemcount = h.itemcount + 1 ∧ h'.headcount = h.headcount := by
  obtain ⟨M', hp, _, _⟩ := split_key hi.keys hm
  have hi' := hi.perm hp
  obtain ⟨h', h1, _, h2⟩ := hi'.append a hc
  refine ⟨h', _, _, h1, h2, by simp, ?_, ?_, ?_⟩
  · intro l' s' hne hm'
    have := hp.mem_iff.1 hm'
    simp only [List.mem_cons, Prod.mk.injEq] at this ⊢
    rcases this with ⟨h3, _⟩ | h3
    · exact absurd h3 hne
    · exact Or.inr h3
  · rw [h2.icount_cons, hi'.icount_cons]; simp; omega
  · rw [h2.hcount, hi'.hcount]; simp

theorem LInv.delete_at {h : LHeap A} {M : AbsLists A} {l s1 x a s2} (hi : LInv h M)
    (hm : (l, s1 ++ (x, a) :: s2) ∈ M) (hc : h.itemcount ≤ 2147483647) :
    ∃ h' M', AP_list_delete_item h l x = .ok h' ∧ LInv h' M' ∧
      (l, s1 ++ s2) ∈ M' ∧ (∀ l' s', l' ≠ l → (l', s') ∈ M → (l', s') ∈ M') ∧
      h'.itemcount + 1 = h.itemcount ∧ h'.headcount = h.headcount := by
  obtain ⟨M', hp, _, _⟩ := split_key hi.keys hm
  have hi' := hi.perm hp
  obtain ⟨h', h1, _, h2⟩ := hi'.delete_item hc
  refine ⟨h', _, h1, h2, by simp, ?_, ?_, ?_⟩
  · intro l' s' hne hm'
    have := hp.mem_iff.1 hm'
    simp only [List.mem_cons, Prod.mk.injEq] at this ⊢
    rcases this with ⟨h3, _⟩ | h3
    · exact absurd h3 hne
    · exact Or.inr h3
  · rw [h2.icount_cons, hi'.icount_cons]; simp; omega
  · rw [h2.hcount, hi'.hcount]; simp

theorem LInv.free_at {h : LHeap A} {M : AbsLists A} {l s} (hi : LInv h M) (hm : (l, s) ∈ M)
    (hc : h.itemcount ≤ 2147483647) (hh : h.headcount ≤ 2147483647) :
    ∃ h' M', AP_list_free h l = .ok h' ∧ LInv h' M' ∧
      (∀ l' s', l' ≠ l → (l', s') ∈ M → (l', s') ∈ M') ∧
      h'.itemcount + s.length = h.itemcount ∧ h'.headcount + 1 = h.headcount := by
  obtain ⟨M', hp, _, _⟩ := split_key hi.keys hm
  have hi' := hi.perm hp
  obtain ⟨h', h1, h2⟩ := hi'.free hc hh
  refine ⟨h', _, h1, h2, ?_, ?_, ?_⟩
  · intro l' s' hne hm'
    have := hp.mem_iff.1 hm'
    simp only [List.mem_cons, Prod.mk.injEq] at this
    rcases this with ⟨h3, _⟩ | h3
    · exact absurd h3 hne
    · exact h3
  · rw [hi'.icount_cons, h2.icount]; omega
  · rw [h2.hcount, hi'.hcount]; simp

end Lists

/-! ## Handle table facts for system slots -/

theorem HSt.valid {D : Type} {t : HTab D} {L : List Int} (hs : HSt t L) {h : Int} (hh : h ∈ L) :
    t.valid (locOf h) := by
  rcases hs with ⟨_, rfl⟩ | ⟨fl, hi⟩
  · simp at hh
  · exact (hi.live_pos hh).2.2.1

theorem HSt.deref {D : Type} {t : HTab D} {L : List Int} (hs : HSt t L) {h : Int} (hh : h ∈ L) :
    t.deref (locOf h) = .ok (t.items (locOf h)) := by
  unfold HTab.deref; rw [if_pos (hs.valid hh)]

/-- The object stored behind a handle. -/
def dataAt (s : Sys) (h : Int) : Slot := (s.handles.items (locOf h)).data

theorem Sys.ptr_live {s : Sys} {L : List Int} (hs : HSt s.handles L) {h : Int} (hh : h ∈ L) :
    s.ptr h = .ok (s, some (locOf h)) := by
  unfold Sys.ptr; rw [hs.lookup hh]; rfl

theorem Sys.req_live {s : Sys} {L : List Int} (hs : HSt s.handles L) {h : Int} (hh : h ∈ L)
    {r} (hd : dataAt s h = .req r) : s.req (some (locOf h)) = .ok r := by
  unfold Sys.req; dsimp only; rw [hs.deref hh, Res.ok_bind]; unfold dataAt at hd; rw [hd]

theorem Sys.comm_live {s : Sys} {L : List Int} (hs : HSt s.handles L) {h : Int} (hh : h ∈ L)
    {c} (hd : dataAt s h = .comm c) : s.comm (some (locOf h)) = .ok c := by
  unfold Sys.comm; dsimp only; rw [hs.deref hh, Res.ok_bind]; unfold dataAt at hd; rw [hd]

/-- The state with the object behind `h` replaced. -/
def Sys.put (s : Sys) (h : Int) (d : Slot) : Sys :=
  { s with handles := s.handles.setData (locOf h) d }

theorem dataAt_put_self (s : Sys) (h : Int) (d : Slot) : dataAt (s.put h d) h = d := by
  unfold dataAt Sys.put; rw [HTab.setData_items]; simp

theorem dataAt_put_ne {s : Sys} {h h' : Int} (d : Slot) (h1 : 0 ≤ h) (h2 : 0 ≤ h') (hne : h' ≠ h) :
    dataAt (s.put h d) h' = dataAt s h' := by
  unfold dataAt Sys.put; rw [HTab.setData_items, if_neg]
  exact fun h3 => hne (locOf_inj h2 h1 h3)

theorem Sys.put_put (s : Sys) (h : Int) (d d' : Slot) : (s.put h d).put h d' = s.put h d' := by
  unfold Sys.put HTab.setData HTab.set
  simp only [if_true]
  congr 2
  funext l
  split <;> rfl

theorem HSt.put {s : Sys} {L : List Int} (hs : HSt s.handles L) (h : Int) (d : Slot) :
    HSt (s.put h d).handles L := hs.setData _ _

theorem Sys.modReq_live {s : Sys} {L : List Int} (hs : HSt s.handles L) {h : Int} (hh : h ∈ L)
    {r} (hd : dataAt s h = .req r) (f : ReqRec → ReqRec) :
    s.modReq (locOf h) f = .ok (s.put h (.req (f r))) := by
  unfold Sys.modReq; rw [Sys.req_live hs hh hd]; rfl

/-- Allocating a request. -/
theorem allocReq_spec {env : Env} {s : Sys} {L : List Int} (hs : HSt s.handles L) :
    (L.length < 262143 ∧ ∃ (t : HTab Slot) (h : Int) (r : ReqRec),
      s.allocReq env = .ok ({ s with handles := t, clock := s.clock + 1 }, h, locOf h) ∧
      HSt t (h :: L) ∧ h ∉ L ∧ (t.items (locOf h)).data = .req r ∧
      (∀ h' ∈ L, (t.items (locOf h')).data = (s.handles.items (locOf h')).data)) ∨
    (L.length = 262143 ∧ (s.allocReq env).aborted = true) := by
  rcases hs.alloc Slot.raw with ⟨h1, t, h, h2, h3, h4, h5⟩ | ⟨h1, h2⟩
  · left
    refine ⟨h1, t.setData (locOf h) (.req (match (t.items (locOf h)).data with
      | .req r => r | _ => env.junk s.clock)), h,
      (match (t.items (locOf h)).data with | .req r => r | _ => env.junk s.clock),
      ?_, h3.setData _ _, h4, ?_, ?_⟩
    · unfold Sys.allocReq; rw [h2]; rfl
    · rw [HTab.setData_items, if_pos rfl]
    · intro h' hh'
      rw [HTab.setData_items, if_neg, h5 h' hh']
      intro h6
      have hp := h3.pos (List.mem_cons_self)
      have hp' := h3.pos (List.mem_cons_of_mem h hh')
      exact h4 (locOf_inj (by omega) (by omega) h6 ▸ hh')
  · right
    refine ⟨h1, ?_⟩
    unfold Sys.allocReq
    cases hr : mpi_alloc_handle s.handles Slot.raw <;> rw [hr] at h2 <;>
      simp [Res.aborted] at h2 ⊢

/-! ## Queues of the ledger -/

/-- `o` is pending, of kind `k`, on communicator `c`. -/
def Op.pendOn (k : Kind) (c : Nat) (o : Op) : Bool :=
  decide (o.kind = k ∧ o.cid = c ∧ o.st = .pending)

theorem Op.pendOn_iff {k : Kind} {c : Nat} {o : Op} :
    o.pendOn k c = true ↔ o.kind = k ∧ o.cid = c ∧ o.st = .pending := by
  unfold Op.pendOn; simp

theorem Op.waits_eq (o : Op) (c : Nat) (k : Kind) (tag : Int) :
    o.waits c k tag = (o.pendOn k.other c && o.fits k tag) := rfl

/-- Pending operations of kind `k` on `c`, oldest first. -/
def queueOf (ops : List Op) (k : Kind) (c : Nat) : List Op := ops.filter (Op.pendOn k c)

theorem mem_queueOf {ops : List Op} {k : Kind} {c : Nat} {o : Op} :
    o ∈ queueOf ops k c ↔ o ∈ ops ∧ o.kind = k ∧ o.cid = c ∧ o.st = .pending := by
  unfold queueOf; rw [List.mem_filter, Op.pendOn_iff]

theorem Kind.other_other (k : Kind) : k.other.other = k := by cases k <;> rfl
theorem Kind.other_ne (k : Kind) : k.other ≠ k := by cases k <;> decide
theorem Kind.eq_other_of_ne {k k' : Kind} (h : k' ≠ k) : k' = k.other := by
  cases k <;> cases k' <;> simp_all [Kind.other]

theorem Ledger.partner_none {L : Ledger} {c k tag} (h : L.partner c k tag = none) :
    ∀ o ∈ L.ops, o.waits c k tag = false := by
  unfold Ledger.partner at h
  rw [List.findIdx?_eq_none_iff] at h
  exact h

theorem Ledger.partner_some {L : Ledger} {c k tag j} (h : L.partner c k tag = some j) :
    ∃ A o B, L.ops = A ++ o :: B ∧ A.length = j ∧ o.waits c k tag = true ∧
      ∀ x ∈ A, x.waits c k tag = false := by
  unfold Ledger.partner at h
  rw [List.findIdx?_eq_some_iff_getElem] at h
  obtain ⟨hj, h1, h2⟩ := h
  refine ⟨L.ops.take j, L.ops[j], L.ops.drop (j + 1), ?_, ?_, h1, ?_⟩
  · rw [← List.drop_eq_getElem_cons hj, List.take_append_drop]
  · rw [List.length_take]; omega
  · intro x hx
    obtain ⟨i, hi, rfl⟩ := List.getElem_of_mem hx
    rw [List.length_take] at hi
    have := h2 i (by omega)
    rw [List.getElem_take]
    simpa using this

theorem settle_split (A : List Op) (o : Op) (B : List Op) (i : Nat) :
    Ledger.settle (A ++ o :: B) A.length i = A ++ { o with st := .matched i } :: B := by
  unfold Ledger.settle
  rw [List.modify_eq_take_cons_drop (by simp)]
  simp

theorem Ledger.post_none {L : Ledger} {c k tag} (h : L.partner c k tag = none) (buf count dtype hd : Int) :
    L.post k c tag buf count dtype hd =
      { L with ops := L.ops ++ [⟨k, c, tag, buf, count, dtype, hd, .pending⟩],
               objs := (hd, .req L.ops.length) :: L.objs } := by
  unfold Ledger.post; rw [h]

theorem Ledger.post_some {L : Ledger} {c k tag j} (h : L.partner c k tag = some j)
    (buf count dtype hd : Int) :
    L.post k c tag buf count dtype hd =
      { L with ops := settle L.ops j L.ops.length ++ [⟨k, c, tag, buf, count, dtype, hd, .matched j⟩],
               objs := (hd, .req L.ops.length) :: L.objs } := by
  unfold Ledger.post; rw [h]

/-! ## The simulation invariant -/

/-- What the request record of operation `o` holds. -/
def RecOk (ops : List Op) (o : Op) (r : ReqRec) : Prop :=
  match o.st with
  | .pending => r.complete = 0 ∧ r.tag = o.tag ∧ r.buf = o.buf ∧
      (o.kind = .recv → r.count = o.count ∧ r.type = o.dtype)
  | .matched j => r.complete = 1 ∧
      (o.kind = .recv → r.source = 0 ∧ ∃ p, ops[j]? = some p ∧ r.tag = p.tag)
  | .null => r.complete = 1 ∧ (o.kind = .recv → r.source = MPI_PROC_NULL ∧ r.tag = MPI_ANY_TAG)

/-- State `s` represents ledger `L`; `M` is the contents of the list heap and `lst c k` the list of
pending operations of kind `k` on communicator `c`. -/
structure Inv (s : Sys) (L : Ledger) (M : AbsLists Loc) (lst : Nat → Kind → Nat) : Prop where
  hst : HSt s.handles (L.objs.map Prod.fst)
  linv : LInv s.lists M
  comm : ∀ h c, (h, Obj.comm c) ∈ L.objs → c < L.ncomms ∧
    ∃ n, dataAt s h = .comm ⟨lst c .send, lst c .recv, n⟩
  queue : ∀ h c, (h, Obj.comm c) ∈ L.objs → ∀ k, ∃ q, (lst c k, q) ∈ M ∧
    q.map Prod.snd = (queueOf L.ops k c).map (fun o => locOf o.h)
  linj : ∀ h c h' c' k k', (h, Obj.comm c) ∈ L.objs → (h', Obj.comm c') ∈ L.objs →
    lst c k = lst c' k' → c = c' ∧ k = k'
  cinj : ∀ h h' c, (h, Obj.comm c) ∈ L.objs → (h', Obj.comm c) ∈ L.objs → h = h'
  req : ∀ h i, (h, Obj.req i) ∈ L.objs → ∃ o r, L.ops[i]? = some o ∧ o.h = h ∧
    dataAt s h = .req r ∧ RecOk L.ops o r
  held : ∀ i o, L.ops[i]? = some o → o.st = .pending → ∀ h, (h, Obj.comm o.cid) ∈ L.objs →
    (o.h, Obj.req i) ∈ L.objs
  ocid : ∀ o ∈ L.ops, o.st = .pending → o.cid < L.ncomms
  dtype : ∀ h t, (h, Obj.dtype t) ∈ L.objs → ∃ p, dataAt s h = .dtype (.heap p) ∧ s.theap p = some t
  tinj : ∀ h t h' t' p, (h, Obj.dtype t) ∈ L.objs → (h', Obj.dtype t') ∈ L.objs →
    dataAt s h = .dtype (.heap p) → dataAt s h' = .dtype (.heap p) → h = h'
  tbnd : ∀ p, s.nextType ≤ p → s.theap p = none
  num : s.num = L.ncomms
  ini : s.initialized = L.inited
  icap : s.lists.itemcount + L.dropped = L.unmatched ∧ L.unmatched ≤ 2147483647
  hcap : s.lists.headcount = 2 * (L.ncomms - L.nfreed) ∧ s.lists.headcount ≤ 2147483647
  ncap : L.ncomms ≤ 2147483647

section
variable {s : Sys} {L : Ledger} {M : AbsLists Loc} {lst : Nat → Kind → Nat}

theorem mem_keys {L : Ledger} {h : Int} {o : Obj} (hm : (h, o) ∈ L.objs) : h ∈ L.objs.map Prod.fst :=
  List.mem_map.2 ⟨_, hm, rfl⟩

theorem nodup_fst_unique {α β : Type} {l : List (α × β)} (hn : (l.map Prod.fst).Nodup) {a b b'}
    (h1 : (a, b) ∈ l) (h2 : (a, b') ∈ l) : b = b' := by
  induction l with
  | nil => simp at h1
  | cons x l ih =>
    simp only [List.map_cons, List.nodup_cons] at hn
    simp only [List.mem_cons] at h1 h2
    rcases h1 with h1 | h1 <;> rcases h2 with h2 | h2
    · rw [← h2] at h1; exact (Prod.mk.inj h1).2
    · exact absurd (List.mem_map.2 ⟨_, h2, by rw [← h1]⟩) hn.1
    · exact absurd (List.mem_map.2 ⟨_, h1, by rw [← h2]⟩) hn.1
    · exact ih hn.2 h1 h2

theorem Inv.uniq (hi : Inv s L M lst) {h : Int} {o o' : Obj} (h1 : (h, o) ∈ L.objs)
    (h2 : (h, o') ∈ L.objs) : o = o' := nodup_fst_unique hi.hst.nodup h1 h2

theorem Inv.setMem (hi : Inv s L M lst) (m : Mem) : Inv { s with mem := m } L M lst :=
  ⟨hi.hst, hi.linv, hi.comm, hi.queue, hi.linj, hi.cinj, hi.req, hi.held, hi.ocid, hi.dtype, hi.tinj,
   hi.tbnd, hi.num, hi.ini, hi.icap, hi.hcap, hi.ncap⟩

theorem Inv.start (m : Mem) : Inv (Sys.start m) .start [] (fun _ _ => 0) := by
  refine ⟨Or.inl ⟨?_, rfl⟩, LInv.empty, ?_, ?_, ?_, ?_, ?_, ?_, ?_, ?_, ?_, ?_, rfl, rfl, ?_, ?_, ?_⟩ <;>
    simp [Ledger.start, Sys.start, LHeap.empty, Ledger.unmatched, HTab.start]

theorem RecOk.mono {ops ops' : List Op} {o : Op} {r : ReqRec} (h : RecOk ops o r)
    (hm : ∀ (j : Nat) p, ops[j]? = some p → ∃ p', ops'[j]? = some p' ∧ p'.tag = p.tag) : RecOk ops' o r := by
  unfold RecOk at h ⊢
  cases ho : o.st with
  | pending => rw [ho] at h; exact h
  | null => rw [ho] at h; exact h
  | matched j =>
    rw [ho] at h
    refine ⟨h.1, fun hk => ⟨(h.2 hk).1, ?_⟩⟩
    obtain ⟨p, h1, h2⟩ := (h.2 hk).2
    obtain ⟨p', h3, h4⟩ := hm j p h1
    exact ⟨p', h3, h2.trans h4.symm⟩

theorem getElem?_append_some {α : Type} {l l' : List α} {i : Nat} {x : α} (h : l[i]? = some x) :
    (l ++ l')[i]? = some x := by
  have hlt : i < l.length := by
    rcases Nat.lt_or_ge i l.length with h1 | h1
    · exact h1
    · rw [List.getElem?_eq_none h1] at h; cases h
  rw [List.getElem?_append_left hlt, h]

theorem getElem?_append_one {α : Type} {l : List α} {i : Nat} {x y : α} (h : (l ++ [y])[i]? = some x) :
    l[i]? = some x ∨ (i = l.length ∧ x = y) := by
  rcases Nat.lt_or_ge i l.length with h1 | h1
  · rw [List.getElem?_append_left h1] at h; exact Or.inl h
  · rw [List.getElem?_append_right h1] at h
    rcases Nat.eq_or_lt_of_le h1 with h2 | h2
    · rw [← h2] at h; simp at h; exact Or.inr ⟨h2.symm, h.symm⟩
    · rw [List.getElem?_eq_none (by simp; omega)] at h; cases h

/-- The parts of the state a posted operation does not touch. -/
structure SameRest (s s' : Sys) : Prop where
  theap : s'.theap = s.theap
  nextType : s'.nextType = s.nextType
  num : s'.num = s.num
  ini : s'.initialized = s.initialized

/-- An operation that finds no partner. -/
theorem Inv.post_pending (hi : Inv s L M lst) {c : Nat} {hc : Int} (hcm : (hc, Obj.comm c) ∈ L.objs)
    {k : Kind} {tag buf count dtype h : Int} (hp : L.partner c k tag = none)
    (hu : L.unmatched < 2147483647) {s' : Sys} {r : ReqRec} {M' : AbsLists Loc} {q x}
    (hst : HSt s'.handles (h :: L.objs.map Prod.fst)) (hnew : h ∉ L.objs.map Prod.fst)
    (hdata : ∀ h' ∈ L.objs.map Prod.fst, dataAt s' h' = dataAt s h')
    (hd : dataAt s' h = .req r)
    (hr : RecOk (L.ops ++ [⟨k, c, tag, buf, count, dtype, h, .pending⟩])
      ⟨k, c, tag, buf, count, dtype, h, .pending⟩ r)
    (hl : LInv s'.lists M') (hq : (lst c k, q) ∈ M) (hq' : (lst c k, q ++ [(x, locOf h)]) ∈ M')
    (hqs : q.map Prod.snd = (queueOf L.ops k c).map (fun o => locOf o.h))
    (hoth : ∀ l' s', l' ≠ lst c k → (l', s') ∈ M → (l', s') ∈ M')
    (hic : s'.lists.itemcount = s.lists.itemcount + 1) (hhc : s'.lists.headcount = s.lists.headcount)
    (hsame : SameRest s s') :
    Inv s' (L.post k c tag buf count dtype h) M' lst := by
  rw [Ledger.post_none hp]
  have hcold : ∀ (h' : Int) (o : Obj), (∀ i, o ≠ .req i) →
      (h', o) ∈ (h, Obj.req L.ops.length) :: L.objs → (h', o) ∈ L.objs := by
    intro h' o ho hm
    simp only [List.mem_cons, Prod.mk.injEq] at hm
    rcases hm with ⟨_, h2⟩ | h2
    · exact absurd h2 (ho _)
    · exact h2
  refine ⟨hst, hl, ?_, ?_, ?_, ?_, ?_, ?_, ?_, ?_, ?_, ?_, ?_, ?_, ?_, ?_, hi.ncap⟩
  · intro h' c' hm
    have hm := hcold h' _ (by simp) hm
    rw [hdata h' (mem_keys hm)]
    exact hi.comm h' c' hm
  · intro h' c' hm k'
    have hm := hcold h' _ (by simp) hm
    by_cases he : c' = c ∧ k' = k
    · obtain ⟨rfl, rfl⟩ := he
      refine ⟨_, hq', ?_⟩
      simp only [queueOf, List.map_append, List.filter_append] at hqs ⊢
      rw [hqs]
      simp [Op.pendOn, List.filter_cons]
    · obtain ⟨q1, h1, h2⟩ := hi.queue h' c' hm k'
      refine ⟨q1, hoth _ _ ?_ h1, ?_⟩
      · intro he'
        exact he (hi.linj _ _ _ _ _ _ hm hcm he')
      · rw [h2]
        simp only [queueOf, List.filter_append, List.map_append]
        rw [List.filter_cons, if_neg]
        · simp
        · rw [Op.pendOn_iff]; rintro ⟨h3, h4, _⟩; exact he ⟨h4.symm, h3.symm⟩
  · intro h1 c1 h2 c2 k1 k2 m1 m2
    exact hi.linj _ _ _ _ _ _ (hcold _ _ (by simp) m1) (hcold _ _ (by simp) m2)
  · intro h1 h2 c1 m1 m2
    exact hi.cinj _ _ _ (hcold _ _ (by simp) m1) (hcold _ _ (by simp) m2)
  · intro h' i hm
    simp only [List.mem_cons, Prod.mk.injEq, Obj.req.injEq] at hm
    rcases hm with ⟨rfl, rfl⟩ | hm
    · exact ⟨_, r, by simp, rfl, hd, hr⟩
    · obtain ⟨o, r', h1, h2, h3, h4⟩ := hi.req h' i hm
      refine ⟨o, r', getElem?_append_some h1, h2, ?_, h4.mono ?_⟩
      · rw [hdata h' (mem_keys hm)]; exact h3
      · intro j p hj; exact ⟨p, getElem?_append_some hj, rfl⟩
  · intro i o hio hpend h' hm
    have hm := hcold _ _ (by simp) hm
    rcases getElem?_append_one hio with h1 | ⟨rfl, rfl⟩
    · exact List.mem_cons_of_mem _ (hi.held i o h1 hpend h' hm)
    · simp
  · intro o ho hpend
    simp only [List.mem_append, List.mem_singleton] at ho
    rcases ho with ho | rfl
    · exact hi.ocid o ho hpend
    · exact (hi.comm _ _ hcm).1
  · intro h' t hm
    have hm := hcold _ _ (by simp) hm
    rw [hdata h' (mem_keys hm), hsame.theap]
    exact hi.dtype h' t hm
  · intro h1 t1 h2 t2 p m1 m2
    have m1 := hcold _ _ (by simp) m1
    have m2 := hcold _ _ (by simp) m2
    rw [hdata h1 (mem_keys m1), hdata h2 (mem_keys m2)]
    exact hi.tinj _ _ _ _ _ m1 m2
  · rw [hsame.nextType, hsame.theap]; exact hi.tbnd
  · rw [hsame.num]; exact hi.num
  · rw [hsame.ini]; exact hi.ini
  · have := hi.icap
    simp only [Ledger.unmatched, List.countP_append] at hu this ⊢
    simp [List.countP_cons]
    omega
  · have := hi.hcap; rw [hhc]; exact this

theorem settled_getElem {A : List Op} {o : Op} {B : List Op} {st : OpSt} {j : Nat} {p : Op}
    (h : (A ++ o :: B)[j]? = some p) :
    (A ++ { o with st := st } :: B)[j]? = some (if j = A.length then { o with st := st } else p) := by
  rcases Nat.lt_trichotomy j A.length with h1 | h1 | h1
  · rw [List.getElem?_append_left h1] at h ⊢; rw [if_neg (by omega), h]
  · rw [List.getElem?_append_right (by omega)] at h ⊢; rw [if_pos h1]; simp [h1]
  · rw [List.getElem?_append_right (by omega)] at h ⊢
    rw [if_neg (by omega)]
    obtain ⟨n, hn⟩ : ∃ n, j - A.length = n + 1 := ⟨j - A.length - 1, by omega⟩
    rw [hn] at h ⊢
    simpa using h

theorem settled_inv {A : List Op} {o : Op} {B : List Op} {st : OpSt} {j : Nat} {p : Op}
    (h : (A ++ { o with st := st } :: B)[j]? = some p) :
    (j = A.length ∧ p = { o with st := st }) ∨ (j ≠ A.length ∧ (A ++ o :: B)[j]? = some p) := by
  rcases Nat.lt_trichotomy j A.length with h1 | h1 | h1
  · rw [List.getElem?_append_left h1] at h ⊢; exact Or.inr ⟨by omega, h⟩
  · rw [List.getElem?_append_right (by omega)] at h
    rw [h1] at h; simp at h; exact Or.inl ⟨h1, h.symm⟩
  · rw [List.getElem?_append_right (by omega)] at h ⊢
    obtain ⟨n, hn⟩ : ∃ n, j - A.length = n + 1 := ⟨j - A.length - 1, by omega⟩
    rw [hn] at h ⊢
    exact Or.inr ⟨by omega, by simpa using h⟩

/-- An operation that finds the pending partner `o`. -/
theorem Inv.post_matched (hi : Inv s L M lst) {c : Nat} {hc : Int} (hcm : (hc, Obj.comm c) ∈ L.objs)
    {k : Kind} {tag buf count dtype h : Int} {A B : List Op} {o : Op}
    (hp : L.partner c k tag = some A.length) (hops : L.ops = A ++ o :: B)
    (ho : o.pendOn k.other c = true) {s' : Sys} {r ro : ReqRec} {M' : AbsLists Loc} {q1 q2 : List (Nat × Loc)}
    (hst : HSt s'.handles (h :: L.objs.map Prod.fst)) (hnew : h ∉ L.objs.map Prod.fst)
    (hdata : ∀ h' ∈ L.objs.map Prod.fst, h' ≠ o.h → dataAt s' h' = dataAt s h')
    (hd : dataAt s' h = .req r) (hdo : dataAt s' o.h = .req ro)
    (hr : r.complete = 1 ∧ (k = .recv → r.source = 0 ∧ r.tag = o.tag))
    (hro : ro.complete = 1 ∧ (k.other = .recv → ro.source = 0 ∧ ro.tag = tag))
    (hl : LInv s'.lists M')
    (hq' : (lst c k.other, q1 ++ q2) ∈ M')
    (hqs1 : q1.map Prod.snd = (queueOf A k.other c).map (fun o => locOf o.h))
    (hqs2 : q2.map Prod.snd = (queueOf B k.other c).map (fun o => locOf o.h))
    (hoth : ∀ l' s', l' ≠ lst c k.other → (l', s') ∈ M → (l', s') ∈ M')
    (hic : s'.lists.itemcount + 1 = s.lists.itemcount) (hhc : s'.lists.headcount = s.lists.headcount)
    (hsame : SameRest s s') :
    Inv s' (L.post k c tag buf count dtype h) M' lst := by
  rw [Ledger.post_some hp, hops, settle_split]
  rw [Op.pendOn_iff] at ho
  obtain ⟨ho1, ho2, ho3⟩ := ho
  have hoj : L.ops[A.length]? = some o := by rw [hops]; simp
  have hoheld := hi.held _ _ hoj ho3 hc (by rw [ho2]; exact hcm)
  have hcold : ∀ (h' : Int) (o : Obj), (∀ i, o ≠ .req i) → ∀ n,
      (h', o) ∈ (h, Obj.req n) :: L.objs → (h', o) ∈ L.objs := by
    intro h' o ho n hm
    simp only [List.mem_cons, Prod.mk.injEq] at hm
    rcases hm with ⟨_, h2⟩ | h2
    · exact absurd h2 (ho _)
    · exact h2
  have hne : ∀ (h' : Int) (x : Obj), (∀ i, x ≠ .req i) → (h', x) ∈ L.objs → h' ≠ o.h := by
    intro h' x hx hm he
    subst he
    exact hx _ (hi.uniq hm hoheld)
  have hq : ∀ (k' : Kind) (c' : Nat) (st : OpSt) (new : Op), st ≠ .pending → new.st ≠ .pending →
      queueOf (A ++ { o with st := st } :: B ++ [new]) k' c' = queueOf A k' c' ++ queueOf B k' c' := by
    intro k' c' st new h1 h2
    unfold queueOf
    rw [List.filter_append, List.filter_append, List.filter_cons, if_neg, List.filter_cons, if_neg]
    · simp
    · rw [Op.pendOn_iff]; exact fun h => h2 h.2.2
    · rw [Op.pendOn_iff]; exact fun h => h1 h.2.2
  have hmono : ∀ (st : OpSt) (new : Op) (j : Nat) (p : Op), L.ops[j]? = some p →
      ∃ p', (A ++ { o with st := st } :: B ++ [new])[j]? = some p' ∧ p'.tag = p.tag := by
    intro st new j p hj
    rw [hops] at hj
    refine ⟨_, getElem?_append_some (settled_getElem (st := st) hj), ?_⟩
    split
    · next he =>
      have : p = o := by rw [he] at hj; simpa using hj.symm
      rw [this]
    · rfl
  refine ⟨hst, hl, ?_, ?_, ?_, ?_, ?_, ?_, ?_, ?_, ?_, ?_, ?_, ?_, ?_, ?_, hi.ncap⟩
  · intro h' c' hm
    have hm := hcold h' _ (by simp) _ hm
    rw [hdata h' (mem_keys hm) (hne _ _ (by simp) hm)]
    exact hi.comm h' c' hm
  · intro h' c' hm k'
    have hm := hcold h' _ (by simp) _ hm
    rw [hq _ _ _ _ (by simp) (by simp), List.map_append]
    by_cases he : c' = c ∧ k' = k.other
    · obtain ⟨rfl, rfl⟩ := he
      exact ⟨_, hq', by rw [List.map_append, hqs1, hqs2]⟩
    · obtain ⟨q0, h1, h2⟩ := hi.queue h' c' hm k'
      refine ⟨q0, hoth _ _ ?_ h1, ?_⟩
      · intro he'
        exact he (hi.linj _ _ _ _ _ _ hm hcm he')
      · rw [h2, hops]
        unfold queueOf
        rw [List.filter_append, List.filter_cons, if_neg, List.map_append]
        rw [Op.pendOn_iff]; rintro ⟨h3, h4, _⟩
        exact he ⟨h4.symm.trans ho2, h3.symm.trans ho1⟩
  · intro h1 c1 h2 c2 k1 k2 m1 m2
    exact hi.linj _ _ _ _ _ _ (hcold _ _ (by simp) _ m1) (hcold _ _ (by simp) _ m2)
  · intro h1 h2 c1 m1 m2
    exact hi.cinj _ _ _ (hcold _ _ (by simp) _ m1) (hcold _ _ (by simp) _ m2)
  · intro h' i hm
    simp only [List.mem_cons, Prod.mk.injEq, Obj.req.injEq] at hm
    rcases hm with ⟨rfl, rfl⟩ | hm
    · refine ⟨⟨k, c, tag, buf, count, dtype, h', .matched A.length⟩, r, ?_, rfl, hd, hr.1,
        fun hk => ⟨(hr.2 hk).1, ?_⟩⟩
      · rw [List.getElem?_append_right (by simp)]; simp
      · exact ⟨_, getElem?_append_some (settled_getElem (j := A.length) (p := o) (by simp)),
          by rw [if_pos rfl]; exact (hr.2 hk).2⟩
    · obtain ⟨o', r', h1, h2, h3, h4⟩ := hi.req h' i hm
      by_cases hia : i = A.length
      · subst hia
        have : o' = o := by rw [hoj] at h1; exact (Option.some.inj h1).symm
        subst this
        subst h2
        refine ⟨{ o' with st := .matched (A ++ o' :: B).length }, ro, ?_, rfl, hdo, hro.1, ?_⟩
        · rw [List.append_assoc, List.getElem?_append_right (by simp)]; simp
        · intro hk
          refine ⟨(hro.2 (ho1 ▸ hk)).1, ?_⟩
          refine ⟨_, by rw [List.getElem?_append_right (by simp)]; simp; rfl, ?_⟩
          exact (hro.2 (ho1 ▸ hk)).2
      · refine ⟨o', r', ?_, h2, ?_, h4.mono (hmono _ _)⟩
        · rw [hops] at h1
          have := settled_getElem (st := .matched (A ++ o :: B).length) h1
          rw [if_neg hia] at this
          exact getElem?_append_some this
        · rw [hdata h' (mem_keys hm)]
          · exact h3
          · intro he
            subst he
            have := hi.uniq hm hoheld
            simp at this
            exact hia this
  · intro i o' hio hpend h' hm
    have hm := hcold _ _ (by simp) _ hm
    rcases getElem?_append_one hio with h1 | ⟨rfl, rfl⟩
    · rcases settled_inv h1 with ⟨_, rfl⟩ | ⟨_, h2⟩
      · simp at hpend
      · rw [← hops] at h2
        exact List.mem_cons_of_mem _ (hi.held i o' h2 hpend h' hm)
    · simp at hpend
  · intro o' ho' hpend
    simp only [List.mem_append, List.mem_cons, List.not_mem_nil, or_false] at ho'
    rcases ho' with (ho' | rfl | ho') | rfl
    · exact hi.ocid o' (by rw [hops]; simp [ho']) hpend
    · simp at hpend
    · exact hi.ocid o' (by rw [hops]; simp [ho']) hpend
    · simp at hpend
  · intro h' t hm
    have hm := hcold _ _ (by simp) _ hm
    rw [hdata h' (mem_keys hm) (hne _ _ (by simp) hm), hsame.theap]
    exact hi.dtype h' t hm
  · intro h1 t1 h2 t2 p m1 m2
    have m1 := hcold _ _ (by simp) _ m1
    have m2 := hcold _ _ (by simp) _ m2
    rw [hdata h1 (mem_keys m1) (hne _ _ (by simp) m1), hdata h2 (mem_keys m2) (hne _ _ (by simp) m2)]
    exact hi.tinj _ _ _ _ _ m1 m2
  · rw [hsame.nextType, hsame.theap]; exact hi.tbnd
  · rw [hsame.num]; exact hi.num
  · rw [hsame.ini]; exact hi.ini
  · have := hi.icap
    simp only [Ledger.unmatched] at this ⊢
    rw [hops] at this
    simp [List.countP_append, List.countP_cons, ho3] at this ⊢
    omega
  · have := hi.hcap; rw [hhc]; exact this

/-- An operation addressed to MPI_PROC_NULL. -/
theorem Inv.post_null (hi : Inv s L M lst) 
    {k : Kind} {tag buf count dtype h : Int} {s' : Sys} {r : ReqRec}
    (hst : HSt s'.handles (h :: L.objs.map Prod.fst))
    (hdata : ∀ h' ∈ L.objs.map Prod.fst, dataAt s' h' = dataAt s h')
    (hd : dataAt s' h = .req r)
    (hr : r.complete = 1 ∧ (k = .recv → r.source = MPI_PROC_NULL ∧ r.tag = MPI_ANY_TAG))
    (hl : s'.lists = s.lists) (hsame : SameRest s s') :
    Inv s' (L.postNull k tag buf count dtype h) M lst := by
  unfold Ledger.postNull
  have hcold : ∀ (h' : Int) (o : Obj), (∀ i, o ≠ .req i) →
      (h', o) ∈ (h, Obj.req L.ops.length) :: L.objs → (h', o) ∈ L.objs := by
    intro h' o ho hm
    simp only [List.mem_cons, Prod.mk.injEq] at hm
    rcases hm with ⟨_, h2⟩ | h2
    · exact absurd h2 (ho _)
    · exact h2
  refine ⟨hst, by rw [hl]; exact hi.linv, ?_, ?_, ?_, ?_, ?_, ?_, ?_, ?_, ?_, ?_, ?_, ?_, ?_, ?_, hi.ncap⟩
  · intro h' c' hm
    have hm := hcold h' _ (by simp) hm
    rw [hdata h' (mem_keys hm)]
    exact hi.comm h' c' hm
  · intro h' c' hm k'
    have hm := hcold h' _ (by simp) hm
    obtain ⟨q1, h1, h2⟩ := hi.queue h' c' hm k'
    refine ⟨q1, h1, ?_⟩
    rw [h2]
    simp only [queueOf, List.filter_append, List.map_append]
    rw [List.filter_cons, if_neg]
    · simp
    · rw [Op.pendOn_iff]; rintro ⟨_, _, h3⟩; simp at h3
  · intro h1 c1 h2 c2 k1 k2 m1 m2
    exact hi.linj _ _ _ _ _ _ (hcold _ _ (by simp) m1) (hcold _ _ (by simp) m2)
  · intro h1 h2 c1 m1 m2
    exact hi.cinj _ _ _ (hcold _ _ (by simp) m1) (hcold _ _ (by simp) m2)
  · intro h' i hm
    simp only [List.mem_cons, Prod.mk.injEq, Obj.req.injEq] at hm
    rcases hm with ⟨rfl, rfl⟩ | hm
    · exact ⟨⟨k, 0, tag, buf, count, dtype, h', .null⟩, r, by simp, rfl, hd, hr⟩
    · obtain ⟨o, r', h1, h2, h3, h4⟩ := hi.req h' i hm
      refine ⟨o, r', getElem?_append_some h1, h2, ?_, h4.mono ?_⟩
      · rw [hdata h' (mem_keys hm)]; exact h3
      · intro j p hj; exact ⟨p, getElem?_append_some hj, rfl⟩
  · intro i o hio hpend h' hm
    have hm := hcold _ _ (by simp) hm
    rcases getElem?_append_one hio with h1 | ⟨rfl, rfl⟩
    · exact List.mem_cons_of_mem _ (hi.held i o h1 hpend h' hm)
    · simp
  · intro o ho hpend
    simp only [List.mem_append, List.mem_singleton] at ho
    rcases ho with ho | rfl
    · exact hi.ocid o ho hpend
    · simp at hpend
  · intro h' t hm
    have hm := hcold _ _ (by simp) hm
    rw [hdata h' (mem_keys hm), hsame.theap]
    exact hi.dtype h' t hm
  · intro h1 t1 h2 t2 p m1 m2
    have m1 := hcold _ _ (by simp) m1
    have m2 := hcold _ _ (by simp) m2
    rw [hdata h1 (mem_keys m1), hdata h2 (mem_keys m2)]
    exact hi.tinj _ _ _ _ _ m1 m2
  · rw [hsame.nextType, hsame.theap]; exact hi.tbnd
  · rw [hsame.num]; exact hi.num
  · rw [hsame.ini]; exact hi.ini
  · have := hi.icap
    simp only [Ledger.unmatched, List.countP_append, hl] at this ⊢
    simp [List.countP_cons]
    omega
  · have := hi.hcap; rw [hl]; exact this

end

/-! ## Searching a queue -/

/-- The comparison function an operation of kind `k` passes to the list search. -/
def matchFn (k : Kind) (s : Sys) (tag : Int) : Loc → Res Bool :=
  match k with
  | .send => mpi_match_recv s tag
  | .recv => mpi_match_send s tag

theorem matchFn_ok {s : Sys} {o : Op} {r : ReqRec} (hr : s.req (some (locOf o.h)) = .ok r)
    (ht : r.tag = o.tag) (k : Kind) (tag : Int) :
    matchFn k s tag (locOf o.h) = .ok (o.fits k tag) := by
  cases k <;> simp [matchFn, mpi_match_recv, mpi_match_send, hr, ht, Op.fits, accepts]

section
variable {s : Sys} {L : Ledger} {M : AbsLists Loc} {c : Nat} {k : Kind} {tag : Int} {l : Nat}
  {q : List (Nat × Loc)}

theorem search_none (hl : LInv s.lists M) (hq : (l, q) ∈ M)
    (hqs : q.map Prod.snd = (queueOf L.ops k.other c).map (fun o => locOf o.h))
    (hreq : ∀ o ∈ queueOf L.ops k.other c, ∃ r, s.req (some (locOf o.h)) = .ok r ∧ r.tag = o.tag)
    (hp : L.partner c k tag = none) :
    AP_list_search_func s.lists l (matchFn k s tag) = .ok none := by
  have hall : ∀ e ∈ q, matchFn k s tag e.2 = .ok false := by
    intro e he
    have : e.2 ∈ q.map Prod.snd := List.mem_map.2 ⟨e, he, rfl⟩
    rw [hqs, List.mem_map] at this
    obtain ⟨o, ho, ho'⟩ := this
    obtain ⟨r, h1, h2⟩ := hreq o ho
    rw [← ho', matchFn_ok h1 h2]
    have hw := Ledger.partner_none hp o (mem_queueOf.1 ho).1
    rw [Op.waits_eq, Op.pendOn_iff.2 (mem_queueOf.1 ho).2] at hw
    simpa using hw
  rw [hl.search_func hq (g := fun _ => false) hall]
  simp

theorem search_some (hl : LInv s.lists M) (hq : (l, q) ∈ M) {A B : List Op} {o : Op}
    (hops : L.ops = A ++ o :: B) (ho : o.waits c k tag = true)
    (hA : ∀ x ∈ A, x.waits c k tag = false)
    (hqs : q.map Prod.snd = (queueOf L.ops k.other c).map (fun o => locOf o.h))
    (hreq : ∀ o ∈ queueOf L.ops k.other c, ∃ r, s.req (some (locOf o.h)) = .ok r ∧ r.tag = o.tag) :
    ∃ q1 x q2, q = q1 ++ (x, locOf o.h) :: q2 ∧
      q1.map Prod.snd = (queueOf A k.other c).map (fun o => locOf o.h) ∧
      q2.map Prod.snd = (queueOf B k.other c).map (fun o => locOf o.h) ∧
      AP_list_search_func s.lists l (matchFn k s tag) = .ok (some x) := by
  rw [Op.waits_eq, Bool.and_eq_true] at ho
  have hsplit : queueOf L.ops k.other c = queueOf A k.other c ++ o :: queueOf B k.other c := by
    rw [hops]; unfold queueOf; rw [List.filter_append, List.filter_cons, if_pos ho.1]
  have hqs' := hqs
  rw [hsplit, List.map_append, List.map_cons, List.map_eq_append_iff] at hqs'
  obtain ⟨q1, qr, rfl, h1, h2⟩ := hqs'
  rw [List.map_eq_cons_iff] at h2
  obtain ⟨⟨x, lx⟩, q2, rfl, h3, h4⟩ := h2
  simp only at h3
  subst h3
  refine ⟨q1, x, q2, rfl, h1, h4, ?_⟩
  have hok : ∀ o' ∈ queueOf L.ops k.other c, matchFn k s tag (locOf o'.h) = .ok (o'.fits k tag) := by
    intro o' ho'
    obtain ⟨r, h1, h2⟩ := hreq o' ho'
    exact matchFn_ok h1 h2 _ _
  obtain ⟨g, hg⟩ : ∃ g : Loc → Bool, ∀ l b, matchFn k s tag l = .ok b → g l = b :=
    ⟨fun l => match matchFn k s tag l with | .ok b => b | _ => false, fun l b h => by
      dsimp only; rw [h]⟩
  have hf : ∀ e ∈ q1 ++ (x, locOf o.h) :: q2, matchFn k s tag e.2 = .ok (g e.2) := by
    intro e he
    have : e.2 ∈ (q1 ++ (x, locOf o.h) :: q2).map Prod.snd := List.mem_map.2 ⟨e, he, rfl⟩
    rw [hqs, List.mem_map] at this
    obtain ⟨o', ho', ho''⟩ := this
    rw [← ho'', hok o' ho', hg _ _ (hok o' ho')]
  rw [hl.search_func hq (g := g) hf, List.find?_append, List.find?_eq_none.2, List.find?_cons_of_pos]
  · rfl
  · dsimp only; rw [hg _ _ (hok o (by rw [hsplit]; simp))]; exact ho.2
  · intro e he
    have : e.2 ∈ q1.map Prod.snd := List.mem_map.2 ⟨e, he, rfl⟩
    rw [h1, List.mem_map] at this
    obtain ⟨o', ho', ho''⟩ := this
    rw [← ho'', hg _ _ (hok o' (by rw [hsplit]; simp [ho']))]
    have hw := hA o' (mem_queueOf.1 ho').1
    rw [Op.waits_eq, Op.pendOn_iff.2 (mem_queueOf.1 ho').2] at hw
    simpa using hw

end

/-! ## Copying between typed buffers -/

/-- `copy_data2` as a function to memory. -/
def copyMem (env : Env) (s : Sys) (source sc st dest dc dt : Int) : Res Mem := do
  let r ← copy_data2 env s source sc st dest dc dt
  return r.mem

theorem HSt.inited {D : Type} {t : HTab D} {L : List Int} (hs : HSt t L) {h : Int} (hh : h ∈ L) :
    t.needInit = false := by
  rcases hs with ⟨_, rfl⟩ | ⟨fl, hi⟩
  · simp at hh
  · exact hi.init

theorem ptr_state {s s' : Sys} (hn : s.handles.needInit = false) {h p}
    (he : s.ptr h = .ok (s', p)) : s' = s := by
  unfold Sys.ptr mpi_handle_to_ptr at he
  rw [hn] at he
  simp only [Bool.false_eq_true, if_false] at he
  split at he
  · simp only [Res.pure_eq, Res.ok_bind, Res.ok.injEq, Prod.mk.injEq] at he
    rw [← he.1]
  · rw [bind_assoc, Res.bind_eq_ok] at he
    obtain ⟨l, _, he⟩ := he
    simp only [Res.pure_eq, Res.ok_bind, Res.ok.injEq, Prod.mk.injEq] at he
    rw [← he.1]

theorem handleToDatatype_state {s s' : Sys} (hn : s.handles.needInit = false) {h p}
    (he : handleToDatatype s h = .ok (s', p)) : s' = s := by
  unfold handleToDatatype at he
  split at he
  · rw [Res.bind_eq_ok] at he
    obtain ⟨_, _, he⟩ := he
    simp only [Res.pure_eq, Res.ok.injEq, Prod.mk.injEq] at he
    exact he.1.symm
  · rw [Res.bind_eq_ok] at he
    obtain ⟨⟨s1, p1⟩, h1, he⟩ := he
    have := ptr_state hn h1
    subst this
    dsimp only at he
    cases p1 with
    | none => cases he
    | some l =>
      dsimp only at he
      rw [Res.bind_eq_ok] at he
      obtain ⟨it, _, he⟩ := he
      split at he
      · simp only [Res.pure_eq, Res.ok.injEq, Prod.mk.injEq] at he
        exact he.1.symm
      · cases he

theorem copy_data2_eq {env : Env} {s : Sys} (hn : s.handles.needInit = false)
    (source sc st dest dc dt : Int) :
    copy_data2 env s source sc st dest dc dt =
      copyMem env s source sc st dest dc dt >>= fun m => .ok { s with mem := m } := by
  have key : ∀ s', copy_data2 env s source sc st dest dc dt = .ok s' → s' = { s with mem := s'.mem } := by
    intro s' he
    unfold copy_data2 at he
    rw [Res.bind_eq_ok] at he
    obtain ⟨⟨s1, p1⟩, h1, he⟩ := he
    have := handleToDatatype_state hn h1
    subst this
    rw [Res.bind_eq_ok] at he
    obtain ⟨⟨s2, p2⟩, h2, he⟩ := he
    have := handleToDatatype_state hn h2
    subst this
    rw [Res.bind_eq_ok] at he
    obtain ⟨t1, _, he⟩ := he
    rw [Res.bind_eq_ok] at he
    obtain ⟨t2, _, he⟩ := he
    rw [Res.bind_eq_ok] at he
    obtain ⟨m, _, he⟩ := he
    simp only [Res.pure_eq, Res.ok.injEq] at he
    rw [← he]
  unfold copyMem
  cases hr : copy_data2 env s source sc st dest dc dt <;> simp
  exact key _ hr

theorem desc_live {cfg : Cfg} {L : Ledger} {h : Int} {t : Typestruct} (hd : L.desc cfg h = some t) :
    (h < 0 ∧ (simpletypes cfg)[(-1 - h).toNat]? = some t) ∨ (0 ≤ h ∧ (h, Obj.dtype t) ∈ L.objs) := by
  unfold Ledger.desc at hd
  split at hd
  · next h0 => exact Or.inl ⟨h0, hd⟩
  · next h0 =>
    right
    refine ⟨by omega, ?_⟩
    rw [Option.bind_eq_some_iff] at hd
    obtain ⟨⟨h', o⟩, h1, h2⟩ := hd
    have h3 := List.mem_of_find?_eq_some h1
    have h4 := List.find?_some h1
    simp only [decide_eq_true_eq] at h4
    subst h4
    cases o with
    | dtype t' => simp only [Option.some.injEq] at h2; subst h2; exact h3
    | comm _ => cases h2
    | req _ => cases h2

theorem simpletypes_length (cfg : Cfg) : (simpletypes cfg).length = 45 := rfl

/-- Every live datatype handle of `L` leads to its descriptor. -/
def TypesOk (s : Sys) (L : Ledger) (keys : List Int) : Prop :=
  ∀ h t, (h, Obj.dtype t) ∈ L.objs → h ∈ keys ∧ ∃ p, dataAt s h = .dtype (.heap p) ∧ s.theap p = some t

theorem typeOf_desc {env : Env} {s : Sys} {L : Ledger} {keys : List Int} (hs : HSt s.handles keys)
    (ht : TypesOk s L keys) {h : Int} {t : Typestruct} (hd : L.desc env.cfg h = some t) :
    ∃ p, handleToDatatype s h = .ok (s, p) ∧ derefType env s p = .ok t := by
  rcases desc_live hd with ⟨h0, h1⟩ | ⟨h0, h1⟩
  · have hlt : (-1 - h).toNat < 45 := by
      rcases Nat.lt_or_ge (-1 - h).toNat 45 with h2 | h2
      · exact h2
      · rw [List.getElem?_eq_none (by rw [simpletypes_length]; exact h2)] at h1; cases h1
    refine ⟨.static (-1 - h).toNat, ?_, ?_⟩
    · unfold handleToDatatype simpletypePtr
      rw [if_pos h0]
      dsimp only
      rw [if_pos hlt]; rfl
    · unfold derefType; dsimp only; rw [h1]
  · obtain ⟨h2, p, h3, h4⟩ := ht h t h1
    refine ⟨.heap p, ?_, ?_⟩
    · unfold handleToDatatype
      rw [if_neg (by omega), Sys.ptr_live hs h2, Res.ok_bind]
      dsimp only
      rw [hs.deref h2, Res.ok_bind]
      unfold dataAt at h3
      rw [h3]; rfl
    · unfold derefType; dsimp only; rw [h4]

theorem copyMem_desc {env : Env} {s : Sys} {L : Ledger} {keys : List Int} (hs : HSt s.handles keys)
    (ht : TypesOk s L keys) {sh dh : Int} {st dt : Typestruct} (h1 : L.desc env.cfg sh = some st)
    (h2 : L.desc env.cfg dh = some dt) (source sc dest dc : Int) :
    copyMem env s source sc sh dest dc dh = Pcopy_data2 env.cfg s.mem source sc st dest dc dt := by
  obtain ⟨p1, a1, a2⟩ := typeOf_desc hs ht h1
  obtain ⟨p2, b1, b2⟩ := typeOf_desc hs ht h2
  unfold copyMem copy_data2
  rw [a1, Res.ok_bind]
  dsimp only
  rw [b1, Res.ok_bind]
  dsimp only
  rw [a2, Res.ok_bind, b2, Res.ok_bind]
  cases Pcopy_data2 env.cfg s.mem source sc st dest dc dt <;> rfl

/-! ## MPI_Isend and MPI_Irecv on a live communicator -/

/-- The effect of posting an operation of kind `k` on communicator `c`, `r` being the outcome of
the call.  `X` is the message transfer. -/
def PostSpec (env : Env) (s : Sys) (L : Ledger) (lst : Nat → Kind → Nat) (k : Kind) (c : Nat)
    (tag buf count dtype : Int) (r : Res (Sys × Int)) : Prop :=
  (L.objs.length = 262143 ∧ r.aborted = true) ∨
  (L.objs.length < 262143 ∧ L.partner c k tag = none ∧ ∃ s' h M', r = .ok (s', h) ∧ s'.mem = s.mem ∧
    h ∉ L.objs.map Prod.fst ∧ Inv s' (L.post k c tag buf count dtype h) M' lst) ∨
  (L.objs.length < 262143 ∧ ∃ j o s' h M' X, L.partner c k tag = some j ∧ L.ops[j]? = some o ∧
    r = (X >>= fun m => .ok ({ s' with mem := m }, h)) ∧ h ∉ L.objs.map Prod.fst ∧
    (∀ st dt, L.desc env.cfg dtype = some st → L.desc env.cfg (if k = .send then o.dtype else dtype) = some dt →
      X = (if k = .send then Pcopy_data2 env.cfg s.mem buf count st o.buf o.count dt
           else Pcopy_data2 env.cfg s.mem o.buf count st buf count st)) ∧
    Inv s' (L.post k c tag buf count dtype h) M' lst)

section
variable {env : Env} {s : Sys} {L : Ledger} {M : AbsLists Loc} {lst : Nat → Kind → Nat}

theorem Inv.queue_recs (hi : Inv s L M lst) {hc : Int} {c : Nat} (hcm : (hc, Obj.comm c) ∈ L.objs) {k : Kind}
    {o : Op} (ho : o ∈ queueOf L.ops k c) :
    o.h ∈ L.objs.map Prod.fst ∧ ∃ r, dataAt s o.h = .req r ∧ r.complete = 0 ∧ r.tag = o.tag ∧ r.buf = o.buf ∧
      (o.kind = .recv → r.count = o.count ∧ r.type = o.dtype) := by
  obtain ⟨h1, h2, h3, h4⟩ := mem_queueOf.1 ho
  obtain ⟨i, hlt, hio⟩ := List.getElem_of_mem h1
  have hio' : L.ops[i]? = some o := by rw [List.getElem?_eq_getElem hlt, hio]
  have hm := hi.held i o hio' h4 hc (h3 ▸ hcm)
  obtain ⟨o', r, h5, _, h6, h7⟩ := hi.req _ _ hm
  rw [hio'] at h5
  cases h5
  refine ⟨mem_keys hm, r, h6, ?_⟩
  unfold RecOk at h7
  rw [h4] at h7
  exact h7

theorem isend_spec (hi : Inv s L M lst) {comm : Int} {c : Nat} (hcm : (comm, Obj.comm c) ∈ L.objs)
    (hu : L.unmatched < 2147483647) (buf count dtype tag : Int) :
    PostSpec env s L lst .send c tag buf count dtype (MPI_Isend env s buf count dtype 0 tag comm) := by
  unfold MPI_Isend
  rw [Sys.ptr_live hi.hst (mem_keys hcm), Res.ok_bind]
  dsimp only
  rw [if_neg (by simp)]
  rcases allocReq_spec (env := env) hi.hst with ⟨hlen, t, h, r0, ha, hst, hnew, hd, hold⟩ | ⟨hlen, ha⟩
  rotate_left
  · left
    refine ⟨by simpa using hlen, ?_⟩
    cases hr : s.allocReq env <;> rw [hr] at ha <;> simp [Res.aborted] at ha ⊢
  rw [List.length_map] at hlen
  rw [ha, Res.ok_bind]
  dsimp only
  rw [if_neg (by simp)]
  generalize hs1 : ({ s with handles := t, clock := s.clock + 1 } : Sys) = s1
  have e1 : s1.lists = s.lists := by rw [← hs1]
  have e2 : s1.theap = s.theap := by rw [← hs1]
  have e3 : s1.mem = s.mem := by rw [← hs1]
  have hsame1 : SameRest s s1 := by rw [← hs1]; exact ⟨rfl, rfl, rfl, rfl⟩
  have hst1 : HSt s1.handles (h :: L.objs.map Prod.fst) := by rw [← hs1]; exact hst
  have hd1 : dataAt s1 h = .req r0 := by rw [← hs1]; exact hd
  have hold1 : ∀ h' ∈ L.objs.map Prod.fst, dataAt s1 h' = dataAt s h' := by rw [← hs1]; exact hold
  have hpos : ∀ h' ∈ h :: L.objs.map Prod.fst, (0 : Int) ≤ h' := fun h' hh' => by
    have := hst1.pos hh'; omega
  clear ha hst hd hold hs1
  obtain ⟨_, n, hcd⟩ := hi.comm _ _ hcm
  rw [Sys.comm_live hst1 (List.mem_cons_of_mem _ (mem_keys hcm)) (by rw [hold1 _ (mem_keys hcm)]; exact hcd),
    Res.ok_bind]
  dsimp only
  obtain ⟨q, hq, hqs⟩ := hi.queue _ _ hcm .recv
  have hreq : ∀ o ∈ queueOf L.ops Kind.send.other c, ∃ r, s1.req (some (locOf o.h)) = .ok r ∧ r.tag = o.tag := by
    intro o ho
    obtain ⟨h1, r, h2, _, h4, _⟩ := hi.queue_recs hcm ho
    exact ⟨r, Sys.req_live hst1 (List.mem_cons_of_mem _ h1) (by rw [hold1 _ h1]; exact h2), h4⟩
  have hl1 : LInv s1.lists M := by rw [e1]; exact hi.linv
  cases hp : L.partner c .send tag with
  | none =>
    right; left
    have hsr : AP_list_search_func s1.lists (lst c .recv) (mpi_match_recv s1 tag) = .ok none :=
      search_none (k := .send) hl1 hq hqs hreq hp
    rw [e1] at hsr; rw [hsr, Res.ok_bind]
    dsimp only
    unfold sendQueued
    rw [Sys.modReq_live hst1 (by simp) hd1, Res.ok_bind]
    obtain ⟨q', hq', hqs'⟩ := hi.queue _ _ hcm .send
    generalize hr1 : ({ r0 with buf := buf, tag := tag, complete := 0 } : ReqRec) = r1
    obtain ⟨l2, M2, x, b1, b2, b3, b4, b5, b6⟩ := hl1.append_at hq' (locOf h)
      (by rw [e1]; have := hi.icap; omega)
    have : AP_list_append (s1.put h (.req r1)).lists (lst c .send) (locOf h) = .ok (l2, x) := b1
    rw [this, Res.ok_bind]
    dsimp only
    rw [Sys.modReq_live (s := { s1.put h (.req r1) with lists := l2 }) (L := h :: L.objs.map Prod.fst) (r := r1) (hst1.put h _) (by simp)
      (dataAt_put_self s1 h (.req r1)), Res.ok_bind]
    refine ⟨hlen, hp, _, h, M2, rfl, e3, hnew, ?_⟩
    refine hi.post_pending hcm hp hu (r := { r1 with listitem := some x }) (x := x) (M' := M2)
      ((hst1.put h _).put h _) hnew ?_ ?_ ?_ b2 hq' b3 hqs' b4 ?_ ?_ ?_
    · intro h' hh'
      have hne : h' ≠ h := fun he => hnew (he ▸ hh')
      rw [← hold1 _ hh']
      have p1 := hpos h' (List.mem_cons_of_mem _ hh')
      have p2 := hpos h (by simp)
      rw [dataAt_put_ne _ p2 p1 hne]
      exact dataAt_put_ne (s := s1) _ p2 p1 hne
    · exact dataAt_put_self _ _ _
    · rw [← hr1]
      simp [RecOk]
    · rw [← e1]; exact b5
    · rw [← e1]; exact b6
    · exact ⟨hsame1.1, hsame1.2, hsame1.3, hsame1.4⟩
  | some j =>
    right; right
    obtain ⟨A, o, B, hops, rfl, ho, hA⟩ := Ledger.partner_some hp
    obtain ⟨q1, x, q2, rfl, hq1, hq2, hsr⟩ := search_some (k := .send) hl1 hq hops ho hA hqs hreq
    have hsr : AP_list_search_func s1.lists (lst c .recv) (mpi_match_recv s1 tag) = .ok (some x) := hsr
    rw [e1] at hsr; rw [hsr, Res.ok_bind]
    dsimp only
    unfold sendMatched
    rw [hl1.data hq (x := x) (a := locOf o.h) (by simp), Res.ok_bind]
    obtain ⟨l2, M2, b1, b2, b3, b4, b5, b6⟩ := hl1.delete_at hq (by rw [e1]; have := hi.icap; omega)
    rw [b1, Res.ok_bind]
    dsimp only
    have howait := ho
    rw [Op.waits_eq, Bool.and_eq_true] at howait
    have hoq : o ∈ queueOf L.ops Kind.send.other c := by
      rw [mem_queueOf, hops]; exact ⟨by simp, Op.pendOn_iff.1 howait.1⟩
    obtain ⟨hok, ro, hdo, _, hot, hob, hoc⟩ := hi.queue_recs hcm hoq
    have hoc := hoc (mem_queueOf.1 hoq).2.1
    have hne : h ≠ o.h := fun he => hnew (he ▸ hok)
    generalize hs2 : ({ s1 with lists := l2 } : Sys) = s2
    have f1 : s2.handles = s1.handles := by rw [← hs2]
    have f2 : s2.lists = l2 := by rw [← hs2]
    have f3 : s2.theap = s.theap := by rw [← hs2, ← e2]
    have f4 : s2.mem = s.mem := by rw [← hs2, ← e3]
    have hst2 : HSt s2.handles (h :: L.objs.map Prod.fst) := by rw [f1]; exact hst1
    have hd2 : dataAt s2 h = .req r0 := by unfold dataAt; rw [f1]; exact hd1
    have hold2 : ∀ h' ∈ L.objs.map Prod.fst, dataAt s2 h' = dataAt s h' := by
      unfold dataAt; rw [f1]; exact hold1
    have hsame2 : SameRest s s2 := by
      rw [← hs2]; exact ⟨hsame1.1, hsame1.2, hsame1.3, hsame1.4⟩
    have hdo2 : dataAt s2 o.h = .req ro := by rw [hold2 _ hok]; exact hdo
    rw [Sys.req_live hst2 (List.mem_cons_of_mem _ hok) hdo2, Res.ok_bind,
      copy_data2_eq (hst2.inited (h := h) (by simp)), bind_assoc, bind_assoc]
    simp only [Res.ok_bind]
    have hfin : ∀ m : Mem, (do
        let s ← Sys.modReq { s2 with mem := m } (locOf o.h) (fun r => { r with complete := 1, source := 0, tag := tag })
        let s ← s.modReq (locOf h) (fun r => { r with complete := 1 })
        return (s, h)) = Res.ok ({ ((s2.put o.h (.req { ro with complete := 1, source := 0, tag := tag })).put h
          (.req { r0 with complete := 1 })) with mem := m }, h) := by
      intro m
      have hst3 : HSt ({ s2 with mem := m } : Sys).handles (h :: L.objs.map Prod.fst) := hst2
      rw [Sys.modReq_live hst3 (List.mem_cons_of_mem _ hok) (r := ro) hdo2, Res.ok_bind]
      rw [Sys.modReq_live (hst3.put _ _) (by simp) (r := r0)
        ((dataAt_put_ne _ (hpos _ (List.mem_cons_of_mem _ hok)) (hpos h (by simp)) hne).trans hd2), Res.ok_bind]
      rfl
    refine ⟨hlen, A.length, o, ((s2.put o.h (.req { ro with complete := 1, source := 0, tag := tag })).put h
          (.req { r0 with complete := 1 })), h, M2,
        copyMem env s2 buf count dtype ro.buf ro.count ro.type, hp, by rw [hops]; simp, ?_, hnew, ?_, ?_⟩
    · congr 1
      funext m
      rw [bind_assoc]
      exact hfin m
    · intro st dt h1 h2
      simp only [reduceIte, if_true] at h2 ⊢
      rw [hob, hoc.1, hoc.2, copyMem_desc hst2 ?_ h1 h2, f4]
      intro h' t' hm
      refine ⟨List.mem_cons_of_mem _ (mem_keys hm), ?_⟩
      rw [hold2 _ (mem_keys hm), f3]
      exact hi.dtype _ _ hm
    · refine hi.post_matched hcm hp hops howait.1 (r := { r0 with complete := 1 })
        (ro := { ro with complete := 1, source := 0, tag := tag }) (M' := M2) (q1 := q1) (q2 := q2)
        ((hst2.put _ _).put _ _) hnew ?_ ?_ ?_ ?_ ?_ ?_ b3 hq1 hq2 b4 ?_ ?_ ?_
      · intro h' hh' hne'
        have hne2 : h' ≠ h := fun he => hnew (he ▸ hh')
        have p1 := hpos h' (List.mem_cons_of_mem _ hh')
        rw [dataAt_put_ne _ (hpos h (by simp)) p1 hne2,
          dataAt_put_ne _ (hpos _ (List.mem_cons_of_mem _ hok)) p1 hne']
        exact hold2 _ hh'
      · exact dataAt_put_self _ _ _
      · rw [dataAt_put_ne _ (hpos h (by simp)) (hpos _ (List.mem_cons_of_mem _ hok)) (Ne.symm hne)]
        exact dataAt_put_self _ _ _
      · exact ⟨rfl, by simp⟩
      · exact ⟨rfl, fun _ => ⟨rfl, rfl⟩⟩
      · show LInv s2.lists M2
        rw [f2]; exact b2
      · show s2.lists.itemcount + 1 = _
        rw [f2, ← e1]; exact b5
      · show s2.lists.headcount = _
        rw [f2, ← e1]; exact b6
      · exact ⟨hsame2.1, hsame2.2, hsame2.3, hsame2.4⟩

theorem irecv_spec (hi : Inv s L M lst) {comm : Int} {c : Nat} (hcm : (comm, Obj.comm c) ∈ L.objs)
    (hu : L.unmatched < 2147483647) {src : Int} (hsrc : src = 0 ∨ src = MPI_ANY_SOURCE)
    (buf count dtype tag : Int) :
    PostSpec env s L lst .recv c tag buf count dtype (MPI_Irecv env s buf count dtype src tag comm) := by
  unfold MPI_Irecv
  rw [Sys.ptr_live hi.hst (mem_keys hcm), Res.ok_bind]
  dsimp only
  rw [if_neg (by omega)]
  rcases allocReq_spec (env := env) hi.hst with ⟨hlen, t, h, r0, ha, hst, hnew, hd, hold⟩ | ⟨hlen, ha⟩
  rotate_left
  · left
    refine ⟨by simpa using hlen, ?_⟩
    cases hr : s.allocReq env <;> rw [hr] at ha <;> simp [Res.aborted] at ha ⊢
  rw [List.length_map] at hlen
  rw [ha, Res.ok_bind]
  dsimp only
  generalize hs0 : ({ s with handles := t, clock := s.clock + 1 } : Sys) = s0
  have hst0 : HSt s0.handles (h :: L.objs.map Prod.fst) := by rw [← hs0]; exact hst
  have hpos : ∀ h' ∈ h :: L.objs.map Prod.fst, (0 : Int) ≤ h' := fun h' hh' => by
    have := hst0.pos hh'; omega
  rw [Sys.modReq_live hst0 (by simp) (by rw [← hs0]; exact hd), Res.ok_bind, if_neg (by omega)]
  generalize hr00 : ({ r0 with type := dtype, count := count } : ReqRec) = r00
  have g1 : r00.type = dtype := by rw [← hr00]
  have g2 : r00.count = count := by rw [← hr00]
  generalize hs1 : s0.put h (.req r00) = s1
  have e1 : s1.lists = s.lists := by rw [← hs1, ← hs0]; rfl
  have e2 : s1.theap = s.theap := by rw [← hs1, ← hs0]; rfl
  have e3 : s1.mem = s.mem := by rw [← hs1, ← hs0]; rfl
  have hsame1 : SameRest s s1 := by rw [← hs1, ← hs0]; exact ⟨rfl, rfl, rfl, rfl⟩
  have hst1 : HSt s1.handles (h :: L.objs.map Prod.fst) := by rw [← hs1]; exact hst0.put _ _
  have hd1 : dataAt s1 h = .req r00 := by rw [← hs1]; exact dataAt_put_self _ _ _
  have hold1 : ∀ h' ∈ L.objs.map Prod.fst, dataAt s1 h' = dataAt s h' := by
    intro h' hh'
    rw [← hs1, dataAt_put_ne _ (hpos h (by simp)) (hpos h' (List.mem_cons_of_mem _ hh'))
      (fun he => hnew (he ▸ hh')), ← hs0]
    exact hold h' hh'
  clear ha hst hd hold hs1 hs0 hst0 hr00
  obtain ⟨_, n, hcd⟩ := hi.comm _ _ hcm
  rw [Sys.comm_live hst1 (List.mem_cons_of_mem _ (mem_keys hcm)) (by rw [hold1 _ (mem_keys hcm)]; exact hcd),
    Res.ok_bind]
  dsimp only
  obtain ⟨q, hq, hqs⟩ := hi.queue _ _ hcm .send
  have hreq : ∀ o ∈ queueOf L.ops Kind.recv.other c, ∃ r, s1.req (some (locOf o.h)) = .ok r ∧ r.tag = o.tag := by
    intro o ho
    obtain ⟨h1, r, h2, _, h4, _⟩ := hi.queue_recs hcm ho
    exact ⟨r, Sys.req_live hst1 (List.mem_cons_of_mem _ h1) (by rw [hold1 _ h1]; exact h2), h4⟩
  have hl1 : LInv s1.lists M := by rw [e1]; exact hi.linv
  cases hp : L.partner c .recv tag with
  | none =>
    right; left
    have hsr : AP_list_search_func s1.lists (lst c .send) (mpi_match_send s1 tag) = .ok none :=
      search_none (k := .recv) hl1 hq hqs hreq hp
    rw [hsr, Res.ok_bind]
    dsimp only
    unfold recvQueued
    rw [Sys.modReq_live hst1 (by simp) hd1, Res.ok_bind]
    obtain ⟨q', hq', hqs'⟩ := hi.queue _ _ hcm .recv
    generalize hr1 : ({ r00 with buf := buf, tag := tag, complete := 0 } : ReqRec) = r1
    obtain ⟨l2, M2, x, b1, b2, b3, b4, b5, b6⟩ := hl1.append_at hq' (locOf h)
      (by rw [e1]; have := hi.icap; omega)
    have : AP_list_append (s1.put h (.req r1)).lists (lst c .recv) (locOf h) = .ok (l2, x) := b1
    rw [this, Res.ok_bind]
    dsimp only
    rw [Sys.modReq_live (s := { s1.put h (.req r1) with lists := l2 }) (L := h :: L.objs.map Prod.fst) (r := r1) (hst1.put h _) (by simp)
      (dataAt_put_self s1 h (.req r1)), Res.ok_bind]
    refine ⟨hlen, hp, _, h, M2, rfl, e3, hnew, ?_⟩
    refine hi.post_pending hcm hp hu (r := { r1 with listitem := some x }) (x := x) (M' := M2)
      ((hst1.put h _).put h _) hnew ?_ ?_ ?_ b2 hq' b3 hqs' b4 ?_ ?_ ?_
    · intro h' hh'
      have hne : h' ≠ h := fun he => hnew (he ▸ hh')
      rw [← hold1 _ hh']
      have p1 := hpos h' (List.mem_cons_of_mem _ hh')
      have p2 := hpos h (by simp)
      rw [dataAt_put_ne _ p2 p1 hne]
      exact dataAt_put_ne (s := s1) _ p2 p1 hne
    · exact dataAt_put_self _ _ _
    · rw [← hr1]
      simp [RecOk, g1, g2]
    · rw [← e1]; exact b5
    · rw [← e1]; exact b6
    · exact ⟨hsame1.1, hsame1.2, hsame1.3, hsame1.4⟩
  | some j =>
    right; right
    obtain ⟨A, o, B, hops, rfl, ho, hA⟩ := Ledger.partner_some hp
    obtain ⟨q1, x, q2, rfl, hq1, hq2, hsr⟩ := search_some (k := .recv) hl1 hq hops ho hA hqs hreq
    have hsr : AP_list_search_func s1.lists (lst c .send) (mpi_match_send s1 tag) = .ok (some x) := hsr
    rw [hsr, Res.ok_bind]
    dsimp only
    unfold recvMatched
    rw [hl1.data hq (x := x) (a := locOf o.h) (by simp), Res.ok_bind]
    obtain ⟨l2, M2, b1, b2, b3, b4, b5, b6⟩ := hl1.delete_at hq (by rw [e1]; have := hi.icap; omega)
    rw [b1, Res.ok_bind]
    dsimp only
    have howait := ho
    rw [Op.waits_eq, Bool.and_eq_true] at howait
    have hoq : o ∈ queueOf L.ops Kind.recv.other c := by
      rw [mem_queueOf, hops]; exact ⟨by simp, Op.pendOn_iff.1 howait.1⟩
    obtain ⟨hok, ro, hdo, _, hot, hob, hoc⟩ := hi.queue_recs hcm hoq
    have hne : h ≠ o.h := fun he => hnew (he ▸ hok)
    generalize hs2 : ({ s1 with lists := l2 } : Sys) = s2
    have f1 : s2.handles = s1.handles := by rw [← hs2]
    have f2 : s2.lists = l2 := by rw [← hs2]
    have f3 : s2.theap = s.theap := by rw [← hs2, ← e2]
    have f4 : s2.mem = s.mem := by rw [← hs2, ← e3]
    have hst2 : HSt s2.handles (h :: L.objs.map Prod.fst) := by rw [f1]; exact hst1
    have hd2 : dataAt s2 h = .req r00 := by unfold dataAt; rw [f1]; exact hd1
    have hold2 : ∀ h' ∈ L.objs.map Prod.fst, dataAt s2 h' = dataAt s h' := by
      unfold dataAt; rw [f1]; exact hold1
    have hsame2 : SameRest s s2 := by
      rw [← hs2]; exact ⟨hsame1.1, hsame1.2, hsame1.3, hsame1.4⟩
    have hdo2 : dataAt s2 o.h = .req ro := by rw [hold2 _ hok]; exact hdo
    rw [Sys.req_live hst2 (List.mem_cons_of_mem _ hok) hdo2, Res.ok_bind,
      copy_data2_eq (hst2.inited (h := h) (by simp)), bind_assoc, bind_assoc]
    simp only [Res.ok_bind]
    have hfin : ∀ m : Mem, (do
        let q ← Sys.req { s2 with mem := m } (some (locOf o.h))
        let s ← Sys.modReq { s2 with mem := m } (locOf h) (fun r => { r with complete := 1, source := 0, tag := q.tag })
        let s ← s.modReq (locOf o.h) (fun r => { r with complete := 1 })
        return (s, h)) = Res.ok ({ ((s2.put h (.req { r00 with complete := 1, source := 0, tag := ro.tag })).put o.h
          (.req { ro with complete := 1 })) with mem := m }, h) := by
      intro m
      have hst3 : HSt ({ s2 with mem := m } : Sys).handles (h :: L.objs.map Prod.fst) := hst2
      rw [Sys.req_live hst3 (List.mem_cons_of_mem _ hok) (r := ro) hdo2, Res.ok_bind,
        Sys.modReq_live hst3 (by simp) (r := r00) hd2, Res.ok_bind]
      rw [Sys.modReq_live (hst3.put _ _) (List.mem_cons_of_mem _ hok) (r := ro)
        ((dataAt_put_ne _ (hpos h (by simp)) (hpos _ (List.mem_cons_of_mem _ hok)) (Ne.symm hne)).trans hdo2),
        Res.ok_bind]
      rfl
    refine ⟨hlen, A.length, o, ((s2.put h (.req { r00 with complete := 1, source := 0, tag := ro.tag })).put o.h
          (.req { ro with complete := 1 })), h, M2,
        copyMem env s2 ro.buf count dtype buf count dtype, hp, by rw [hops]; simp, ?_, hnew, ?_, ?_⟩
    · congr 1
      funext m
      simp only [bind_assoc]
      exact hfin m
    · intro st dt h1 _
      rw [if_neg (by simp), hob, copyMem_desc hst2 ?_ h1 h1, f4]
      intro h' t' hm
      refine ⟨List.mem_cons_of_mem _ (mem_keys hm), ?_⟩
      rw [hold2 _ (mem_keys hm), f3]
      exact hi.dtype _ _ hm
    · refine hi.post_matched hcm hp hops howait.1 (r := { r00 with complete := 1, source := 0, tag := ro.tag })
        (ro := { ro with complete := 1 }) (M' := M2) (q1 := q1) (q2 := q2)
        ((hst2.put _ _).put _ _) hnew ?_ ?_ ?_ ?_ ?_ ?_ b3 hq1 hq2 b4 ?_ ?_ ?_
      · intro h' hh' hne'
        have hne2 : h' ≠ h := fun he => hnew (he ▸ hh')
        have p1 := hpos h' (List.mem_cons_of_mem _ hh')
        rw [dataAt_put_ne _ (hpos _ (List.mem_cons_of_mem _ hok)) p1 hne',
          dataAt_put_ne _ (hpos h (by simp)) p1 hne2]
        exact hold2 _ hh'
      · rw [dataAt_put_ne _ (hpos _ (List.mem_cons_of_mem _ hok)) (hpos h (by simp)) hne]
        exact dataAt_put_self _ _ _
      · exact dataAt_put_self _ _ _
      · exact ⟨rfl, fun _ => ⟨rfl, hot⟩⟩
      · exact ⟨rfl, by simp [Kind.other]⟩
      · show LInv s2.lists M2
        rw [f2]; exact b2
      · show s2.lists.itemcount + 1 = _
        rw [f2, ← e1]; exact b5
      · show s2.lists.headcount = _
        rw [f2, ← e1]; exact b6
      · exact ⟨hsame2.1, hsame2.2, hsame2.3, hsame2.4⟩

end

end MpiSerial
