import Verif.Proofs.Twin

/-!
# Every call keeps two runs in step
-/

set_option linter.unusedSimpArgs false
set_option autoImplicit false

namespace MpiSerial

open Res (Rel)

section
variable {env : Env} {j : Nat → ReqRec} {s s₁ s₂ s₁' s₂' : Sys} {L L' : Ledger}

/-! ## Records of queued operations -/

/-- What the library reads in the records of queued operations. -/
def Recs (a : Sys) (L : Ledger) (c : Nat) (k : Kind) : Prop :=
  ∀ o ∈ queueOf L.ops k c, ∃ r, a.req (some (locOf o.h)) = .ok r ∧ r.tag = o.tag ∧ r.buf = o.buf ∧
    (k = .recv → r.count = o.count ∧ r.type = o.dtype)

/-- The state `a` just after a request was put at `l`: the queues of communicator `c` are those of `s`. -/
structure Alloced (s a : Sys) (L : Ledger) (comm : Int) (c : Nat) (lst : Nat → Kind → Nat) (l : Loc) : Prop where
  lists : a.lists = s.lists
  cr : ∃ n, a.comm (some (locOf comm)) = .ok ⟨lst c .send, lst c .recv, n⟩
  recs : ∀ k, Recs a L c k
  away : ∀ k, ∀ o ∈ queueOf L.ops k c, locOf o.h ≠ l
  off : locOf comm ≠ l

/-- A new request does not disturb the queues. -/
theorem Inv.ready {M : AbsLists Loc} {lst : Nat → Kind → Nat} (hi : Inv s L M lst) {comm : Int} {c : Nat}
    (hcm : (comm, Obj.comm c) ∈ L.objs) {a : Sys} {h : Int} {l : Loc} (he : s.allocReq env = .ok (a, h, l)) :
    Alloced s a L comm c lst l := by
  rcases allocReq_spec (env := env) hi.hst with ⟨_, t, h', r, ha, hst, hnew, _, hold⟩ | ⟨_, ha⟩
  · rw [he] at ha
    cases ha
    have hne : ∀ x ∈ L.objs.map Prod.fst, locOf x ≠ locOf h := fun x hx e => by
      have p1 := hst.pos (List.mem_cons_of_mem _ hx)
      have p2 := hst.pos (List.mem_cons_self)
      exact hnew (locOf_inj (by omega) (by omega) e ▸ hx)
    obtain ⟨_, n, hcd⟩ := hi.comm _ _ hcm
    refine ⟨rfl, ⟨n, ?_⟩, fun k o ho => ?_, fun k o ho => hne _ (hi.queue_recs hcm ho).1, hne _ (mem_keys hcm)⟩
    · exact Sys.comm_live hst (List.mem_cons_of_mem _ (mem_keys hcm)) ((hold _ (mem_keys hcm)).trans hcd)
    · obtain ⟨h1, r, h2, _, h4, h5, h6⟩ := hi.queue_recs hcm ho
      exact ⟨r, Sys.req_live hst (List.mem_cons_of_mem _ h1) ((hold _ h1).trans h2), h4, h5,
        fun hk => h6 ((mem_queueOf.1 ho).2.1.trans hk)⟩
  · rw [he] at ha; cases ha

theorem Alloced.mod {a b : Sys} {comm : Int} {c : Nat} {lst : Nat → Kind → Nat} {l : Loc} {f : ReqRec → ReqRec}
    (hr : Alloced s a L comm c lst l) (he : a.modReq l f = .ok b) : Alloced s b L comm c lst l := by
  unfold Sys.modReq at he
  obtain ⟨r, _, he⟩ := Res.bind_eq_ok.1 he
  cases he
  obtain ⟨h1, ⟨n, h2⟩, h3, h4, h5⟩ := hr
  refine ⟨h1, ⟨n, ?_⟩, fun k o ho => ?_, h4, h5⟩
  · rw [← h2]
    unfold Sys.comm HTab.deref
    dsimp only
    rw [HTab.setData_items, if_neg h5]
    rfl
  · obtain ⟨r', h6, h7⟩ := h3 k o ho
    refine ⟨r', ?_, h7⟩
    rw [← h6]
    unfold Sys.req HTab.deref
    dsimp only
    rw [HTab.setData_items, if_neg (h4 k o ho)]
    rfl

/-! ## Searching -/

/-- Both runs find the same item, and it belongs to a queued operation. -/
theorem search_same {M : AbsLists Loc} {lst : Nat → Kind → Nat} (hi : Inv s L M lst) {comm : Int} {c : Nat}
    (hcm : (comm, Obj.comm c) ∈ L.objs) {a b : Sys} (ha : a.lists = s.lists) (hb : b.lists = s.lists) {k : Kind}
    (h1 : Recs a L c k.other) (h2 : Recs b L c k.other) (tag : Int) :
    AP_list_search_func a.lists (lst c k.other) (matchFn k a tag) = AP_list_search_func b.lists (lst c k.other) (matchFn k b tag) ∧
    ∀ x, AP_list_search_func a.lists (lst c k.other) (matchFn k a tag) = .ok (some x) →
      ∃ o ∈ queueOf L.ops k.other c, AP_listitem_data a.lists x = .ok (locOf o.h) := by
  obtain ⟨q, hq, hqs⟩ := hi.queue _ _ hcm k.other
  have hop : ∀ e ∈ q, ∃ o ∈ queueOf L.ops k.other c, e.2 = locOf o.h := by
    intro e he
    have : e.2 ∈ q.map Prod.snd := List.mem_map.2 ⟨e, he, rfl⟩
    rw [hqs, List.mem_map] at this
    obtain ⟨o, ho, ho'⟩ := this
    exact ⟨o, ho, ho'.symm⟩
  obtain ⟨g, hg⟩ : ∃ g : Loc → Bool, ∀ l b, matchFn k a tag l = .ok b → g l = b :=
    ⟨fun l => match matchFn k a tag l with | .ok b => b | _ => false, fun l b h => by
      dsimp only; rw [h]⟩
  have hf : ∀ e ∈ q, matchFn k a tag e.2 = .ok (g e.2) ∧ matchFn k b tag e.2 = .ok (g e.2) := by
    intro e he
    obtain ⟨o, ho, ho'⟩ := hop e he
    obtain ⟨r1, a1, a2, _⟩ := h1 o ho
    obtain ⟨r2, b1, b2, _⟩ := h2 o ho
    have e1 := matchFn_ok a1 a2 k tag
    have e2 := matchFn_ok b1 b2 k tag
    rw [ho', e1, e2, hg _ _ e1]
    exact ⟨rfl, rfl⟩
  have k1 := hi.linv.search_func hq (f := matchFn k a tag) (g := g) fun e he => (hf e he).1
  have k2 := hi.linv.search_func hq (f := matchFn k b tag) (g := g) fun e he => (hf e he).2
  rw [ha, hb, k1, k2]
  refine ⟨rfl, fun x hx => ?_⟩
  rw [Res.ok.injEq, Option.map_eq_some_iff] at hx
  obtain ⟨⟨y, l⟩, hy, rfl⟩ := hx
  have hm := List.mem_of_find?_eq_some hy
  obtain ⟨o, ho, ho'⟩ := hop _ hm
  refine ⟨o, ho, ?_⟩
  rw [hi.linv.data hq hm]
  exact congrArg _ ho'

/-! ## Posting -/

theorem sendMatched_rel (h : Agree s₁ s₂) {c : Nat} (h1 : Recs s₁ L c .recv) (h2 : Recs s₂ L c .recv)
    {x : Nat} {o : Op} (ho : o ∈ queueOf L.ops .recv c) (hx : AP_listitem_data s₁.lists x = .ok (locOf o.h))
    (buf count dtype tag : Int) (l : Nat) (q : Loc) :
    (sendMatched env s₁ buf count dtype tag l x q).Rel Agree (sendMatched (env.withJunk j) s₂ buf count dtype tag l x q) := by
  unfold sendMatched
  rw [h.lists, hx, Res.ok_bind, Res.ok_bind]
  refine Rel.bind_same fun m _ => ?_
  dsimp only
  obtain ⟨r1, a1, _, a2, a3⟩ := h1 o ho
  obtain ⟨r2, b1, _, b2, b3⟩ := h2 o ho
  have e1 : Sys.req { s₁ with lists := m } (some (locOf o.h)) = .ok r1 := a1
  have e2 : Sys.req { s₂ with lists := m } (some (locOf o.h)) = .ok r2 := b1
  rw [e1, e2, Res.ok_bind, Res.ok_bind, a2, b2, (a3 rfl).1, (b3 rfl).1, (a3 rfl).2, (b3 rfl).2]
  refine (copy_rel (h.withLists m) _ _ _ _ _ _).bind fun a b _ _ hab => ?_
  exact (modReq_rel hab _ _ _).bind fun a b _ _ hab => modReq_rel hab _ _ _

theorem recvMatched_rel (h : Agree s₁ s₂) {c : Nat} (h1 : Recs s₁ L c .send) (h2 : Recs s₂ L c .send)
    {x : Nat} {o : Op} (ho : o ∈ queueOf L.ops .send c) (hx : AP_listitem_data s₁.lists x = .ok (locOf o.h))
    (buf count dtype : Int) (l : Nat) (q : Loc) :
    (recvMatched env s₁ buf count dtype l x q).Rel Agree (recvMatched (env.withJunk j) s₂ buf count dtype l x q) := by
  unfold recvMatched
  rw [h.lists, hx, Res.ok_bind, Res.ok_bind]
  refine Rel.bind_same fun m _ => ?_
  dsimp only
  obtain ⟨r1, a1, _, a2, _⟩ := h1 o ho
  obtain ⟨r2, b1, _, b2, _⟩ := h2 o ho
  have e1 : Sys.req { s₁ with lists := m } (some (locOf o.h)) = .ok r1 := a1
  have e2 : Sys.req { s₂ with lists := m } (some (locOf o.h)) = .ok r2 := b1
  rw [e1, e2, Res.ok_bind, Res.ok_bind, a2, b2]
  refine (copy_rel (h.withLists m) _ _ _ _ _ _).bind fun a b _ _ hab => ?_
  refine (req_rel hab _).bind fun _ _ _ _ _ => ?_
  exact (modReq_rel hab _ _ _).bind fun a b _ _ hab => modReq_rel hab _ _ _

theorem sendQueued_rel (h : Agree s₁ s₂) (buf tag : Int) (l : Nat) (q : Loc) :
    (sendQueued s₁ buf tag l q).Rel Agree (sendQueued s₂ buf tag l q) := by
  unfold sendQueued
  refine (modReq_rel h _ _ _).bind fun a b _ _ hab => ?_
  rw [hab.lists]
  exact Rel.bind_same fun m _ => modReq_rel (hab.withLists _) _ _ _

theorem recvQueued_rel (h : Agree s₁ s₂) (buf tag : Int) (l : Nat) (q : Loc) :
    (recvQueued s₁ buf tag l q).Rel Agree (recvQueued s₂ buf tag l q) := by
  unfold recvQueued
  refine (modReq_rel h _ _ _).bind fun a b _ _ hab => ?_
  rw [hab.lists]
  exact Rel.bind_same fun m _ => modReq_rel (hab.withLists _) _ _ _

theorem isend_rel {M₁ M₂ : AbsLists Loc} {lst₁ lst₂ : Nat → Kind → Nat} (hi₁ : Inv s₁ L M₁ lst₁) (hi₂ : Inv s₂ L M₂ lst₂)
    (h : Agree s₁ s₂) {dest comm : Int} (hc : IsComm L comm ∨ dest = MPI_PROC_NULL) (buf count dtype tag : Int) :
    (MPI_Isend env s₁ buf count dtype dest tag comm).Rel AgreeR (MPI_Isend (env.withJunk j) s₂ buf count dtype dest tag comm) := by
  unfold MPI_Isend
  refine bindR (ptr_rel h comm) fun a b p e1 e2 hab => ?_
  dsimp only
  refine Rel.ite (fun _ => rfl) fun hd => ?_
  refine bindR (allocReq_rel hab) fun a' b' x e3 e4 hab' => ?_
  obtain ⟨req, l⟩ := x
  dsimp only
  refine Rel.ite (fun _ => (modReq_rel hab' _ _ _).bind fun _ _ _ _ h => ⟨h, rfl⟩) fun hn => ?_
  obtain ⟨c, hcm⟩ := hc.resolve_right hn
  rw [Sys.ptr_live hi₁.hst (mem_keys hcm)] at e1
  rw [Sys.ptr_live hi₂.hst (mem_keys hcm)] at e2
  cases e1
  cases e2
  have r1 := hi₁.ready hcm e3
  have r2 := hi₂.ready hcm e4
  obtain ⟨n, hcr⟩ := r1.cr
  rw [← comm_rel hab', hcr, Res.ok_bind, Res.ok_bind]
  dsimp only
  obtain ⟨hs1, hs2⟩ := search_same hi₁ hcm r1.lists (hab'.lists.trans r1.lists) (k := .send) (r1.recs _) (r2.recs _) tag
  have hs1 : AP_list_search_func a'.lists (lst₁ c .recv) (mpi_match_recv a' tag) =
    AP_list_search_func b'.lists (lst₁ c .recv) (mpi_match_recv b' tag) := hs1
  rw [← hs1]
  refine Rel.bind_same fun f hf => ?_
  cases f with
  | none => exact (sendQueued_rel hab' _ _ _ _).bind fun _ _ _ _ h => ⟨h, rfl⟩
  | some x =>
    obtain ⟨o, ho, hx⟩ := hs2 x hf
    exact (sendMatched_rel hab' (r1.recs _) (r2.recs _) ho hx _ _ _ _ _ _).bind fun _ _ _ _ h => ⟨h, rfl⟩

theorem irecv_rel {M₁ M₂ : AbsLists Loc} {lst₁ lst₂ : Nat → Kind → Nat} (hi₁ : Inv s₁ L M₁ lst₁) (hi₂ : Inv s₂ L M₂ lst₂)
    (h : Agree s₁ s₂) {src comm : Int} (hc : IsComm L comm ∨ src = MPI_PROC_NULL) (buf count dtype tag : Int) :
    (MPI_Irecv env s₁ buf count dtype src tag comm).Rel AgreeR (MPI_Irecv (env.withJunk j) s₂ buf count dtype src tag comm) := by
  unfold MPI_Irecv
  refine bindR (ptr_rel h comm) fun a b p e1 e2 hab => ?_
  dsimp only
  refine Rel.ite (fun _ => rfl) fun hd => ?_
  refine bindR (allocReq_rel hab) fun a' b' x e3 e4 hab' => ?_
  obtain ⟨req, l⟩ := x
  dsimp only
  refine (modReq_rel hab' _ _ _).bind fun a'' b'' e5 e6 hab'' => ?_
  refine Rel.ite (fun _ => (modReq_rel hab'' _ _ _).bind fun _ _ _ _ h => ⟨h, rfl⟩) fun hn => ?_
  obtain ⟨c, hcm⟩ := hc.resolve_right hn
  rw [Sys.ptr_live hi₁.hst (mem_keys hcm)] at e1
  rw [Sys.ptr_live hi₂.hst (mem_keys hcm)] at e2
  cases e1
  cases e2
  have r1 := (hi₁.ready hcm e3).mod e5
  have r2 := (hi₂.ready hcm e4).mod e6
  obtain ⟨n, hcr⟩ := r1.cr
  rw [← comm_rel hab'', hcr, Res.ok_bind, Res.ok_bind]
  dsimp only
  obtain ⟨hs1, hs2⟩ := search_same hi₁ hcm r1.lists (hab''.lists.trans r1.lists) (k := .recv) (r1.recs _) (r2.recs _) tag
  have hs1 : AP_list_search_func a''.lists (lst₁ c .send) (mpi_match_send a'' tag) =
    AP_list_search_func b''.lists (lst₁ c .send) (mpi_match_send b'' tag) := hs1
  rw [← hs1]
  refine Rel.bind_same fun f hf => ?_
  cases f with
  | none => exact (recvQueued_rel hab'' _ _ _ _).bind fun _ _ _ _ h => ⟨h, rfl⟩
  | some x =>
    obtain ⟨o, ho, hx⟩ := hs2 x hf
    exact (recvMatched_rel hab'' (r1.recs _) (r2.recs _) ho hx _ _ _ _ _).bind fun _ _ _ _ h => ⟨h, rfl⟩

/-! ## Two runs with the same account -/

/-- Two histories with the same account whose states differ in leftovers only. -/
structure Both (env : Env) (j : Nat → ReqRec) (L : Ledger) (s₁ s₂ : Sys) : Prop where
  r₁ : Reach env s₁ L
  r₂ : Reach (env.withJunk j) s₂ L
  ag : Agree s₁ s₂

/-- At most `a` communicators and `b` unmatched operations more. -/
def Grow (a b : Nat) (L L' : Ledger) : Prop := L'.ncomms ≤ L.ncomms + a ∧ L'.unmatched ≤ L.unmatched + b

theorem Grow.refl (a b : Nat) (L : Ledger) : Grow a b L L := ⟨Nat.le_add_right _ _, Nat.le_add_right _ _⟩

theorem Grow.release (a b : Nat) (L : Ledger) (h : Int) : Grow a b L (L.release h) := .refl a b L

/-- No new requests. -/
def Olds (L L' : Ledger) : Prop := ∀ h i, (h, Obj.req i) ∈ L'.objs → (h, Obj.req i) ∈ L.objs

theorem Olds.refl (L : Ledger) : Olds L L := fun _ _ h => h

theorem Olds.release (L : Ledger) (h : Int) : Olds L (L.release h) := fun _ _ hm => (mem_release.1 hm).1

/-- Both runs go on in the same way. -/
def TwinN (a b : Nat) (env : Env) (j : Nat → ReqRec) (L : Ledger) (s₁ s₂ s₁' s₂' : Sys) : Prop :=
  ∃ L', Steps env s₁ L s₁' L' ∧ Steps (env.withJunk j) s₂ L s₂' L' ∧ Agree s₁' s₂' ∧ Grow a b L L' ∧ Olds L L'

/-- One call makes at most one communicator and posts at most two operations. -/
abbrev Twin := TwinN 1 2

theorem TwinN.refl {a b : Nat} (h : Agree s₁ s₂) : TwinN a b env j L s₁ s₂ s₁ s₂ := ⟨L, .refl, .refl, h, .refl _ _ _, .refl _⟩

theorem TwinN.twin (h : TwinN 0 0 env j L s₁ s₂ s₁' s₂') : Twin env j L s₁ s₂ s₁' s₂' := by
  obtain ⟨L', h1, h2, h3, ⟨h4, h5⟩, h6⟩ := h
  exact ⟨L', h1, h2, h3, ⟨by omega, by omega⟩, h6⟩

/-- Postcondition of MPI_Isend and MPI_Irecv. -/
structure PostedT (env : Env) (j : Nat → ReqRec) (s₁ s₂ : Sys) (L : Ledger) (k : Kind) (x y : Sys × Int) (L' : Ledger) : Prop where
  e₁ : Steps env s₁ L x.1 L'
  e₂ : Steps (env.withJunk j) s₂ L y.1 L'
  ag : Agree x.1 y.1
  val : x.2 = y.2
  live : ∃ i o, (x.2, Obj.req i) ∈ L'.objs ∧ L'.ops[i]? = some o ∧ o.kind = k
  fresh : x.2 ∉ L.objs.map Prod.fst
  news : ∀ h i, (h, Obj.req i) ∈ L'.objs → h = x.2 ∨ (h, Obj.req i) ∈ L.objs
  keeps : ∀ z ∈ L.objs, z ∈ L'.objs
  kinds : ∀ (i : Nat) o, L.ops[i]? = some o → ∃ o', L'.ops[i]? = some o' ∧ o'.kind = o.kind
  room : Grow 0 1 L L'

theorem post_twin (hp : Both env j L s₁ s₂) {k : Kind} {c : Nat} {tag buf count dtype : Int} {x y : Res (Sys × Int)}
    (h : x.Rel AgreeR y)
    (h1 : ∀ s' h, x = .ok (s', h) → Step env s₁ L s' (L.post k c tag buf count dtype h))
    (h2 : ∀ s' h, y = .ok (s', h) → Step (env.withJunk j) s₂ L s' (L.post k c tag buf count dtype h)) :
    x.Rel (fun a b => ∃ L', PostedT env j s₁ s₂ L k a b L') y := by
  refine h.mono fun ⟨a, h⟩ ⟨b, h'⟩ e1 e2 hab => ?_
  obtain ⟨hab, rfl⟩ : Agree a b ∧ h = h' := hab
  have t1 := h1 _ _ e1
  have hn := (hp.r₁.step t1).nodup
  rw [post_objs, List.map_cons, List.nodup_cons] at hn
  refine ⟨_, .one t1, .one (h2 _ _ e2), hab, rfl, ⟨L.ops.length, _, by rw [post_objs]; simp, post_new _ _ _ _ _ _ _, rfl⟩,
    hn.1, fun h' i hm => ?_, fun z hz => by rw [post_objs]; exact List.mem_cons_of_mem _ hz, fun i o ho => ?_, ?_, unmatched_post_le⟩
  · rw [post_objs] at hm
    rcases List.mem_cons.1 hm with hm | hm
    · cases hm; exact Or.inl rfl
    · exact Or.inr hm
  rotate_left
  · unfold Ledger.post
    dsimp only
    split <;> exact Nat.le_refl _
  refine ⟨_, post_old k c tag buf count dtype h ho, ?_⟩
  split <;> rfl

theorem postNull_twin (hp : Both env j L s₁ s₂) {k : Kind} {tag buf count dtype : Int} {x y : Res (Sys × Int)}
    (h : x.Rel AgreeR y)
    (h1 : ∀ s' h, x = .ok (s', h) → Step env s₁ L s' (L.postNull k tag buf count dtype h))
    (h2 : ∀ s' h, y = .ok (s', h) → Step (env.withJunk j) s₂ L s' (L.postNull k tag buf count dtype h)) :
    x.Rel (fun a b => ∃ L', PostedT env j s₁ s₂ L k a b L') y := by
  refine h.mono fun ⟨a, h⟩ ⟨b, h'⟩ e1 e2 hab => ?_
  obtain ⟨hab, rfl⟩ : Agree a b ∧ h = h' := hab
  have t1 := h1 _ _ e1
  have hn := (hp.r₁.step t1).nodup
  rw [Ledger.postNull, List.map_cons, List.nodup_cons] at hn
  refine ⟨_, .one t1, .one (h2 _ _ e2), hab, rfl, ⟨L.ops.length, _, by simp [Ledger.postNull], by simp [Ledger.postNull]; rfl, rfl⟩,
    hn.1, fun h' i hm => ?_, fun z hz => List.mem_cons_of_mem _ hz, fun i o ho => ⟨o, postNull_old _ _ _ _ _ _ ho, rfl⟩, Nat.le_refl _, ?_⟩
  · rcases List.mem_cons.1 hm with hm | hm
    · cases hm; exact Or.inl rfl
    · exact Or.inr hm
  simp [Ledger.unmatched, Ledger.postNull, List.countP_append]

theorem isend_twin (hp : Both env j L s₁ s₂) (buf count : Int) {dtype dest : Int} (tag : Int) {comm : Int}
    (ha : P2PArgs env L dtype dest comm) (hu : L.unmatched < 2147483647) :
    (MPI_Isend env s₁ buf count dtype dest tag comm).Rel (fun x y => ∃ L', PostedT env j s₁ s₂ L .send x y L')
      (MPI_Isend (env.withJunk j) s₂ buf count dtype dest tag comm) := by
  obtain ⟨M₁, lst₁, hi₁⟩ := hp.r₁.inv
  obtain ⟨M₂, lst₂, hi₂⟩ := hp.r₂.inv
  have hrel := isend_rel (env := env) (j := j) hi₁ hi₂ hp.ag (dest := dest) (ha.2.imp id (·.2)) buf count dtype tag
  by_cases h2 : dest = MPI_PROC_NULL
  · subst h2
    have hc : comm = MPI_COMM_NULL ∨ ∃ c, (comm, Obj.comm c) ∈ L.objs := ha.2.symm.imp (·.1) id
    exact postNull_twin hp hrel (fun s' h hok => .isendNull hc hok) fun s' h hok => .isendNull hc hok
  · obtain ⟨c, hcm⟩ := ha.2.resolve_right fun h => h2 h.2
    by_cases h0 : dest = 0
    · subst h0
      exact post_twin hp hrel (fun s' h hok => .isend hcm hu hok) fun s' h hok => .isend hcm hu hok
    · unfold MPI_Isend
      rw [Sys.ptr_live hi₁.hst (mem_keys hcm), Sys.ptr_live hi₂.hst (mem_keys hcm), Res.ok_bind, Res.ok_bind]
      dsimp only
      rw [if_pos ⟨h0, h2⟩, if_pos ⟨h0, h2⟩]
      rfl

theorem irecv_twin (hp : Both env j L s₁ s₂) (buf count : Int) {dtype src : Int} (tag : Int) {comm : Int}
    (ha : P2PArgs env L dtype src comm) (hu : L.unmatched < 2147483647) :
    (MPI_Irecv env s₁ buf count dtype src tag comm).Rel (fun x y => ∃ L', PostedT env j s₁ s₂ L .recv x y L')
      (MPI_Irecv (env.withJunk j) s₂ buf count dtype src tag comm) := by
  obtain ⟨M₁, lst₁, hi₁⟩ := hp.r₁.inv
  obtain ⟨M₂, lst₂, hi₂⟩ := hp.r₂.inv
  have hrel := irecv_rel (env := env) (j := j) hi₁ hi₂ hp.ag (src := src) (ha.2.imp id (·.2)) buf count dtype tag
  by_cases h2 : src = MPI_PROC_NULL
  · subst h2
    have hc : comm = MPI_COMM_NULL ∨ ∃ c, (comm, Obj.comm c) ∈ L.objs := ha.2.symm.imp (·.1) id
    exact postNull_twin hp hrel (fun s' h hok => .irecvNull hc hok) fun s' h hok => .irecvNull hc hok
  · obtain ⟨c, hcm⟩ := ha.2.resolve_right fun h => h2 h.2
    exact post_twin hp hrel (fun s' h hok => .irecv hcm hu h2 hok) fun s' h hok => .irecv hcm hu h2 hok

/-! ## Completion -/

/-- Statuses that agree in what completion calls do not write, and, if `b`, in everything. -/
def StSame (b : Prop) : StPtr → StPtr → Prop
  | .null, .null => True
  | .bad, .bad => True
  | .obj x, .obj y => x.MPI_ERROR = y.MPI_ERROR ∧ x.get_count = y.get_count ∧ (b → x = y)
  | _, _ => False

theorem StSame.refl (b : Prop) (p : StPtr) : StSame b p p := by
  cases p <;> simp [StSame]

theorem StSame.kept {b : Prop} {p q : StPtr} (h : StSame b p q) : p.kept = q.kept := by
  cases p <;> cases q <;> simp only [StSame] at h <;> try exact h.elim
  · rfl
  · simp only [StPtr.kept]; rw [h.1, h.2.1]
  · rfl

theorem StSame.eq {b : Prop} {p q : StPtr} (h : StSame b p q) (hb : b) : p = q := by
  cases p <;> cases q <;> simp only [StSame] at h <;> try exact h.elim
  · rfl
  · rw [h.2.2 hb]
  · rfl

theorem put_rel {b : Prop} {p q : StPtr} (h : StSame b p q) {src tag src' tag' : Int} (he : b → src = src' ∧ tag = tag') :
    (p.put src tag).Rel (StSame b) (q.put src' tag') := by
  cases p <;> cases q <;> simp only [StSame] at h <;> try exact h.elim
  · exact trivial
  · refine ⟨h.1, h.2.1, fun hb => ?_⟩
    rw [h.2.2 hb, (he hb).1, (he hb).2]
  · exact rfl

/-- Postcondition of MPI_Test. -/
structure TestedT (env : Env) (j : Nat → ReqRec) (s₁ s₂ : Sys) (L : Ledger) (b : Prop) (h : Int) (x y : TestRes) (L' : Ledger) : Prop where
  e₁ : Steps env s₁ L x.sys L'
  e₂ : Steps (env.withJunk j) s₂ L y.sys L'
  ag : Agree x.sys y.sys
  request : x.request = y.request
  flag : x.flag = y.flag
  status : StSame b x.status y.status
  ledger : L' = L ∨ (L' = L.release h ∧ h ≠ 0)
  gone : x.flag ≠ 0 → h ≠ 0 → L' = L.release h

/-- The request `h` is null or belongs to a receive. -/
def IsRecv (L : Ledger) (h : Int) : Prop := ∀ i o, (h, Obj.req i) ∈ L.objs → L.ops[i]? = some o → o.kind = .recv

theorem RecOk.same {ops : List Op} {o : Op} {r r' : ReqRec} (h1 : RecOk ops o r) (h2 : RecOk ops o r') :
    r.complete = r'.complete ∧ (r.complete ≠ 0 → o.kind = .recv → r.source = r'.source ∧ r.tag = r'.tag) := by
  unfold RecOk at h1 h2
  cases hs : o.st with
  | pending =>
    rw [hs] at h1 h2
    exact ⟨h1.1.trans h2.1.symm, fun h => absurd h1.1 h⟩
  | null =>
    rw [hs] at h1 h2
    exact ⟨h1.1.trans h2.1.symm, fun _ hk => ⟨(h1.2 hk).1.trans (h2.2 hk).1.symm, (h1.2 hk).2.trans (h2.2 hk).2.symm⟩⟩
  | matched i =>
    rw [hs] at h1 h2
    refine ⟨h1.1.trans h2.1.symm, fun _ hk => ⟨(h1.2 hk).1.trans (h2.2 hk).1.symm, ?_⟩⟩
    obtain ⟨p, hp, ht⟩ := (h1.2 hk).2
    obtain ⟨p', hp', ht'⟩ := (h2.2 hk).2
    rw [hp] at hp'
    cases hp'
    exact ht.trans ht'.symm

theorem test_rel (hp : Both env j L s₁ s₂) {h : Int} (hh : h = MPI_REQUEST_NULL ∨ ∃ i, (h, Obj.req i) ∈ L.objs)
    {b : Prop} (hb : b → IsRecv L h) {p q : StPtr} (hst : StSame b p q) :
    (MPI_Test s₁ h p).Rel (fun x y => Agree x.sys y.sys ∧ x.request = y.request ∧ x.flag = y.flag ∧ StSame b x.status y.status ∧
        (h = 0 → x.sys = s₁ ∧ y.sys = s₂)) (MPI_Test s₂ h q) := by
  obtain ⟨M₁, lst₁, hi₁⟩ := hp.r₁.inv
  obtain ⟨M₂, lst₂, hi₂⟩ := hp.r₂.inv
  unfold MPI_Test
  refine Rel.ite (fun h0 => (put_rel hst fun _ => ⟨rfl, rfl⟩).bind fun _ _ _ _ h => ⟨hp.ag, rfl, rfl, h, fun _ => ⟨rfl, rfl⟩⟩) fun h0 => ?_
  obtain ⟨i, hm⟩ := hh.resolve_left h0
  rw [Sys.ptr_live hi₁.hst (mem_keys hm), Sys.ptr_live hi₂.hst (mem_keys hm), Res.ok_bind, Res.ok_bind]
  dsimp only
  obtain ⟨o, r, a1, _, a2, a3⟩ := hi₁.req _ _ hm
  obtain ⟨o', r', b1, _, b2, b3⟩ := hi₂.req _ _ hm
  rw [a1] at b1
  cases b1
  rw [Sys.req_live hi₁.hst (mem_keys hm) a2, Sys.req_live hi₂.hst (mem_keys hm) b2, Res.ok_bind, Res.ok_bind]
  obtain ⟨c1, c2⟩ := a3.same b3
  rw [← c1]
  refine Rel.ite (fun hc => ?_) fun hc => ⟨hp.ag, rfl, rfl, hst, fun h => absurd h h0⟩
  refine (put_rel hst fun hb' => c2 hc (hb hb' _ _ hm a1)).bind fun _ _ _ _ h2 => ?_
  refine (hp.ag.tab.free h).bind fun t u _ _ htu => ?_
  refine ⟨?_, rfl, rfl, h2, fun h => absurd h h0⟩
  obtain ⟨v, rfl, _⟩ := hp.ag.out
  exact .mk' htu

theorem test_twin (hp : Both env j L s₁ s₂) {h : Int} (hh : h = MPI_REQUEST_NULL ∨ ∃ i, (h, Obj.req i) ∈ L.objs)
    {b : Prop} (hb : b → IsRecv L h) {p q : StPtr} (hst : StSame b p q) :
    (MPI_Test s₁ h p).Rel (fun x y => ∃ L', TestedT env j s₁ s₂ L b h x y L') (MPI_Test s₂ h q) := by
  refine (test_rel hp hh hb hst).mono fun x y e1 e2 ⟨h1, h2, h3, h4, h5⟩ => ?_
  by_cases h0 : h = 0
  · obtain ⟨h6, h7⟩ := h5 h0
    exact ⟨L, h6 ▸ .refl, h7 ▸ .refl, h1, h2, h3, h4, Or.inl rfl, fun _ h => absurd h0 h⟩
  · obtain ⟨i, hm⟩ := hh.resolve_left h0
    have t1 := Step.test (env := env) hm e1
    have t2 := Step.test (env := env.withJunk j) hm e2
    rw [← h3] at t2
    refine ⟨_, .one t1, .one t2, h1, h2, h3, h4, ?_, fun hf _ => if_neg hf⟩
    split
    · exact Or.inl rfl
    · exact Or.inr ⟨rfl, h0⟩

/-- Postcondition of MPI_Wait. -/
structure WaitedT (env : Env) (j : Nat → ReqRec) (s₁ s₂ : Sys) (L : Ledger) (b : Prop) (h : Int) (x y : Sys × Int × StPtr) (L' : Ledger) :
    Prop where
  e₁ : Steps env s₁ L x.1 L'
  e₂ : Steps (env.withJunk j) s₂ L y.1 L'
  ag : Agree x.1 y.1
  request : x.2.1 = y.2.1
  status : StSame b x.2.2 y.2.2
  ledger : L' = L ∨ (L' = L.release h ∧ h ≠ 0)
  gone : h ≠ 0 → L' = L.release h

theorem wait_twin (hp : Both env j L s₁ s₂) {h : Int} (hh : h = MPI_REQUEST_NULL ∨ ∃ i, (h, Obj.req i) ∈ L.objs)
    {b : Prop} (hb : b → IsRecv L h) {p q : StPtr} (hst : StSame b p q) :
    (MPI_Wait s₁ h p).Rel (fun x y => ∃ L', WaitedT env j s₁ s₂ L b h x y L') (MPI_Wait s₂ h q) := by
  unfold MPI_Wait
  refine (test_twin hp hh hb hst).bind fun x y _ _ ⟨L', ht⟩ => ?_
  rw [← ht.flag]
  exact Rel.ite (fun _ => rfl) fun hf => ⟨L', ht.e₁, ht.e₂, ht.ag, ht.request, ht.status, ht.ledger, ht.gone hf⟩

/-! ## Blocking operations -/

/-- Both runs go on, and everything that was live is. -/
structure Kept (env : Env) (j : Nat → ReqRec) (s₁ s₂ : Sys) (L : Ledger) (s₁' s₂' : Sys) (L' : Ledger) : Prop where
  e₁ : Steps env s₁ L s₁' L'
  e₂ : Steps (env.withJunk j) s₂ L s₂' L'
  ag : Agree s₁' s₂'
  keeps : ∀ z ∈ L.objs, z ∈ L'.objs
  kinds : ∀ (i : Nat) o, L.ops[i]? = some o → ∃ o', L'.ops[i]? = some o' ∧ o'.kind = o.kind
  room : Grow 0 1 L L'
  olds : Olds L L'

theorem PostedT.nonzero {k : Kind} {x y : Sys × Int} (hp : Both env j L s₁ s₂) (h : PostedT env j s₁ s₂ L k x y L') : x.2 ≠ 0 := by
  obtain ⟨i, o, h1, _⟩ := h.live
  obtain ⟨M, lst, hi⟩ := (hp.r₁.steps h.e₁).inv
  have := hi.hst.pos (mem_keys h1)
  omega

theorem PostedT.both {k : Kind} {x y : Sys × Int} (hp : Both env j L s₁ s₂) (h : PostedT env j s₁ s₂ L k x y L') :
    Both env j L' x.1 y.1 := ⟨hp.r₁.steps h.e₁, hp.r₂.steps h.e₂, h.ag⟩

theorem PostedT.isRecv {x y : Sys × Int} (hp : Both env j L s₁ s₂) (h : PostedT env j s₁ s₂ L .recv x y L') : IsRecv L' x.2 := by
  obtain ⟨i, o, h1, h2, h3⟩ := h.live
  intro i' o' h4 h5
  have := nodup_fst_unique (h.both hp).r₁.nodup h1 h4
  cases this
  rw [h2] at h5
  cases h5
  exact h3

theorem PostedT.wait {k : Kind} {x y : Sys × Int} (hp : Both env j L s₁ s₂) (h : PostedT env j s₁ s₂ L k x y L') {b : Prop}
    (hb : b → k = .recv) (st : StPtr) :
    (MPI_Wait x.1 x.2 st).Rel (fun u v => ∃ L'', Kept env j s₁ s₂ L u.1 v.1 L'' ∧ StSame b u.2.2 v.2.2) (MPI_Wait y.1 y.2 st) := by
  have hl : ∃ i, (x.2, Obj.req i) ∈ L'.objs := by obtain ⟨i, o, h1, _⟩ := h.live; exact ⟨i, h1⟩
  rw [← h.val]
  refine (wait_twin (b := b) (h.both hp) (Or.inr hl) (fun hb' => ?_) (StSame.refl b st)).mono fun u v _ _ ⟨L'', hw⟩ => ?_
  · have := hb hb'
    subst this
    exact h.isRecv hp
  · refine ⟨L'', ⟨h.e₁.trans hw.e₁, h.e₂.trans hw.e₂, hw.ag, fun z hz => ?_, fun i o ho => ?_, ?_, fun h' i hm => ?_⟩, hw.status⟩
    · rcases hw.ledger with rfl | ⟨rfl, _⟩
      · exact h.keeps z hz
      · obtain ⟨a, c⟩ := z
        exact mem_release.2 ⟨h.keeps _ hz, fun he => h.fresh (he ▸ mem_keys hz)⟩
    · rcases hw.ledger with rfl | ⟨rfl, _⟩
      · exact h.kinds i o ho
      · exact h.kinds i o ho
    · rcases hw.ledger with rfl | ⟨rfl, _⟩
      · exact h.room
      · exact h.room
    · rw [hw.gone (h.nonzero hp)] at hm
      obtain ⟨h1, h2⟩ := mem_release.1 hm
      exact (h.news _ _ h1).resolve_left h2

theorem send_twin (hp : Both env j L s₁ s₂) (buf count : Int) {dtype dest : Int} (tag : Int) {comm : Int}
    (ha : P2PArgs env L dtype dest comm) (hu : L.unmatched < 2147483647) :
    (MPI_Send env s₁ buf count dtype dest tag comm).Rel (fun x y => ∃ L', Kept env j s₁ s₂ L x y L')
      (MPI_Send (env.withJunk j) s₂ buf count dtype dest tag comm) := by
  unfold MPI_Send
  refine (isend_twin hp buf count tag ha hu).bind fun x y _ _ ⟨L', h⟩ => ?_
  exact (h.wait hp (b := False) (fun h => h.elim) _).bind fun u v _ _ ⟨L'', h, _⟩ => ⟨L'', h⟩

theorem recv_twin (hp : Both env j L s₁ s₂) (buf count : Int) {dtype src : Int} (tag : Int) {comm : Int}
    (ha : P2PArgs env L dtype src comm) (hu : L.unmatched < 2147483647) (st : StPtr) :
    (MPI_Recv env s₁ buf count dtype src tag comm st).Rel (fun x y => (∃ L', Kept env j s₁ s₂ L x.1 y.1 L') ∧ x.2 = y.2)
      (MPI_Recv (env.withJunk j) s₂ buf count dtype src tag comm st) := by
  unfold MPI_Recv
  refine (irecv_twin hp buf count tag ha hu).bind fun x y _ _ ⟨L', h⟩ => ?_
  refine (h.wait hp (b := True) (fun _ => rfl) _).bind fun u v _ _ ⟨L'', h, he⟩ => ?_
  obtain ⟨u1, u2, u3⟩ := u
  obtain ⟨v1, v2, v3⟩ := v
  have := he.eq trivial
  dsimp only at this
  subst this
  dsimp only
  cases u3 with
  | null => exact ⟨⟨L'', h⟩, rfl⟩
  | obj st => exact ⟨⟨L'', h⟩, rfl⟩
  | bad => exact rfl

theorem sendrecv_twin (hp : Both env j L s₁ s₂) (sbuf scount : Int) {stype dest : Int} (stag : Int)
    (rbuf rcount : Int) {rtype src : Int} (rtag : Int) {comm : Int}
    (ha : P2PArgs env L stype dest comm) (hb : P2PArgs env L rtype src comm) (hu : L.unmatched + 1 < 2147483647) (st : StPtr) :
    (MPI_Sendrecv env s₁ sbuf scount stype dest stag rbuf rcount rtype src rtag comm st).Rel
      (fun x y => Twin env j L s₁ s₂ x.1 y.1 ∧ x.2 = y.2)
      (MPI_Sendrecv (env.withJunk j) s₂ sbuf scount stype dest stag rbuf rcount rtype src rtag comm st) := by
  unfold MPI_Sendrecv
  refine (irecv_twin hp rbuf rcount rtag hb (by omega)).bind fun x y _ _ ⟨L1, h⟩ => ?_
  have hp1 := h.both hp
  refine (send_twin hp1 sbuf scount stag (ha.keep hp.r₁.nodup hp1.r₁.nodup h.keeps) (by have := h.room.2; omega)).bind
    fun u v _ _ ⟨L2, h2⟩ => ?_
  have hp2 : Both env j L2 u v := ⟨hp1.r₁.steps h2.e₁, hp1.r₂.steps h2.e₂, h2.ag⟩
  obtain ⟨i, o, h3, h4, h5⟩ := h.live
  have h6 := h2.keeps _ h3
  obtain ⟨o', h7, h8⟩ := h2.kinds i o h4
  dsimp only
  rw [← h.val]
  refine (wait_twin (b := True) hp2 (Or.inr ⟨i, h6⟩) (fun _ i' o'' h9 h10 => ?_) (StSame.refl _ st)).bind fun a b _ _ ⟨L3, hw⟩ => ?_
  · have := nodup_fst_unique hp2.r₁.nodup h6 h9
    cases this
    rw [h7] at h10
    cases h10
    rw [h8, h5]
  · refine ⟨⟨L3, (h.e₁.trans h2.e₁).trans hw.e₁, (h.e₂.trans h2.e₂).trans hw.e₂, hw.ag, ?_⟩, hw.status.eq trivial⟩
    obtain ⟨g1, g2⟩ := h.room
    obtain ⟨g3, g4⟩ := h2.room
    have g : L3.ncomms = L2.ncomms ∧ L3.unmatched = L2.unmatched := by
      rcases hw.ledger with rfl | ⟨rfl, _⟩
      · exact ⟨rfl, rfl⟩
      · exact ⟨rfl, rfl⟩
    refine ⟨by constructor <;> omega, fun h' i' hm => ?_⟩
    rw [hw.gone (h.nonzero hp)] at hm
    obtain ⟨h9, h10⟩ := mem_release.1 hm
    exact (h.news _ _ (h2.olds _ _ h9)).resolve_left h10

theorem irsend_twin (hp : Both env j L s₁ s₂) (buf count : Int) {dtype dest : Int} (tag : Int) {comm : Int}
    (ha : P2PArgs env L dtype dest comm) (hu : L.unmatched < 2147483647) :
    (MPI_Irsend env s₁ buf count dtype dest tag comm).Rel (fun x y => ∃ L', PostedT env j s₁ s₂ L .send x y L')
      (MPI_Irsend (env.withJunk j) s₂ buf count dtype dest tag comm) := by
  unfold MPI_Irsend
  refine (isend_twin hp buf count tag ha hu).bind fun x y _ _ ⟨L', h⟩ => ?_
  have hp1 := h.both hp
  obtain ⟨M₁, lst₁, hi₁⟩ := hp1.r₁.inv
  obtain ⟨M₂, lst₂, hi₂⟩ := hp1.r₂.inv
  obtain ⟨i, o, h3, h4, _⟩ := h.live
  obtain ⟨o1, r, a1, _, a2, a3⟩ := hi₁.req _ _ h3
  obtain ⟨o2, r', b1, _, b2, b3⟩ := hi₂.req _ _ h3
  rw [h4] at a1 b1
  cases a1
  cases b1
  have hv := h.val
  dsimp only
  rw [← hv, Sys.ptr_live hi₁.hst (mem_keys h3), Sys.ptr_live hi₂.hst (mem_keys h3), Res.ok_bind, Res.ok_bind]
  dsimp only
  rw [Sys.req_live hi₁.hst (mem_keys h3) a2, Sys.req_live hi₂.hst (mem_keys h3) b2, Res.ok_bind, Res.ok_bind, ← (a3.same b3).1]
  exact Rel.ite (fun _ => rfl) fun _ => ⟨L', h.e₁, h.e₂, h.ag, rfl, h.live, h.fresh, h.news, h.keeps, h.kinds, h.room⟩

theorem iprobe_twin (hp : Both env j L s₁ s₂) {comm : Int} (hc : IsComm L comm) (src tag : Int) (st : StPtr) :
    (MPI_Iprobe s₁ src tag comm st).Rel (fun x y => x.1 = s₁ ∧ y.1 = s₂ ∧ x.2 = y.2) (MPI_Iprobe s₂ src tag comm st) := by
  obtain ⟨M₁, lst₁, hi₁⟩ := hp.r₁.inv
  obtain ⟨M₂, lst₂, hi₂⟩ := hp.r₂.inv
  obtain ⟨c, hcm⟩ := hc
  by_cases hs : src = 0 ∨ src = MPI_ANY_SOURCE
  · rcases iprobe_spec hi₁ hcm hs tag st with ⟨h1, e1⟩ | ⟨i, o, h1, h2, e1⟩ <;>
      rcases iprobe_spec hi₂ hcm hs tag st with ⟨h3, e2⟩ | ⟨i', o', h3, h4, e2⟩ <;> rw [h1] at h3
    · rw [e1, e2]; exact ⟨rfl, rfl, rfl⟩
    · cases h3
    · cases h3
    · cases h3
      rw [h2] at h4
      cases h4
      rw [e1, e2]
      exact Rel.bind_same fun _ _ => ⟨rfl, rfl, rfl⟩
  · unfold MPI_Iprobe
    rw [Sys.ptr_live hi₁.hst (mem_keys hcm), Sys.ptr_live hi₂.hst (mem_keys hcm), Res.ok_bind, Res.ok_bind]
    dsimp only
    rw [if_pos (by omega), if_pos (by omega)]
    rfl

/-! ## Arrays of requests -/

/-- Element by element. -/
def ArrSame (b : Prop) : StArr → StArr → Prop
  | none, none => True
  | some l, some m => l.length = m.length ∧ ∀ (i : Nat) x y, l[i]? = some x → m[i]? = some y → StSame b (.obj x) (.obj y)
  | _, _ => False

theorem ArrSame.refl (b : Prop) (a : StArr) : ArrSame b a a := by
  cases a with
  | none => trivial
  | some l =>
    refine ⟨rfl, fun i x y h1 h2 => ?_⟩
    rw [h1] at h2
    cases h2
    exact .refl _ _

theorem ArrSame.at {b : Prop} {a c : StArr} (h : ArrSame b a c) (i : Nat) : (StArr.at a i).Rel (StSame b) (StArr.at c i) := by
  cases a <;> cases c <;> simp only [ArrSame] at h <;> try exact h.elim
  · unfold StArr.at
    exact Rel.ite (fun _ => trivial) fun _ => trivial
  · next l m =>
    unfold StArr.at rd
    dsimp only
    cases h1 : l[i]? with
    | none =>
      have h2 : m[i]? = none := by
        rw [List.getElem?_eq_none_iff] at h1 ⊢
        omega
      rw [h2]
      rfl
    | some x =>
      cases h2 : m[i]? with
      | none =>
        rw [List.getElem?_eq_none_iff] at h2
        rw [List.getElem?_eq_none (by omega)] at h1
        cases h1
      | some y => exact h.2 i x y h1 h2

theorem ArrSame.upd {b : Prop} {a c : StArr} (h : ArrSame b a c) (i : Nat) {p q : StPtr} (hpq : StSame b p q) :
    ArrSame b (StArr.upd a i p) (StArr.upd c i q) := by
  cases a <;> cases c <;> simp only [ArrSame] at h <;> try exact h.elim
  · cases p <;> cases q <;> simp only [StSame] at hpq <;> first | exact hpq.elim | trivial
  · cases p <;> cases q <;> simp only [StSame] at hpq <;> try exact hpq.elim
    · exact h
    · refine ⟨by simp [h.1], fun n x y h1 h2 => ?_⟩
      rw [List.getElem?_set] at h1 h2
      split at h1
      · next hn =>
        rw [if_pos hn] at h2
        split at h1
        · split at h2
          · cases h1; cases h2; exact hpq
          · cases h2
        · cases h1
      · next hn =>
        rw [if_neg hn] at h2
        exact h.2 n x y h1 h2
    · exact h

theorem ArrSame.kept {b : Prop} {a c : StArr} (h : ArrSame b a c) : a.ptrs.flatMap StPtr.kept = c.ptrs.flatMap StPtr.kept := by
  cases a <;> cases c <;> simp only [ArrSame] at h <;> try exact h.elim
  · rfl
  · next l m =>
    obtain ⟨h1, h2⟩ := h
    unfold StArr.ptrs
    simp only [Option.getD_some, List.flatMap_map]
    induction l generalizing m with
    | nil =>
      cases m with
      | nil => rfl
      | cons y m => simp at h1
    | cons x l ih =>
      cases m with
      | nil => simp at h1
      | cons y m =>
        rw [List.flatMap_cons, List.flatMap_cons, ih m (by simpa using h1) fun i u v hu hv => h2 (i + 1) u v (by simpa using hu) (by simpa using hv)]
        rw [(h2 0 x y rfl rfl).kept]

theorem ArrSame.eq {b : Prop} {a c : StArr} (h : ArrSame b a c) (hb : b) : a = c := by
  cases a <;> cases c <;> simp only [ArrSame] at h <;> try exact h.elim
  · rfl
  · next l m =>
    congr 1
    refine List.ext_getElem? fun i => ?_
    cases h1 : l[i]? with
    | none =>
      rw [List.getElem?_eq_none_iff] at h1
      rw [List.getElem?_eq_none (by omega)]
    | some x =>
      cases h2 : m[i]? with
      | none =>
        rw [List.getElem?_eq_none_iff] at h2
        rw [List.getElem?_eq_none (by omega)] at h1
        cases h1
      | some y =>
        have := (h.2 i x y h1 h2).eq hb
        cases this
        rfl

/-- One iteration of the loops. -/
theorem test_next_twin (hp : Both env j L s₁ s₂) {h : Int} {hs : List Int} (hw : WfReqs L (h :: hs)) {b : Prop}
    (hb : b → ∀ x ∈ h :: hs, IsRecv L x) {p q : StPtr} (hst : StSame b p q) :
    (MPI_Test s₁ h p).Rel (fun x y => ∃ L', TestedT env j s₁ s₂ L b h x y L' ∧ WfReqs L' hs ∧ (b → ∀ x ∈ hs, IsRecv L' x))
      (MPI_Test s₂ h q) := by
  refine (test_twin hp hw.head (fun hb' => hb hb' _ List.mem_cons_self) hst).mono fun x y _ _ ⟨L', ht⟩ => ⟨L', ht, ?_⟩
  rcases ht.ledger with rfl | ⟨rfl, h0⟩
  · exact ⟨hw.2, fun hb' x hx => hb hb' x (List.mem_cons_of_mem _ hx)⟩
  · refine ⟨hw.2.release fun _ => ?_, fun hb' x hx i o h1 h2 => hb hb' x (List.mem_cons_of_mem _ hx) i o (mem_release.1 h1).1 h2⟩
    rcases hw.1 with h1 | h1
    · exact absurd h1 h0
    · exact h1.2

theorem TestedT.grow {b : Prop} {h : Int} {u v : TestRes} (ht : TestedT env j s₁ s₂ L b h u v L') : L'.ncomms = L.ncomms ∧ L'.unmatched = L.unmatched := by
  rcases ht.ledger with rfl | ⟨rfl, _⟩
  · exact ⟨rfl, rfl⟩
  · exact ⟨rfl, rfl⟩

theorem TestedT.olds {b : Prop} {h : Int} {u v : TestRes} (ht : TestedT env j s₁ s₂ L b h u v L') : Olds L L' := by
  rcases ht.ledger with rfl | ⟨rfl, _⟩
  · exact .refl _
  · exact .release _ _

theorem TestedT.twin {b : Prop} {h : Int} {u v : TestRes} (ht : TestedT env j s₁ s₂ L b h u v L') :
    TwinN 0 0 env j L s₁ s₂ u.sys v.sys :=
  ⟨L', ht.e₁, ht.e₂, ht.ag, ⟨Nat.le_of_eq ht.grow.1, Nat.le_of_eq ht.grow.2⟩, ht.olds⟩

theorem TestedT.trans {b : Prop} {h : Int} {u v : TestRes} {s₁' s₂' : Sys} (ht : TestedT env j s₁ s₂ L b h u v L')
    (h2 : TwinN 0 0 env j L' u.sys v.sys s₁' s₂') : TwinN 0 0 env j L s₁ s₂ s₁' s₂' := by
  obtain ⟨L'', h1, h2, h3, h4, h5⟩ := h2
  unfold Grow at h4
  rw [ht.grow.1, ht.grow.2] at h4
  exact ⟨L'', ht.e₁.trans h1, ht.e₂.trans h2, h3, h4, fun h i hm => ht.olds h i (h5 h i hm)⟩

theorem testanyLoop_twin : ∀ (hs pre : List Int) (s₁ s₂ : Sys) (L : Ledger) (b : Prop) (p q : StPtr), Both env j L s₁ s₂ → WfReqs L hs →
    (b → ∀ x ∈ hs, IsRecv L x) → StSame b p q →
    (testanyLoop hs.length pre.length s₁ (pre ++ hs) p).Rel
      (fun x y => TwinN 0 0 env j L s₁ s₂ x.1 y.1 ∧ x.2.1 = y.2.1 ∧ x.2.2.1 = y.2.2.1 ∧ StSame b x.2.2.2 y.2.2.2)
      (testanyLoop hs.length pre.length s₂ (pre ++ hs) q) := by
  intro hs
  induction hs with
  | nil => intro pre s₁ s₂ L b p q hp _ _ hst; exact ⟨.refl hp.ag, rfl, rfl, hst⟩
  | cons h hs ih =>
    intro pre s₁ s₂ L b p q hp hw hb hst
    rw [List.length_cons, testanyLoop, testanyLoop, rd_mid, Res.ok_bind, Res.ok_bind]
    refine (test_next_twin hp hw hb hst).bind fun x y _ _ ⟨L', ht, hw', hb'⟩ => ?_
    rw [← ht.flag, ← ht.request]
    refine Rel.ite (fun _ => ⟨ht.twin, rfl, rfl, ht.status⟩) fun _ => ?_
    rw [set_mid]
    have := ih (pre ++ [x.request]) x.sys y.sys L' b x.status y.status ⟨hp.r₁.steps ht.e₁, hp.r₂.steps ht.e₂, ht.ag⟩ hw' hb' ht.status
    rw [List.length_append, List.length_singleton] at this
    exact this.mono fun _ _ _ _ ⟨h1, h4⟩ => ⟨ht.trans h1, h4⟩

/-- What the array loops hand back. -/
def ArrT (env : Env) (j : Nat → ReqRec) (s₁ s₂ : Sys) (L : Ledger) (b : Prop) (x y : ArrRes) : Prop :=
  TwinN 0 0 env j L s₁ s₂ x.sys y.sys ∧ x.reqs = y.reqs ∧ ArrSame b x.stats y.stats

theorem ArrT.trans {b : Prop} {h : Int} {u v : TestRes} {x y : ArrRes} (ht : TestedT env j s₁ s₂ L b h u v L')
    (h2 : ArrT env j u.sys v.sys L' b x y) : ArrT env j s₁ s₂ L b x y := ⟨ht.trans h2.1, h2.2⟩

theorem testallLoop_twin : ∀ (hs pre : List Int) (s₁ s₂ : Sys) (L : Ledger) (b : Prop) (p q : StArr) (f : Int), Both env j L s₁ s₂ →
    WfReqs L hs → (b → ∀ x ∈ hs, IsRecv L x) → ArrSame b p q →
    (testallLoop hs.length pre.length s₁ (pre ++ hs) p f).Rel (fun x y => ArrT env j s₁ s₂ L b x.1 y.1 ∧ x.2 = y.2)
      (testallLoop hs.length pre.length s₂ (pre ++ hs) q f) := by
  intro hs
  induction hs with
  | nil => intro pre s₁ s₂ L b p q f hp _ _ hst; exact ⟨⟨.refl hp.ag, rfl, hst⟩, rfl⟩
  | cons h hs ih =>
    intro pre s₁ s₂ L b p q f hp hw hb hst
    rw [List.length_cons, testallLoop, testallLoop, rd_mid, Res.ok_bind, Res.ok_bind]
    refine (hst.at _).bind fun p' q' _ _ hst' => ?_
    refine (test_next_twin hp hw hb hst').bind fun x y _ _ ⟨L', ht, hw', hb'⟩ => ?_
    rw [← ht.flag, ← ht.request, set_mid]
    have := ih (pre ++ [x.request]) x.sys y.sys L' b _ _ (if x.flag = 0 then 0 else f) ⟨hp.r₁.steps ht.e₁, hp.r₂.steps ht.e₂, ht.ag⟩ hw' hb'
      (hst.upd pre.length ht.status)
    rw [List.length_append, List.length_singleton] at this
    exact this.mono fun _ _ _ _ ⟨h1, h2⟩ => ⟨h1.trans ht, h2⟩

theorem testsomeLoop_twin : ∀ (hs pre : List Int) (s₁ s₂ : Sys) (L : Ledger) (b : Prop) (p q : StArr) (f : Int), Both env j L s₁ s₂ →
    WfReqs L hs → (b → ∀ x ∈ hs, IsRecv L x) → ArrSame b p q →
    (testsomeLoop hs.length pre.length s₁ (pre ++ hs) p f).Rel (fun x y => ArrT env j s₁ s₂ L b x.1 y.1 ∧ x.2 = y.2)
      (testsomeLoop hs.length pre.length s₂ (pre ++ hs) q f) := by
  intro hs
  induction hs with
  | nil => intro pre s₁ s₂ L b p q f hp _ _ hst; exact ⟨⟨.refl hp.ag, rfl, hst⟩, rfl⟩
  | cons h hs ih =>
    intro pre s₁ s₂ L b p q f hp hw hb hst
    rw [List.length_cons, testsomeLoop, testsomeLoop, rd_mid, Res.ok_bind, Res.ok_bind]
    refine (hst.at _).bind fun p' q' _ _ hst' => ?_
    refine (test_next_twin hp hw hb hst').bind fun x y _ _ ⟨L', ht, hw', hb'⟩ => ?_
    rw [← ht.flag, ← ht.request, set_mid]
    have := ih (pre ++ [x.request]) x.sys y.sys L' b _ _ (if x.flag = 0 then f else f + 1) ⟨hp.r₁.steps ht.e₁, hp.r₂.steps ht.e₂, ht.ag⟩
      hw' hb' (hst.upd pre.length ht.status)
    rw [List.length_append, List.length_singleton] at this
    exact this.mono fun _ _ _ _ ⟨h1, h2⟩ => ⟨h1.trans ht, h2⟩

theorem waitallLoop_twin : ∀ (hs pre : List Int) (s₁ s₂ : Sys) (L : Ledger) (b : Prop) (p q : StArr), Both env j L s₁ s₂ →
    WfReqs L hs → (b → ∀ x ∈ hs, IsRecv L x) → ArrSame b p q →
    (waitallLoop hs.length pre.length s₁ (pre ++ hs) p).Rel (fun x y => ArrT env j s₁ s₂ L b x y)
      (waitallLoop hs.length pre.length s₂ (pre ++ hs) q) := by
  intro hs
  induction hs with
  | nil => intro pre s₁ s₂ L b p q hp _ _ hst; exact ⟨.refl hp.ag, rfl, hst⟩
  | cons h hs ih =>
    intro pre s₁ s₂ L b p q hp hw hb hst
    rw [List.length_cons, waitallLoop, waitallLoop, rd_mid, Res.ok_bind, Res.ok_bind]
    refine (hst.at _).bind fun p' q' _ _ hst' => ?_
    refine (test_next_twin hp hw hb hst').bind fun x y _ _ ⟨L', ht, hw', hb'⟩ => ?_
    rw [← ht.flag, ← ht.request, set_mid]
    refine Rel.ite (fun _ => rfl) fun _ => ?_
    have := ih (pre ++ [x.request]) x.sys y.sys L' b _ _ ⟨hp.r₁.steps ht.e₁, hp.r₂.steps ht.e₂, ht.ag⟩
      hw' hb' (hst.upd pre.length ht.status)
    rw [List.length_append, List.length_singleton] at this
    exact this.mono fun _ _ _ _ h1 => h1.trans ht

end

end MpiSerial
