import Verif.Proofs.SafeTypes
import Verif.Proofs.Blocking
import Verif.Proofs.Arrays
import Verif.Props.Coll

/-!
# Well-formed calls in a tidy state
-/

set_option linter.unusedSimpArgs false
set_option autoImplicit false

namespace MpiSerial

open Res (Sat)

/-- What well-formed calls maintain: the datatypes of pending receives are live (those of pending sends are not
looked at again, recv.c:81), and every datatype's map lies inside its storage. -/
structure Tidy (env : Env) (L : Ledger) : Prop where
  inflight : ∀ o, InFlight L o → o.kind = .recv → IsType env L o.dtype
  types : ∀ h t, L.desc env.cfg h = some t → t.WF

section
variable {env : Env} {s s' : Sys} {L L' : Ledger} {M : AbsLists Loc} {lst : Nat → Kind → Nat}

theorem simpletypes_wf (cfg : Cfg) : ∀ t ∈ simpletypes cfg, t.WF := by
  intro t ht
  simp only [simpletypes, List.mem_cons, List.not_mem_nil, or_false] at ht
  rcases ht with rfl | rfl | rfl | rfl | rfl | rfl | rfl | rfl | rfl | rfl | rfl | rfl | rfl | rfl | rfl | rfl | rfl | rfl | rfl | rfl | rfl | rfl | rfl | rfl | rfl | rfl | rfl | rfl | rfl | rfl | rfl | rfl | rfl | rfl | rfl | rfl | rfl | rfl | rfl | rfl | rfl | rfl | rfl | rfl | rfl <;>
    exact ⟨by simp [static1, static2], by simp [static1, static2], by simp [static1, static2]⟩

/-- Datatype handles in terms of membership. -/
theorem desc_iff (hn : (L.objs.map Prod.fst).Nodup) {cfg : Cfg} {h : Int} {t : Typestruct} :
    L.desc cfg h = some t ↔
      (h < 0 ∧ (simpletypes cfg)[(-1 - h).toNat]? = some t) ∨ (0 ≤ h ∧ (h, Obj.dtype t) ∈ L.objs) := by
  constructor
  · exact desc_live
  · rintro (⟨h1, h2⟩ | ⟨h1, h2⟩)
    · unfold Ledger.desc; rw [if_pos h1]; exact h2
    · unfold Ledger.desc
      rw [if_neg (by omega)]
      cases hf : L.objs.find? (fun e => decide (e.1 = h)) with
      | none =>
        rw [List.find?_eq_none] at hf
        exact absurd (hf _ h2) (by simp)
      | some x =>
        have h3 := List.mem_of_find?_eq_some hf
        have h4 := List.find?_some hf
        simp only [decide_eq_true_eq] at h4
        obtain ⟨a, b⟩ := x
        simp only at h4
        subst h4
        rw [nodup_fst_unique hn h3 h2]
        rfl

theorem Tidy.start : Tidy env .start where
  inflight := fun o h => by simp [InFlight, Ledger.start] at h
  types := fun h t hd => by
    rcases desc_live hd with ⟨_, h2⟩ | ⟨_, h2⟩
    · exact simpletypes_wf _ _ (List.mem_of_getElem? h2)
    · simp [Ledger.start] at h2

/-- Tidiness after a step that only adds or removes handles and operations as described. -/
theorem Tidy.change (ht : Tidy env L) (hn : (L.objs.map Prod.fst).Nodup) (hn' : (L'.objs.map Prod.fst).Nodup)
    (h1 : ∀ o, InFlight L' o → (InFlight L o ∧ ∀ t, (o.dtype, Obj.dtype t) ∈ L.objs → ∃ t', (o.dtype, Obj.dtype t') ∈ L'.objs) ∨
      IsType env L' o.dtype)
    (h2 : ∀ h t, (h, Obj.dtype t) ∈ L'.objs → t.WF ∨ (h, Obj.dtype t) ∈ L.objs) : Tidy env L' where
  inflight := fun o ho hk => by
    rcases h1 o ho with ⟨h3, h4⟩ | h3
    · obtain ⟨t, hd⟩ := ht.inflight o h3 hk
      rcases (desc_iff hn).1 hd with h5 | ⟨h5, h6⟩
      · exact ⟨t, (desc_iff hn').2 (Or.inl h5)⟩
      · obtain ⟨t', h7⟩ := h4 t h6
        exact ⟨t', (desc_iff hn').2 (Or.inr ⟨h5, h7⟩)⟩
    · exact h3
  types := fun h t hd => by
    rcases desc_live hd with ⟨_, h3⟩ | ⟨h3, h4⟩
    · exact simpletypes_wf _ _ (List.mem_of_getElem? h3)
    · rcases h2 h t h4 with h5 | h5
      · exact h5
      · exact ht.types h t ((desc_iff hn).2 (Or.inr ⟨h3, h5⟩))

theorem Tidy.release_req {h : Int} (ht : Tidy env L) (hi : Inv s L M lst) (hn' : ((L.release h).objs.map Prod.fst).Nodup)
    {i : Nat} (hm : (h, Obj.req i) ∈ L.objs) : Tidy env (L.release h) := by
  refine ht.change hi.hst.nodup hn' ?_ ?_
  · rintro o ⟨h1, h2, h', h3⟩
    left
    refine ⟨⟨h1, h2, h', (mem_release.1 h3).1⟩, fun t h4 => ⟨t, mem_release.2 ⟨h4, ?_⟩⟩⟩
    intro he
    have := hi.uniq (he ▸ h4) hm
    cases this
  · intro h' t h4
    exact Or.inr (mem_release.1 h4).1

theorem Steps.one (h : Step env s L s' L') : Steps env s L s' L' := .step .refl h

theorem Steps.trans {s'' : Sys} {L'' : Ledger} (h1 : Steps env s L s' L') (h2 : Steps env s' L' s'' L'') :
    Steps env s L s'' L'' := by
  revert h1
  induction h2 with
  | refl => exact id
  | step _ hs ih => exact fun h1 => .step (ih h1) hs

theorem Reach.nodup (hr : Reach env s L) : (L.objs.map Prod.fst).Nodup := by
  obtain ⟨_, _, hi⟩ := hr.inv
  exact hi.hst.nodup

/-- A call whose outcome is `r` behaves. -/
def Fine (env : Env) (s : Sys) (L : Ledger) (r : Res Sys) : Prop :=
  r.Sat (fun s' => ∃ L', Steps env s L s' L' ∧ Tidy env L')

/-! ## Completion -/

theorem put_sat (st : StPtr) (a b : Int) : (st.put a b).Sat (fun _ => True) := by
  cases st <;> simp [StPtr.put, Res.Sat, Corrupt]

theorem test_sat (hr : Reach env s L) (ht : Tidy env L) {h : Int}
    (hh : h = MPI_REQUEST_NULL ∨ ∃ i, (h, Obj.req i) ∈ L.objs) (st : StPtr) :
    (MPI_Test s h st).Sat (fun r => ∃ L', (L' = L ∨ (L' = L.release h ∧ h ≠ 0)) ∧ Steps env s L r.sys L' ∧ Tidy env L') := by
  obtain ⟨M, lst, hi⟩ := hr.inv
  by_cases h0 : h = 0
  · unfold MPI_Test
    rw [if_pos h0]
    exact (put_sat _ _ _).bind fun st' _ _ => ⟨L, Or.inl rfl, .refl, ht⟩
  · obtain ⟨i, hm⟩ := hh.resolve_left h0
    obtain ⟨o, ho, _⟩ := hi.opOf hm
    refine Res.sat_iff.2 ⟨?_, fun r hok => ?_⟩
    · by_cases hp : o.st = .pending
      · rw [test_pending hi hm ho hp]
        exact Res.avoids_ok _
      · obtain ⟨t, src, tag, _, _, he⟩ := test_done hi hm ho hp
        rw [he]
        exact (Res.sat_iff.1 ((put_sat st src tag).bind (Q := fun _ => True) (f := fun st' => Res.ok _) fun _ _ _ => trivial)).1
    · have hs := Step.test (env := env) hm hok
      have hn := (hr.step hs).nodup
      by_cases hf : r.flag = 0
      · rw [if_pos hf] at hs
        exact ⟨L, Or.inl rfl, .one hs, ht⟩
      · rw [if_neg hf] at hs hn
        exact ⟨_, Or.inr ⟨rfl, h0⟩, .one hs, ht.release_req hi hn hm⟩

theorem wait_sat (hr : Reach env s L) (ht : Tidy env L) {h : Int}
    (hh : h = MPI_REQUEST_NULL ∨ ∃ i, (h, Obj.req i) ∈ L.objs) (st : StPtr) :
    (MPI_Wait s h st).Sat (fun r => ∃ L', (L' = L ∨ (L' = L.release h ∧ h ≠ 0)) ∧ Steps env s L r.1 L' ∧ Tidy env L') := by
  unfold MPI_Wait
  exact (test_sat hr ht hh st).bind fun r _ h => .ite (fun _ => trivial) fun _ => h

/-! ## Posting -/

/-- Postcondition of MPI_Isend and MPI_Irecv. -/
structure Posted (env : Env) (s : Sys) (L : Ledger) (x : Sys × Int) (L' : Ledger) : Prop where
  steps : Steps env s L x.1 L'
  tidy : Tidy env L'
  live : ∃ i, (x.2, Obj.req i) ∈ L'.objs
  fresh : x.2 ∉ L.objs.map Prod.fst
  keeps : ∀ y ∈ L.objs, y ∈ L'.objs
  room : L'.unmatched ≤ L.unmatched + 1

theorem IsType.keep (hn : (L.objs.map Prod.fst).Nodup) (hn' : (L'.objs.map Prod.fst).Nodup)
    (hk : ∀ y ∈ L.objs, y ∈ L'.objs) {h : Int} (ht : IsType env L h) : IsType env L' h := by
  obtain ⟨t, hd⟩ := ht
  rcases (desc_iff hn).1 hd with h1 | ⟨h1, h2⟩
  · exact ⟨t, (desc_iff hn').2 (Or.inl h1)⟩
  · exact ⟨t, (desc_iff hn').2 (Or.inr ⟨h1, hk _ h2⟩)⟩

theorem post_sat (hr : Reach env s L) (ht : Tidy env L) {k : Kind} {c : Nat} {comm tag buf count dtype : Int}
    {r : Res (Sys × Int)} (hi : Inv s L M lst) (hcm : (comm, Obj.comm c) ∈ L.objs)
    (hps : PostSpec env s L lst k c tag buf count dtype r) (hty : IsType env L dtype)
    (hstep : ∀ s' h, r = .ok (s', h) → Step env s L s' (L.post k c tag buf count dtype h)) :
    r.Sat (fun x => ∃ L', Posted env s L x L') := by
  refine Res.sat_iff.2 ⟨?_, ?_⟩
  · rcases hps with ⟨_, ha⟩ | ⟨_, _, s1, h1, _, he, _⟩ | ⟨_, j, o, s1, h1, M', X, hp, hj, he, _, hX, _⟩
    · exact (Res.sat_iff.1 (Sat.of_aborted (P := fun _ => True) ha)).1
    · rw [he]; exact Res.avoids_ok _
    · obtain ⟨t, hd⟩ := hty
      obtain ⟨o1, hE⟩ := partner_earliest hp
      have := hE.1
      rw [hj] at this
      cases this
      have hfl : InFlight L o := ⟨List.mem_of_getElem? hj, hE.2.1.2.2, comm, hE.2.1.2.1 ▸ hcm⟩
      have hXs : X.Sat (fun _ => True) := by
        cases k with
        | send =>
          obtain ⟨t', hd'⟩ := ht.inflight o hfl hE.2.1.1
          rw [hX t t' hd (by rw [if_pos rfl]; exact hd'), if_pos rfl]
          exact Pcopy_sat _ (ht.types _ _ hd) (ht.types _ _ hd') _ _ _ _ _
        | recv =>
          rw [hX t t hd (by rw [if_neg (by simp)]; exact hd), if_neg (by simp)]
          exact Pcopy_sat _ (ht.types _ _ hd) (ht.types _ _ hd) _ _ _ _ _
      rw [he]
      exact (Res.sat_iff.1 (hXs.bind (Q := fun _ => True) (f := fun m => Res.ok _) fun _ _ _ => trivial)).1
  · rintro ⟨s', h⟩ hok
    have hs := hstep _ _ hok
    have hn := hr.nodup
    have hn' := (hr.step hs).nodup
    obtain ⟨_, hfr, _⟩ := posted hi hcm hps hok
    have hk : ∀ y ∈ L.objs, y ∈ (L.post k c tag buf count dtype h).objs := fun y hy => by
      rw [post_objs]; exact List.mem_cons_of_mem _ hy
    refine ⟨_, .one hs, ht.change hn hn' ?_ ?_, ⟨L.ops.length, by rw [post_objs]; simp⟩, hfr, hk, unmatched_post_le⟩
    · rintro o ⟨h1, h2, h', h3⟩
      rw [post_objs] at h3
      rcases List.mem_cons.1 h3 with h3 | h3
      · cases h3
      obtain ⟨i, hlt, rfl⟩ := List.getElem_of_mem h1
      by_cases hnew : i = L.ops.length
      · right
        have := post_new (L := L) k c tag buf count dtype h
        rw [← hnew, List.getElem?_eq_getElem hlt] at this
        have e := congrArg Op.dtype (Option.some.inj this)
        rw [e]
        exact hty.keep hn hn' hk
      · left
        have hlt' : i < L.ops.length := by
          have : (L.post k c tag buf count dtype h).ops.length = L.ops.length + 1 := by
            cases hp : L.partner c k tag with
            | none => rw [Ledger.post_none hp]; simp
            | some j => rw [Ledger.post_some hp]; simp [settle_length]
          omega
        have := post_old k c tag buf count dtype h (List.getElem?_eq_getElem hlt')
        rw [List.getElem?_eq_getElem hlt] at this
        have e := Option.some.inj this
        split at e
        · rw [e] at h2; cases h2
        · rw [e] at h2 h3 ⊢
          exact ⟨⟨List.getElem_mem _, h2, h', h3⟩, fun t h4 => ⟨t, hk _ h4⟩⟩
    · intro h' t h4
      rw [post_objs] at h4
      rcases List.mem_cons.1 h4 with h4 | h4
      · cases h4
      · exact Or.inr h4

theorem postNull_sat (hr : Reach env s L) (ht : Tidy env L) {k : Kind} {tag buf count dtype : Int}
    {r : Res (Sys × Int)} (hps : NullSpec s L M lst k tag buf count dtype r)
    (hstep : ∀ s' h, r = .ok (s', h) → Step env s L s' (L.postNull k tag buf count dtype h)) :
    r.Sat (fun x => ∃ L', Posted env s L x L') := by
  rcases hps with ⟨_, ha⟩ | ⟨_, s1, h, he, _, hfr, _⟩
  · exact Sat.of_aborted ha
  · have hs := hstep _ _ he
    have hn := hr.nodup
    have hn' := (hr.step hs).nodup
    rw [he]
    have hk : ∀ y ∈ L.objs, y ∈ (L.postNull k tag buf count dtype h).objs := fun y hy => List.mem_cons_of_mem _ hy
    refine ⟨_, .one hs, ht.change hn hn' ?_ ?_, ⟨L.ops.length, by simp [Ledger.postNull]⟩, hfr, hk, ?_⟩
    · rintro o ⟨h1, h2, h', h3⟩
      rcases List.mem_cons.1 h3 with h3 | h3
      · cases h3
      rcases List.mem_append.1 h1 with h1 | h1
      · exact Or.inl ⟨⟨h1, h2, h', h3⟩, fun t h4 => ⟨t, hk _ h4⟩⟩
      · rw [List.mem_singleton] at h1
        rw [h1] at h2; cases h2
    · intro h' t h4
      rcases List.mem_cons.1 h4 with h4 | h4
      · cases h4
      · exact Or.inr h4
    · simp [Ledger.unmatched, Ledger.postNull, List.countP_append]

theorem isend_sat (hr : Reach env s L) (ht : Tidy env L) (buf count : Int) {dtype dest : Int} (tag : Int) {comm : Int}
    (ha : P2PArgs env L dtype dest comm) (hu : L.unmatched < 2147483647) :
    (MPI_Isend env s buf count dtype dest tag comm).Sat (fun x => ∃ L', Posted env s L x L') := by
  obtain ⟨M, lst, hi⟩ := hr.inv
  have hc : comm = MPI_COMM_NULL ∨ ∃ c, (comm, Obj.comm c) ∈ L.objs := by
    rcases ha.2 with h | h
    · exact Or.inr h
    · exact Or.inl h.1
  have hc' : comm = MPI_COMM_NULL ∨ comm ∈ L.objs.map Prod.fst := hc.imp id fun ⟨c, h⟩ => mem_keys h
  by_cases h2 : dest = MPI_PROC_NULL
  · subst h2
    exact postNull_sat hr ht (isendNull_spec hi hc' buf count dtype tag) fun s' h hok => .isendNull hc hok
  · obtain ⟨c, hcm⟩ := ha.2.resolve_right fun h => h2 h.2
    by_cases h0 : dest = 0
    · subst h0
      exact post_sat hr ht hi hcm (isend_spec hi hcm hu buf count dtype tag) ha.1 fun s' h hok => .isend hcm hu hok
    · unfold MPI_Isend
      rw [Sys.ptr_live hi.hst (mem_keys hcm), Res.ok_bind]
      dsimp only
      rw [if_pos ⟨h0, h2⟩]
      trivial

theorem irecv_sat (hr : Reach env s L) (ht : Tidy env L) (buf count : Int) {dtype src : Int} (tag : Int) {comm : Int}
    (ha : P2PArgs env L dtype src comm) (hu : L.unmatched < 2147483647) :
    (MPI_Irecv env s buf count dtype src tag comm).Sat (fun x => ∃ L', Posted env s L x L') := by
  obtain ⟨M, lst, hi⟩ := hr.inv
  have hc : comm = MPI_COMM_NULL ∨ ∃ c, (comm, Obj.comm c) ∈ L.objs := by
    rcases ha.2 with h | h
    · exact Or.inr h
    · exact Or.inl h.1
  have hc' : comm = MPI_COMM_NULL ∨ comm ∈ L.objs.map Prod.fst := hc.imp id fun ⟨c, h⟩ => mem_keys h
  by_cases h2 : src = MPI_PROC_NULL
  · subst h2
    exact postNull_sat hr ht (irecvNull_spec hi hc' buf count dtype tag) fun s' h hok => .irecvNull hc hok
  · obtain ⟨c, hcm⟩ := ha.2.resolve_right fun h => h2 h.2
    by_cases h0 : src = 0 ∨ src = MPI_ANY_SOURCE
    · exact post_sat hr ht hi hcm (irecv_spec hi hcm hu h0 buf count dtype tag) ha.1 fun s' h hok => .irecv hcm hu h2 hok
    · unfold MPI_Irecv
      rw [Sys.ptr_live hi.hst (mem_keys hcm), Res.ok_bind]
      dsimp only
      rw [if_pos (by omega)]
      trivial

/-! ## Blocking operations -/

/-- Postcondition of MPI_Send and MPI_Recv. -/
structure Waited (env : Env) (s : Sys) (L : Ledger) (s' : Sys) (L' : Ledger) : Prop where
  steps : Steps env s L s' L'
  tidy : Tidy env L'
  keeps : ∀ y ∈ L.objs, y ∈ L'.objs

theorem Posted.wait {x : Sys × Int} (hr : Reach env s L) (hp : Posted env s L x L') (st : StPtr) :
    (MPI_Wait x.1 x.2 st).Sat (fun y => ∃ L'', Waited env s L y.1 L'') := by
  refine (wait_sat (hr.steps hp.steps) hp.tidy (Or.inr hp.live) st).mono fun y _ ⟨L'', h1, h2, h3⟩ => ?_
  refine ⟨L'', hp.steps.trans h2, h3, fun z hz => ?_⟩
  rcases h1 with rfl | ⟨rfl, _⟩
  · exact hp.keeps z hz
  · obtain ⟨a, b⟩ := z
    exact mem_release.2 ⟨hp.keeps _ hz, fun he => hp.fresh (he ▸ mem_keys hz)⟩

theorem send_sat (hr : Reach env s L) (ht : Tidy env L) (buf count : Int) {dtype dest : Int} (tag : Int) {comm : Int}
    (ha : P2PArgs env L dtype dest comm) (hu : L.unmatched < 2147483647) :
    (MPI_Send env s buf count dtype dest tag comm).Sat (fun s' => ∃ L', Waited env s L s' L') := by
  unfold MPI_Send
  exact (isend_sat hr ht buf count tag ha hu).bind fun x _ ⟨L', hp⟩ => (hp.wait hr _).bind fun y _ h => h

theorem recv_sat (hr : Reach env s L) (ht : Tidy env L) (buf count : Int) {dtype src : Int} (tag : Int) {comm : Int}
    (ha : P2PArgs env L dtype src comm) (hu : L.unmatched < 2147483647) (st : StPtr) :
    (MPI_Recv env s buf count dtype src tag comm st).Sat (fun x => ∃ L', Waited env s L x.1 L') := by
  unfold MPI_Recv
  refine (irecv_sat hr ht buf count tag ha hu).bind fun x _ ⟨L', hp⟩ => (hp.wait hr _).bind fun y _ h => ?_
  obtain ⟨y1, y2, y3⟩ := y
  cases y3 with
  | null => exact h
  | obj st => exact h
  | bad => simp [Res.Sat, Corrupt]

theorem P2PArgs.keep {dtype peer comm : Int} (ha : P2PArgs env L dtype peer comm) (hn : (L.objs.map Prod.fst).Nodup)
    (hn' : (L'.objs.map Prod.fst).Nodup) (hk : ∀ y ∈ L.objs, y ∈ L'.objs) : P2PArgs env L' dtype peer comm :=
  ⟨ha.1.keep hn hn' hk, ha.2.imp (fun ⟨c, h⟩ => ⟨c, hk _ h⟩) id⟩

theorem sendrecv_sat (hr : Reach env s L) (ht : Tidy env L) (sbuf scount : Int) {stype dest : Int} (stag : Int)
    (rbuf rcount : Int) {rtype src : Int} (rtag : Int) {comm : Int}
    (ha : P2PArgs env L stype dest comm) (hb : P2PArgs env L rtype src comm) (hu : L.unmatched + 1 < 2147483647)
    (st : StPtr) :
    (MPI_Sendrecv env s sbuf scount stype dest stag rbuf rcount rtype src rtag comm st).Sat
      (fun x => ∃ L', Steps env s L x.1 L' ∧ Tidy env L') := by
  unfold MPI_Sendrecv
  refine (irecv_sat hr ht rbuf rcount rtag hb (by omega)).bind fun x _ ⟨L1, hp⟩ => ?_
  have hr1 := hr.steps hp.steps
  refine (send_sat hr1 hp.tidy sbuf scount stag (ha.keep hr.nodup hr1.nodup hp.keeps)
    (by have := hp.room; omega)).bind fun s2 _ ⟨L2, hw⟩ => ?_
  have hr2 := hr1.steps hw.steps
  obtain ⟨i, hl⟩ := hp.live
  refine (wait_sat hr2 hw.tidy (Or.inr ⟨i, hw.keeps _ hl⟩) st).bind fun y _ ⟨L3, _, h2, h3⟩ => ?_
  exact ⟨L3, (hp.steps.trans hw.steps).trans h2, h3⟩

theorem irsend_sat (hr : Reach env s L) (ht : Tidy env L) (buf count : Int) {dtype dest : Int} (tag : Int) {comm : Int}
    (ha : P2PArgs env L dtype dest comm) (hu : L.unmatched < 2147483647) :
    (MPI_Irsend env s buf count dtype dest tag comm).Sat (fun x => ∃ L', Steps env s L x.1 L' ∧ Tidy env L') := by
  unfold MPI_Irsend
  refine (isend_sat hr ht buf count tag ha hu).bind fun x _ ⟨L', hp⟩ => ?_
  obtain ⟨M, lst, hi⟩ := (hr.steps hp.steps).inv
  obtain ⟨i, hl⟩ := hp.live
  obtain ⟨o, r, _, _, hd, _⟩ := hi.req _ _ hl
  dsimp only
  rw [Sys.ptr_live hi.hst (mem_keys hl), Res.ok_bind]
  dsimp only
  rw [Sys.req_live hi.hst (mem_keys hl) hd, Res.ok_bind]
  exact .ite (fun _ => trivial) fun _ => ⟨L', hp.steps, hp.tidy⟩

/-! ## Arrays of requests -/

theorem WfReqs.release {h : Int} {hs : List Int} (hw : WfReqs L hs) (hn : h ≠ 0 → h ∉ hs) : WfReqs (L.release h) hs := by
  have := hw.rest (rel := [h]) (by simpa using hn)
  have e : ({ L with objs := L.objs.filter (fun e => decide (e.1 ∉ [h])) } : Ledger) = L.release h := by
    unfold Ledger.release
    congr 1
    apply List.filter_congr
    simp
  rwa [e] at this

theorem test_next (hr : Reach env s L) (ht : Tidy env L) {h : Int} {hs : List Int} (hw : WfReqs L (h :: hs)) (st : StPtr) :
    (MPI_Test s h st).Sat (fun r => ∃ L', Steps env s L r.sys L' ∧ Tidy env L' ∧ WfReqs L' hs) := by
  refine (test_sat hr ht hw.head st).mono fun r _ ⟨L', h1, h2, h3⟩ => ⟨L', h2, h3, ?_⟩
  rcases h1 with rfl | ⟨rfl, h0⟩
  · exact hw.2
  · refine hw.2.release fun _ => ?_
    rcases hw.1 with h1 | h1
    · exact absurd h1 h0
    · exact h1.2

theorem at_sat (sts : StArr) (i : Nat) : (StArr.at sts i).Sat (fun _ => True) := by
  unfold StArr.at
  split
  · exact .ite (fun _ => trivial) fun _ => trivial
  · exact (rd_sat _ _).bind fun _ _ _ => trivial

theorem testanyLoop_sat : ∀ (hs pre : List Int) (s : Sys) (L : Ledger) (st : StPtr), Reach env s L → Tidy env L → WfReqs L hs →
    (testanyLoop hs.length pre.length s (pre ++ hs) st).Sat (fun r => ∃ L', Steps env s L r.1 L' ∧ Tidy env L') := by
  intro hs
  induction hs with
  | nil => intro pre s L st _ ht _; exact ⟨L, .refl, ht⟩
  | cons h hs ih =>
    intro pre s L st hr ht hw
    rw [List.length_cons, testanyLoop, rd_mid, Res.ok_bind]
    refine (test_next hr ht hw st).bind fun r _ ⟨L', h1, h2, h3⟩ => .ite (fun _ => ⟨L', h1, h2⟩) fun _ => ?_
    rw [set_mid]
    have := ih (pre ++ [r.request]) r.sys L' r.status (hr.steps h1) h2 h3
    rw [List.length_append, List.length_singleton] at this
    exact this.mono fun _ _ ⟨L'', h4, h5⟩ => ⟨L'', h1.trans h4, h5⟩

theorem testallLoop_sat : ∀ (hs pre : List Int) (s : Sys) (L : Ledger) (sts : StArr) (f : Int), Reach env s L → Tidy env L →
    WfReqs L hs → (testallLoop hs.length pre.length s (pre ++ hs) sts f).Sat (fun r => ∃ L', Steps env s L r.1.sys L' ∧ Tidy env L') := by
  intro hs
  induction hs with
  | nil => intro pre s L sts f _ ht _; exact ⟨L, .refl, ht⟩
  | cons h hs ih =>
    intro pre s L sts f hr ht hw
    rw [List.length_cons, testallLoop, rd_mid, Res.ok_bind]
    refine (at_sat _ _).bind fun p _ _ => (test_next hr ht hw p).bind fun r _ ⟨L', h1, h2, h3⟩ => ?_
    rw [set_mid]
    have := ih (pre ++ [r.request]) r.sys L' (StArr.upd sts pre.length r.status) (if r.flag = 0 then 0 else f) (hr.steps h1) h2 h3
    rw [List.length_append, List.length_singleton] at this
    exact this.mono fun _ _ ⟨L'', h4, h5⟩ => ⟨L'', h1.trans h4, h5⟩

theorem testsomeLoop_sat : ∀ (hs pre : List Int) (s : Sys) (L : Ledger) (sts : StArr) (f : Int), Reach env s L → Tidy env L →
    WfReqs L hs → (testsomeLoop hs.length pre.length s (pre ++ hs) sts f).Sat (fun r => ∃ L', Steps env s L r.1.sys L' ∧ Tidy env L') := by
  intro hs
  induction hs with
  | nil => intro pre s L sts f _ ht _; exact ⟨L, .refl, ht⟩
  | cons h hs ih =>
    intro pre s L sts f hr ht hw
    rw [List.length_cons, testsomeLoop, rd_mid, Res.ok_bind]
    refine (at_sat _ _).bind fun p _ _ => (test_next hr ht hw p).bind fun r _ ⟨L', h1, h2, h3⟩ => ?_
    rw [set_mid]
    have := ih (pre ++ [r.request]) r.sys L' (StArr.upd sts pre.length r.status) (if r.flag = 0 then f else f + 1) (hr.steps h1) h2 h3
    rw [List.length_append, List.length_singleton] at this
    exact this.mono fun _ _ ⟨L'', h4, h5⟩ => ⟨L'', h1.trans h4, h5⟩

theorem waitallLoop_sat : ∀ (hs pre : List Int) (s : Sys) (L : Ledger) (sts : StArr), Reach env s L → Tidy env L →
    WfReqs L hs → (waitallLoop hs.length pre.length s (pre ++ hs) sts).Sat (fun r => ∃ L', Steps env s L r.sys L' ∧ Tidy env L') := by
  intro hs
  induction hs with
  | nil => intro pre s L sts _ ht _; exact ⟨L, .refl, ht⟩
  | cons h hs ih =>
    intro pre s L sts hr ht hw
    rw [List.length_cons, waitallLoop, rd_mid, Res.ok_bind]
    refine (at_sat _ _).bind fun p _ _ => (test_next hr ht hw p).bind fun r _ ⟨L', h1, h2, h3⟩ => .ite (fun _ => trivial) fun _ => ?_
    rw [set_mid]
    have := ih (pre ++ [r.request]) r.sys L' (StArr.upd sts pre.length r.status) (hr.steps h1) h2 h3
    rw [List.length_append, List.length_singleton] at this
    exact this.mono fun _ _ ⟨L'', h4, h5⟩ => ⟨L'', h1.trans h4, h5⟩

theorem testany_sat (hr : Reach env s L) (ht : Tidy env L) {n : Int} {hs : List Int} (hn : n = hs.length) (hw : WfReqs L hs)
    (i : Int) (st : StPtr) : (MPI_Testany s n hs i st).Sat (fun r => ∃ L', Steps env s L r.1 L' ∧ Tidy env L') := by
  subst hn
  unfold MPI_Testany
  rw [Int.toNat_natCast]
  exact (testanyLoop_sat hs [] s L st hr ht hw).bind fun r _ h => h

/-! ## Datatypes -/

theorem mem_step (hr : Reach env s L) (ht : Tidy env L) (m : Mem) : ∃ L', Steps env s L { s with mem := m } L' ∧ Tidy env L' :=
  ⟨L, .one .memory, ht⟩

theorem typeOf_sat (hr : Reach env s L) (ht : Tidy env L) {h : Int} (hty : IsType env L h) :
    ∃ t, typeOf env s h = .ok (s, t) ∧ t.WF := by
  obtain ⟨M, lst, hi⟩ := hr.inv
  obtain ⟨t, hd⟩ := hty
  exact ⟨t, hi.typeOf hd, ht.types _ _ hd⟩

theorem copy_sat (hr : Reach env s L) (ht : Tidy env L) {a b : Int} (ha : IsType env L a) (hb : IsType env L b)
    (p n q k : Int) : (copy_data2 env s p n a q k b).Sat (fun s' => ∃ L', Steps env s L s' L' ∧ Tidy env L') := by
  obtain ⟨M, lst, hi⟩ := hr.inv
  obtain ⟨ta, ha⟩ := ha
  obtain ⟨tb, hb⟩ := hb
  obtain ⟨pa, h1, h2⟩ := typeOf_desc hi.hst hi.typesOk ha
  obtain ⟨pb, h3, h4⟩ := typeOf_desc hi.hst hi.typesOk hb
  unfold copy_data2
  rw [h1, Res.ok_bind]
  dsimp only
  rw [h3, Res.ok_bind]
  dsimp only
  rw [h2, Res.ok_bind, h4, Res.ok_bind]
  exact (Pcopy_sat _ (ht.types _ _ ha) (ht.types _ _ hb) _ _ _ _ _).bind fun m _ _ => mem_step hr ht m

theorem extent_sat (hr : Reach env s L) (ht : Tidy env L) {h : Int} (hty : IsType env L h) :
    (MPI_Type_extent env s h).Sat (fun x => x.1 = s) := by
  obtain ⟨t, h1, h2⟩ := typeOf_sat hr ht hty
  unfold MPI_Type_extent
  rw [h1, Res.ok_bind]
  exact (Type_extent_sat _ h2).bind fun _ _ _ => rfl

theorem size_sat (hr : Reach env s L) (ht : Tidy env L) {h : Int} (hty : IsType env L h) :
    (MPI_Type_size env s h).Sat (fun x => x.1 = s) := by
  obtain ⟨t, h1, h2⟩ := typeOf_sat hr ht hty
  unfold MPI_Type_size
  rw [h1, Res.ok_bind]
  exact (Type_size_sat _ h2).bind fun _ _ _ => rfl

theorem newType_sat (hr : Reach env s L) (ht : Tidy env L) {build : Garbage → Res Typestruct} {r : Res (Sys × Int)}
    (hc : TypeCall env L s build r) (hb : ∀ g, (build g).Sat Typestruct.WF) :
    r.Sat (fun x => ∃ L', Steps env s L x.1 L' ∧ Tidy env L') := by
  obtain ⟨M, lst, hi⟩ := hr.inv
  have he := hc.eq hi
  rcases newType_spec (env := env) hi build with ⟨_, ha⟩ | ⟨_, s', h, hf, hN, hI⟩
  · rw [he]; exact .of_aborted ha
  · rw [hN] at he
    have hB := hb (env.garbage s.nextType)
    cases hx : build (env.garbage s.nextType) with
    | ok ty =>
      rw [hx] at he hB
      have hs := Step.newType hc he hx
      have hn' := (hr.step hs).nodup
      rw [he]
      refine ⟨_, .one hs, ht.change hr.nodup hn' ?_ ?_⟩
      · rintro o ⟨h1, h2, h', h3⟩
        rcases List.mem_cons.1 h3 with h3 | h3
        · cases h3
        · exact Or.inl ⟨⟨h1, h2, h', h3⟩, fun t h4 => ⟨t, List.mem_cons_of_mem _ h4⟩⟩
      · intro h' t h3
        rcases List.mem_cons.1 h3 with h3 | h3
        · cases h3; exact Or.inl hB
        · exact Or.inr h3
    | abort m => rw [he, hx]; trivial
    | exit c => rw [he, hx]; trivial
    | ub u => rw [he, hx]; rw [hx] at hB; exact hB
    | hang => rw [hx] at hB; exact hB.elim

theorem types_list {ts : List Int} (h : ∀ t ∈ ts, IsType env L t) : ∃ ds : List Typestruct, ds.length = ts.length ∧
    ∀ (i : Nat) (h : Int) (t : Typestruct), ts[i]? = some h → ds[i]? = some t → L.desc env.cfg h = some t := by
  induction ts with
  | nil => exact ⟨[], rfl, by simp⟩
  | cons a ts ih =>
    obtain ⟨ds, h1, h2⟩ := ih fun t ht => h t (List.mem_cons_of_mem _ ht)
    obtain ⟨d, hd⟩ := h a (by simp)
    refine ⟨d :: ds, by simp [h1], fun i h t h3 h4 => ?_⟩
    cases i with
    | zero => simp at h3 h4; rw [← h3, ← h4]; exact hd
    | succ i => exact h2 i h t (by simpa using h3) (by simpa using h4)

theorem struct_sat (hr : Reach env s L) (ht : Tidy env L) {n : Int} {b d ts : List Int} (h1 : n = b.length) (h2 : n = d.length)
    (h3 : n = ts.length) (hb : ∀ x ∈ b, 0 ≤ x) (hty : ∀ t ∈ ts, IsType env L t) :
    (MPI_Type_struct env s n b d ts).Sat (fun x => ∃ L', Steps env s L x.1 L' ∧ Tidy env L') := by
  obtain ⟨ds, h4, h5⟩ := types_list hty
  have hc := TypeCall.struct (env := env) (L := L) (s := s) (blocklens := b) (disps := d) (by omega) (by omega) h4 h5
  rw [← h3] at hc
  refine newType_sat hr ht hc fun g => Type_struct_sat _ _ _ fun x hx => ?_
  rw [List.mem_map] at hx
  obtain ⟨⟨x1, x2, x3⟩, hz, rfl⟩ := hx
  obtain ⟨i, hlt, he⟩ := List.getElem_of_mem hz
  have hz' := List.getElem?_eq_getElem hlt
  rw [he, List.getElem?_zip_eq_some, List.getElem?_zip_eq_some] at hz'
  simp only at hz'
  refine ⟨?_, hb _ (List.mem_of_getElem? hz'.1)⟩
  have hi' : i < ts.length := by
    rw [← h4]
    rcases Nat.lt_or_ge i ds.length with h | h
    · exact h
    · have := hz'.2.2; rw [List.getElem?_eq_none h] at this; cases this
  exact ht.types _ _ (h5 i ts[i] x3 (List.getElem?_eq_getElem hi') hz'.2.2)

theorem commit_sat (hr : Reach env s L) (ht : Tidy env L) {h : Int} (hty : IsType env L h) :
    (MPI_Type_commit env s h).Sat (fun s' => ∃ L', Steps env s L s' L' ∧ Tidy env L') := by
  obtain ⟨M, lst, hi⟩ := hr.inv
  obtain ⟨t, hd⟩ := hty
  rcases desc_live hd with ⟨h1, h2⟩ | ⟨h1, h2⟩
  · unfold MPI_Type_commit handleToDatatype
    obtain ⟨p, h3, h4⟩ := typeOf_desc hi.hst hi.typesOk hd
    have h5 : simpletypePtr h = .ok p := by
      unfold handleToDatatype at h3
      rw [if_pos h1] at h3
      cases hp : simpletypePtr h <;> rw [hp] at h3 <;> simp at h3
      rw [h3]
    rw [if_pos h1, h5, Res.ok_bind, Res.pure_bind']
    dsimp only
    rw [h4, Res.ok_bind]
    cases p with
    | heap q =>
      unfold simpletypePtr at h5
      dsimp only at h5
      split at h5
      · cases h5
      · split at h5 <;> cases h5
    | null => exact ⟨L, .refl, ht⟩
    | static k => exact ⟨L, .refl, ht⟩
  · obtain ⟨s', h3, _, _⟩ := typeCommit_spec (env := env) hi h2
    have hs := Step.commit h2 h3
    have hn' := (hr.step hs).nodup
    rw [h3]
    refine ⟨_, .one hs, ht.change hr.nodup hn' ?_ ?_⟩
    · rintro o ⟨h4, h5, h', h6⟩
      left
      refine ⟨⟨h4, h5, h', ?_⟩, fun u h7 => ?_⟩
      · rcases mem_commit.1 h6 with h8 | ⟨_, u, _, h8⟩
        · exact h8.1
        · cases h8
      · by_cases he : o.dtype = h
        · exact ⟨_, mem_commit.2 (Or.inr ⟨he, u, he ▸ h7, rfl⟩)⟩
        · exact ⟨u, mem_commit.2 (Or.inl ⟨h7, Or.inl he⟩)⟩
    · intro h' u h4
      rcases mem_commit.1 h4 with h5 | ⟨_, v, h5, h6⟩
      · exact Or.inr h5.1
      · left
        cases h6
        have hw := ht.types h v ((desc_iff hr.nodup).2 (Or.inr ⟨h1, h5⟩))
        exact ⟨hw.1, hw.2, hw.3⟩

theorem typeFree_sat (hr : Reach env s L) (ht : Tidy env L) {h : Int} {t : Typestruct} (hm : (h, Obj.dtype t) ∈ L.objs)
    (hf : ∀ o, InFlight L o → o.dtype ≠ h) :
    (MPI_Type_free s h).Sat (fun s' => ∃ L', Steps env s L s' L' ∧ Tidy env L') := by
  obtain ⟨M, lst, hi⟩ := hr.inv
  obtain ⟨s', h3, _, _⟩ := typeFree_spec hi hm
  have hs := Step.typeFree (env := env) hm h3
  have hn' := (hr.step hs).nodup
  rw [h3]
  refine ⟨_, .one hs, ht.change hr.nodup hn' ?_ ?_⟩
  · rintro o ⟨h4, h5, h', h6⟩
    have hfl : InFlight L o := ⟨h4, h5, h', (mem_release.1 h6).1⟩
    exact Or.inl ⟨hfl, fun u h7 => ⟨u, mem_release.2 ⟨h7, hf o hfl⟩⟩⟩
  · intro h' u h4
    exact Or.inr (mem_release.1 h4).1

/-! ## Communicators -/

theorem Tidy.addComm {h : Int} (ht : Tidy env L) (hi : Inv s L M lst) (hn' : ((L.addComm h).objs.map Prod.fst).Nodup) :
    Tidy env (L.addComm h) := by
  refine ht.change hi.hst.nodup hn' ?_ ?_
  · rintro o ⟨h4, h5, h', h6⟩
    rcases List.mem_cons.1 h6 with h6 | h6
    · have := hi.ocid o h4 h5
      simp only [Prod.mk.injEq, Obj.comm.injEq] at h6
      omega
    · exact Or.inl ⟨⟨h4, h5, h', h6⟩, fun t h7 => ⟨t, List.mem_cons_of_mem _ h7⟩⟩
  · intro h' t h6
    rcases List.mem_cons.1 h6 with h6 | h6
    · cases h6
    · exact Or.inr h6

theorem commNew_sat (hi : Inv s L M lst) (hrm : Room L) : (mpi_comm_new s).Sat (fun _ => True) := by
  rcases commNew_spec hi hrm.1 hrm.2.1 with ⟨_, ha⟩ | ⟨_, _, s', h, _, _, _, he, _⟩
  · exact .of_aborted ha
  · rw [he]; trivial

theorem cartCheck_sat (dims : List Int) : ∀ (n i : Nat), (cartCheck dims n i).Sat (fun _ => True) := by
  intro n
  induction n with
  | zero => intro i; trivial
  | succ n ih =>
    intro i
    rw [cartCheck]
    exact (rd_sat _ _).bind fun _ _ _ => .ite (fun _ => trivial) fun _ => ih _

theorem CommCall.sat (hi : Inv s L M lst) (hrm : Room L) {r : Res (Sys × Int)} (hc : CommCall s r) : r.Sat (fun _ => True) := by
  cases hc with
  | dup c => exact commNew_sat hi hrm
  | create c g => unfold MPI_Comm_create; exact .ite (fun _ => trivial) fun _ => commNew_sat hi hrm
  | split c a b => unfold MPI_Comm_split; exact .ite (fun _ => trivial) fun _ => commNew_sat hi hrm
  | intercomm a b c d e => unfold MPI_Intercomm_create; exact .ite (fun _ => trivial) fun _ => commNew_sat hi hrm
  | cart c n dims => unfold MPI_Cart_create; exact (cartCheck_sat _ _ _).bind fun _ _ _ => commNew_sat hi hrm

theorem comm_sat (hr : Reach env s L) (ht : Tidy env L) (hrm : Room L) {r : Res (Sys × Int)} (hc : CommCall s r) :
    r.Sat (fun x => ∃ L', Steps env s L x.1 L' ∧ Tidy env L') := by
  obtain ⟨M, lst, hi⟩ := hr.inv
  refine Res.sat_iff.2 ⟨(Res.sat_iff.1 (hc.sat hi hrm)).1, fun ⟨s', h⟩ hok => ?_⟩
  have hs := Step.comm (env := env) hrm.1 hrm.2.1 hc hok
  have hn' := (hr.step hs).nodup
  refine ⟨_, .one hs, ?_⟩
  unfold Ledger.noteComm at hn' ⊢
  split
  · exact ht
  · next hne => rw [if_neg hne] at hn'; exact ht.addComm hi hn'

theorem init_sat (hr : Reach env s L) (ht : Tidy env L) (hrm : Room L) :
    (MPI_Init s).Sat (fun s' => ∃ L', Steps env s L s' L' ∧ Tidy env L') := by
  obtain ⟨M, lst, hi⟩ := hr.inv
  refine Res.sat_iff.2 ⟨?_, fun s' hok => ?_⟩
  · have : (MPI_Init s).Sat (fun _ => True) := by
      unfold MPI_Init
      exact (commNew_sat hi hrm).bind fun x _ _ => .ite (fun _ => trivial) fun _ => trivial
    exact (Res.sat_iff.1 this).1
  · have hs := Step.init (env := env) hrm.1 hrm.2.1 hok
    have hn' := (hr.step hs).nodup
    have := ht.addComm hi (h := MPI_COMM_WORLD) hn'
    exact ⟨_, .one hs, this.inflight, this.types⟩

theorem finalize_sat (ht : Tidy env L) : ∃ L', Steps env s L (MPI_Finalize s) L' ∧ Tidy env L' := by
  refine ⟨_, .one .finalize, ?_, ?_⟩
  · rintro o ⟨_, _, h', h3⟩
    cases h3
  · intro h t hd
    rcases desc_live hd with ⟨_, h2⟩ | ⟨_, h2⟩
    · exact simpletypes_wf _ _ (List.mem_of_getElem? h2)
    · cases h2

theorem commFree_sat (hr : Reach env s L) (ht : Tidy env L) {h : Int} {c : Nat} (hm : (h, Obj.comm c) ∈ L.objs) :
    (MPI_Comm_free s h).Sat (fun x => ∃ L', Steps env s L x.1 L' ∧ Tidy env L') := by
  obtain ⟨M, lst, hi⟩ := hr.inv
  obtain ⟨s', _, h3, _⟩ := commFree_spec hi hm
  have hs := Step.commFree (env := env) hm h3
  have hn' := (hr.step hs).nodup
  rw [h3]
  refine ⟨_, .one hs, ht.change hr.nodup hn' ?_ ?_⟩
  · rintro o ⟨h4, h5, h', h6⟩
    refine Or.inl ⟨⟨h4, h5, h', (mem_release.1 h6).1⟩, fun u h7 => ⟨u, mem_release.2 ⟨h7, fun he => ?_⟩⟩⟩
    have := hi.uniq (he ▸ h7) hm
    cases this
  · intro h' u h4
    exact Or.inr (mem_release.1 h4).1

theorem requestFree_sat (hr : Reach env s L) (ht : Tidy env L) {h : Int} {i : Nat} {o : Op} (hm : (h, Obj.req i) ∈ L.objs)
    (ho : L.ops[i]? = some o) (hp : o.st ≠ .pending) :
    (MPI_Request_free s h).Sat (fun x => ∃ L', Steps env s L x.1 L' ∧ Tidy env L') := by
  obtain ⟨M, lst, hi⟩ := hr.inv
  obtain ⟨s', h3, _, _⟩ := requestFree_spec hi hm ho hp
  have hs := Step.requestFree (env := env) hm ho hp h3
  have hn' := (hr.step hs).nodup
  rw [h3]
  exact ⟨_, .one hs, ht.release_req hi hn' hm⟩

theorem iprobe_sat (hr : Reach env s L) {comm : Int} (hc : IsComm L comm) (src tag : Int) (st : StPtr) :
    (MPI_Iprobe s src tag comm st).Sat (fun x => x.1 = s) := by
  obtain ⟨M, lst, hi⟩ := hr.inv
  obtain ⟨c, hcm⟩ := hc
  by_cases hs : src = 0 ∨ src = MPI_ANY_SOURCE
  · rcases iprobe_spec hi hcm hs tag st with ⟨_, he⟩ | ⟨j, o, _, _, he⟩
    · rw [he]; rfl
    · rw [he]
      exact (put_sat _ _ _).bind fun _ _ _ => rfl
  · unfold MPI_Iprobe
    rw [Sys.ptr_live hi.hst (mem_keys hcm), Res.ok_bind]
    dsimp only
    rw [if_pos (by omega)]
    trivial

/-! ## Every call -/

theorem stay_sat {α : Type} {x : Res (Sys × α)} (ht : Tidy env L) (h : x.Sat (fun r => r.1 = s)) :
    (x >>= fun r => Res.ok r.1).Sat (fun s' => ∃ L', Steps env s L s' L' ∧ Tidy env L') :=
  h.bind fun r _ h => ⟨L, h ▸ .refl, ht⟩

theorem verify_size_sat (hr : Reach env s L) (ht : Tidy env L) (a : FortArgs) {name : String} (hc : -45 ≤ a.const name ∧ a.const name < 0)
    (p q err : Int) : (verify_size env a name p q s err).Sat (fun x => x.1 = s) := by
  obtain ⟨t, h1, h2⟩ := typeOf_sat hr ht (IsType.simple hc.1 hc.2)
  unfold verify_size
  rw [h1, Res.ok_bind]
  exact (pair0_sat h2).bind fun _ _ _ => (simple_sat _ _).bind fun _ _ _ => rfl

theorem verify_field_sat (a : FortArgs) (name : String) (o err : Int) : (verify_field a name o err).Sat (fun _ => True) := by
  unfold verify_field
  exact (ck32_sat _).bind fun _ _ _ => trivial

theorem fortChecks_sat (hr : Reach env s L) (ht : Tidy env L) (a : FortArgs)
    (hc : ∀ n ∈ ["MPI_INTEGER", "MPI_LOGICAL", "MPI_REAL", "MPI_DOUBLE_PRECISION", "MPI_COMPLEX"], -45 ≤ a.const n ∧ a.const n < 0) :
    (mpi_init_fort_checks env a s).Sat (fun s' => s' = s) := by
  unfold mpi_init_fort_checks
  refine (verify_field_sat _ _ _ _).bind fun _ _ _ => (verify_field_sat _ _ _ _).bind fun _ _ _ =>
    (verify_field_sat _ _ _ _).bind fun _ _ _ => ?_
  refine (verify_size_sat hr ht a (hc _ (by simp)) _ _ _).bind fun x _ h => ?_
  obtain ⟨x, e⟩ := x
  cases h
  refine (verify_size_sat hr ht a (hc _ (by simp)) _ _ _).bind fun x _ h => ?_
  obtain ⟨x, e⟩ := x
  cases h
  refine (verify_size_sat hr ht a (hc _ (by simp)) _ _ _).bind fun x _ h => ?_
  obtain ⟨x, e⟩ := x
  cases h
  refine (verify_size_sat hr ht a (hc _ (by simp)) _ _ _).bind fun x _ h => ?_
  obtain ⟨x, e⟩ := x
  cases h
  refine (verify_size_sat hr ht a (hc _ (by simp)) _ _ _).bind fun x _ h => ?_
  obtain ⟨x, e⟩ := x
  cases h
  exact .ite (fun _ => trivial) fun _ => rfl

theorem Call.sat (hr : Reach env s L) (ht : Tidy env L) (hrm : Room L) (c : Call) (hc : c.Wf env L) :
    (c.exec env s).Sat (fun s' => ∃ L', Steps env s L s' L' ∧ Tidy env L') := by
  have hid : ∃ L', Steps env s L s L' ∧ Tidy env L' := ⟨L, .refl, ht⟩
  have hu : L.unmatched < 2147483647 := by have := hrm.2.2; omega
  have hsend : ∀ {x : Res (Sys × Int)}, x.Sat (fun x => ∃ L', Posted env s L x L') →
      (x >>= fun r => Res.ok r.1).Sat (fun s' => ∃ L', Steps env s L s' L' ∧ Tidy env L') := fun h =>
    h.bind fun r _ ⟨L', hp⟩ => ⟨L', hp.steps, hp.tidy⟩
  have hcomm : ∀ {x : Res (Sys × Int)}, CommCall s x →
      (x >>= fun r => Res.ok r.1).Sat (fun s' => ∃ L', Steps env s L s' L' ∧ Tidy env L') := fun h =>
    (comm_sat hr ht hrm h).bind fun _ _ h => h
  have hwf : ∀ {t : Int}, IsType env L t → ∃ d, L.desc env.cfg t = some d ∧ d.WF := fun ⟨d, hd⟩ =>
    ⟨d, hd, ht.types _ _ hd⟩
  cases c with
  | store m => exact mem_step hr ht m
  | init => exact init_sat hr ht hrm
  | initThread r =>
    refine Res.Sat.map ?_
    unfold MPI_Init_thread
    exact (init_sat hr ht hrm).bind fun _ _ h => h
  | fortInit a =>
    refine (init_sat hr ht hrm).bind fun s' _ ⟨L', h1, h2⟩ => ?_
    exact (fortChecks_sat (hr.steps h1) h2 a hc).mono fun s'' _ h => ⟨L', h ▸ h1, h2⟩
  | initialized => exact hid
  | finalize => exact finalize_sat ht
  | abort a b => trivial
  | commDup a => exact hcomm (.dup _)
  | commCreate a b => exact hcomm (.create _ _)
  | commSplit a b c => exact hcomm (.split _ _ _)
  | intercommCreate a b c d e => exact hcomm (.intercomm _ _ _ _ _)
  | cartCreate a b c => exact hcomm (.cart _ _ _)
  | commFree a =>
    obtain ⟨c, hc, _⟩ := hc
    exact (commFree_sat hr ht hc).bind fun _ _ h => h
  | isend a b c d e f => exact hsend (isend_sat hr ht _ _ _ hc hu)
  | irsend a b c d e f => exact (irsend_sat hr ht _ _ _ hc hu).bind fun _ _ h => h
  | send a b c d e f => exact (send_sat hr ht _ _ _ hc hu).mono fun _ _ ⟨L', h⟩ => ⟨L', h.steps, h.tidy⟩
  | irecv a b c d e f => exact hsend (irecv_sat hr ht _ _ _ hc hu)
  | recv a b c d e f st => exact (recv_sat hr ht _ _ _ hc hu _).bind fun _ _ ⟨L', h⟩ => ⟨L', h.steps, h.tidy⟩
  | sendrecv a b c d e f g h i j k st => exact (sendrecv_sat hr ht _ _ _ _ _ _ hc.1 hc.2 hrm.2.2 _).bind fun _ _ h => h
  | iprobe a b c st => exact stay_sat ht (iprobe_sat hr hc _ _ _)
  | probe a b c st =>
    refine stay_sat ht ?_
    unfold MPI_Probe
    exact (iprobe_sat hr hc _ _ _).bind fun _ _ h => .ite (fun _ => trivial) fun _ => h
  | test r st => exact (test_sat hr ht hc st).bind fun _ _ ⟨L', _, h⟩ => ⟨L', h⟩
  | wait r st => exact (wait_sat hr ht hc st).bind fun _ _ ⟨L', _, h⟩ => ⟨L', h⟩
  | requestFree r =>
    obtain ⟨i, o, h1, h2, h3⟩ := hc
    exact (requestFree_sat hr ht h1 h2 h3).bind fun _ _ h => h
  | testany n rs i st => exact (testany_sat hr ht hc.1 hc.2 i st).bind fun _ _ h => h
  | waitany n rs i st =>
    refine Res.Sat.map ?_
    unfold MPI_Waitany
    exact (testany_sat hr ht hc.1 hc.2 i st).bind fun _ _ h => .ite (fun _ => trivial) fun _ => h
  | testall n rs sts =>
    obtain ⟨rfl, hw⟩ := hc
    refine Res.Sat.map ?_
    unfold MPI_Testall
    rw [Int.toNat_natCast]
    exact testallLoop_sat rs [] s L sts 1 hr ht hw
  | waitall n rs sts =>
    obtain ⟨rfl, hw⟩ := hc
    refine Res.Sat.map ?_
    unfold MPI_Waitall
    rw [Int.toNat_natCast]
    exact waitallLoop_sat rs [] s L sts hr ht hw
  | testsome n rs ix sts =>
    obtain ⟨rfl, hw⟩ := hc
    refine Res.Sat.map ?_
    unfold MPI_Testsome
    rw [Int.toNat_natCast]
    exact (testsomeLoop_sat rs [] s L sts 0 hr ht hw).bind fun _ _ h => h
  | waitsome n rs ix sts =>
    obtain ⟨rfl, hw⟩ := hc
    refine Res.Sat.map ?_
    unfold MPI_Waitsome MPI_Testsome
    rw [Int.toNat_natCast]
    exact (testsomeLoop_sat rs [] s L sts 0 hr ht hw).bind fun _ _ h => h
  | typeContiguous n t =>
    obtain ⟨d, h1, h2⟩ := hwf hc.2
    exact (newType_sat hr ht (.contiguous h1) fun g => Type_contiguous_sat _ _ h2 _).bind fun _ _ h => h
  | typeHvector n b d t =>
    obtain ⟨d, h1, h2⟩ := hwf hc.2.2
    exact (newType_sat hr ht (.hvector h1) fun g => Type_hvector_sat _ _ h2 _ hc.2.1 _).bind fun _ _ h => h
  | typeVector n b d t =>
    obtain ⟨d, h1, h2⟩ := hwf hc.2.2
    exact (newType_sat hr ht (.vector h1) fun g => Type_vector_sat _ _ h2 _ hc.2.1 _).bind fun _ _ h => h
  | typeHindexed n b d t =>
    obtain ⟨_, _, hb, hty⟩ := hc
    obtain ⟨d, h1, h2⟩ := hwf hty
    exact (newType_sat hr ht (.hindexed h1) fun g => Type_hindexed_sat _ _ h2 _ hb _).bind fun _ _ h => h
  | typeIndexed n b d t =>
    obtain ⟨_, _, hb, hty⟩ := hc
    obtain ⟨d, h1, h2⟩ := hwf hty
    exact (newType_sat hr ht (.indexed h1) fun g => Type_indexed_sat _ _ h2 _ hb _).bind fun _ _ h => h
  | typeIndexedBlock n b d t =>
    obtain ⟨_, hb, hty⟩ := hc
    obtain ⟨d, h1, h2⟩ := hwf hty
    exact (newType_sat hr ht (.indexedBlock h1) fun g => Type_create_indexed_block_sat _ _ h2 _ hb _).bind fun _ _ h => h
  | typeStruct n b d ts =>
    obtain ⟨h1, h2, h3, h4, h5⟩ := hc
    exact (struct_sat hr ht h1 h2 h3 h4 h5).bind fun _ _ h => h
  | typeCommit t => exact commit_sat hr ht hc
  | typeFree t =>
    obtain ⟨⟨u, hm⟩, hf⟩ := hc
    exact typeFree_sat hr ht hm hf
  | typeExtent t => exact stay_sat ht (extent_sat hr ht hc)
  | typeSize t => exact stay_sat ht (size_sat hr ht hc)
  | typeLb t =>
    obtain ⟨d, h1, h2⟩ := typeOf_sat hr ht hc
    refine stay_sat ht ?_
    unfold MPI_Type_lb
    rw [h1, Res.ok_bind]; rfl
  | typeUb t =>
    obtain ⟨d, h1, h2⟩ := typeOf_sat hr ht hc
    refine stay_sat ht ?_
    unfold MPI_Type_ub
    rw [h1, Res.ok_bind]; rfl
  | getElements st t =>
    obtain ⟨d, h1, h2⟩ := typeOf_sat hr ht hc
    refine stay_sat ht ?_
    unfold MPI_Get_elements
    rw [h1, Res.ok_bind]
    exact (ck32_sat _).bind fun _ _ _ => rfl
  | pack a b t c d e comm =>
    obtain ⟨u, h1, h2⟩ := typeOf_sat hr ht hc.1
    obtain ⟨k, hcm⟩ := hc.2
    obtain ⟨M, lst, hi⟩ := hr.inv
    refine Res.Sat.map ?_
    unfold MPI_Pack
    rw [h1, Res.ok_bind]
    dsimp only
    rw [Sys.ptr_live hi.hst (mem_keys hcm), Res.ok_bind]
    exact (Pack_sat _ h2 _ _ _ _ _ _).bind fun x _ _ => mem_step hr ht x.1
  | packSize n t comm =>
    obtain ⟨u, h1, h2⟩ := typeOf_sat hr ht hc.1
    obtain ⟨k, hcm⟩ := hc.2
    obtain ⟨M, lst, hi⟩ := hr.inv
    refine stay_sat ht ?_
    unfold MPI_Pack_size
    rw [h1, Res.ok_bind]
    dsimp only
    rw [Sys.ptr_live hi.hst (mem_keys hcm), Res.ok_bind]
    exact (Pack_size_sat _ h2 _).bind fun _ _ _ => rfl
  | unpack a b c d e t comm =>
    obtain ⟨u, h1, h2⟩ := typeOf_sat hr ht hc.1
    obtain ⟨k, hcm⟩ := hc.2
    obtain ⟨M, lst, hi⟩ := hr.inv
    refine Res.Sat.map ?_
    unfold MPI_Unpack
    rw [h1, Res.ok_bind]
    dsimp only
    rw [Sys.ptr_live hi.hst (mem_keys hcm), Res.ok_bind]
    exact (Unpack_sat _ h2 _ _ _ _ _ _).bind fun x _ _ => mem_step hr ht x.1
  | barrier c => exact hid
  | bcast a b c r d => exact .ite (fun _ => hid) fun _ => .ite (fun _ => trivial) fun _ => hid
  | gather a b c d e f r comm =>
    exact .ite (fun _ => hid) fun _ => .ite (fun _ => hid) fun _ => .ite (fun _ => trivial) fun _ => copy_sat hr ht hc.1 hc.2 _ _ _ _
  | gatherv a b c d e f g r comm =>
    refine .ite (fun _ => hid) fun _ => .ite (fun _ => hid) fun _ => .ite (fun _ => trivial) fun _ => ?_
    exact (extent_sat hr ht hc.2).bind fun x _ hx => by
      obtain ⟨x1, x2⟩ := x
      cases hx
      exact (rd_sat _ _).bind fun _ _ _ => (rd_sat _ _).bind fun _ _ _ => copy_sat hr ht hc.1 hc.2 _ _ _ _
  | allgather a b c d e f comm => exact .ite (fun _ => hid) fun _ => copy_sat hr ht hc.1 hc.2 _ _ _ _
  | allgatherv a b c d e f g comm =>
    refine .ite (fun _ => hid) fun _ => ?_
    exact (extent_sat hr ht hc.2).bind fun x _ hx => by
      obtain ⟨x1, x2⟩ := x
      cases hx
      exact (rd_sat _ _).bind fun _ _ _ => (rd_sat _ _).bind fun _ _ _ => copy_sat hr ht hc.1 hc.2 _ _ _ _
  | scatter a b c d e f r comm =>
    exact .ite (fun _ => hid) fun _ => .ite (fun _ => hid) fun _ => .ite (fun _ => trivial) fun _ => copy_sat hr ht hc.1 hc.2 _ _ _ _
  | scatterv a b c d e f g r comm =>
    refine .ite (fun _ => hid) fun _ => .ite (fun _ => hid) fun _ => .ite (fun _ => trivial) fun _ => ?_
    exact (extent_sat hr ht hc.1).bind fun x _ hx => by
      obtain ⟨x1, x2⟩ := x
      cases hx
      exact (rd_sat _ _).bind fun _ _ _ => (rd_sat _ _).bind fun _ _ _ => copy_sat hr ht hc.1 hc.2 _ _ _ _
  | reduce a b n t op r comm => exact .ite (fun _ => trivial) fun _ => copy_sat hr ht hc hc _ _ _ _
  | allreduce a b n t op comm => exact .ite (fun _ => hid) fun _ => copy_sat hr ht hc hc _ _ _ _
  | reduceScatter a b n t op comm => exact (rd_sat _ _).bind fun _ _ _ => copy_sat hr ht hc hc _ _ _ _
  | scan a b n t op comm => exact copy_sat hr ht hc hc _ _ _ _
  | alltoall a b c d e f comm => exact copy_sat hr ht hc.1 hc.2 _ _ _ _
  | alltoallv a b c d e f g h comm =>
    refine (extent_sat hr ht hc.1).bind fun x _ hx => ?_
    obtain ⟨x1, x2⟩ := x
    cases hx
    refine (extent_sat hr ht hc.2).bind fun x _ hx => ?_
    obtain ⟨x1, x3⟩ := x
    cases hx
    exact (rd_sat _ _).bind fun _ _ _ => (rd_sat _ _).bind fun _ _ _ => (rd_sat _ _).bind fun _ _ _ =>
      (rd_sat _ _).bind fun _ _ _ => copy_sat hr ht hc.1 hc.2 _ _ _ _
  | alltoallw a b c d e f g h comm =>
    exact (rd_sat _ _).bind fun _ _ _ => (rd_sat _ _).bind fun _ _ _ => (rd_sat _ _).bind fun _ _ h1 =>
      (rd_sat _ _).bind fun _ _ _ => (rd_sat _ _).bind fun _ _ _ => (rd_sat _ _).bind fun _ _ h2 =>
      copy_sat hr ht (hc.1 _ (List.mem_of_getElem? h1)) (hc.2 _ (List.mem_of_getElem? h2)) _ _ _ _

/-! ## Accounts of one state agree -/

theorem FreeChain.unique {D : Type} {items : Loc → Item D} : ∀ {p : Option Loc} {a b : List Loc},
    FreeChain items p a → FreeChain items p b → a = b := by
  intro p a
  induction a generalizing p with
  | nil =>
    intro b h1 h2
    cases b with
    | nil => rfl
    | cons y b => simp only [FreeChain] at h1 h2; rw [h1] at h2; cases h2.1
  | cons x a ih =>
    intro b h1 h2
    cases b with
    | nil => simp only [FreeChain] at h1 h2; rw [h2] at h1; cases h1.1
    | cons y b =>
      simp only [FreeChain] at h1 h2
      have : x = y := by
        have := h1.1.symm.trans h2.1
        simpa using this
      subst this
      rw [ih h1.2 h2.2]

theorem HSt.unique {D : Type} {t : HTab D} {A B : List Int} (h1 : HSt t A) (h2 : HSt t B) {h : Int} (hm : h ∈ A) : h ∈ B := by
  rcases h1 with ⟨_, rfl⟩ | ⟨fl, h1⟩
  · cases hm
  · rcases h2 with ⟨h2, _⟩ | ⟨fl', h2⟩
    · rw [h1.init] at h2; cases h2
    · rw [h2.live]
      rw [h1.live] at hm
      rw [← FreeChain.unique h1.chain h2.chain]
      exact hm

variable {M' : AbsLists Loc} {lst' : Nat → Kind → Nat}

/-- Same live handles. -/
theorem Inv.agree_keys (hi : Inv s L M lst) (hi' : Inv s L' M' lst') {h : Int} {o : Obj} (hm : (h, o) ∈ L.objs) :
    ∃ o', (h, o') ∈ L'.objs := by
  have := hi.hst.unique hi'.hst (mem_keys hm)
  rw [List.mem_map] at this
  obtain ⟨⟨_, o'⟩, h1, rfl⟩ := this
  exact ⟨o', h1⟩

/-- Same communicators. -/
theorem Inv.agree_comm (hi : Inv s L M lst) (hi' : Inv s L' M' lst') {h : Int} {c : Nat} (hm : (h, Obj.comm c) ∈ L.objs) :
    ∃ c', (h, Obj.comm c') ∈ L'.objs ∧ ∀ k, lst c k = lst' c' k := by
  obtain ⟨o', h1⟩ := hi.agree_keys hi' hm
  obtain ⟨_, n, hd⟩ := hi.comm _ _ hm
  cases o' with
  | comm c' =>
    obtain ⟨_, n', hd'⟩ := hi'.comm _ _ h1
    rw [hd] at hd'
    simp only [Slot.comm.injEq, CommRec.mk.injEq] at hd'
    exact ⟨c', h1, fun k => by cases k with | send => exact hd'.1 | recv => exact hd'.2.1⟩
  | req i => obtain ⟨_, r, _, _, hd', _⟩ := hi'.req _ _ h1; rw [hd] at hd'; cases hd'
  | dtype t => obtain ⟨p, hd', _⟩ := hi'.dtype _ _ h1; rw [hd] at hd'; cases hd'

/-- Same datatypes. -/
theorem Inv.agree_dtype (hi : Inv s L M lst) (hi' : Inv s L' M' lst') {h : Int} {t : Typestruct} (hm : (h, Obj.dtype t) ∈ L.objs) :
    (h, Obj.dtype t) ∈ L'.objs := by
  obtain ⟨o', h1⟩ := hi.agree_keys hi' hm
  obtain ⟨p, hd, ht⟩ := hi.dtype _ _ hm
  cases o' with
  | comm c' => obtain ⟨_, n', hd'⟩ := hi'.comm _ _ h1; rw [hd] at hd'; cases hd'
  | req i => obtain ⟨_, r, _, _, hd', _⟩ := hi'.req _ _ h1; rw [hd] at hd'; cases hd'
  | dtype t' =>
    obtain ⟨p', hd', ht'⟩ := hi'.dtype _ _ h1
    rw [hd] at hd'
    cases hd'
    rw [ht] at ht'
    cases ht'
    exact h1

/-- Same requests, pending in both or in neither. -/
theorem Inv.agree_req (hi : Inv s L M lst) (hi' : Inv s L' M' lst') {h : Int} {i : Nat} (hm : (h, Obj.req i) ∈ L.objs) :
    ∃ i' o o', (h, Obj.req i') ∈ L'.objs ∧ L.ops[i]? = some o ∧ L'.ops[i']? = some o' ∧ (o.st = .pending ↔ o'.st = .pending) := by
  obtain ⟨x, h1⟩ := hi.agree_keys hi' hm
  obtain ⟨o, r, ho, _, hd, hr⟩ := hi.req _ _ hm
  cases x with
  | comm c' => obtain ⟨_, n', hd'⟩ := hi'.comm _ _ h1; rw [hd] at hd'; cases hd'
  | dtype t => obtain ⟨p, hd', _⟩ := hi'.dtype _ _ h1; rw [hd] at hd'; cases hd'
  | req i' =>
    obtain ⟨o', r', ho', _, hd', hr'⟩ := hi'.req _ _ h1
    rw [hd] at hd'
    cases hd'
    refine ⟨i', o, o', h1, ho, ho', ?_⟩
    unfold RecOk at hr hr'
    constructor
    · intro hp
      rw [hp] at hr
      cases hp' : o'.st with
      | pending => rfl
      | matched j => rw [hp'] at hr'; have := hr.1.symm.trans hr'.1; cases this
      | null => rw [hp'] at hr'; have := hr.1.symm.trans hr'.1; cases this
    · intro hp
      rw [hp] at hr'
      cases hp' : o.st with
      | pending => rfl
      | matched j => rw [hp'] at hr; have := hr.1.symm.trans hr'.1; cases this
      | null => rw [hp'] at hr; have := hr.1.symm.trans hr'.1; cases this

/-- Same pending receives, as far as their datatypes go. -/
theorem Inv.agree_inflight (hi : Inv s L M lst) (hi' : Inv s L' M' lst') {o : Op} (ho : InFlight L o) (hk : o.kind = .recv) :
    ∃ o', InFlight L' o' ∧ o'.kind = .recv ∧ o'.dtype = o.dtype := by
  obtain ⟨h1, h2, hc, h3⟩ := ho
  obtain ⟨c', h4, h5⟩ := hi.agree_comm hi' h3
  obtain ⟨q, hq, hq2⟩ := hi.queue _ _ h3 .recv
  obtain ⟨q', hq', hq2'⟩ := hi'.queue _ _ h4 .recv
  rw [← h5] at hq'
  have e : q.map Prod.snd = q'.map Prod.snd := by
    have e1 := hi.linv.print hq
    have e2 := hi'.linv.print hq'
    rw [e1] at e2
    exact (Prod.mk.inj (Res.ok.inj e2)).2
  have hin : locOf o.h ∈ (queueOf L'.ops .recv c').map (fun o => locOf o.h) := by
    rw [← hq2', ← e, hq2, List.mem_map]
    exact ⟨o, mem_queueOf.2 ⟨h1, hk, rfl, h2⟩, rfl⟩
  rw [List.mem_map] at hin
  obtain ⟨o', h6, h7⟩ := hin
  obtain ⟨h8, h9, h10, h11⟩ := mem_queueOf.1 h6
  obtain ⟨i, hi1, rfl⟩ := List.getElem_of_mem h1
  obtain ⟨i', hi1', rfl⟩ := List.getElem_of_mem h8
  have m1 := hi.held i _ (List.getElem?_eq_getElem hi1) h2 _ h3
  have m2 := hi'.held i' _ (List.getElem?_eq_getElem hi1') h11 hc (h10 ▸ h4)
  have hh : L'.ops[i'].h = L.ops[i].h :=
    locOf_inj (by have := (hi'.hst.pos (mem_keys m2)).1; omega) (by have := (hi.hst.pos (mem_keys m1)).1; omega) h7
  obtain ⟨a, r, ha, _, hd, hr⟩ := hi.req _ _ m1
  obtain ⟨a', r', ha', _, hd', hr'⟩ := hi'.req _ _ m2
  rw [List.getElem?_eq_getElem hi1] at ha
  rw [List.getElem?_eq_getElem hi1'] at ha'
  cases ha; cases ha'
  rw [hh, hd] at hd'
  cases hd'
  refine ⟨_, ⟨List.getElem_mem _, h11, hc, h10 ▸ h4⟩, h9, ?_⟩
  unfold RecOk at hr hr'
  rw [h2] at hr
  rw [h11] at hr'
  rw [← (hr.2.2.2 hk).2, ← (hr'.2.2.2 h9).2]

theorem Tidy.agree (hr : Reach env s L) (hr' : Reach env s L') (ht : Tidy env L) : Tidy env L' := by
  obtain ⟨M, lst, hi⟩ := hr.inv
  obtain ⟨M', lst', hi'⟩ := hr'.inv
  have hd : ∀ h t, L.desc env.cfg h = some t ↔ L'.desc env.cfg h = some t := by
    intro h t
    rw [desc_iff hr.nodup, desc_iff hr'.nodup]
    constructor
    · exact Or.imp id fun h => ⟨h.1, hi.agree_dtype hi' h.2⟩
    · exact Or.imp id fun h => ⟨h.1, hi'.agree_dtype hi h.2⟩
  refine ⟨fun o ho hk => ?_, fun h t h1 => ht.types h t ((hd h t).2 h1)⟩
  obtain ⟨o', h1, h2, h3⟩ := hi'.agree_inflight hi ho hk
  obtain ⟨t, h4⟩ := ht.inflight o' h1 h2
  exact ⟨t, (hd _ _).1 (h3 ▸ h4)⟩

theorem IsType.agree (hr : Reach env s L) (hr' : Reach env s L') {h : Int} (ht : IsType env L h) : IsType env L' h := by
  obtain ⟨M, lst, hi⟩ := hr.inv
  obtain ⟨M', lst', hi'⟩ := hr'.inv
  obtain ⟨t, hd⟩ := ht
  rcases (desc_iff hr.nodup).1 hd with h1 | ⟨h1, h2⟩
  · exact ⟨t, (desc_iff hr'.nodup).2 (Or.inl h1)⟩
  · exact ⟨t, (desc_iff hr'.nodup).2 (Or.inr ⟨h1, hi.agree_dtype hi' h2⟩)⟩

theorem IsComm.agree (hr : Reach env s L) (hr' : Reach env s L') {h : Int} (hc : IsComm L h) : IsComm L' h := by
  obtain ⟨M, lst, hi⟩ := hr.inv
  obtain ⟨M', lst', hi'⟩ := hr'.inv
  obtain ⟨c, hc⟩ := hc
  obtain ⟨c', h1, _⟩ := hi.agree_comm hi' hc
  exact ⟨c', h1⟩

theorem isReq_agree (hr : Reach env s L) (hr' : Reach env s L') {h : Int} (hc : ∃ i, (h, Obj.req i) ∈ L.objs) :
    ∃ i, (h, Obj.req i) ∈ L'.objs := by
  obtain ⟨M, lst, hi⟩ := hr.inv
  obtain ⟨M', lst', hi'⟩ := hr'.inv
  obtain ⟨i, hm⟩ := hc
  obtain ⟨i', _, _, h1, _⟩ := hi.agree_req hi' hm
  exact ⟨i', h1⟩

theorem WfReqs.agree (hr : Reach env s L) (hr' : Reach env s L') {hs : List Int} (hw : WfReqs L hs) : WfReqs L' hs := by
  induction hs with
  | nil => trivial
  | cons a hs ih => exact ⟨hw.1.imp id fun h => ⟨isReq_agree hr hr' h.1, h.2⟩, ih hw.2⟩

theorem Call.Wf.agree (hr : Reach env s L) (hr' : Reach env s L') (c : Call) (hnf : ∀ t, c ≠ .typeFree t)
    (hw : c.Wf env L) : c.Wf env L' := by
  have ht : ∀ {t}, IsType env L t → IsType env L' t := fun h => h.agree hr hr'
  have hp : ∀ {t d c}, P2PArgs env L t d c → P2PArgs env L' t d c := fun h => ⟨ht h.1, h.2.imp (fun h => h.agree hr hr') id⟩
  have hrq : ∀ {r : Int}, (r = MPI_REQUEST_NULL ∨ ∃ i, (r, Obj.req i) ∈ L.objs) → (r = MPI_REQUEST_NULL ∨ ∃ i, (r, Obj.req i) ∈ L'.objs) :=
    fun h => h.imp id (isReq_agree hr hr')
  obtain ⟨M, lst, hi⟩ := hr.inv
  obtain ⟨M', lst', hi'⟩ := hr'.inv
  cases c with
  | typeFree t => exact absurd rfl (hnf t)
  | fortInit a => exact hw
  | commFree h =>
    obtain ⟨c, h3, h2⟩ := hw
    obtain ⟨c', h4, h5⟩ := hi.agree_comm hi' h3
    refine ⟨c', h4, fun o' ho' hp' hc' => ?_⟩
    obtain ⟨q, hq, hq2⟩ := hi.queue _ _ h3 o'.kind
    obtain ⟨q', hq', hq2'⟩ := hi'.queue _ _ h4 o'.kind
    rw [← h5] at hq'
    have e : q.map Prod.snd = q'.map Prod.snd := by
      have e1 := hi.linv.print hq
      have e2 := hi'.linv.print hq'
      rw [e1] at e2
      exact (Prod.mk.inj (Res.ok.inj e2)).2
    have hin : locOf o'.h ∈ (queueOf L.ops o'.kind c).map (fun o => locOf o.h) := by
      rw [← hq2, e, hq2', List.mem_map]
      exact ⟨o', mem_queueOf.2 ⟨ho', rfl, hc', hp'⟩, rfl⟩
    rw [List.mem_map] at hin
    obtain ⟨o, h6, _⟩ := hin
    obtain ⟨h8, _, h10, h11⟩ := mem_queueOf.1 h6
    exact h2 o h8 h11 h10
  | isend a b c d e f => exact hp hw
  | irsend a b c d e f => exact hp hw
  | send a b c d e f => exact hp hw
  | irecv a b c d e f => exact hp hw
  | recv a b c d e f st => exact hp hw
  | sendrecv a b c d e f g h i j k st => exact ⟨hp hw.1, hp hw.2⟩
  | iprobe a b c st => exact IsComm.agree hr hr' hw
  | probe a b c st => exact IsComm.agree hr hr' hw
  | test r st => exact hrq hw
  | wait r st => exact hrq hw
  | requestFree r =>
    obtain ⟨i, o, h1, h2, h3⟩ := hw
    obtain ⟨i', o1, o', h4, h5, h6, h7⟩ := hi.agree_req hi' h1
    rw [h2] at h5
    cases h5
    exact ⟨i', o', h4, h6, fun h => h3 (h7.2 h)⟩
  | testany n rs i st => exact ⟨hw.1, hw.2.agree hr hr'⟩
  | waitany n rs i st => exact ⟨hw.1, hw.2.agree hr hr'⟩
  | testall n rs sts => exact ⟨hw.1, hw.2.agree hr hr'⟩
  | waitall n rs sts => exact ⟨hw.1, hw.2.agree hr hr'⟩
  | testsome n rs ix sts => exact ⟨hw.1, hw.2.agree hr hr'⟩
  | waitsome n rs ix sts => exact ⟨hw.1, hw.2.agree hr hr'⟩
  | typeContiguous n t => exact ⟨hw.1, ht hw.2⟩
  | typeHvector n b d t => exact ⟨hw.1, hw.2.1, ht hw.2.2⟩
  | typeVector n b d t => exact ⟨hw.1, hw.2.1, ht hw.2.2⟩
  | typeHindexed n b d t => exact ⟨hw.1, hw.2.1, hw.2.2.1, ht hw.2.2.2⟩
  | typeIndexed n b d t => exact ⟨hw.1, hw.2.1, hw.2.2.1, ht hw.2.2.2⟩
  | typeIndexedBlock n b d t => exact ⟨hw.1, hw.2.1, ht hw.2.2⟩
  | typeStruct n b d ts => exact ⟨hw.1, hw.2.1, hw.2.2.1, hw.2.2.2.1, fun t h => ht (hw.2.2.2.2 t h)⟩
  | typeCommit t => exact ht hw
  | typeExtent t => exact ht hw
  | typeSize t => exact ht hw
  | typeLb t => exact ht hw
  | typeUb t => exact ht hw
  | getElements st t => exact ht hw
  | pack a b t c d e comm => exact ⟨ht hw.1, IsComm.agree hr hr' hw.2⟩
  | packSize n t comm => exact ⟨ht hw.1, IsComm.agree hr hr' hw.2⟩
  | unpack a b c d e t comm => exact ⟨ht hw.1, IsComm.agree hr hr' hw.2⟩
  | gather a b c d e f r comm => exact ⟨ht hw.1, ht hw.2⟩
  | gatherv a b c d e f g r comm => exact ⟨ht hw.1, ht hw.2⟩
  | allgather a b c d e f comm => exact ⟨ht hw.1, ht hw.2⟩
  | allgatherv a b c d e f g comm => exact ⟨ht hw.1, ht hw.2⟩
  | scatter a b c d e f r comm => exact ⟨ht hw.1, ht hw.2⟩
  | scatterv a b c d e f g r comm => exact ⟨ht hw.1, ht hw.2⟩
  | alltoall a b c d e f comm => exact ⟨ht hw.1, ht hw.2⟩
  | alltoallv a b c d e f g i comm => exact ⟨ht hw.1, ht hw.2⟩
  | alltoallw a b c d e f g i comm => exact ⟨fun t h => ht (hw.1 t h), fun t h => ht (hw.2 t h)⟩
  | reduce a b n t op r comm => exact ht hw
  | allreduce a b n t op comm => exact ht hw
  | reduceScatter a b n t op comm => exact ht hw
  | scan a b n t op comm => exact ht hw
  | _ => trivial

theorem WfReach.reach (h : WfReach env s L) : Reach env s L ∧ Tidy env L := by
  induction h with
  | start => exact ⟨.start, .start⟩
  | call _ hrm hc hok hs ih =>
    obtain ⟨hr, ht⟩ := ih
    obtain ⟨L1, h1, h2⟩ := (Res.sat_iff.1 (Call.sat hr ht hrm _ hc)).2 _ hok
    exact ⟨hr.steps hs, h2.agree (hr.steps h1) (hr.steps hs)⟩

end

end MpiSerial
