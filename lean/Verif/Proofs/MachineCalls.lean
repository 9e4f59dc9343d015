import Verif.Proofs.Machine

/-!
# Messages and requests on the reference machine
-/

set_option linter.unusedSimpArgs false
set_option autoImplicit false

namespace MpiSerial

open Res (Rel)

/-- The machine `M` stands for the state `s` of the library. -/
structure Sim (env : Env) (s : Sys) (M : Mach) : Prop where
  reach : Reach env s M.L
  tidy : Tidy env M.L
  pool : PoolRel s.handles M.pool
  mem : s.mem = M.mem
  built : s.nextType = M.built

section
variable {env : Env} {s s' : Sys} {M M' : Mach} {L L' : Ledger}

/-! ## Looking things up -/

theorem Mach.obj_eq (hn : (M.L.objs.map Prod.fst).Nodup) {h : Int} {o : Obj} (hm : (h, o) ∈ M.L.objs) : M.obj h = some o := by
  unfold Mach.obj
  cases hf : M.L.objs.find? fun e => decide (e.1 = h) with
  | none =>
    rw [List.find?_eq_none] at hf
    have := hf _ hm
    simp at this
  | some e =>
    have h1 := List.mem_of_find?_eq_some hf
    have h2 := List.find?_some hf
    obtain ⟨a, b⟩ := e
    simp only [decide_eq_true_eq] at h2
    subst h2
    rw [nodup_fst_unique hn h1 hm]
    rfl

theorem Mach.cid_eq (hn : (M.L.objs.map Prod.fst).Nodup) {h : Int} {c : Nat} (hm : (h, Obj.comm c) ∈ M.L.objs) : M.cid h = .ok c := by
  unfold Mach.cid
  rw [M.obj_eq hn hm]

theorem Mach.op_eq (hn : (M.L.objs.map Prod.fst).Nodup) {h : Int} {i : Nat} {o : Op} (hm : (h, Obj.req i) ∈ M.L.objs)
    (ho : M.L.ops[i]? = some o) : M.op h = .ok o := by
  unfold Mach.op
  rw [M.obj_eq hn hm]
  dsimp only
  rw [ho]

theorem Mach.type_eq {h : Int} {t : Typestruct} (hd : M.L.desc env.cfg h = some t) : M.type env h = .ok t := by
  unfold Mach.type
  rw [hd]

theorem Mach.copy_eq {a b : Int} {t u : Typestruct} (ha : M.L.desc env.cfg a = some t) (hb : M.L.desc env.cfg b = some u)
    (p n q k : Int) : M.copy env p n a q k b = Pcopy_data2 env.cfg M.mem p n t q k u >>= fun m => .ok { M with mem := m } := by
  unfold Mach.copy
  rw [M.type_eq ha, M.type_eq hb]
  rfl

/-! ## Posting -/

/-- Postcondition of MPI_Isend and MPI_Irecv. -/
structure PostedM (env : Env) (s : Sys) (M : Mach) (k : Kind) (x : Sys × Int) (y : Mach × Int) : Prop where
  steps : Steps env s M.L x.1 y.1.L
  sim : Sim env x.1 y.1
  val : x.2 = y.2
  live : ∃ i o, (x.2, Obj.req i) ∈ y.1.L.objs ∧ y.1.L.ops[i]? = some o ∧ o.kind = k
  fresh : x.2 ∉ M.L.objs.map Prod.fst
  news : ∀ h i, (h, Obj.req i) ∈ y.1.L.objs → h = x.2 ∨ (h, Obj.req i) ∈ M.L.objs
  keeps : ∀ z ∈ M.L.objs, z ∈ y.1.L.objs
  kinds : ∀ (i : Nat) o, M.L.ops[i]? = some o → ∃ o', y.1.L.ops[i]? = some o' ∧ o'.kind = o.kind
  room : Grow 0 1 M.L y.1.L

/-- The handle numbers and the memory after a posted operation. -/
theorem Sim.took (hs : Sim env s M) {h : Int} (hd : Took s s' h) {t : HTab Slot} {h' : Int} {l : Loc} {P' : Pool}
    (ha : mpi_alloc_handle s.handles Slot.raw = .ok (t, h', l)) (hp : PoolRel t P') (hn : t.needInit = false) :
    h = h' ∧ PoolRel s'.handles P' ∧ s'.nextType = M.built := by
  obtain ⟨t1, l1, h1, h2⟩ := hd
  rw [ha] at h1
  cases h1
  have := h2 hn
  exact ⟨rfl, this.pool hp, this.built.trans hs.built⟩

theorem postedM (hs : Sim env s M) {k : Kind} {c : Nat} {tag buf count dtype h : Int} {P : Pool} {m : Mem}
    (hstep : Step env s M.L s' (M.L.post k c tag buf count dtype h)) (ht : Tidy env (M.L.post k c tag buf count dtype h))
    (hp : PoolRel s'.handles P) (hm : s'.mem = m) (hb : s'.nextType = M.built) :
    PostedM env s M k (s', h) (⟨M.L.post k c tag buf count dtype h, P, m, M.built⟩, h) := by
  have hn := (hs.reach.step hstep).nodup
  rw [post_objs, List.map_cons, List.nodup_cons] at hn
  refine ⟨.one hstep, ⟨hs.reach.step hstep, ht, hp, hm, hb⟩, rfl,
    ⟨M.L.ops.length, _, by rw [post_objs]; simp, post_new _ _ _ _ _ _ _, rfl⟩,
    hn.1, fun h' i hm => ?_, fun z hz => by rw [post_objs]; exact List.mem_cons_of_mem _ hz, fun i o ho => ?_, ?_, unmatched_post_le⟩
  · rw [post_objs] at hm
    rcases List.mem_cons.1 hm with hm | hm
    · cases hm; exact Or.inl rfl
    · exact Or.inr hm
  rotate_left
  · unfold Ledger.post
    dsimp only
    split <;> exact Nat.le_refl _
  refine ⟨_, post_old k c tag buf count dtype h ho, ?_⟩
  split <;> rfl

theorem postedNullM (hs : Sim env s M) {k : Kind} {tag buf count dtype h : Int} {P : Pool} {m : Mem}
    (hstep : Step env s M.L s' (M.L.postNull k tag buf count dtype h)) (ht : Tidy env (M.L.postNull k tag buf count dtype h))
    (hp : PoolRel s'.handles P) (hm : s'.mem = m) (hb : s'.nextType = M.built) :
    PostedM env s M k (s', h) (⟨M.L.postNull k tag buf count dtype h, P, m, M.built⟩, h) := by
  have hn := (hs.reach.step hstep).nodup
  rw [Ledger.postNull, List.map_cons, List.nodup_cons] at hn
  refine ⟨.one hstep, ⟨hs.reach.step hstep, ht, hp, hm, hb⟩, rfl,
    ⟨M.L.ops.length, _, by simp [Ledger.postNull], by simp [Ledger.postNull]; rfl, rfl⟩,
    hn.1, fun h' i hm => ?_, fun z hz => List.mem_cons_of_mem _ hz, fun i o ho => ⟨o, postNull_old _ _ _ _ _ _ ho, rfl⟩, Nat.le_refl _, ?_⟩
  · rcases List.mem_cons.1 hm with hm | hm
    · cases hm; exact Or.inl rfl
    · exact Or.inr hm
  simp [Ledger.unmatched, Ledger.postNull, List.countP_append]

/-- A new request after which the table is in order. -/
theorem Posted.tidy_of (hs : Sim env s M) {x : Sys × Int} {r : Res (Sys × Int)} (hsat : r.Sat (fun x => ∃ L', Posted env s M.L x L'))
    (he : r = .ok x) (hstep : Step env s M.L x.1 L') : Tidy env L' := by
  rw [he] at hsat
  obtain ⟨L1, h1⟩ := hsat
  exact h1.tidy.agree (hs.reach.steps h1.steps) (hs.reach.step hstep)

theorem post_sim (hs : Sim env s M) {k : Kind} {c : Nat} {comm tag buf count dtype : Int} {r : Res (Sys × Int)} {y : Res (Mach × Int)}
    {A : AbsLists Loc} {lst : Nat → Kind → Nat} (hi : Inv s M.L A lst) (hcm : (comm, Obj.comm c) ∈ M.L.objs)
    (hps : PostSpec env s M.L lst k c tag buf count dtype r) (hty : IsType env M.L dtype)
    (hstep : ∀ s' h, r = .ok (s', h) → Step env s M.L s' (M.L.post k c tag buf count dtype h))
    (htook : ∀ s' h, r = .ok (s', h) → Took s s' h)
    (hfull : ∀ m, mpi_alloc_handle s.handles Slot.raw = .abort m → r = .abort m)
    (hsat : r.Sat (fun x => ∃ L', Posted env s M.L x L'))
    (hy : y = M.fresh >>= fun x =>
      match M.L.partner c k tag with
      | none => Res.ok ({ x.1 with L := x.1.L.post k c tag buf count dtype x.2 }, x.2)
      | some j =>
        match M.L.ops[j]? with
        | none => .ub .kind
        | some o => (if k = .send then x.1.copy env buf count dtype o.buf o.count o.dtype else x.1.copy env o.buf count dtype buf count dtype) >>=
            fun N => Res.ok ({ N with L := N.L.post k c tag buf count dtype x.2 }, x.2)) :
    r.Rel (PostedM env s M k) y := by
  subst hy
  rcases hs.pool.alloc hi.hst .raw with ⟨hlt, t, h, P', ha, htk, hp', hn, _⟩ | ⟨_, htk, ha⟩
  rotate_left
  · rw [hfull _ ha]
    unfold Mach.fresh
    rw [htk]
    rfl
  have hf : M.fresh = .ok ({ M with pool := P' }, h) := by unfold Mach.fresh; rw [htk]
  rw [List.length_map] at hlt
  rw [hf, Res.ok_bind]
  dsimp only
  rcases hps with ⟨h1, _⟩ | ⟨_, h1, s1, h', M1, he, hm, _, _⟩ | ⟨_, j, o, s1, h', M1, X, h1, h2, he, _, hX, _⟩
  · omega
  · rw [h1]
    dsimp only
    obtain ⟨rfl, h3, h4⟩ := hs.took (htook _ _ he) ha hp' hn
    have := hstep _ _ he
    have ht := Posted.tidy_of hs hsat he this
    rw [he]
    exact postedM hs this ht h3 (hm.trans hs.mem) h4
  · rw [h1]
    dsimp only
    rw [h2]
    dsimp only
    obtain ⟨t0, hd⟩ := hty
    obtain ⟨o1, hE⟩ := partner_earliest h1
    have := hE.1
    rw [h2] at this
    cases this
    have hfl : InFlight M.L o := ⟨List.mem_of_getElem? h2, hE.2.1.2.2, comm, hE.2.1.2.1 ▸ hcm⟩
    have key : (if k = .send then Mach.copy env { M with pool := P' } buf count dtype o.buf o.count o.dtype
        else Mach.copy env { M with pool := P' } o.buf count dtype buf count dtype) =
        X >>= fun m => .ok { M with pool := P', mem := m } := by
      cases k with
      | send =>
        obtain ⟨t', hd'⟩ := hs.tidy.inflight o hfl hE.2.1.1
        rw [if_pos rfl, Mach.copy_eq (M := { M with pool := P' }) hd hd', hX t0 t' hd (by rw [if_pos rfl]; exact hd'), if_pos rfl, ← hs.mem]
      | recv =>
        rw [if_neg (by simp), Mach.copy_eq (M := { M with pool := P' }) hd hd, hX t0 t0 hd (by rw [if_neg (by simp)]; exact hd), if_neg (by simp),
          ← hs.mem]
    rw [key]
    cases hx : X with
    | ok m =>
      rw [hx, Res.ok_bind] at he
      obtain ⟨rfl, h3, h4⟩ := hs.took (htook _ _ he) ha hp' hn
      have := hstep _ _ he
      have ht := Posted.tidy_of hs hsat he this
      rw [he]
      exact postedM hs this ht h3 rfl h4
    | abort _ => rw [he, hx]; rfl
    | exit _ => rw [he, hx]; rfl
    | ub _ => rw [he, hx]; rfl
    | hang => rw [he, hx]; trivial

theorem postNull_sim (hs : Sim env s M) {k : Kind} {tag buf count dtype : Int} {r : Res (Sys × Int)} {y : Res (Mach × Int)}
    {A : AbsLists Loc} {lst : Nat → Kind → Nat} (hi : Inv s M.L A lst)
    (hps : NullSpec s M.L A lst k tag buf count dtype r)
    (hstep : ∀ s' h, r = .ok (s', h) → Step env s M.L s' (M.L.postNull k tag buf count dtype h))
    (htook : ∀ s' h, r = .ok (s', h) → Took s s' h)
    (hfull : ∀ m, mpi_alloc_handle s.handles Slot.raw = .abort m → r = .abort m)
    (hsat : r.Sat (fun x => ∃ L', Posted env s M.L x L'))
    (hy : y = M.fresh >>= fun x => Res.ok ({ x.1 with L := x.1.L.postNull k tag buf count dtype x.2 }, x.2)) :
    r.Rel (PostedM env s M k) y := by
  subst hy
  rcases hs.pool.alloc hi.hst .raw with ⟨hlt, t, h, P', ha, htk, hp', hn, _⟩ | ⟨_, htk, ha⟩
  rotate_left
  · rw [hfull _ ha]
    unfold Mach.fresh
    rw [htk]
    rfl
  have hf : M.fresh = .ok ({ M with pool := P' }, h) := by unfold Mach.fresh; rw [htk]
  rw [List.length_map] at hlt
  rw [hf, Res.ok_bind]
  rcases hps with ⟨h1, _⟩ | ⟨_, s1, h', he, hm, _, _⟩
  · omega
  · obtain ⟨rfl, h3, h4⟩ := hs.took (htook _ _ he) ha hp' hn
    have := hstep _ _ he
    have ht := Posted.tidy_of hs hsat he this
    rw [he]
    exact postedNullM hs this ht h3 (hm.trans hs.mem) h4

theorem Mach.fresh_L {x : Mach × Int} (h : M.fresh = .ok x) : x.1.L = M.L := by
  unfold Mach.fresh at h
  split at h
  · cases h
  · cases h; rfl

theorem Mach.fresh_mem {x : Mach × Int} (h : M.fresh = .ok x) : x.1.mem = M.mem := by
  unfold Mach.fresh at h
  split at h
  · cases h
  · cases h; rfl

theorem Res.bind_congr {α β : Type} {x : Res α} {f g : α → Res β} (h : ∀ a, x = .ok a → f a = g a) : (x >>= f) = (x >>= g) := by
  cases x with
  | ok a => exact h a rfl
  | abort _ => rfl
  | exit _ => rfl
  | ub _ => rfl
  | hang => rfl

theorem isend_sim (hs : Sim env s M) (buf count : Int) {dtype dest : Int} (tag : Int) {comm : Int}
    (ha : P2PArgs env M.L dtype dest comm) (hu : M.L.unmatched < 2147483647) :
    (MPI_Isend env s buf count dtype dest tag comm).Rel (PostedM env s M .send) (M.isend env buf count dtype dest tag comm) := by
  obtain ⟨A, lst, hi⟩ := hs.reach.inv
  have hc : comm = MPI_COMM_NULL ∨ ∃ c, (comm, Obj.comm c) ∈ M.L.objs := ha.2.symm.imp (·.1) id
  have hc' : comm = MPI_COMM_NULL ∨ comm ∈ M.L.objs.map Prod.fst := hc.imp id fun ⟨c, h⟩ => mem_keys h
  obtain ⟨s1, p, hptr, _⟩ := hi.ptr_any hc'
  have hsat := isend_sat hs.reach hs.tidy buf count tag ha hu
  by_cases h2 : dest = MPI_PROC_NULL
  · subst h2
    refine postNull_sim hs hi (isendNull_spec hi hc' buf count dtype tag) (fun s' h hok => .isendNull hc hok)
      (fun s' h hok => isend_took hok) (fun m hm => isend_full hptr (Or.inr rfl) hm) hsat ?_
    unfold Mach.isend
    rw [if_neg (fun h => h.2 rfl)]
    refine Res.bind_congr fun x hx => ?_
    obtain ⟨N, h⟩ := x
    dsimp only
    rw [if_pos rfl]
    rfl
  · obtain ⟨c, hcm⟩ := ha.2.resolve_right fun h => h2 h.2
    by_cases h0 : dest = 0
    · subst h0
      refine post_sim hs hi hcm (isend_spec hi hcm hu buf count dtype tag) ha.1 (fun s' h hok => .isend hcm hu hok)
        (fun s' h hok => isend_took hok) (fun m hm => isend_full hptr (Or.inl rfl) hm) hsat ?_
      unfold Mach.isend
      rw [if_neg (fun h => h.1 rfl)]
      refine Res.bind_congr fun x hx => ?_
      obtain ⟨N, h⟩ := x
      have hL : N.L = M.L := Mach.fresh_L hx
      dsimp only
      rw [if_neg h2, Mach.cid_eq (M := N) (by rw [hL]; exact hs.reach.nodup) (by rw [hL]; exact hcm), Res.ok_bind, hL]
      cases M.L.partner c .send tag with
      | none => rfl
      | some j =>
        dsimp only
        cases M.L.ops[j]? <;> rfl
    · unfold MPI_Isend Mach.isend
      rw [hptr, Res.ok_bind]
      dsimp only
      rw [if_pos ⟨h0, h2⟩, if_pos ⟨h0, h2⟩]
      rfl

theorem irecv_sim (hs : Sim env s M) (buf count : Int) {dtype src : Int} (tag : Int) {comm : Int}
    (ha : P2PArgs env M.L dtype src comm) (hu : M.L.unmatched < 2147483647) :
    (MPI_Irecv env s buf count dtype src tag comm).Rel (PostedM env s M .recv) (M.irecv env buf count dtype src tag comm) := by
  obtain ⟨A, lst, hi⟩ := hs.reach.inv
  have hc : comm = MPI_COMM_NULL ∨ ∃ c, (comm, Obj.comm c) ∈ M.L.objs := ha.2.symm.imp (·.1) id
  have hc' : comm = MPI_COMM_NULL ∨ comm ∈ M.L.objs.map Prod.fst := hc.imp id fun ⟨c, h⟩ => mem_keys h
  obtain ⟨s1, p, hptr, _⟩ := hi.ptr_any hc'
  have hsat := irecv_sat hs.reach hs.tidy buf count tag ha hu
  by_cases h2 : src = MPI_PROC_NULL
  · subst h2
    refine postNull_sim hs hi (irecvNull_spec hi hc' buf count dtype tag) (fun s' h hok => .irecvNull hc hok)
      (fun s' h hok => irecv_took hok) (fun m hm => irecv_full hptr (Or.inr (Or.inr rfl)) hm) hsat ?_
    unfold Mach.irecv
    rw [if_neg (fun h => h.2.2 rfl)]
    refine Res.bind_congr fun x hx => ?_
    obtain ⟨N, h⟩ := x
    dsimp only
    rw [if_pos rfl]
    rfl
  · obtain ⟨c, hcm⟩ := ha.2.resolve_right fun h => h2 h.2
    by_cases h0 : src = 0 ∨ src = MPI_ANY_SOURCE
    · refine post_sim hs hi hcm (irecv_spec hi hcm hu h0 buf count dtype tag) ha.1 (fun s' h hok => .irecv hcm hu h2 hok)
        (fun s' h hok => irecv_took hok) (fun m hm => irecv_full hptr (by omega) hm) hsat ?_
      unfold Mach.irecv
      rw [if_neg (by omega)]
      refine Res.bind_congr fun x hx => ?_
      obtain ⟨N, h⟩ := x
      have hL : N.L = M.L := Mach.fresh_L hx
      dsimp only
      rw [if_neg h2, Mach.cid_eq (M := N) (by rw [hL]; exact hs.reach.nodup) (by rw [hL]; exact hcm), Res.ok_bind, hL]
      cases M.L.partner c .recv tag with
      | none => rfl
      | some j =>
        dsimp only
        cases M.L.ops[j]? <;> rfl
    · unfold MPI_Irecv Mach.irecv
      rw [hptr, Res.ok_bind]
      dsimp only
      rw [if_pos (by omega), if_pos (by omega)]
      rfl

/-! ## Completion -/

/-- Postcondition of MPI_Test. -/
structure TestedM (env : Env) (s : Sys) (M : Mach) (b : Prop) (h : Int) (x : TestRes) (y : Tested) : Prop where
  steps : Steps env s M.L x.sys y.mach.L
  sim : Sim env x.sys y.mach
  request : x.request = y.request
  flag : x.flag = y.flag
  status : StSame b x.status y.status
  ledger : y.mach.L = M.L ∨ (y.mach.L = M.L.release h ∧ h ≠ 0)
  gone : x.flag ≠ 0 → h ≠ 0 → y.mach.L = M.L.release h

/-- The handle numbers after a release. -/
theorem Sim.free (hs : Sim env s M) {h : Int} {o : Obj} (hm : (h, o) ∈ M.L.objs) {t : HTab Slot} (he : mpi_free_handle s.handles h = .ok t) :
    PoolRel t (M.pool.give h) := by
  obtain ⟨A, lst, hi⟩ := hs.reach.inv
  exact hs.pool.free hi.hst (mem_keys hm) he

theorem Sim.release (hs : Sim env s M) {h : Int} {i : Nat} (hm : (h, Obj.req i) ∈ M.L.objs) {t : HTab Slot}
    (he : mpi_free_handle s.handles h = .ok t) (hst : Step env s M.L { s with handles := t } (M.L.release h)) :
    Sim env { s with handles := t } (M.release h) := by
  obtain ⟨A, lst, hi⟩ := hs.reach.inv
  have hr := hs.reach.step hst
  exact ⟨hr, hs.tidy.release_req hi hr.nodup hm, hs.free hm he, hs.mem, hs.built⟩

theorem test_sim (hs : Sim env s M) {h : Int} (hh : h = MPI_REQUEST_NULL ∨ ∃ i, (h, Obj.req i) ∈ M.L.objs)
    {b : Prop} (hb : b → IsRecv M.L h) {p q : StPtr} (hst : StSame b p q) :
    (MPI_Test s h p).Rel (TestedM env s M b h) (M.test h q) := by
  obtain ⟨A, lst, hi⟩ := hs.reach.inv
  by_cases h0 : h = MPI_REQUEST_NULL
  · unfold MPI_Test Mach.test
    rw [if_pos h0, if_pos h0]
    exact (put_rel hst fun _ => ⟨rfl, rfl⟩).bind fun _ _ _ _ h2 => ⟨.refl, hs, h0, rfl, h2, Or.inl rfl, fun _ h => absurd h0 h⟩
  · obtain ⟨i, hm⟩ := hh.resolve_left h0
    obtain ⟨o, r, a1, _, a2, a3⟩ := hi.req _ _ hm
    have hstep : ∀ x, MPI_Test s h p = .ok x → Step env s M.L x.sys (if x.flag = 0 then M.L else M.L.release h) :=
      fun x hx => .test hm hx
    unfold Mach.test
    rw [if_neg h0, M.op_eq hs.reach.nodup hm a1, Res.ok_bind]
    unfold MPI_Test at hstep ⊢
    rw [if_neg h0, Sys.ptr_live hi.hst (mem_keys hm), Res.ok_bind] at hstep ⊢
    dsimp only at hstep ⊢
    rw [Sys.req_live hi.hst (mem_keys hm) a2, Res.ok_bind] at hstep ⊢
    by_cases hp : o.st = .pending
    · unfold RecOk at a3
      rw [hp] at a3
      rw [if_pos hp, if_neg (fun h => h a3.1)]
      exact ⟨.refl, hs, rfl, a3.1, hst, Or.inl rfl, fun h => absurd a3.1 h⟩
    · have hc : r.complete = 1 ∧ (o.kind = .recv → r.source = (M.result o).1 ∧ r.tag = (M.result o).2) := by
        unfold RecOk at a3
        unfold Mach.result
        cases hst : o.st with
        | pending => exact absurd hst hp
        | matched j =>
          rw [hst] at a3
          refine ⟨a3.1, fun hk => ?_⟩
          obtain ⟨h1, u, h2, h3⟩ := a3.2 hk
          rw [hk]
          dsimp only
          rw [h2]
          exact ⟨h1, h3⟩
        | null =>
          rw [hst] at a3
          refine ⟨a3.1, fun hk => ?_⟩
          rw [hk]
          exact a3.2 hk
      have hc1 : r.complete ≠ 0 := by omega
      obtain ⟨t, h4, _⟩ := hi.release_req hm a1 hp
      rw [if_pos hc1, h4] at hstep ⊢
      rw [if_neg hp]
      refine (put_rel hst fun hb' => hc.2 (hb hb' _ _ hm a1)).bind fun u v hu _ huv => ?_
      have := hstep ⟨{ s with handles := t }, 0, r.complete, u⟩ (by rw [hu]; rfl)
      rw [if_neg hc1] at this
      exact ⟨.one this, hs.release hm h4 this, rfl, hc.1, huv, Or.inr ⟨rfl, h0⟩, fun _ _ => rfl⟩

/-- Postcondition of MPI_Wait. -/
structure WaitedM (env : Env) (s : Sys) (M : Mach) (b : Prop) (h : Int) (x : Sys × Int × StPtr) (y : Mach × Int × StPtr) : Prop where
  steps : Steps env s M.L x.1 y.1.L
  sim : Sim env x.1 y.1
  request : x.2.1 = y.2.1
  status : StSame b x.2.2 y.2.2
  ledger : y.1.L = M.L ∨ (y.1.L = M.L.release h ∧ h ≠ 0)
  gone : h ≠ 0 → y.1.L = M.L.release h

theorem wait_sim (hs : Sim env s M) {h : Int} (hh : h = MPI_REQUEST_NULL ∨ ∃ i, (h, Obj.req i) ∈ M.L.objs)
    {b : Prop} (hb : b → IsRecv M.L h) {p q : StPtr} (hst : StSame b p q) :
    (MPI_Wait s h p).Rel (WaitedM env s M b h) (M.wait h q) := by
  unfold MPI_Wait Mach.wait
  refine (test_sim hs hh hb hst).bind fun x y _ _ ht => ?_
  rw [← ht.flag]
  exact Rel.ite (fun _ => rfl) fun hf => ⟨ht.steps, ht.sim, ht.request, ht.status, ht.ledger, ht.gone hf⟩

/-! ## Blocking operations -/

/-- Everything that was live is. -/
structure KeptM (env : Env) (s : Sys) (M : Mach) (s' : Sys) (M' : Mach) : Prop where
  steps : Steps env s M.L s' M'.L
  sim : Sim env s' M'
  keeps : ∀ z ∈ M.L.objs, z ∈ M'.L.objs
  kinds : ∀ (i : Nat) o, M.L.ops[i]? = some o → ∃ o', M'.L.ops[i]? = some o' ∧ o'.kind = o.kind
  room : Grow 0 1 M.L M'.L
  olds : Olds M.L M'.L

theorem PostedM.nonzero {k : Kind} {x : Sys × Int} {y : Mach × Int} (h : PostedM env s M k x y) : x.2 ≠ 0 := by
  obtain ⟨i, o, h1, _⟩ := h.live
  obtain ⟨A, lst, hi⟩ := h.sim.reach.inv
  have := hi.hst.pos (mem_keys h1)
  omega

theorem PostedM.isRecv {x : Sys × Int} {y : Mach × Int} (h : PostedM env s M .recv x y) : IsRecv y.1.L x.2 := by
  obtain ⟨i, o, h1, h2, h3⟩ := h.live
  intro i' o' h4 h5
  have := nodup_fst_unique h.sim.reach.nodup h1 h4
  cases this
  rw [h2] at h5
  cases h5
  exact h3

theorem PostedM.wait {k : Kind} {x : Sys × Int} {y : Mach × Int} (h : PostedM env s M k x y) {b : Prop}
    (hb : b → k = .recv) (st : StPtr) :
    (MPI_Wait x.1 x.2 st).Rel (fun u v => KeptM env s M u.1 v.1 ∧ StSame b u.2.2 v.2.2) (y.1.wait y.2 st) := by
  have hl : ∃ i, (x.2, Obj.req i) ∈ y.1.L.objs := by obtain ⟨i, o, h1, _⟩ := h.live; exact ⟨i, h1⟩
  rw [← h.val]
  refine (wait_sim (b := b) h.sim (Or.inr hl) (fun hb' => ?_) (StSame.refl b st)).mono fun u v _ _ hw => ?_
  · have := hb hb'
    subst this
    exact h.isRecv
  · have hg := hw.gone h.nonzero
    refine ⟨⟨h.steps.trans hw.steps, hw.sim, fun z hz => ?_, fun i o ho => ?_, ?_, fun h' i hm => ?_⟩, hw.status⟩
    · rw [hg]
      obtain ⟨a, c⟩ := z
      exact mem_release.2 ⟨h.keeps _ hz, fun he => h.fresh (he ▸ mem_keys hz)⟩
    · rw [hg]
      exact h.kinds i o ho
    · rw [hg]
      exact h.room
    · rw [hg] at hm
      obtain ⟨h1, h2⟩ := mem_release.1 hm
      exact (h.news _ _ h1).resolve_left h2

theorem send_sim (hs : Sim env s M) (buf count : Int) {dtype dest : Int} (tag : Int) {comm : Int}
    (ha : P2PArgs env M.L dtype dest comm) (hu : M.L.unmatched < 2147483647) :
    (MPI_Send env s buf count dtype dest tag comm).Rel (KeptM env s M) (M.send env buf count dtype dest tag comm) := by
  unfold MPI_Send Mach.send
  refine (isend_sim hs buf count tag ha hu).bind fun x y _ _ h => ?_
  refine (h.wait (b := False) (fun h => h.elim) _).bind fun u v _ _ hk => ?_
  exact hk.1

theorem recv_sim (hs : Sim env s M) (buf count : Int) {dtype src : Int} (tag : Int) {comm : Int}
    (ha : P2PArgs env M.L dtype src comm) (hu : M.L.unmatched < 2147483647) (st : StPtr) :
    (MPI_Recv env s buf count dtype src tag comm st).Rel (fun x y => KeptM env s M x.1 y.1 ∧ x.2 = y.2)
      (M.recv env buf count dtype src tag comm st) := by
  unfold MPI_Recv Mach.recv
  refine (irecv_sim hs buf count tag ha hu).bind fun x y _ _ h => ?_
  refine (h.wait (b := True) (fun _ => rfl) _).bind fun u v _ _ ⟨h, he⟩ => ?_
  obtain ⟨u1, u2, u3⟩ := u
  obtain ⟨v1, v2, v3⟩ := v
  have := he.eq trivial
  dsimp only at this
  subst this
  dsimp only
  cases u3 with
  | null => exact ⟨h, rfl⟩
  | obj st => exact ⟨h, rfl⟩
  | bad => exact rfl

/-- At most one communicator and two unmatched operations more, and no request left. -/
structure GoesM (env : Env) (s : Sys) (M : Mach) (s' : Sys) (M' : Mach) : Prop where
  steps : Steps env s M.L s' M'.L
  sim : Sim env s' M'
  room : Grow 1 2 M.L M'.L
  olds : Olds M.L M'.L

theorem GoesM.refl (hs : Sim env s M) : GoesM env s M s M := ⟨.refl, hs, .refl _ _ _, .refl _⟩

theorem KeptM.goes (h : KeptM env s M s' M') : GoesM env s M s' M' := ⟨h.steps, h.sim, h.room.more, h.olds⟩

theorem sendrecv_sim (hs : Sim env s M) (sbuf scount : Int) {stype dest : Int} (stag : Int)
    (rbuf rcount : Int) {rtype src : Int} (rtag : Int) {comm : Int}
    (ha : P2PArgs env M.L stype dest comm) (hb : P2PArgs env M.L rtype src comm) (hu : M.L.unmatched + 1 < 2147483647) (st : StPtr) :
    (MPI_Sendrecv env s sbuf scount stype dest stag rbuf rcount rtype src rtag comm st).Rel
      (fun x y => GoesM env s M x.1 y.1 ∧ x.2 = y.2)
      (M.sendrecv env sbuf scount stype dest stag rbuf rcount rtype src rtag comm st) := by
  unfold MPI_Sendrecv Mach.sendrecv
  refine (irecv_sim hs rbuf rcount rtag hb (by omega)).bind fun x y _ _ h => ?_
  have hs1 := h.sim
  refine (send_sim hs1 sbuf scount stag (ha.keep hs.reach.nodup hs1.reach.nodup h.keeps) (by have := h.room.2; omega)).bind
    fun u v _ _ h2 => ?_
  obtain ⟨i, o, h3, h4, h5⟩ := h.live
  have h6 := h2.keeps _ h3
  obtain ⟨o', h7, h8⟩ := h2.kinds i o h4
  dsimp only
  rw [← h.val]
  refine (wait_sim (b := True) h2.sim (Or.inr ⟨i, h6⟩) (fun _ i' o'' h9 h10 => ?_) (StSame.refl _ st)).bind fun a b _ _ hw => ?_
  · have := nodup_fst_unique h2.sim.reach.nodup h6 h9
    cases this
    rw [h7] at h10
    cases h10
    rw [h8, h5]
  · obtain ⟨g1, g2⟩ := h.room
    obtain ⟨g3, g4⟩ := h2.room
    have hg := hw.gone h.nonzero
    refine ⟨⟨(h.steps.trans h2.steps).trans hw.steps, hw.sim, ?_, fun h' i' hm => ?_⟩, hw.status.eq trivial⟩
    · dsimp only
      rw [hg]
      have e1 : (v.L.release x.2).ncomms = v.L.ncomms := rfl
      have e2 : (v.L.release x.2).unmatched = v.L.unmatched := rfl
      constructor <;> omega
    · dsimp only at hm
      rw [hg] at hm
      obtain ⟨h9, h10⟩ := mem_release.1 hm
      exact (h.news _ _ (h2.olds _ _ h9)).resolve_left h10

theorem irsend_sim (hs : Sim env s M) (buf count : Int) {dtype dest : Int} (tag : Int) {comm : Int}
    (ha : P2PArgs env M.L dtype dest comm) (hu : M.L.unmatched < 2147483647) :
    (MPI_Irsend env s buf count dtype dest tag comm).Rel (PostedM env s M .send) (M.irsend env buf count dtype dest tag comm) := by
  unfold MPI_Irsend Mach.irsend
  refine (isend_sim hs buf count tag ha hu).bind fun x y _ _ h => ?_
  obtain ⟨A, lst, hi⟩ := h.sim.reach.inv
  obtain ⟨i, o, h3, h4, _⟩ := h.live
  obtain ⟨o1, r, a1, _, a2, a3⟩ := hi.req _ _ h3
  rw [h4] at a1
  cases a1
  have hv := h.val
  dsimp only
  rw [← hv, Sys.ptr_live hi.hst (mem_keys h3), Res.ok_bind]
  dsimp only
  rw [Sys.req_live hi.hst (mem_keys h3) a2, Res.ok_bind, Mach.op_eq h.sim.reach.nodup h3 h4, Res.ok_bind]
  have hc : r.complete = 0 ↔ o.st = .pending := by
    unfold RecOk at a3
    cases hst : o.st with
    | pending => rw [hst] at a3; simp [a3.1]
    | matched j => rw [hst] at a3; simp [a3.1]
    | null => rw [hst] at a3; simp [a3.1]
  by_cases hp : o.st = .pending
  · rw [if_pos hp, if_pos (hc.2 hp)]
    rfl
  · rw [if_neg hp, if_neg fun h => hp (hc.1 h)]
    exact ⟨h.steps, h.sim, rfl, h.live, h.fresh, h.news, h.keeps, h.kinds, h.room⟩

theorem iprobe_sim (hs : Sim env s M) {comm : Int} (hc : IsComm M.L comm) (src tag : Int) (st : StPtr) :
    (MPI_Iprobe s src tag comm st).Rel (fun x y => x.1 = s ∧ x.2 = y) (M.iprobe src tag comm st) := by
  obtain ⟨A, lst, hi⟩ := hs.reach.inv
  obtain ⟨c, hcm⟩ := hc
  unfold Mach.iprobe
  by_cases hsrc : src = 0 ∨ src = MPI_ANY_SOURCE
  · rw [if_neg (by omega), M.cid_eq hs.reach.nodup hcm, Res.ok_bind]
    rcases iprobe_spec hi hcm hsrc tag st with ⟨h1, e1⟩ | ⟨i, o, h1, h2, e1⟩
    · rw [e1, h1]; exact ⟨rfl, rfl⟩
    · rw [e1, h1]
      dsimp only
      rw [h2]
      exact Rel.bind_same fun _ _ => ⟨rfl, rfl⟩
  · unfold MPI_Iprobe
    rw [Sys.ptr_live hi.hst (mem_keys hcm), Res.ok_bind]
    dsimp only
    rw [if_pos (by omega), if_pos (by omega)]
    rfl

theorem probe_sim (hs : Sim env s M) {comm : Int} (hc : IsComm M.L comm) (src tag : Int) (st : StPtr) :
    (MPI_Probe s src tag comm st).Rel (fun x y => x.1 = s ∧ x.2 = y) (M.probe src tag comm st) := by
  unfold MPI_Probe Mach.probe
  refine (iprobe_sim hs hc src tag st).bind fun ⟨a, f, p⟩ ⟨f', q⟩ _ _ ⟨h1, h2⟩ => ?_
  dsimp only at h1 h2
  cases h1
  cases h2
  dsimp only
  exact Rel.ite (fun _ => rfl) fun _ => ⟨rfl, rfl⟩

/-! ## Arrays of requests -/

/-- One iteration of the loops. -/
theorem test_next_sim (hs : Sim env s M) {h : Int} {rs : List Int} (hw : WfReqs M.L (h :: rs)) {b : Prop}
    (hb : b → ∀ x ∈ h :: rs, IsRecv M.L x) {p q : StPtr} (hst : StSame b p q) :
    (MPI_Test s h p).Rel (fun x y => TestedM env s M b h x y ∧ WfReqs y.mach.L rs ∧ (b → ∀ x ∈ rs, IsRecv y.mach.L x))
      (M.test h q) := by
  refine (test_sim hs hw.head (fun hb' => hb hb' _ List.mem_cons_self) hst).mono fun x y _ _ ht => ⟨ht, ?_⟩
  rcases ht.ledger with he | ⟨he, h0⟩
  · rw [he]
    exact ⟨hw.2, fun hb' x hx => hb hb' x (List.mem_cons_of_mem _ hx)⟩
  · rw [he]
    refine ⟨hw.2.release fun _ => ?_, fun hb' x hx i o h1 h2 => hb hb' x (List.mem_cons_of_mem _ hx) i o (mem_release.1 h1).1 h2⟩
    rcases hw.1 with h1 | h1
    · exact absurd h1 h0
    · exact h1.2

/-- Requests only disappear. -/
structure DoneM (env : Env) (s : Sys) (M : Mach) (s' : Sys) (M' : Mach) : Prop where
  steps : Steps env s M.L s' M'.L
  sim : Sim env s' M'
  room : Grow 0 0 M.L M'.L
  olds : Olds M.L M'.L

theorem DoneM.refl (hs : Sim env s M) : DoneM env s M s M := ⟨.refl, hs, .refl _ _ _, .refl _⟩

theorem DoneM.goes (h : DoneM env s M s' M') : GoesM env s M s' M' :=
  ⟨h.steps, h.sim, ⟨by have := h.room.1; omega, by have := h.room.2; omega⟩, h.olds⟩

theorem DoneM.trans {s'' : Sys} {M'' : Mach} (h : DoneM env s M s' M') (h2 : DoneM env s' M' s'' M'') : DoneM env s M s'' M'' :=
  ⟨h.steps.trans h2.steps, h2.sim, ⟨by have := h.room.1; have := h2.room.1; omega, by have := h.room.2; have := h2.room.2; omega⟩,
    fun a i hm => h.olds a i (h2.olds a i hm)⟩

theorem DoneM.of (h1 : Steps env s M.L s' M'.L) (h2 : Sim env s' M') {h : Int} (h3 : M'.L = M.L ∨ (M'.L = M.L.release h ∧ h ≠ 0)) :
    DoneM env s M s' M' := by
  rcases h3 with he | ⟨he, _⟩
  · exact ⟨h1, h2, by rw [he]; exact .refl _ _ _, by rw [he]; exact .refl _⟩
  · exact ⟨h1, h2, by rw [he]; exact .release _ _ _ _, by rw [he]; exact .release _ _⟩

theorem TestedM.done {b : Prop} {h : Int} {x : TestRes} {y : Tested} (ht : TestedM env s M b h x y) : DoneM env s M x.sys y.mach :=
  .of ht.steps ht.sim ht.ledger

theorem relRight {α β γ : Type} {R : α → β → Prop} {S : α → γ → Prop} {x : Res α} {y : Res β} {g : β → Res γ} (h : x.Rel R y)
    (h2 : ∀ a b, x = .ok a → y = .ok b → R a b → (Res.ok a).Rel S (g b)) : x.Rel S (y >>= g) := by
  have := h.bind (f := fun a => Res.ok a) (g := g) h2
  cases x <;> exact this

theorem testanyLoop_sim : ∀ (rs pre : List Int) (s : Sys) (M : Mach) (b : Prop) (p q : StPtr), Sim env s M → WfReqs M.L rs →
    (b → ∀ x ∈ rs, IsRecv M.L x) → StSame b p q →
    (testanyLoop rs.length pre.length s (pre ++ rs) p).Rel
      (fun x y => DoneM env s M x.1 y.1 ∧ x.2.1 = pre ++ y.2.1 ∧ x.2.2.1 = y.2.2.1 ∧ StSame b x.2.2.2 y.2.2.2) (M.testany rs q) := by
  intro rs
  induction rs with
  | nil => intro pre s M b p q hs _ _ hst; exact ⟨.refl hs, rfl, rfl, hst⟩
  | cons h rs ih =>
    intro pre s M b p q hs hw hb hst
    rw [List.length_cons, testanyLoop, Mach.testany, rd_mid, Res.ok_bind]
    refine (test_next_sim hs hw hb hst).bind fun x y _ _ ⟨ht, hw', hb'⟩ => ?_
    rw [← ht.flag, ← ht.request, set_mid]
    refine Rel.ite (fun _ => ⟨ht.done, by simp, rfl, ht.status⟩) fun _ => ?_
    have := ih (pre ++ [x.request]) x.sys y.mach b x.status y.status ht.sim hw' hb' ht.status
    rw [List.length_append, List.length_singleton] at this
    exact relRight this fun a c _ _ h => ⟨ht.done.trans h.1, by rw [h.2.1]; simp, h.2.2⟩

/-- What the array loops hand back. -/
def ArrM (env : Env) (s : Sys) (M : Mach) (b : Prop) (pre : List Int) (x : ArrRes) (N : Mach) (rs : List Int) (sts : StArr) : Prop :=
  DoneM env s M x.sys N ∧ x.reqs = pre ++ rs ∧ ArrSame b x.stats sts

theorem ArrM.step {b : Prop} {h : Int} {x : TestRes} {y : Tested} {pre rs : List Int} {z : ArrRes} {N : Mach} {sts : StArr}
    (ht : TestedM env s M b h x y) (h2 : ArrM env x.sys y.mach b (pre ++ [x.request]) z N rs sts) :
    ArrM env s M b pre z N (y.request :: rs) sts :=
  ⟨ht.done.trans h2.1, by rw [h2.2.1, ← ht.request]; simp, h2.2.2⟩

theorem testallLoop_sim : ∀ (rs pre : List Int) (s : Sys) (M : Mach) (b : Prop) (p q : StArr) (f : Int), Sim env s M →
    WfReqs M.L rs → (b → ∀ x ∈ rs, IsRecv M.L x) → ArrSame b p q →
    (testallLoop rs.length pre.length s (pre ++ rs) p f).Rel
      (fun x y => ArrM env s M b pre x.1 y.1 y.2.1 y.2.2.2 ∧ x.2 = if y.2.2.1.all (· ≠ 0) then f else 0)
      (M.testeach pre.length rs q) := by
  intro rs
  induction rs with
  | nil => intro pre s M b p q f hs _ _ hst; exact ⟨⟨.refl hs, rfl, hst⟩, rfl⟩
  | cons h rs ih =>
    intro pre s M b p q f hs hw hb hst
    rw [List.length_cons, testallLoop, Mach.testeach, rd_mid, Res.ok_bind]
    refine (hst.at _).bind fun p' q' _ _ hst' => ?_
    refine (test_next_sim hs hw hb hst').bind fun x y _ _ ⟨ht, hw', hb'⟩ => ?_
    rw [set_mid]
    have := ih (pre ++ [x.request]) x.sys y.mach b _ _ (if x.flag = 0 then 0 else f) ht.sim hw' hb' (hst.upd pre.length ht.status)
    rw [List.length_append, List.length_singleton] at this
    refine relRight this fun a c _ _ h2 => ⟨h2.1.step ht, ?_⟩
    rw [h2.2, ← ht.flag]
    by_cases hf : x.flag = 0 <;> simp [hf]

theorem testsomeLoop_sim : ∀ (rs pre : List Int) (s : Sys) (M : Mach) (b : Prop) (p q : StArr) (f : Int), Sim env s M →
    WfReqs M.L rs → (b → ∀ x ∈ rs, IsRecv M.L x) → ArrSame b p q →
    (testsomeLoop rs.length pre.length s (pre ++ rs) p f).Rel
      (fun x y => ArrM env s M b pre x.1 y.1 y.2.1 y.2.2.2 ∧ x.2 = f + (y.2.2.1.countP (· ≠ 0) : Nat))
      (M.testeach pre.length rs q) := by
  intro rs
  induction rs with
  | nil => intro pre s M b p q f hs _ _ hst; exact ⟨⟨.refl hs, rfl, hst⟩, by simp⟩
  | cons h rs ih =>
    intro pre s M b p q f hs hw hb hst
    rw [List.length_cons, testsomeLoop, Mach.testeach, rd_mid, Res.ok_bind]
    refine (hst.at _).bind fun p' q' _ _ hst' => ?_
    refine (test_next_sim hs hw hb hst').bind fun x y _ _ ⟨ht, hw', hb'⟩ => ?_
    rw [set_mid]
    have := ih (pre ++ [x.request]) x.sys y.mach b _ _ (if x.flag = 0 then f else f + 1) ht.sim hw' hb' (hst.upd pre.length ht.status)
    rw [List.length_append, List.length_singleton] at this
    refine relRight this fun a ⟨c1, c2, c3, c4⟩ _ _ h2 => ⟨h2.1.step ht, ?_⟩
    rw [h2.2, ← ht.flag]
    dsimp only
    by_cases hf : x.flag = 0
    · rw [List.countP_cons_of_neg (by simpa using hf), if_pos hf]
    · rw [List.countP_cons_of_pos (by simpa using hf), if_neg hf]
      omega

theorem waitallLoop_sim : ∀ (rs pre : List Int) (s : Sys) (M : Mach) (b : Prop) (p q : StArr), Sim env s M →
    WfReqs M.L rs → (b → ∀ x ∈ rs, IsRecv M.L x) → ArrSame b p q →
    (waitallLoop rs.length pre.length s (pre ++ rs) p).Rel (fun x y => ArrM env s M b pre x y.1 y.2.1 y.2.2)
      (M.waitall pre.length rs q) := by
  intro rs
  induction rs with
  | nil => intro pre s M b p q hs _ _ hst; exact ⟨.refl hs, rfl, hst⟩
  | cons h rs ih =>
    intro pre s M b p q hs hw hb hst
    rw [List.length_cons, waitallLoop, Mach.waitall, rd_mid, Res.ok_bind]
    refine (hst.at _).bind fun p' q' _ _ hst' => ?_
    refine (test_next_sim hs hw hb hst').bind fun x y _ _ ⟨ht, hw', hb'⟩ => ?_
    rw [set_mid, ← ht.flag]
    refine Rel.ite (fun _ => rfl) fun _ => ?_
    have := ih (pre ++ [x.request]) x.sys y.mach b _ _ ht.sim hw' hb' (hst.upd pre.length ht.status)
    rw [List.length_append, List.length_singleton] at this
    exact relRight this fun a c _ _ h2 => h2.step ht

end

end MpiSerial
