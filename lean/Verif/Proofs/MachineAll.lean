import Verif.Proofs.MachineCalls

/-!
# Every call on the reference machine
-/

set_option linter.unusedSimpArgs false
set_option autoImplicit false

namespace MpiSerial

open Res (Rel)

section
variable {env : Env} {s s' : Sys} {M M' : Mach} {L L' : Ledger}

/-- One step, known to leave things in order. -/
theorem tidy_of (hs : Sim env s M) {r : Res Sys} (hsat : r.Sat (fun s' => ∃ L', Steps env s M.L s' L' ∧ Tidy env L'))
    (he : r = .ok s') (hstep : Step env s M.L s' L') : Tidy env L' := by
  rw [he] at hsat
  obtain ⟨L1, h1, h2⟩ := hsat
  exact h2.agree (hs.reach.steps h1) (hs.reach.step hstep)

theorem tidy_of2 {α : Type} {a : α} (hs : Sim env s M) {r : Res (Sys × α)}
    (hsat : r.Sat (fun x => ∃ L', Steps env s M.L x.1 L' ∧ Tidy env L'))
    (he : r = .ok (s', a)) (hstep : Step env s M.L s' L') : Tidy env L' := by
  rw [he] at hsat
  obtain ⟨L1, h1, h2⟩ := hsat
  exact h2.agree (hs.reach.steps h1) (hs.reach.step hstep)

/-! ## Memory and datatypes -/

theorem Sim.withMem (hs : Sim env s M) (m : Mem) : GoesM env s M { s with mem := m } { M with mem := m } :=
  ⟨.one .memory, ⟨hs.reach.step .memory, hs.tidy, hs.pool, rfl, hs.built⟩, .refl _ _ _, .refl _⟩

theorem Sim.typeOf (hs : Sim env s M) {h : Int} (hty : IsType env M.L h) :
    ∃ t, typeOf env s h = .ok (s, t) ∧ M.type env h = .ok t ∧ M.L.desc env.cfg h = some t := by
  obtain ⟨A, lst, hi⟩ := hs.reach.inv
  obtain ⟨t, hd⟩ := hty
  exact ⟨t, hi.typeOf hd, M.type_eq hd, hd⟩

theorem copy_sim (hs : Sim env s M) {a b : Int} (ha : IsType env M.L a) (hb : IsType env M.L b) (p n q k : Int) :
    (copy_data2 env s p n a q k b).Rel (GoesM env s M) (M.copy env p n a q k b) := by
  obtain ⟨A, lst, hi⟩ := hs.reach.inv
  obtain ⟨ta, ha⟩ := ha
  obtain ⟨tb, hb⟩ := hb
  obtain ⟨pa, h1, h2⟩ := typeOf_desc (env := env) hi.hst hi.typesOk ha
  obtain ⟨pb, h3, h4⟩ := typeOf_desc (env := env) hi.hst hi.typesOk hb
  rw [M.copy_eq ha hb]
  unfold copy_data2
  rw [h1, Res.ok_bind]
  dsimp only
  rw [h3, Res.ok_bind]
  dsimp only
  rw [h2, Res.ok_bind, h4, Res.ok_bind, hs.mem]
  exact Rel.bind_same fun m _ => hs.withMem m

/-- The extent of a datatype. -/
theorem extent_sim (hs : Sim env s M) {h : Int} (hty : IsType env M.L h) {γ δ : Type} {S : γ → δ → Prop} {f : Sys × Int → Res γ}
    {g : Typestruct → Int → Res δ} (h2 : ∀ t e, (f (s, e)).Rel S (g t e)) :
    (MPI_Type_extent env s h >>= f).Rel S (M.type env h >>= fun d => Type_extent env.cfg d >>= fun e => g d e) := by
  obtain ⟨t, h3, h4, _⟩ := hs.typeOf hty
  unfold MPI_Type_extent
  rw [h3, h4, Res.ok_bind, Res.ok_bind]
  dsimp only
  cases he : Type_extent env.cfg t with
  | ok e => exact h2 t e
  | abort _ => rfl
  | exit _ => rfl
  | ub _ => rfl
  | hang => trivial

theorem offset_sim (hs : Sim env s M) {h : Int} (hty : IsType env M.L h) (ds ks : List Int) {S : Sys → Mach → Prop} {F : Sys × Int → Res Sys}
    {g : Int → Int → Res Mach} (f : Int → Int → Res Sys)
    (hF : ∀ e, F (s, e) = rd ds 0 >>= fun d => rd ks 0 >>= fun k => f (displOffset d e) k) (h2 : ∀ o k, (f o k).Rel S (g o k)) :
    (MPI_Type_extent env s h >>= F).Rel S
      (M.type env h >>= fun d => Mach.offset env ds d >>= fun o => rd ks 0 >>= fun k => g o k) := by
  have e : (M.type env h >>= fun d => Mach.offset env ds d >>= fun o => rd ks 0 >>= fun k => g o k) =
      (M.type env h >>= fun d => Type_extent env.cfg d >>= fun e => rd ds 0 >>= fun x => rd ks 0 >>= fun k => g (displOffset x e) k) := by
    refine Res.bind_congr fun d _ => ?_
    unfold Mach.offset
    cases Type_extent env.cfg d <;> try rfl
    cases rd ds 0 <;> rfl
  rw [e]
  refine extent_sim hs hty fun t e => ?_
  rw [hF]
  exact Rel.bind_same fun _ _ => Rel.bind_same fun _ _ => h2 _ _

theorem newType_sim (hs : Sim env s M) {build : Garbage → Res Typestruct} {x : Res (Sys × Int)}
    (hc : TypeCall env M.L s build x) (hsat : x.Sat (fun x => ∃ L', Steps env s M.L x.1 L' ∧ Tidy env L')) :
    x.Rel (fun x y => GoesM env s M x.1 y.1 ∧ x.2 = y.2) (M.newType env build) := by
  obtain ⟨A, lst, hi⟩ := hs.reach.inv
  have e1 := hc.eq hi
  unfold newType at e1
  unfold Mach.newType Mach.fresh
  rcases hs.pool.alloc hi.hst .raw with ⟨hlt, t, h, P', ha, htk, hp', hn, _⟩ | ⟨_, htk, ha⟩
  · rw [htk]
    rw [ha, Res.ok_bind] at e1
    dsimp only at e1
    dsimp only
    rw [Res.ok_bind]
    dsimp only
    rw [hs.built] at e1
    cases hb : build (env.garbage M.built) with
    | ok ty =>
      rw [hb, Res.ok_bind] at e1
      have hst := Step.newType hc e1 (by rw [hs.built]; exact hb)
      have ht := tidy_of2 hs hsat e1 hst
      rw [e1]
      refine ⟨⟨.one hst, ⟨hs.reach.step hst, ht, ?_, hs.mem, rfl⟩, .refl 1 2 M.L, .cons (o := .dtype _) (fun _ h => nomatch h) rfl⟩, rfl⟩
      exact (Mild.setData { s with handles := t } (locOf h) _).pool hp'
    | abort _ => rw [e1, hb]; rfl
    | exit _ => rw [e1, hb]; rfl
    | ub _ => rw [e1, hb]; rfl
    | hang => rw [e1, hb]; trivial
  · rw [htk, e1, ha]
    rfl

theorem Mach.types_eq : ∀ {hs : List Int} {ts : List Typestruct}, ts.length = hs.length →
    (∀ (i : Nat) h t, hs[i]? = some h → ts[i]? = some t → M.L.desc env.cfg h = some t) → M.types env hs = .ok ts := by
  intro hs
  induction hs with
  | nil => intro ts h1 _; cases ts with | nil => rfl | cons t ts => simp at h1
  | cons h hs ih =>
    intro ts h1 h2
    cases ts with
    | nil => simp at h1
    | cons t ts =>
      unfold Mach.types
      rw [M.type_eq (h2 0 h t rfl rfl), Res.ok_bind, ih (by simpa using h1) fun i a b ha hb => h2 (i + 1) a b (by simpa using ha) (by simpa using hb)]
      rfl

theorem struct_sim (hs : Sim env s M) {n : Int} {b d ts : List Int} (h1 : n = b.length) (h2 : n = d.length)
    (h3 : n = ts.length) (hb : ∀ x ∈ b, 0 ≤ x) (hty : ∀ t ∈ ts, IsType env M.L t) :
    (MPI_Type_struct env s n b d ts).Rel (fun x y => GoesM env s M x.1 y.1 ∧ x.2 = y.2)
      (M.types env ts >>= fun ds => M.newType env fun g => Type_struct env.cfg g ((b.zip (d.zip ds)).map fun x => ⟨x.1, x.2.1, x.2.2⟩)) := by
  obtain ⟨ds, h4, h5⟩ := types_list hty
  have hsat := struct_sat hs.reach hs.tidy h1 h2 h3 hb hty
  have hc := TypeCall.struct (env := env) (L := M.L) (s := s) (blocklens := b) (disps := d) (by omega) (by omega) h4 h5
  rw [← h3] at hc
  rw [Mach.types_eq h4 h5, Res.ok_bind]
  exact newType_sim hs hc hsat

theorem commit_sim (hs : Sim env s M) {h : Int} (hty : IsType env M.L h) :
    (MPI_Type_commit env s h).Rel (GoesM env s M) (.ok (M.commit h)) := by
  obtain ⟨A, lst, hi⟩ := hs.reach.inv
  have hsat := commit_sat hs.reach hs.tidy hty
  obtain ⟨t, hd⟩ := hty
  unfold Mach.commit
  rcases desc_live hd with ⟨h1, h2⟩ | ⟨h1, h2⟩
  · rw [if_pos h1]
    unfold MPI_Type_commit handleToDatatype
    obtain ⟨p, h3, h4⟩ := typeOf_desc (env := env) hi.hst hi.typesOk hd
    have h5 : simpletypePtr h = .ok p := by
      unfold handleToDatatype at h3
      rw [if_pos h1] at h3
      cases hp : simpletypePtr h <;> rw [hp] at h3 <;> simp at h3
      rw [h3]
    rw [if_pos h1, h5, Res.ok_bind, Res.pure_bind']
    dsimp only
    rw [h4, Res.ok_bind]
    cases p with
    | heap q =>
      unfold simpletypePtr at h5
      dsimp only at h5
      split at h5
      · cases h5
      · split at h5 <;> cases h5
    | null => exact .refl hs
    | static k => exact .refl hs
  · rw [if_neg (by omega)]
    obtain ⟨s', h3, h4, _⟩ := typeCommit_spec (env := env) hi h2
    have hst := Step.commit h2 h3
    have ht := tidy_of hs hsat h3 hst
    rw [h3]
    have hpool : s'.handles = s.handles ∧ s'.nextType = s.nextType := by
      unfold MPI_Type_commit at h3
      obtain ⟨⟨a, p⟩, h5, h6⟩ := Res.bind_eq_ok.1 h3
      have := toType_stays (hi.hst.inited (mem_keys h2)) h5
      subst this
      obtain ⟨_, _, h7⟩ := Res.bind_eq_ok.1 h6
      cases p <;> cases h7 <;> exact ⟨rfl, rfl⟩
    exact ⟨.one hst, ⟨hs.reach.step hst, ht, hpool.1 ▸ hs.pool, h4.trans hs.mem, hpool.2.trans hs.built⟩, .refl 1 2 M.L, .commit _ _⟩

theorem typeFree_sim (hs : Sim env s M) {h : Int} {t : Typestruct} (hm : (h, Obj.dtype t) ∈ M.L.objs)
    (hf : ∀ o, InFlight M.L o → o.dtype ≠ h) : (MPI_Type_free s h).Rel (GoesM env s M) (.ok (M.release h)) := by
  obtain ⟨A, lst, hi⟩ := hs.reach.inv
  have hsat := typeFree_sat hs.reach hs.tidy hm hf
  obtain ⟨s', h3, h4, _⟩ := typeFree_spec hi hm
  have hst := Step.typeFree (env := env) hm h3
  have ht := tidy_of hs hsat h3 hst
  rw [h3]
  have hpool : mpi_free_handle s.handles h = .ok s'.handles ∧ s'.nextType = s.nextType := by
    unfold MPI_Type_free at h3
    obtain ⟨⟨a, p⟩, h5, h6⟩ := Res.bind_eq_ok.1 h3
    have := toType_stays (hi.hst.inited (mem_keys hm)) h5
    subst this
    dsimp only at h6
    obtain ⟨b, h7, h8⟩ := Res.bind_eq_ok.1 h6
    obtain ⟨t', h9, h10⟩ := Res.bind_eq_ok.1 h8
    cases h10
    have : b.handles = a.handles ∧ b.nextType = a.nextType := by
      cases p with
      | null => cases h7; exact ⟨rfl, rfl⟩
      | static k => cases h7
      | heap q =>
        unfold freeType at h7
        dsimp only at h7
        split at h7
        · cases h7; exact ⟨rfl, rfl⟩
        · cases h7
    rw [this.1] at h9
    exact ⟨h9, this.2⟩
  exact ⟨.one hst, ⟨hs.reach.step hst, ht, hs.free hm hpool.1, h4.trans hs.mem, hpool.2.trans hs.built⟩, .refl 1 2 M.L, .release _ _⟩

/-! ## Communicators -/

theorem commNew_sim (hs : Sim env s M) (hrm : Room M.L) :
    (mpi_comm_new s).Rel (fun x y => GoesM env s M x.1 y.1 ∧ x.2 = y.2 ∧ y.1.L = M.L.addComm y.2) M.newComm := by
  obtain ⟨A, lst, hi⟩ := hs.reach.inv
  have hcc : CommCall s (mpi_comm_new s) := .dup 0
  have hsat := comm_sat hs.reach hs.tidy hrm hcc
  unfold Mach.newComm Mach.fresh
  rcases hs.pool.alloc hi.hst .raw with ⟨hlt, t, h, P', ha, htk, hp', hn, hst'⟩ | ⟨_, htk, ha⟩
  · rw [List.length_map] at hlt
    rw [htk]
    dsimp only
    rw [Res.ok_bind]
    rcases commNew_spec hi hrm.1 hrm.2.1 with ⟨h1, _⟩ | ⟨_, _, s', h', _, _, _, he, hm, _⟩
    · omega
    · have hst := Step.comm (env := env) hrm.1 hrm.2.1 hcc he
      have ht := tidy_of2 hs hsat he hst
      have hpool : h' = h ∧ PoolRel s'.handles P' ∧ s'.nextType = s.nextType := by
        unfold mpi_comm_new at he
        rw [ha, Res.ok_bind] at he
        dsimp only at he
        obtain ⟨_, _, h1⟩ := Res.bind_eq_ok.1 he
        obtain ⟨_, _, h2⟩ := Res.bind_eq_ok.1 h1
        obtain ⟨_, _, h3⟩ := Res.bind_eq_ok.1 h2
        cases h3
        exact ⟨rfl, (Mild.setData { s with handles := t } (locOf h) _).pool hp', rfl⟩
      obtain ⟨rfl, h1, h2⟩ := hpool
      have hpos := hst'.pos List.mem_cons_self
      have hnote : M.L.noteComm h' = M.L.addComm h' := if_neg (by omega)
      rw [hnote] at hst ht
      rw [he]
      exact ⟨⟨.one hst, ⟨hs.reach.step hst, ht, h1, hm.trans hs.mem, h2.trans hs.built⟩, ⟨Nat.le_refl _, Nat.le_add_right _ _⟩,
        .cons (o := .comm _) (fun _ h => nomatch h) rfl⟩, rfl, rfl⟩
  · rw [htk]
    unfold mpi_comm_new
    rw [ha]
    rfl

theorem commUnless_sim (hs : Sim env s M) (hrm : Room M.L) {p : Prop} [Decidable p] :
    (if p then Res.ok (s, MPI_COMM_NULL) else mpi_comm_new s).Rel (fun x y => GoesM env s M x.1 y.1 ∧ x.2 = y.2) (Mach.newCommUnless p M) :=
  Rel.ite (fun _ => ⟨.refl hs, rfl⟩) fun _ => (commNew_sim hs hrm).mono fun _ _ _ _ ⟨h1, h2, _⟩ => ⟨h1, h2⟩

theorem init_sim (hs : Sim env s M) (hrm : Room M.L) : (MPI_Init s).Rel (GoesM env s M) M.init := by
  have hsat := init_sat hs.reach hs.tidy hrm
  have hstep : ∀ s', MPI_Init s = .ok s' → Step env s M.L s' { M.L.addComm MPI_COMM_WORLD with inited := true } :=
    fun s' hx => .init hrm.1 hrm.2.1 hx
  have key : (MPI_Init s).Rel (fun x y => PoolRel x.handles y.pool ∧ x.mem = y.mem ∧ x.nextType = y.built ∧
      y.L = { M.L.addComm MPI_COMM_WORLD with inited := true }) M.init := by
    unfold MPI_Init Mach.init
    refine (commNew_sim hs hrm).bind fun ⟨a, h⟩ ⟨N, h'⟩ _ _ ⟨h1, h2, h3⟩ => ?_
    dsimp only at h1 h2 h3 ⊢
    subst h2
    refine Rel.ite (fun _ => rfl) fun hw => ?_
    have hw : h = MPI_COMM_WORLD := Decidable.of_not_not hw
    subst hw
    exact ⟨h1.sim.pool, h1.sim.mem, h1.sim.built, by rw [h3]⟩
  refine key.mono fun x y hx _ ⟨h1, h2, h3, h4⟩ => ?_
  have hst := hstep x hx
  have ht := tidy_of hs hsat hx hst
  rw [← h4] at hst ht
  exact ⟨.one hst, ⟨hs.reach.step hst, ht, h1, h2, h3⟩, by rw [h4]; exact ⟨Nat.le_refl _, Nat.le_add_right _ _⟩,
    by rw [h4]; exact .cons (o := .comm _) (fun _ h => nomatch h) rfl⟩

theorem finalize_sim (hs : Sim env s M) : GoesM env s M (MPI_Finalize s) M.finalize := by
  have hst : Step env s M.L (MPI_Finalize s) M.L.finalize := .finalize
  have ht : Tidy env M.L.finalize := tidy_of hs (r := .ok (MPI_Finalize s)) (finalize_sat hs.tidy) rfl hst
  exact ⟨.one hst, ⟨hs.reach.step hst, ht, .destroy _, hs.mem, hs.built⟩, .refl 1 2 M.L, fun _ _ h => nomatch h⟩

theorem commFree_sim (hs : Sim env s M) {h : Int} {c : Nat} (hm : (h, Obj.comm c) ∈ M.L.objs) :
    (MPI_Comm_free s h).Rel (fun x y => GoesM env s M x.1 y.1 ∧ x.2 = y.2) (.ok (M.freeComm h, MPI_COMM_NULL)) := by
  obtain ⟨A, lst, hi⟩ := hs.reach.inv
  have hsat := commFree_sat hs.reach hs.tidy hm
  obtain ⟨s', _, h3, h4, _⟩ := commFree_spec hi hm
  have hst := Step.commFree (env := env) hm h3
  have ht := tidy_of2 hs hsat h3 hst
  have hpool : mpi_free_handle s.handles h = .ok s'.handles ∧ s'.nextType = s.nextType := by
    unfold MPI_Comm_free at h3
    rw [Sys.ptr_live hi.hst (mem_keys hm), Res.ok_bind] at h3
    dsimp only at h3
    obtain ⟨_, _, h5⟩ := Res.bind_eq_ok.1 h3
    obtain ⟨_, _, h6⟩ := Res.bind_eq_ok.1 h5
    obtain ⟨_, _, h7⟩ := Res.bind_eq_ok.1 h6
    obtain ⟨_, _, h8⟩ := Res.bind_eq_ok.1 h7
    obtain ⟨_, _, h9⟩ := Res.bind_eq_ok.1 h8
    obtain ⟨t, h10, h11⟩ := Res.bind_eq_ok.1 h9
    cases h11
    exact ⟨h10, rfl⟩
  rw [h3]
  exact ⟨⟨.one hst, ⟨hs.reach.step hst, ht, hs.free hm hpool.1, h4.trans hs.mem, hpool.2.trans hs.built⟩, .refl 1 2 M.L,
    fun _ _ hm => (mem_release.1 hm).1⟩, rfl⟩

theorem requestFree_sim (hs : Sim env s M) {h : Int} {i : Nat} {o : Op} (hm : (h, Obj.req i) ∈ M.L.objs)
    (ho : M.L.ops[i]? = some o) (hp : o.st ≠ .pending) :
    (MPI_Request_free s h).Rel (fun x y => GoesM env s M x.1 y.1 ∧ x.2 = y.2) (.ok (M.release h, MPI_REQUEST_NULL)) := by
  obtain ⟨A, lst, hi⟩ := hs.reach.inv
  obtain ⟨t, h1, _⟩ := hi.release_req hm ho hp
  have he : MPI_Request_free s h = .ok ({ s with handles := t }, MPI_REQUEST_NULL) := by
    unfold MPI_Request_free
    rw [h1]
    rfl
  have hst := Step.requestFree (env := env) hm ho hp he
  rw [he]
  exact ⟨⟨.one hst, hs.release hm h1 hst, .refl 1 2 M.L, .release _ _⟩, rfl⟩

/-! ## The Fortran start-up checks -/

theorem verify_size_sim (hs : Sim env s M) (a : FortArgs) {name : String} (hc : -45 ≤ a.const name ∧ a.const name < 0)
    (p q err : Int) : (verify_size env a name p q s err).Rel (fun x y => x = (s, y)) (M.verifySize env a name p q err) := by
  obtain ⟨t, h1, h2, _⟩ := hs.typeOf (IsType.simple hc.1 hc.2)
  unfold verify_size Mach.verifySize
  rw [h1, h2, Res.ok_bind, Res.ok_bind]
  exact Rel.bind_same fun _ _ => Rel.bind_same fun _ _ => rfl

theorem stayL {γ δ α : Type} {S : γ → δ → Prop} {x : Res (Sys × α)} {y : Res α} {f : Sys × α → Res γ} {g : α → Res δ}
    (h : x.Rel (fun x y => x = (s, y)) y) (h2 : ∀ a, (f (s, a)).Rel S (g a)) : (x >>= f).Rel S (y >>= g) :=
  h.bind fun a b _ _ hab => by subst hab; exact h2 b

theorem fortChecks_sim (hs : Sim env s M) (a : FortArgs)
    (hc : ∀ n ∈ ["MPI_INTEGER", "MPI_LOGICAL", "MPI_REAL", "MPI_DOUBLE_PRECISION", "MPI_COMPLEX"], -45 ≤ a.const n ∧ a.const n < 0) :
    (mpi_init_fort_checks env a s).Rel (fun x _ => x = s) (M.fortChecks env a) := by
  unfold mpi_init_fort_checks Mach.fortChecks
  refine Rel.bind_same fun _ _ => Rel.bind_same fun _ _ => Rel.bind_same fun _ _ => ?_
  refine stayL (verify_size_sim hs a (hc _ (by simp)) _ _ _) fun _ => ?_
  refine stayL (verify_size_sim hs a (hc _ (by simp)) _ _ _) fun _ => ?_
  refine stayL (verify_size_sim hs a (hc _ (by simp)) _ _ _) fun _ => ?_
  refine stayL (verify_size_sim hs a (hc _ (by simp)) _ _ _) fun _ => ?_
  refine stayL (verify_size_sim hs a (hc _ (by simp)) _ _ _) fun _ => ?_
  exact Rel.ite (fun _ => rfl) fun _ => rfl

end

end MpiSerial
