import Verif.Proofs.MachineAll

/-!
# Every call on the reference machine, continued
-/

set_option linter.unusedSimpArgs false
set_option autoImplicit false

namespace MpiSerial

open Res (Rel)

section
variable {env : Env} {s s' : Sys} {M M' : Mach} {L L' : Ledger}

/-- The library and the machine give the same results. -/
structure AnsM (env : Env) (s : Sys) (M : Mach) (p : Option Kind) (b : Prop) (x : Sys × Out) (y : Mach × Out) : Prop where
  steps : Steps env s M.L x.1 y.1.L
  sim : Sim env x.1 y.1
  room : Grow 1 2 M.L y.1.L
  news : News p x.2.vals M.L y.1.L
  vals : x.2.vals = y.2.vals
  done : b → x.2.done = y.2.done

theorem GoesM.ans {b : Prop} {o : Out} (h : GoesM env s M s' M') : AnsM env s M none b (s', o) (M', o) :=
  ⟨h.steps, h.sim, h.room, fun a i _ hm _ => h.olds a i hm, rfl, fun _ => rfl⟩

theorem quietM {b : Prop} {x : Res Sys} {y : Res Mach} (h : x.Rel (GoesM env s M) y) :
    (x >>= fun r => Res.ok (r, (⟨[], []⟩ : Out))).Rel (AnsM env s M none b) (Mach.quiet y) :=
  h.bind fun _ _ _ _ h => h.ans

theorem ansM1 {α : Type} {b : Prop} {x : Res (Sys × α)} {y : Res (Mach × α)} {f : α → Out}
    (h : x.Rel (fun x y => GoesM env s M x.1 y.1 ∧ x.2 = y.2) y) :
    (x >>= fun r => Res.ok (r.1, f r.2)).Rel (AnsM env s M none b) (y >>= fun r => Res.ok (r.1, f r.2)) :=
  h.bind fun a c _ _ ⟨h1, h2⟩ => by rw [h2]; exact h1.ans

theorem oneM {b : Prop} {x : Res (Sys × Int)} {y : Res (Mach × Int)} (h : x.Rel (fun x y => GoesM env s M x.1 y.1 ∧ x.2 = y.2) y) :
    (x >>= fun r => Res.ok (r.1, Out.int r.2)).Rel (AnsM env s M none b) (Mach.one y) :=
  ansM1 (f := .int) h

/-- The state does not change. -/
theorem ansMStay {α : Type} {b : Prop} {x : Res (Sys × α)} {y : Res α} {f : α → Out} (hs : Sim env s M)
    (h : x.Rel (fun x y => x.1 = s ∧ x.2 = y) y) :
    (x >>= fun r => Res.ok (r.1, f r.2)).Rel (AnsM env s M none b) (y >>= fun r => Res.ok (M, f r)) :=
  h.bind fun a c _ _ ⟨h1, h2⟩ => by rw [h1, h2]; exact (GoesM.refl hs).ans

theorem tellM {b : Prop} {x : Res (Sys × Int)} {y : Res Int} (hs : Sim env s M)
    (h : x.Rel (fun x y => x.1 = s ∧ x.2 = y) y) :
    (x >>= fun r => Res.ok (r.1, Out.int r.2)).Rel (AnsM env s M none b) (M.tell y) :=
  ansMStay (f := .int) hs h

theorem postM {b : Prop} {k : Kind} {x : Res (Sys × Int)} {y : Res (Mach × Int)}
    (h : x.Rel (PostedM env s M k) y) :
    (x >>= fun r => Res.ok (r.1, Out.int r.2)).Rel (AnsM env s M (some k) b) (Mach.one y) :=
  h.bind fun a c _ _ h => by
    refine ⟨h.steps, h.sim, h.room.more, fun h' i o hm ho => ?_, by rw [h.val], fun _ => rfl⟩
    dsimp only
    by_cases he : h' = a.2
    · subst he
      obtain ⟨i', o', h1, h2, h3⟩ := h.live
      have := nodup_fst_unique h.sim.reach.nodup h1 hm
      cases this
      rw [ho] at h2
      cases h2
      exact Or.inl ⟨rfl, h3⟩
    · refine Or.inr ⟨fun hv => he ?_, (h.news _ _ hm).resolve_left he⟩
      simpa using hv.symm

theorem doneM {b : Prop} {v w : List Int} {d e : List StPtr} (h : GoesM env s M s' M') (h1 : v = w)
    (h2 : d.flatMap StPtr.kept = e.flatMap StPtr.kept) (h3 : b → d = e) :
    AnsM env s M none b (s', .ofDone v d) (M', .ofDone w e) := by
  refine ⟨h.steps, h.sim, h.room, fun a i _ hm _ => h.olds a i hm, ?_, h3⟩
  unfold Out.ofDone
  rw [h1, h2]

theorem doneM1 {b : Prop} {v w : List Int} {p q : StPtr} (h : GoesM env s M s' M') (h1 : v = w) (h2 : StSame b p q) :
    AnsM env s M none b (s', .ofDone v [p]) (M', .ofDone w [q]) :=
  doneM h h1 (by simp [h2.kept]) fun hb => by rw [h2.eq hb]

theorem doneArrM {b : Prop} {v w : List Int} {p q : StArr} (h : GoesM env s M s' M') (h1 : v = w) (h2 : ArrSame b p q) :
    AnsM env s M none b (s', .ofDone v p.ptrs) (M', .ofDone w q.ptrs) :=
  doneM h h1 h2.kept fun hb => by rw [h2.eq hb]

theorem relLeft {α β γ : Type} {R : α → β → Prop} {S : γ → β → Prop} {x : Res α} {y : Res β} {f : α → Res γ} (h : x.Rel R y)
    (h2 : ∀ a b, R a b → (f a).Rel S (.ok b)) : (x >>= f).Rel S y := by
  have := h.bind (f := f) (g := fun b => Res.ok b) fun a b _ _ hr => h2 a b hr
  cases y <;> exact this

theorem stayS {α : Type} {x : Res α} : (x >>= fun a => Res.ok (s, a)).Rel (fun x y => x.1 = s ∧ x.2 = y) x :=
  relLeft (Rel.same (T := fun a b => a = b) fun _ _ => rfl) fun _ _ h => ⟨rfl, h⟩

theorem Res.bind_bind' {α β γ : Type} (x : Res α) (f : α → Res β) (g : β → Res γ) : ((x >>= f) >>= g) = (x >>= fun a => f a >>= g) := by
  cases x <;> rfl

/-- A constructor of datatypes with one component. -/
theorem newType1_sim (hs : Sim env s M) {t : Int} {build : Garbage → Typestruct → Res Typestruct} {x : Res (Sys × Int)}
    (h : ∃ d, M.L.desc env.cfg t = some d ∧ TypeCall env M.L s (fun g => build g d) x ∧ ∀ g, (build g d).Sat Typestruct.WF) :
    x.Rel (fun x y => GoesM env s M x.1 y.1 ∧ x.2 = y.2) (M.type env t >>= fun d => M.newType env fun g => build g d) := by
  obtain ⟨d, h1, h2, h3⟩ := h
  rw [M.type_eq h1, Res.ok_bind]
  exact newType_sim hs h2 (newType_sat hs.reach hs.tidy h2 h3)

theorem Sim.ptr (hs : Sim env s M) {h : Int} (hc : IsComm M.L h) : ∃ p, s.ptr h = .ok (s, p) := by
  obtain ⟨A, lst, hi⟩ := hs.reach.inv
  obtain ⟨c, hm⟩ := hc
  exact ⟨_, Sys.ptr_live hi.hst (mem_keys hm)⟩

theorem quietIf {b p : Prop} [Decidable p] {x : Res Sys} {y : Res (Mach × Out)} (hs : Sim env s M)
    (h : (x >>= fun r => Res.ok (r, (⟨[], []⟩ : Out))).Rel (AnsM env s M none b) y) :
    ((if p then Res.ok s else x) >>= fun r => Res.ok (r, (⟨[], []⟩ : Out))).Rel (AnsM env s M none b)
      (if p then Mach.quiet (.ok M) else y) := by
  by_cases hp : p
  · rw [if_pos hp, if_pos hp]; exact quietM (GoesM.refl hs)
  · rw [if_neg hp, if_neg hp]; exact h

theorem rootedM {b : Prop} {root : Int} {msg : String} {x : Res Sys} {y : Res Mach} (hs : Sim env s M)
    (h : x.Rel (GoesM env s M) y) :
    ((if root = MPI_ROOT then Res.ok s else if root ≠ 0 then .abort msg else x) >>= fun r => Res.ok (r, (⟨[], []⟩ : Out))).Rel
      (AnsM env s M none b) (M.rooted root msg y) :=
  quietM (Rel.ite (fun _ => .refl hs) fun _ => Rel.ite (fun _ => rfl) fun _ => h)

theorem Call.sim (hs : Sim env s M) (hrm : Room M.L) (c : Call) (hc : c.Wf env M.L) :
    (c.answer env s).Rel (AnsM env s M c.posts (c.onlyReceives M.L)) (M.answer env c) := by
  have hid : GoesM env s M s M := .refl hs
  have hu : M.L.unmatched < 2147483647 := by have := hrm.2.2; omega
  have hwf : ∀ {h : Int}, IsType env M.L h → ∃ d, M.L.desc env.cfg h = some d ∧ d.WF := fun ⟨d, hd⟩ => ⟨d, hd, hs.tidy.types _ _ hd⟩
  cases c with
  | store m => exact (hs.withMem m).ans
  | init => exact quietM (init_sim hs hrm)
  | initThread r =>
    refine oneM ?_
    unfold MPI_Init_thread
    exact (init_sim hs hrm).bind fun _ _ _ _ h => ⟨h, rfl⟩
  | fortInit a =>
    refine quietM ((init_sim hs hrm).bind fun u v _ _ h => ?_)
    exact relRight (fortChecks_sim h.sim a hc) fun _ _ _ _ h2 => by rw [h2]; exact h
  | initialized =>
    obtain ⟨A, lst, hi⟩ := hs.reach.inv
    unfold Call.answer MPI_Initialized Mach.answer
    dsimp only
    rw [hi.ini]
    exact hid.ans
  | finalize => exact (finalize_sim hs).ans
  | abort a b => rfl
  | commDup a => exact oneM ((commNew_sim hs hrm).mono fun _ _ _ _ h => ⟨h.1, h.2.1⟩)
  | commCreate a b => exact oneM (commUnless_sim hs hrm)
  | commSplit a b c => exact oneM (commUnless_sim hs hrm)
  | intercommCreate a b c d e => exact oneM (commUnless_sim hs hrm)
  | cartCreate a b c => exact oneM (Rel.bind_same fun _ _ => (commNew_sim hs hrm).mono fun _ _ _ _ h => ⟨h.1, h.2.1⟩)
  | commFree a =>
    obtain ⟨c, hc, _⟩ := hc
    exact oneM (commFree_sim hs hc)
  | isend a b c d e f => exact postM (isend_sim hs _ _ _ hc hu)
  | irsend a b c d e f => exact postM (irsend_sim hs _ _ _ hc hu)
  | send a b c d e f => exact quietM ((send_sim hs _ _ _ hc hu).mono fun _ _ _ _ h => h.goes)
  | irecv a b c d e f => exact postM (irecv_sim hs _ _ _ hc hu)
  | recv a b c d e f st => exact ansM1 (f := .status) ((recv_sim hs _ _ _ hc hu _).mono fun _ _ _ _ ⟨h, h2⟩ => ⟨h.goes, h2⟩)
  | sendrecv a b c d e f g h i k l st => exact ansM1 (f := .status) (sendrecv_sim hs _ _ _ _ _ _ hc.1 hc.2 hrm.2.2 _)
  | iprobe a b c st => exact ansMStay (f := fun x => ⟨x.1 :: x.2.vals, []⟩) hs (iprobe_sim hs hc _ _ _)
  | probe a b c st =>
    exact ansM1 (f := .status) (relRight (probe_sim hs hc _ _ _) fun x y _ _ ⟨h1, h2⟩ => ⟨h1 ▸ hid, h2⟩)
  | test r st =>
    refine (test_sim (b := Call.onlyReceives M.L (.test r st)) hs hc (fun h => h r (by simp [Call.requests])) (.refl _ st)).bind fun x y _ _ h => ?_
    exact doneM1 h.done.goes (by rw [h.request, h.flag]) h.status
  | wait r st =>
    refine (wait_sim (b := Call.onlyReceives M.L (.wait r st)) hs hc (fun h => h r (by simp [Call.requests])) (.refl _ st)).bind fun x y _ _ h => ?_
    exact doneM1 (DoneM.of h.steps h.sim h.ledger).goes (by rw [h.request]) h.status
  | requestFree r =>
    obtain ⟨i, o, h1, h2, h3⟩ := hc
    exact oneM (requestFree_sim hs h1 h2 h3)
  | testany n rs i st =>
    obtain ⟨rfl, hw⟩ := hc
    unfold Call.answer MPI_Testany Mach.answer
    dsimp only
    rw [Int.toNat_natCast]
    have := testanyLoop_sim rs [] s M (Call.onlyReceives M.L (.testany rs.length rs i st)) st st hs hw (fun h => h) (.refl _ st)
    refine Rel.bind (relLeft (S := fun x y => GoesM env s M x.1 y.1 ∧ x.2.1 = y.2.1 ∧ x.2.2.1 = i ∧ x.2.2.2.1 = y.2.2.1 ∧
      StSame _ x.2.2.2.2 y.2.2.2) this fun x y ⟨h1, h2, h3, h4⟩ => ⟨h1.goes, h2, rfl, h3, h4⟩)
      fun x y _ _ ⟨h1, h2, h3, h4, h5⟩ => doneM1 h1 (by rw [h2, h3, h4]) h5
  | waitany n rs i st =>
    obtain ⟨rfl, hw⟩ := hc
    unfold Call.answer MPI_Waitany MPI_Testany Mach.answer
    dsimp only
    rw [Int.toNat_natCast]
    have := testanyLoop_sim rs [] s M (Call.onlyReceives M.L (.waitany rs.length rs i st)) st st hs hw (fun h => h) (.refl _ st)
    rw [Res.bind_bind', Res.bind_bind']
    refine this.bind fun x y _ _ ⟨h1, h2, h3, h4⟩ => ?_
    obtain ⟨x1, x2, x3, x4⟩ := x
    obtain ⟨y1, y2, y3, y4⟩ := y
    dsimp only at h1 h2 h3 h4 ⊢
    subst h3
    show ((if x3 = 0 then Res.abort "MPI_Waitany: no requests complete, deadlock" else Res.ok (x1, x2, i, x4)) >>= _).Rel _ _
    by_cases h0 : x3 = 0
    · rw [if_pos h0, if_pos h0]; rfl
    · rw [if_neg h0, if_neg h0]
      exact doneM1 h1.goes (by rw [h2]; rfl) h4
  | testall n rs sts =>
    obtain ⟨rfl, hw⟩ := hc
    unfold Call.answer MPI_Testall Mach.answer
    dsimp only
    rw [Int.toNat_natCast]
    refine (testallLoop_sim rs [] s M (Call.onlyReceives M.L (.testall rs.length rs sts)) sts sts 1 hs hw (fun h => h) (.refl _ sts)).bind
      fun x y _ _ ⟨⟨h1, h2, h3⟩, h4⟩ => ?_
    exact doneArrM h1.goes (by rw [h2, h4]; rfl) h3
  | waitall n rs sts =>
    obtain ⟨rfl, hw⟩ := hc
    unfold Call.answer MPI_Waitall Mach.answer
    dsimp only
    rw [Int.toNat_natCast]
    refine (waitallLoop_sim rs [] s M (Call.onlyReceives M.L (.waitall rs.length rs sts)) sts sts hs hw (fun h => h) (.refl _ sts)).bind
      fun x y _ _ ⟨h1, h2, h3⟩ => ?_
    exact doneArrM h1.goes h2 h3
  | testsome n rs ix sts =>
    obtain ⟨rfl, hw⟩ := hc
    unfold Call.answer MPI_Testsome Mach.answer
    dsimp only
    rw [Int.toNat_natCast, Res.bind_bind']
    refine (testsomeLoop_sim rs [] s M (Call.onlyReceives M.L (.testsome rs.length rs ix sts)) sts sts 0 hs hw (fun h => h) (.refl _ sts)).bind
      fun x y _ _ ⟨⟨h1, h2, h3⟩, h4⟩ => ?_
    exact doneArrM h1.goes (by dsimp only; rw [h2, h4, Int.zero_add]; rfl) h3
  | waitsome n rs ix sts =>
    obtain ⟨rfl, hw⟩ := hc
    unfold Call.answer MPI_Waitsome MPI_Testsome Mach.answer
    dsimp only
    rw [Int.toNat_natCast, Res.bind_bind']
    refine (testsomeLoop_sim rs [] s M (Call.onlyReceives M.L (.waitsome rs.length rs ix sts)) sts sts 0 hs hw (fun h => h) (.refl _ sts)).bind
      fun x y _ _ ⟨⟨h1, h2, h3⟩, h4⟩ => ?_
    exact doneArrM h1.goes (by dsimp only; rw [h2, h4, Int.zero_add]; rfl) h3
  | typeContiguous n t =>
    obtain ⟨d, h1, h2⟩ := hwf hc.2
    exact oneM (newType1_sim hs ⟨d, h1, .contiguous h1, fun g => Type_contiguous_sat _ _ h2 _⟩)
  | typeHvector n b d t =>
    obtain ⟨d, h1, h2⟩ := hwf hc.2.2
    exact oneM (newType1_sim hs ⟨d, h1, .hvector h1, fun g => Type_hvector_sat _ _ h2 _ hc.2.1 _⟩)
  | typeVector n b d t =>
    obtain ⟨d, h1, h2⟩ := hwf hc.2.2
    exact oneM (newType1_sim hs ⟨d, h1, .vector h1, fun g => Type_vector_sat _ _ h2 _ hc.2.1 _⟩)
  | typeHindexed n b d t =>
    obtain ⟨_, _, hb, hty⟩ := hc
    obtain ⟨d, h1, h2⟩ := hwf hty
    exact oneM (newType1_sim hs ⟨d, h1, .hindexed h1, fun g => Type_hindexed_sat _ _ h2 _ hb _⟩)
  | typeIndexed n b d t =>
    obtain ⟨_, _, hb, hty⟩ := hc
    obtain ⟨d, h1, h2⟩ := hwf hty
    exact oneM (newType1_sim hs ⟨d, h1, .indexed h1, fun g => Type_indexed_sat _ _ h2 _ hb _⟩)
  | typeIndexedBlock n b d t =>
    obtain ⟨_, hb, hty⟩ := hc
    obtain ⟨d, h1, h2⟩ := hwf hty
    exact oneM (newType1_sim hs ⟨d, h1, .indexedBlock h1, fun g => Type_create_indexed_block_sat _ _ h2 _ hb _⟩)
  | typeStruct n b d ts =>
    obtain ⟨h1, h2, h3, h4, h5⟩ := hc
    exact oneM (struct_sim hs h1 h2 h3 h4 h5)
  | typeCommit t => exact quietM (commit_sim hs hc)
  | typeFree t =>
    obtain ⟨⟨u, hm⟩, hf⟩ := hc
    exact quietM (typeFree_sim hs hm hf)
  | typeExtent t =>
    obtain ⟨d, h1, h2, _⟩ := hs.typeOf hc
    refine tellM hs ?_
    unfold MPI_Type_extent
    rw [h1, h2, Res.ok_bind, Res.ok_bind]
    exact stayS
  | typeSize t =>
    obtain ⟨d, h1, h2, _⟩ := hs.typeOf hc
    refine tellM hs ?_
    unfold MPI_Type_size
    rw [h1, h2, Res.ok_bind, Res.ok_bind]
    exact stayS
  | typeLb t =>
    obtain ⟨d, h1, h2, _⟩ := hs.typeOf hc
    refine tellM hs ?_
    unfold MPI_Type_lb
    rw [h1, h2, Res.ok_bind, Res.ok_bind]
    exact ⟨rfl, rfl⟩
  | typeUb t =>
    obtain ⟨d, h1, h2, _⟩ := hs.typeOf hc
    refine tellM hs ?_
    unfold MPI_Type_ub
    rw [h1, h2, Res.ok_bind, Res.ok_bind]
    exact ⟨rfl, rfl⟩
  | getElements st t =>
    obtain ⟨d, h1, h2, _⟩ := hs.typeOf hc
    refine tellM hs ?_
    unfold MPI_Get_elements
    rw [h1, h2, Res.ok_bind, Res.ok_bind]
    exact stayS
  | pack a b t c d e comm =>
    obtain ⟨u, h1, h2, _⟩ := hs.typeOf hc.1
    obtain ⟨p, hcm⟩ := hs.ptr hc.2
    refine oneM ?_
    unfold MPI_Pack
    rw [h1, h2, Res.ok_bind, Res.ok_bind]
    dsimp only
    rw [hcm, Res.ok_bind]
    dsimp only
    rw [hs.mem]
    exact Rel.bind_same fun x _ => ⟨hs.withMem x.1, rfl⟩
  | packSize n t comm =>
    obtain ⟨u, h1, h2, _⟩ := hs.typeOf hc.1
    obtain ⟨p, hcm⟩ := hs.ptr hc.2
    refine tellM hs ?_
    unfold MPI_Pack_size
    rw [h1, h2, Res.ok_bind, Res.ok_bind]
    dsimp only
    rw [hcm, Res.ok_bind]
    exact stayS
  | unpack a b c d e t comm =>
    obtain ⟨u, h1, h2, _⟩ := hs.typeOf hc.1
    obtain ⟨p, hcm⟩ := hs.ptr hc.2
    refine oneM ?_
    unfold MPI_Unpack
    rw [h1, h2, Res.ok_bind, Res.ok_bind]
    dsimp only
    rw [hcm, Res.ok_bind]
    dsimp only
    rw [hs.mem]
    exact Rel.bind_same fun x _ => ⟨hs.withMem x.1, rfl⟩
  | barrier c => exact hid.ans
  | bcast a b c r d => exact rootedM hs hid
  | gather a b c d e f r comm => exact quietIf hs (rootedM hs (copy_sim hs hc.1 hc.2 _ _ _ _))
  | gatherv a b c d e f g r comm =>
    exact quietIf hs (rootedM hs (offset_sim hs hc.2 _ _ (fun o k => copy_data2 env s a b c (padd d o) k g) (fun _ => rfl)
      fun o k => copy_sim hs hc.1 hc.2 _ _ _ _))
  | allgather a b c d e f comm => exact quietIf hs (quietM (copy_sim hs hc.1 hc.2 _ _ _ _))
  | allgatherv a b c d e f g comm =>
    exact quietIf hs (quietM (offset_sim hs hc.2 _ _ (fun o k => copy_data2 env s a b c (padd d o) k g) (fun _ => rfl)
      fun o k => copy_sim hs hc.1 hc.2 _ _ _ _))
  | scatter a b c d e f r comm => exact quietIf hs (rootedM hs (copy_sim hs hc.1 hc.2 _ _ _ _))
  | scatterv a b c d e f g r comm =>
    exact quietIf hs (rootedM hs (offset_sim hs hc.1 _ _ (fun o k => copy_data2 env s (padd a o) k d e f g) (fun _ => rfl)
      fun o k => copy_sim hs hc.1 hc.2 _ _ _ _))
  | reduce a b n t op r comm => exact quietM (Rel.ite (fun _ => rfl) fun _ => copy_sim hs hc hc _ _ _ _)
  | allreduce a b n t op comm => exact quietIf hs (quietM (copy_sim hs hc hc _ _ _ _))
  | reduceScatter a b n t op comm => exact quietM (Rel.bind_same fun _ _ => copy_sim hs hc hc _ _ _ _)
  | scan a b n t op comm => exact quietM (copy_sim hs hc hc _ _ _ _)
  | alltoall a b c d e f comm => exact quietM (copy_sim hs hc.1 hc.2 _ _ _ _)
  | alltoallv a b c d e f g h comm =>
    refine quietM (extent_sim hs hc.1 fun _ _ => extent_sim hs hc.2 fun _ _ => ?_)
    exact Rel.bind_same fun _ _ => Rel.bind_same fun _ _ => Rel.bind_same fun _ _ => Rel.bind_same fun _ _ => copy_sim hs hc.1 hc.2 _ _ _ _
  | alltoallw a b c d e f g h comm =>
    have hr : ∀ {l : List Int} {x : Int}, rd l 0 = .ok x → x ∈ l := fun {l x} h => by
      unfold rd at h
      split at h
      · next h1 => cases h; exact List.mem_of_getElem? h1
      · cases h
    refine quietM (Rel.bind_same fun _ _ => Rel.bind_same fun _ _ => Rel.bind_same fun _ h1 => Rel.bind_same fun _ _ =>
      Rel.bind_same fun _ _ => Rel.bind_same fun _ h2 => ?_)
    exact copy_sim hs (hc.1 _ (hr h1)) (hc.2 _ (hr h2)) _ _ _ _

end

end MpiSerial
