import Verif.Proofs.ComposeWent

/-!
# Every call of one part, on the machine of all and on its own
-/

set_option linter.unusedSimpArgs false
set_option linter.unusedSectionVars false
set_option autoImplicit false

namespace MpiSerial

open Res (Sub)

section
variable {R : Int → Bool} {w : Bool} {M N : Mach} {env : Env}

/-- The same answer, and the machines go on side by side. -/
abbrev SameGoes (R : Int → Bool) (w : Bool) (M N : Mach) (x y : Mach × Out) : Prop := x.2 = y.2 ∧ Went R w M N x.1 y.1

theorem sub_quiet {u v : Res Mach} (h : u.Sub (Went R w M N) v) : (Mach.quiet u).Sub (SameGoes R w M N) (Mach.quiet v) := by
  unfold Mach.quiet
  exact Sub.bind h fun x y _ _ h => .ok ⟨rfl, h⟩

theorem sub_one {u v : Res (Mach × Int)} (h : u.Sub (fun x y => x.2 = y.2 ∧ Went R w M N x.1 y.1) v) :
    (Mach.one u).Sub (SameGoes R w M N) (Mach.one v) := by
  unfold Mach.one
  exact Sub.bind h fun x y _ _ h => .ok ⟨by rw [h.1], h.2⟩

theorem sub_oneStatus {u v : Res (Mach × StPtr)} (h : u.Sub (fun x y => x.2 = y.2 ∧ Went R w M N x.1 y.1) v) :
    (Mach.oneStatus u).Sub (SameGoes R w M N) (Mach.oneStatus v) := by
  unfold Mach.oneStatus
  exact Sub.bind h fun x y _ _ h => .ok ⟨by rw [h.1], h.2⟩

namespace Beside
variable (hP : Beside R w M N)
include hP

theorem tell {u v : Res Int} (h : u.Sub (fun x y => x = y) v) : (M.tell u).Sub (SameGoes R w M N) (N.tell v) := by
  unfold Mach.tell
  exact Sub.bind h fun x y _ _ h => .ok ⟨by rw [h], .refl hP⟩

theorem rooted {root : Int} {msg : String} {u v : Res Mach} (h : u.Sub (Went R w M N) v) :
    (M.rooted root msg u).Sub (SameGoes R w M N) (N.rooted root msg v) := by
  unfold Mach.rooted
  exact sub_quiet (Sub.ite (fun _ => .ok (.refl hP)) fun _ => Sub.ite (fun _ => .abort) fun _ => h)

theorem newCommUnless {p : Prop} [Decidable p] :
    (Mach.newCommUnless p M).Sub (fun x y => x.2 = y.2 ∧ Went R w M N x.1 y.1) (Mach.newCommUnless p N) := by
  unfold Mach.newCommUnless
  exact Sub.ite (fun _ => .ok ⟨rfl, .refl hP⟩) fun _ => hP.newComm

theorem ofType {t : Int} {f : Typestruct → Res Int} : ((M.type env t) >>= f).Sub (fun x y => x = y) ((N.type env t) >>= f) := by
  refine Sub.bind (hP.type t) fun d d' _ _ e => ?_
  subst e
  exact .of (.same fun _ _ => rfl)

theorem buildType (hst : env.Steady) {t : Int} {f : Typestruct → Garbage → Res Typestruct} :
    ((M.type env t) >>= fun d => M.newType env (f d)).Sub (fun x y => x.2 = y.2 ∧ Went R w M N x.1 y.1) ((N.type env t) >>= fun d => N.newType env (f d)) := by
  refine Sub.bind (hP.type t) fun d d' _ _ e => ?_
  subst e
  exact hP.newType hst _

theorem freeComm {h : Int} {c : Nat} (hm : (h, Obj.comm c) ∈ N.L.objs) (h1 : h ≠ 1) : Went R w M N (M.freeComm h) (N.freeComm h) := by
  obtain ⟨φ, ψ, hp⟩ := hP.part
  exact hP.step (.freeComm (hp.objs _ _ hm) h1 (hP.mine ⟨_, hm⟩)) (.freeComm hm h1 trivial)
    ⟨φ, ψ, hp.gone hP.sane hP.sane' h (L := M.L.freeComm h) (L' := N.L.freeComm h) rfl rfl rfl rfl rfl rfl⟩ (hP.lead.give h) hP.inside (hP.keep_drop ⟨_, hm⟩ rfl rfl)

theorem commit {t : Int} (ht : HasType N.L t) : Went R w M N (M.commit t) (N.commit t) := by
  unfold Mach.commit
  by_cases h0 : t < 0
  · rw [if_pos h0, if_pos h0]; exact .refl hP
  · rw [if_neg h0, if_neg h0]
    obtain ⟨φ, ψ, hp⟩ := hP.part
    rcases ht with ht | ⟨d, hd⟩
    · exact absurd ht h0
    · refine hP.step (.commit (hp.objs _ _ hd) (hP.mine ⟨_, hd⟩)) (.commit hd trivial) ⟨φ, ψ, hp.commit hP.sane hP.sane' t⟩ hP.lead hP.inside ?_
      have hu : ∀ (K : Mach) a, ({ K with L := K.L.commit t } : Mach).uses a ↔ K.uses a := fun K a => by
        constructor
        · rintro ⟨p, h⟩
          rcases commit_mem.1 h with ⟨t, _, h2, _⟩ | ⟨h1, _⟩
          · exact ⟨_, h2⟩
          · exact ⟨_, h1⟩
        · rintro ⟨p, h⟩
          by_cases hd : a = t ∧ ∃ d, p = .dtype d
          · obtain ⟨e, d, rfl⟩ := hd
            exact ⟨_, commit_mem.2 (.inl ⟨d, e, h, rfl⟩)⟩
          · exact ⟨p, commit_mem.2 (.inr ⟨h, fun e d hd' => hd ⟨e, d, hd'⟩⟩)⟩
      intro h hf
      exact ⟨(hu M h).2 hf.1, fun h' => hf.2 ((hu N h).1 h')⟩

theorem pack {t a n b size pos : Int} :
    ((M.type env t) >>= fun d => Pack env.cfg M.mem a n d b size pos >>= fun x => .ok ({ M with mem := x.1 }, x.2)).Sub
      (fun x y => x.2 = y.2 ∧ Went R w M N x.1 y.1)
      ((N.type env t) >>= fun d => Pack env.cfg N.mem a n d b size pos >>= fun x => .ok ({ N with mem := x.1 }, x.2)) := by
  refine Sub.bind (hP.type t) fun d d' _ _ e => ?_
  subst e
  rw [hP.mem]
  exact Sub.bind (Pack_confined M.mem a n d b size pos) fun x y _ _ h => .ok ⟨h.2, hP.memory h.1⟩

theorem unpack {t a n b size pos : Int} :
    ((M.type env t) >>= fun d => Unpack env.cfg M.mem a size pos b n d >>= fun x => .ok ({ M with mem := x.1 }, x.2)).Sub
      (fun x y => x.2 = y.2 ∧ Went R w M N x.1 y.1)
      ((N.type env t) >>= fun d => Unpack env.cfg N.mem a size pos b n d >>= fun x => .ok ({ N with mem := x.1 }, x.2)) := by
  refine Sub.bind (hP.type t) fun d d' _ _ e => ?_
  subst e
  rw [hP.mem]
  exact Sub.bind (Unpack_confined M.mem a size pos b n d) fun x y _ _ h => .ok ⟨h.2, hP.memory h.1⟩

theorem not_one {h : Int} {o : Obj} (hm : (h, o) ∈ N.L.objs) (ho : ∀ c, o ≠ .comm c) : h ≠ 1 := fun e => by
  subst e
  exact ho _ (hP.sane'.unique hm hP.sane'.world)

/-- Every call. -/
theorem answer {l : Layer} (hR : l.region = R) (hw : l.world = w) (hst : env.Steady) (c : Call) (hwf : c.Wf env N.L) (his : c.inSession true) (may : l.May c) :
    (M.answer env (l.call M.mem c)).Sub (SameGoes R w M N) (N.answer env c) := by
  subst hR hw
  cases c with
  | store m =>
    refine sub_quiet (.ok (hP.memory ⟨?_, fun a ha => ?_⟩))
    · funext a
      unfold Mem.part Mem.over
      cases ha : l.region a with
      | false => rw [may a ha]; rfl
      | true => rfl
    · unfold Mem.over
      rw [ha]
      rfl
  | init => cases his
  | initThread r => cases his
  | fortInit a => cases his
  | finalize => exact may.elim
  | initialized =>
    refine hP.tell (.ok ?_)
    rw [hP.sane.inited, hP.sane'.inited]
  | abort _ code => exact .exit
  | commDup _ => exact sub_one hP.newComm
  | commCreate _ _ => exact sub_one hP.newCommUnless
  | commSplit _ _ _ => exact sub_one hP.newCommUnless
  | intercommCreate _ _ _ _ _ => exact sub_one hP.newCommUnless
  | cartCreate _ _ _ => exact sub_one (Sub.same fun _ _ => hP.newComm)
  | commFree h =>
    obtain ⟨c, h1, _⟩ := hwf
    exact sub_one (.ok ⟨rfl, hP.freeComm h1 his.2⟩)
  | isend b n t d g c =>
    exact sub_one ((hP.isend hwf.1.has fun e => may (congrArg some e)).mono fun _ _ _ _ h => ⟨h.1, h.2.1⟩)
  | irsend b n t d g c => exact sub_one (hP.irsend hwf.1.has fun e => may (congrArg some e))
  | send b n t d g c => exact sub_quiet (hP.send hwf.1.has fun e => may (congrArg some e))
  | irecv b n t d g c =>
    exact sub_one ((hP.irecv hwf.1.has fun e => may (congrArg some e)).mono fun _ _ _ _ h => ⟨h.1, h.2.1⟩)
  | recv b n t d g c st => exact sub_oneStatus (hP.recv hwf.1.has fun e => may (congrArg some e))
  | sendrecv b n t d g b' n' t' d' g' c st => exact sub_oneStatus (hP.sendrecv hwf.1.1.has hwf.2.1.has fun e => may (congrArg some e))
  | iprobe d g c st => exact Sub.bind (hP.iprobe fun e => may (congrArg some e)) fun x y _ _ e => .ok ⟨by rw [e], .refl hP⟩
  | probe d g c st =>
    exact sub_oneStatus (Sub.bind (hP.probe fun e => may (congrArg some e)) fun x y _ _ e => .ok ⟨by rw [e], .refl hP⟩)
  | test r st => exact Sub.bind (hP.test r st) fun x y _ _ ⟨h1, h2, h3, h4, _⟩ => .ok ⟨by rw [h1, h2, h3], h4⟩
  | wait r st => exact Sub.bind (hP.wait r st) fun x y _ _ ⟨h1, h2, _⟩ => .ok ⟨by rw [h1], h2⟩
  | requestFree r =>
    obtain ⟨i, o, h1, _⟩ := hwf
    exact sub_one (.ok ⟨rfl, hP.release h1 (hP.not_one h1 fun c e => (nomatch e)) fun _ e => (nomatch e)⟩)
  | testany n rs i st => exact Sub.bind (hP.testany rs st) fun x y _ _ ⟨h1, h2⟩ => .ok ⟨by rw [h1], h2⟩
  | waitany n rs i st =>
    refine Sub.bind (hP.testany rs st) fun x y _ _ ⟨h1, h2⟩ => ?_
    rw [h1]
    exact Sub.ite (fun _ => .abort) fun _ => .ok ⟨rfl, h2⟩
  | testall n rs sts => exact Sub.bind (hP.testeach rs 0 sts) fun x y _ _ ⟨h1, h2⟩ => .ok ⟨by rw [h1], h2⟩
  | waitall n rs sts => exact Sub.bind (hP.waitall rs 0 sts) fun x y _ _ ⟨h1, h2⟩ => .ok ⟨by rw [h1], h2⟩
  | testsome n rs ix sts => exact Sub.bind (hP.testeach rs 0 sts) fun x y _ _ ⟨h1, h2⟩ => .ok ⟨by rw [h1], h2⟩
  | waitsome n rs ix sts => exact Sub.bind (hP.testeach rs 0 sts) fun x y _ _ ⟨h1, h2⟩ => .ok ⟨by rw [h1], h2⟩
  | typeContiguous _ _ => exact sub_one (hP.buildType hst)
  | typeHvector _ _ _ _ => exact sub_one (hP.buildType hst)
  | typeVector _ _ _ _ => exact sub_one (hP.buildType hst)
  | typeHindexed _ _ _ _ => exact sub_one (hP.buildType hst)
  | typeIndexed _ _ _ _ => exact sub_one (hP.buildType hst)
  | typeIndexedBlock _ _ _ _ => exact sub_one (hP.buildType hst)
  | typeStruct _ bs ks ts =>
    refine sub_one (Sub.bind (hP.types ts) fun x y _ _ e => ?_)
    subst e
    exact hP.newType hst _
  | typeCommit t => exact sub_quiet (.ok (hP.commit (IsType.has hwf)))
  | typeFree t =>
    obtain ⟨⟨d, h1⟩, h2⟩ := hwf
    exact sub_quiet (.ok (hP.release h1 (hP.not_one h1 fun c e => (nomatch e)) fun _ _ => h2))
  | typeExtent t => exact hP.tell hP.ofType
  | typeSize t => exact hP.tell hP.ofType
  | typeLb t => exact hP.tell hP.ofType
  | typeUb t => exact hP.tell hP.ofType
  | getElements st t => exact hP.tell hP.ofType
  | pack a n t b size pos _ => exact sub_one hP.pack
  | packSize n t _ => exact hP.tell hP.ofType
  | unpack a size pos b n t _ => exact sub_one hP.unpack
  | barrier _ => exact sub_quiet (.ok (.refl hP))
  | bcast _ _ _ root _ => exact hP.rooted (.ok (.refl hP))
  | gather a n t b k u root _ => exact Sub.ite (fun _ => sub_quiet (.ok (.refl hP))) fun _ => hP.rooted (hP.copyWent ..)
  | gatherv a n t b ks ds u root _ =>
    refine Sub.ite (fun _ => sub_quiet (.ok (.refl hP))) fun _ => hP.rooted (Sub.bind (hP.type u) fun d d' _ _ e => ?_)
    subst e
    exact Sub.same fun _ _ => Sub.same fun _ _ => hP.copyWent ..
  | allgather a n t b k u _ => exact Sub.ite (fun _ => sub_quiet (.ok (.refl hP))) fun _ => sub_quiet (hP.copyWent ..)
  | allgatherv a n t b ks ds u _ =>
    refine Sub.ite (fun _ => sub_quiet (.ok (.refl hP))) fun _ => sub_quiet (Sub.bind (hP.type u) fun d d' _ _ e => ?_)
    subst e
    exact Sub.same fun _ _ => Sub.same fun _ _ => hP.copyWent ..
  | scatter a n t b k u root _ => exact Sub.ite (fun _ => sub_quiet (.ok (.refl hP))) fun _ => hP.rooted (hP.copyWent ..)
  | scatterv a ns ds t b k u root _ =>
    refine Sub.ite (fun _ => sub_quiet (.ok (.refl hP))) fun _ => hP.rooted (Sub.bind (hP.type t) fun d d' _ _ e => ?_)
    subst e
    exact Sub.same fun _ _ => Sub.same fun _ _ => hP.copyWent ..
  | reduce a b n t _ root _ => exact sub_quiet (Sub.ite (fun _ => .abort) fun _ => hP.copyWent ..)
  | allreduce a b n t _ _ => exact Sub.ite (fun _ => sub_quiet (.ok (.refl hP))) fun _ => sub_quiet (hP.copyWent ..)
  | reduceScatter a b ns t _ _ => exact sub_quiet (Sub.same fun _ _ => hP.copyWent ..)
  | scan a b n t _ _ => exact sub_quiet (hP.copyWent ..)
  | alltoall a n t b k u _ => exact sub_quiet (hP.copyWent ..)
  | alltoallv a ns sds t b ks rds u _ =>
    refine sub_quiet (Sub.bind (hP.type t) fun d d' _ _ e => ?_)
    subst e
    refine Sub.same fun _ _ => Sub.bind (hP.type u) fun d' d'' _ _ e => ?_
    subst e
    exact Sub.same fun _ _ => Sub.same fun _ _ => Sub.same fun _ _ => Sub.same fun _ _ => Sub.same fun _ _ => hP.copyWent ..
  | alltoallw a ns sds ts b ks rds us _ =>
    exact sub_quiet (Sub.same fun _ _ => Sub.same fun _ _ => Sub.same fun _ _ => Sub.same fun _ _ => Sub.same fun _ _ => Sub.same fun _ _ => hP.copyWent ..)

end Beside
end
end MpiSerial
