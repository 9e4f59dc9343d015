import Verif.Spec.Frame
import Verif.Proofs.Safe
import Verif.Proofs.Inited
import Verif.Props.Copy

/-!
# Bytes that calls leave alone
-/

set_option linter.unusedSimpArgs false
set_option autoImplicit false

namespace MpiSerial

open Spec
open Res (Post)

/-! ## Calls that have nothing to do with user memory -/

section
variable {env : Env} {m : Mem}

/-- User memory is `m`. -/
abbrev MemIs (m : Mem) (s : Sys) : Prop := s.mem = m

theorem ptr_mem {s : Sys} (h : MemIs m s) (x : Int) : (s.ptr x).Post (fun r => MemIs m r.1) :=
  Post.bind_ fun _ => .ok h

theorem modReq_mem {s : Sys} (h : MemIs m s) (l : Loc) (f : ReqRec → ReqRec) : (s.modReq l f).Post (MemIs m) :=
  Post.bind_ fun _ => .ok h

theorem allocReq_mem {s : Sys} (h : MemIs m s) : (s.allocReq env).Post (fun r => MemIs m r.1) :=
  Post.bind_ fun _ => .ok h

theorem toType_mem {s : Sys} (h : MemIs m s) (x : Int) : (handleToDatatype s x).Post (fun r => MemIs m r.1) := by
  unfold handleToDatatype
  refine .ite (Post.bind_ fun _ => .ok h) ((ptr_mem h x).bind fun r hr => ?_)
  obtain ⟨s1, p⟩ := r
  cases p with
  | none => exact .ub
  | some l =>
    refine Post.bind_ fun it => ?_
    split
    · exact .ok hr
    · exact .ub

theorem typeOf_mem {s : Sys} (h : MemIs m s) (x : Int) : (typeOf env s x).Post (fun r => MemIs m r.1) :=
  (toType_mem h x).bind fun _ hr => Post.bind_ fun _ => .ok hr

theorem test_mem {s : Sys} (h : MemIs m s) (r : Int) (st : StPtr) : (MPI_Test s r st).Post (fun r => MemIs m r.sys) := by
  unfold MPI_Test
  refine .ite (Post.bind_ fun _ => .ok h) ((ptr_mem h r).bind fun x h1 => Post.bind_ fun _ => .ite ?_ (.ok h1))
  exact Post.bind_ fun _ => Post.bind_ fun _ => .ok h1

theorem wait_mem {s : Sys} (h : MemIs m s) (r : Int) (st : StPtr) : (MPI_Wait s r st).Post (fun r => MemIs m r.1) :=
  (test_mem h r st).bind fun _ h1 => .ite .abort (.ok h1)

theorem iprobe_mem {s : Sys} (h : MemIs m s) (src tag comm : Int) (st : StPtr) :
    (MPI_Iprobe s src tag comm st).Post (fun r => MemIs m r.1) := by
  unfold MPI_Iprobe
  refine (ptr_mem h comm).bind fun x h1 => .ite .abort (Post.bind_ fun _ => Post.bind_ fun f => ?_)
  cases f with
  | none => exact .ok h1
  | some i => exact Post.bind_ fun _ => Post.bind_ fun _ => Post.bind_ fun _ => .ok h1

theorem testanyLoop_mem : ∀ (n i : Nat) (s : Sys) (rs : List Int) (st : StPtr), MemIs m s →
    (testanyLoop n i s rs st).Post (fun r => MemIs m r.1)
  | 0, _, _, _, _, h => .ok h
  | n + 1, i, s, rs, st, h => by
    rw [testanyLoop]
    exact Post.bind_ fun _ => (test_mem h _ _).bind fun r hr => .ite (.ok hr) (testanyLoop_mem n (i + 1) _ _ _ hr)

theorem testallLoop_mem : ∀ (n i : Nat) (s : Sys) (rs : List Int) (st : StArr) (f : Int), MemIs m s →
    (testallLoop n i s rs st f).Post (fun r => MemIs m r.1.sys)
  | 0, _, _, _, _, _, h => .ok h
  | n + 1, i, s, rs, st, f, h => by
    rw [testallLoop]
    exact Post.bind_ fun _ => Post.bind_ fun _ => (test_mem h _ _).bind fun r hr => testallLoop_mem n (i + 1) _ _ _ _ hr

theorem testsomeLoop_mem : ∀ (n i : Nat) (s : Sys) (rs : List Int) (st : StArr) (f : Int), MemIs m s →
    (testsomeLoop n i s rs st f).Post (fun r => MemIs m r.1.sys)
  | 0, _, _, _, _, _, h => .ok h
  | n + 1, i, s, rs, st, f, h => by
    rw [testsomeLoop]
    exact Post.bind_ fun _ => Post.bind_ fun _ => (test_mem h _ _).bind fun r hr => testsomeLoop_mem n (i + 1) _ _ _ _ hr

theorem waitallLoop_mem : ∀ (n i : Nat) (s : Sys) (rs : List Int) (st : StArr), MemIs m s →
    (waitallLoop n i s rs st).Post (fun r => MemIs m r.sys)
  | 0, _, _, _, _, h => .ok h
  | n + 1, i, s, rs, st, h => by
    rw [waitallLoop]
    exact Post.bind_ fun _ => Post.bind_ fun _ => (test_mem h _ _).bind fun r hr => .ite .abort (waitallLoop_mem n (i + 1) _ _ _ hr)

theorem newType_mem {s : Sys} (h : MemIs m s) (build : Garbage → Res Typestruct) :
    (newType env s build).Post (fun r => MemIs m r.1) :=
  Post.bind_ fun _ => Post.bind_ fun _ => .ok h

theorem structTypes_mem (olds : List Int) : ∀ (n i : Nat) (s : Sys), MemIs m s →
    (structTypes env olds n i s).Post (fun r => MemIs m r.1)
  | 0, _, _, h => .ok h
  | n + 1, i, s, h => by
    rw [structTypes]
    exact Post.bind_ fun _ => (typeOf_mem h _).bind fun r hr => (structTypes_mem olds n (i + 1) _ hr).bind fun _ h2 => .ok h2

theorem commNew_mem {s : Sys} (h : MemIs m s) : (mpi_comm_new s).Post (fun r => MemIs m r.1) :=
  Post.bind_ fun _ => Post.bind_ fun _ => Post.bind_ fun _ => Post.bind_ fun _ => .ok h

theorem extent_mem {s : Sys} (h : MemIs m s) (t : Int) : (MPI_Type_extent env s t).Post (fun r => MemIs m r.1) :=
  (typeOf_mem h t).bind fun _ h1 => Post.bind_ fun _ => .ok h1

theorem init_mem {s : Sys} (h : MemIs m s) : (MPI_Init s).Post (MemIs m) :=
  (commNew_mem h).bind fun _ h => .ite .abort (.ok h)

theorem fortChecks_mem {s : Sys} (h : MemIs m s) (a : FortArgs) : (mpi_init_fort_checks env a s).Post (MemIs m) := by
  have hv : ∀ {s : Sys} {name : String} {p q err : Int}, MemIs m s → (verify_size env a name p q s err).Post (fun r => MemIs m r.1) :=
    fun h => (typeOf_mem h _).bind fun _ h => Post.bind_ fun _ => Post.bind_ fun _ => .ok h
  exact Post.bind_ fun _ => Post.bind_ fun _ => Post.bind_ fun _ => (hv h).bind fun _ h => (hv h).bind fun _ h =>
    (hv h).bind fun _ h => (hv h).bind fun _ h => (hv h).bind fun _ h => .ite .abort (.ok h)

/-- Calls that have nothing to do with user memory do not change it, whatever their arguments and
whatever the state. -/
theorem Call.keeps_mem {s : Sys} (h : MemIs m s) (c : Call) (hsil : c.silent) :
    (c.exec env s).Post (MemIs m) := by
  have hnew : ∀ {x : Int} {f : Typestruct → Garbage → Res Typestruct},
      (typeOf env s x >>= fun r => newType env r.1 (f r.2)).Post (fun r => MemIs m r.1) := fun {x f} =>
    (typeOf_mem h x).bind fun _ h1 => newType_mem h1 _
  have hkeep : ∀ {α : Type} {x : Res (Sys × α)}, x.Post (fun r => MemIs m r.1) → (x >>= fun r => Res.ok r.1).Post (MemIs m) :=
    fun h => h.bind fun _ h => .ok h
  cases c with
  | store m' => cases hsil
  | init => exact init_mem h
  | initThread r =>
    exact Post.bind (P := fun r => MemIs m r.1) ((init_mem h).bind fun _ h => .ok h) fun _ h => .ok h
  | fortInit a => exact (init_mem h).bind fun _ h => fortChecks_mem h a
  | initialized => exact .ok h
  | finalize => exact .ok h
  | abort a b => exact fun _ h => by cases h
  | commDup a => exact hkeep (commNew_mem h)
  | commCreate a g => exact hkeep (.ite (.ok h) (commNew_mem h))
  | commSplit a c k => exact hkeep (.ite (.ok h) (commNew_mem h))
  | intercommCreate a b c d e => exact hkeep (.ite (.ok h) (commNew_mem h))
  | cartCreate a n d => exact hkeep (Post.bind_ fun _ => commNew_mem h)
  | commFree a =>
    exact hkeep ((ptr_mem h a).bind fun _ h => Post.bind_ fun _ => Post.bind_ fun _ => Post.bind_ fun _ => Post.bind_ fun _ =>
      Post.bind_ fun _ => Post.bind_ fun _ => .ok h)
  | isend a b c d e f => cases hsil
  | irsend a b c d e f => cases hsil
  | send a b c d e f => cases hsil
  | irecv a b c d e f => cases hsil
  | recv a b c d e f st => cases hsil
  | sendrecv a b c d e f g i j k l st => cases hsil
  | iprobe a b c st => exact hkeep (iprobe_mem h _ _ _ _)
  | probe a b c st => exact hkeep ((iprobe_mem h _ _ _ _).bind fun _ h => .ite .abort (.ok h))
  | test r st => exact (test_mem h _ _).bind fun _ h => .ok h
  | wait r st => exact hkeep (wait_mem h _ _)
  | requestFree r => exact hkeep (Post.bind_ fun _ => .ok h)
  | testany n rs i st => exact hkeep ((testanyLoop_mem _ _ _ _ _ h).bind fun _ h => .ok h)
  | waitany n rs i st =>
    exact hkeep (Post.bind (P := fun r => MemIs m r.1) ((testanyLoop_mem _ _ _ _ _ h).bind fun _ h => .ok h) fun _ h => .ite .abort (.ok h))
  | testall n rs sts => exact (testallLoop_mem _ _ _ _ _ _ h).bind fun _ h => .ok h
  | waitall n rs sts => exact (waitallLoop_mem _ _ _ _ _ h).bind fun _ h => .ok h
  | testsome n rs ix sts =>
    exact Post.bind (P := fun r => MemIs m r.arr.sys) ((testsomeLoop_mem _ _ _ _ _ _ h).bind fun _ h => .ok h) fun _ h => .ok h
  | waitsome n rs ix sts =>
    exact Post.bind (P := fun r => MemIs m r.arr.sys) ((testsomeLoop_mem _ _ _ _ _ _ h).bind fun _ h => .ok h) fun _ h => .ok h
  | typeContiguous n t => exact hkeep (hnew (f := fun t g => Type_contiguous env.cfg g n t))
  | typeHvector n b d t => exact hkeep (hnew (f := fun t g => Type_hvector env.cfg g n b d t))
  | typeVector n b d t => exact hkeep (hnew (f := fun t g => Type_vector env.cfg g n b d t))
  | typeHindexed n b d t => exact hkeep (hnew (f := fun t g => Type_hindexed env.cfg g n b d t))
  | typeIndexed n b d t => exact hkeep (hnew (f := fun t g => Type_indexed env.cfg g n b d t))
  | typeIndexedBlock n b d t => exact hkeep (hnew (f := fun t g => Type_create_indexed_block env.cfg g n b d t))
  | typeStruct n b d ts => exact hkeep (Post.bind_ fun _ => (structTypes_mem _ _ _ _ h).bind fun _ h => newType_mem h _)
  | typeCommit t =>
    refine (toType_mem h t).bind fun x h => Post.bind_ fun _ => ?_
    obtain ⟨x1, p⟩ := x
    cases p
    · exact .ok h
    · exact .ok h
    · exact .ok h
  | typeFree t =>
    refine (toType_mem h t).bind fun x h => ?_
    obtain ⟨x1, p⟩ := x
    refine Post.bind (P := MemIs m) ?_ fun _ h => Post.bind_ fun _ => .ok h
    cases p with
    | null => exact .ok h
    | static k => exact .ub
    | heap q =>
      show (match x1.theap q with
        | some _ => Res.ok { x1 with theap := fun q' => if q' = q then none else x1.theap q' }
        | none => Res.ub UB.badFree).Post (MemIs m)
      cases x1.theap q
      · exact .ub
      · exact .ok h
  | typeExtent t => exact hkeep (extent_mem h t)
  | typeSize t => exact hkeep ((typeOf_mem h t).bind fun _ h => Post.bind_ fun _ => .ok h)
  | typeLb t => exact hkeep ((typeOf_mem h t).bind fun _ h => .ok h)
  | typeUb t => exact hkeep ((typeOf_mem h t).bind fun _ h => .ok h)
  | getElements st t => exact hkeep ((typeOf_mem h t).bind fun _ h => Post.bind_ fun _ => .ok h)
  | pack a b t c d e comm => cases hsil
  | packSize n t comm => exact hkeep ((typeOf_mem h t).bind fun _ h => (ptr_mem h _).bind fun _ h => Post.bind_ fun _ => .ok h)
  | unpack a b c d e t comm => cases hsil
  | barrier c => exact .ok h
  | bcast a b c r d => exact .ite (.ok h) (.ite .abort (.ok h))
  | gather a b c d e f r comm => cases hsil
  | gatherv a b c d e f g r comm => cases hsil
  | allgather a b c d e f comm => cases hsil
  | allgatherv a b c d e f g comm => cases hsil
  | scatter a b c d e f r comm => cases hsil
  | scatterv a b c d e f g r comm => cases hsil
  | reduce a b n t op r comm => cases hsil
  | allreduce a b n t op comm => cases hsil
  | reduceScatter a b n t op comm => cases hsil
  | scan a b n t op comm => cases hsil
  | alltoall a b c d e f comm => cases hsil
  | alltoallv a b c d e f g i comm => cases hsil
  | alltoallw a b c d e f g i comm => cases hsil

end

/-! ## Data movement on descriptors -/

theorem extentIs_of_ok {cfg : Cfg} {t : Typestruct} {v : Int} (h : Type_extent cfg t = .ok v) :
    ∃ e, ExtentIs cfg t e ∧ v = u64 e := by
  have key : ∃ e, v = u64 e ∧ -9223372036854775808 ≤ e ∧ e < 9223372036854775808 := by
    unfold Type_extent at h
    split at h
    · obtain ⟨ep, _, h⟩ := Res.bind_eq_ok.1 h
      obtain ⟨d, _, h⟩ := Res.bind_eq_ok.1 h
      split at h
      · cases h
      · dsimp only at h
        split at h
        all_goals
          obtain ⟨x, _, h⟩ := Res.bind_eq_ok.1 h
          obtain ⟨e, he, h⟩ := Res.bind_eq_ok.1 h
          unfold ck64 at he
          split at he
          · cases he; cases h; exact ⟨_, rfl, by omega, by omega⟩
          · cases he
    · obtain ⟨d, hd, h⟩ := Res.bind_eq_ok.1 h
      unfold ck64 at hd
      split at hd
      · cases hd; cases h; exact ⟨_, rfl, by omega, by omega⟩
      · cases hd
  obtain ⟨e, rfl, h1, h2⟩ := key
  exact ⟨e, ⟨h, h1, h2⟩, rfl⟩

/-- Frame of a typed copy. -/
theorem pcopy_frame {cfg : Cfg} {m m' : Mem} {source sc dest dc : Int} {st dt : Typestruct} (hd : dt.WF)
    (hfit : ∀ e, ExtentIs cfg dt e → OffsetsFit dest (repeated (typeMap dt) e dc.toNat dest))
    (h : Pcopy_data2 cfg m source sc st dest dc dt = .ok m') {a : Int}
    (ha : ∀ e x, ExtentIs cfg dt e → x ∈ repeated (typeMap dt) e dc.toNat dest → ¬ InBytes a x.1 (sz cfg x.2)) :
    m' a = m a := by
  have h0 := h
  unfold Pcopy_data2 at h0
  split at h0
  · cases h0
  · obtain ⟨x, _, h0⟩ := Res.bind_eq_ok.1 h0
    obtain ⟨y, _, h0⟩ := Res.bind_eq_ok.1 h0
    split at h0
    · cases h0
    · obtain ⟨_, _, h0⟩ := Res.bind_eq_ok.1 h0
      obtain ⟨v, hv, _⟩ := Res.bind_eq_ok.1 h0
      obtain ⟨e, he, rfl⟩ := extentIs_of_ok hv
      exact C31_frame_partial hd hv (hfit e he) h a fun x hx => ha e x he hx

theorem packEntries_frame {cfg : Cfg} (hc : cfg.Ok) {t : Typestruct} {inbuf ext outbuf outsize p0 : Int} {i : Nat} {a : Int}
    (h1 : 0 ≤ outbuf + p0) (h2 : outbuf + outsize ≤ 18446744073709551616) (ha : ¬ (outbuf + p0 ≤ a ∧ a < outbuf + outsize)) :
    ∀ (n j : Nat) (m m' : Mem) (p p' : Int), p0 ≤ p →
      packEntries cfg inbuf t ext outbuf outsize i n j (m, p) = .ok (m', p') → p0 ≤ p' ∧ m' a = m a := by
  intro n
  induction n with
  | zero => intro j m m' p p' hp h; cases h; exact ⟨hp, rfl⟩
  | succ n ih =>
    intro j m m' p p' hp h
    unfold packEntries at h
    obtain ⟨q, _, h⟩ := Res.bind_eq_ok.1 h
    obtain ⟨len, hl, h⟩ := Res.bind_eq_ok.1 h
    have hlen := lenOf_range hc (hasLen_of_ok hl).1
    rw [(hasLen_of_ok hl).2] at hlen
    obtain ⟨e, he, h⟩ := Res.bind_eq_ok.1 h
    obtain ⟨_, rfl⟩ := ck32_eq_ok.1 he
    split at h
    · cases h
    · rename_i hle
      obtain ⟨m1, hm1, h⟩ := Res.bind_eq_ok.1 h
      obtain ⟨h3, h4⟩ := ih (j + 1) m1 m' _ p' (by omega) h
      refine ⟨h3, h4.trans ((memcpy_inv hm1).2.1 a ?_)⟩
      have hpad : padd outbuf p = outbuf + p := by unfold padd; omega
      rw [hpad]
      unfold InBytes
      omega

theorem pack_frame {cfg : Cfg} (hc : cfg.Ok) {t : Typestruct} {inbuf n outbuf outsize p0 p' : Int} {m m' : Mem} {a : Int}
    (h1 : 0 ≤ outbuf + p0) (h2 : outbuf + outsize ≤ 18446744073709551616) (ha : ¬ (outbuf + p0 ≤ a ∧ a < outbuf + outsize))
    (h : Pack cfg m inbuf n t outbuf outsize p0 = .ok (m', p')) : m' a = m a := by
  have key : ∀ (ext : Int) (k i : Nat) (m m' : Mem) (p p' : Int), p0 ≤ p →
      packLoop cfg inbuf t ext outbuf outsize k i (m, p) = .ok (m', p') → m' a = m a := by
    intro ext k
    induction k with
    | zero => intro i m m' p p' _ h; cases h; rfl
    | succ k ih =>
      intro i m m' p p' hp h
      unfold packLoop at h
      obtain ⟨⟨m1, p1⟩, hm1, h⟩ := Res.bind_eq_ok.1 h
      obtain ⟨h3, h4⟩ := packEntries_frame hc h1 h2 ha _ _ _ _ _ _ hp hm1
      exact (ih (i + 1) m1 m' p1 p' h3 h).trans h4
  unfold Pack at h
  obtain ⟨ext, _, h⟩ := Res.bind_eq_ok.1 h
  exact key ext _ _ _ _ _ _ (Int.le_refl _) h

theorem unpackEntries_frame {cfg : Cfg} {t : Typestruct} {inbuf insize outbuf e : Int} {i : Nat} {a : Int}
    (hm : Machine (shift (outbuf + i * e) (typeMap t)))
    (ha : ∀ x ∈ shift (outbuf + i * e) (typeMap t), ¬ InBytes a x.1 (sz cfg x.2)) :
    ∀ (n j : Nat), n + j = (typeMap t).length → ∀ (m m' : Mem) (p p' : Int),
      unpackEntries cfg inbuf insize outbuf t (u64 e) i n j (m, p) = .ok (m', p') → m' a = m a := by
  intro n
  induction n with
  | zero => intro j _ m m' p p' h; cases h; rfl
  | succ n ih =>
    intro j hj m m' p p' h
    obtain ⟨q, hq, hdrop⟩ := typeMap_drop (t := t) (n := n) hj
    have hmem : (q.disp, q.type) ∈ typeMap t := by
      apply List.mem_of_mem_drop (i := j); rw [hdrop]; exact List.mem_cons_self ..
    have hin : (q.disp + (outbuf + i * e), q.type) ∈ shift (outbuf + i * e) (typeMap t) := List.mem_map.2 ⟨_, hmem, rfl⟩
    have hr := hm _ hin
    have hna := ha _ hin
    dsimp only at hr hna
    unfold unpackEntries at h
    rw [hq, Res.ok_bind] at h
    obtain ⟨len, hl, h⟩ := Res.bind_eq_ok.1 h
    obtain ⟨e', _, h⟩ := Res.bind_eq_ok.1 h
    split at h
    · cases h
    · obtain ⟨m1, hm1, h⟩ := Res.bind_eq_ok.1 h
      refine (ih (j + 1) (by omega) m1 m' _ p' h).trans ((memcpy_inv hm1).2.1 a ?_)
      have hpad : padd (padd outbuf q.disp) (u64 (u64 e * i)) = q.disp + (outbuf + i * e) := by
        rw [u64_mul_left, Int.mul_comm e]
        unfold padd u64; omega
      rw [hpad]
      have hl2 := (hasLen_of_ok hl).2
      intro hin2
      apply hna
      unfold InBytes at hin2 ⊢
      rw [show sz cfg q.type = len from hl2]
      omega

theorem unpack_frame {cfg : Cfg} {t : Typestruct} (ht : t.WF) {inbuf insize p0 outbuf n p' : Int} {m m' : Mem} {a : Int}
    (hfit : ∀ e, ExtentIs cfg t e → Machine (repeated (typeMap t) e n.toNat outbuf))
    (ha : ∀ e x, ExtentIs cfg t e → x ∈ repeated (typeMap t) e n.toNat outbuf → ¬ InBytes a x.1 (sz cfg x.2))
    (h : Unpack cfg m inbuf insize p0 outbuf n t = .ok (m', p')) : m' a = m a := by
  unfold Unpack at h
  obtain ⟨v, hv, h⟩ := Res.bind_eq_ok.1 h
  obtain ⟨e, he, rfl⟩ := extentIs_of_ok hv
  have hfit := hfit e he
  have ha := fun x => ha e x he
  have hcount : t.count.toNat = (typeMap t).length := by
    have := ht.map_length
    unfold typeMap; rw [List.length_map]; exact (by omega : t.count.toNat = t.map.length)
  have key : ∀ (k i : Nat), k + i = n.toNat → ∀ (m m' : Mem) (p p' : Int),
      unpackLoop cfg inbuf insize outbuf t (u64 e) k i (m, p) = .ok (m', p') → m' a = m a := by
    intro k
    induction k with
    | zero => intro i _ m m' p p' h; cases h; rfl
    | succ k ih =>
      intro i hi m m' p p' h
      have hsub : ∀ x ∈ shift (outbuf + i * e) (typeMap t), x ∈ repeated (typeMap t) e n.toNat outbuf := by
        intro x hx
        unfold repeated
        exact List.mem_flatMap.2 ⟨i, List.mem_range.2 (by omega), hx⟩
      unfold unpackLoop at h
      obtain ⟨⟨m1, p1⟩, hm1, h⟩ := Res.bind_eq_ok.1 h
      exact (ih (i + 1) (by omega) m1 m' p1 p' h).trans
        (unpackEntries_frame (fun x hx => hfit x (hsub x hx)) (fun x hx => ha x (hsub x hx)) _ 0 (by omega) _ _ _ _ hm1)
  exact key _ 0 (by omega) _ _ _ _ h

/-! ## Data movement on handles -/

section
variable {env : Env} {s s' : Sys} {L L' : Ledger} {a : Int}

theorem desc_keep (hn : (L.objs.map Prod.fst).Nodup) (hn' : (L'.objs.map Prod.fst).Nodup)
    (hk : ∀ y ∈ L.objs, y ∈ L'.objs) {cfg : Cfg} {h : Int} {t : Typestruct} (hd : L.desc cfg h = some t) :
    L'.desc cfg h = some t := by
  rcases (desc_iff hn).1 hd with h1 | ⟨h1, h2⟩
  · exact (desc_iff hn').2 (Or.inl h1)
  · exact (desc_iff hn').2 (Or.inr ⟨h1, hk _ h2⟩)

theorem pcopy_buffer (ht : Tidy env L) {b n h : Int} {st dt : Typestruct} {m m' : Mem} {source sc : Int}
    (hd : L.desc env.cfg h = some dt) (hfit : BufferFits env L b n h) (hn : ¬ InBuffer env L b n h a)
    (hc : Pcopy_data2 env.cfg m source sc st b n dt = .ok m') : m' a = m a :=
  pcopy_frame (ht.types _ _ hd) (fun e he => hfit dt e hd he) hc fun e x he hx hin => hn ⟨dt, e, x, hd, he, hx, hin⟩

theorem copy_frame (hr : Reach env s L) (ht : Tidy env L) {st rt : Int} (h1 : IsType env L st) (h2 : IsType env L rt)
    {sb sn rb rn : Int} (hok : copy_data2 env s sb sn st rb rn rt = .ok s') (hfit : BufferFits env L rb rn rt)
    (hn : ¬ InBuffer env L rb rn rt a) : s'.mem a = s.mem a := by
  obtain ⟨M, lst, hi⟩ := hr.inv
  obtain ⟨ts, h1⟩ := h1
  obtain ⟨tr, h2⟩ := h2
  obtain ⟨pa, a1, a2⟩ := typeOf_desc hi.hst hi.typesOk h1
  obtain ⟨pb, b1, b2⟩ := typeOf_desc hi.hst hi.typesOk h2
  unfold copy_data2 at hok
  rw [a1, Res.ok_bind] at hok
  dsimp only at hok
  rw [b1, Res.ok_bind] at hok
  dsimp only at hok
  rw [a2, Res.ok_bind, b2, Res.ok_bind] at hok
  obtain ⟨m, hm, hok⟩ := Res.bind_eq_ok.1 hok
  cases hok
  exact pcopy_buffer ht h2 hfit hn hm

/-- What may change when an operation is posted. -/
theorem post_frame (hr : Reach env s L) (ht : Tidy env L) {k : Kind} {c : Nat} {comm tag buf count dtype h : Int}
    {r : Res (Sys × Int)} {M : AbsLists Loc} {lst : Nat → Kind → Nat} (hi : Inv s L M lst)
    (hcm : (comm, Obj.comm c) ∈ L.objs) (hps : PostSpec env s L lst k c tag buf count dtype r) (hty : IsType env L dtype)
    (hok : r = .ok (s', h))
    (hfs : k = .send → ∀ o, GoesTo L comm tag o → BufferFits env L o.buf o.count o.dtype)
    (hns : k = .send → ∀ o, GoesTo L comm tag o → ¬ InBuffer env L o.buf o.count o.dtype a)
    (hfr : k = .recv → Finds L comm tag → BufferFits env L buf count dtype)
    (hnr : k = .recv → Finds L comm tag → ¬ InBuffer env L buf count dtype a) : s'.mem a = s.mem a := by
  obtain ⟨_, _, _, h4⟩ := posted hi hcm hps hok
  rcases h4 with ⟨_, h4, _⟩ | ⟨j, o, hp, hj, _, _, _, _, _, hX⟩
  · rw [h4]
  · obtain ⟨o1, hE⟩ := partner_earliest hp
    have := hE.1
    rw [hj] at this
    cases this
    obtain ⟨t, hd⟩ := hty
    have hfl : InFlight L o := ⟨List.mem_of_getElem? hj, hE.2.1.2.2, comm, hE.2.1.2.1 ▸ hcm⟩
    cases k with
    | send =>
      obtain ⟨t', hd'⟩ := ht.inflight o hfl hE.2.1.1
      have hX := hX t t' hd (by rw [if_pos rfl]; exact hd')
      rw [if_pos rfl] at hX
      have hg : GoesTo L comm tag o := ⟨c, j, hcm, hE⟩
      exact pcopy_buffer ht hd' (hfs rfl o hg) (hns rfl o hg) hX
    | recv =>
      have hX := hX t t hd (by rw [if_neg (by simp)]; exact hd)
      rw [if_neg (by simp)] at hX
      have hg : Finds L comm tag := ⟨c, j, o, hcm, hE⟩
      exact pcopy_buffer ht hd (hfr rfl hg) (hnr rfl hg) hX

theorem isend_frame (hr : Reach env s L) (ht : Tidy env L) {buf count dtype dest tag comm h : Int}
    (ha : P2PArgs env L dtype dest comm) (hu : L.unmatched < 2147483647)
    (hok : MPI_Isend env s buf count dtype dest tag comm = .ok (s', h))
    (hf : dest = 0 → ∀ o, GoesTo L comm tag o → BufferFits env L o.buf o.count o.dtype)
    (hn : dest = 0 → ∀ o, GoesTo L comm tag o → ¬ InBuffer env L o.buf o.count o.dtype a) : s'.mem a = s.mem a := by
  obtain ⟨M, lst, hi⟩ := hr.inv
  by_cases h2 : dest = MPI_PROC_NULL
  · subst h2
    have hc' : comm = MPI_COMM_NULL ∨ comm ∈ L.objs.map Prod.fst := by
      rcases ha.2 with ⟨c, hcm⟩ | h
      · exact Or.inr (mem_keys hcm)
      · exact Or.inl h.1
    rcases isendNull_spec (env := env) hi hc' buf count dtype tag with ⟨_, hab⟩ | ⟨_, s1, h1, he, hm, _⟩
    · rw [hok] at hab; cases hab
    · rw [hok] at he
      simp only [Res.ok.injEq, Prod.mk.injEq] at he
      rw [he.1, hm]
  · obtain ⟨c, hcm⟩ := ha.2.resolve_right fun h => h2 h.2
    by_cases h0 : dest = 0
    · subst h0
      exact post_frame hr ht hi hcm (isend_spec hi hcm hu buf count dtype tag) ha.1 hok (fun _ => hf rfl) (fun _ => hn rfl)
        (fun h => by cases h) (fun h => by cases h)
    · unfold MPI_Isend at hok
      rw [Sys.ptr_live hi.hst (mem_keys hcm), Res.ok_bind] at hok
      dsimp only at hok
      rw [if_pos ⟨h0, h2⟩] at hok
      cases hok

/-- MPI_Irecv: what may change, and the account of the state afterwards. -/
theorem irecv_frame (hr : Reach env s L) (ht : Tidy env L) {buf count dtype src tag comm h : Int}
    (ha : P2PArgs env L dtype src comm) (hu : L.unmatched < 2147483647)
    (hok : MPI_Irecv env s buf count dtype src tag comm = .ok (s', h))
    (hf : src ≠ MPI_PROC_NULL → Finds L comm tag → BufferFits env L buf count dtype)
    (hn : src ≠ MPI_PROC_NULL → Finds L comm tag → ¬ InBuffer env L buf count dtype a) :
    s'.mem a = s.mem a ∧
      ((src = MPI_PROC_NULL ∧ Reach env s' (L.postNull .recv tag buf count dtype h)) ∨
       (src ≠ MPI_PROC_NULL ∧ ∃ c, (comm, Obj.comm c) ∈ L.objs ∧ Reach env s' (L.post .recv c tag buf count dtype h))) := by
  obtain ⟨M, lst, hi⟩ := hr.inv
  by_cases h2 : src = MPI_PROC_NULL
  · subst h2
    have hc : comm = MPI_COMM_NULL ∨ ∃ c, (comm, Obj.comm c) ∈ L.objs := by
      rcases ha.2 with h | h
      · exact Or.inr h
      · exact Or.inl h.1
    have hc' : comm = MPI_COMM_NULL ∨ comm ∈ L.objs.map Prod.fst := hc.imp id fun ⟨c, h⟩ => mem_keys h
    rcases irecvNull_spec (env := env) hi hc' buf count dtype tag with ⟨_, hab⟩ | ⟨_, s1, h1, he, hm, _⟩
    · rw [hok] at hab; cases hab
    · refine ⟨?_, Or.inl ⟨rfl, hr.step (.irecvNull hc hok)⟩⟩
      rw [hok] at he
      simp only [Res.ok.injEq, Prod.mk.injEq] at he
      rw [he.1, hm]
  · obtain ⟨c, hcm⟩ := ha.2.resolve_right fun h => h2 h.2
    refine ⟨?_, Or.inr ⟨h2, c, hcm, hr.step (.irecv hcm hu h2 hok)⟩⟩
    exact post_frame hr ht hi hcm (irecv_spec hi hcm hu (irecv_src h2 hok) buf count dtype tag) ha.1 hok
      (fun h => by cases h) (fun h => by cases h) (fun _ => hf h2) (fun _ => hn h2)

theorem send_frame (hr : Reach env s L) (ht : Tidy env L) {buf count dtype dest tag comm : Int}
    (ha : P2PArgs env L dtype dest comm) (hu : L.unmatched < 2147483647)
    (hok : MPI_Send env s buf count dtype dest tag comm = .ok s')
    (hf : dest = 0 → ∀ o, GoesTo L comm tag o → BufferFits env L o.buf o.count o.dtype)
    (hn : dest = 0 → ∀ o, GoesTo L comm tag o → ¬ InBuffer env L o.buf o.count o.dtype a) : s'.mem a = s.mem a := by
  unfold MPI_Send at hok
  obtain ⟨⟨s1, h⟩, h1, hok⟩ := Res.bind_eq_ok.1 hok
  obtain ⟨⟨s2, h', st⟩, h2, hok⟩ := Res.bind_eq_ok.1 hok
  cases hok
  have := wait_mem (m := s1.mem) rfl h _ _ h2
  exact (congrFun this a).trans (isend_frame hr ht ha hu h1 hf hn)

/-- Where a message goes after one more receive was posted: to the same receive as before, or the new one. -/
theorem goesTo_post {c : Nat} {rtag rb rn rt h comm tag : Int} {o : Op}
    (hg : GoesTo (L.post .recv c rtag rb rn rt h) comm tag o) :
    GoesTo L comm tag o ∨ (o.buf = rb ∧ o.count = rn ∧ o.dtype = rt) := by
  obtain ⟨c', j, hcm, hE⟩ := hg
  rw [post_objs] at hcm
  rcases List.mem_cons.1 hcm with hcm | hcm
  · cases hcm
  have hlen : (L.post .recv c rtag rb rn rt h).ops.length = L.ops.length + 1 := by
    cases hp : L.partner c .recv rtag with
    | none => rw [Ledger.post_none hp]; simp
    | some j => rw [Ledger.post_some hp]; simp [settle_length]
  have hj : j < L.ops.length + 1 := by
    rw [← hlen]
    rcases Nat.lt_or_ge j (L.post .recv c rtag rb rn rt h).ops.length with h1 | h1
    · exact h1
    · have := hE.1
      rw [List.getElem?_eq_none h1] at this
      cases this
  by_cases hje : j = L.ops.length
  · right
    have := hE.1
    rw [hje, post_new] at this
    cases this
    exact ⟨rfl, rfl, rfl⟩
  · left
    refine ⟨c', j, hcm, ?_, hE.2.1, hE.2.2.1, ?_⟩
    · have hlt : j < L.ops.length := by omega
      have h1 := post_old .recv c rtag rb rn rt h (List.getElem?_eq_getElem hlt)
      rw [hE.1] at h1
      rw [List.getElem?_eq_getElem hlt]
      have h1 := Option.some.inj h1
      split at h1
      · have := hE.2.1.2.2
        rw [h1] at this
        cases this
      · rw [h1]
    · intro j' o' hlt hj' hop
      have h1 := post_old .recv c rtag rb rn rt h hj'
      rw [if_neg] at h1
      · exact hE.2.2.2 j' o' hlt h1 hop
      · intro hp
        obtain ⟨o1, hE1⟩ := partner_earliest hp
        have := hE1.1
        rw [hj'] at this
        cases this
        have h3 := hE1.2.1.1
        rw [hop.1] at h3
        cases h3

theorem goesTo_postNull {rtag rb rn rt h comm tag : Int} {o : Op}
    (hg : GoesTo (L.postNull .recv rtag rb rn rt h) comm tag o) : GoesTo L comm tag o := by
  obtain ⟨c', j, hcm, hE⟩ := hg
  rcases List.mem_cons.1 hcm with hcm | hcm
  · cases hcm
  have hE1 : (L.ops ++ [⟨.recv, 0, rtag, rb, rn, rt, h, .null⟩])[j]? = some o := hE.1
  refine ⟨c', j, hcm, ?_, hE.2.1, hE.2.2.1, ?_⟩
  · rcases getElem?_append_one hE1 with h1 | h1
    · exact h1
    · have := hE.2.1.2.2
      rw [h1.2] at this
      cases this
  · intro j' o' hlt hj' hop
    exact hE.2.2.2 j' o' hlt (postNull_old _ _ _ _ _ _ hj') hop

theorem sendrecv_frame (hr : Reach env s L) (ht : Tidy env L) {sb sn st dst stag rb rn rt src rtag comm : Int} {p p' : StPtr}
    (ha : P2PArgs env L st dst comm) (hb : P2PArgs env L rt src comm) (hu : L.unmatched + 1 < 2147483647)
    (hok : MPI_Sendrecv env s sb sn st dst stag rb rn rt src rtag comm p = .ok (s', p'))
    (hfs : dst = 0 → ∀ o, GoesTo L comm stag o → BufferFits env L o.buf o.count o.dtype)
    (hns : dst = 0 → ∀ o, GoesTo L comm stag o → ¬ InBuffer env L o.buf o.count o.dtype a)
    (hfr : src ≠ MPI_PROC_NULL → BufferFits env L rb rn rt)
    (hnr : src ≠ MPI_PROC_NULL → ¬ InBuffer env L rb rn rt a) : s'.mem a = s.mem a := by
  unfold MPI_Sendrecv at hok
  obtain ⟨⟨s1, h⟩, h1, hok⟩ := Res.bind_eq_ok.1 hok
  obtain ⟨s2, h2, hok⟩ := Res.bind_eq_ok.1 hok
  obtain ⟨⟨s3, h', st'⟩, h3, hok⟩ := Res.bind_eq_ok.1 hok
  cases hok
  have e3 := congrFun (wait_mem (m := s2.mem) rfl h _ _ h3) a
  obtain ⟨e1, hacc⟩ := irecv_frame (a := a) hr ht hb (by omega) h1 (fun h _ => hfr h) (fun h _ => hnr h)
  refine e3.trans (Eq.trans ?_ e1)
  -- the account after the receive was posted
  have hL1 : ∃ L1, Reach env s1 L1 ∧ (∀ y ∈ L.objs, y ∈ L1.objs) ∧ L1.unmatched ≤ L.unmatched + 1 ∧
      ∀ o, GoesTo L1 comm stag o → GoesTo L comm stag o ∨ (src ≠ MPI_PROC_NULL ∧ o.buf = rb ∧ o.count = rn ∧ o.dtype = rt) := by
    rcases hacc with ⟨_, hr1⟩ | ⟨hsrc, c, hcm, hr1⟩
    · refine ⟨_, hr1, fun y hy => List.mem_cons_of_mem _ hy, ?_, fun o hg => Or.inl (goesTo_postNull hg)⟩
      simp [Ledger.unmatched, Ledger.postNull, List.countP_append]
    · refine ⟨_, hr1, fun y hy => by rw [post_objs]; exact List.mem_cons_of_mem _ hy, unmatched_post_le, fun o hg => ?_⟩
      rcases goesTo_post hg with h | h
      · exact Or.inl h
      · exact Or.inr ⟨hsrc, h⟩
  obtain ⟨L1, hr1, hk, hu1, hgo⟩ := hL1
  have hn := hr.nodup
  have hn1 := hr1.nodup
  have ht1 : Tidy env L1 := by
    obtain ⟨L', hp⟩ := Res.sat_iff.1 (irecv_sat hr ht rb rn rtag hb (by omega)) |>.2 _ h1
    exact hp.tidy.agree (hr.steps hp.steps) hr1
  have same : ∀ {dtype : Int} {t1 : Typestruct}, IsType env L dtype → L1.desc env.cfg dtype = some t1 → L.desc env.cfg dtype = some t1 := by
    rintro dtype t1 ⟨t, hd⟩ hd1
    have := desc_keep hn hn1 hk hd
    rw [this] at hd1
    cases hd1
    exact hd
  have hty : ∀ o, GoesTo L1 comm stag o → IsType env L o.dtype := by
    intro o hg
    rcases hgo o hg with ⟨c, j, hcm, hE⟩ | ⟨_, _, _, h⟩
    · exact ht.inflight o ⟨List.mem_of_getElem? hE.1, hE.2.1.2.2, comm, hE.2.1.2.1 ▸ hcm⟩ hE.2.1.1
    · rw [h]; exact hb.1
  refine send_frame hr1 ht1 (ha.keep hn hn1 hk) (by omega) h2 (fun h0 o hg t e hd he => ?_) (fun h0 o hg => ?_)
  · have hd' := same (hty o hg) hd
    rcases hgo o hg with hg' | ⟨hs, h4, h5, h6⟩
    · exact hfs h0 o hg' t e hd' he
    · rw [h4, h5]
      rw [h6] at hd'
      exact hfr hs t e hd' he
  · rintro ⟨t, e, x, hd, he, hx, hin⟩
    have hd' := same (hty o hg) hd
    rcases hgo o hg with hg' | ⟨hs, h4, h5, h6⟩
    · exact hns h0 o hg' ⟨t, e, x, hd', he, hx, hin⟩
    · rw [h4, h5] at hx
      rw [h6] at hd'
      exact hnr hs ⟨t, e, x, hd', he, hx, hin⟩

theorem extent_inv (hr : Reach env s L) {h v : Int} (hty : IsType env L h) (hok : MPI_Type_extent env s h = .ok (s', v)) :
    s' = s ∧ ∃ e, HandleExtent env L h e ∧ v = u64 e := by
  obtain ⟨M, lst, hi⟩ := hr.inv
  obtain ⟨t, hd⟩ := hty
  unfold MPI_Type_extent at hok
  rw [hi.typeOf hd, Res.ok_bind] at hok
  obtain ⟨w, hw, hok⟩ := Res.bind_eq_ok.1 hok
  simp only [Res.pure_eq, Res.ok.injEq, Prod.mk.injEq] at hok
  obtain ⟨rfl, rfl⟩ := hok
  obtain ⟨e, he, rfl⟩ := extentIs_of_ok hw
  exact ⟨rfl, e, ⟨t, hd, he⟩, rfl⟩

theorem rd_inv {α : Type} {l : List α} {i : Nat} {x : α} (h : rd l i = .ok x) : l[i]? = some x := by
  unfold rd at h
  split at h
  · next y hy => cases h; exact hy
  · cases h

/-- A well-formed call changes only bytes it may write. -/
theorem Call.frame (hc : env.cfg.Ok) (hr : Reach env s L) (ht : Tidy env L) (hrm : Room L) {c : Call} (hw : c.Wf env L)
    (hf : c.AddressesFit env L) (hok : c.exec env s = .ok s') (hn : ¬ MayWrite env L c a) : s'.mem a = s.mem a := by
  have hu : L.unmatched < 2147483647 := by have := hrm.2.2; omega
  have hnd : ∀ b n t, Dest env L c b n t → ¬ InBuffer env L b n t a := fun b n t h1 h2 => hn (Or.inl ⟨b, n, t, h1, h2⟩)
  have hcopy : ∀ {st rt sb sn rb rn : Int}, IsType env L st → IsType env L rt → copy_data2 env s sb sn st rb rn rt = .ok s' →
      Dest env L c rb rn rt → s'.mem a = s.mem a := fun h1 h2 h3 h4 =>
    copy_frame hr ht h1 h2 h3 (hf.dests _ _ _ h4) (hnd _ _ _ h4)
  by_cases hs : c.silent
  · exact congrFun (Call.keeps_mem rfl c hs _ hok) a
  cases c with
  | store m => exact absurd (Or.inr (Or.inr trivial)) hn
  | isend b n t d g k =>
    obtain ⟨x, hx, hok⟩ := Res.bind_eq_ok.1 hok
    cases hok
    exact isend_frame hr ht hw hu hx (fun h0 o hg => by subst h0; exact hf.dests _ _ _ (.isend hg))
      (fun h0 o hg => by subst h0; exact hnd _ _ _ (.isend hg))
  | irsend b n t d g k =>
    obtain ⟨x, hx, hok⟩ := Res.bind_eq_ok.1 hok
    cases hok
    unfold MPI_Irsend at hx
    obtain ⟨⟨s1, h⟩, h1, hx⟩ := Res.bind_eq_ok.1 hx
    obtain ⟨⟨s2, q⟩, h2, hx⟩ := Res.bind_eq_ok.1 hx
    have e2 := congrFun (ptr_mem (m := s1.mem) rfl _ _ h2) a
    obtain ⟨r, _, hx⟩ := Res.bind_eq_ok.1 hx
    split at hx
    · cases hx
    · cases hx
      exact e2.trans (isend_frame hr ht hw hu h1 (fun h0 o hg => by subst h0; exact hf.dests _ _ _ (.irsend hg))
        (fun h0 o hg => by subst h0; exact hnd _ _ _ (.irsend hg)))
  | send b n t d g k =>
    exact send_frame hr ht hw hu hok (fun h0 o hg => by subst h0; exact hf.dests _ _ _ (.send hg))
      (fun h0 o hg => by subst h0; exact hnd _ _ _ (.send hg))
  | irecv b n t d g k =>
    obtain ⟨x, hx, hok⟩ := Res.bind_eq_ok.1 hok
    cases hok
    exact (irecv_frame hr ht hw hu hx (fun h0 hg => hf.dests _ _ _ (.irecv hg h0)) (fun h0 hg => hnd _ _ _ (.irecv hg h0))).1
  | recv b n t d g k st =>
    obtain ⟨x, hx, hok⟩ := Res.bind_eq_ok.1 hok
    cases hok
    unfold MPI_Recv at hx
    obtain ⟨⟨s1, h⟩, h1, hx⟩ := Res.bind_eq_ok.1 hx
    obtain ⟨⟨s2, q, st2⟩, h2, hx⟩ := Res.bind_eq_ok.1 hx
    have e2 := congrFun (wait_mem (m := s1.mem) rfl _ _ _ h2) a
    have e1 := (irecv_frame (a := a) hr ht hw hu h1 (fun h0 hg => hf.dests _ _ _ (.recv hg h0))
      (fun h0 hg => hnd _ _ _ (.recv hg h0))).1
    dsimp only at hx
    cases st2 with
    | null => cases hx; exact e2.trans e1
    | obj st2 => cases hx; exact e2.trans e1
    | bad => cases hx
  | sendrecv b n t d g b' n' t' d' g' k st =>
    obtain ⟨⟨x, p⟩, hx, hok⟩ := Res.bind_eq_ok.1 hok
    cases hok
    exact sendrecv_frame hr ht hw.1 hw.2 hrm.2.2 hx (fun h0 o hg => by subst h0; exact hf.dests _ _ _ (.sendrecvOut hg))
      (fun h0 o hg => by subst h0; exact hnd _ _ _ (.sendrecvOut hg)) (fun h0 => hf.dests _ _ _ (.sendrecvIn h0))
      (fun h0 => hnd _ _ _ (.sendrecvIn h0))
  | pack b n t o z p k =>
    obtain ⟨⟨x, p'⟩, hx, hok⟩ := Res.bind_eq_ok.1 hok
    cases hok
    unfold MPI_Pack at hx
    obtain ⟨⟨s1, ty⟩, h1, hx⟩ := Res.bind_eq_ok.1 hx
    obtain ⟨⟨s2, q⟩, h2, hx⟩ := Res.bind_eq_ok.1 hx
    obtain ⟨⟨m, pos⟩, h3, hx⟩ := Res.bind_eq_ok.1 hx
    cases hx
    have e1 := typeOf_mem (m := s.mem) rfl _ _ h1
    have e2 := ptr_mem (m := s1.mem) rfl _ _ h2
    dsimp only at e1 e2 h3
    unfold MemIs at e1 e2
    rw [e2, e1] at h3
    exact pack_frame hc hf.displ.1 hf.displ.2 (fun h => hn (Or.inr (Or.inl h))) h3
  | unpack i z p o n t k =>
    obtain ⟨⟨x, p'⟩, hx, hok⟩ := Res.bind_eq_ok.1 hok
    cases hok
    obtain ⟨M, lst, hi⟩ := hr.inv
    obtain ⟨ty, hd⟩ := hw.1
    unfold MPI_Unpack at hx
    rw [hi.typeOf hd, Res.ok_bind] at hx
    obtain ⟨⟨s2, q⟩, h2, hx⟩ := Res.bind_eq_ok.1 hx
    obtain ⟨⟨m, pos⟩, h3, hx⟩ := Res.bind_eq_ok.1 hx
    cases hx
    have e2 := ptr_mem (m := s.mem) rfl _ _ h2
    dsimp only at e2 h3
    unfold MemIs at e2
    rw [e2] at h3
    exact unpack_frame (ht.types _ _ hd)
      (fun e he y hy => ⟨(hf.dests _ _ _ .unpack ty e hd he y hy).2.2.1, (hf.dests _ _ _ .unpack ty e hd he y hy).2.2.2⟩)
      (fun e y he hy hin => hnd _ _ _ .unpack ⟨ty, e, y, hd, he, hy, hin⟩) h3
  | gather sb sn st rb rn rt r k =>
    dsimp only [Call.exec] at hok
    unfold MPI_Gather at hok
    split at hok
    · cases hok; rfl
    next hip =>
    split at hok
    · cases hok; rfl
    split at hok
    · cases hok
    next h0 =>
    obtain rfl : r = 0 := by omega
    exact hcopy hw.1 hw.2 hok (.gather hip)
  | gatherv sb sn st rb ns ds rt r k =>
    dsimp only [Call.exec] at hok
    unfold MPI_Gatherv at hok
    split at hok
    · cases hok; rfl
    next hip =>
    split at hok
    · cases hok; rfl
    split at hok
    · cases hok
    next h0 =>
    obtain rfl : r = 0 := by omega
    obtain ⟨⟨s1, v⟩, h1, hok⟩ := Res.bind_eq_ok.1 hok
    obtain ⟨rfl, e, he, rfl⟩ := extent_inv hr hw.2 h1
    obtain ⟨d, h2, hok⟩ := Res.bind_eq_ok.1 hok
    obtain ⟨n, h3, hok⟩ := Res.bind_eq_ok.1 hok
    rw [displ_eq (hf.displ d e (rd_inv h2) he)] at hok
    exact hcopy hw.1 hw.2 hok (.gatherv hip (rd_inv h3) (rd_inv h2) he)
  | allgather sb sn st rb rn rt k =>
    dsimp only [Call.exec] at hok
    unfold MPI_Allgather at hok
    split at hok
    · cases hok; rfl
    next hip => exact hcopy hw.1 hw.2 hok (.allgather hip)
  | allgatherv sb sn st rb ns ds rt k =>
    dsimp only [Call.exec] at hok
    unfold MPI_Allgatherv at hok
    split at hok
    · cases hok; rfl
    next hip =>
    obtain ⟨⟨s1, v⟩, h1, hok⟩ := Res.bind_eq_ok.1 hok
    obtain ⟨rfl, e, he, rfl⟩ := extent_inv hr hw.2 h1
    obtain ⟨d, h2, hok⟩ := Res.bind_eq_ok.1 hok
    obtain ⟨n, h3, hok⟩ := Res.bind_eq_ok.1 hok
    rw [displ_eq (hf.displ d e (rd_inv h2) he)] at hok
    exact hcopy hw.1 hw.2 hok (.allgatherv hip (rd_inv h3) (rd_inv h2) he)
  | scatter sb sn st rb rn rt r k =>
    dsimp only [Call.exec] at hok
    unfold MPI_Scatter at hok
    split at hok
    · cases hok; rfl
    next hip =>
    split at hok
    · cases hok; rfl
    split at hok
    · cases hok
    next h0 =>
    obtain rfl : r = 0 := by omega
    exact hcopy hw.1 hw.2 hok (.scatter hip)
  | scatterv sb ns ds st rb rn rt r k =>
    dsimp only [Call.exec] at hok
    unfold MPI_Scatterv at hok
    split at hok
    · cases hok; rfl
    next hip =>
    split at hok
    · cases hok; rfl
    split at hok
    · cases hok
    next h0 =>
    obtain rfl : r = 0 := by omega
    obtain ⟨⟨s1, v⟩, h1, hok⟩ := Res.bind_eq_ok.1 hok
    obtain ⟨rfl, e, he, rfl⟩ := extent_inv hr hw.1 h1
    obtain ⟨d, h2, hok⟩ := Res.bind_eq_ok.1 hok
    obtain ⟨n, h3, hok⟩ := Res.bind_eq_ok.1 hok
    exact hcopy hw.1 hw.2 hok (.scatterv hip)
  | reduce sb rb n t op r k =>
    dsimp only [Call.exec] at hok
    unfold MPI_Reduce at hok
    split at hok
    · cases hok
    next h0 =>
    obtain rfl : r = 0 := by omega
    exact hcopy hw hw hok .reduce
  | allreduce sb rb n t op k =>
    dsimp only [Call.exec] at hok
    unfold MPI_Allreduce at hok
    split at hok
    · cases hok; rfl
    next hip => exact hcopy hw hw hok (.allreduce hip)
  | reduceScatter sb rb ns t op k =>
    obtain ⟨n, h1, hok⟩ := Res.bind_eq_ok.1 hok
    exact hcopy hw hw hok (.reduceScatter (rd_inv h1))
  | scan sb rb n t op k => exact hcopy hw hw hok .scan
  | alltoall sb sn st rb rn rt k => exact hcopy hw.1 hw.2 hok .alltoall
  | alltoallv sb sns sds st rb ns ds rt k =>
    obtain ⟨⟨s1, v⟩, h1, hok⟩ := Res.bind_eq_ok.1 hok
    obtain ⟨rfl, e1, he1, rfl⟩ := extent_inv hr hw.1 h1
    obtain ⟨⟨s2, v⟩, h2, hok⟩ := Res.bind_eq_ok.1 hok
    obtain ⟨rfl, e, he, rfl⟩ := extent_inv hr hw.2 h2
    obtain ⟨sd, _, hok⟩ := Res.bind_eq_ok.1 hok
    obtain ⟨d, h3, hok⟩ := Res.bind_eq_ok.1 hok
    obtain ⟨sn, _, hok⟩ := Res.bind_eq_ok.1 hok
    obtain ⟨n, h4, hok⟩ := Res.bind_eq_ok.1 hok
    rw [displ_eq (hf.displ d e (rd_inv h3) he)] at hok
    exact hcopy hw.1 hw.2 hok (.alltoallv (rd_inv h4) (rd_inv h3) he)
  | alltoallw sb sns sds sts rb ns ds ts k =>
    obtain ⟨sd, _, hok⟩ := Res.bind_eq_ok.1 hok
    obtain ⟨sn, _, hok⟩ := Res.bind_eq_ok.1 hok
    obtain ⟨st, h1, hok⟩ := Res.bind_eq_ok.1 hok
    obtain ⟨d, h2, hok⟩ := Res.bind_eq_ok.1 hok
    obtain ⟨n, h3, hok⟩ := Res.bind_eq_ok.1 hok
    obtain ⟨rt, h4, hok⟩ := Res.bind_eq_ok.1 hok
    have hpad : padd rb d = rb + d := by
      have := hf.displ d (rd_inv h2)
      unfold padd; omega
    rw [hpad] at hok
    exact hcopy (hw.1 _ (List.mem_of_getElem? (rd_inv h1))) (hw.2 _ (List.mem_of_getElem? (rd_inv h4))) hok
      (.alltoallw (rd_inv h3) (rd_inv h2) (rd_inv h4))
  | _ => exact absurd trivial hs

end

end MpiSerial
