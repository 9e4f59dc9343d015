import Verif.Spec.Place
import Verif.Proofs.Place
import Verif.Proofs.Inited

/-!
# The `complete` members of requests are `int`s in every reachable state
-/

set_option linter.unusedSimpArgs false
set_option autoImplicit false

namespace MpiSerial

namespace Place

open Res (Post)

/-- A slot that does not hold a request with a `complete` that is not an `int`. -/
def Good (d : Slot) : Prop := ∀ r, d = .req r → s32 r.complete = r.complete

theorem flagsInt_iff {s : Sys} : FlagsInt s ↔ ∀ l, Good (s.handles.items l).data := Iff.rfl

section
variable {env : Env} {s : Sys}

theorem FlagsInt.handles (h : FlagsInt s) {s' : Sys} (h' : ∀ x, (s'.handles.items x).data = (s.handles.items x).data) : FlagsInt s' :=
  fun l r hr => h l r (by rw [← h' l]; exact hr)

theorem setData_good {t : HTab Slot} (h : ∀ l, Good (t.items l).data) {l : Loc} {d : Slot} (hd : Good d) (x : Loc) :
    Good ((t.setData l d).items x).data := by
  show Good (if x = l then _ else _ : Item Slot).data
  split
  · exact hd
  · exact h x

theorem alloc_good {t : HTab Slot} (h : ∀ l, Good (t.items l).data) :
    (mpi_alloc_handle t .raw).Post (fun r => ∀ l, Good (r.1.items l).data) := by
  intro r hr x
  unfold mpi_alloc_handle at hr
  dsimp only at hr
  have h0 : ∀ l, Good ((if t.needInit then init_handles t else t).items l).data := by
    intro l
    split
    · rw [init_data]; exact h l
    · exact h l
  generalize (if t.needInit then init_handles t else t) = t0 at hr h0
  split at hr
  · obtain ⟨it, h1, h2⟩ := Res.bind_eq_ok.1 hr
    cases h2
    unfold HTab.deref at h1
    split at h1
    · cases h1
      show Good (if x = _ then _ else _ : Item Slot).data
      split
      · exact h0 _
      · exact h0 x
    · cases h1
  · split at hr
    · cases hr
    · have h1 : ∀ l, Good (({ t0 with items := fun l => if l.block = t0.nblocks then ⟨0, none, .raw⟩ else t0.items l } : HTab Slot).items l).data := by
        intro l
        show Good (if l.block = t0.nblocks then _ else _ : Item Slot).data
        split
        · exact nofun
        · exact h0 l
      generalize ({ t0 with items := fun l => if l.block = t0.nblocks then ⟨0, none, .raw⟩ else t0.items l } : HTab Slot) = t1 at hr h1
      have h2 : ∀ l, Good ((init_block t1 t0.nblocks).items l).data := fun l => by
        rw [show init_block t1 t0.nblocks = initBlockN t1 t0.nblocks (BLOCK_ITEMS - 1) from rfl, initBlock_data]
        exact h1 l
      generalize init_block t1 t0.nblocks = t2 at hr h2
      cases hr
      show Good (if x = _ then _ else _ : Item Slot).data
      split
      · exact h2 _
      · exact h2 x

theorem ptr_fi (h : FlagsInt s) (x : Int) : (s.ptr x).Post (fun r => FlagsInt r.1) := by
  rintro ⟨s', o⟩ hr
  obtain ⟨t, rfl, ht⟩ := ptr_data hr
  exact h.handles ht

theorem modReq_fi (h : FlagsInt s) (l : Loc) (f : ReqRec → ReqRec) (hf : ∀ r, s32 r.complete = r.complete → s32 (f r).complete = (f r).complete) :
    (s.modReq l f).Post FlagsInt := by
  intro s' hr
  obtain ⟨r, h1, h2⟩ := Res.bind_eq_ok.1 hr
  cases h2
  exact setData_good h (fun r' e => by cases e; exact hf r (req_int h h1))

theorem allocReq_fi (hj : IntJunk env) (h : FlagsInt s) : (s.allocReq env).Post (fun r => FlagsInt r.1) :=
  (alloc_good h).bind fun x h1 => .ok (setData_good h1 fun r e => by
    cases e
    split
    · next r hr => exact h1 _ r hr
    · exact hj _)

theorem toType_fi (h : FlagsInt s) (x : Int) : (handleToDatatype s x).Post (fun r => FlagsInt r.1) := by
  unfold handleToDatatype
  refine .ite (Post.bind_ fun _ => .ok h) ((ptr_fi h x).bind fun r hr => ?_)
  obtain ⟨s1, p⟩ := r
  cases p with
  | none => exact .ub
  | some l =>
    refine Post.bind_ fun it => ?_
    split
    · exact .ok hr
    · exact .ub

theorem typeOf_fi (h : FlagsInt s) (x : Int) : (typeOf env s x).Post (fun r => FlagsInt r.1) :=
  (toType_fi h x).bind fun _ hr => Post.bind_ fun _ => .ok hr

theorem copy_fi (h : FlagsInt s) (p n a q k c : Int) : (copy_data2 env s p n a q k c).Post FlagsInt :=
  (toType_fi h a).bind fun _ h1 => (toType_fi h1 c).bind fun _ h2 =>
    Post.bind_ fun _ => Post.bind_ fun _ => Post.bind_ fun _ => .ok h2

theorem isend_fi (hj : IntJunk env) (h : FlagsInt s) (buf count dtype dest tag comm : Int) :
    (MPI_Isend env s buf count dtype dest tag comm).Post (fun r => FlagsInt r.1) := by
  unfold MPI_Isend
  refine (ptr_fi h comm).bind fun x1 h1 => .ite .abort ((allocReq_fi hj h1).bind fun x2 h2 => .ite ?_ ?_)
  · exact (modReq_fi h2 _ _ fun _ _ => rfl).bind fun _ h3 => .ok h3
  · refine Post.bind_ fun c => Post.bind_ fun f => ?_
    cases f with
    | some item =>
      refine Post.bind (P := FlagsInt) ?_ fun _ h3 => .ok h3
      exact Post.bind_ fun _ => Post.bind_ fun l => Post.bind_ fun _ => Post.bind (copy_fi (s := { x2.1 with lists := l }) h2 _ _ _ _ _ _) fun _ h4 =>
        (modReq_fi h4 _ _ fun _ _ => rfl).bind fun _ h5 => modReq_fi h5 _ _ fun _ _ => rfl
    | none =>
      refine Post.bind (P := FlagsInt) ?_ fun _ h3 => .ok h3
      exact (modReq_fi h2 _ _ fun _ _ => rfl).bind fun s3 h3 => Post.bind_ fun x => modReq_fi (s := { s3 with lists := x.1 }) h3 _ _ fun _ h => h

theorem irecv_fi (hj : IntJunk env) (h : FlagsInt s) (buf count dtype src tag comm : Int) :
    (MPI_Irecv env s buf count dtype src tag comm).Post (fun r => FlagsInt r.1) := by
  unfold MPI_Irecv
  refine (ptr_fi h comm).bind fun x1 h1 => .ite .abort ((allocReq_fi hj h1).bind fun x2 h2 =>
    (modReq_fi h2 _ _ (by exact fun _ h => h)).bind fun s3 h3 => .ite ?_ ?_)
  · exact (modReq_fi h3 _ _ fun _ _ => rfl).bind fun _ h3 => .ok h3
  · refine Post.bind_ fun c => Post.bind_ fun f => ?_
    cases f with
    | some item =>
      refine Post.bind (P := FlagsInt) ?_ fun _ h3 => .ok h3
      exact Post.bind_ fun _ => Post.bind_ fun l => Post.bind_ fun _ => Post.bind (copy_fi (s := { s3 with lists := l }) h3 _ _ _ _ _ _) fun _ h4 =>
        Post.bind_ fun _ => (modReq_fi h4 _ _ fun _ _ => rfl).bind fun _ h5 => modReq_fi h5 _ _ fun _ _ => rfl
    | none =>
      refine Post.bind (P := FlagsInt) ?_ fun _ h3 => .ok h3
      exact (modReq_fi h3 _ _ fun _ _ => rfl).bind fun s3 h3 => Post.bind_ fun x => modReq_fi (s := { s3 with lists := x.1 }) h3 _ _ fun _ h => h

theorem test_fi (h : FlagsInt s) (r : Int) (st : StPtr) : (MpiSerial.MPI_Test s r st).Post (fun r => FlagsInt r.sys) := fun _ hx => h.test hx

theorem wait_fi (h : FlagsInt s) (r : Int) (st : StPtr) : (MpiSerial.MPI_Wait s r st).Post (fun r => FlagsInt r.1) :=
  (test_fi h r st).bind fun _ h1 => .ite .abort (.ok h1)

theorem send_fi (hj : IntJunk env) (h : FlagsInt s) (buf count dtype dest tag comm : Int) :
    (MPI_Send env s buf count dtype dest tag comm).Post FlagsInt :=
  (isend_fi hj h buf count dtype dest tag comm).bind fun _ h1 => (wait_fi h1 _ _).bind fun _ h2 => .ok h2

theorem newType_fi (h : FlagsInt s) (build : Garbage → Res Typestruct) : (newType env s build).Post (fun r => FlagsInt r.1) :=
  (alloc_good h).bind fun _ h1 => Post.bind_ fun _ => .ok (setData_good h1 nofun)

theorem structTypes_fi (olds : List Int) : ∀ (n i : Nat) (s : Sys), FlagsInt s → (structTypes env olds n i s).Post (fun r => FlagsInt r.1)
  | 0, _, _, h => .ok h
  | n + 1, i, s, h => by
    rw [structTypes]
    exact Post.bind_ fun _ => (typeOf_fi h _).bind fun r hr => (structTypes_fi olds n (i + 1) _ hr).bind fun _ h2 => .ok h2

theorem commNew_fi (h : FlagsInt s) : (mpi_comm_new s).Post (fun r => FlagsInt r.1) :=
  (alloc_good h).bind fun _ h1 => Post.bind_ fun _ => Post.bind_ fun _ => Post.bind_ fun _ => .ok (setData_good h1 nofun)

theorem free_fi (h : FlagsInt s) (x : Int) : (mpi_free_handle s.handles x).Post (fun t => ∀ l, Good (t.items l).data) := by
  intro t ht l
  rw [free_data ht]
  exact h l

theorem init_fi (h : FlagsInt s) : (MPI_Init s).Post FlagsInt :=
  (commNew_fi h).bind fun _ h => .ite .abort (.ok h)

theorem commFree_fi (h : FlagsInt s) (x : Int) : (MPI_Comm_free s x).Post (fun r => FlagsInt r.1) :=
  (ptr_fi h x).bind fun _ h => Post.bind_ fun _ => Post.bind_ fun _ => Post.bind_ fun _ => Post.bind_ fun _ =>
    Post.bind_ fun _ => (free_fi h _).bind fun _ h => .ok h

theorem requestFree_fi (h : FlagsInt s) (x : Int) : (MpiSerial.MPI_Request_free s x).Post (fun r => FlagsInt r.1) :=
  (free_fi h _).bind fun _ h => .ok h

theorem iprobe_fi (h : FlagsInt s) (src tag comm : Int) (st : StPtr) :
    (MpiSerial.MPI_Iprobe s src tag comm st).Post (fun r => FlagsInt r.1) := by
  unfold MpiSerial.MPI_Iprobe
  refine (ptr_fi h comm).bind fun x h1 => .ite .abort (Post.bind_ fun _ => Post.bind_ fun f => ?_)
  cases f with
  | none => exact .ok h1
  | some i => exact Post.bind_ fun _ => Post.bind_ fun _ => Post.bind_ fun _ => .ok h1

theorem testanyLoop_fi : ∀ (n i : Nat) (s : Sys) (rs : List Int) (st : StPtr), FlagsInt s →
    (MpiSerial.testanyLoop n i s rs st).Post (fun r => FlagsInt r.1)
  | 0, _, _, _, _, h => .ok h
  | n + 1, i, s, rs, st, h => by
    rw [MpiSerial.testanyLoop]
    exact Post.bind_ fun _ => (test_fi h _ _).bind fun r hr => .ite (.ok hr) (testanyLoop_fi n (i + 1) _ _ _ hr)

theorem testallLoop_fi : ∀ (n i : Nat) (s : Sys) (rs : List Int) (st : StArr) (f : Int), FlagsInt s →
    (MpiSerial.testallLoop n i s rs st f).Post (fun r => FlagsInt r.1.sys)
  | 0, _, _, _, _, _, h => .ok h
  | n + 1, i, s, rs, st, f, h => by
    rw [MpiSerial.testallLoop]
    exact Post.bind_ fun _ => Post.bind_ fun _ => (test_fi h _ _).bind fun r hr => testallLoop_fi n (i + 1) _ _ _ _ hr

theorem testsomeLoop_fi : ∀ (n i : Nat) (s : Sys) (rs : List Int) (st : StArr) (f : Int), FlagsInt s →
    (MpiSerial.testsomeLoop n i s rs st f).Post (fun r => FlagsInt r.1.sys)
  | 0, _, _, _, _, _, h => .ok h
  | n + 1, i, s, rs, st, f, h => by
    rw [MpiSerial.testsomeLoop]
    exact Post.bind_ fun _ => Post.bind_ fun _ => (test_fi h _ _).bind fun r hr => testsomeLoop_fi n (i + 1) _ _ _ _ hr

theorem waitallLoop_fi : ∀ (n i : Nat) (s : Sys) (rs : List Int) (st : StArr), FlagsInt s →
    (MpiSerial.waitallLoop n i s rs st).Post (fun r => FlagsInt r.sys)
  | 0, _, _, _, _, h => .ok h
  | n + 1, i, s, rs, st, h => by
    rw [MpiSerial.waitallLoop]
    exact Post.bind_ fun _ => Post.bind_ fun _ => (test_fi h _ _).bind fun r hr => .ite .abort (waitallLoop_fi n (i + 1) _ _ _ hr)

theorem extent_fi (h : FlagsInt s) (t : Int) : (MPI_Type_extent env s t).Post (fun r => FlagsInt r.1) :=
  (typeOf_fi h t).bind fun _ h1 => Post.bind_ fun _ => .ok h1

theorem fortChecks_fi (h : FlagsInt s) (a : FortArgs) : (mpi_init_fort_checks env a s).Post (FlagsInt) := by
  have hv : ∀ {s : Sys} {name : String} {p q err : Int}, FlagsInt s → (verify_size env a name p q s err).Post (fun r => FlagsInt r.1) :=
    fun h => (typeOf_fi h _).bind fun _ h => Post.bind_ fun _ => Post.bind_ fun _ => .ok h
  exact Post.bind_ fun _ => Post.bind_ fun _ => Post.bind_ fun _ => (hv h).bind fun _ h => (hv h).bind fun _ h =>
    (hv h).bind fun _ h => (hv h).bind fun _ h => (hv h).bind fun _ h => .ite .abort (.ok h)

/-- No call stores a `complete` that is not an `int`. -/
theorem Call.keeps_fi (hj : IntJunk env) (h : FlagsInt s) (c : Call) : (c.exec env s).Post (FlagsInt) := by
  have hnew : ∀ {x : Int} {f : Typestruct → Garbage → Res Typestruct},
      (typeOf env s x >>= fun r => newType env r.1 (f r.2)).Post (fun r => FlagsInt r.1) := fun {x f} =>
    (typeOf_fi h x).bind fun _ h1 => newType_fi h1 _
  have hkeep : ∀ {α : Type} {x : Res (Sys × α)}, x.Post (fun r => FlagsInt r.1) → (x >>= fun r => Res.ok r.1).Post (FlagsInt) :=
    fun h => h.bind fun _ h => .ok h
  cases c with
  | store m' => exact .ok h
  | init => exact init_fi h
  | initThread r => exact hkeep ((init_fi h).bind fun _ h => .ok h)
  | fortInit a => exact (init_fi h).bind fun _ h => fortChecks_fi h a
  | initialized => exact .ok h
  | finalize =>
    refine .ok fun l r hr => h l r ?_
    rw [← hr]
    show _ = ((mpi_destroy_handles _).items l).data
    unfold mpi_destroy_handles
    split <;> rfl
  | abort a b => exact fun _ h => by cases h
  | commDup a => exact hkeep (commNew_fi h)
  | commCreate a g => exact hkeep (.ite (.ok h) (commNew_fi h))
  | commSplit a c k => exact hkeep (.ite (.ok h) (commNew_fi h))
  | intercommCreate a b c d e => exact hkeep (.ite (.ok h) (commNew_fi h))
  | cartCreate a n d => exact hkeep (Post.bind_ fun _ => commNew_fi h)
  | commFree a => exact hkeep (commFree_fi h a)
  | isend a b c d e f => exact hkeep (isend_fi hj h _ _ _ _ _ _)
  | irsend a b c d e f =>
    exact hkeep ((isend_fi hj h _ _ _ _ _ _).bind fun _ h => (ptr_fi h _).bind fun _ h => Post.bind_ fun _ => .ite .abort (.ok h))
  | send a b c d e f => exact send_fi hj h _ _ _ _ _ _
  | irecv a b c d e f => exact hkeep (irecv_fi hj h _ _ _ _ _ _)
  | recv a b c d e f st =>
    refine hkeep ((irecv_fi hj h _ _ _ _ _ _).bind fun _ h => (wait_fi h _ _).bind fun x h => ?_)
    obtain ⟨x1, x2, x3⟩ := x
    cases x3
    · exact .ok h
    · exact .ok h
    · exact .ub
  | sendrecv a b c d e f g i j k l st =>
    exact hkeep ((irecv_fi hj h _ _ _ _ _ _).bind fun _ h => (send_fi hj h _ _ _ _ _ _).bind fun _ h => (wait_fi h _ _).bind fun _ h => .ok h)
  | iprobe a b c st => exact hkeep (iprobe_fi h _ _ _ _)
  | probe a b c st => exact hkeep ((iprobe_fi h _ _ _ _).bind fun _ h => .ite .abort (.ok h))
  | test r st => exact (test_fi h _ _).bind fun _ h => .ok h
  | wait r st => exact hkeep (wait_fi h _ _)
  | requestFree r => exact hkeep (requestFree_fi h r)
  | testany n rs i st => exact hkeep ((testanyLoop_fi _ _ _ _ _ h).bind fun _ h => .ok h)
  | waitany n rs i st =>
    exact hkeep (Post.bind (P := fun r => FlagsInt r.1) ((testanyLoop_fi _ _ _ _ _ h).bind fun _ h => .ok h) fun _ h => .ite .abort (.ok h))
  | testall n rs sts => exact (testallLoop_fi _ _ _ _ _ _ h).bind fun _ h => .ok h
  | waitall n rs sts => exact (waitallLoop_fi _ _ _ _ _ h).bind fun _ h => .ok h
  | testsome n rs ix sts =>
    exact Post.bind (P := fun r => FlagsInt r.arr.sys) ((testsomeLoop_fi _ _ _ _ _ _ h).bind fun _ h => .ok h) fun _ h => .ok h
  | waitsome n rs ix sts =>
    exact Post.bind (P := fun r => FlagsInt r.arr.sys) ((testsomeLoop_fi _ _ _ _ _ _ h).bind fun _ h => .ok h) fun _ h => .ok h
  | typeContiguous n t => exact hkeep (hnew (f := fun t g => Type_contiguous env.cfg g n t))
  | typeHvector n b d t => exact hkeep (hnew (f := fun t g => Type_hvector env.cfg g n b d t))
  | typeVector n b d t => exact hkeep (hnew (f := fun t g => Type_vector env.cfg g n b d t))
  | typeHindexed n b d t => exact hkeep (hnew (f := fun t g => Type_hindexed env.cfg g n b d t))
  | typeIndexed n b d t => exact hkeep (hnew (f := fun t g => Type_indexed env.cfg g n b d t))
  | typeIndexedBlock n b d t => exact hkeep (hnew (f := fun t g => Type_create_indexed_block env.cfg g n b d t))
  | typeStruct n b d ts => exact hkeep (Post.bind_ fun _ => (structTypes_fi _ _ _ _ h).bind fun _ h => newType_fi h _)
  | typeCommit t =>
    refine (toType_fi h t).bind fun x h => Post.bind_ fun _ => ?_
    obtain ⟨x1, p⟩ := x
    cases p
    · exact .ok h
    · exact .ok h
    · exact .ok h
  | typeFree t =>
    refine (toType_fi h t).bind fun x h => ?_
    obtain ⟨x1, p⟩ := x
    refine Post.bind (P := FlagsInt) ?_ fun _ h => (free_fi h _).bind fun _ h => .ok h
    cases p with
    | null => exact .ok h
    | static k => exact .ub
    | heap q =>
      show (match x1.theap q with
        | some _ => Res.ok { x1 with theap := fun q' => if q' = q then none else x1.theap q' }
        | none => Res.ub UB.badFree).Post (FlagsInt)
      cases x1.theap q
      · exact .ub
      · exact .ok h
  | typeExtent t => exact hkeep (extent_fi h t)
  | typeSize t => exact hkeep ((typeOf_fi h t).bind fun _ h => Post.bind_ fun _ => .ok h)
  | typeLb t => exact hkeep ((typeOf_fi h t).bind fun _ h => .ok h)
  | typeUb t => exact hkeep ((typeOf_fi h t).bind fun _ h => .ok h)
  | getElements st t => exact hkeep ((typeOf_fi h t).bind fun _ h => Post.bind_ fun _ => .ok h)
  | pack a b t c d e comm =>
    exact hkeep ((typeOf_fi h t).bind fun _ h => (ptr_fi h _).bind fun _ h =>
      Post.bind_ fun _ => .ok h)
  | packSize n t comm => exact hkeep ((typeOf_fi h t).bind fun _ h => (ptr_fi h _).bind fun _ h => Post.bind_ fun _ => .ok h)
  | unpack a b c d e t comm =>
    exact hkeep ((typeOf_fi h t).bind fun _ h => (ptr_fi h _).bind fun _ h =>
      Post.bind_ fun _ => .ok h)
  | barrier c => exact .ok h
  | bcast a b c r d => exact .ite (.ok h) (.ite .abort (.ok h))
  | gather a b c d e f r comm => exact .ite (.ok h) (.ite (.ok h) (.ite .abort (copy_fi h _ _ _ _ _ _)))
  | gatherv a b c d e f g r comm =>
    exact .ite (.ok h) (.ite (.ok h) (.ite .abort ((extent_fi h _).bind fun _ h => Post.bind_ fun _ => Post.bind_ fun _ => copy_fi h _ _ _ _ _ _)))
  | allgather a b c d e f comm => exact .ite (.ok h) (copy_fi h _ _ _ _ _ _)
  | allgatherv a b c d e f g comm =>
    exact .ite (.ok h) ((extent_fi h _).bind fun _ h => Post.bind_ fun _ => Post.bind_ fun _ => copy_fi h _ _ _ _ _ _)
  | scatter a b c d e f r comm => exact .ite (.ok h) (.ite (.ok h) (.ite .abort (copy_fi h _ _ _ _ _ _)))
  | scatterv a b c d e f g r comm =>
    exact .ite (.ok h) (.ite (.ok h) (.ite .abort ((extent_fi h _).bind fun _ h => Post.bind_ fun _ => Post.bind_ fun _ => copy_fi h _ _ _ _ _ _)))
  | reduce a b n t op r comm => exact .ite .abort (copy_fi h _ _ _ _ _ _)
  | allreduce a b n t op comm => exact .ite (.ok h) (copy_fi h _ _ _ _ _ _)
  | reduceScatter a b n t op comm => exact Post.bind_ fun _ => copy_fi h _ _ _ _ _ _
  | scan a b n t op comm => exact copy_fi h _ _ _ _ _ _
  | alltoall a b c d e f comm => exact copy_fi h _ _ _ _ _ _
  | alltoallv a b c d e f g i comm =>
    exact (extent_fi h _).bind fun _ h => (extent_fi h _).bind fun _ h => Post.bind_ fun _ => Post.bind_ fun _ =>
      Post.bind_ fun _ => Post.bind_ fun _ => copy_fi h _ _ _ _ _ _
  | alltoallw a b c d e f g i comm =>
    exact Post.bind_ fun _ => Post.bind_ fun _ => Post.bind_ fun _ => Post.bind_ fun _ => Post.bind_ fun _ => Post.bind_ fun _ =>
      copy_fi h _ _ _ _ _ _


/-- In every reachable state the members are `int`s. -/
theorem reach_flags (hj : IntJunk env) {L : Ledger} (hr : Reach env s L) : FlagsInt s := by
  induction hr with
  | start => exact fun _ _ h => by cases h
  | step _ hstep ih =>
    cases hstep with
    | memory => exact ih
    | init _ _ h => exact init_fi ih _ h
    | finalize =>
      intro l r hr
      refine ih l r ?_
      rw [← hr]
      show _ = ((mpi_destroy_handles _).items l).data
      unfold mpi_destroy_handles
      split <;> rfl
    | comm _ _ hc e =>
      cases hc with
      | dup => exact commNew_fi ih _ e
      | create => exact Post.ite (.ok (P := fun r => FlagsInt r.1) ih) (commNew_fi ih) _ e
      | split => exact Post.ite (.ok (P := fun r => FlagsInt r.1) ih) (commNew_fi ih) _ e
      | intercomm => exact Post.ite (.ok (P := fun r => FlagsInt r.1) ih) (commNew_fi ih) _ e
      | cart => exact Post.bind_ (Q := fun r => FlagsInt r.1) (fun _ => commNew_fi ih) _ e
    | commFree _ h =>
      exact commFree_fi ih _ _ h
    | isend _ _ h => exact isend_fi hj ih _ _ _ _ _ _ _ h
    | irecv _ _ _ h => exact irecv_fi hj ih _ _ _ _ _ _ _ h
    | isendNull _ h => exact isend_fi hj ih _ _ _ _ _ _ _ h
    | irecvNull _ h => exact irecv_fi hj ih _ _ _ _ _ _ _ h
    | test _ h => exact ih.test h
    | requestFree _ _ _ h => exact requestFree_fi ih _ _ h
    | newType hc e _ =>
      cases hc with
      | struct => exact Post.bind_ (Q := fun r => FlagsInt r.1) (fun _ => (structTypes_fi _ _ _ _ ih).bind fun _ h => newType_fi h _) _ e
      | _ => exact (typeOf_fi ih _).bind (Q := fun r => FlagsInt r.1) (fun _ h => newType_fi h _) _ e
    | commit _ h =>
      refine ((toType_fi ih _).bind (Q := FlagsInt) fun x h => Post.bind_ fun _ => ?_) _ h
      obtain ⟨x1, p⟩ := x
      cases p <;> exact .ok h
    | typeFree _ h =>
      refine ((toType_fi ih _).bind (Q := FlagsInt) fun x h => ?_) _ h
      obtain ⟨x1, p⟩ := x
      refine Post.bind (P := FlagsInt) ?_ fun _ h => (free_fi h _).bind fun _ h => .ok h
      cases p with
      | null => exact .ok h
      | static k => exact .ub
      | heap q =>
        show (match x1.theap q with
          | some _ => Res.ok { x1 with theap := fun q' => if q' = q then none else x1.theap q' }
          | none => Res.ub UB.badFree).Post FlagsInt
        cases x1.theap q
        · exact .ub
        · exact .ok h

end

end Place

end MpiSerial
