import Verif.Spec.Asking
import Verif.Proofs.Inited
import Verif.Proofs.TwinAll

/-!
# For C86: which calls leave the state alone
-/

set_option linter.unusedSimpArgs false
set_option autoImplicit false

namespace MpiSerial

open Res (Post)

/-- The handle table has been set up. -/
abbrev Up (s : Sys) : Prop := s.handles.needInit = false

theorem alloc_up {D : Type} (t : HTab D) (d : D) : (mpi_alloc_handle t d).Post (fun r => r.1.needInit = false) := by
  have h : (if t.needInit then init_handles t else t).needInit = false := by
    split
    · unfold init_handles
      generalize init_block t 0 = u
      rfl
    · simp_all
  unfold mpi_alloc_handle
  dsimp only
  generalize (if t.needInit then init_handles t else t) = t' at h
  split
  · exact Post.bind_ fun _ => .ok h
  · refine .ite .abort ?_
    generalize hu : init_block _ _ = u
    have : u.needInit = false := by
      rw [← hu, (init_block_spec _ _).1]
      exact h
    exact .ok this

theorem free_up {s : Sys} (h : Up s) (x : Int) : (mpi_free_handle s.handles x).Post (fun t => t.needInit = false) := by
  unfold mpi_free_handle
  exact .ite (.ok h) (.ite .abort (Post.bind_ fun _ => .ok h))

/-- Looking up a handle changes nothing. -/
theorem ptr_same {s : Sys} (h : Up s) {x : Int} {r : Sys × Option Loc} (hr : s.ptr x = .ok r) : r.1 = s ∧ mpi_handle_to_ptr s.handles x = .ok (s.handles, r.2) := by
  unfold Sys.ptr at hr
  rw [Res.bind_eq_ok] at hr
  obtain ⟨⟨t, p⟩, h1, h2⟩ := hr
  cases h2
  have ht : t = s.handles := by
    unfold mpi_handle_to_ptr at h1
    rw [h] at h1
    dsimp only [Bool.false_eq_true, if_false] at h1
    split at h1
    · cases h1; simp
    · rw [Res.bind_eq_ok] at h1
      obtain ⟨_, _, h2⟩ := h1
      cases h2
      simp
  subst ht
  exact ⟨rfl, h1⟩

section
variable {env : Env}


theorem ptr_up {s : Sys} (h : Up s) (x : Int) : (s.ptr x).Post (fun r => Up r.1) := by
  intro r hr
  obtain ⟨e, _⟩ := ptr_same h hr
  rw [e]; exact h

theorem modReq_up {s : Sys} (h : Up s) (l : Loc) (f : ReqRec → ReqRec) : (s.modReq l f).Post Up :=
  Post.bind_ fun _ => .ok h

theorem allocReq_up (s : Sys) : (s.allocReq env).Post (fun r => Up r.1) :=
  (alloc_up _ _).bind fun _ h => .ok h

theorem toType_up {s : Sys} (h : Up s) (x : Int) : (handleToDatatype s x).Post (fun r => Up r.1) := by
  unfold handleToDatatype
  refine .ite (Post.bind_ fun _ => .ok h) ((ptr_up h x).bind fun r hr => ?_)
  obtain ⟨s1, p⟩ := r
  cases p with
  | none => exact .ub
  | some l =>
    refine Post.bind_ fun it => ?_
    split
    · exact .ok hr
    · exact .ub

theorem typeOf_up {s : Sys} (h : Up s) (x : Int) : (typeOf env s x).Post (fun r => Up r.1) :=
  (toType_up h x).bind fun _ hr => Post.bind_ fun _ => .ok hr

theorem copy_up {s : Sys} (h : Up s) (p n a q k c : Int) : (copy_data2 env s p n a q k c).Post (Up) :=
  (toType_up h a).bind fun _ h1 => (toType_up h1 c).bind fun _ h2 =>
    Post.bind_ fun _ => Post.bind_ fun _ => Post.bind_ fun _ => .ok h2

theorem isend_up {s : Sys} (h : Up s) (buf count dtype dest tag comm : Int) :
    (MPI_Isend env s buf count dtype dest tag comm).Post (fun r => Up r.1) := by
  unfold MPI_Isend
  refine (ptr_up h comm).bind fun x1 h1 => .ite .abort ((allocReq_up _).bind fun x2 h2 => .ite ?_ ?_)
  · exact (modReq_up h2 _ _).bind fun _ h3 => .ok h3
  · refine Post.bind_ fun c => Post.bind_ fun f => ?_
    cases f with
    | some item =>
      refine Post.bind (P := Up) ?_ fun _ h3 => .ok h3
      exact Post.bind_ fun _ => Post.bind_ fun l => Post.bind_ fun _ => Post.bind (copy_up (s := { x2.1 with lists := l }) h2 _ _ _ _ _ _) fun _ h4 =>
        (modReq_up h4 _ _).bind fun _ h5 => modReq_up h5 _ _
    | none =>
      refine Post.bind (P := Up) ?_ fun _ h3 => .ok h3
      exact (modReq_up h2 _ _).bind fun s3 h3 => Post.bind_ fun x => modReq_up (s := { s3 with lists := x.1 }) h3 _ _

theorem irecv_up {s : Sys} (h : Up s) (buf count dtype src tag comm : Int) :
    (MPI_Irecv env s buf count dtype src tag comm).Post (fun r => Up r.1) := by
  unfold MPI_Irecv
  refine (ptr_up h comm).bind fun x1 h1 => .ite .abort ((allocReq_up _).bind fun x2 h2 =>
    (modReq_up h2 _ _).bind fun s3 h3 => .ite ?_ ?_)
  · exact (modReq_up h3 _ _).bind fun _ h3 => .ok h3
  · refine Post.bind_ fun c => Post.bind_ fun f => ?_
    cases f with
    | some item =>
      refine Post.bind (P := Up) ?_ fun _ h3 => .ok h3
      exact Post.bind_ fun _ => Post.bind_ fun l => Post.bind_ fun _ => Post.bind (copy_up (s := { s3 with lists := l }) h3 _ _ _ _ _ _) fun _ h4 =>
        Post.bind_ fun _ => (modReq_up h4 _ _).bind fun _ h5 => modReq_up h5 _ _
    | none =>
      refine Post.bind (P := Up) ?_ fun _ h3 => .ok h3
      exact (modReq_up h3 _ _).bind fun s3 h3 => Post.bind_ fun x => modReq_up (s := { s3 with lists := x.1 }) h3 _ _

theorem test_up {s : Sys} (h : Up s) (r : Int) (st : StPtr) : (MPI_Test s r st).Post (fun r => Up r.sys) := by
  unfold MPI_Test
  refine .ite (Post.bind_ fun _ => .ok h) ((ptr_up h r).bind fun x h1 => Post.bind_ fun _ => .ite ?_ (.ok h1))
  exact Post.bind_ fun _ => (free_up h1 _).bind fun _ h => .ok h

theorem wait_up {s : Sys} (h : Up s) (r : Int) (st : StPtr) : (MPI_Wait s r st).Post (fun r => Up r.1) :=
  (test_up h r st).bind fun _ h1 => .ite .abort (.ok h1)

theorem send_up {s : Sys} (h : Up s) (buf count dtype dest tag comm : Int) :
    (MPI_Send env s buf count dtype dest tag comm).Post (Up) :=
  (isend_up h buf count dtype dest tag comm).bind fun _ h1 => (wait_up h1 _ _).bind fun _ h2 => .ok h2

theorem iprobe_up {s : Sys} (h : Up s) (src tag comm : Int) (st : StPtr) :
    (MPI_Iprobe s src tag comm st).Post (fun r => Up r.1) := by
  unfold MPI_Iprobe
  refine (ptr_up h comm).bind fun x h1 => .ite .abort (Post.bind_ fun _ => Post.bind_ fun f => ?_)
  cases f with
  | none => exact .ok h1
  | some i => exact Post.bind_ fun _ => Post.bind_ fun _ => Post.bind_ fun _ => .ok h1

theorem testanyLoop_up : ∀ (n i : Nat) (s : Sys) (rs : List Int) (st : StPtr), Up s →
    (testanyLoop n i s rs st).Post (fun r => Up r.1)
  | 0, _, _, _, _, h => .ok h
  | n + 1, i, s, rs, st, h => by
    rw [testanyLoop]
    exact Post.bind_ fun _ => (test_up h _ _).bind fun r hr => .ite (.ok hr) (testanyLoop_up n (i + 1) _ _ _ hr)

theorem testallLoop_up : ∀ (n i : Nat) (s : Sys) (rs : List Int) (st : StArr) (f : Int), Up s →
    (testallLoop n i s rs st f).Post (fun r => Up r.1.sys)
  | 0, _, _, _, _, _, h => .ok h
  | n + 1, i, s, rs, st, f, h => by
    rw [testallLoop]
    exact Post.bind_ fun _ => Post.bind_ fun _ => (test_up h _ _).bind fun r hr => testallLoop_up n (i + 1) _ _ _ _ hr

theorem testsomeLoop_up : ∀ (n i : Nat) (s : Sys) (rs : List Int) (st : StArr) (f : Int), Up s →
    (testsomeLoop n i s rs st f).Post (fun r => Up r.1.sys)
  | 0, _, _, _, _, _, h => .ok h
  | n + 1, i, s, rs, st, f, h => by
    rw [testsomeLoop]
    exact Post.bind_ fun _ => Post.bind_ fun _ => (test_up h _ _).bind fun r hr => testsomeLoop_up n (i + 1) _ _ _ _ hr

theorem waitallLoop_up : ∀ (n i : Nat) (s : Sys) (rs : List Int) (st : StArr), Up s →
    (waitallLoop n i s rs st).Post (fun r => Up r.sys)
  | 0, _, _, _, _, h => .ok h
  | n + 1, i, s, rs, st, h => by
    rw [waitallLoop]
    exact Post.bind_ fun _ => Post.bind_ fun _ => (test_up h _ _).bind fun r hr => .ite .abort (waitallLoop_up n (i + 1) _ _ _ hr)

theorem newType_up (s : Sys) (build : Garbage → Res Typestruct) :
    (newType env s build).Post (fun r => Up r.1) :=
  (alloc_up _ _).bind fun _ h => Post.bind_ fun _ => .ok h

theorem structTypes_up (olds : List Int) : ∀ (n i : Nat) (s : Sys), Up s →
    (structTypes env olds n i s).Post (fun r => Up r.1)
  | 0, _, _, h => .ok h
  | n + 1, i, s, h => by
    rw [structTypes]
    exact Post.bind_ fun _ => (typeOf_up h _).bind fun r hr => (structTypes_up olds n (i + 1) _ hr).bind fun _ h2 => .ok h2

theorem commNew_up (s : Sys) : (mpi_comm_new s).Post (fun r => Up r.1) :=
  (alloc_up _ _).bind fun _ h => Post.bind_ fun _ => Post.bind_ fun _ => Post.bind_ fun _ => .ok h

theorem extent_up {s : Sys} (h : Up s) (t : Int) : (MPI_Type_extent env s t).Post (fun r => Up r.1) :=
  (typeOf_up h t).bind fun _ h1 => Post.bind_ fun _ => .ok h1

/-- Every call other than initialisation and MPI_Finalize leaves the flag alone, whatever its arguments and
whatever the state. -/
theorem Call.keeps_up {s : Sys} (h : Up s) (c : Call) (h1 : c.isInit = false) (h2 : c.isFinalize = false) :
    (c.exec env s).Post (Up) := by
  have hnew : ∀ {x : Int} {f : Typestruct → Garbage → Res Typestruct},
      (typeOf env s x >>= fun r => newType env r.1 (f r.2)).Post (fun r => Up r.1) := fun {x f} =>
    (typeOf_up h x).bind fun _ h1 => newType_up _ _
  have hkeep : ∀ {α : Type} {x : Res (Sys × α)}, x.Post (fun r => Up r.1) → (x >>= fun r => Res.ok r.1).Post (Up) :=
    fun h => h.bind fun _ h => .ok h
  cases c with
  | store m => exact .ok h
  | init => cases h1
  | initThread r => cases h1
  | fortInit a => cases h1
  | initialized => exact .ok h
  | finalize => cases h2
  | abort a b => exact fun _ h => by cases h
  | commDup a => exact hkeep (commNew_up _)
  | commCreate a g => exact hkeep (.ite (.ok h) (commNew_up _))
  | commSplit a c k => exact hkeep (.ite (.ok h) (commNew_up _))
  | intercommCreate a b c d e => exact hkeep (.ite (.ok h) (commNew_up _))
  | cartCreate a n d => exact hkeep (Post.bind_ fun _ => commNew_up _)
  | commFree a =>
    exact hkeep ((ptr_up h a).bind fun _ h => Post.bind_ fun _ => Post.bind_ fun _ => Post.bind_ fun _ => Post.bind_ fun _ =>
      Post.bind_ fun _ => (free_up h _).bind fun _ h => .ok h)
  | isend a b c d e f => exact hkeep (isend_up h _ _ _ _ _ _)
  | irsend a b c d e f =>
    exact hkeep ((isend_up h _ _ _ _ _ _).bind fun _ h => (ptr_up h _).bind fun _ h => Post.bind_ fun _ => .ite .abort (.ok h))
  | send a b c d e f => exact send_up h _ _ _ _ _ _
  | irecv a b c d e f => exact hkeep (irecv_up h _ _ _ _ _ _)
  | recv a b c d e f st =>
    refine hkeep ((irecv_up h _ _ _ _ _ _).bind fun _ h => (wait_up h _ _).bind fun x h => ?_)
    obtain ⟨x1, x2, x3⟩ := x
    cases x3
    · exact .ok h
    · exact .ok h
    · exact .ub
  | sendrecv a b c d e f g i j k l st =>
    exact hkeep ((irecv_up h _ _ _ _ _ _).bind fun _ h => (send_up h _ _ _ _ _ _).bind fun _ h => (wait_up h _ _).bind fun _ h => .ok h)
  | iprobe a b c st => exact hkeep (iprobe_up h _ _ _ _)
  | probe a b c st => exact hkeep ((iprobe_up h _ _ _ _).bind fun _ h => .ite .abort (.ok h))
  | test r st => exact (test_up h _ _).bind fun _ h => .ok h
  | wait r st => exact hkeep (wait_up h _ _)
  | requestFree r => exact hkeep ((free_up h _).bind fun _ h => .ok h)
  | testany n rs i st => exact hkeep ((testanyLoop_up _ _ _ _ _ h).bind fun _ h => .ok h)
  | waitany n rs i st =>
    exact hkeep (Post.bind (P := fun r => Up r.1) ((testanyLoop_up _ _ _ _ _ h).bind fun _ h => .ok h) fun _ h => .ite .abort (.ok h))
  | testall n rs sts => exact (testallLoop_up _ _ _ _ _ _ h).bind fun _ h => .ok h
  | waitall n rs sts => exact (waitallLoop_up _ _ _ _ _ h).bind fun _ h => .ok h
  | testsome n rs ix sts =>
    exact Post.bind (P := fun r => Up r.arr.sys) ((testsomeLoop_up _ _ _ _ _ _ h).bind fun _ h => .ok h) fun _ h => .ok h
  | waitsome n rs ix sts =>
    exact Post.bind (P := fun r => Up r.arr.sys) ((testsomeLoop_up _ _ _ _ _ _ h).bind fun _ h => .ok h) fun _ h => .ok h
  | typeContiguous n t => exact hkeep (hnew (f := fun t g => Type_contiguous env.cfg g n t))
  | typeHvector n b d t => exact hkeep (hnew (f := fun t g => Type_hvector env.cfg g n b d t))
  | typeVector n b d t => exact hkeep (hnew (f := fun t g => Type_vector env.cfg g n b d t))
  | typeHindexed n b d t => exact hkeep (hnew (f := fun t g => Type_hindexed env.cfg g n b d t))
  | typeIndexed n b d t => exact hkeep (hnew (f := fun t g => Type_indexed env.cfg g n b d t))
  | typeIndexedBlock n b d t => exact hkeep (hnew (f := fun t g => Type_create_indexed_block env.cfg g n b d t))
  | typeStruct n b d ts => exact hkeep (Post.bind_ fun _ => (structTypes_up _ _ _ _ h).bind fun _ h => newType_up _ _)
  | typeCommit t =>
    refine (toType_up h t).bind fun x h => Post.bind_ fun _ => ?_
    obtain ⟨x1, p⟩ := x
    cases p
    · exact .ok h
    · exact .ok h
    · exact .ok h
  | typeFree t =>
    refine (toType_up h t).bind fun x h => ?_
    obtain ⟨x1, p⟩ := x
    refine Post.bind (P := Up) ?_ fun _ h => (free_up h _).bind fun _ h => .ok h
    cases p with
    | null => exact .ok h
    | static k => exact .ub
    | heap q =>
      show (match x1.theap q with
        | some _ => Res.ok { x1 with theap := fun q' => if q' = q then none else x1.theap q' }
        | none => Res.ub UB.badFree).Post (Up)
      cases x1.theap q
      · exact .ub
      · exact .ok h
  | typeExtent t => exact hkeep (extent_up h t)
  | typeSize t => exact hkeep ((typeOf_up h t).bind fun _ h => Post.bind_ fun _ => .ok h)
  | typeLb t => exact hkeep ((typeOf_up h t).bind fun _ h => .ok h)
  | typeUb t => exact hkeep ((typeOf_up h t).bind fun _ h => .ok h)
  | getElements st t => exact hkeep ((typeOf_up h t).bind fun _ h => Post.bind_ fun _ => .ok h)
  | pack a b t c d e comm => exact hkeep ((typeOf_up h t).bind fun _ h => (ptr_up h _).bind fun _ h => Post.bind_ fun _ => .ok h)
  | packSize n t comm => exact hkeep ((typeOf_up h t).bind fun _ h => (ptr_up h _).bind fun _ h => Post.bind_ fun _ => .ok h)
  | unpack a b c d e t comm => exact hkeep ((typeOf_up h t).bind fun _ h => (ptr_up h _).bind fun _ h => Post.bind_ fun _ => .ok h)
  | barrier c => exact .ok h
  | bcast a b c r d => exact .ite (.ok h) (.ite .abort (.ok h))
  | gather a b c d e f r comm => exact .ite (.ok h) (.ite (.ok h) (.ite .abort (copy_up h _ _ _ _ _ _)))
  | gatherv a b c d e f g r comm =>
    exact .ite (.ok h) (.ite (.ok h) (.ite .abort ((extent_up h _).bind fun _ h => Post.bind_ fun _ => Post.bind_ fun _ => copy_up h _ _ _ _ _ _)))
  | allgather a b c d e f comm => exact .ite (.ok h) (copy_up h _ _ _ _ _ _)
  | allgatherv a b c d e f g comm =>
    exact .ite (.ok h) ((extent_up h _).bind fun _ h => Post.bind_ fun _ => Post.bind_ fun _ => copy_up h _ _ _ _ _ _)
  | scatter a b c d e f r comm => exact .ite (.ok h) (.ite (.ok h) (.ite .abort (copy_up h _ _ _ _ _ _)))
  | scatterv a b c d e f g r comm =>
    exact .ite (.ok h) (.ite (.ok h) (.ite .abort ((extent_up h _).bind fun _ h => Post.bind_ fun _ => Post.bind_ fun _ => copy_up h _ _ _ _ _ _)))
  | reduce a b n t op r comm => exact .ite .abort (copy_up h _ _ _ _ _ _)
  | allreduce a b n t op comm => exact .ite (.ok h) (copy_up h _ _ _ _ _ _)
  | reduceScatter a b n t op comm => exact Post.bind_ fun _ => copy_up h _ _ _ _ _ _
  | scan a b n t op comm => exact copy_up h _ _ _ _ _ _
  | alltoall a b c d e f comm => exact copy_up h _ _ _ _ _ _
  | alltoallv a b c d e f g i comm =>
    exact (extent_up h _).bind fun _ h => (extent_up h _).bind fun _ h => Post.bind_ fun _ => Post.bind_ fun _ =>
      Post.bind_ fun _ => Post.bind_ fun _ => copy_up h _ _ _ _ _ _
  | alltoallw a b c d e f g i comm =>
    exact Post.bind_ fun _ => Post.bind_ fun _ => Post.bind_ fun _ => Post.bind_ fun _ => Post.bind_ fun _ => Post.bind_ fun _ =>
      copy_up h _ _ _ _ _ _

theorem init_up (s : Sys) : (MPI_Init s).Post Up :=
  (commNew_up s).bind fun _ h => .ite .abort (.ok h)

theorem fortChecks_up {s : Sys} (h : Up s) (a : FortArgs) : (mpi_init_fort_checks env a s).Post (Up) := by
  have hv : ∀ {s : Sys} {name : String} {p q err : Int}, Up s → (verify_size env a name p q s err).Post (fun r => Up r.1) :=
    fun h => (typeOf_up h _).bind fun _ h => Post.bind_ fun _ => Post.bind_ fun _ => .ok h
  exact Post.bind_ fun _ => Post.bind_ fun _ => Post.bind_ fun _ => (hv h).bind fun _ h => (hv h).bind fun _ h =>
    (hv h).bind fun _ h => (hv h).bind fun _ h => (hv h).bind fun _ h => .ite .abort (.ok h)

theorem Call.init_up {s : Sys} (c : Call) (h1 : c.isInit = true) : (c.exec env s).Post (Up) := by
  cases c with
  | init => exact MpiSerial.init_up s
  | initThread r =>
    exact Post.bind (P := fun r => Up r.1) ((MpiSerial.init_up s).bind fun _ h => .ok h) fun _ h => .ok h
  | fortInit a => exact (MpiSerial.init_up s).bind fun _ h => fortChecks_up h a
  | _ => cases h1

end

end MpiSerial
