import Verif.Proofs.Inited

/-!
# Calls do not change which memory is accessible
-/

set_option linter.unusedSimpArgs false
set_option autoImplicit false

namespace MpiSerial

open Res (Post)

section
variable {env : Env} {m : Mem}

/-- The same addresses are accessible in `m'` as in `m`. -/
abbrev SameDom (m m' : Mem) : Prop := ∀ a, (m' a).isSome = (m a).isSome

/-- The same addresses are accessible as in `m`. -/
abbrev Dom (m : Mem) (s : Sys) : Prop := SameDom m s.mem

theorem memcpy_dom {m' : Mem} (h : SameDom m m') (d s : Int) (n : Nat) : (memcpy m' d s n).Post (SameDom m) := by
  unfold memcpy
  refine .ite (.ok h) ?_
  split
  · exact .ub
  · rename_i hr
    refine .ite .ub (.ok fun a => ?_)
    simp only [Classical.not_not] at hr
    split
    · rename_i ha
      obtain ⟨k, hk⟩ : ∃ k : Nat, a - d = k := ⟨(a - d).toNat, by omega⟩
      have h1 := hr.1 k (by omega)
      have h2 := hr.2 k (by omega)
      rw [show d + (k : Int) = a by omega] at h1
      rw [hk, ← h a, h1, h2]
    · exact h a

theorem exit_post {α : Type} {P : α → Prop} {c : Int} : (Res.exit c : Res α).Post P := fun _ h => by cases h

theorem copyLoop_dom (cfg : Cfg) (source : Int) (st : Typestruct) (sext dest : Int) (dt : Typestruct) (dext : Int) :
    ∀ (n i : Nat) (m' : Mem), SameDom m m' → (copyLoop cfg source st sext dest dt dext n i m').Post (SameDom m)
  | 0, _, _, h => .ok h
  | n + 1, i, m', h => by
    rw [copyLoop]
    exact Post.bind_ fun _ => Post.bind_ fun _ => Post.bind_ fun _ => Post.bind_ fun _ => .ite exit_post
      (Post.bind_ fun _ => (memcpy_dom h _ _ _).bind fun _ h => copyLoop_dom cfg source st sext dest dt dext n (i + 1) _ h)

theorem pcopy_dom {cfg : Cfg} {m' : Mem} (h : SameDom m m') (source sc : Int) (st : Typestruct) (dest dc : Int) (dt : Typestruct) :
    (Pcopy_data2 cfg m' source sc st dest dc dt).Post (SameDom m) :=
  .ite exit_post (Post.bind_ fun _ => Post.bind_ fun _ => .ite exit_post (Post.bind_ fun _ => Post.bind_ fun _ =>
    copyLoop_dom _ _ _ _ _ _ _ _ _ _ h))

theorem packEntries_dom (cfg : Cfg) (inbuf : Int) (t : Typestruct) (extent outbuf outsize : Int) (i : Nat) :
    ∀ (n j : Nat) (x : Mem × Int), SameDom m x.1 →
      (packEntries cfg inbuf t extent outbuf outsize i n j x).Post (fun r => SameDom m r.1)
  | 0, _, _, h => .ok h
  | n + 1, j, (m', p), h => by
    rw [packEntries]
    exact Post.bind_ fun _ => Post.bind_ fun _ => Post.bind_ fun _ => .ite exit_post
      ((memcpy_dom h _ _ _).bind fun _ h => packEntries_dom cfg inbuf t extent outbuf outsize i n (j + 1) (_, _) h)

theorem packLoop_dom (cfg : Cfg) (inbuf : Int) (t : Typestruct) (extent outbuf outsize : Int) :
    ∀ (n i : Nat) (x : Mem × Int), SameDom m x.1 →
      (packLoop cfg inbuf t extent outbuf outsize n i x).Post (fun r => SameDom m r.1)
  | 0, _, _, h => .ok h
  | n + 1, i, x, h => by
    rw [packLoop]
    exact (packEntries_dom cfg inbuf t extent outbuf outsize i _ _ _ h).bind fun _ h =>
      packLoop_dom cfg inbuf t extent outbuf outsize n (i + 1) _ h

theorem unpackEntries_dom (cfg : Cfg) (inbuf insize outbuf : Int) (t : Typestruct) (extent : Int) (i : Nat) :
    ∀ (n j : Nat) (x : Mem × Int), SameDom m x.1 →
      (unpackEntries cfg inbuf insize outbuf t extent i n j x).Post (fun r => SameDom m r.1)
  | 0, _, _, h => .ok h
  | n + 1, j, (m', p), h => by
    rw [unpackEntries]
    exact Post.bind_ fun _ => Post.bind_ fun _ => Post.bind_ fun _ => .ite exit_post
      ((memcpy_dom h _ _ _).bind fun _ h => unpackEntries_dom cfg inbuf insize outbuf t extent i n (j + 1) (_, _) h)

theorem unpackLoop_dom (cfg : Cfg) (inbuf insize outbuf : Int) (t : Typestruct) (extent : Int) :
    ∀ (n i : Nat) (x : Mem × Int), SameDom m x.1 →
      (unpackLoop cfg inbuf insize outbuf t extent n i x).Post (fun r => SameDom m r.1)
  | 0, _, _, h => .ok h
  | n + 1, i, x, h => by
    rw [unpackLoop]
    exact (unpackEntries_dom cfg inbuf insize outbuf t extent i _ _ _ h).bind fun _ h =>
      unpackLoop_dom cfg inbuf insize outbuf t extent n (i + 1) _ h

theorem ptr_dom {s : Sys} (h : Dom m s) (x : Int) : (s.ptr x).Post (fun r => Dom m r.1) :=
  Post.bind_ fun _ => .ok h

theorem modReq_dom {s : Sys} (h : Dom m s) (l : Loc) (f : ReqRec → ReqRec) : (s.modReq l f).Post (Dom m) :=
  Post.bind_ fun _ => .ok h

theorem allocReq_dom {s : Sys} (h : Dom m s) : (s.allocReq env).Post (fun r => Dom m r.1) :=
  Post.bind_ fun _ => .ok h

theorem toType_dom {s : Sys} (h : Dom m s) (x : Int) : (handleToDatatype s x).Post (fun r => Dom m r.1) := by
  unfold handleToDatatype
  refine .ite (Post.bind_ fun _ => .ok h) ((ptr_dom h x).bind fun r hr => ?_)
  obtain ⟨s1, p⟩ := r
  cases p with
  | none => exact .ub
  | some l =>
    refine Post.bind_ fun it => ?_
    split
    · exact .ok hr
    · exact .ub

theorem typeOf_dom {s : Sys} (h : Dom m s) (x : Int) : (typeOf env s x).Post (fun r => Dom m r.1) :=
  (toType_dom h x).bind fun _ hr => Post.bind_ fun _ => .ok hr

theorem copy_dom {s : Sys} (h : Dom m s) (p n a q k c : Int) : (copy_data2 env s p n a q k c).Post (Dom m) :=
  (toType_dom h a).bind fun _ h1 => (toType_dom h1 c).bind fun _ h2 =>
    Post.bind_ fun _ => Post.bind_ fun _ => (pcopy_dom h2 _ _ _ _ _ _).bind fun _ h3 => .ok h3

theorem isend_dom {s : Sys} (h : Dom m s) (buf count dtype dest tag comm : Int) :
    (MPI_Isend env s buf count dtype dest tag comm).Post (fun r => Dom m r.1) := by
  unfold MPI_Isend
  refine (ptr_dom h comm).bind fun x1 h1 => .ite .abort ((allocReq_dom h1).bind fun x2 h2 => .ite ?_ ?_)
  · exact (modReq_dom h2 _ _).bind fun _ h3 => .ok h3
  · refine Post.bind_ fun c => Post.bind_ fun f => ?_
    cases f with
    | some item =>
      refine Post.bind (P := Dom m) ?_ fun _ h3 => .ok h3
      exact Post.bind_ fun _ => Post.bind_ fun l => Post.bind_ fun _ => Post.bind (copy_dom (s := { x2.1 with lists := l }) h2 _ _ _ _ _ _) fun _ h4 =>
        (modReq_dom h4 _ _).bind fun _ h5 => modReq_dom h5 _ _
    | none =>
      refine Post.bind (P := Dom m) ?_ fun _ h3 => .ok h3
      exact (modReq_dom h2 _ _).bind fun s3 h3 => Post.bind_ fun x => modReq_dom (s := { s3 with lists := x.1 }) h3 _ _

theorem irecv_dom {s : Sys} (h : Dom m s) (buf count dtype src tag comm : Int) :
    (MPI_Irecv env s buf count dtype src tag comm).Post (fun r => Dom m r.1) := by
  unfold MPI_Irecv
  refine (ptr_dom h comm).bind fun x1 h1 => .ite .abort ((allocReq_dom h1).bind fun x2 h2 =>
    (modReq_dom h2 _ _).bind fun s3 h3 => .ite ?_ ?_)
  · exact (modReq_dom h3 _ _).bind fun _ h3 => .ok h3
  · refine Post.bind_ fun c => Post.bind_ fun f => ?_
    cases f with
    | some item =>
      refine Post.bind (P := Dom m) ?_ fun _ h3 => .ok h3
      exact Post.bind_ fun _ => Post.bind_ fun l => Post.bind_ fun _ => Post.bind (copy_dom (s := { s3 with lists := l }) h3 _ _ _ _ _ _) fun _ h4 =>
        Post.bind_ fun _ => (modReq_dom h4 _ _).bind fun _ h5 => modReq_dom h5 _ _
    | none =>
      refine Post.bind (P := Dom m) ?_ fun _ h3 => .ok h3
      exact (modReq_dom h3 _ _).bind fun s3 h3 => Post.bind_ fun x => modReq_dom (s := { s3 with lists := x.1 }) h3 _ _

theorem test_dom {s : Sys} (h : Dom m s) (r : Int) (st : StPtr) : (MPI_Test s r st).Post (fun r => Dom m r.sys) := by
  unfold MPI_Test
  refine .ite (Post.bind_ fun _ => .ok h) ((ptr_dom h r).bind fun x h1 => Post.bind_ fun _ => .ite ?_ (.ok h1))
  exact Post.bind_ fun _ => Post.bind_ fun _ => .ok h1

theorem wait_dom {s : Sys} (h : Dom m s) (r : Int) (st : StPtr) : (MPI_Wait s r st).Post (fun r => Dom m r.1) :=
  (test_dom h r st).bind fun _ h1 => .ite .abort (.ok h1)

theorem send_dom {s : Sys} (h : Dom m s) (buf count dtype dest tag comm : Int) :
    (MPI_Send env s buf count dtype dest tag comm).Post (Dom m) :=
  (isend_dom h buf count dtype dest tag comm).bind fun _ h1 => (wait_dom h1 _ _).bind fun _ h2 => .ok h2

theorem iprobe_dom {s : Sys} (h : Dom m s) (src tag comm : Int) (st : StPtr) :
    (MPI_Iprobe s src tag comm st).Post (fun r => Dom m r.1) := by
  unfold MPI_Iprobe
  refine (ptr_dom h comm).bind fun x h1 => .ite .abort (Post.bind_ fun _ => Post.bind_ fun f => ?_)
  cases f with
  | none => exact .ok h1
  | some i => exact Post.bind_ fun _ => Post.bind_ fun _ => Post.bind_ fun _ => .ok h1

theorem testanyLoop_dom : ∀ (n i : Nat) (s : Sys) (rs : List Int) (st : StPtr), Dom m s →
    (testanyLoop n i s rs st).Post (fun r => Dom m r.1)
  | 0, _, _, _, _, h => .ok h
  | n + 1, i, s, rs, st, h => by
    rw [testanyLoop]
    exact Post.bind_ fun _ => (test_dom h _ _).bind fun r hr => .ite (.ok hr) (testanyLoop_dom n (i + 1) _ _ _ hr)

theorem testallLoop_dom : ∀ (n i : Nat) (s : Sys) (rs : List Int) (st : StArr) (f : Int), Dom m s →
    (testallLoop n i s rs st f).Post (fun r => Dom m r.1.sys)
  | 0, _, _, _, _, _, h => .ok h
  | n + 1, i, s, rs, st, f, h => by
    rw [testallLoop]
    exact Post.bind_ fun _ => Post.bind_ fun _ => (test_dom h _ _).bind fun r hr => testallLoop_dom n (i + 1) _ _ _ _ hr

theorem testsomeLoop_dom : ∀ (n i : Nat) (s : Sys) (rs : List Int) (st : StArr) (f : Int), Dom m s →
    (testsomeLoop n i s rs st f).Post (fun r => Dom m r.1.sys)
  | 0, _, _, _, _, _, h => .ok h
  | n + 1, i, s, rs, st, f, h => by
    rw [testsomeLoop]
    exact Post.bind_ fun _ => Post.bind_ fun _ => (test_dom h _ _).bind fun r hr => testsomeLoop_dom n (i + 1) _ _ _ _ hr

theorem waitallLoop_dom : ∀ (n i : Nat) (s : Sys) (rs : List Int) (st : StArr), Dom m s →
    (waitallLoop n i s rs st).Post (fun r => Dom m r.sys)
  | 0, _, _, _, _, h => .ok h
  | n + 1, i, s, rs, st, h => by
    rw [waitallLoop]
    exact Post.bind_ fun _ => Post.bind_ fun _ => (test_dom h _ _).bind fun r hr => .ite .abort (waitallLoop_dom n (i + 1) _ _ _ hr)

theorem newType_dom {s : Sys} (h : Dom m s) (build : Garbage → Res Typestruct) :
    (newType env s build).Post (fun r => Dom m r.1) :=
  Post.bind_ fun _ => Post.bind_ fun _ => .ok h

theorem structTypes_dom (olds : List Int) : ∀ (n i : Nat) (s : Sys), Dom m s →
    (structTypes env olds n i s).Post (fun r => Dom m r.1)
  | 0, _, _, h => .ok h
  | n + 1, i, s, h => by
    rw [structTypes]
    exact Post.bind_ fun _ => (typeOf_dom h _).bind fun r hr => (structTypes_dom olds n (i + 1) _ hr).bind fun _ h2 => .ok h2

theorem commNew_dom {s : Sys} (h : Dom m s) : (mpi_comm_new s).Post (fun r => Dom m r.1) :=
  Post.bind_ fun _ => Post.bind_ fun _ => Post.bind_ fun _ => Post.bind_ fun _ => .ok h

theorem extent_dom {s : Sys} (h : Dom m s) (t : Int) : (MPI_Type_extent env s t).Post (fun r => Dom m r.1) :=
  (typeOf_dom h t).bind fun _ h1 => Post.bind_ fun _ => .ok h1

theorem init_dom {s : Sys} (h : Dom m s) : (MPI_Init s).Post (Dom m) :=
  (commNew_dom h).bind fun _ h => .ite .abort (.ok h)

theorem fortChecks_dom {s : Sys} (h : Dom m s) (a : FortArgs) : (mpi_init_fort_checks env a s).Post (Dom m) := by
  have hv : ∀ {s : Sys} {name : String} {p q err : Int}, Dom m s → (verify_size env a name p q s err).Post (fun r => Dom m r.1) :=
    fun h => (typeOf_dom h _).bind fun _ h => Post.bind_ fun _ => Post.bind_ fun _ => .ok h
  exact Post.bind_ fun _ => Post.bind_ fun _ => Post.bind_ fun _ => (hv h).bind fun _ h => (hv h).bind fun _ h =>
    (hv h).bind fun _ h => (hv h).bind fun _ h => (hv h).bind fun _ h => .ite .abort (.ok h)

/-- No call makes memory accessible or inaccessible. -/
theorem Call.keeps_dom {s : Sys} (h : Dom m s) (c : Call) (hc : ∀ m', c ≠ .store m') : (c.exec env s).Post (Dom m) := by
  have hnew : ∀ {x : Int} {f : Typestruct → Garbage → Res Typestruct},
      (typeOf env s x >>= fun r => newType env r.1 (f r.2)).Post (fun r => Dom m r.1) := fun {x f} =>
    (typeOf_dom h x).bind fun _ h1 => newType_dom h1 _
  have hkeep : ∀ {α : Type} {x : Res (Sys × α)}, x.Post (fun r => Dom m r.1) → (x >>= fun r => Res.ok r.1).Post (Dom m) :=
    fun h => h.bind fun _ h => .ok h
  cases c with
  | store m' => exact absurd rfl (hc m')
  | init => exact init_dom h
  | initThread r => exact hkeep ((init_dom h).bind fun _ h => .ok h)
  | fortInit a => exact (init_dom h).bind fun _ h => fortChecks_dom h a
  | initialized => exact .ok h
  | finalize => exact .ok h
  | abort a b => exact fun _ h => by cases h
  | commDup a => exact hkeep (commNew_dom h)
  | commCreate a g => exact hkeep (.ite (.ok h) (commNew_dom h))
  | commSplit a c k => exact hkeep (.ite (.ok h) (commNew_dom h))
  | intercommCreate a b c d e => exact hkeep (.ite (.ok h) (commNew_dom h))
  | cartCreate a n d => exact hkeep (Post.bind_ fun _ => commNew_dom h)
  | commFree a =>
    exact hkeep ((ptr_dom h a).bind fun _ h => Post.bind_ fun _ => Post.bind_ fun _ => Post.bind_ fun _ => Post.bind_ fun _ =>
      Post.bind_ fun _ => Post.bind_ fun _ => .ok h)
  | isend a b c d e f => exact hkeep (isend_dom h _ _ _ _ _ _)
  | irsend a b c d e f =>
    exact hkeep ((isend_dom h _ _ _ _ _ _).bind fun _ h => (ptr_dom h _).bind fun _ h => Post.bind_ fun _ => .ite .abort (.ok h))
  | send a b c d e f => exact send_dom h _ _ _ _ _ _
  | irecv a b c d e f => exact hkeep (irecv_dom h _ _ _ _ _ _)
  | recv a b c d e f st =>
    refine hkeep ((irecv_dom h _ _ _ _ _ _).bind fun _ h => (wait_dom h _ _).bind fun x h => ?_)
    obtain ⟨x1, x2, x3⟩ := x
    cases x3
    · exact .ok h
    · exact .ok h
    · exact .ub
  | sendrecv a b c d e f g i j k l st =>
    exact hkeep ((irecv_dom h _ _ _ _ _ _).bind fun _ h => (send_dom h _ _ _ _ _ _).bind fun _ h => (wait_dom h _ _).bind fun _ h => .ok h)
  | iprobe a b c st => exact hkeep (iprobe_dom h _ _ _ _)
  | probe a b c st => exact hkeep ((iprobe_dom h _ _ _ _).bind fun _ h => .ite .abort (.ok h))
  | test r st => exact (test_dom h _ _).bind fun _ h => .ok h
  | wait r st => exact hkeep (wait_dom h _ _)
  | requestFree r => exact hkeep (Post.bind_ fun _ => .ok h)
  | testany n rs i st => exact hkeep ((testanyLoop_dom _ _ _ _ _ h).bind fun _ h => .ok h)
  | waitany n rs i st =>
    exact hkeep (Post.bind (P := fun r => Dom m r.1) ((testanyLoop_dom _ _ _ _ _ h).bind fun _ h => .ok h) fun _ h => .ite .abort (.ok h))
  | testall n rs sts => exact (testallLoop_dom _ _ _ _ _ _ h).bind fun _ h => .ok h
  | waitall n rs sts => exact (waitallLoop_dom _ _ _ _ _ h).bind fun _ h => .ok h
  | testsome n rs ix sts =>
    exact Post.bind (P := fun r => Dom m r.arr.sys) ((testsomeLoop_dom _ _ _ _ _ _ h).bind fun _ h => .ok h) fun _ h => .ok h
  | waitsome n rs ix sts =>
    exact Post.bind (P := fun r => Dom m r.arr.sys) ((testsomeLoop_dom _ _ _ _ _ _ h).bind fun _ h => .ok h) fun _ h => .ok h
  | typeContiguous n t => exact hkeep (hnew (f := fun t g => Type_contiguous env.cfg g n t))
  | typeHvector n b d t => exact hkeep (hnew (f := fun t g => Type_hvector env.cfg g n b d t))
  | typeVector n b d t => exact hkeep (hnew (f := fun t g => Type_vector env.cfg g n b d t))
  | typeHindexed n b d t => exact hkeep (hnew (f := fun t g => Type_hindexed env.cfg g n b d t))
  | typeIndexed n b d t => exact hkeep (hnew (f := fun t g => Type_indexed env.cfg g n b d t))
  | typeIndexedBlock n b d t => exact hkeep (hnew (f := fun t g => Type_create_indexed_block env.cfg g n b d t))
  | typeStruct n b d ts => exact hkeep (Post.bind_ fun _ => (structTypes_dom _ _ _ _ h).bind fun _ h => newType_dom h _)
  | typeCommit t =>
    refine (toType_dom h t).bind fun x h => Post.bind_ fun _ => ?_
    obtain ⟨x1, p⟩ := x
    cases p
    · exact .ok h
    · exact .ok h
    · exact .ok h
  | typeFree t =>
    refine (toType_dom h t).bind fun x h => ?_
    obtain ⟨x1, p⟩ := x
    refine Post.bind (P := Dom m) ?_ fun _ h => Post.bind_ fun _ => .ok h
    cases p with
    | null => exact .ok h
    | static k => exact .ub
    | heap q =>
      show (match x1.theap q with
        | some _ => Res.ok { x1 with theap := fun q' => if q' = q then none else x1.theap q' }
        | none => Res.ub UB.badFree).Post (Dom m)
      cases x1.theap q
      · exact .ub
      · exact .ok h
  | typeExtent t => exact hkeep (extent_dom h t)
  | typeSize t => exact hkeep ((typeOf_dom h t).bind fun _ h => Post.bind_ fun _ => .ok h)
  | typeLb t => exact hkeep ((typeOf_dom h t).bind fun _ h => .ok h)
  | typeUb t => exact hkeep ((typeOf_dom h t).bind fun _ h => .ok h)
  | getElements st t => exact hkeep ((typeOf_dom h t).bind fun _ h => Post.bind_ fun _ => .ok h)
  | pack a b t c d e comm =>
    exact hkeep ((typeOf_dom h t).bind fun _ h => (ptr_dom h _).bind fun _ h =>
      Post.bind (Post.bind_ fun _ => packLoop_dom _ _ _ _ _ _ _ _ (_, _) h) fun _ h => .ok h)
  | packSize n t comm => exact hkeep ((typeOf_dom h t).bind fun _ h => (ptr_dom h _).bind fun _ h => Post.bind_ fun _ => .ok h)
  | unpack a b c d e t comm =>
    exact hkeep ((typeOf_dom h t).bind fun _ h => (ptr_dom h _).bind fun _ h =>
      Post.bind (Post.bind_ fun _ => unpackLoop_dom _ _ _ _ _ _ _ _ (_, _) h) fun _ h => .ok h)
  | barrier c => exact .ok h
  | bcast a b c r d => exact .ite (.ok h) (.ite .abort (.ok h))
  | gather a b c d e f r comm => exact .ite (.ok h) (.ite (.ok h) (.ite .abort (copy_dom h _ _ _ _ _ _)))
  | gatherv a b c d e f g r comm =>
    exact .ite (.ok h) (.ite (.ok h) (.ite .abort ((extent_dom h _).bind fun _ h => Post.bind_ fun _ => Post.bind_ fun _ => copy_dom h _ _ _ _ _ _)))
  | allgather a b c d e f comm => exact .ite (.ok h) (copy_dom h _ _ _ _ _ _)
  | allgatherv a b c d e f g comm =>
    exact .ite (.ok h) ((extent_dom h _).bind fun _ h => Post.bind_ fun _ => Post.bind_ fun _ => copy_dom h _ _ _ _ _ _)
  | scatter a b c d e f r comm => exact .ite (.ok h) (.ite (.ok h) (.ite .abort (copy_dom h _ _ _ _ _ _)))
  | scatterv a b c d e f g r comm =>
    exact .ite (.ok h) (.ite (.ok h) (.ite .abort ((extent_dom h _).bind fun _ h => Post.bind_ fun _ => Post.bind_ fun _ => copy_dom h _ _ _ _ _ _)))
  | reduce a b n t op r comm => exact .ite .abort (copy_dom h _ _ _ _ _ _)
  | allreduce a b n t op comm => exact .ite (.ok h) (copy_dom h _ _ _ _ _ _)
  | reduceScatter a b n t op comm => exact Post.bind_ fun _ => copy_dom h _ _ _ _ _ _
  | scan a b n t op comm => exact copy_dom h _ _ _ _ _ _
  | alltoall a b c d e f comm => exact copy_dom h _ _ _ _ _ _
  | alltoallv a b c d e f g i comm =>
    exact (extent_dom h _).bind fun _ h => (extent_dom h _).bind fun _ h => Post.bind_ fun _ => Post.bind_ fun _ =>
      Post.bind_ fun _ => Post.bind_ fun _ => copy_dom h _ _ _ _ _ _
  | alltoallw a b c d e f g i comm =>
    exact Post.bind_ fun _ => Post.bind_ fun _ => Post.bind_ fun _ => Post.bind_ fun _ => Post.bind_ fun _ => Post.bind_ fun _ =>
      copy_dom h _ _ _ _ _ _

end

end MpiSerial
