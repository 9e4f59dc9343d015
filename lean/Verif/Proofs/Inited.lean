import Verif.Spec.Calls
import Verif.Proofs.Avoid

/-!
# Which calls change `initialized`
-/

set_option linter.unusedSimpArgs false
set_option autoImplicit false

namespace MpiSerial

/-- If `r` returns, its result satisfies `P`. -/
def Res.Post {α : Type} (P : α → Prop) (r : Res α) : Prop := ∀ a, r = .ok a → P a

namespace Res
variable {α β : Type} {P : α → Prop} {Q : β → Prop}

theorem Post.bind {x : Res α} {f : α → Res β} (h : x.Post P) (h2 : ∀ a, P a → (f a).Post Q) : (x >>= f).Post Q := by
  intro b hb
  rw [bind_eq_ok] at hb
  obtain ⟨a, h3, h4⟩ := hb
  exact h2 a (h a h3) b h4

/-- Binding something that does not touch the state. -/
theorem Post.bind_ {x : Res α} {f : α → Res β} (h2 : ∀ a, (f a).Post Q) : (x >>= f).Post Q :=
  Post.bind (P := fun _ => True) (fun _ _ => trivial) fun a _ => h2 a

theorem Post.ok {a : α} (h : P a) : (Res.ok a).Post P := fun b hb => by cases hb; exact h

theorem Post.pure {a : α} (h : P a) : (Pure.pure a : Res α).Post P := Post.ok h

theorem Post.ite {p : Prop} [Decidable p] {x y : Res α} (h1 : x.Post P) (h2 : y.Post P) : (if p then x else y).Post P := by
  split <;> assumption

theorem Post.abort {m : String} : (Res.abort m : Res α).Post P := fun _ h => by cases h
theorem Post.ub {u : UB} : (Res.ub u : Res α).Post P := fun _ h => by cases h

end Res

open Res (Post)

section
variable {env : Env} {b : Bool}

/-- `initialized` has the value `b`. -/
abbrev Ini (b : Bool) (s : Sys) : Prop := s.initialized = b

theorem ptr_ini {s : Sys} (h : Ini b s) (x : Int) : (s.ptr x).Post (fun r => Ini b r.1) :=
  Post.bind_ fun _ => .ok h

theorem modReq_ini {s : Sys} (h : Ini b s) (l : Loc) (f : ReqRec → ReqRec) : (s.modReq l f).Post (Ini b) :=
  Post.bind_ fun _ => .ok h

theorem allocReq_ini {s : Sys} (h : Ini b s) : (s.allocReq env).Post (fun r => Ini b r.1) :=
  Post.bind_ fun _ => .ok h

theorem toType_ini {s : Sys} (h : Ini b s) (x : Int) : (handleToDatatype s x).Post (fun r => Ini b r.1) := by
  unfold handleToDatatype
  refine .ite (Post.bind_ fun _ => .ok h) ((ptr_ini h x).bind fun r hr => ?_)
  obtain ⟨s1, p⟩ := r
  cases p with
  | none => exact .ub
  | some l =>
    refine Post.bind_ fun it => ?_
    split
    · exact .ok hr
    · exact .ub

theorem typeOf_ini {s : Sys} (h : Ini b s) (x : Int) : (typeOf env s x).Post (fun r => Ini b r.1) :=
  (toType_ini h x).bind fun _ hr => Post.bind_ fun _ => .ok hr

theorem copy_ini {s : Sys} (h : Ini b s) (p n a q k c : Int) : (copy_data2 env s p n a q k c).Post (Ini b) :=
  (toType_ini h a).bind fun _ h1 => (toType_ini h1 c).bind fun _ h2 =>
    Post.bind_ fun _ => Post.bind_ fun _ => Post.bind_ fun _ => .ok h2

theorem isend_ini {s : Sys} (h : Ini b s) (buf count dtype dest tag comm : Int) :
    (MPI_Isend env s buf count dtype dest tag comm).Post (fun r => Ini b r.1) := by
  unfold MPI_Isend
  refine (ptr_ini h comm).bind fun x1 h1 => .ite .abort ((allocReq_ini h1).bind fun x2 h2 => .ite ?_ ?_)
  · exact (modReq_ini h2 _ _).bind fun _ h3 => .ok h3
  · refine Post.bind_ fun c => Post.bind_ fun f => ?_
    cases f with
    | some item =>
      refine Post.bind (P := Ini b) ?_ fun _ h3 => .ok h3
      exact Post.bind_ fun _ => Post.bind_ fun l => Post.bind_ fun _ => Post.bind (copy_ini (s := { x2.1 with lists := l }) h2 _ _ _ _ _ _) fun _ h4 =>
        (modReq_ini h4 _ _).bind fun _ h5 => modReq_ini h5 _ _
    | none =>
      refine Post.bind (P := Ini b) ?_ fun _ h3 => .ok h3
      exact (modReq_ini h2 _ _).bind fun s3 h3 => Post.bind_ fun x => modReq_ini (s := { s3 with lists := x.1 }) h3 _ _

theorem irecv_ini {s : Sys} (h : Ini b s) (buf count dtype src tag comm : Int) :
    (MPI_Irecv env s buf count dtype src tag comm).Post (fun r => Ini b r.1) := by
  unfold MPI_Irecv
  refine (ptr_ini h comm).bind fun x1 h1 => .ite .abort ((allocReq_ini h1).bind fun x2 h2 =>
    (modReq_ini h2 _ _).bind fun s3 h3 => .ite ?_ ?_)
  · exact (modReq_ini h3 _ _).bind fun _ h3 => .ok h3
  · refine Post.bind_ fun c => Post.bind_ fun f => ?_
    cases f with
    | some item =>
      refine Post.bind (P := Ini b) ?_ fun _ h3 => .ok h3
      exact Post.bind_ fun _ => Post.bind_ fun l => Post.bind_ fun _ => Post.bind (copy_ini (s := { s3 with lists := l }) h3 _ _ _ _ _ _) fun _ h4 =>
        Post.bind_ fun _ => (modReq_ini h4 _ _).bind fun _ h5 => modReq_ini h5 _ _
    | none =>
      refine Post.bind (P := Ini b) ?_ fun _ h3 => .ok h3
      exact (modReq_ini h3 _ _).bind fun s3 h3 => Post.bind_ fun x => modReq_ini (s := { s3 with lists := x.1 }) h3 _ _

theorem test_ini {s : Sys} (h : Ini b s) (r : Int) (st : StPtr) : (MPI_Test s r st).Post (fun r => Ini b r.sys) := by
  unfold MPI_Test
  refine .ite (Post.bind_ fun _ => .ok h) ((ptr_ini h r).bind fun x h1 => Post.bind_ fun _ => .ite ?_ (.ok h1))
  exact Post.bind_ fun _ => Post.bind_ fun _ => .ok h1

theorem wait_ini {s : Sys} (h : Ini b s) (r : Int) (st : StPtr) : (MPI_Wait s r st).Post (fun r => Ini b r.1) :=
  (test_ini h r st).bind fun _ h1 => .ite .abort (.ok h1)

theorem send_ini {s : Sys} (h : Ini b s) (buf count dtype dest tag comm : Int) :
    (MPI_Send env s buf count dtype dest tag comm).Post (Ini b) :=
  (isend_ini h buf count dtype dest tag comm).bind fun _ h1 => (wait_ini h1 _ _).bind fun _ h2 => .ok h2

theorem iprobe_ini {s : Sys} (h : Ini b s) (src tag comm : Int) (st : StPtr) :
    (MPI_Iprobe s src tag comm st).Post (fun r => Ini b r.1) := by
  unfold MPI_Iprobe
  refine (ptr_ini h comm).bind fun x h1 => .ite .abort (Post.bind_ fun _ => Post.bind_ fun f => ?_)
  cases f with
  | none => exact .ok h1
  | some i => exact Post.bind_ fun _ => Post.bind_ fun _ => Post.bind_ fun _ => .ok h1

theorem testanyLoop_ini : ∀ (n i : Nat) (s : Sys) (rs : List Int) (st : StPtr), Ini b s →
    (testanyLoop n i s rs st).Post (fun r => Ini b r.1)
  | 0, _, _, _, _, h => .ok h
  | n + 1, i, s, rs, st, h => by
    rw [testanyLoop]
    exact Post.bind_ fun _ => (test_ini h _ _).bind fun r hr => .ite (.ok hr) (testanyLoop_ini n (i + 1) _ _ _ hr)

theorem testallLoop_ini : ∀ (n i : Nat) (s : Sys) (rs : List Int) (st : StArr) (f : Int), Ini b s →
    (testallLoop n i s rs st f).Post (fun r => Ini b r.1.sys)
  | 0, _, _, _, _, _, h => .ok h
  | n + 1, i, s, rs, st, f, h => by
    rw [testallLoop]
    exact Post.bind_ fun _ => Post.bind_ fun _ => (test_ini h _ _).bind fun r hr => testallLoop_ini n (i + 1) _ _ _ _ hr

theorem testsomeLoop_ini : ∀ (n i : Nat) (s : Sys) (rs : List Int) (st : StArr) (f : Int), Ini b s →
    (testsomeLoop n i s rs st f).Post (fun r => Ini b r.1.sys)
  | 0, _, _, _, _, _, h => .ok h
  | n + 1, i, s, rs, st, f, h => by
    rw [testsomeLoop]
    exact Post.bind_ fun _ => Post.bind_ fun _ => (test_ini h _ _).bind fun r hr => testsomeLoop_ini n (i + 1) _ _ _ _ hr

theorem waitallLoop_ini : ∀ (n i : Nat) (s : Sys) (rs : List Int) (st : StArr), Ini b s →
    (waitallLoop n i s rs st).Post (fun r => Ini b r.sys)
  | 0, _, _, _, _, h => .ok h
  | n + 1, i, s, rs, st, h => by
    rw [waitallLoop]
    exact Post.bind_ fun _ => Post.bind_ fun _ => (test_ini h _ _).bind fun r hr => .ite .abort (waitallLoop_ini n (i + 1) _ _ _ hr)

theorem newType_ini {s : Sys} (h : Ini b s) (build : Garbage → Res Typestruct) :
    (newType env s build).Post (fun r => Ini b r.1) :=
  Post.bind_ fun _ => Post.bind_ fun _ => .ok h

theorem structTypes_ini (olds : List Int) : ∀ (n i : Nat) (s : Sys), Ini b s →
    (structTypes env olds n i s).Post (fun r => Ini b r.1)
  | 0, _, _, h => .ok h
  | n + 1, i, s, h => by
    rw [structTypes]
    exact Post.bind_ fun _ => (typeOf_ini h _).bind fun r hr => (structTypes_ini olds n (i + 1) _ hr).bind fun _ h2 => .ok h2

theorem commNew_ini {s : Sys} (h : Ini b s) : (mpi_comm_new s).Post (fun r => Ini b r.1) :=
  Post.bind_ fun _ => Post.bind_ fun _ => Post.bind_ fun _ => Post.bind_ fun _ => .ok h

theorem extent_ini {s : Sys} (h : Ini b s) (t : Int) : (MPI_Type_extent env s t).Post (fun r => Ini b r.1) :=
  (typeOf_ini h t).bind fun _ h1 => Post.bind_ fun _ => .ok h1

/-- Every call other than initialisation and MPI_Finalize leaves the flag alone, whatever its arguments and
whatever the state. -/
theorem Call.keeps_ini {s : Sys} (h : Ini b s) (c : Call) (h1 : c.isInit = false) (h2 : c.isFinalize = false) :
    (c.exec env s).Post (Ini b) := by
  have hnew : ∀ {x : Int} {f : Typestruct → Garbage → Res Typestruct},
      (typeOf env s x >>= fun r => newType env r.1 (f r.2)).Post (fun r => Ini b r.1) := fun {x f} =>
    (typeOf_ini h x).bind fun _ h1 => newType_ini h1 _
  have hkeep : ∀ {α : Type} {x : Res (Sys × α)}, x.Post (fun r => Ini b r.1) → (x >>= fun r => Res.ok r.1).Post (Ini b) :=
    fun h => h.bind fun _ h => .ok h
  cases c with
  | store m => exact .ok h
  | init => cases h1
  | initThread r => cases h1
  | fortInit a => cases h1
  | initialized => exact .ok h
  | finalize => cases h2
  | abort a b => exact fun _ h => by cases h
  | commDup a => exact hkeep (commNew_ini h)
  | commCreate a g => exact hkeep (.ite (.ok h) (commNew_ini h))
  | commSplit a c k => exact hkeep (.ite (.ok h) (commNew_ini h))
  | intercommCreate a b c d e => exact hkeep (.ite (.ok h) (commNew_ini h))
  | cartCreate a n d => exact hkeep (Post.bind_ fun _ => commNew_ini h)
  | commFree a =>
    exact hkeep ((ptr_ini h a).bind fun _ h => Post.bind_ fun _ => Post.bind_ fun _ => Post.bind_ fun _ => Post.bind_ fun _ =>
      Post.bind_ fun _ => Post.bind_ fun _ => .ok h)
  | isend a b c d e f => exact hkeep (isend_ini h _ _ _ _ _ _)
  | irsend a b c d e f =>
    exact hkeep ((isend_ini h _ _ _ _ _ _).bind fun _ h => (ptr_ini h _).bind fun _ h => Post.bind_ fun _ => .ite .abort (.ok h))
  | send a b c d e f => exact send_ini h _ _ _ _ _ _
  | irecv a b c d e f => exact hkeep (irecv_ini h _ _ _ _ _ _)
  | recv a b c d e f st =>
    refine hkeep ((irecv_ini h _ _ _ _ _ _).bind fun _ h => (wait_ini h _ _).bind fun x h => ?_)
    obtain ⟨x1, x2, x3⟩ := x
    cases x3
    · exact .ok h
    · exact .ok h
    · exact .ub
  | sendrecv a b c d e f g i j k l st =>
    exact hkeep ((irecv_ini h _ _ _ _ _ _).bind fun _ h => (send_ini h _ _ _ _ _ _).bind fun _ h => (wait_ini h _ _).bind fun _ h => .ok h)
  | iprobe a b c st => exact hkeep (iprobe_ini h _ _ _ _)
  | probe a b c st => exact hkeep ((iprobe_ini h _ _ _ _).bind fun _ h => .ite .abort (.ok h))
  | test r st => exact (test_ini h _ _).bind fun _ h => .ok h
  | wait r st => exact hkeep (wait_ini h _ _)
  | requestFree r => exact hkeep (Post.bind_ fun _ => .ok h)
  | testany n rs i st => exact hkeep ((testanyLoop_ini _ _ _ _ _ h).bind fun _ h => .ok h)
  | waitany n rs i st =>
    exact hkeep (Post.bind (P := fun r => Ini b r.1) ((testanyLoop_ini _ _ _ _ _ h).bind fun _ h => .ok h) fun _ h => .ite .abort (.ok h))
  | testall n rs sts => exact (testallLoop_ini _ _ _ _ _ _ h).bind fun _ h => .ok h
  | waitall n rs sts => exact (waitallLoop_ini _ _ _ _ _ h).bind fun _ h => .ok h
  | testsome n rs ix sts =>
    exact Post.bind (P := fun r => Ini b r.arr.sys) ((testsomeLoop_ini _ _ _ _ _ _ h).bind fun _ h => .ok h) fun _ h => .ok h
  | waitsome n rs ix sts =>
    exact Post.bind (P := fun r => Ini b r.arr.sys) ((testsomeLoop_ini _ _ _ _ _ _ h).bind fun _ h => .ok h) fun _ h => .ok h
  | typeContiguous n t => exact hkeep (hnew (f := fun t g => Type_contiguous env.cfg g n t))
  | typeHvector n b d t => exact hkeep (hnew (f := fun t g => Type_hvector env.cfg g n b d t))
  | typeVector n b d t => exact hkeep (hnew (f := fun t g => Type_vector env.cfg g n b d t))
  | typeHindexed n b d t => exact hkeep (hnew (f := fun t g => Type_hindexed env.cfg g n b d t))
  | typeIndexed n b d t => exact hkeep (hnew (f := fun t g => Type_indexed env.cfg g n b d t))
  | typeIndexedBlock n b d t => exact hkeep (hnew (f := fun t g => Type_create_indexed_block env.cfg g n b d t))
  | typeStruct n b d ts => exact hkeep (Post.bind_ fun _ => (structTypes_ini _ _ _ _ h).bind fun _ h => newType_ini h _)
  | typeCommit t =>
    refine (toType_ini h t).bind fun x h => Post.bind_ fun _ => ?_
    obtain ⟨x1, p⟩ := x
    cases p
    · exact .ok h
    · exact .ok h
    · exact .ok h
  | typeFree t =>
    refine (toType_ini h t).bind fun x h => ?_
    obtain ⟨x1, p⟩ := x
    refine Post.bind (P := Ini b) ?_ fun _ h => Post.bind_ fun _ => .ok h
    cases p with
    | null => exact .ok h
    | static k => exact .ub
    | heap q =>
      show (match x1.theap q with
        | some _ => Res.ok { x1 with theap := fun q' => if q' = q then none else x1.theap q' }
        | none => Res.ub UB.badFree).Post (Ini b)
      cases x1.theap q
      · exact .ub
      · exact .ok h
  | typeExtent t => exact hkeep (extent_ini h t)
  | typeSize t => exact hkeep ((typeOf_ini h t).bind fun _ h => Post.bind_ fun _ => .ok h)
  | typeLb t => exact hkeep ((typeOf_ini h t).bind fun _ h => .ok h)
  | typeUb t => exact hkeep ((typeOf_ini h t).bind fun _ h => .ok h)
  | getElements st t => exact hkeep ((typeOf_ini h t).bind fun _ h => Post.bind_ fun _ => .ok h)
  | pack a b t c d e comm => exact hkeep ((typeOf_ini h t).bind fun _ h => (ptr_ini h _).bind fun _ h => Post.bind_ fun _ => .ok h)
  | packSize n t comm => exact hkeep ((typeOf_ini h t).bind fun _ h => (ptr_ini h _).bind fun _ h => Post.bind_ fun _ => .ok h)
  | unpack a b c d e t comm => exact hkeep ((typeOf_ini h t).bind fun _ h => (ptr_ini h _).bind fun _ h => Post.bind_ fun _ => .ok h)
  | barrier c => exact .ok h
  | bcast a b c r d => exact .ite (.ok h) (.ite .abort (.ok h))
  | gather a b c d e f r comm => exact .ite (.ok h) (.ite (.ok h) (.ite .abort (copy_ini h _ _ _ _ _ _)))
  | gatherv a b c d e f g r comm =>
    exact .ite (.ok h) (.ite (.ok h) (.ite .abort ((extent_ini h _).bind fun _ h => Post.bind_ fun _ => Post.bind_ fun _ => copy_ini h _ _ _ _ _ _)))
  | allgather a b c d e f comm => exact .ite (.ok h) (copy_ini h _ _ _ _ _ _)
  | allgatherv a b c d e f g comm =>
    exact .ite (.ok h) ((extent_ini h _).bind fun _ h => Post.bind_ fun _ => Post.bind_ fun _ => copy_ini h _ _ _ _ _ _)
  | scatter a b c d e f r comm => exact .ite (.ok h) (.ite (.ok h) (.ite .abort (copy_ini h _ _ _ _ _ _)))
  | scatterv a b c d e f g r comm =>
    exact .ite (.ok h) (.ite (.ok h) (.ite .abort ((extent_ini h _).bind fun _ h => Post.bind_ fun _ => Post.bind_ fun _ => copy_ini h _ _ _ _ _ _)))
  | reduce a b n t op r comm => exact .ite .abort (copy_ini h _ _ _ _ _ _)
  | allreduce a b n t op comm => exact .ite (.ok h) (copy_ini h _ _ _ _ _ _)
  | reduceScatter a b n t op comm => exact Post.bind_ fun _ => copy_ini h _ _ _ _ _ _
  | scan a b n t op comm => exact copy_ini h _ _ _ _ _ _
  | alltoall a b c d e f comm => exact copy_ini h _ _ _ _ _ _
  | alltoallv a b c d e f g i comm =>
    exact (extent_ini h _).bind fun _ h => (extent_ini h _).bind fun _ h => Post.bind_ fun _ => Post.bind_ fun _ =>
      Post.bind_ fun _ => Post.bind_ fun _ => copy_ini h _ _ _ _ _ _
  | alltoallw a b c d e f g i comm =>
    exact Post.bind_ fun _ => Post.bind_ fun _ => Post.bind_ fun _ => Post.bind_ fun _ => Post.bind_ fun _ => Post.bind_ fun _ =>
      copy_ini h _ _ _ _ _ _

theorem init_ini (s : Sys) : (MPI_Init s).Post (Ini true) :=
  Post.bind_ fun _ => .ite .abort (.ok rfl)

theorem fortChecks_ini {s : Sys} (h : Ini b s) (a : FortArgs) : (mpi_init_fort_checks env a s).Post (Ini b) := by
  have hv : ∀ {s : Sys} {name : String} {p q err : Int}, Ini b s → (verify_size env a name p q s err).Post (fun r => Ini b r.1) :=
    fun h => (typeOf_ini h _).bind fun _ h => Post.bind_ fun _ => Post.bind_ fun _ => .ok h
  exact Post.bind_ fun _ => Post.bind_ fun _ => Post.bind_ fun _ => (hv h).bind fun _ h => (hv h).bind fun _ h =>
    (hv h).bind fun _ h => (hv h).bind fun _ h => (hv h).bind fun _ h => .ite .abort (.ok h)

theorem Call.init_ini {s : Sys} (c : Call) (h1 : c.isInit = true) : (c.exec env s).Post (Ini true) := by
  cases c with
  | init => exact MpiSerial.init_ini s
  | initThread r =>
    exact Post.bind (P := fun r => Ini true r.1) ((MpiSerial.init_ini s).bind fun _ h => .ok h) fun _ h => .ok h
  | fortInit a => exact (MpiSerial.init_ini s).bind fun _ h => fortChecks_ini h a
  | _ => cases h1

/-- The flag after a list of calls. -/
theorem execAll_ini : ∀ (cs : List Call) {s s' : Sys}, execAll env cs s = .ok s' →
    (s'.initialized = true ↔ StillInitialized cs ∨ (s.initialized = true ∧ ∀ d ∈ cs, d.isFinalize = false)) := by
  intro cs
  induction cs with
  | nil =>
    intro s s' h
    cases h
    simp [StillInitialized]
  | cons c cs ih =>
    intro s s' h
    rw [execAll, Res.bind_eq_ok] at h
    obtain ⟨s1, h1, h2⟩ := h
    rw [ih h2]
    have hsplit : StillInitialized (c :: cs) ↔ (c.isInit = true ∧ ∀ d ∈ cs, d.isFinalize = false) ∨ StillInitialized cs := by
      constructor
      · rintro ⟨pre, d, post, he, hd, hp⟩
        cases pre with
        | nil => simp at he; obtain ⟨rfl, rfl⟩ := he; exact Or.inl ⟨hd, hp⟩
        | cons x pre => simp at he; obtain ⟨rfl, rfl⟩ := he; exact Or.inr ⟨pre, d, post, rfl, hd, hp⟩
      · rintro (⟨hd, hp⟩ | ⟨pre, d, post, rfl, hd, hp⟩)
        · exact ⟨[], c, cs, rfl, hd, hp⟩
        · exact ⟨c :: pre, d, post, rfl, hd, hp⟩
    rw [hsplit, List.forall_mem_cons]
    by_cases hi : c.isInit = true
    · have h3 : s1.initialized = true := Call.init_ini c hi s1 h1
      have h4 : c.isFinalize = false := by cases c <;> first | rfl | cases hi
      simp [h3, hi, h4]
      constructor
      · rintro (h | h)
        · exact Or.inl (Or.inr h)
        · exact Or.inl (Or.inl h)
      · rintro ((h | h) | h)
        · exact Or.inr h
        · exact Or.inl h
        · exact Or.inr h.2
    · by_cases hf : c.isFinalize = true
      · have h3 : s1.initialized = false := by
          cases c <;> first | cases hf | skip
          cases h1
          rfl
        simp [h3, hi, hf]
      · have h3 := Call.keeps_ini (env := env) (s := s) rfl c (by simpa using hi) (by simpa using hf) s1 h1
        simp only [Ini] at h3
        simp [h3, hi, hf]

end

end MpiSerial
