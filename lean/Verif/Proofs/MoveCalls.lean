import Verif.Proofs.Move

/-!
# C84: every call
-/

set_option autoImplicit false
set_option linter.unusedSimpArgs false

namespace MpiSerial

open Moving (move fits)

variable {δ : Int}

/-! ## The state of the library -/

theorem Sys.moved_eq (s : Sys) : s.moved δ = { s with handles := s.handles.mapData (Slot.moved δ), mem := s.mem.moved δ } := rfl

@[simp] theorem moved_handles (s : Sys) : (s.moved δ).handles = s.handles.mapData (Slot.moved δ) := rfl
@[simp] theorem moved_lists (s : Sys) : (s.moved δ).lists = s.lists := rfl
@[simp] theorem moved_theap (s : Sys) : (s.moved δ).theap = s.theap := rfl
@[simp] theorem moved_nextType (s : Sys) : (s.moved δ).nextType = s.nextType := rfl
@[simp] theorem moved_num (s : Sys) : (s.moved δ).num = s.num := rfl
@[simp] theorem moved_clock (s : Sys) : (s.moved δ).clock = s.clock := rfl
@[simp] theorem moved_mem (s : Sys) : (s.moved δ).mem = s.mem.moved δ := rfl
@[simp] theorem moved_cfg (env : Env) : (env.moved δ).cfg = env.cfg := rfl
@[simp] theorem moved_garbage (env : Env) : (env.moved δ).garbage = env.garbage := rfl

@[simp] theorem moved_comm (s : Sys) (p : Option Loc) : (s.moved δ).comm p = s.comm p := by
  cases p with
  | none => rfl
  | some l =>
    show (s.handles.mapData (Slot.moved δ)).deref l >>= _ = s.handles.deref l >>= _
    rw [mapData_deref, bind_assoc]
    refine bind_congr fun it => ?_
    rw [Res.ok_bind]
    unfold Item.mapData
    cases it.data <;> rfl

theorem moved_req (s : Sys) (p : Option Loc) : (s.moved δ).req p = s.req p >>= fun r => .ok (r.moved δ) := by
  cases p with
  | none => rfl
  | some l =>
    show (s.handles.mapData (Slot.moved δ)).deref l >>= _ = (s.handles.deref l >>= _) >>= _
    rw [mapData_deref, bind_assoc, bind_assoc]
    refine bind_congr fun it => ?_
    rw [Res.ok_bind]
    unfold Item.mapData
    cases it.data <;> rfl

@[simp] theorem moved_derefType (env : Env) (s : Sys) (p : TPtr) :
    derefType (env.moved δ) (s.moved δ) p = derefType env s p := by cases p <;> rfl

@[simp] theorem moved_match_recv (s : Sys) (tag : Int) : mpi_match_recv (s.moved δ) tag = mpi_match_recv s tag := by
  funext r; unfold mpi_match_recv; rw [moved_req, bind_assoc]; rfl

@[simp] theorem moved_match_send (s : Sys) (tag : Int) : mpi_match_send (s.moved δ) tag = mpi_match_send s tag := by
  funext r; unfold mpi_match_send; rw [moved_req, bind_assoc]; rfl

theorem ptr_movesTo {s : Sys} (hs : s.mem.Fits δ) (h : Int) : MovesTo δ (s.ptr h) ((s.moved δ).ptr h) := by
  unfold Sys.ptr
  refine .read (h := fun x => (x.1.mapData (Slot.moved δ), x.2)) (mapData_ptr _ _ _) fun x => ?_
  exact .ret (a := ({ s with handles := x.1 }, x.2)) hs

theorem modReq_movesTo {s : Sys} (hs : s.mem.Fits δ) (l : Loc) {f f' : ReqRec → ReqRec}
    (hf : ∀ r, f' (r.moved δ) = (f r).moved δ) : MovesTo δ (s.modReq l f) ((s.moved δ).modReq l f') := by
  unfold Sys.modReq
  refine .read (moved_req s _) fun r => .ret (a := { s with handles := s.handles.setData l (.req (f r)) }) hs ?_
  rw [hf]
  exact congrArg (fun t => Res.ok ({ s with handles := t, mem := s.mem.moved δ } : Sys))
    (mapData_setData (Slot.moved δ) s.handles l (.req (f r))).symm

theorem allocReq_movesTo (env : Env) {s : Sys} (hs : s.mem.Fits δ) : MovesTo δ (s.allocReq env) ((s.moved δ).allocReq (env.moved δ)) := by
  unfold Sys.allocReq
  refine .read (h := fun x => (x.1.mapData (Slot.moved δ), x.2)) (mapData_alloc (Slot.moved δ) _ Slot.raw) fun x => ?_
  refine .ret (a := ({ s with
      handles := x.1.setData x.2.2 (.req (match (x.1.items x.2.2).data with | .req r => r | _ => env.junk s.clock)),
      clock := s.clock + 1 }, x.2.1, x.2.2)) hs ?_
  have h1 : ∀ d : Slot, Slot.req (match d.moved δ with | .req r => r | _ => (env.moved δ).junk s.clock)
      = Slot.moved δ (.req (match d with | .req r => r | _ => env.junk s.clock)) := by intro d; cases d <;> rfl
  have h2 := mapData_setData (Slot.moved δ) x.1 x.2.2
    (.req (match (x.1.items x.2.2).data with | .req r => r | _ => env.junk s.clock))
  rw [← h1] at h2
  exact congrArg (fun t => Res.ok (({ s with handles := t, mem := s.mem.moved δ, clock := s.clock + 1 } : Sys), x.2.1, x.2.2)) h2.symm

theorem handleToDatatype_movesTo {s : Sys} (hs : s.mem.Fits δ) (h : Int) :
    MovesTo δ (handleToDatatype s h) (handleToDatatype (s.moved δ) h) := by
  unfold handleToDatatype
  refine .ite Iff.rfl (.skip fun p => .ret (a := (s, p)) hs) (.bind (ptr_movesTo hs h) ?_)
  rintro ⟨s, p⟩ hs
  cases p with
  | none => exact .ub
  | some l =>
    refine .read (mapData_deref (Slot.moved δ) s.handles l) fun it => ?_
    show MovesTo δ (match it.data with | .dtype p => Res.ok (s, p) | _ => .ub .kind)
      (match it.data.moved δ with | .dtype p => Res.ok (s.moved δ, p) | _ => .ub .kind)
    cases it.data with
    | dtype p => exact .ret (a := (s, p)) hs
    | _ => exact .ub

theorem typeOf_movesTo (env : Env) {s : Sys} (hs : s.mem.Fits δ) (h : Int) :
    MovesTo δ (typeOf env s h) (typeOf (env.moved δ) (s.moved δ) h) := by
  unfold typeOf
  refine .bind (handleToDatatype_movesTo hs h) ?_
  rintro ⟨s, p⟩ hs
  show MovesTo δ (derefType env s p >>= _) (derefType (env.moved δ) (s.moved δ) p >>= _)
  rw [moved_derefType]
  exact .skip fun t => .ret (a := (s, t)) hs

/-- Reading a datatype and then doing something with it. -/
theorem typeOf_moved {A : Type} [Moving A] (env : Env) {s : Sys} (hs : s.mem.Fits δ) (h : Int) {g g' : Sys × Typestruct → Res A}
    (k : ∀ (s : Sys) t, s.mem.Fits δ → MovesTo δ (g (s, t)) (g' (s.moved δ, t))) :
    MovesTo δ (typeOf env s h >>= g) (typeOf (env.moved δ) (s.moved δ) h >>= g') :=
  .bind (typeOf_movesTo env hs h) fun x hx => k x.1 x.2 hx

theorem newType_movesTo (env : Env) {s : Sys} (hs : s.mem.Fits δ) (build : Garbage → Res Typestruct) :
    MovesTo δ (newType env s build) (newType (env.moved δ) (s.moved δ) build) := by
  unfold newType
  refine .read (h := fun x => (x.1.mapData (Slot.moved δ), x.2)) (mapData_alloc (Slot.moved δ) _ Slot.raw) fun x => ?_
  rw [moved_garbage, moved_nextType]
  refine .skip fun ty => .ret (a := ({ s with
      handles := x.1.setData x.2.2 (.dtype (.heap s.nextType)),
      theap := fun q => if q = s.nextType then some ty else s.theap q, nextType := s.nextType + 1 }, x.2.1)) hs ?_
  exact congrArg (fun t => Res.ok (({ s with
      handles := t, mem := s.mem.moved δ
      theap := fun q => if q = s.nextType then some ty else s.theap q, nextType := s.nextType + 1 } : Sys), x.2.1))
    (mapData_setData (Slot.moved δ) x.1 x.2.2 (.dtype (.heap s.nextType))).symm

theorem structTypes_movesTo (env : Env) (olds : List Int) (n : Nat) : ∀ i (s : Sys), s.mem.Fits δ →
    MovesTo δ (structTypes env olds n i s) (structTypes (env.moved δ) olds n i (s.moved δ)) := by
  induction n with
  | zero => intro i s hs; exact .ret (a := (s, [])) hs
  | succ n ih =>
    intro i s hs
    unfold structTypes
    refine .skip fun h => typeOf_moved env hs h fun s t hs => .bind (ih (i + 1) s hs) ?_
    rintro ⟨s, ts⟩ hs
    exact .ret (a := (s, t :: ts)) hs

theorem Type_struct_movesTo (env : Env) {s : Sys} (hs : s.mem.Fits δ) (count : Int) (b ds o : List Int) :
    MovesTo δ (MPI_Type_struct env s count b ds o) (MPI_Type_struct (env.moved δ) (s.moved δ) count b ds o) := by
  unfold MPI_Type_struct
  refine .skip fun n => .bind (structTypes_movesTo env o n 0 s hs) ?_
  rintro ⟨s, ts⟩ hs
  exact newType_movesTo env hs _

theorem Type_commit_movesTo (env : Env) {s : Sys} (hs : s.mem.Fits δ) (h : Int) :
    MovesTo δ (MPI_Type_commit env s h) (MPI_Type_commit (env.moved δ) (s.moved δ) h) := by
  unfold MPI_Type_commit
  refine .bind (handleToDatatype_movesTo hs h) ?_
  rintro ⟨s, p⟩ hs
  show MovesTo δ (derefType env s p >>= _) (derefType (env.moved δ) (s.moved δ) p >>= _)
  rw [moved_derefType]
  refine .skip fun t => ?_
  cases p with
  | heap q => exact .ret (a := { s with theap := fun q' => if q' = q then some { t with committed := 1 } else s.theap q' }) hs
  | _ => exact .ret (a := s) hs

theorem freeType_movesTo {s : Sys} (hs : s.mem.Fits δ) (p : TPtr) : MovesTo δ (freeType s p) (freeType (s.moved δ) p) := by
  unfold freeType
  cases p with
  | null => exact .ret (a := s) hs
  | static k => exact .ub
  | heap q =>
    rw [moved_theap]
    dsimp only
    cases s.theap q with
    | none => exact .ub
    | some t => exact .ret (a := { s with theap := fun q' => if q' = q then none else s.theap q' }) hs

/-- Releasing a handle. -/
theorem free_movesTo {A : Type} [Moving A] {s : Sys} (h : Int) {g g' : HTab Slot → Res A}
    (k : ∀ t, MovesTo δ (g t) (g' (t.mapData (Slot.moved δ)))) :
    MovesTo δ (mpi_free_handle s.handles h >>= g) (mpi_free_handle (s.moved δ).handles h >>= g') :=
  .read (mapData_free (Slot.moved δ) s.handles h) k

theorem Type_free_movesTo {s : Sys} (hs : s.mem.Fits δ) (h : Int) : MovesTo δ (MPI_Type_free s h) (MPI_Type_free (s.moved δ) h) := by
  unfold MPI_Type_free
  refine .bind (handleToDatatype_movesTo hs h) ?_
  rintro ⟨s, p⟩ hs
  exact .bind (freeType_movesTo hs p) fun s hs => free_movesTo h fun t => .ret (a := { s with handles := t }) hs

theorem Type_extent_movesTo (env : Env) {s : Sys} (hs : s.mem.Fits δ) (h : Int) :
    MovesTo δ (MPI_Type_extent env s h) (MPI_Type_extent (env.moved δ) (s.moved δ) h) :=
  typeOf_moved env hs h fun s _ hs => .skip fun x => .ret (a := (s, x)) hs

theorem copy_data2_movesTo (env : Env) {s : Sys} (hs : s.mem.Fits δ) {a a' : Int} (ha : Shifted δ a a') (b c : Int) {x x' : Int}
    (hx : Shifted δ x x') (y z : Int) :
    MovesTo δ (copy_data2 env s a b c x y z) (copy_data2 (env.moved δ) (s.moved δ) a' b c x' y z) := by
  unfold copy_data2
  refine .bind (handleToDatatype_movesTo hs c) ?_
  rintro ⟨s, p⟩ hs
  refine .bind (handleToDatatype_movesTo hs z) ?_
  rintro ⟨s, q⟩ hs
  show MovesTo δ (derefType env s p >>= _) (derefType (env.moved δ) (s.moved δ) p >>= _)
  rw [moved_derefType]
  refine .skip fun t => ?_
  show MovesTo δ (derefType env s q >>= _) (derefType (env.moved δ) (s.moved δ) q >>= _)
  rw [moved_derefType]
  refine .skip fun t' => ?_
  exact .bind (Pcopy_data2_movesTo env.cfg hs ha b t hx y t') fun m hm => .ret (a := { s with mem := m }) hm

theorem Pack_sys_movesTo (env : Env) {s : Sys} (hs : s.mem.Fits δ) (a b t x y z comm : Int) :
    MovesTo δ (MPI_Pack env s a b t x y z comm) (MPI_Pack (env.moved δ) (s.moved δ) (a + δ) b t (x + δ) y z comm) := by
  unfold MPI_Pack
  refine typeOf_moved env hs t fun s ty hs => .bind (ptr_movesTo hs comm) ?_
  rintro ⟨s, p⟩ hs
  exact .bind (Pack_movesTo env.cfg hs a b ty x y z) fun r hr => .ret (a := ({ s with mem := r.1 }, r.2)) hr

theorem Unpack_sys_movesTo (env : Env) {s : Sys} (hs : s.mem.Fits δ) (a b c x y t comm : Int) :
    MovesTo δ (MPI_Unpack env s a b c x y t comm) (MPI_Unpack (env.moved δ) (s.moved δ) (a + δ) b c (x + δ) y t comm) := by
  unfold MPI_Unpack
  refine typeOf_moved env hs t fun s ty hs => .bind (ptr_movesTo hs comm) ?_
  rintro ⟨s, p⟩ hs
  exact .bind (Unpack_movesTo env.cfg hs a b c x y ty) fun r hr => .ret (a := ({ s with mem := r.1 }, r.2)) hr

theorem comm_new_movesTo {s : Sys} (hs : s.mem.Fits δ) : MovesTo δ (mpi_comm_new s) (mpi_comm_new (s.moved δ)) := by
  unfold mpi_comm_new
  refine .read (h := fun x => (x.1.mapData (Slot.moved δ), x.2)) (mapData_alloc (Slot.moved δ) _ Slot.raw) fun x => ?_
  rw [moved_lists, moved_num]
  refine .skip fun y => .skip fun z => .skip fun n => ?_
  refine .ret (a := ({ s with handles := x.1.setData x.2.2 (.comm ⟨y.2, z.2, s.num⟩), lists := z.1, num := n }, x.2.1)) hs ?_
  exact congrArg (fun t => Res.ok (({ s with handles := t, mem := s.mem.moved δ, lists := z.1, num := n } : Sys), x.2.1))
    (mapData_setData (Slot.moved δ) x.1 x.2.2 (.comm ⟨y.2, z.2, s.num⟩)).symm

theorem Comm_free_movesTo {s : Sys} (hs : s.mem.Fits δ) (c : Int) : MovesTo δ (MPI_Comm_free s c) (MPI_Comm_free (s.moved δ) c) := by
  unfold MPI_Comm_free
  refine .bind (ptr_movesTo hs c) ?_
  rintro ⟨s, p⟩ hs
  show MovesTo δ (s.comm p >>= _) ((s.moved δ).comm p >>= _)
  rw [moved_comm]
  refine .skip fun c => .skip fun _ => .skip fun h => .skip fun _ => .skip fun h' => free_movesTo _ fun t => ?_
  exact .ret (a := ({ s with lists := h', handles := t }, MPI_COMM_NULL)) hs

theorem Init_movesTo {s : Sys} (hs : s.mem.Fits δ) : MovesTo δ (MPI_Init s) (MPI_Init (s.moved δ)) := by
  unfold MPI_Init
  refine .bind (comm_new_movesTo hs) ?_
  rintro ⟨s, c⟩ hs
  exact .ite Iff.rfl .abort (.ret (a := { s with initialized := true }) hs)

theorem verify_size_movesTo (env : Env) (a : FortArgs) (name : String) (p q : Int) {s : Sys} (hs : s.mem.Fits δ) (err : Int) :
    MovesTo δ (verify_size env a name p q s err) (verify_size (env.moved δ) (a.moved δ) name (p + δ) (q + δ) (s.moved δ) err) := by
  unfold verify_size
  refine typeOf_moved env hs _ fun s t hs => .skip fun x => .skip fun len =>
    .ret (a := (s, if s32 (s64 (q - p)) ≠ len then 1 else err)) hs ?_
  rw [show q + δ - (p + δ) = q - p by omega]
  rfl

theorem init_fort_movesTo (env : Env) (a : FortArgs) {s : Sys} (hs : s.mem.Fits δ) :
    MovesTo δ (mpi_init_fort env a s) (mpi_init_fort (env.moved δ) (a.moved δ) (s.moved δ)) := by
  unfold mpi_init_fort
  refine .bind (Init_movesTo hs) fun s hs => ?_
  unfold mpi_init_fort_checks
  refine .skip fun _ => .skip fun _ => .skip fun _ => ?_
  refine .bind (verify_size_movesTo env a _ _ _ hs _) ?_
  rintro ⟨s, _⟩ hs
  refine .bind (verify_size_movesTo env a _ _ _ hs _) ?_
  rintro ⟨s, _⟩ hs
  refine .bind (verify_size_movesTo env a _ _ _ hs _) ?_
  rintro ⟨s, _⟩ hs
  refine .bind (verify_size_movesTo env a _ _ _ hs _) ?_
  rintro ⟨s, _⟩ hs
  refine .bind (verify_size_movesTo env a _ _ _ hs _) ?_
  rintro ⟨s, _⟩ hs
  exact .ite Iff.rfl .abort (.ret (a := s) hs)

/-! ## Messages -/

theorem sendMatched_movesTo (env : Env) {s : Sys} (hs : s.mem.Fits δ) (buf count dt tag : Int) (rl item : Nat) (l : Loc) :
    MovesTo δ (sendMatched env s buf count dt tag rl item l)
      (sendMatched (env.moved δ) (s.moved δ) (buf + δ) count dt tag rl item l) := by
  unfold sendMatched
  rw [moved_lists]
  refine .skip fun r => .skip fun lists => ?_
  refine .read (moved_req { s with lists := lists } (some r)) fun q => ?_
  refine .bind (copy_data2_movesTo env (s := { s with lists := lists }) hs (Shifted.add δ buf) count dt (Shifted.add δ q.buf) q.count q.type)
    fun s hs => .bind (modReq_movesTo hs r fun _ => rfl) fun s hs => modReq_movesTo hs l fun _ => rfl

theorem recvMatched_movesTo (env : Env) {s : Sys} (hs : s.mem.Fits δ) (buf count dt : Int) (rl item : Nat) (l : Loc) :
    MovesTo δ (recvMatched env s buf count dt rl item l) (recvMatched (env.moved δ) (s.moved δ) (buf + δ) count dt rl item l) := by
  unfold recvMatched
  rw [moved_lists]
  refine .skip fun r => .skip fun lists => ?_
  refine .read (moved_req { s with lists := lists } (some r)) fun q => ?_
  refine .bind (copy_data2_movesTo env (s := { s with lists := lists }) hs (Shifted.add δ q.buf) count dt (Shifted.add δ buf) count dt)
    fun s hs => .read (moved_req s (some r)) fun q => .bind (modReq_movesTo hs l fun _ => rfl) fun s hs => modReq_movesTo hs r fun _ => rfl

theorem sendQueued_movesTo {s : Sys} (hs : s.mem.Fits δ) (buf tag : Int) (sl : Nat) (l : Loc) :
    MovesTo δ (sendQueued s buf tag sl l) (sendQueued (s.moved δ) (buf + δ) tag sl l) := by
  unfold sendQueued
  refine .bind (modReq_movesTo hs l fun _ => rfl) fun s hs => ?_
  show MovesTo δ (AP_list_append s.lists sl l >>= _) (AP_list_append (s.moved δ).lists sl l >>= _)
  rw [moved_lists]
  exact .skip fun x => modReq_movesTo (s := { s with lists := x.1 }) hs l fun _ => rfl

theorem recvQueued_movesTo {s : Sys} (hs : s.mem.Fits δ) (buf tag : Int) (sl : Nat) (l : Loc) :
    MovesTo δ (recvQueued s buf tag sl l) (recvQueued (s.moved δ) (buf + δ) tag sl l) := by
  unfold recvQueued
  refine .bind (modReq_movesTo hs l fun _ => rfl) fun s hs => ?_
  show MovesTo δ (AP_list_append s.lists sl l >>= _) (AP_list_append (s.moved δ).lists sl l >>= _)
  rw [moved_lists]
  exact .skip fun x => modReq_movesTo (s := { s with lists := x.1 }) hs l fun _ => rfl

theorem Isend_movesTo (env : Env) {s : Sys} (hs : s.mem.Fits δ) (buf count dt dest tag comm : Int) :
    MovesTo δ (MPI_Isend env s buf count dt dest tag comm) (MPI_Isend (env.moved δ) (s.moved δ) (buf + δ) count dt dest tag comm) := by
  unfold MPI_Isend
  refine .bind (ptr_movesTo hs comm) ?_
  rintro ⟨s, p⟩ hs
  refine .ite Iff.rfl .abort (.bind (allocReq_movesTo env hs) ?_)
  rintro ⟨s, h, l⟩ hs
  refine .ite Iff.rfl (.bind (modReq_movesTo hs l fun _ => rfl) fun s hs => .ret (a := (s, h)) hs) ?_
  show MovesTo δ (s.comm p >>= _) ((s.moved δ).comm p >>= _)
  rw [moved_comm]
  refine .skip fun c => ?_
  show MovesTo δ (AP_list_search_func s.lists c.recvlist (mpi_match_recv s tag) >>= _)
    (AP_list_search_func (s.moved δ).lists c.recvlist (mpi_match_recv (s.moved δ) tag) >>= _)
  rw [moved_lists, moved_match_recv]
  refine .skip fun found => ?_
  cases found with
  | none => exact .bind (sendQueued_movesTo hs ..) fun s hs => .ret (a := (s, h)) hs
  | some item => exact .bind (sendMatched_movesTo env hs ..) fun s hs => .ret (a := (s, h)) hs

theorem Irecv_movesTo (env : Env) {s : Sys} (hs : s.mem.Fits δ) (buf count dt src tag comm : Int) :
    MovesTo δ (MPI_Irecv env s buf count dt src tag comm) (MPI_Irecv (env.moved δ) (s.moved δ) (buf + δ) count dt src tag comm) := by
  unfold MPI_Irecv
  refine .bind (ptr_movesTo hs comm) ?_
  rintro ⟨s, p⟩ hs
  refine .ite Iff.rfl .abort (.bind (allocReq_movesTo env hs) ?_)
  rintro ⟨s, h, l⟩ hs
  refine .bind (modReq_movesTo hs l fun _ => rfl) fun s hs =>
    .ite Iff.rfl (.bind (modReq_movesTo hs l fun _ => rfl) fun s hs => .ret (a := (s, h)) hs) ?_
  show MovesTo δ (s.comm p >>= _) ((s.moved δ).comm p >>= _)
  rw [moved_comm]
  refine .skip fun c => ?_
  show MovesTo δ (AP_list_search_func s.lists c.sendlist (mpi_match_send s tag) >>= _)
    (AP_list_search_func (s.moved δ).lists c.sendlist (mpi_match_send (s.moved δ) tag) >>= _)
  rw [moved_lists, moved_match_send]
  refine .skip fun found => ?_
  cases found with
  | none => exact .bind (recvQueued_movesTo hs ..) fun s hs => .ret (a := (s, h)) hs
  | some item => exact .bind (recvMatched_movesTo env hs ..) fun s hs => .ret (a := (s, h)) hs

theorem Test_movesTo {s : Sys} (hs : s.mem.Fits δ) (r : Int) (st : StPtr) : MovesTo δ (MPI_Test s r st) (MPI_Test (s.moved δ) r st) := by
  unfold MPI_Test
  refine .ite Iff.rfl (.skip fun st => .ret (a := (⟨s, r, 1, st⟩ : TestRes)) hs) (.bind (ptr_movesTo hs r) ?_)
  rintro ⟨s, p⟩ hs
  refine .read (moved_req s p) fun q => .ite Iff.rfl (.skip fun st => free_movesTo r fun t => ?_)
    (.ret (a := (⟨s, r, q.complete, st⟩ : TestRes)) hs)
  exact .ret (a := (⟨{ s with handles := t }, MPI_REQUEST_NULL, q.complete, st⟩ : TestRes)) hs

theorem Wait_movesTo {s : Sys} (hs : s.mem.Fits δ) (r : Int) (st : StPtr) : MovesTo δ (MPI_Wait s r st) (MPI_Wait (s.moved δ) r st) :=
  .bind (Test_movesTo hs r st) fun x hx => .ite Iff.rfl .abort (.ret (a := (x.sys, x.request, x.status)) hx)

theorem Request_free_movesTo {s : Sys} (hs : s.mem.Fits δ) (r : Int) :
    MovesTo δ (MPI_Request_free s r) (MPI_Request_free (s.moved δ) r) :=
  free_movesTo r fun t => .ret (a := ({ s with handles := t }, MPI_REQUEST_NULL)) hs

theorem Send_movesTo (env : Env) {s : Sys} (hs : s.mem.Fits δ) (buf count dt dest tag comm : Int) :
    MovesTo δ (MPI_Send env s buf count dt dest tag comm) (MPI_Send (env.moved δ) (s.moved δ) (buf + δ) count dt dest tag comm) :=
  .bind (Isend_movesTo env hs ..) fun x hx => .bind (Wait_movesTo hx x.2 _) fun y hy => .ret (a := y.1) hy

theorem Irsend_movesTo (env : Env) {s : Sys} (hs : s.mem.Fits δ) (buf count dt dest tag comm : Int) :
    MovesTo δ (MPI_Irsend env s buf count dt dest tag comm)
      (MPI_Irsend (env.moved δ) (s.moved δ) (buf + δ) count dt dest tag comm) := by
  unfold MPI_Irsend
  refine .bind (Isend_movesTo env hs ..) ?_
  rintro ⟨s, h⟩ hs
  refine .bind (ptr_movesTo hs h) ?_
  rintro ⟨s, p⟩ hs
  exact .read (moved_req s p) fun q => .ite Iff.rfl .abort (.ret (a := (s, h)) hs)

theorem Recv_movesTo (env : Env) {s : Sys} (hs : s.mem.Fits δ) (buf count dt src tag comm : Int) (st : StPtr) :
    MovesTo δ (MPI_Recv env s buf count dt src tag comm st)
      (MPI_Recv (env.moved δ) (s.moved δ) (buf + δ) count dt src tag comm st) := by
  unfold MPI_Recv
  refine .bind (Irecv_movesTo env hs ..) ?_
  rintro ⟨s, h⟩ hs
  refine .bind (Wait_movesTo hs h st) ?_
  rintro ⟨s, h, st⟩ hs
  cases st with
  | null => exact .ret (a := (s, StPtr.null)) hs
  | obj st => exact .ret (a := (s, StPtr.obj { st with get_count := count })) hs
  | bad => exact .ub

theorem Sendrecv_movesTo (env : Env) {s : Sys} (hs : s.mem.Fits δ) (a b c x y a' b' c' x' y' comm : Int) (st : StPtr) :
    MovesTo δ (MPI_Sendrecv env s a b c x y a' b' c' x' y' comm st)
      (MPI_Sendrecv (env.moved δ) (s.moved δ) (a + δ) b c x y (a' + δ) b' c' x' y' comm st) := by
  unfold MPI_Sendrecv
  refine .bind (Irecv_movesTo env hs ..) ?_
  rintro ⟨s, h⟩ hs
  refine .bind (Send_movesTo env hs ..) fun s hs => .bind (Wait_movesTo hs h st) ?_
  rintro ⟨s, h, st⟩ hs
  exact .ret (a := (s, st)) hs

theorem Iprobe_movesTo {s : Sys} (hs : s.mem.Fits δ) (src tag comm : Int) (st : StPtr) :
    MovesTo δ (MPI_Iprobe s src tag comm st) (MPI_Iprobe (s.moved δ) src tag comm st) := by
  unfold MPI_Iprobe
  refine .bind (ptr_movesTo hs comm) ?_
  rintro ⟨s, p⟩ hs
  refine .ite Iff.rfl .abort ?_
  show MovesTo δ (s.comm p >>= _) ((s.moved δ).comm p >>= _)
  rw [moved_comm]
  refine .skip fun c => ?_
  show MovesTo δ (AP_list_search_func s.lists c.sendlist (mpi_match_send s tag) >>= _)
    (AP_list_search_func (s.moved δ).lists c.sendlist (mpi_match_send (s.moved δ) tag) >>= _)
  rw [moved_lists, moved_match_send]
  refine .skip fun found => ?_
  cases found with
  | none => exact .ret (a := (s, 0, st)) hs
  | some item => exact .skip fun l => .read (moved_req s (some l)) fun q => .skip fun st => .ret (a := (s, 1, st)) hs

theorem Probe_movesTo {s : Sys} (hs : s.mem.Fits δ) (src tag comm : Int) (st : StPtr) :
    MovesTo δ (MPI_Probe s src tag comm st) (MPI_Probe (s.moved δ) src tag comm st) :=
  .bind (Iprobe_movesTo hs ..) fun x hx => .ite Iff.rfl .abort (.ret (a := (x.1, x.2.2)) hx)

/-! ## Arrays of requests -/

theorem testanyLoop_movesTo (n : Nat) : ∀ i (s : Sys) reqs st, s.mem.Fits δ →
    MovesTo δ (testanyLoop n i s reqs st) (testanyLoop n i (s.moved δ) reqs st) := by
  induction n with
  | zero => intro i s reqs st hs; exact .ret (a := (s, reqs, 0, st)) hs
  | succ n ih =>
    intro i s reqs st hs
    unfold testanyLoop
    refine .skip fun h => .bind (Test_movesTo hs h st) fun x hx => ?_
    exact .ite Iff.rfl (.ret (a := (x.sys, reqs.set i x.request, x.flag, x.status)) hx) (ih _ x.sys (reqs.set i x.request) x.status hx)

theorem Testany_movesTo {s : Sys} (hs : s.mem.Fits δ) (n : Int) (rs : List Int) (i : Int) (st : StPtr) :
    MovesTo δ (MPI_Testany s n rs i st) (MPI_Testany (s.moved δ) n rs i st) :=
  .bind (testanyLoop_movesTo _ 0 s rs st hs) fun x hx => .ret (a := (x.1, x.2.1, i, x.2.2.1, x.2.2.2)) hx

theorem Waitany_movesTo {s : Sys} (hs : s.mem.Fits δ) (n : Int) (rs : List Int) (i : Int) (st : StPtr) :
    MovesTo δ (MPI_Waitany s n rs i st) (MPI_Waitany (s.moved δ) n rs i st) :=
  .bind (Testany_movesTo hs n rs i st) fun x hx => .ite Iff.rfl .abort (.ret (a := (x.1, x.2.1, x.2.2.1, x.2.2.2.2)) hx)

theorem testallLoop_movesTo (n : Nat) : ∀ i (s : Sys) reqs sts flag, s.mem.Fits δ →
    MovesTo δ (testallLoop n i s reqs sts flag) (testallLoop n i (s.moved δ) reqs sts flag) := by
  induction n with
  | zero => intro i s reqs sts flag hs; exact .ret (a := ((⟨s, reqs, sts⟩ : ArrRes), flag)) hs
  | succ n ih =>
    intro i s reqs sts flag hs
    unfold testallLoop
    exact .skip fun h => .skip fun p => .bind (Test_movesTo hs h p) fun x hx =>
      ih _ x.sys (reqs.set i x.request) (StArr.upd sts i x.status) (if x.flag = 0 then 0 else flag) hx

theorem waitallLoop_movesTo (n : Nat) : ∀ i (s : Sys) reqs sts, s.mem.Fits δ →
    MovesTo δ (waitallLoop n i s reqs sts) (waitallLoop n i (s.moved δ) reqs sts) := by
  induction n with
  | zero => intro i s reqs sts hs; exact .ret (a := (⟨s, reqs, sts⟩ : ArrRes)) hs
  | succ n ih =>
    intro i s reqs sts hs
    unfold waitallLoop
    exact .skip fun h => .skip fun p => .bind (Test_movesTo hs h p) fun x hx => .ite Iff.rfl .abort
      (ih _ x.sys (reqs.set i x.request) (StArr.upd sts i x.status) hx)

theorem testsomeLoop_movesTo (n : Nat) : ∀ i (s : Sys) reqs sts k, s.mem.Fits δ →
    MovesTo δ (testsomeLoop n i s reqs sts k) (testsomeLoop n i (s.moved δ) reqs sts k) := by
  induction n with
  | zero => intro i s reqs sts k hs; exact .ret (a := ((⟨s, reqs, sts⟩ : ArrRes), k)) hs
  | succ n ih =>
    intro i s reqs sts k hs
    unfold testsomeLoop
    exact .skip fun h => .skip fun p => .bind (Test_movesTo hs h p) fun x hx =>
      ih _ x.sys (reqs.set i x.request) (StArr.upd sts i x.status) (if x.flag = 0 then k else k + 1) hx

theorem Testsome_movesTo {s : Sys} (hs : s.mem.Fits δ) (n : Int) (rs ix : List Int) (sts : StArr) :
    MovesTo δ (MPI_Testsome s n rs ix sts) (MPI_Testsome (s.moved δ) n rs ix sts) :=
  .bind (testsomeLoop_movesTo _ 0 s rs sts 0 hs) fun x hx => .ret (a := (⟨x.1, x.2, ix⟩ : SomeRes)) hx

/-! ## All calls -/

/-- A call that hands back the state and one number. -/
theorem MovesTo.one {f g : Res (Sys × Int)} (h : MovesTo δ f g) :
    MovesTo δ (f >>= fun x => .ok (x.1, (⟨[x.2], []⟩ : Out))) (g >>= fun x => .ok (x.1, (⟨[x.2], []⟩ : Out))) :=
  .bind h fun x hx => .ret (a := (x.1, (⟨[x.2], []⟩ : Out))) hx

/-- A call that hands back the state only. -/
theorem MovesTo.none {f g : Res Sys} (h : MovesTo δ f g) :
    MovesTo δ (f >>= fun s => .ok (s, (⟨[], []⟩ : Out))) (g >>= fun s => .ok (s, (⟨[], []⟩ : Out))) :=
  .bind h fun x hx => .ret (a := (x, (⟨[], []⟩ : Out))) hx

/-- A call that does nothing if it is given MPI_IN_PLACE. -/
theorem MovesTo.place {A : Type} [Moving A] {b : Int} (hb : b ≠ MPI_IN_PLACE → b + δ ≠ MPI_IN_PLACE) {f f' : Res A} {g g' : Int → Res A}
    (hf : MovesTo δ f f') (hg : MovesTo δ (g b) (g' (b + δ))) :
    MovesTo δ (if b = MPI_IN_PLACE then f else g b) (if movedOr δ b = MPI_IN_PLACE then f' else g' (movedOr δ b)) := by
  unfold movedOr
  by_cases h : b = MPI_IN_PLACE
  · rw [if_pos h, if_pos h, if_pos h]; exact hf
  · rw [if_neg h, if_neg h, if_neg (hb h)]; exact hg

theorem answer_movesTo (env : Env) {s : Sys} (hs : s.mem.Fits δ) (c : Call) (hc : c.Moves δ) :
    MovesTo δ (c.answer env s) ((c.moved δ).answer (env.moved δ) (s.moved δ)) := by
  have hext := fun (s : Sys) (hs : s.mem.Fits δ) t => Type_extent_movesTo (δ := δ) env hs t
  have hcopy := fun (s : Sys) (hs : s.mem.Fits δ) a b c x y z =>
    copy_data2_movesTo env hs (Shifted.add δ a) b c (Shifted.add δ x) y z
  cases c with
  | store m => exact .none (.ret (a := { s with mem := m }) hc)
  | init => exact .none (Init_movesTo hs)
  | initThread r => exact .one (.bind (Init_movesTo hs) fun s hs => .ret (a := (s, r)) hs)
  | fortInit a => exact .none (init_fort_movesTo env a hs)
  | initialized => exact .ret (a := (s, (⟨[MPI_Initialized s], []⟩ : Out))) hs
  | finalize =>
    refine .none (.ret (a := MPI_Finalize s) hs ?_)
    show Res.ok _ = Res.ok _
    unfold MPI_Finalize mpi_destroy_handles
    rw [moved_handles, Sys.moved_eq, show (s.handles.mapData (Slot.moved δ)).needInit = s.handles.needInit from rfl]
    cases s.handles.needInit <;> rfl
  | abort a b => exact .exit
  | commDup c => exact .one (comm_new_movesTo hs)
  | commCreate c g => exact .one (.ite Iff.rfl (.ret (a := (s, MPI_COMM_NULL)) hs) (comm_new_movesTo hs))
  | commSplit a b c => exact .one (.ite Iff.rfl (.ret (a := (s, MPI_COMM_NULL)) hs) (comm_new_movesTo hs))
  | intercommCreate a b c x y => exact .one (.ite Iff.rfl (.ret (a := (s, MPI_COMM_NULL)) hs) (comm_new_movesTo hs))
  | cartCreate c n dims => exact .one (.skip fun _ => comm_new_movesTo hs)
  | commFree c => exact .one (Comm_free_movesTo hs c)
  | isend => exact .one (Isend_movesTo env hs ..)
  | irsend => exact .one (Irsend_movesTo env hs ..)
  | send => exact .none (Send_movesTo env hs ..)
  | irecv => exact .one (Irecv_movesTo env hs ..)
  | recv => exact .bind (Recv_movesTo env hs ..) fun x hx => .ret (a := (x.1, (⟨x.2.vals, []⟩ : Out))) hx
  | sendrecv => exact .bind (Sendrecv_movesTo env hs ..) fun x hx => .ret (a := (x.1, (⟨x.2.vals, []⟩ : Out))) hx
  | iprobe => exact .bind (Iprobe_movesTo hs ..) fun x hx => .ret (a := (x.1, (⟨x.2.1 :: x.2.2.vals, []⟩ : Out))) hx
  | probe => exact .bind (Probe_movesTo hs ..) fun x hx => .ret (a := (x.1, (⟨x.2.vals, []⟩ : Out))) hx
  | test => exact .bind (Test_movesTo hs ..) fun x hx => .ret (a := (x.sys, Out.ofDone [x.request, x.flag] [x.status])) hx
  | wait => exact .bind (Wait_movesTo hs ..) fun x hx => .ret (a := (x.1, Out.ofDone [x.2.1] [x.2.2])) hx
  | requestFree => exact .one (Request_free_movesTo hs ..)
  | testany =>
    exact .bind (Testany_movesTo hs ..) fun x hx => .ret (a := (x.1, Out.ofDone (x.2.2.1 :: x.2.2.2.1 :: x.2.1) [x.2.2.2.2])) hx
  | waitany => exact .bind (Waitany_movesTo hs ..) fun x hx => .ret (a := (x.1, Out.ofDone (x.2.2.1 :: x.2.1) [x.2.2.2])) hx
  | testall n rs sts =>
    exact .bind (testallLoop_movesTo n.toNat 0 s rs sts 1 hs) fun x hx =>
      .ret (a := (x.1.sys, Out.ofDone (x.2 :: x.1.reqs) x.1.stats.ptrs)) hx
  | waitall n rs sts =>
    exact .bind (waitallLoop_movesTo n.toNat 0 s rs sts hs) fun x hx => .ret (a := (x.sys, Out.ofDone x.reqs x.stats.ptrs)) hx
  | testsome | waitsome =>
    exact .bind (Testsome_movesTo hs ..) fun x hx =>
      .ret (a := (x.arr.sys, Out.ofDone (x.outcount :: x.indices ++ x.arr.reqs) x.arr.stats.ptrs)) hx
  | typeContiguous | typeHvector | typeVector | typeHindexed | typeIndexed | typeIndexedBlock =>
    exact .one (typeOf_moved env hs _ fun s _ hs => newType_movesTo env hs _)
  | typeStruct => exact .one (Type_struct_movesTo env hs ..)
  | typeCommit => exact .none (Type_commit_movesTo env hs ..)
  | typeFree => exact .none (Type_free_movesTo hs ..)
  | typeExtent => exact .one (Type_extent_movesTo env hs ..)
  | typeSize t => exact .one (typeOf_moved env hs t fun s _ hs => .skip fun x => .ret (a := (s, x)) hs)
  | typeLb t => exact .one (typeOf_moved env hs t fun s x hs => .ret (a := (s, Type_lb x)) hs)
  | typeUb t => exact .one (typeOf_moved env hs t fun s x hs => .ret (a := (s, Type_ub x)) hs)
  | getElements st t => exact .one (typeOf_moved env hs t fun s x hs => .skip fun n => .ret (a := (s, n)) hs)
  | pack => exact .one (Pack_sys_movesTo env hs ..)
  | packSize n t comm =>
    exact .one (typeOf_moved env hs t fun s x hs => .bind (ptr_movesTo hs comm) fun y hy => .skip fun n => .ret (a := (y.1, n)) hy)
  | unpack => exact .one (Unpack_sys_movesTo env hs ..)
  | barrier => exact .none (.ret (a := s) hs)
  | bcast => exact .none (.ite Iff.rfl (.ret (a := s) hs) (.ite Iff.rfl .abort (.ret (a := s) hs)))
  | gather b n t b' n' t' r c =>
    exact .none (.place hc (g := fun b => if r = MPI_ROOT then _ else if r ≠ 0 then _ else copy_data2 env s b n t b' n' t')
      (g' := fun b => if r = MPI_ROOT then _ else if r ≠ 0 then _ else copy_data2 (env.moved δ) (s.moved δ) b n t (b' + δ) n' t')
      (.ret (a := s) hs) (.ite Iff.rfl (.ret (a := s) hs) (.ite Iff.rfl .abort (hcopy s hs ..))))
  | scatter b n t b' n' t' r c =>
    exact .none (.place hc (g := fun b' => if r = MPI_ROOT then _ else if r ≠ 0 then _ else copy_data2 env s b n t b' n' t')
      (g' := fun b' => if r = MPI_ROOT then _ else if r ≠ 0 then _ else copy_data2 (env.moved δ) (s.moved δ) (b + δ) n t b' n' t')
      (.ret (a := s) hs) (.ite Iff.rfl (.ret (a := s) hs) (.ite Iff.rfl .abort (hcopy s hs ..))))
  | gatherv b n t b' ns ds t' r c =>
    refine .none (MovesTo.place (f := .ok s) (f' := .ok (s.moved δ)) hc (g := fun b => if r = MPI_ROOT then .ok s else if r ≠ 0 then _ else
        MPI_Type_extent env s t' >>= fun x => rd ds 0 >>= fun d => rd ns 0 >>= fun n' =>
          copy_data2 env x.1 b n t (padd b' (displOffset d x.2)) n' t')
      (g' := fun b => if r = MPI_ROOT then .ok (s.moved δ) else if r ≠ 0 then _ else
        MPI_Type_extent (env.moved δ) (s.moved δ) t' >>= fun x => rd ds 0 >>= fun d => rd ns 0 >>= fun n' =>
          copy_data2 (env.moved δ) x.1 b n t (padd (b' + δ) (displOffset d x.2)) n' t')
      (.ret (a := s) hs) (.ite Iff.rfl (.ret (a := s) hs) (.ite Iff.rfl .abort ?_)))
    exact .bind (hext s hs _) fun x hx => .skip fun d => .skip fun n' =>
      copy_data2_movesTo env (s := x.1) hx (Shifted.add δ b) n t ((Shifted.add δ b').padd _) n' t'
  | scatterv b ns ds t b' n' t' r c =>
    refine .none (MovesTo.place (f := .ok s) (f' := .ok (s.moved δ)) hc (g := fun b' => if r = MPI_ROOT then .ok s else if r ≠ 0 then _ else
        MPI_Type_extent env s t >>= fun x => rd ds 0 >>= fun d => rd ns 0 >>= fun n =>
          copy_data2 env x.1 (padd b (displOffset d x.2)) n t b' n' t')
      (g' := fun b' => if r = MPI_ROOT then .ok (s.moved δ) else if r ≠ 0 then _ else
        MPI_Type_extent (env.moved δ) (s.moved δ) t >>= fun x => rd ds 0 >>= fun d => rd ns 0 >>= fun n =>
          copy_data2 (env.moved δ) x.1 (padd (b + δ) (displOffset d x.2)) n t b' n' t')
      (.ret (a := s) hs) (.ite Iff.rfl (.ret (a := s) hs) (.ite Iff.rfl .abort ?_)))
    exact .bind (hext s hs _) fun x hx => .skip fun d => .skip fun n =>
      copy_data2_movesTo env (s := x.1) hx ((Shifted.add δ b).padd _) n t (Shifted.add δ b') n' t'
  | allgather b n t b' n' t' c =>
    exact .none (.place hc (g := fun b => copy_data2 env s b n t b' n' t')
      (g' := fun b => copy_data2 (env.moved δ) (s.moved δ) b n t (b' + δ) n' t') (.ret (a := s) hs) (hcopy s hs ..))
  | allreduce b b' n t o c =>
    exact .none (.place hc (g := fun b => copy_data2 env s b n t b' n t)
      (g' := fun b => copy_data2 (env.moved δ) (s.moved δ) b n t (b' + δ) n t) (.ret (a := s) hs) (hcopy s hs ..))
  | allgatherv b n t b' ns ds t' c =>
    refine .none (MovesTo.place (f := .ok s) (f' := .ok (s.moved δ)) hc (g := fun b =>
        MPI_Type_extent env s t' >>= fun x => rd ds 0 >>= fun d => rd ns 0 >>= fun n' =>
          copy_data2 env x.1 b n t (padd b' (displOffset d x.2)) n' t')
      (g' := fun b =>
        MPI_Type_extent (env.moved δ) (s.moved δ) t' >>= fun x => rd ds 0 >>= fun d => rd ns 0 >>= fun n' =>
          copy_data2 (env.moved δ) x.1 b n t (padd (b' + δ) (displOffset d x.2)) n' t')
      (.ret (a := s) hs) ?_)
    exact .bind (hext s hs _) fun x hx => .skip fun d => .skip fun n' =>
      copy_data2_movesTo env (s := x.1) hx (Shifted.add δ b) n t ((Shifted.add δ b').padd _) n' t'
  | reduce => exact .none (.ite Iff.rfl .abort (hcopy s hs ..))
  | reduceScatter => exact .none (.skip fun _ => hcopy s hs ..)
  | scan | alltoall => exact .none (hcopy s hs ..)
  | alltoallv =>
    exact .none (.bind (hext s hs _) fun x hx => .bind (hext x.1 hx _) fun y hy => .skip fun _ => .skip fun _ => .skip fun _ =>
      .skip fun _ => copy_data2_movesTo env (s := y.1) hy ((Shifted.add δ _).padd _) _ _ ((Shifted.add δ _).padd _) _ _)
  | alltoallw =>
    exact .none (.skip fun _ => .skip fun _ => .skip fun _ => .skip fun _ => .skip fun _ => .skip fun _ =>
      copy_data2_movesTo env hs ((Shifted.add δ _).padd _) _ _ ((Shifted.add δ _).padd _) _ _)

end MpiSerial
