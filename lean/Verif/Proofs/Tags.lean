import Verif.Spec.Tags
import Verif.Proofs.Move

/-!
# C88: every call
-/

set_option autoImplicit false
set_option linter.unusedSimpArgs false
set_option linter.unusedVariables false

namespace MpiSerial

/-- Something with tags in it. -/
class Retag (A : Type) where
  ren : (Int → Int) → A → A

open Retag (ren)

instance : Retag Sys := ⟨Sys.retag⟩
instance : Retag StPtr := ⟨StPtr.retag⟩
instance instRetagStArr : Retag StArr := ⟨StArr.retag⟩
instance : Retag Int := ⟨fun _ x => x⟩
instance : Retag Nat := ⟨fun _ x => x⟩
instance : Retag Loc := ⟨fun _ x => x⟩
instance instRetagOptionLoc : Retag (Option Loc) := ⟨fun _ x => x⟩
instance : Retag TPtr := ⟨fun _ x => x⟩
instance : Retag Typestruct := ⟨fun _ x => x⟩
instance instRetagTypes : Retag (List Typestruct) := ⟨fun _ x => x⟩
instance instRetagInts : Retag (List Int) := ⟨fun _ x => x⟩
instance {A B : Type} [Retag A] [Retag B] : Retag (A × B) := ⟨fun ρ x => (ren ρ x.1, ren ρ x.2)⟩
instance : Retag TestRes := ⟨fun ρ x => ⟨x.sys.retag ρ, x.request, x.flag, x.status.retag ρ⟩⟩
instance : Retag ArrRes := ⟨fun ρ x => ⟨x.sys.retag ρ, x.reqs, x.stats.retag ρ⟩⟩
instance : Retag SomeRes := ⟨fun ρ x => ⟨ren ρ x.arr, x.outcount, x.indices⟩⟩

/-- `g` is `f` with other tags. -/
structure TagsTo {A : Type} [Retag A] (ρ : Int → Int) (f g : Res A) : Prop where
  eq : g = f >>= fun a => .ok (ren ρ a)
  post : ∀ a, f = .ok a → TagRen ρ

namespace TagsTo

variable {A B β γ : Type} [Retag A] [Retag B] {ρ : Int → Int}

theorem ret {a : A} {g : Res A} (h : TagRen ρ) (hg : g = .ok (ren ρ a) := by rfl) : TagsTo ρ (.ok a) g :=
  ⟨hg, by rintro _ ⟨⟩; exact h⟩

theorem abort {t : String} : TagsTo ρ (Res.abort t : Res A) (.abort t) := ⟨rfl, nofun⟩
theorem exit {t : Int} : TagsTo ρ (Res.exit t : Res A) (.exit t) := ⟨rfl, nofun⟩
theorem ub {t : UB} : TagsTo ρ (Res.ub t : Res A) (.ub t) := ⟨rfl, nofun⟩
theorem hang : TagsTo ρ (Res.hang : Res A) .hang := ⟨rfl, nofun⟩

theorem bind {f f' : Res A} {g g' : A → Res B} (h : TagsTo ρ f f')
    (k : ∀ a, TagRen ρ → TagsTo ρ (g a) (g' (ren ρ a))) : TagsTo ρ (f >>= g) (f' >>= g') := by
  obtain ⟨rfl, h2⟩ := h
  cases f with
  | ok a => exact k a (h2 a rfl)
  | abort t => exact abort
  | exit t => exact exit
  | ub t => exact ub
  | hang => exact hang

/-- Something that does not depend on tags. -/
theorem skip {X : Res β} {g g' : β → Res A} (k : ∀ b, TagsTo ρ (g b) (g' b)) : TagsTo ρ (X >>= g) (X >>= g') := by
  cases X with
  | ok b => exact k b
  | abort t => exact abort
  | exit t => exact exit
  | ub t => exact ub
  | hang => exact hang

/-- Something in the result of which the tags are renumbered. -/
theorem read {X : Res β} {X' : Res γ} {h : β → γ} (hX : X' = X >>= fun b => .ok (h b)) {g : β → Res A} {g' : γ → Res A}
    (k : ∀ b, TagsTo ρ (g b) (g' (h b))) : TagsTo ρ (X >>= g) (X' >>= g') := by
  rw [hX, bind_assoc]
  exact skip k

theorem ite {p q : Prop} [Decidable p] [Decidable q] (hpq : p ↔ q) {f g f' g' : Res A} (hf : TagsTo ρ f f') (hg : TagsTo ρ g g') :
    TagsTo ρ (if p then f else g) (if q then f' else g') := by
  by_cases h : p
  · rw [if_pos h, if_pos (hpq.mp h)]; exact hf
  · rw [if_neg h, if_neg (fun h' => h (hpq.mpr h'))]; exact hg

end TagsTo

variable {ρ : Int → Int}

/-! ## The state of the library -/

theorem Sys.retag_eq (s : Sys) : s.retag ρ = { s with handles := s.handles.mapData (Slot.retag ρ) } := rfl

@[simp] theorem retag_handles (s : Sys) : (s.retag ρ).handles = s.handles.mapData (Slot.retag ρ) := rfl
@[simp] theorem retag_lists (s : Sys) : (s.retag ρ).lists = s.lists := rfl
@[simp] theorem retag_theap (s : Sys) : (s.retag ρ).theap = s.theap := rfl
@[simp] theorem retag_nextType (s : Sys) : (s.retag ρ).nextType = s.nextType := rfl
@[simp] theorem retag_num (s : Sys) : (s.retag ρ).num = s.num := rfl
@[simp] theorem retag_clock (s : Sys) : (s.retag ρ).clock = s.clock := rfl
@[simp] theorem retag_mem (s : Sys) : (s.retag ρ).mem = s.mem := rfl
@[simp] theorem retag_cfg (env : Env) : (env.retag ρ).cfg = env.cfg := rfl
@[simp] theorem retag_garbage (env : Env) : (env.retag ρ).garbage = env.garbage := rfl

@[simp] theorem retag_comm (s : Sys) (p : Option Loc) : (s.retag ρ).comm p = s.comm p := by
  cases p with
  | none => rfl
  | some l =>
    show (s.handles.mapData (Slot.retag ρ)).deref l >>= _ = s.handles.deref l >>= _
    rw [mapData_deref, bind_assoc]
    refine bind_congr fun it => ?_
    rw [Res.ok_bind]
    unfold Item.mapData
    cases it.data <;> rfl

theorem retag_req (s : Sys) (p : Option Loc) : (s.retag ρ).req p = s.req p >>= fun r => .ok (r.retag ρ) := by
  cases p with
  | none => rfl
  | some l =>
    show (s.handles.mapData (Slot.retag ρ)).deref l >>= _ = (s.handles.deref l >>= _) >>= _
    rw [mapData_deref, bind_assoc, bind_assoc]
    refine bind_congr fun it => ?_
    rw [Res.ok_bind]
    unfold Item.mapData
    cases it.data <;> rfl

@[simp] theorem retag_derefType (env : Env) (s : Sys) (p : TPtr) :
    derefType (env.retag ρ) (s.retag ρ) p = derefType env s p := by cases p <;> rfl

theorem ren_any (hs : TagRen ρ) (a : Int) : ρ a = MPI_ANY_TAG ↔ a = MPI_ANY_TAG :=
  ⟨fun h => hs.inj _ _ (h.trans hs.any.symm), fun h => by rw [h, hs.any]⟩

theorem ren_eq (hs : TagRen ρ) (a b : Int) : ρ a = ρ b ↔ a = b := ⟨hs.inj a b, fun h => by rw [h]⟩

theorem retag_match_recv (hs : TagRen ρ) (s : Sys) (tag : Int) : mpi_match_recv (s.retag ρ) (ρ tag) = mpi_match_recv s tag := by
  funext r
  unfold mpi_match_recv
  rw [retag_req, bind_assoc]
  refine bind_congr fun q => ?_
  rw [Res.ok_bind]
  show Res.ok (decide (ρ q.tag = MPI_ANY_TAG) || decide (ρ q.tag = ρ tag)) = Res.ok _
  simp only [ren_any hs, ren_eq hs]

theorem retag_match_send (hs : TagRen ρ) (s : Sys) (tag : Int) : mpi_match_send (s.retag ρ) (ρ tag) = mpi_match_send s tag := by
  funext r
  unfold mpi_match_send
  rw [retag_req, bind_assoc]
  refine bind_congr fun q => ?_
  rw [Res.ok_bind]
  show Res.ok (decide (ρ tag = MPI_ANY_TAG) || decide (ρ tag = ρ q.tag)) = Res.ok _
  simp only [ren_any hs, ren_eq hs]

theorem put_retag (st : StPtr) (src tag : Int) : (st.retag ρ).put src (ρ tag) = st.put src tag >>= fun st => .ok (st.retag ρ) := by
  cases st <;> rfl

theorem ptr_tagsTo {s : Sys} (hs : TagRen ρ) (h : Int) : TagsTo ρ (s.ptr h) ((s.retag ρ).ptr h) := by
  unfold Sys.ptr
  refine .read (h := fun x => (x.1.mapData (Slot.retag ρ), x.2)) (mapData_ptr _ _ _) fun x => ?_
  exact .ret (a := ({ s with handles := x.1 }, x.2)) hs

theorem modReq_tagsTo {s : Sys} (hs : TagRen ρ) (l : Loc) {f f' : ReqRec → ReqRec}
    (hf : ∀ r, f' (r.retag ρ) = (f r).retag ρ) : TagsTo ρ (s.modReq l f) ((s.retag ρ).modReq l f') := by
  unfold Sys.modReq
  refine .read (retag_req s _) fun r => .ret (a := { s with handles := s.handles.setData l (.req (f r)) }) hs ?_
  rw [hf]
  exact congrArg (fun t => Res.ok ({ s with handles := t } : Sys))
    (mapData_setData (Slot.retag ρ) s.handles l (.req (f r))).symm

theorem allocReq_tagsTo (env : Env) {s : Sys} (hs : TagRen ρ) : TagsTo ρ (s.allocReq env) ((s.retag ρ).allocReq (env.retag ρ)) := by
  unfold Sys.allocReq
  refine .read (h := fun x => (x.1.mapData (Slot.retag ρ), x.2)) (mapData_alloc (Slot.retag ρ) _ Slot.raw) fun x => ?_
  refine .ret (a := ({ s with
      handles := x.1.setData x.2.2 (.req (match (x.1.items x.2.2).data with | .req r => r | _ => env.junk s.clock)),
      clock := s.clock + 1 }, x.2.1, x.2.2)) hs ?_
  have h1 : ∀ d : Slot, Slot.req (match d.retag ρ with | .req r => r | _ => (env.retag ρ).junk s.clock)
      = Slot.retag ρ (.req (match d with | .req r => r | _ => env.junk s.clock)) := by intro d; cases d <;> rfl
  have h2 := mapData_setData (Slot.retag ρ) x.1 x.2.2
    (.req (match (x.1.items x.2.2).data with | .req r => r | _ => env.junk s.clock))
  rw [← h1] at h2
  exact congrArg (fun t => Res.ok (({ s with handles := t, clock := s.clock + 1 } : Sys), x.2.1, x.2.2)) h2.symm

theorem handleToDatatype_tagsTo {s : Sys} (hs : TagRen ρ) (h : Int) :
    TagsTo ρ (handleToDatatype s h) (handleToDatatype (s.retag ρ) h) := by
  unfold handleToDatatype
  refine .ite Iff.rfl (.skip fun p => .ret (a := (s, p)) hs) (.bind (ptr_tagsTo hs h) ?_)
  rintro ⟨s, p⟩ hs
  cases p with
  | none => exact .ub
  | some l =>
    refine .read (mapData_deref (Slot.retag ρ) s.handles l) fun it => ?_
    show TagsTo ρ (match it.data with | .dtype p => Res.ok (s, p) | _ => .ub .kind)
      (match it.data.retag ρ with | .dtype p => Res.ok (s.retag ρ, p) | _ => .ub .kind)
    cases it.data with
    | dtype p => exact .ret (a := (s, p)) hs
    | _ => exact .ub

theorem typeOf_tagsTo (env : Env) {s : Sys} (hs : TagRen ρ) (h : Int) :
    TagsTo ρ (typeOf env s h) (typeOf (env.retag ρ) (s.retag ρ) h) := by
  unfold typeOf
  refine .bind (handleToDatatype_tagsTo hs h) ?_
  rintro ⟨s, p⟩ hs
  show TagsTo ρ (derefType env s p >>= _) (derefType (env.retag ρ) (s.retag ρ) p >>= _)
  rw [retag_derefType]
  exact .skip fun t => .ret (a := (s, t)) hs

/-- Reading a datatype and then doing something with it. -/
theorem typeOf_retag {A : Type} [Retag A] (env : Env) {s : Sys} (hs : TagRen ρ) (h : Int) {g g' : Sys × Typestruct → Res A}
    (k : ∀ (s : Sys) t, TagRen ρ → TagsTo ρ (g (s, t)) (g' (s.retag ρ, t))) :
    TagsTo ρ (typeOf env s h >>= g) (typeOf (env.retag ρ) (s.retag ρ) h >>= g') :=
  .bind (typeOf_tagsTo env hs h) fun x hx => k x.1 x.2 hx

theorem newType_tagsTo (env : Env) {s : Sys} (hs : TagRen ρ) (build : Garbage → Res Typestruct) :
    TagsTo ρ (newType env s build) (newType (env.retag ρ) (s.retag ρ) build) := by
  unfold newType
  refine .read (h := fun x => (x.1.mapData (Slot.retag ρ), x.2)) (mapData_alloc (Slot.retag ρ) _ Slot.raw) fun x => ?_
  rw [retag_garbage, retag_nextType]
  refine .skip fun ty => .ret (a := ({ s with
      handles := x.1.setData x.2.2 (.dtype (.heap s.nextType)),
      theap := fun q => if q = s.nextType then some ty else s.theap q, nextType := s.nextType + 1 }, x.2.1)) hs ?_
  exact congrArg (fun t => Res.ok (({ s with
      handles := t
      theap := fun q => if q = s.nextType then some ty else s.theap q, nextType := s.nextType + 1 } : Sys), x.2.1))
    (mapData_setData (Slot.retag ρ) x.1 x.2.2 (.dtype (.heap s.nextType))).symm

theorem structTypes_tagsTo (env : Env) (olds : List Int) (n : Nat) : ∀ i (s : Sys), TagRen ρ →
    TagsTo ρ (structTypes env olds n i s) (structTypes (env.retag ρ) olds n i (s.retag ρ)) := by
  induction n with
  | zero => intro i s hs; exact .ret (a := (s, [])) hs
  | succ n ih =>
    intro i s hs
    unfold structTypes
    refine .skip fun h => typeOf_retag env hs h fun s t hs => .bind (ih (i + 1) s hs) ?_
    rintro ⟨s, ts⟩ hs
    exact .ret (a := (s, t :: ts)) hs

theorem Type_struct_tagsTo (env : Env) {s : Sys} (hs : TagRen ρ) (count : Int) (b ds o : List Int) :
    TagsTo ρ (MPI_Type_struct env s count b ds o) (MPI_Type_struct (env.retag ρ) (s.retag ρ) count b ds o) := by
  unfold MPI_Type_struct
  refine .skip fun n => .bind (structTypes_tagsTo env o n 0 s hs) ?_
  rintro ⟨s, ts⟩ hs
  exact newType_tagsTo env hs _

theorem Type_commit_tagsTo (env : Env) {s : Sys} (hs : TagRen ρ) (h : Int) :
    TagsTo ρ (MPI_Type_commit env s h) (MPI_Type_commit (env.retag ρ) (s.retag ρ) h) := by
  unfold MPI_Type_commit
  refine .bind (handleToDatatype_tagsTo hs h) ?_
  rintro ⟨s, p⟩ hs
  show TagsTo ρ (derefType env s p >>= _) (derefType (env.retag ρ) (s.retag ρ) p >>= _)
  rw [retag_derefType]
  refine .skip fun t => ?_
  cases p with
  | heap q => exact .ret (a := { s with theap := fun q' => if q' = q then some { t with committed := 1 } else s.theap q' }) hs
  | _ => exact .ret (a := s) hs

theorem freeType_tagsTo {s : Sys} (hs : TagRen ρ) (p : TPtr) : TagsTo ρ (freeType s p) (freeType (s.retag ρ) p) := by
  unfold freeType
  cases p with
  | null => exact .ret (a := s) hs
  | static k => exact .ub
  | heap q =>
    rw [retag_theap]
    dsimp only
    cases s.theap q with
    | none => exact .ub
    | some t => exact .ret (a := { s with theap := fun q' => if q' = q then none else s.theap q' }) hs

/-- Releasing a handle. -/
theorem free_tagsTo {A : Type} [Retag A] {s : Sys} (h : Int) {g g' : HTab Slot → Res A}
    (k : ∀ t, TagsTo ρ (g t) (g' (t.mapData (Slot.retag ρ)))) :
    TagsTo ρ (mpi_free_handle s.handles h >>= g) (mpi_free_handle (s.retag ρ).handles h >>= g') :=
  .read (mapData_free (Slot.retag ρ) s.handles h) k

theorem Type_free_tagsTo {s : Sys} (hs : TagRen ρ) (h : Int) : TagsTo ρ (MPI_Type_free s h) (MPI_Type_free (s.retag ρ) h) := by
  unfold MPI_Type_free
  refine .bind (handleToDatatype_tagsTo hs h) ?_
  rintro ⟨s, p⟩ hs
  exact .bind (freeType_tagsTo hs p) fun s hs => free_tagsTo h fun t => .ret (a := { s with handles := t }) hs

theorem Type_extent_tagsTo (env : Env) {s : Sys} (hs : TagRen ρ) (h : Int) :
    TagsTo ρ (MPI_Type_extent env s h) (MPI_Type_extent (env.retag ρ) (s.retag ρ) h) :=
  typeOf_retag env hs h fun s _ hs => .skip fun x => .ret (a := (s, x)) hs

theorem copy_data2_tagsTo (env : Env) {s : Sys} (hs : TagRen ρ) (a b c x y z : Int) :
    TagsTo ρ (copy_data2 env s a b c x y z) (copy_data2 (env.retag ρ) (s.retag ρ) a b c x y z) := by
  unfold copy_data2
  refine .bind (handleToDatatype_tagsTo hs c) ?_
  rintro ⟨s, p⟩ hs
  refine .bind (handleToDatatype_tagsTo hs z) ?_
  rintro ⟨s, q⟩ hs
  show TagsTo ρ (derefType env s p >>= _) (derefType (env.retag ρ) (s.retag ρ) p >>= _)
  rw [retag_derefType]
  refine .skip fun t => ?_
  show TagsTo ρ (derefType env s q >>= _) (derefType (env.retag ρ) (s.retag ρ) q >>= _)
  rw [retag_derefType]
  refine .skip fun t' => ?_
  exact .skip (X := Pcopy_data2 env.cfg s.mem a b t x y t') fun m => .ret (a := { s with mem := m }) hs

theorem Pack_sys_tagsTo (env : Env) {s : Sys} (hs : TagRen ρ) (a b t x y z comm : Int) :
    TagsTo ρ (MPI_Pack env s a b t x y z comm) (MPI_Pack (env.retag ρ) (s.retag ρ) a b t x y z comm) := by
  unfold MPI_Pack
  refine typeOf_retag env hs t fun s ty hs => .bind (ptr_tagsTo hs comm) ?_
  rintro ⟨s, p⟩ hs
  exact .skip (X := Pack env.cfg s.mem a b ty x y z) fun r => .ret (a := ({ s with mem := r.1 }, r.2)) hs

theorem Unpack_sys_tagsTo (env : Env) {s : Sys} (hs : TagRen ρ) (a b c x y t comm : Int) :
    TagsTo ρ (MPI_Unpack env s a b c x y t comm) (MPI_Unpack (env.retag ρ) (s.retag ρ) a b c x y t comm) := by
  unfold MPI_Unpack
  refine typeOf_retag env hs t fun s ty hs => .bind (ptr_tagsTo hs comm) ?_
  rintro ⟨s, p⟩ hs
  exact .skip (X := Unpack env.cfg s.mem a b c x y ty) fun r => .ret (a := ({ s with mem := r.1 }, r.2)) hs

theorem comm_new_tagsTo {s : Sys} (hs : TagRen ρ) : TagsTo ρ (mpi_comm_new s) (mpi_comm_new (s.retag ρ)) := by
  unfold mpi_comm_new
  refine .read (h := fun x => (x.1.mapData (Slot.retag ρ), x.2)) (mapData_alloc (Slot.retag ρ) _ Slot.raw) fun x => ?_
  rw [retag_lists, retag_num]
  refine .skip fun y => .skip fun z => .skip fun n => ?_
  refine .ret (a := ({ s with handles := x.1.setData x.2.2 (.comm ⟨y.2, z.2, s.num⟩), lists := z.1, num := n }, x.2.1)) hs ?_
  exact congrArg (fun t => Res.ok (({ s with handles := t, lists := z.1, num := n } : Sys), x.2.1))
    (mapData_setData (Slot.retag ρ) x.1 x.2.2 (.comm ⟨y.2, z.2, s.num⟩)).symm

theorem Comm_free_tagsTo {s : Sys} (hs : TagRen ρ) (c : Int) : TagsTo ρ (MPI_Comm_free s c) (MPI_Comm_free (s.retag ρ) c) := by
  unfold MPI_Comm_free
  refine .bind (ptr_tagsTo hs c) ?_
  rintro ⟨s, p⟩ hs
  show TagsTo ρ (s.comm p >>= _) ((s.retag ρ).comm p >>= _)
  rw [retag_comm]
  refine .skip fun c => .skip fun _ => .skip fun h => .skip fun _ => .skip fun h' => free_tagsTo _ fun t => ?_
  exact .ret (a := ({ s with lists := h', handles := t }, MPI_COMM_NULL)) hs

theorem Init_tagsTo {s : Sys} (hs : TagRen ρ) : TagsTo ρ (MPI_Init s) (MPI_Init (s.retag ρ)) := by
  unfold MPI_Init
  refine .bind (comm_new_tagsTo hs) ?_
  rintro ⟨s, c⟩ hs
  exact .ite Iff.rfl .abort (.ret (a := { s with initialized := true }) hs)

theorem verify_size_tagsTo (env : Env) (a : FortArgs) (name : String) (p q : Int) {s : Sys} (hs : TagRen ρ) (err : Int) :
    TagsTo ρ (verify_size env a name p q s err) (verify_size (env.retag ρ) a name p q (s.retag ρ) err) := by
  unfold verify_size
  exact typeOf_retag env hs _ fun s t hs => .skip fun x => .skip fun len =>
    .ret (a := (s, if s32 (s64 (q - p)) ≠ len then 1 else err)) hs

theorem init_fort_tagsTo (env : Env) (a : FortArgs) {s : Sys} (hs : TagRen ρ) :
    TagsTo ρ (mpi_init_fort env a s) (mpi_init_fort (env.retag ρ) a (s.retag ρ)) := by
  unfold mpi_init_fort
  refine .bind (Init_tagsTo hs) fun s hs => ?_
  unfold mpi_init_fort_checks
  refine .skip fun _ => .skip fun _ => .skip fun _ => ?_
  refine .bind (verify_size_tagsTo env a _ _ _ hs _) ?_
  rintro ⟨s, _⟩ hs
  refine .bind (verify_size_tagsTo env a _ _ _ hs _) ?_
  rintro ⟨s, _⟩ hs
  refine .bind (verify_size_tagsTo env a _ _ _ hs _) ?_
  rintro ⟨s, _⟩ hs
  refine .bind (verify_size_tagsTo env a _ _ _ hs _) ?_
  rintro ⟨s, _⟩ hs
  refine .bind (verify_size_tagsTo env a _ _ _ hs _) ?_
  rintro ⟨s, _⟩ hs
  exact .ite Iff.rfl .abort (.ret (a := s) hs)

/-! ## Messages -/

theorem sendMatched_tagsTo (env : Env) {s : Sys} (hs : TagRen ρ) (buf count dt tag : Int) (rl item : Nat) (l : Loc) :
    TagsTo ρ (sendMatched env s buf count dt tag rl item l)
      (sendMatched (env.retag ρ) (s.retag ρ) buf count dt (ρ tag) rl item l) := by
  unfold sendMatched
  rw [retag_lists]
  refine .skip fun r => .skip fun lists => ?_
  refine .read (retag_req { s with lists := lists } (some r)) fun q => ?_
  refine .bind (copy_data2_tagsTo env (s := { s with lists := lists }) hs buf count dt q.buf q.count q.type)
    fun s hs => .bind (modReq_tagsTo hs r fun _ => rfl) fun s hs => modReq_tagsTo hs l fun _ => rfl

theorem recvMatched_tagsTo (env : Env) {s : Sys} (hs : TagRen ρ) (buf count dt : Int) (rl item : Nat) (l : Loc) :
    TagsTo ρ (recvMatched env s buf count dt rl item l) (recvMatched (env.retag ρ) (s.retag ρ) buf count dt rl item l) := by
  unfold recvMatched
  rw [retag_lists]
  refine .skip fun r => .skip fun lists => ?_
  refine .read (retag_req { s with lists := lists } (some r)) fun q => ?_
  refine .bind (copy_data2_tagsTo env (s := { s with lists := lists }) hs q.buf count dt buf count dt)
    fun s hs => .read (retag_req s (some r)) fun q => .bind (modReq_tagsTo hs l fun _ => rfl) fun s hs => modReq_tagsTo hs r fun _ => rfl

theorem sendQueued_tagsTo {s : Sys} (hs : TagRen ρ) (buf tag : Int) (sl : Nat) (l : Loc) :
    TagsTo ρ (sendQueued s buf tag sl l) (sendQueued (s.retag ρ) buf (ρ tag) sl l) := by
  unfold sendQueued
  refine .bind (modReq_tagsTo hs l fun _ => rfl) fun s hs => ?_
  show TagsTo ρ (AP_list_append s.lists sl l >>= _) (AP_list_append (s.retag ρ).lists sl l >>= _)
  rw [retag_lists]
  exact .skip fun x => modReq_tagsTo (s := { s with lists := x.1 }) hs l fun _ => rfl

theorem recvQueued_tagsTo {s : Sys} (hs : TagRen ρ) (buf tag : Int) (sl : Nat) (l : Loc) :
    TagsTo ρ (recvQueued s buf tag sl l) (recvQueued (s.retag ρ) buf (ρ tag) sl l) := by
  unfold recvQueued
  refine .bind (modReq_tagsTo hs l fun _ => rfl) fun s hs => ?_
  show TagsTo ρ (AP_list_append s.lists sl l >>= _) (AP_list_append (s.retag ρ).lists sl l >>= _)
  rw [retag_lists]
  exact .skip fun x => modReq_tagsTo (s := { s with lists := x.1 }) hs l fun _ => rfl

theorem Isend_tagsTo (env : Env) {s : Sys} (hs : TagRen ρ) (buf count dt dest tag comm : Int) :
    TagsTo ρ (MPI_Isend env s buf count dt dest tag comm) (MPI_Isend (env.retag ρ) (s.retag ρ) buf count dt dest (ρ tag) comm) := by
  unfold MPI_Isend
  refine .bind (ptr_tagsTo hs comm) ?_
  rintro ⟨s, p⟩ hs
  refine .ite Iff.rfl .abort (.bind (allocReq_tagsTo env hs) ?_)
  rintro ⟨s, h, l⟩ hs
  refine .ite Iff.rfl (.bind (modReq_tagsTo hs l fun _ => rfl) fun s hs => .ret (a := (s, h)) hs) ?_
  show TagsTo ρ (s.comm p >>= _) ((s.retag ρ).comm p >>= _)
  rw [retag_comm]
  refine .skip fun c => ?_
  show TagsTo ρ (AP_list_search_func s.lists c.recvlist (mpi_match_recv s tag) >>= _)
    (AP_list_search_func (s.retag ρ).lists c.recvlist (mpi_match_recv (s.retag ρ) (ρ tag)) >>= _)
  rw [retag_lists, retag_match_recv hs]
  refine .skip fun found => ?_
  cases found with
  | none => exact .bind (sendQueued_tagsTo hs ..) fun s hs => .ret (a := (s, h)) hs
  | some item => exact .bind (sendMatched_tagsTo env hs ..) fun s hs => .ret (a := (s, h)) hs

theorem Irecv_tagsTo (env : Env) {s : Sys} (hs : TagRen ρ) (buf count dt src tag comm : Int) :
    TagsTo ρ (MPI_Irecv env s buf count dt src tag comm) (MPI_Irecv (env.retag ρ) (s.retag ρ) buf count dt src (ρ tag) comm) := by
  unfold MPI_Irecv
  refine .bind (ptr_tagsTo hs comm) ?_
  rintro ⟨s, p⟩ hs
  refine .ite Iff.rfl .abort (.bind (allocReq_tagsTo env hs) ?_)
  rintro ⟨s, h, l⟩ hs
  refine .bind (modReq_tagsTo hs l fun _ => rfl) fun s hs =>
    .ite Iff.rfl (.bind (modReq_tagsTo hs l fun r => by unfold ReqRec.retag; dsimp only; rw [hs.any]) fun s hs => .ret (a := (s, h)) hs) ?_
  show TagsTo ρ (s.comm p >>= _) ((s.retag ρ).comm p >>= _)
  rw [retag_comm]
  refine .skip fun c => ?_
  show TagsTo ρ (AP_list_search_func s.lists c.sendlist (mpi_match_send s tag) >>= _)
    (AP_list_search_func (s.retag ρ).lists c.sendlist (mpi_match_send (s.retag ρ) (ρ tag)) >>= _)
  rw [retag_lists, retag_match_send hs]
  refine .skip fun found => ?_
  cases found with
  | none => exact .bind (recvQueued_tagsTo hs ..) fun s hs => .ret (a := (s, h)) hs
  | some item => exact .bind (recvMatched_tagsTo env hs ..) fun s hs => .ret (a := (s, h)) hs

theorem Test_tagsTo {s : Sys} (hs : TagRen ρ) (r : Int) (st : StPtr) : TagsTo ρ (MPI_Test s r st) (MPI_Test (s.retag ρ) r (st.retag ρ)) := by
  unfold MPI_Test
  refine .ite Iff.rfl (.read (h := StPtr.retag ρ) ?_ fun st => .ret (a := (⟨s, r, 1, st⟩ : TestRes)) hs) (.bind (ptr_tagsTo hs r) ?_)
  · have h := put_retag (ρ := ρ) st MPI_ANY_SOURCE MPI_ANY_TAG
    rw [hs.any] at h
    exact h
  rintro ⟨s, p⟩ hs
  refine .read (retag_req s p) fun q => .ite Iff.rfl (.read (put_retag st q.source q.tag) fun st => free_tagsTo r fun t => ?_)
    (.ret (a := (⟨s, r, q.complete, st⟩ : TestRes)) hs)
  exact .ret (a := (⟨{ s with handles := t }, MPI_REQUEST_NULL, q.complete, st⟩ : TestRes)) hs

theorem Wait_tagsTo {s : Sys} (hs : TagRen ρ) (r : Int) (st : StPtr) : TagsTo ρ (MPI_Wait s r st) (MPI_Wait (s.retag ρ) r (st.retag ρ)) :=
  .bind (Test_tagsTo hs r st) fun x hx => .ite Iff.rfl .abort (.ret (a := (x.sys, x.request, x.status)) hx)

theorem Request_free_tagsTo {s : Sys} (hs : TagRen ρ) (r : Int) :
    TagsTo ρ (MPI_Request_free s r) (MPI_Request_free (s.retag ρ) r) :=
  free_tagsTo r fun t => .ret (a := ({ s with handles := t }, MPI_REQUEST_NULL)) hs

/-- The state after MPI_Wait does not depend on what the status held. -/
theorem wait_status (s : Sys) (r : Int) (a b : Status) :
    (MPI_Wait s r (.obj a) >>= fun x => Res.ok x.1) = (MPI_Wait s r (.obj b) >>= fun x => Res.ok x.1) := by
  unfold MPI_Wait MPI_Test
  by_cases h : r = MPI_REQUEST_NULL
  · rw [if_pos h, if_pos h]
    rfl
  · rw [if_neg h, if_neg h]
    simp only [bind_assoc]
    refine bind_congr fun x => bind_congr fun q => ?_
    by_cases hq : q.complete ≠ 0
    · rw [if_pos hq, if_pos hq]
      simp only [StPtr.put, Res.ok_bind, bind_assoc]
      refine bind_congr fun t => ?_
      simp only [Res.pure_eq, Res.ok_bind, if_neg hq]
    · rw [if_neg hq, if_neg hq]
      simp only [Res.pure_eq, Res.ok_bind]
      rw [if_pos (by omega), if_pos (by omega)]

theorem Send_tagsTo (env : Env) {s : Sys} (hs : TagRen ρ) (buf count dt dest tag comm : Int) :
    TagsTo ρ (MPI_Send env s buf count dt dest tag comm) (MPI_Send (env.retag ρ) (s.retag ρ) buf count dt dest (ρ tag) comm) := by
  refine .bind (Isend_tagsTo env hs ..) fun x hx => ?_
  have h : TagsTo ρ (MPI_Wait x.1 x.2 (.obj ⟨0, 0, 0, 0⟩) >>= fun x => Res.ok x.1)
      (MPI_Wait (x.1.retag ρ) x.2 (StPtr.retag ρ (.obj ⟨0, 0, 0, 0⟩)) >>= fun x => Res.ok x.1) :=
    .bind (Wait_tagsTo hx x.2 _) fun y hy => .ret (a := y.1) hy
  rw [show StPtr.retag ρ (.obj ⟨0, 0, 0, 0⟩) = .obj ⟨0, ρ 0, 0, 0⟩ from rfl, wait_status (x.1.retag ρ) x.2 ⟨0, ρ 0, 0, 0⟩ ⟨0, 0, 0, 0⟩] at h
  exact h

theorem Irsend_tagsTo (env : Env) {s : Sys} (hs : TagRen ρ) (buf count dt dest tag comm : Int) :
    TagsTo ρ (MPI_Irsend env s buf count dt dest tag comm)
      (MPI_Irsend (env.retag ρ) (s.retag ρ) buf count dt dest (ρ tag) comm) := by
  unfold MPI_Irsend
  refine .bind (Isend_tagsTo env hs ..) ?_
  rintro ⟨s, h⟩ hs
  refine .bind (ptr_tagsTo hs h) ?_
  rintro ⟨s, p⟩ hs
  exact .read (retag_req s p) fun q => .ite Iff.rfl .abort (.ret (a := (s, h)) hs)

theorem Recv_tagsTo (env : Env) {s : Sys} (hs : TagRen ρ) (buf count dt src tag comm : Int) (st : StPtr) :
    TagsTo ρ (MPI_Recv env s buf count dt src tag comm st)
      (MPI_Recv (env.retag ρ) (s.retag ρ) buf count dt src (ρ tag) comm (st.retag ρ)) := by
  unfold MPI_Recv
  refine .bind (Irecv_tagsTo env hs ..) ?_
  rintro ⟨s, h⟩ hs
  refine .bind (Wait_tagsTo hs h st) ?_
  rintro ⟨s, h, st⟩ hs
  cases st with
  | null => exact .ret (a := (s, StPtr.null)) hs
  | obj st => exact .ret (a := (s, StPtr.obj { st with get_count := count })) hs
  | bad => exact .ub

theorem Sendrecv_tagsTo (env : Env) {s : Sys} (hs : TagRen ρ) (a b c x y a' b' c' x' y' comm : Int) (st : StPtr) :
    TagsTo ρ (MPI_Sendrecv env s a b c x y a' b' c' x' y' comm st)
      (MPI_Sendrecv (env.retag ρ) (s.retag ρ) a b c x (ρ y) a' b' c' x' (ρ y') comm (st.retag ρ)) := by
  unfold MPI_Sendrecv
  refine .bind (Irecv_tagsTo env hs ..) ?_
  rintro ⟨s, h⟩ hs
  refine .bind (Send_tagsTo env hs ..) fun s hs => .bind (Wait_tagsTo hs h st) ?_
  rintro ⟨s, h, st⟩ hs
  exact .ret (a := (s, st)) hs

theorem Iprobe_tagsTo {s : Sys} (hs : TagRen ρ) (src tag comm : Int) (st : StPtr) :
    TagsTo ρ (MPI_Iprobe s src tag comm st) (MPI_Iprobe (s.retag ρ) src (ρ tag) comm (st.retag ρ)) := by
  unfold MPI_Iprobe
  refine .bind (ptr_tagsTo hs comm) ?_
  rintro ⟨s, p⟩ hs
  refine .ite Iff.rfl .abort ?_
  show TagsTo ρ (s.comm p >>= _) ((s.retag ρ).comm p >>= _)
  rw [retag_comm]
  refine .skip fun c => ?_
  show TagsTo ρ (AP_list_search_func s.lists c.sendlist (mpi_match_send s tag) >>= _)
    (AP_list_search_func (s.retag ρ).lists c.sendlist (mpi_match_send (s.retag ρ) (ρ tag)) >>= _)
  rw [retag_lists, retag_match_send hs]
  refine .skip fun found => ?_
  cases found with
  | none => exact .ret (a := (s, 0, st)) hs
  | some item => exact .skip fun l => .read (retag_req s (some l)) fun q => .read (put_retag st 0 q.tag) fun st => .ret (a := (s, 1, st)) hs

theorem Probe_tagsTo {s : Sys} (hs : TagRen ρ) (src tag comm : Int) (st : StPtr) :
    TagsTo ρ (MPI_Probe s src tag comm st) (MPI_Probe (s.retag ρ) src (ρ tag) comm (st.retag ρ)) :=
  .bind (Iprobe_tagsTo hs ..) fun x hx => .ite Iff.rfl .abort (.ret (a := (x.1, x.2.2)) hx)

/-! ## Arrays of requests -/

theorem testanyLoop_tagsTo (n : Nat) : ∀ i (s : Sys) reqs st, TagRen ρ →
    TagsTo ρ (testanyLoop n i s reqs st) (testanyLoop n i (s.retag ρ) reqs (st.retag ρ)) := by
  induction n with
  | zero => intro i s reqs st hs; exact .ret (a := (s, reqs, 0, st)) hs
  | succ n ih =>
    intro i s reqs st hs
    unfold testanyLoop
    refine .skip fun h => .bind (Test_tagsTo hs h st) fun x hx => ?_
    exact .ite Iff.rfl (.ret (a := (x.sys, reqs.set i x.request, x.flag, x.status)) hx) (ih _ x.sys (reqs.set i x.request) x.status hx)

theorem Testany_tagsTo {s : Sys} (hs : TagRen ρ) (n : Int) (rs : List Int) (i : Int) (st : StPtr) :
    TagsTo ρ (MPI_Testany s n rs i st) (MPI_Testany (s.retag ρ) n rs i (st.retag ρ)) :=
  .bind (testanyLoop_tagsTo _ 0 s rs st hs) fun x hx => .ret (a := (x.1, x.2.1, i, x.2.2.1, x.2.2.2)) hx

theorem Waitany_tagsTo {s : Sys} (hs : TagRen ρ) (n : Int) (rs : List Int) (i : Int) (st : StPtr) :
    TagsTo ρ (MPI_Waitany s n rs i st) (MPI_Waitany (s.retag ρ) n rs i (st.retag ρ)) :=
  .bind (Testany_tagsTo hs n rs i st) fun x hx => .ite Iff.rfl .abort (.ret (a := (x.1, x.2.1, x.2.2.1, x.2.2.2.2)) hx)

theorem at_retag (sts : StArr) (i : Nat) : StArr.at (sts.retag ρ) i = StArr.at sts i >>= fun p => .ok (p.retag ρ) := by
  cases sts with
  | none =>
    show (if i = 0 then Res.ok StPtr.null else .ok .bad) = (if i = 0 then Res.ok StPtr.null else .ok .bad) >>= _
    by_cases h : i = 0
    · rw [if_pos h]; rfl
    · rw [if_neg h]; rfl
  | some l =>
    show rd (l.map (Status.retag ρ)) i >>= _ = (rd l i >>= _) >>= _
    unfold rd
    rw [List.getElem?_map]
    cases l[i]? <;> rfl

theorem upd_retag (sts : StArr) (i : Nat) (p : StPtr) : StArr.upd (sts.retag ρ) i (p.retag ρ) = (StArr.upd sts i p).retag ρ := by
  cases sts with
  | none => cases p <;> rfl
  | some l =>
    cases p with
    | obj st =>
      show some ((l.map (Status.retag ρ)).set i (st.retag ρ)) = some ((l.set i st).map (Status.retag ρ))
      rw [List.map_set]
    | _ => rfl

theorem testallLoop_tagsTo (n : Nat) : ∀ i (s : Sys) reqs sts flag, TagRen ρ →
    TagsTo ρ (testallLoop n i s reqs sts flag) (testallLoop n i (s.retag ρ) reqs (sts.retag ρ) flag) := by
  induction n with
  | zero => intro i s reqs sts flag hs; exact .ret (a := ((⟨s, reqs, sts⟩ : ArrRes), flag)) hs
  | succ n ih =>
    intro i s reqs sts flag hs
    unfold testallLoop
    exact .skip fun h => .read (at_retag sts i) fun p => .bind (Test_tagsTo hs h p) fun x hx =>
      (upd_retag (ρ := ρ) sts i x.status).symm ▸ ih (i + 1) x.sys (reqs.set i x.request) (StArr.upd sts i x.status) (if x.flag = 0 then 0 else flag) hx

theorem waitallLoop_tagsTo (n : Nat) : ∀ i (s : Sys) reqs sts, TagRen ρ →
    TagsTo ρ (waitallLoop n i s reqs sts) (waitallLoop n i (s.retag ρ) reqs (sts.retag ρ)) := by
  induction n with
  | zero => intro i s reqs sts hs; exact .ret (a := (⟨s, reqs, sts⟩ : ArrRes)) hs
  | succ n ih =>
    intro i s reqs sts hs
    unfold waitallLoop
    exact .skip fun h => .read (at_retag sts i) fun p => .bind (Test_tagsTo hs h p) fun x hx => .ite Iff.rfl .abort
      ((upd_retag (ρ := ρ) sts i x.status).symm ▸ ih (i + 1) x.sys (reqs.set i x.request) (StArr.upd sts i x.status) hx)

theorem testsomeLoop_tagsTo (n : Nat) : ∀ i (s : Sys) reqs sts k, TagRen ρ →
    TagsTo ρ (testsomeLoop n i s reqs sts k) (testsomeLoop n i (s.retag ρ) reqs (sts.retag ρ) k) := by
  induction n with
  | zero => intro i s reqs sts k hs; exact .ret (a := ((⟨s, reqs, sts⟩ : ArrRes), k)) hs
  | succ n ih =>
    intro i s reqs sts k hs
    unfold testsomeLoop
    exact .skip fun h => .read (at_retag sts i) fun p => .bind (Test_tagsTo hs h p) fun x hx =>
      (upd_retag (ρ := ρ) sts i x.status).symm ▸ ih (i + 1) x.sys (reqs.set i x.request) (StArr.upd sts i x.status) (if x.flag = 0 then k else k + 1) hx

theorem Testsome_tagsTo {s : Sys} (hs : TagRen ρ) (n : Int) (rs ix : List Int) (sts : StArr) :
    TagsTo ρ (MPI_Testsome s n rs ix sts) (MPI_Testsome (s.retag ρ) n rs ix (sts.retag ρ)) :=
  .bind (testsomeLoop_tagsTo _ 0 s rs sts 0 hs) fun x hx => .ret (a := (⟨x.1, x.2, ix⟩ : SomeRes)) hx

/-! ## All calls -/

/-- What a call hands back. -/
theorem TagsTo.out {A : Type} [Retag A] {f f' : Res A} (h : TagsTo ρ f f') {k k' : A → Sys × Out} {c : Call}
    (hk : ∀ a, k' (ren ρ a) = ((k a).1.retag ρ, (k a).2.retag ρ c)) :
    (f' >>= fun a => Res.ok (k' a)) = (f >>= fun a => Res.ok (k a)) >>= fun x => Res.ok (x.1.retag ρ, x.2.retag ρ c) := by
  rw [h.eq]
  cases f with
  | ok a => exact congrArg Res.ok (hk a)
  | _ => rfl

theorem kept_retag (p : StPtr) : (p.retag ρ).kept = p.kept := by cases p <;> rfl

theorem ofDone_retag (vals : List Int) (done : List StPtr) (c : Call) (hc : ∀ v, c.retagVals ρ v = v) :
    Out.ofDone vals (done.map (StPtr.retag ρ)) = (Out.ofDone vals done).retag ρ c := by
  unfold Out.ofDone Out.retag
  dsimp only
  rw [hc, List.flatMap_map]
  simp only [kept_retag]

theorem ptrs_retag (a : StArr) : (a.retag ρ).ptrs = a.ptrs.map (StPtr.retag ρ) := by
  cases a with
  | none => rfl
  | some l =>
    show (l.map (Status.retag ρ)).map StPtr.obj = (l.map StPtr.obj).map (StPtr.retag ρ)
    rw [List.map_map, List.map_map]
    rfl

theorem answer_retag (hs : TagRen ρ) (env : Env) (s : Sys) (c : Call) :
    (c.retag ρ).answer (env.retag ρ) (s.retag ρ) = c.answer env s >>= fun x => .ok (x.1.retag ρ, x.2.retag ρ c) := by
  have hext := fun (s : Sys) t => Type_extent_tagsTo (ρ := ρ) (s := s) env hs t
  have hcopy := fun (s : Sys) a b c x y z => copy_data2_tagsTo (s := s) env hs a b c x y z
  have hput : ∀ st : StPtr, (st.retag ρ).vals = st.vals.modify 1 ρ := fun st => by cases st <;> rfl
  cases c with
  | store m => rfl
  | init => exact (Init_tagsTo hs).out fun _ => rfl
  | initThread r => exact TagsTo.out (.bind (Init_tagsTo hs) fun s hs => .ret (a := (s, r)) hs) fun _ => rfl
  | fortInit a => exact (init_fort_tagsTo env a hs).out fun _ => rfl
  | initialized => rfl
  | finalize =>
    refine TagsTo.out (f := .ok (MPI_Finalize s)) (.ret hs ?_) fun _ => rfl
    show Res.ok _ = Res.ok _
    unfold MPI_Finalize mpi_destroy_handles
    rw [retag_handles]
    show _ = Res.ok (Sys.retag ρ _)
    rw [Sys.retag_eq, show (s.handles.mapData (Slot.retag ρ)).needInit = s.handles.needInit from rfl]
    cases s.handles.needInit <;> rfl
  | abort a b => rfl
  | commDup c => exact (comm_new_tagsTo hs).out fun _ => rfl
  | commCreate c g => exact TagsTo.out (.ite Iff.rfl (.ret (a := (s, MPI_COMM_NULL)) hs) (comm_new_tagsTo hs)) fun _ => rfl
  | commSplit a b c => exact TagsTo.out (.ite Iff.rfl (.ret (a := (s, MPI_COMM_NULL)) hs) (comm_new_tagsTo hs)) fun _ => rfl
  | intercommCreate a b c x y => exact TagsTo.out (.ite Iff.rfl (.ret (a := (s, MPI_COMM_NULL)) hs) (comm_new_tagsTo hs)) fun _ => rfl
  | cartCreate c n dims => exact TagsTo.out (.skip fun _ => comm_new_tagsTo hs) fun _ => rfl
  | commFree c => exact (Comm_free_tagsTo hs c).out fun _ => rfl
  | isend b n t d g c => exact (Isend_tagsTo env hs b n t d g c).out fun _ => rfl
  | irsend b n t d g c => exact (Irsend_tagsTo env hs b n t d g c).out fun _ => rfl
  | send b n t d g c => exact (Send_tagsTo env hs b n t d g c).out fun _ => rfl
  | irecv b n t d g c => exact (Irecv_tagsTo env hs b n t d g c).out fun _ => rfl
  | recv b n t d g c st => exact (Recv_tagsTo env hs b n t d g c st).out fun x => congrArg (fun v => (x.1.retag ρ, (⟨v, []⟩ : Out))) (hput x.2)
  | sendrecv b n t d g b' n' t' d' g' c st =>
    exact (Sendrecv_tagsTo env hs b n t d g b' n' t' d' g' c st).out fun x => congrArg (fun v => (x.1.retag ρ, (⟨v, []⟩ : Out))) (hput x.2)
  | iprobe d g c st =>
    exact (Iprobe_tagsTo hs d g c st).out fun x => congrArg (fun v => (x.1.retag ρ, (⟨x.2.1 :: v, []⟩ : Out))) (hput x.2.2)
  | probe d g c st => exact (Probe_tagsTo hs d g c st).out fun x => congrArg (fun v => (x.1.retag ρ, (⟨v, []⟩ : Out))) (hput x.2)
  | test r st =>
    exact (Test_tagsTo hs r st).out fun x => congrArg (Prod.mk (x.sys.retag ρ)) (ofDone_retag [x.request, x.flag] [x.status] (.test r st) fun _ => rfl)
  | wait r st =>
    exact (Wait_tagsTo hs r st).out fun x => congrArg (Prod.mk (x.1.retag ρ)) (ofDone_retag [x.2.1] [x.2.2] (.wait r st) fun _ => rfl)
  | requestFree r => exact (Request_free_tagsTo hs r).out fun _ => rfl
  | testany n rs i st =>
    exact (Testany_tagsTo hs n rs i st).out fun x =>
      congrArg (Prod.mk (x.1.retag ρ)) (ofDone_retag (x.2.2.1 :: x.2.2.2.1 :: x.2.1) [x.2.2.2.2] (.testany n rs i st) fun _ => rfl)
  | waitany n rs i st =>
    exact (Waitany_tagsTo hs n rs i st).out fun x =>
      congrArg (Prod.mk (x.1.retag ρ)) (ofDone_retag (x.2.2.1 :: x.2.1) [x.2.2.2] (.waitany n rs i st) fun _ => rfl)
  | testall n rs sts =>
    refine (testallLoop_tagsTo n.toNat 0 s rs sts 1 hs).out fun x => congrArg (Prod.mk (x.1.sys.retag ρ)) ?_
    rw [← ofDone_retag _ _ _ fun _ => rfl, ← ptrs_retag]
    rfl
  | waitall n rs sts =>
    refine (waitallLoop_tagsTo n.toNat 0 s rs sts hs).out fun x => congrArg (Prod.mk (x.sys.retag ρ)) ?_
    rw [← ofDone_retag _ _ _ fun _ => rfl, ← ptrs_retag]
    rfl
  | testsome n rs ix sts | waitsome n rs ix sts =>
    refine (Testsome_tagsTo hs n rs ix sts).out fun x => congrArg (Prod.mk (x.arr.sys.retag ρ)) ?_
    rw [← ofDone_retag _ _ _ fun _ => rfl, ← ptrs_retag]
    rfl
  | typeContiguous | typeHvector | typeVector | typeHindexed | typeIndexed | typeIndexedBlock =>
    exact (typeOf_retag env hs _ fun s _ hs => newType_tagsTo env hs _).out fun _ => rfl
  | typeStruct => exact (Type_struct_tagsTo env hs ..).out fun _ => rfl
  | typeCommit => exact (Type_commit_tagsTo env hs ..).out fun _ => rfl
  | typeFree => exact (Type_free_tagsTo hs ..).out fun _ => rfl
  | typeExtent => exact (Type_extent_tagsTo env hs ..).out fun _ => rfl
  | typeSize t => exact (typeOf_retag (A := Sys × Int) env hs t fun s _ hs => .skip fun x => .ret (a := (s, x)) hs).out fun _ => rfl
  | typeLb t => exact (typeOf_retag (A := Sys × Int) env hs t fun s x hs => .ret (a := (s, Type_lb x)) hs).out fun _ => rfl
  | typeUb t => exact (typeOf_retag (A := Sys × Int) env hs t fun s x hs => .ret (a := (s, Type_ub x)) hs).out fun _ => rfl
  | getElements st t => exact (typeOf_retag (A := Sys × Int) env hs t fun s x hs => .skip fun n => .ret (a := (s, n)) hs).out fun _ => rfl
  | pack => exact (Pack_sys_tagsTo env hs ..).out fun _ => rfl
  | packSize n t comm =>
    exact (typeOf_retag (A := Sys × Int) env hs t fun s x hs => .bind (ptr_tagsTo hs comm) fun y hy => .skip fun n => .ret (a := (y.1, n)) hy).out fun _ => rfl
  | unpack => exact (Unpack_sys_tagsTo env hs ..).out fun _ => rfl
  | barrier => exact TagsTo.out (f := .ok s) (.ret hs) fun _ => rfl
  | bcast => exact TagsTo.out (.ite Iff.rfl (.ret (a := s) hs) (.ite Iff.rfl .abort (.ret (a := s) hs))) fun _ => rfl
  | gather | scatter =>
    exact TagsTo.out (.ite Iff.rfl (.ret (a := s) hs) (.ite Iff.rfl (.ret (a := s) hs) (.ite Iff.rfl .abort (hcopy s ..)))) fun _ => rfl
  | gatherv | scatterv =>
    exact TagsTo.out (.ite Iff.rfl (.ret (a := s) hs) (.ite Iff.rfl (.ret (a := s) hs) (.ite Iff.rfl .abort
      (.bind (hext s _) fun x hx => .skip fun d => .skip fun n' => hcopy x.1 ..)))) fun _ => rfl
  | allgather | allreduce => exact TagsTo.out (.ite Iff.rfl (.ret (a := s) hs) (hcopy s ..)) fun _ => rfl
  | allgatherv =>
    exact TagsTo.out (.ite Iff.rfl (.ret (a := s) hs) (.bind (hext s _) fun x hx => .skip fun d => .skip fun n' => hcopy x.1 ..)) fun _ => rfl
  | reduce => exact TagsTo.out (.ite Iff.rfl .abort (hcopy s ..)) fun _ => rfl
  | reduceScatter => exact TagsTo.out (.skip fun _ => hcopy s ..) fun _ => rfl
  | scan | alltoall => exact (hcopy s ..).out fun _ => rfl
  | alltoallv =>
    exact TagsTo.out (.bind (hext s _) fun x hx => .bind (hext x.1 _) fun y hy => .skip fun _ => .skip fun _ => .skip fun _ =>
      .skip fun _ => hcopy y.1 ..) fun _ => rfl
  | alltoallw =>
    exact TagsTo.out (.skip fun _ => .skip fun _ => .skip fun _ => .skip fun _ => .skip fun _ => .skip fun _ => hcopy s ..) fun _ => rfl

end MpiSerial
