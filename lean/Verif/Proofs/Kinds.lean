import Verif.Proofs.KindsDesc
import Verif.Proofs.Move

/-!
# C93: every call
-/

set_option autoImplicit false
set_option linter.unusedSimpArgs false
set_option linter.unusedVariables false
set_option linter.unusedSectionVars false

namespace MpiSerial

/-- Something with a state of the library in it. -/
class Typed (A : Type) where
  heap : A → Nat → Option Typestruct
  put : (Int → Int) → (Nat → Option Typestruct) → A → A

open Typed (heap put)

instance instTypedSys : Typed Sys := ⟨Sys.theap, fun η H s => s.typed η H⟩
instance instTypedProd {B : Type} : Typed (Sys × B) := ⟨fun x => x.1.theap, fun η H x => (x.1.typed η H, x.2)⟩
instance instTypedTest : Typed TestRes := ⟨fun x => x.sys.theap, fun η H x => ⟨x.sys.typed η H, x.request, x.flag, x.status⟩⟩
instance instTypedArr : Typed ArrRes := ⟨fun x => x.sys.theap, fun η H x => ⟨x.sys.typed η H, x.reqs, x.stats⟩⟩
instance instTypedArr2 {B : Type} : Typed (ArrRes × B) :=
  ⟨fun x => x.1.sys.theap, fun η H x => (⟨x.1.sys.typed η H, x.1.reqs, x.1.stats⟩, x.2)⟩
instance instTypedSome : Typed SomeRes :=
  ⟨fun x => x.arr.sys.theap, fun η H x => ⟨⟨x.arr.sys.typed η H, x.arr.reqs, x.arr.stats⟩, x.outcount, x.indices⟩⟩

/-- `g` is `f` with other names for the datatypes and other kinds of elements. -/
def TypesTo {A : Type} [Typed A] (η : Int → Int) (cfg : Cfg) (f g : Res A) : Prop :=
  f.Rel (fun a b => ∃ H, HeapKin cfg (heap a) H ∧ b = put η H a) g

namespace TypesTo

variable {A B β γ : Type} [Typed A] [Typed B] {η : Int → Int} {cfg : Cfg}

theorem ret {a : A} {g : Res A} {H : Nat → Option Typestruct} (h : HeapKin cfg (heap a) H) (hg : g = .ok (put η H a) := by rfl) :
    TypesTo η cfg (.ok a) g := by
  subst hg
  exact ⟨H, h, rfl⟩

theorem abort {t : String} : TypesTo η cfg (Res.abort t : Res A) (.abort t) := rfl
theorem exit {t : Int} : TypesTo η cfg (Res.exit t : Res A) (.exit t) := rfl
theorem ub {t : UB} : TypesTo η cfg (Res.ub t : Res A) (.ub t) := rfl
theorem hang : TypesTo η cfg (Res.hang : Res A) .hang := trivial

theorem bind {f f' : Res A} {g g' : A → Res B} (h : TypesTo η cfg f f')
    (k : ∀ a H, HeapKin cfg (heap a) H → TypesTo η cfg (g a) (g' (put η H a))) : TypesTo η cfg (f >>= g) (f' >>= g') :=
  Res.Rel.bind h fun a b _ _ ⟨H, hH, e⟩ => by subst e; exact k a H hH

/-- Something that does not depend on datatypes. -/
theorem skip {X : Res β} {g g' : β → Res A} (k : ∀ b, TypesTo η cfg (g b) (g' b)) : TypesTo η cfg (X >>= g) (X >>= g') :=
  Res.Rel.bind_same fun b _ => k b

/-- Something in the result of which the names are changed. -/
theorem read {X : Res β} {X' : Res γ} {h : β → γ} (hX : X' = X >>= fun b => .ok (h b)) {g : β → Res A} {g' : γ → Res A}
    (k : ∀ b, TypesTo η cfg (g b) (g' (h b))) : TypesTo η cfg (X >>= g) (X' >>= g') := by
  rw [hX, bind_assoc]
  exact skip k

theorem ite {p q : Prop} [Decidable p] [Decidable q] (hpq : p ↔ q) {f g f' g' : Res A} (hf : TypesTo η cfg f f')
    (hg : TypesTo η cfg g g') : TypesTo η cfg (if p then f else g) (if q then f' else g') := by
  by_cases h : p
  · rw [if_pos h, if_pos (hpq.mp h)]; exact hf
  · rw [if_neg h, if_neg (fun h' => h (hpq.mpr h'))]; exact hg

end TypesTo

/-- Other names are used, and types are not checked. -/
class TypeSwap (env : Env) (η : Int → Int) : Prop where
  ren : TypeRen env.cfg η
  unchecked : env.cfg.typeChecking = false

variable {η : Int → Int} {H : Nat → Option Typestruct} {env : Env}

/-! ## The state of the library -/

theorem Sys.typed_eq (s : Sys) : s.typed η H = { s with handles := s.handles.mapData (Slot.retype η), theap := H } := rfl

@[simp] theorem typed_handles (s : Sys) : (s.typed η H).handles = s.handles.mapData (Slot.retype η) := rfl
@[simp] theorem typed_lists (s : Sys) : (s.typed η H).lists = s.lists := rfl
@[simp] theorem typed_theap (s : Sys) : (s.typed η H).theap = H := rfl
@[simp] theorem typed_nextType (s : Sys) : (s.typed η H).nextType = s.nextType := rfl
@[simp] theorem typed_num (s : Sys) : (s.typed η H).num = s.num := rfl
@[simp] theorem typed_clock (s : Sys) : (s.typed η H).clock = s.clock := rfl
@[simp] theorem typed_mem (s : Sys) : (s.typed η H).mem = s.mem := rfl
@[simp] theorem typed_cfg : (env.retype η).cfg = env.cfg := rfl
@[simp] theorem typed_garbage : (env.retype η).garbage = env.garbage := rfl

@[simp] theorem typed_comm (s : Sys) (p : Option Loc) : (s.typed η H).comm p = s.comm p := by
  cases p with
  | none => rfl
  | some l =>
    show (s.handles.mapData (Slot.retype η)).deref l >>= _ = s.handles.deref l >>= _
    rw [mapData_deref, bind_assoc]
    refine bind_congr fun it => ?_
    rw [Res.ok_bind]
    unfold Item.mapData
    cases it.data <;> rfl

theorem typed_req (s : Sys) (p : Option Loc) : (s.typed η H).req p = s.req p >>= fun r => .ok (r.retype η) := by
  cases p with
  | none => rfl
  | some l =>
    show (s.handles.mapData (Slot.retype η)).deref l >>= _ = (s.handles.deref l >>= _) >>= _
    rw [mapData_deref, bind_assoc, bind_assoc]
    refine bind_congr fun it => ?_
    rw [Res.ok_bind]
    unfold Item.mapData
    cases it.data <;> rfl

theorem typed_match_recv (s : Sys) (tag : Int) : mpi_match_recv (s.typed η H) tag = mpi_match_recv s tag := by
  funext r
  unfold mpi_match_recv
  rw [typed_req, bind_assoc]
  rfl

theorem typed_match_send (s : Sys) (tag : Int) : mpi_match_send (s.typed η H) tag = mpi_match_send s tag := by
  funext r
  unfold mpi_match_send
  rw [typed_req, bind_assoc]
  rfl

theorem ptr_typesTo {s : Sys} {H : Nat → Option Typestruct} (hs : HeapKin env.cfg s.theap H) (h : Int) : TypesTo η env.cfg (s.ptr h) ((s.typed η H).ptr h) := by
  unfold Sys.ptr
  refine .read (h := fun x => (x.1.mapData (Slot.retype η), x.2)) (mapData_ptr _ _ _) fun x => ?_
  exact .ret (a := ({ s with handles := x.1 }, x.2)) hs

theorem modReq_typesTo {s : Sys} {H : Nat → Option Typestruct} (hs : HeapKin env.cfg s.theap H) (l : Loc) {f f' : ReqRec → ReqRec}
    (hf : ∀ r, f' (r.retype η) = (f r).retype η) : TypesTo η env.cfg (s.modReq l f) ((s.typed η H).modReq l f') := by
  unfold Sys.modReq
  refine .read (typed_req s _) fun r => .ret (a := { s with handles := s.handles.setData l (.req (f r)) }) hs ?_
  rw [hf]
  exact congrArg (fun t => Res.ok ({ s with handles := t, theap := H } : Sys))
    (mapData_setData (Slot.retype η) s.handles l (.req (f r))).symm

theorem allocReq_typesTo {s : Sys} {H : Nat → Option Typestruct} (hs : HeapKin env.cfg s.theap H) : TypesTo η env.cfg (s.allocReq env) ((s.typed η H).allocReq (env.retype η)) := by
  unfold Sys.allocReq
  refine .read (h := fun x => (x.1.mapData (Slot.retype η), x.2)) (mapData_alloc (Slot.retype η) _ Slot.raw) fun x => ?_
  refine .ret (a := ({ s with
      handles := x.1.setData x.2.2 (.req (match (x.1.items x.2.2).data with | .req r => r | _ => env.junk s.clock)),
      clock := s.clock + 1 }, x.2.1, x.2.2)) hs ?_
  have h1 : ∀ d : Slot, Slot.req (match d.retype η with | .req r => r | _ => (env.retype η).junk s.clock)
      = Slot.retype η (.req (match d with | .req r => r | _ => env.junk s.clock)) := by intro d; cases d <;> rfl
  have h2 := mapData_setData (Slot.retype η) x.1 x.2.2
    (.req (match (x.1.items x.2.2).data with | .req r => r | _ => env.junk s.clock))
  rw [← h1] at h2
  exact congrArg (fun t => Res.ok (({ s with handles := t, clock := s.clock + 1, theap := H } : Sys), x.2.1, x.2.2)) h2.symm

/-- Releasing a handle. -/
theorem free_typesTo {A : Type} [Typed A] {s : Sys} (h : Int) {g g' : HTab Slot → Res A}
    (k : ∀ t, TypesTo η env.cfg (g t) (g' (t.mapData (Slot.retype η)))) :
    TypesTo η env.cfg (mpi_free_handle s.handles h >>= g) (mpi_free_handle (s.typed η H).handles h >>= g') :=
  .read (mapData_free (Slot.retype η) s.handles h) k

/-! ## Datatypes -/

/-- Pointers to the same descriptor, or to static ones of the same sizes. -/
def PtrKin (cfg : Cfg) (p p' : TPtr) : Prop :=
  p' = p ∨ ∃ k k' t t', p = .static k ∧ p' = .static k' ∧ (simpletypes cfg)[k]? = some t ∧ (simpletypes cfg)[k']? = some t' ∧ t.Kin cfg t'

theorem handleToDatatype_typed {A : Type} [Typed A] {s : Sys} (hs : HeapKin env.cfg s.theap H) {h h' : Int} (hh : KinTypes env.cfg h h')
    {g g' : Sys × TPtr → Res A}
    (k : ∀ (s : Sys) H p p', HeapKin env.cfg s.theap H → PtrKin env.cfg p p' → TypesTo η env.cfg (g (s, p)) (g' (s.typed η H, p'))) :
    TypesTo η env.cfg (handleToDatatype s h >>= g) (handleToDatatype (s.typed η H) h' >>= g') := by
  unfold handleToDatatype
  rcases hh with e | ⟨h1, h2, t, t', e1, e2, ht⟩
  · subst e
    by_cases h0 : h' < 0
    · rw [if_pos h0, if_pos h0, bind_assoc, bind_assoc]
      exact .skip fun p => k s H p p hs (.inl rfl)
    · rw [if_neg h0, if_neg h0, bind_assoc, bind_assoc]
      refine .bind (ptr_typesTo hs h') ?_
      rintro ⟨s, p⟩ H hs
      cases p with
      | none => exact .ub
      | some l =>
        refine (?_ : TypesTo η env.cfg ((s.handles.deref l >>= fun it => match it.data with | .dtype p => Res.ok (s, p) | _ => .ub .kind) >>= g)
          (((s.typed η H).handles.deref l >>= fun it => match it.data with | .dtype p => Res.ok (s.typed η H, p) | _ => .ub .kind) >>= g'))
        rw [bind_assoc, bind_assoc]
        refine .read (mapData_deref (Slot.retype η) s.handles l) fun it => ?_
        show TypesTo η env.cfg ((match it.data with | .dtype p => Res.ok (s, p) | _ => .ub .kind) >>= g)
          ((match it.data.retype η with | .dtype p => Res.ok (s.typed η H, p) | _ => .ub .kind) >>= g')
        cases it.data with
        | dtype p => exact k s H p p hs (.inl rfl)
        | _ => exact .ub
  · have l1 : (-1 - h).toNat < 45 := by
      have := (List.getElem?_eq_some_iff.mp e1).1
      rwa [simpletypes_length] at this
    have l2 : (-1 - h').toNat < 45 := by
      have := (List.getElem?_eq_some_iff.mp e2).1
      rwa [simpletypes_length] at this
    rw [if_pos h1, if_pos h2, show simpletypePtr h = .ok (.static (-1 - h).toNat) from if_pos l1,
      show simpletypePtr h' = .ok (.static (-1 - h').toNat) from if_pos l2]
    exact k s H _ _ hs (.inr ⟨_, _, t, t', rfl, rfl, e1, e2, ht⟩)

theorem derefType_typed {s : Sys} (hs : HeapKin env.cfg s.theap H) {p p' : TPtr} (hp : PtrKin env.cfg p p') :
    (derefType env s p).Rel (Typestruct.Kin env.cfg) (derefType (env.retype η) (s.typed η H) p') := by
  rcases hp with e | ⟨k, k', t, t', rfl, rfl, e1, e2, ht⟩
  · subst e
    cases p' with
    | null => rfl
    | static k => exact .same fun t _ => .refl t
    | heap q =>
      show Res.Rel _ (match s.theap q with | some t => .ok t | none => .ub .badPtr) (match H q with | some t => .ok t | none => .ub .badPtr)
      rcases hs q with ⟨e1, e2⟩ | ⟨t, t', e1, e2, ht⟩
      · rw [e1, e2]; rfl
      · rw [e1, e2]; exact ht
  · show Res.Rel _ (match (simpletypes env.cfg)[k]? with | some t => .ok t | none => .ub .badPtr)
      (match (simpletypes env.cfg)[k']? with | some t => .ok t | none => .ub .badPtr)
    rw [e1, e2]
    exact ht

/-- Reading a datatype and then doing something with it. -/
theorem typeOf_typed {A : Type} [Typed A] {s : Sys} (hs : HeapKin env.cfg s.theap H) {h h' : Int} (hh : KinTypes env.cfg h h')
    {g g' : Sys × Typestruct → Res A}
    (k : ∀ (s : Sys) H t t', HeapKin env.cfg s.theap H → t.Kin env.cfg t' → TypesTo η env.cfg (g (s, t)) (g' (s.typed η H, t'))) :
    TypesTo η env.cfg (typeOf env s h >>= g) (typeOf (env.retype η) (s.typed η H) h' >>= g') := by
  unfold typeOf
  rw [bind_assoc, bind_assoc]
  refine handleToDatatype_typed hs hh fun s H p p' hs hp => ?_
  refine (?_ : TypesTo η env.cfg ((derefType env s p >>= fun t => Res.ok (s, t)) >>= g)
    ((derefType (env.retype η) (s.typed η H) p' >>= fun t => Res.ok (s.typed η H, t)) >>= g'))
  rw [bind_assoc, bind_assoc]
  exact Res.Rel.bind (derefType_typed hs hp) fun t t' _ _ ht => k s H t t' hs ht

theorem HeapKin.set {cfg : Cfg} {h : Nat → Option Typestruct} (hs : HeapKin cfg h H) (q : Nat) {t t' : Typestruct} (ht : t.Kin cfg t') :
    HeapKin cfg (fun q' => if q' = q then some t else h q') (fun q' => if q' = q then some t' else H q') := by
  intro q'
  dsimp only
  by_cases e : q' = q
  · rw [if_pos e, if_pos e]; exact .inr ⟨t, t', rfl, rfl, ht⟩
  · rw [if_neg e, if_neg e]; exact hs q'

theorem HeapKin.drop {cfg : Cfg} {h : Nat → Option Typestruct} (hs : HeapKin cfg h H) (q : Nat) :
    HeapKin cfg (fun q' => if q' = q then none else h q') (fun q' => if q' = q then none else H q') := by
  intro q'
  dsimp only
  by_cases e : q' = q
  · rw [if_pos e, if_pos e]; exact .inl ⟨rfl, rfl⟩
  · rw [if_neg e, if_neg e]; exact hs q'

theorem newType_typesTo {s : Sys} (hs : HeapKin env.cfg s.theap H) {build build' : Garbage → Res Typestruct}
    (hb : ∀ g, (build g).Rel (Typestruct.Kin env.cfg) (build' g)) :
    TypesTo η env.cfg (newType env s build) (newType (env.retype η) (s.typed η H) build') := by
  unfold newType
  refine .read (h := fun x => (x.1.mapData (Slot.retype η), x.2)) (mapData_alloc (Slot.retype η) _ Slot.raw) fun x => ?_
  rw [typed_garbage, typed_nextType]
  refine Res.Rel.bind (hb _) fun ty ty' _ _ ht => ?_
  refine TypesTo.ret (a := ({ s with
      handles := x.1.setData x.2.2 (.dtype (.heap s.nextType)),
      theap := fun q => if q = s.nextType then some ty else s.theap q, nextType := s.nextType + 1 }, x.2.1)) (hs.set s.nextType ht) ?_
  exact congrArg (fun t => Res.ok (({ s with
      handles := t
      theap := fun q => if q = s.nextType then some ty' else H q, nextType := s.nextType + 1 } : Sys), x.2.1))
    (mapData_setData (Slot.retype η) x.1 x.2.2 (.dtype (.heap s.nextType))).symm

/-- The same list of component types. -/
def TypesKin (cfg : Cfg) (l l' : List Typestruct) : Prop := l'.length = l.length ∧ ∀ (i : Nat) t t', l[i]? = some t → l'[i]? = some t' → t.Kin cfg t'

theorem TypesKin.cons {cfg : Cfg} {l l' : List Typestruct} {t t' : Typestruct} (ht : t.Kin cfg t') (h : TypesKin cfg l l') :
    TypesKin cfg (t :: l) (t' :: l') := by
  refine ⟨by simp [h.1], fun i x x' e e' => ?_⟩
  cases i with
  | zero => cases e; cases e'; exact ht
  | succ i => exact h.2 i x x' e e'

theorem TypesKin.rd {cfg : Cfg} {l l' : List Typestruct} (h : TypesKin cfg l l') (i : Nat) :
    (MpiSerial.rd l i).Rel (Typestruct.Kin cfg) (MpiSerial.rd l' i) := by
  unfold MpiSerial.rd
  cases h1 : l[i]? with
  | none =>
    have : l'[i]? = none := by
      rw [List.getElem?_eq_none_iff] at h1 ⊢
      rw [h.1]; exact h1
    rw [this]; rfl
  | some t =>
    have hlt : i < l'.length := by rw [h.1]; exact (List.getElem?_eq_some_iff.mp h1).1
    have h2 : l'[i]? = some l'[i] := List.getElem?_eq_getElem hlt
    rw [h2]
    exact h.2 i _ _ h1 h2

theorem rd_map (l : List Int) (i : Nat) : rd (l.map η) i = rd l i >>= fun x => .ok (η x) := by
  unfold rd
  rw [List.getElem?_map]
  cases l[i]? <;> rfl

variable [TypeSwap env η]

theorem ren_kin (h : Int) : KinTypes env.cfg h (η h) := TypeSwap.ren h

theorem structTypes_typed (olds : List Int) (n : Nat) : ∀ {A : Type} [Typed A] i (s : Sys) (H : Nat → Option Typestruct)
    {g g' : Sys × List Typestruct → Res A}, HeapKin env.cfg s.theap H →
    (∀ (s : Sys) H l l', HeapKin env.cfg s.theap H → TypesKin env.cfg l l' → TypesTo η env.cfg (g (s, l)) (g' (s.typed η H, l'))) →
    TypesTo η env.cfg (structTypes env olds n i s >>= g) (structTypes (env.retype η) (olds.map η) n i (s.typed η H) >>= g') := by
  induction n with
  | zero => intro A _ i s H g g' hs k; exact k s H [] [] hs ⟨rfl, fun i t t' e => by cases e⟩
  | succ n ih =>
    intro A _ i s H g g' hs k
    unfold structTypes
    rw [bind_assoc, bind_assoc]
    refine .read (rd_map olds i) fun h => ?_
    rw [bind_assoc, bind_assoc]
    refine typeOf_typed hs (ren_kin h) fun s H t t' hs ht => ?_
    dsimp only
    rw [bind_assoc, bind_assoc]
    refine ih (i + 1) s H hs fun s H l l' hs hl => ?_
    exact k s H (t :: l) (t' :: l') hs (hl.cons ht)

theorem Type_struct_typesTo {s : Sys} (hs : HeapKin env.cfg s.theap H) (count : Int) (b ds o : List Int) :
    TypesTo η env.cfg (MPI_Type_struct env s count b ds o) (MPI_Type_struct (env.retype η) (s.typed η H) count b ds (o.map η)) := by
  unfold MPI_Type_struct
  refine .skip fun n => structTypes_typed o n 0 s H hs fun s H l l' hs hl => ?_
  refine newType_typesTo hs fun g => .bind (fill_kin (fun i => ?_) n 0) fun _ _ _ _ hb => Type_struct_kin hb g
  refine .bind_same fun x _ => .bind_same fun y _ => .bind (hl.rd i) fun t t' _ _ ht => ?_
  exact Block.Kin.mk rfl rfl ht

theorem Type_commit_typesTo {s : Sys} (hs : HeapKin env.cfg s.theap H) (h : Int) :
    TypesTo η env.cfg (MPI_Type_commit env s h) (MPI_Type_commit (env.retype η) (s.typed η H) (η h)) := by
  unfold MPI_Type_commit
  refine handleToDatatype_typed hs (ren_kin h) fun s H p p' hs hp => ?_
  refine Res.Rel.bind (derefType_typed hs hp) fun t t' _ _ ht => ?_
  rcases hp with e | ⟨k, k', _, _, rfl, rfl, _⟩
  · subst e
    cases p' with
    | heap q =>
      exact TypesTo.ret (a := { s with theap := fun q' => if q' = q then some { t with committed := 1 } else s.theap q' })
        (hs.set q (t := { t with committed := 1 }) (t' := { t' with committed := 1 }) ⟨ht.count, ht.ub, ht.lb, rfl, ht.o_lb, ht.o_ub, ht.len, ht.entries⟩)
    | _ => exact TypesTo.ret (a := s) hs
  · exact TypesTo.ret (a := s) hs

theorem Type_free_typesTo {s : Sys} (hs : HeapKin env.cfg s.theap H) (h : Int) :
    TypesTo η env.cfg (MPI_Type_free s h) (MPI_Type_free (s.typed η H) (η h)) := by
  unfold MPI_Type_free
  rcases ren_kin (env := env) (η := η) h with e | ⟨h1, h2, t, t', e1, e2, -⟩
  · rw [e]
    refine handleToDatatype_typed hs (.inl rfl) fun s H p p' hs hp => ?_
    rcases hp with e | ⟨k, k', _, _, rfl, rfl, _⟩
    · subst e
      refine .bind (f := freeType s p') ?_ fun s H hs => free_typesTo h fun t => .ret (a := { s with handles := t }) hs
      unfold freeType
      cases p' with
      | null => exact .ret (a := s) hs
      | static k => exact .ub
      | heap q =>
        dsimp only
        rw [typed_theap]
        rcases hs q with ⟨e1, e2⟩ | ⟨t, t', e1, e2, ht⟩
        · rw [e1, e2]; exact .ub
        · rw [e1, e2]
          exact .ret (a := { s with theap := fun q' => if q' = q then none else s.theap q' }) (hs.drop q)
    · exact .ub
  · have l1 : (-1 - h).toNat < 45 := by
      have := (List.getElem?_eq_some_iff.mp e1).1
      rwa [simpletypes_length] at this
    have l2 : (-1 - η h).toNat < 45 := by
      have := (List.getElem?_eq_some_iff.mp e2).1
      rwa [simpletypes_length] at this
    unfold handleToDatatype
    rw [if_pos h1, if_pos h2, show simpletypePtr h = .ok (.static (-1 - h).toNat) from if_pos l1,
      show simpletypePtr (η h) = .ok (.static (-1 - η h).toNat) from if_pos l2]
    exact .ub

theorem Type_extent_typesTo {s : Sys} (hs : HeapKin env.cfg s.theap H) (h : Int) :
    TypesTo η env.cfg (MPI_Type_extent env s h) (MPI_Type_extent (env.retype η) (s.typed η H) (η h)) := by
  refine typeOf_typed hs (ren_kin h) fun s H t t' hs ht => ?_
  dsimp only
  rw [typed_cfg, ht.extent]
  exact .skip fun x => .ret (a := (s, x)) hs

theorem copy_data2_typesTo {s : Sys} (hs : HeapKin env.cfg s.theap H) (a b c x y z : Int) :
    TypesTo η env.cfg (copy_data2 env s a b c x y z) (copy_data2 (env.retype η) (s.typed η H) a b (η c) x y (η z)) := by
  unfold copy_data2
  refine handleToDatatype_typed hs (ren_kin c) fun s H p p' hs hp => ?_
  refine handleToDatatype_typed hs (ren_kin z) fun s H q q' hs hq => ?_
  refine Res.Rel.bind (derefType_typed hs hp) fun t t' _ _ ht => Res.Rel.bind (derefType_typed hs hq) fun u u' _ _ hu => ?_
  show TypesTo η env.cfg _ (Pcopy_data2 env.cfg s.mem a b t' x y u' >>= _)
  rw [Pcopy_data2_kin (TypeSwap.unchecked η) ht hu]
  exact .skip (X := Pcopy_data2 env.cfg s.mem a b t x y u) fun m => .ret (a := { s with mem := m }) hs

theorem Pack_sys_typesTo {s : Sys} (hs : HeapKin env.cfg s.theap H) (a b t x y z comm : Int) :
    TypesTo η env.cfg (MPI_Pack env s a b t x y z comm) (MPI_Pack (env.retype η) (s.typed η H) a b (η t) x y z comm) := by
  unfold MPI_Pack
  refine typeOf_typed hs (ren_kin t) fun s H ty ty' hs ht => .bind (ptr_typesTo hs comm) ?_
  rintro ⟨s, p⟩ H hs
  show TypesTo η env.cfg _ (Pack env.cfg s.mem a b ty' x y z >>= _)
  rw [Pack_kin ht]
  exact .skip (X := Pack env.cfg s.mem a b ty x y z) fun r => .ret (a := ({ s with mem := r.1 }, r.2)) hs

theorem Unpack_sys_typesTo {s : Sys} (hs : HeapKin env.cfg s.theap H) (a b c x y t comm : Int) :
    TypesTo η env.cfg (MPI_Unpack env s a b c x y t comm) (MPI_Unpack (env.retype η) (s.typed η H) a b c x y (η t) comm) := by
  unfold MPI_Unpack
  refine typeOf_typed hs (ren_kin t) fun s H ty ty' hs ht => .bind (ptr_typesTo hs comm) ?_
  rintro ⟨s, p⟩ H hs
  show TypesTo η env.cfg _ (Unpack env.cfg s.mem a b c x y ty' >>= _)
  rw [Unpack_kin ht]
  exact .skip (X := Unpack env.cfg s.mem a b c x y ty) fun r => .ret (a := ({ s with mem := r.1 }, r.2)) hs

theorem comm_new_typesTo {s : Sys} {H : Nat → Option Typestruct} (hs : HeapKin env.cfg s.theap H) : TypesTo η env.cfg (mpi_comm_new s) (mpi_comm_new (s.typed η H)) := by
  unfold mpi_comm_new
  refine .read (h := fun x => (x.1.mapData (Slot.retype η), x.2)) (mapData_alloc (Slot.retype η) _ Slot.raw) fun x => ?_
  rw [typed_lists, typed_num]
  refine .skip fun y => .skip fun z => .skip fun n => ?_
  refine .ret (a := ({ s with handles := x.1.setData x.2.2 (.comm ⟨y.2, z.2, s.num⟩), lists := z.1, num := n }, x.2.1)) hs ?_
  exact congrArg (fun t => Res.ok (({ s with handles := t, lists := z.1, num := n, theap := H } : Sys), x.2.1))
    (mapData_setData (Slot.retype η) x.1 x.2.2 (.comm ⟨y.2, z.2, s.num⟩)).symm

theorem Comm_free_typesTo {s : Sys} {H : Nat → Option Typestruct} (hs : HeapKin env.cfg s.theap H) (c : Int) : TypesTo η env.cfg (MPI_Comm_free s c) (MPI_Comm_free (s.typed η H) c) := by
  unfold MPI_Comm_free
  refine .bind (ptr_typesTo hs c) ?_
  rintro ⟨s, p⟩ H hs
  show TypesTo η env.cfg (s.comm p >>= _) ((s.typed η H).comm p >>= _)
  rw [typed_comm]
  refine .skip fun c => .skip fun _ => .skip fun h => .skip fun _ => .skip fun h' => free_typesTo _ fun t => ?_
  exact .ret (a := ({ s with lists := h', handles := t }, MPI_COMM_NULL)) hs

theorem Init_typesTo {s : Sys} {H : Nat → Option Typestruct} (hs : HeapKin env.cfg s.theap H) : TypesTo η env.cfg (MPI_Init s) (MPI_Init (s.typed η H)) := by
  unfold MPI_Init
  refine .bind (comm_new_typesTo hs) ?_
  rintro ⟨s, c⟩ H hs
  exact .ite Iff.rfl .abort (.ret (a := { s with initialized := true }) hs)

theorem verify_size_typesTo (a : FortArgs) (name : String) (p q : Int) {s : Sys} {H : Nat → Option Typestruct} (hs : HeapKin env.cfg s.theap H) (err : Int) :
    TypesTo η env.cfg (verify_size env a name p q s err) (verify_size (env.retype η) a name p q (s.typed η H) err) := by
  unfold verify_size
  refine typeOf_typed hs (.inl rfl) fun s H t t' hs ht => ?_
  dsimp only
  refine Res.Rel.bind (ht.pair 0) fun x x' _ _ hx => ?_
  rw [typed_cfg, hx.2.1]
  exact TypesTo.skip fun len => .ret (a := (s, if s32 (s64 (q - p)) ≠ len then 1 else err)) hs

theorem init_fort_typesTo (a : FortArgs) {s : Sys} {H : Nat → Option Typestruct} (hs : HeapKin env.cfg s.theap H) :
    TypesTo η env.cfg (mpi_init_fort env a s) (mpi_init_fort (env.retype η) a (s.typed η H)) := by
  unfold mpi_init_fort
  refine .bind (Init_typesTo hs) fun s H hs => ?_
  unfold mpi_init_fort_checks
  refine .skip fun _ => .skip fun _ => .skip fun _ => ?_
  refine .bind (verify_size_typesTo a _ _ _ hs _) ?_
  rintro ⟨s, _⟩ H hs
  refine .bind (verify_size_typesTo a _ _ _ hs _) ?_
  rintro ⟨s, _⟩ H hs
  refine .bind (verify_size_typesTo a _ _ _ hs _) ?_
  rintro ⟨s, _⟩ H hs
  refine .bind (verify_size_typesTo a _ _ _ hs _) ?_
  rintro ⟨s, _⟩ H hs
  refine .bind (verify_size_typesTo a _ _ _ hs _) ?_
  rintro ⟨s, _⟩ H hs
  exact .ite Iff.rfl .abort (.ret (a := s) hs)

/-! ## Messages -/

theorem sendMatched_typesTo {s : Sys} {H : Nat → Option Typestruct} (hs : HeapKin env.cfg s.theap H) (buf count dt tag : Int) (rl item : Nat) (l : Loc) :
    TypesTo η env.cfg (sendMatched env s buf count dt tag rl item l)
      (sendMatched (env.retype η) (s.typed η H) buf count (η dt) tag rl item l) := by
  unfold sendMatched
  rw [typed_lists]
  refine .skip fun r => .skip fun lists => ?_
  refine .read (typed_req { s with lists := lists } (some r)) fun q => ?_
  refine .bind (copy_data2_typesTo (s := { s with lists := lists }) hs buf count dt q.buf q.count q.type)
    fun s H hs => .bind (modReq_typesTo hs r fun _ => rfl) fun s H hs => modReq_typesTo hs l fun _ => rfl

theorem recvMatched_typesTo {s : Sys} {H : Nat → Option Typestruct} (hs : HeapKin env.cfg s.theap H) (buf count dt : Int) (rl item : Nat) (l : Loc) :
    TypesTo η env.cfg (recvMatched env s buf count dt rl item l) (recvMatched (env.retype η) (s.typed η H) buf count (η dt) rl item l) := by
  unfold recvMatched
  rw [typed_lists]
  refine .skip fun r => .skip fun lists => ?_
  refine .read (typed_req { s with lists := lists } (some r)) fun q => ?_
  refine .bind (copy_data2_typesTo (s := { s with lists := lists }) hs q.buf count dt buf count dt)
    fun s H hs => .read (typed_req s (some r)) fun q => .bind (modReq_typesTo hs l fun _ => rfl) fun s H hs => modReq_typesTo hs r fun _ => rfl

theorem sendQueued_typesTo {s : Sys} {H : Nat → Option Typestruct} (hs : HeapKin env.cfg s.theap H) (buf tag : Int) (sl : Nat) (l : Loc) :
    TypesTo η env.cfg (sendQueued s buf tag sl l) (sendQueued (s.typed η H) buf tag sl l) := by
  unfold sendQueued
  refine .bind (modReq_typesTo hs l fun _ => rfl) fun s H hs => ?_
  show TypesTo η env.cfg (AP_list_append s.lists sl l >>= _) (AP_list_append (s.typed η H).lists sl l >>= _)
  rw [typed_lists]
  exact .skip fun x => modReq_typesTo (s := { s with lists := x.1 }) hs l fun _ => rfl

theorem recvQueued_typesTo {s : Sys} {H : Nat → Option Typestruct} (hs : HeapKin env.cfg s.theap H) (buf tag : Int) (sl : Nat) (l : Loc) :
    TypesTo η env.cfg (recvQueued s buf tag sl l) (recvQueued (s.typed η H) buf tag sl l) := by
  unfold recvQueued
  refine .bind (modReq_typesTo hs l fun _ => rfl) fun s H hs => ?_
  show TypesTo η env.cfg (AP_list_append s.lists sl l >>= _) (AP_list_append (s.typed η H).lists sl l >>= _)
  rw [typed_lists]
  exact .skip fun x => modReq_typesTo (s := { s with lists := x.1 }) hs l fun _ => rfl

theorem Isend_typesTo {s : Sys} {H : Nat → Option Typestruct} (hs : HeapKin env.cfg s.theap H) (buf count dt dest tag comm : Int) :
    TypesTo η env.cfg (MPI_Isend env s buf count dt dest tag comm) (MPI_Isend (env.retype η) (s.typed η H) buf count (η dt) dest tag comm) := by
  unfold MPI_Isend
  refine .bind (ptr_typesTo hs comm) ?_
  rintro ⟨s, p⟩ H hs
  refine .ite Iff.rfl .abort (.bind (allocReq_typesTo hs) ?_)
  rintro ⟨s, h, l⟩ H hs
  refine .ite Iff.rfl (.bind (modReq_typesTo hs l fun _ => rfl) fun s H hs => .ret (a := (s, h)) hs) ?_
  show TypesTo η env.cfg (s.comm p >>= _) ((s.typed η H).comm p >>= _)
  rw [typed_comm]
  refine .skip fun c => ?_
  show TypesTo η env.cfg (AP_list_search_func s.lists c.recvlist (mpi_match_recv s tag) >>= _)
    (AP_list_search_func (s.typed η H).lists c.recvlist (mpi_match_recv (s.typed η H) tag) >>= _)
  rw [typed_lists, typed_match_recv]
  refine .skip fun found => ?_
  cases found with
  | none => exact .bind (sendQueued_typesTo hs ..) fun s H hs => .ret (a := (s, h)) hs
  | some item => exact .bind (sendMatched_typesTo hs ..) fun s H hs => .ret (a := (s, h)) hs

theorem Irecv_typesTo {s : Sys} {H : Nat → Option Typestruct} (hs : HeapKin env.cfg s.theap H) (buf count dt src tag comm : Int) :
    TypesTo η env.cfg (MPI_Irecv env s buf count dt src tag comm) (MPI_Irecv (env.retype η) (s.typed η H) buf count (η dt) src tag comm) := by
  unfold MPI_Irecv
  refine .bind (ptr_typesTo hs comm) ?_
  rintro ⟨s, p⟩ H hs
  refine .ite Iff.rfl .abort (.bind (allocReq_typesTo hs) ?_)
  rintro ⟨s, h, l⟩ H hs
  refine .bind (modReq_typesTo hs l fun _ => rfl) fun s H hs =>
    .ite Iff.rfl (.bind (modReq_typesTo hs l fun _ => rfl) fun s H hs => .ret (a := (s, h)) hs) ?_
  show TypesTo η env.cfg (s.comm p >>= _) ((s.typed η H).comm p >>= _)
  rw [typed_comm]
  refine .skip fun c => ?_
  show TypesTo η env.cfg (AP_list_search_func s.lists c.sendlist (mpi_match_send s tag) >>= _)
    (AP_list_search_func (s.typed η H).lists c.sendlist (mpi_match_send (s.typed η H) tag) >>= _)
  rw [typed_lists, typed_match_send]
  refine .skip fun found => ?_
  cases found with
  | none => exact .bind (recvQueued_typesTo hs ..) fun s H hs => .ret (a := (s, h)) hs
  | some item => exact .bind (recvMatched_typesTo hs ..) fun s H hs => .ret (a := (s, h)) hs

theorem Test_typesTo {s : Sys} {H : Nat → Option Typestruct} (hs : HeapKin env.cfg s.theap H) (r : Int) (st : StPtr) : TypesTo η env.cfg (MPI_Test s r st) (MPI_Test (s.typed η H) r st) := by
  unfold MPI_Test
  refine .ite Iff.rfl (.skip fun st => .ret (a := (⟨s, r, 1, st⟩ : TestRes)) hs) (.bind (ptr_typesTo hs r) ?_)
  rintro ⟨s, p⟩ H hs
  refine .read (typed_req s p) fun q => .ite Iff.rfl (.skip fun st => free_typesTo r fun t => ?_)
    (.ret (a := (⟨s, r, q.complete, st⟩ : TestRes)) hs)
  exact .ret (a := (⟨{ s with handles := t }, MPI_REQUEST_NULL, q.complete, st⟩ : TestRes)) hs

theorem Wait_typesTo {s : Sys} {H : Nat → Option Typestruct} (hs : HeapKin env.cfg s.theap H) (r : Int) (st : StPtr) : TypesTo η env.cfg (MPI_Wait s r st) (MPI_Wait (s.typed η H) r st) :=
  .bind (Test_typesTo hs r st) fun x H hx => .ite Iff.rfl .abort (.ret (a := (x.sys, x.request, x.status)) hx)

theorem Request_free_typesTo {s : Sys} {H : Nat → Option Typestruct} (hs : HeapKin env.cfg s.theap H) (r : Int) :
    TypesTo η env.cfg (MPI_Request_free s r) (MPI_Request_free (s.typed η H) r) :=
  free_typesTo r fun t => .ret (a := ({ s with handles := t }, MPI_REQUEST_NULL)) hs

theorem Send_typesTo {s : Sys} {H : Nat → Option Typestruct} (hs : HeapKin env.cfg s.theap H) (buf count dt dest tag comm : Int) :
    TypesTo η env.cfg (MPI_Send env s buf count dt dest tag comm) (MPI_Send (env.retype η) (s.typed η H) buf count (η dt) dest tag comm) :=
  .bind (Isend_typesTo hs ..) fun x H hx => .bind (Wait_typesTo hx x.2 _) fun y H hy => .ret (a := y.1) hy

theorem Irsend_typesTo {s : Sys} {H : Nat → Option Typestruct} (hs : HeapKin env.cfg s.theap H) (buf count dt dest tag comm : Int) :
    TypesTo η env.cfg (MPI_Irsend env s buf count dt dest tag comm)
      (MPI_Irsend (env.retype η) (s.typed η H) buf count (η dt) dest tag comm) := by
  unfold MPI_Irsend
  refine .bind (Isend_typesTo hs ..) ?_
  rintro ⟨s, h⟩ H hs
  refine .bind (ptr_typesTo hs h) ?_
  rintro ⟨s, p⟩ H hs
  exact .read (typed_req s p) fun q => .ite Iff.rfl .abort (.ret (a := (s, h)) hs)

theorem Recv_typesTo {s : Sys} {H : Nat → Option Typestruct} (hs : HeapKin env.cfg s.theap H) (buf count dt src tag comm : Int) (st : StPtr) :
    TypesTo η env.cfg (MPI_Recv env s buf count dt src tag comm st)
      (MPI_Recv (env.retype η) (s.typed η H) buf count (η dt) src tag comm st) := by
  unfold MPI_Recv
  refine .bind (Irecv_typesTo hs ..) ?_
  rintro ⟨s, h⟩ H hs
  refine .bind (Wait_typesTo hs h st) ?_
  rintro ⟨s, h, st⟩ H hs
  cases st with
  | null => exact .ret (a := (s, StPtr.null)) hs
  | obj st => exact .ret (a := (s, StPtr.obj { st with get_count := count })) hs
  | bad => exact .ub

theorem Sendrecv_typesTo {s : Sys} {H : Nat → Option Typestruct} (hs : HeapKin env.cfg s.theap H) (a b c x y a' b' c' x' y' comm : Int) (st : StPtr) :
    TypesTo η env.cfg (MPI_Sendrecv env s a b c x y a' b' c' x' y' comm st)
      (MPI_Sendrecv (env.retype η) (s.typed η H) a b (η c) x y a' b' (η c') x' y' comm st) := by
  unfold MPI_Sendrecv
  refine .bind (Irecv_typesTo hs ..) ?_
  rintro ⟨s, h⟩ H hs
  refine .bind (Send_typesTo hs ..) fun s H hs => .bind (Wait_typesTo hs h st) ?_
  rintro ⟨s, h, st⟩ H hs
  exact .ret (a := (s, st)) hs

theorem Iprobe_typesTo {s : Sys} {H : Nat → Option Typestruct} (hs : HeapKin env.cfg s.theap H) (src tag comm : Int) (st : StPtr) :
    TypesTo η env.cfg (MPI_Iprobe s src tag comm st) (MPI_Iprobe (s.typed η H) src tag comm st) := by
  unfold MPI_Iprobe
  refine .bind (ptr_typesTo hs comm) ?_
  rintro ⟨s, p⟩ H hs
  refine .ite Iff.rfl .abort ?_
  show TypesTo η env.cfg (s.comm p >>= _) ((s.typed η H).comm p >>= _)
  rw [typed_comm]
  refine .skip fun c => ?_
  show TypesTo η env.cfg (AP_list_search_func s.lists c.sendlist (mpi_match_send s tag) >>= _)
    (AP_list_search_func (s.typed η H).lists c.sendlist (mpi_match_send (s.typed η H) tag) >>= _)
  rw [typed_lists, typed_match_send]
  refine .skip fun found => ?_
  cases found with
  | none => exact .ret (a := (s, 0, st)) hs
  | some item => exact .skip fun l => .read (typed_req s (some l)) fun q => .skip fun st => .ret (a := (s, 1, st)) hs

theorem Probe_typesTo {s : Sys} {H : Nat → Option Typestruct} (hs : HeapKin env.cfg s.theap H) (src tag comm : Int) (st : StPtr) :
    TypesTo η env.cfg (MPI_Probe s src tag comm st) (MPI_Probe (s.typed η H) src tag comm st) :=
  .bind (Iprobe_typesTo hs ..) fun x H hx => .ite Iff.rfl .abort (.ret (a := (x.1, x.2.2)) hx)

/-! ## Arrays of requests -/

theorem testanyLoop_typesTo (n : Nat) : ∀ i (s : Sys) (H : Nat → Option Typestruct) reqs st, HeapKin env.cfg s.theap H →
    TypesTo η env.cfg (testanyLoop n i s reqs st) (testanyLoop n i (s.typed η H) reqs st) := by
  induction n with
  | zero => intro i s H reqs st hs; exact .ret (a := (s, reqs, 0, st)) hs
  | succ n ih =>
    intro i s H reqs st hs
    unfold testanyLoop
    refine .skip fun h => .bind (Test_typesTo hs h st) fun x H hx => ?_
    exact .ite Iff.rfl (.ret (a := (x.sys, reqs.set i x.request, x.flag, x.status)) hx) (ih _ x.sys H (reqs.set i x.request) x.status hx)

theorem Testany_typesTo {s : Sys} {H : Nat → Option Typestruct} (hs : HeapKin env.cfg s.theap H) (n : Int) (rs : List Int) (i : Int) (st : StPtr) :
    TypesTo η env.cfg (MPI_Testany s n rs i st) (MPI_Testany (s.typed η H) n rs i st) :=
  .bind (testanyLoop_typesTo _ 0 s H rs st hs) fun x H hx => .ret (a := (x.1, x.2.1, i, x.2.2.1, x.2.2.2)) hx

theorem Waitany_typesTo {s : Sys} {H : Nat → Option Typestruct} (hs : HeapKin env.cfg s.theap H) (n : Int) (rs : List Int) (i : Int) (st : StPtr) :
    TypesTo η env.cfg (MPI_Waitany s n rs i st) (MPI_Waitany (s.typed η H) n rs i st) :=
  .bind (Testany_typesTo hs n rs i st) fun x H hx => .ite Iff.rfl .abort (.ret (a := (x.1, x.2.1, x.2.2.1, x.2.2.2.2)) hx)

theorem testallLoop_typesTo (n : Nat) : ∀ i (s : Sys) (H : Nat → Option Typestruct) reqs sts flag, HeapKin env.cfg s.theap H →
    TypesTo η env.cfg (testallLoop n i s reqs sts flag) (testallLoop n i (s.typed η H) reqs sts flag) := by
  induction n with
  | zero => intro i s H reqs sts flag hs; exact .ret (a := ((⟨s, reqs, sts⟩ : ArrRes), flag)) hs
  | succ n ih =>
    intro i s H reqs sts flag hs
    unfold testallLoop
    exact .skip fun h => .skip fun p => .bind (Test_typesTo hs h p) fun x H hx =>
      ih (i + 1) x.sys H (reqs.set i x.request) (StArr.upd sts i x.status) (if x.flag = 0 then 0 else flag) hx

theorem waitallLoop_typesTo (n : Nat) : ∀ i (s : Sys) (H : Nat → Option Typestruct) reqs sts, HeapKin env.cfg s.theap H →
    TypesTo η env.cfg (waitallLoop n i s reqs sts) (waitallLoop n i (s.typed η H) reqs sts) := by
  induction n with
  | zero => intro i s H reqs sts hs; exact .ret (a := (⟨s, reqs, sts⟩ : ArrRes)) hs
  | succ n ih =>
    intro i s H reqs sts hs
    unfold waitallLoop
    exact .skip fun h => .skip fun p => .bind (Test_typesTo hs h p) fun x H hx => .ite Iff.rfl .abort
      (ih (i + 1) x.sys H (reqs.set i x.request) (StArr.upd sts i x.status) hx)

theorem testsomeLoop_typesTo (n : Nat) : ∀ i (s : Sys) (H : Nat → Option Typestruct) reqs sts k, HeapKin env.cfg s.theap H →
    TypesTo η env.cfg (testsomeLoop n i s reqs sts k) (testsomeLoop n i (s.typed η H) reqs sts k) := by
  induction n with
  | zero => intro i s H reqs sts k hs; exact .ret (a := ((⟨s, reqs, sts⟩ : ArrRes), k)) hs
  | succ n ih =>
    intro i s H reqs sts k hs
    unfold testsomeLoop
    exact .skip fun h => .skip fun p => .bind (Test_typesTo hs h p) fun x H hx =>
      ih (i + 1) x.sys H (reqs.set i x.request) (StArr.upd sts i x.status) (if x.flag = 0 then k else k + 1) hx

theorem Testsome_typesTo {s : Sys} {H : Nat → Option Typestruct} (hs : HeapKin env.cfg s.theap H) (n : Int) (rs ix : List Int) (sts : StArr) :
    TypesTo η env.cfg (MPI_Testsome s n rs ix sts) (MPI_Testsome (s.typed η H) n rs ix sts) :=
  .bind (testsomeLoop_typesTo _ 0 s H rs sts 0 hs) fun x H hx => .ret (a := (⟨x.1, x.2, ix⟩ : SomeRes)) hx

/-! ## All calls -/

theorem Alltoallw_typesTo {s : Sys} (hs : HeapKin env.cfg s.theap H) (a : Int) (ns ds ts : List Int) (x : Int) (ns' ds' ts' : List Int)
    (c : Int) : TypesTo η env.cfg (MPI_Alltoallw env s a ns ds ts x ns' ds' ts' c)
      (MPI_Alltoallw (env.retype η) (s.typed η H) a ns ds (ts.map η) x ns' ds' (ts'.map η) c) := by
  unfold MPI_Alltoallw
  refine .skip fun sd => ?_
  refine .skip fun sn => ?_
  refine .read (rd_map (η := η) ts 0) fun st => ?_
  refine .skip fun rdi => ?_
  refine .skip fun rn => ?_
  exact .read (rd_map (η := η) ts' 0) fun rt => copy_data2_typesTo hs ..

/-- What a call hands back. -/
theorem TypesTo.out {A : Type} [Typed A] {f f' : Res A} (h : TypesTo η env.cfg f f') {k k' : A → Sys × Out}
    (hk : ∀ a H, k' (put η H a) = ((k a).1.typed η H, (k a).2)) (hh : ∀ a, heap a = (k a).1.theap := by intros; rfl) :
    TypesTo η env.cfg (f >>= fun a => Res.ok (k a)) (f' >>= fun a => Res.ok (k' a)) :=
  .bind h fun a H hH => .ret (a := k a) (H := H) (by show HeapKin _ (k a).1.theap H; rw [← hh]; exact hH) (congrArg Res.ok (hk a H))

theorem answer_typed {s : Sys} (hs : HeapKin env.cfg s.theap H) (c : Call) :
    TypesTo η env.cfg (c.answer env s) ((c.retype η).answer (env.retype η) (s.typed η H)) := by
  have hext := fun {s : Sys} {H} (hs : HeapKin env.cfg s.theap H) t => Type_extent_typesTo (η := η) hs t
  have hcopy := fun {s : Sys} {H} (hs : HeapKin env.cfg s.theap H) a b c x y z => copy_data2_typesTo (η := η) hs a b c x y z
  cases c with
  | store m => exact .ret (a := (({ s with mem := m } : Sys), (⟨[], []⟩ : Out))) hs
  | init => exact (Init_typesTo hs).out fun _ _ => rfl
  | initThread r => exact TypesTo.out (.bind (Init_typesTo hs) fun s H hs => .ret (a := (s, r)) hs) fun _ _ => rfl
  | fortInit a => exact (init_fort_typesTo a hs).out fun _ _ => rfl
  | initialized => exact .ret (a := (s, (⟨[MPI_Initialized s], []⟩ : Out))) hs
  | finalize =>
    refine TypesTo.out (f := .ok (MPI_Finalize s)) (.ret hs ?_) fun _ _ => rfl
    show Res.ok _ = Res.ok _
    unfold MPI_Finalize mpi_destroy_handles
    rw [typed_handles]
    show _ = Res.ok (Sys.typed η H _)
    rw [Sys.typed_eq, show (s.handles.mapData (Slot.retype η)).needInit = s.handles.needInit from rfl]
    cases s.handles.needInit <;> rfl
  | abort a b => exact TypesTo.out (f := MPI_Abort a b >>= fun _ => .ok s) (.skip fun _ => .ret hs) fun _ _ => rfl
  | commDup c => exact (comm_new_typesTo hs).out fun _ _ => rfl
  | commCreate c g => exact TypesTo.out (.ite Iff.rfl (.ret (a := (s, MPI_COMM_NULL)) hs) (comm_new_typesTo hs)) fun _ _ => rfl
  | commSplit a b c => exact TypesTo.out (.ite Iff.rfl (.ret (a := (s, MPI_COMM_NULL)) hs) (comm_new_typesTo hs)) fun _ _ => rfl
  | intercommCreate a b c x y => exact TypesTo.out (.ite Iff.rfl (.ret (a := (s, MPI_COMM_NULL)) hs) (comm_new_typesTo hs)) fun _ _ => rfl
  | cartCreate c n dims => exact TypesTo.out (.skip fun _ => comm_new_typesTo hs) fun _ _ => rfl
  | commFree c => exact (Comm_free_typesTo hs c).out fun _ _ => rfl
  | isend b n t d g c => exact (Isend_typesTo hs b n t d g c).out fun _ _ => rfl
  | irsend b n t d g c => exact (Irsend_typesTo hs b n t d g c).out fun _ _ => rfl
  | send b n t d g c => exact (Send_typesTo hs b n t d g c).out fun _ _ => rfl
  | irecv b n t d g c => exact (Irecv_typesTo hs b n t d g c).out fun _ _ => rfl
  | recv b n t d g c st => exact (Recv_typesTo hs b n t d g c st).out fun _ _ => rfl
  | sendrecv b n t d g b' n' t' d' g' c st =>
    exact (Sendrecv_typesTo hs b n t d g b' n' t' d' g' c st).out fun _ _ => rfl
  | iprobe d g c st =>
    exact (Iprobe_typesTo hs d g c st).out fun _ _ => rfl
  | probe d g c st => exact (Probe_typesTo hs d g c st).out fun _ _ => rfl
  | test r st =>
    exact (Test_typesTo hs r st).out fun _ _ => rfl
  | wait r st =>
    exact (Wait_typesTo hs r st).out fun _ _ => rfl
  | requestFree r => exact (Request_free_typesTo hs r).out fun _ _ => rfl
  | testany n rs i st =>
    exact (Testany_typesTo hs n rs i st).out fun _ _ => rfl
  | waitany n rs i st =>
    exact (Waitany_typesTo hs n rs i st).out fun _ _ => rfl
  | testall n rs sts =>
    exact (testallLoop_typesTo n.toNat 0 s H rs sts 1 hs).out fun _ _ => rfl
  | waitall n rs sts =>
    exact (waitallLoop_typesTo n.toNat 0 s H rs sts hs).out fun _ _ => rfl
  | testsome n rs ix sts | waitsome n rs ix sts =>
    exact (Testsome_typesTo hs n rs ix sts).out fun _ _ => rfl
  | typeContiguous => exact (typeOf_typed hs (ren_kin _) fun s H t t' hs ht => newType_typesTo hs fun g => Type_contiguous_kin ht g ..).out fun _ _ => rfl
  | typeHvector => exact (typeOf_typed hs (ren_kin _) fun s H t t' hs ht => newType_typesTo hs fun g => Type_hvector_kin ht g ..).out fun _ _ => rfl
  | typeVector => exact (typeOf_typed hs (ren_kin _) fun s H t t' hs ht => newType_typesTo hs fun g => Type_vector_kin ht g ..).out fun _ _ => rfl
  | typeHindexed => exact (typeOf_typed hs (ren_kin _) fun s H t t' hs ht => newType_typesTo hs fun g => Type_hindexed_kin ht g ..).out fun _ _ => rfl
  | typeIndexed => exact (typeOf_typed hs (ren_kin _) fun s H t t' hs ht => newType_typesTo hs fun g => Type_indexed_kin ht g ..).out fun _ _ => rfl
  | typeIndexedBlock => exact (typeOf_typed hs (ren_kin _) fun s H t t' hs ht => newType_typesTo hs fun g => Type_create_indexed_block_kin ht g ..).out fun _ _ => rfl
  | typeStruct => exact (Type_struct_typesTo hs ..).out fun _ _ => rfl
  | typeCommit => exact (Type_commit_typesTo hs ..).out fun _ _ => rfl
  | typeFree => exact (Type_free_typesTo hs ..).out fun _ _ => rfl
  | typeExtent => exact (Type_extent_typesTo hs ..).out fun _ _ => rfl
  | typeSize t =>
    refine TypesTo.out (typeOf_typed (A := Sys × Int) hs (ren_kin t) fun s H d d' hs hd => ?_) fun _ _ => rfl
    dsimp only
    rw [typed_cfg, hd.size]
    exact .skip fun x => .ret (a := (s, x)) hs
  | typeLb t =>
    refine TypesTo.out (typeOf_typed (A := Sys × Int) hs (ren_kin t) fun s H d d' hs hd => ?_) fun _ _ => rfl
    dsimp only
    rw [show Type_lb d' = Type_lb d from congrArg u64 hd.lb]
    exact .ret (a := (s, Type_lb d)) hs
  | typeUb t =>
    refine TypesTo.out (typeOf_typed (A := Sys × Int) hs (ren_kin t) fun s H d d' hs hd => ?_) fun _ _ => rfl
    dsimp only
    rw [show Type_ub d' = Type_ub d from congrArg u64 hd.ub]
    exact .ret (a := (s, Type_ub d)) hs
  | getElements st t =>
    refine TypesTo.out (typeOf_typed (A := Sys × Int) hs (ren_kin t) fun s H d d' hs hd => ?_) fun _ _ => rfl
    dsimp only
    rw [hd.count]
    exact .skip fun x => .ret (a := (s, x)) hs
  | pack => exact (Pack_sys_typesTo hs ..).out fun _ _ => rfl
  | packSize n t comm =>
    refine TypesTo.out (typeOf_typed (A := Sys × Int) hs (ren_kin t) fun s H d d' hs hd => .bind (ptr_typesTo hs comm) fun y H hy => ?_) fun _ _ => rfl
    rw [typed_cfg, hd.packSize]
    exact .skip fun x => .ret (a := (y.1, x)) hy
  | unpack => exact (Unpack_sys_typesTo hs ..).out fun _ _ => rfl
  | barrier => exact TypesTo.out (f := .ok s) (.ret hs) fun _ _ => rfl
  | bcast => exact TypesTo.out (.ite Iff.rfl (.ret (a := s) hs) (.ite Iff.rfl .abort (.ret (a := s) hs))) fun _ _ => rfl
  | gather | scatter =>
    exact TypesTo.out (.ite Iff.rfl (.ret (a := s) hs) (.ite Iff.rfl (.ret (a := s) hs) (.ite Iff.rfl .abort (hcopy hs ..)))) fun _ _ => rfl
  | gatherv | scatterv =>
    exact TypesTo.out (.ite Iff.rfl (.ret (a := s) hs) (.ite Iff.rfl (.ret (a := s) hs) (.ite Iff.rfl .abort
      (.bind (hext hs _) fun x H hx => .skip fun d => .skip fun n' => hcopy hx ..)))) fun _ _ => rfl
  | allgather | allreduce => exact TypesTo.out (.ite Iff.rfl (.ret (a := s) hs) (hcopy hs ..)) fun _ _ => rfl
  | allgatherv =>
    exact TypesTo.out (.ite Iff.rfl (.ret (a := s) hs) (.bind (hext hs _) fun x H hx => .skip fun d => .skip fun n' => hcopy hx ..)) fun _ _ => rfl
  | reduce => exact TypesTo.out (.ite Iff.rfl .abort (hcopy hs ..)) fun _ _ => rfl
  | reduceScatter => exact TypesTo.out (.skip fun _ => hcopy hs ..) fun _ _ => rfl
  | scan | alltoall => exact (hcopy hs ..).out fun _ _ => rfl
  | alltoallv =>
    exact TypesTo.out (.bind (hext hs _) fun x H hx => .bind (hext hx _) fun y H' hy => .skip fun _ => .skip fun _ => .skip fun _ =>
      .skip fun _ => hcopy hy ..) fun _ _ => rfl
  | alltoallw a ns ds ts x ns' ds' ts' c => exact (Alltoallw_typesTo hs a ns ds ts x ns' ds' ts' c).out fun _ _ => rfl

end MpiSerial
