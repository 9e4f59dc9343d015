import Verif.Proofs.Inited
import Verif.Proofs.Sys

/-!
# Which steps change the heap of datatype descriptors, and how many there are
-/

set_option linter.unusedSimpArgs false
set_option autoImplicit false

namespace MpiSerial

open Res (Post)

section
variable {env : Env} {b : Nat → Option Typestruct}

/-- The descriptor heap is `b`. -/
abbrev TH (b : Nat → Option Typestruct) (s : Sys) : Prop := s.theap = b

theorem ptr_th {s : Sys} (h : TH b s) (x : Int) : (s.ptr x).Post (fun r => TH b r.1) :=
  Post.bind_ fun _ => .ok h

theorem modReq_th {s : Sys} (h : TH b s) (l : Loc) (f : ReqRec → ReqRec) : (s.modReq l f).Post (TH b) :=
  Post.bind_ fun _ => .ok h

theorem allocReq_th {s : Sys} (h : TH b s) : (s.allocReq env).Post (fun r => TH b r.1) :=
  Post.bind_ fun _ => .ok h

theorem toType_th {s : Sys} (h : TH b s) (x : Int) : (handleToDatatype s x).Post (fun r => TH b r.1) := by
  unfold handleToDatatype
  refine .ite (Post.bind_ fun _ => .ok h) ((ptr_th h x).bind fun r hr => ?_)
  obtain ⟨s1, p⟩ := r
  cases p with
  | none => exact .ub
  | some l =>
    refine Post.bind_ fun it => ?_
    split
    · exact .ok hr
    · exact .ub

theorem copy_th {s : Sys} (h : TH b s) (p n a q k c : Int) : (copy_data2 env s p n a q k c).Post (TH b) :=
  (toType_th h a).bind fun _ h1 => (toType_th h1 c).bind fun _ h2 =>
    Post.bind_ fun _ => Post.bind_ fun _ => Post.bind_ fun _ => .ok h2

theorem isend_th {s : Sys} (h : TH b s) (buf count dtype dest tag comm : Int) :
    (MPI_Isend env s buf count dtype dest tag comm).Post (fun r => TH b r.1) := by
  unfold MPI_Isend
  refine (ptr_th h comm).bind fun x1 h1 => .ite .abort ((allocReq_th h1).bind fun x2 h2 => .ite ?_ ?_)
  · exact (modReq_th h2 _ _).bind fun _ h3 => .ok h3
  · refine Post.bind_ fun c => Post.bind_ fun f => ?_
    cases f with
    | some item =>
      refine Post.bind (P := TH b) ?_ fun _ h3 => .ok h3
      exact Post.bind_ fun _ => Post.bind_ fun l => Post.bind_ fun _ => Post.bind (copy_th (s := { x2.1 with lists := l }) h2 _ _ _ _ _ _) fun _ h4 =>
        (modReq_th h4 _ _).bind fun _ h5 => modReq_th h5 _ _
    | none =>
      refine Post.bind (P := TH b) ?_ fun _ h3 => .ok h3
      exact (modReq_th h2 _ _).bind fun s3 h3 => Post.bind_ fun x => modReq_th (s := { s3 with lists := x.1 }) h3 _ _

theorem irecv_th {s : Sys} (h : TH b s) (buf count dtype src tag comm : Int) :
    (MPI_Irecv env s buf count dtype src tag comm).Post (fun r => TH b r.1) := by
  unfold MPI_Irecv
  refine (ptr_th h comm).bind fun x1 h1 => .ite .abort ((allocReq_th h1).bind fun x2 h2 =>
    (modReq_th h2 _ _).bind fun s3 h3 => .ite ?_ ?_)
  · exact (modReq_th h3 _ _).bind fun _ h3 => .ok h3
  · refine Post.bind_ fun c => Post.bind_ fun f => ?_
    cases f with
    | some item =>
      refine Post.bind (P := TH b) ?_ fun _ h3 => .ok h3
      exact Post.bind_ fun _ => Post.bind_ fun l => Post.bind_ fun _ => Post.bind (copy_th (s := { s3 with lists := l }) h3 _ _ _ _ _ _) fun _ h4 =>
        Post.bind_ fun _ => (modReq_th h4 _ _).bind fun _ h5 => modReq_th h5 _ _
    | none =>
      refine Post.bind (P := TH b) ?_ fun _ h3 => .ok h3
      exact (modReq_th h3 _ _).bind fun s3 h3 => Post.bind_ fun x => modReq_th (s := { s3 with lists := x.1 }) h3 _ _

theorem test_th {s : Sys} (h : TH b s) (r : Int) (st : StPtr) : (MPI_Test s r st).Post (fun r => TH b r.sys) := by
  unfold MPI_Test
  refine .ite (Post.bind_ fun _ => .ok h) ((ptr_th h r).bind fun x h1 => Post.bind_ fun _ => .ite ?_ (.ok h1))
  exact Post.bind_ fun _ => Post.bind_ fun _ => .ok h1

theorem commNew_th {s : Sys} (h : TH b s) : (mpi_comm_new s).Post (fun r => TH b r.1) :=
  Post.bind_ fun _ => Post.bind_ fun _ => Post.bind_ fun _ => Post.bind_ fun _ => .ok h

theorem commFree_th {s : Sys} (h : TH b s) (c : Int) : (MPI_Comm_free s c).Post (fun r => TH b r.1) :=
  (ptr_th h c).bind fun _ h => Post.bind_ fun _ => Post.bind_ fun _ => Post.bind_ fun _ => Post.bind_ fun _ =>
    Post.bind_ fun _ => Post.bind_ fun _ => .ok h

theorem requestFree_th {s : Sys} (h : TH b s) (r : Int) : (MPI_Request_free s r).Post (fun r => TH b r.1) :=
  Post.bind_ fun _ => .ok h

theorem init_th {s : Sys} (h : TH b s) : (MPI_Init s).Post (TH b) :=
  (commNew_th h).bind fun _ h1 => .ite .abort (.ok h1)

theorem CommCall.th {s : Sys} (h : TH b s) {r : Res (Sys × Int)} (hc : CommCall s r) : r.Post (fun r => TH b r.1) := by
  intro a ha
  rcases hc.eq (by rw [ha]; rfl) with he | he <;> rw [he] at ha
  · cases ha; exact h
  · exact commNew_th h a ha

end

/-! ## Counting descriptors -/

/-- Is it a datatype? -/
def Obj.isType : Obj → Bool
  | .dtype _ => true
  | _ => false

theorem liveTypes_eq (L : Ledger) : L.liveTypes = L.objs.countP (fun e => e.2.isType) := rfl

theorem countP_release {A : List (Int × Obj)} {h : Int} {o : Obj} (p : Int × Obj → Bool) (hn : (A.map Prod.fst).Nodup)
    (hm : (h, o) ∈ A) :
    A.countP p = (A.filter (fun e => decide (e.1 ≠ h))).countP p + (if p (h, o) then 1 else 0) := by
  induction A with
  | nil => simp at hm
  | cons e A ih =>
    simp only [List.map_cons, List.nodup_cons] at hn
    rcases List.mem_cons.1 hm with he | hm'
    · subst he
      have hrest : A.filter (fun e => decide (e.1 ≠ h)) = A := by
        rw [List.filter_eq_self]
        intro e he
        simp only [decide_eq_true_eq]
        exact fun h2 => hn.1 (List.mem_map.2 ⟨e, he, h2⟩)
      rw [List.filter_cons_of_neg (by simp), hrest, List.countP_cons]
    · have hne : e.1 ≠ h := fun h2 => hn.1 (List.mem_map.2 ⟨_, hm', h2.symm⟩)
      rw [List.filter_cons_of_pos (by simp [hne]), List.countP_cons, List.countP_cons, ih hn.2 hm']
      omega

theorem liveTypes_release {s : Sys} {L : Ledger} {M : AbsLists Loc} {lst : Nat → Kind → Nat} (hi : Inv s L M lst)
    {h : Int} {o : Obj} (hm : (h, o) ∈ L.objs) :
    L.liveTypes = (L.release h).liveTypes + (if o.isType then 1 else 0) := by
  rw [liveTypes_eq, liveTypes_eq]
  exact countP_release _ hi.hst.nodup hm

theorem liveTypes_commit (L : Ledger) (h : Int) : (L.commit h).liveTypes = L.liveTypes := by
  rw [liveTypes_eq, liveTypes_eq]
  unfold Ledger.commit
  dsimp only
  rw [List.countP_map]
  apply List.countP_congr
  rintro ⟨h', o⟩ _
  cases o with
  | dtype t => simp only [Function.comp]; split <;> simp [Obj.isType]
  | _ => simp [Function.comp, Obj.isType]

/-- The allocated descriptors, each once, are as many as the live derived datatypes and those lost at MPI_Finalize. -/
def TypeStore (s : Sys) (L : Ledger) : Prop :=
  ∃ ps : List Nat, ps.Nodup ∧ (∀ p, p ∈ ps ↔ s.theap p ≠ none) ∧ ps.length = L.liveTypes + L.tlost

theorem TypeStore.same {s s' : Sys} {L L' : Ledger} (h : TypeStore s L) (h1 : s'.theap = s.theap)
    (h2 : L'.liveTypes = L.liveTypes) (h3 : L'.tlost = L.tlost) : TypeStore s' L' := by
  obtain ⟨ps, a, b, c⟩ := h
  exact ⟨ps, a, by rw [h1]; exact b, by rw [h2, h3]; exact c⟩

theorem post_live (L : Ledger) (k : Kind) (c : Nat) (tag buf count dtype h : Int) :
    (L.post k c tag buf count dtype h).liveTypes = L.liveTypes ∧
    (L.post k c tag buf count dtype h).tlost = L.tlost := by
  unfold Ledger.post
  split <;> simp [liveTypes_eq, Obj.isType, List.countP_cons]

theorem Step.store {env : Env} {s s' : Sys} {L L' : Ledger} {M : AbsLists Loc} {lst : Nat → Kind → Nat}
    (hi : Inv s L M lst) (hS : TypeStore s L) (h : Step env s L s' L') : TypeStore s' L' := by
  cases h with
  | memory => exact hS.same rfl rfl rfl
  | init _ _ h3 => exact hS.same (init_th rfl _ h3) (by simp [liveTypes_eq, Ledger.addComm, Obj.isType]) rfl
  | finalize =>
    obtain ⟨ps, a, b, c⟩ := hS
    exact ⟨ps, a, b, by rw [c]; simp [Ledger.finalize, liveTypes_eq]; omega⟩
  | @comm _ _ h _ _ hc hr hx =>
    subst hx
    refine hS.same (hr.th rfl _ rfl) ?_ ?_ <;> unfold Ledger.noteComm <;> split <;>
      simp [liveTypes_eq, Ledger.addComm, Obj.isType]
  | commFree hm hr =>
    refine hS.same (commFree_th rfl _ _ hr) ?_ rfl
    have := liveTypes_release hi hm
    simp only [Obj.isType, Bool.false_eq_true, if_false] at this
    exact this.symm
  | isend hm hu hr => exact hS.same (isend_th rfl _ _ _ _ _ _ _ hr) (post_live ..).1 (post_live ..).2
  | irecv hm hu _ hr => exact hS.same (irecv_th rfl _ _ _ _ _ _ _ hr) (post_live ..).1 (post_live ..).2
  | isendNull hm hr =>
    exact hS.same (isend_th rfl _ _ _ _ _ _ _ hr) (by simp [liveTypes_eq, Ledger.postNull, Obj.isType]) rfl
  | irecvNull hm hr =>
    exact hS.same (irecv_th rfl _ _ _ _ _ _ _ hr) (by simp [liveTypes_eq, Ledger.postNull, Obj.isType]) rfl
  | test hm hr =>
    have := liveTypes_release hi hm
    simp only [Obj.isType, Bool.false_eq_true, if_false] at this
    refine hS.same (test_th rfl _ _ _ hr) ?_ ?_ <;> split <;> first | rfl | exact this.symm
  | requestFree hm hio hp hr =>
    have := liveTypes_release hi hm
    simp only [Obj.isType, Bool.false_eq_true, if_false] at this
    exact hS.same (requestFree_th rfl _ _ hr) this.symm rfl
  | newType hc hr hb =>
    rw [hc.eq hi] at hr
    unfold MpiSerial.newType at hr
    rw [Res.bind_eq_ok] at hr
    obtain ⟨⟨t, h, l⟩, _, hr⟩ := hr
    dsimp only at hr
    rw [hb, Res.ok_bind] at hr
    simp only [Res.pure_eq, Res.ok.injEq, Prod.mk.injEq] at hr
    obtain ⟨rfl, rfl⟩ := hr
    obtain ⟨ps, a, b, c⟩ := hS
    have hnew := hi.tbnd s.nextType (Nat.le_refl _)
    refine ⟨s.nextType :: ps, ?_, ?_, ?_⟩
    · rw [List.nodup_cons]
      exact ⟨fun hm => (b _).1 hm hnew, a⟩
    · intro p
      by_cases hp : p = s.nextType
      · simp [hp]
      · simp [hp, b]
    · simp only [List.length_cons, c, liveTypes_eq, Ledger.addType, List.countP_cons, Obj.isType]
      simp; omega
  | commit hm hr =>
    obtain ⟨ps, a, b, c⟩ := hS
    obtain ⟨s1, h1, _, h2⟩ := typeCommit_spec (env := env) hi hm
    obtain ⟨p, d1, d2⟩ := hi.dtype _ _ hm
    have hpos := hi.hst.pos (mem_keys hm)
    refine ⟨ps, a, ?_, by rw [liveTypes_commit]; exact c⟩
    unfold MPI_Type_commit handleToDatatype at hr
    rw [if_neg (by omega), Sys.ptr_live hi.hst (mem_keys hm), Res.ok_bind] at hr
    dsimp only at hr
    rw [hi.hst.deref (mem_keys hm), Res.ok_bind] at hr
    unfold dataAt at d1
    rw [d1] at hr
    dsimp only at hr
    rw [Res.pure_bind'] at hr
    dsimp only [derefType] at hr
    rw [d2, Res.ok_bind] at hr
    simp only [Res.pure_eq, Res.ok.injEq] at hr
    subst hr
    intro q
    by_cases hq : q = p
    · subst hq
      rw [b]
      simp [d2]
    · simp [hq, b]
  | typeFree hm hr =>
    obtain ⟨ps, a, b, c⟩ := hS
    obtain ⟨p, d1, d2⟩ := hi.dtype _ _ hm
    have hpos := hi.hst.pos (mem_keys hm)
    unfold MPI_Type_free handleToDatatype at hr
    rw [if_neg (by omega), Sys.ptr_live hi.hst (mem_keys hm), Res.ok_bind] at hr
    dsimp only at hr
    rw [hi.hst.deref (mem_keys hm), Res.ok_bind] at hr
    unfold dataAt at d1
    rw [d1] at hr
    dsimp only at hr
    rw [Res.pure_bind'] at hr
    dsimp only [freeType] at hr
    rw [d2] at hr
    dsimp only at hr
    rw [Res.ok_bind, Res.bind_eq_ok] at hr
    obtain ⟨t, _, hr⟩ := hr
    simp only [Res.pure_eq, Res.ok.injEq] at hr
    subst hr
    have hl := liveTypes_release hi hm
    simp only [Obj.isType, if_true] at hl
    have hp : p ∈ ps := (b p).2 (by rw [d2]; simp)
    refine ⟨ps.erase p, a.erase _, ?_, ?_⟩
    · intro q
      rw [a.mem_erase_iff, b]
      by_cases hq : q = p <;> simp [hq]
    · rw [List.length_erase_of_mem hp]
      show _ = (L.release _).liveTypes + L.tlost
      omega

theorem Reach.store {env : Env} {s : Sys} {L : Ledger} (h : Reach env s L) : TypeStore s L := by
  induction h with
  | start => exact ⟨[], by simp, by simp [Sys.start], by simp [Ledger.start, liveTypes_eq]⟩
  | step hr hst ih =>
    obtain ⟨M, lst, hi⟩ := hr.inv
    exact hst.store hi ih

end MpiSerial
