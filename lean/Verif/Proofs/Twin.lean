import Verif.Spec.Twin
import Verif.Proofs.Safe

/-!
# Two runs that differ in leftovers stay in step
-/

set_option linter.unusedSimpArgs false
set_option autoImplicit false

namespace MpiSerial

/-- Same outcome; results related by `R`. -/
def Res.Rel {α β : Type} (R : α → β → Prop) : Res α → Res β → Prop
  | .ok a, .ok b => R a b
  | .abort m, .abort m' => m = m'
  | .exit c, .exit c' => c = c'
  | .ub u, .ub u' => u = u'
  | .hang, .hang => True
  | _, _ => False

namespace Res
variable {α β γ δ : Type} {R : α → β → Prop} {S : γ → δ → Prop}

theorem Rel.bind {x : Res α} {y : Res β} {f : α → Res γ} {g : β → Res δ} (h : x.Rel R y)
    (h2 : ∀ a b, x = .ok a → y = .ok b → R a b → (f a).Rel S (g b)) : (x >>= f).Rel S (y >>= g) := by
  cases x <;> cases y <;> simp only [Res.Rel] at h <;> try exact h.elim
  · exact h2 _ _ rfl rfl h
  all_goals first | (subst h; rfl) | trivial

theorem Rel.mono {R' : α → β → Prop} {x : Res α} {y : Res β} (h : x.Rel R y)
    (h2 : ∀ a b, x = .ok a → y = .ok b → R a b → R' a b) : x.Rel R' y := by
  cases x <;> cases y <;> simp only [Res.Rel] at h ⊢ <;> first | exact h2 _ _ rfl rfl h | exact h

theorem Rel.same {T : α → α → Prop} {x : Res α} (h : ∀ a, x = .ok a → T a a) : x.Rel T x := by
  cases x <;> simp only [Res.Rel]
  exact h _ rfl

theorem Rel.ite {p : Prop} [Decidable p] {x x' : Res α} {y y' : Res β} (h1 : p → x.Rel R y) (h2 : ¬ p → x'.Rel R y') :
    (if p then x else x').Rel R (if p then y else y') := by
  split
  · next h => exact h1 h
  · next h => exact h2 h

theorem Rel.fate {x : Res α} {y : Res β} (h : x.Rel R y) : x.fate = y.fate := by
  cases x <;> cases y <;> simp only [Res.Rel] at h <;> try exact h.elim
  all_goals first | rfl | (subst h; rfl)

theorem Rel.ok_left {x : Res α} {y : Res β} {a : α} (h : x.Rel R y) (hx : x = .ok a) : ∃ b, y = .ok b ∧ R a b := by
  subst hx
  cases y <;> simp only [Res.Rel] at h
  exact ⟨_, rfl, h⟩

/-- Something that does not depend on the state comes first. -/
theorem Rel.bind_same {x : Res α} {f : α → Res γ} {g : α → Res δ} (h2 : ∀ a, x = .ok a → (f a).Rel S (g a)) :
    (x >>= f).Rel S (x >>= g) :=
  Rel.bind (R := fun a b => a = b) (Rel.same fun _ _ => rfl) fun a b h _ e => by subst e; exact h2 a h

end Res

open Res (Rel)

/-! ## The handle table -/

theorem SlotAgree.refl (a : Slot) : SlotAgree a a := Or.inr rfl

theorem TabAgree.refl (t : HTab Slot) : TabAgree t t := ⟨rfl, rfl, rfl, fun _ => rfl, fun _ => rfl, fun _ => .refl _⟩

section Tab
variable {t u : HTab Slot}

theorem TabAgree.set (h : TabAgree t u) (l : Loc) {a b : Item Slot} (h1 : a.handle = b.handle) (h2 : a.next = b.next)
    (h3 : SlotAgree a.data b.data) : TabAgree (t.set l a) (u.set l b) where
  init := h.init
  nblocks := h.nblocks
  nextfree := h.nextfree
  handle x := by
    simp only [HTab.set]
    split
    · exact h1
    · exact h.handle x
  next x := by
    simp only [HTab.set]
    split
    · exact h2
    · exact h.next x
  data x := by
    simp only [HTab.set]
    split
    · exact h3
    · exact h.data x

theorem TabAgree.setData (h : TabAgree t u) (l : Loc) {a b : Slot} (hab : SlotAgree a b) :
    TabAgree (t.setData l a) (u.setData l b) := h.set l (h.handle l) (h.next l) hab

theorem TabAgree.withFree (h : TabAgree t u) {p q : Option Loc} (hp : p = q) :
    TabAgree { t with nextfree := p } { u with nextfree := q } :=
  ⟨h.init, h.nblocks, hp, h.handle, h.next, h.data⟩

theorem TabAgree.initBlockN (h : TabAgree t u) (block last : Nat) :
    TabAgree (MpiSerial.initBlockN t block last) (MpiSerial.initBlockN u block last) := by
  unfold MpiSerial.initBlockN
  have : ∀ (is : List Nat) (t u : HTab Slot), TabAgree t u → TabAgree
      (is.foldl (fun t i => t.set ⟨block, i⟩ { t.items ⟨block, i⟩ with handle := mkHandle block i, next := some ⟨block, i + 1⟩ }) t)
      (is.foldl (fun t i => t.set ⟨block, i⟩ { t.items ⟨block, i⟩ with handle := mkHandle block i, next := some ⟨block, i + 1⟩ }) u) := by
    intro is
    induction is with
    | nil => intro t u h; exact h
    | cons i is ih => intro t u h; exact ih _ _ (h.set _ rfl rfl (h.data _))
  have := this (List.range last) t u h
  exact this.set _ rfl rfl (this.data _)

theorem TabAgree.init_block (h : TabAgree t u) (block : Nat) : TabAgree (MpiSerial.init_block t block) (MpiSerial.init_block u block) := by
  unfold MpiSerial.init_block
  exact h.initBlockN block _

/-- Taking the first item of a block. -/
theorem TabAgree.first (h : TabAgree t u) (l : Loc) {n n' : Nat} {b b' : Bool} (hn : n = n') (hb : b = b') :
    TabAgree { ({ t with nextfree := (t.items l).next } : HTab Slot).set l { t.items l with next := none } with nblocks := n, needInit := b }
      { ({ u with nextfree := (u.items l).next } : HTab Slot).set l { u.items l with next := none } with nblocks := n', needInit := b' } := by
  have h3 := (h.withFree (h.next l)).set l (a := { t.items l with next := none }) (b := { u.items l with next := none })
    (h.handle l) rfl (h.data l)
  exact ⟨hb, hn, h3.nextfree, h3.handle, h3.next, h3.data⟩

theorem TabAgree.init_handles (h : TabAgree t u) : TabAgree (MpiSerial.init_handles t) (MpiSerial.init_handles u) := by
  unfold MpiSerial.init_handles
  have h1 := h.init_block 0
  generalize MpiSerial.init_block t 0 = t at h1 ⊢
  generalize MpiSerial.init_block u 0 = u at h1 ⊢
  exact h1.first _ rfl rfl

theorem TabAgree.ready (h : TabAgree t u) :
    TabAgree (if t.needInit then MpiSerial.init_handles t else t) (if u.needInit then MpiSerial.init_handles u else u) := by
  rw [← h.init]
  split
  · exact h.init_handles
  · exact h

theorem TabAgree.valid (h : TabAgree t u) {l : Loc} : t.valid l ↔ u.valid l := by
  unfold HTab.valid
  rw [h.nblocks]

theorem TabAgree.deref (h : TabAgree t u) (l : Loc) :
    (t.deref l).Rel (fun a b => a.handle = b.handle ∧ a.next = b.next ∧ SlotAgree a.data b.data) (u.deref l) := by
  unfold HTab.deref
  by_cases hv : t.valid l
  · rw [if_pos hv, if_pos (h.valid.1 hv)]
    exact ⟨h.handle l, h.next l, h.data l⟩
  · rw [if_neg hv, if_neg (fun hu => hv (h.valid.2 hu))]
    rfl

theorem TabAgree.alloc (h : TabAgree t u) (d : Slot) :
    (mpi_alloc_handle t d).Rel (fun x y => TabAgree x.1 y.1 ∧ x.2 = y.2) (mpi_alloc_handle u d) := by
  unfold mpi_alloc_handle
  have h := h.ready
  generalize (if t.needInit then MpiSerial.init_handles t else t) = t at h ⊢
  generalize (if u.needInit then MpiSerial.init_handles u else u) = u at h ⊢
  dsimp only
  rw [← h.nextfree]
  cases t.nextfree with
  | some new =>
    refine (h.deref new).bind fun a b _ _ hab => ?_
    exact ⟨(h.withFree hab.2.1).set new hab.1 rfl hab.2.2, by rw [hab.1]⟩
  | none =>
    dsimp only
    rw [← h.nblocks]
    refine Rel.ite (fun _ => rfl) fun _ => ?_
    have h1 : TabAgree { t with items := fun l => if l.block = t.nblocks then ⟨0, none, d⟩ else t.items l, nextfree := none }
        { u with items := fun l => if l.block = t.nblocks then ⟨0, none, d⟩ else u.items l, nextfree := none, nblocks := t.nblocks } := by
      refine ⟨h.init, rfl, rfl, ?_, ?_, ?_⟩ <;> intro l <;> dsimp only <;> split
      · rfl
      · exact h.handle l
      · rfl
      · exact h.next l
      · exact .refl _
      · exact h.data l
    have h2 := h1.init_block t.nblocks
    generalize MpiSerial.init_block { t with items := fun l => if l.block = t.nblocks then ⟨0, none, d⟩ else t.items l, nextfree := none } t.nblocks = a at h2 ⊢
    generalize MpiSerial.init_block { u with items := fun l => if l.block = t.nblocks then ⟨0, none, d⟩ else u.items l, nextfree := none, nblocks := t.nblocks } t.nblocks = b at h2 ⊢
    have h3 := h2.first ⟨t.nblocks, 0⟩ (congrArg (· + 1) h2.nblocks) h2.init
    exact ⟨h3, Prod.ext (h3.handle _) rfl⟩

theorem TabAgree.itemAddr (h : TabAgree t u) (x : Int) : MpiSerial.itemAddr t x = MpiSerial.itemAddr u x := by
  unfold MpiSerial.itemAddr
  rw [h.nblocks]

theorem TabAgree.ptr (h : TabAgree t u) (x : Int) :
    (mpi_handle_to_ptr t x).Rel (fun x y => TabAgree x.1 y.1 ∧ x.2 = y.2) (mpi_handle_to_ptr u x) := by
  unfold mpi_handle_to_ptr
  have h := h.ready
  generalize (if t.needInit then MpiSerial.init_handles t else t) = t at h ⊢
  generalize (if u.needInit then MpiSerial.init_handles u else u) = u at h ⊢
  dsimp only
  refine Rel.ite (fun _ => ⟨h, rfl⟩) fun _ => ?_
  rw [h.itemAddr]
  exact Rel.bind_same fun l _ => ⟨h, rfl⟩

theorem TabAgree.free (h : TabAgree t u) (x : Int) : (mpi_free_handle t x).Rel TabAgree (mpi_free_handle u x) := by
  unfold mpi_free_handle
  refine Rel.ite (fun _ => h) fun _ => ?_
  rw [h.init]
  refine Rel.ite (fun _ => rfl) fun _ => ?_
  rw [h.itemAddr]
  refine Rel.bind_same fun l _ => ?_
  exact (h.set l (a := { t.items l with next := t.nextfree }) (b := { u.items l with next := u.nextfree })
    (h.handle l) h.nextfree (h.data l)).withFree rfl

theorem TabAgree.destroy (h : TabAgree t u) : TabAgree (mpi_destroy_handles t) (mpi_destroy_handles u) := by
  unfold mpi_destroy_handles
  rw [h.init]
  split
  · exact h
  · exact ⟨rfl, h.nblocks, h.nextfree, h.handle, h.next, h.data⟩

end Tab

/-! ## The state -/

section State
variable {env : Env} {j : Nat → ReqRec} {s₁ s₂ : Sys}

theorem Agree.refl (s : Sys) : Agree s s := ⟨.refl _, rfl⟩

theorem Agree.mk' {s : Sys} {t : HTab Slot} (h : TabAgree s.handles t) : Agree s { s with handles := t } := ⟨h, rfl⟩

/-- The second state, spelled out. -/
theorem Agree.out (h : Agree s₁ s₂) : ∃ t, s₂ = { s₁ with handles := t } ∧ TabAgree s₁.handles t := ⟨s₂.handles, h.rest, h.tab⟩

theorem Agree.mem (h : Agree s₁ s₂) : s₂.mem = s₁.mem := by
  obtain ⟨t, rfl, _⟩ := h.out; rfl

theorem Agree.lists (h : Agree s₁ s₂) : s₂.lists = s₁.lists := by
  obtain ⟨t, rfl, _⟩ := h.out; rfl

theorem Agree.withMem (h : Agree s₁ s₂) (m : Mem) : Agree { s₁ with mem := m } { s₂ with mem := m } := by
  obtain ⟨t, rfl, ht⟩ := h.out; exact .mk' ht

theorem Agree.withLists (h : Agree s₁ s₂) (m : LHeap Loc) : Agree { s₁ with lists := m } { s₂ with lists := m } := by
  obtain ⟨t, rfl, ht⟩ := h.out; exact .mk' ht

/-- States and further results. -/
def AgreeR {α : Type} (x y : Sys × α) : Prop := Agree x.1 y.1 ∧ x.2 = y.2

theorem bindR {α γ δ : Type} {S : γ → δ → Prop} {x y : Res (Sys × α)} {f : Sys × α → Res γ} {g : Sys × α → Res δ}
    (h : x.Rel AgreeR y) (h2 : ∀ s s' a, x = .ok (s, a) → y = .ok (s', a) → Agree s s' → (f (s, a)).Rel S (g (s', a))) :
    (x >>= f).Rel S (y >>= g) :=
  h.bind fun ⟨a1, a2⟩ ⟨b1, b2⟩ e1 e2 hab => by
    obtain ⟨h1, h3⟩ := hab
    cases h3
    exact h2 _ _ _ e1 e2 h1

theorem ptr_rel (h : Agree s₁ s₂) (x : Int) : (s₁.ptr x).Rel AgreeR (s₂.ptr x) := by
  obtain ⟨t, rfl, ht⟩ := h.out
  unfold Sys.ptr
  exact (ht.ptr x).bind fun a b _ _ hab => ⟨.mk' hab.1, hab.2⟩

theorem comm_rel (h : Agree s₁ s₂) (p : Option Loc) : s₁.comm p = s₂.comm p := by
  obtain ⟨t, rfl, ht⟩ := h.out
  cases p with
  | none => rfl
  | some l =>
    unfold Sys.comm HTab.deref
    dsimp only
    by_cases hv : s₁.handles.valid l
    · rw [if_pos hv, if_pos (ht.valid.1 hv), Res.ok_bind, Res.ok_bind]
      rcases ht.data l with ⟨⟨r, hr⟩, r', hr'⟩ | e
      · simp only [hr, hr']
      · simp only [e]
    · rw [if_neg hv, if_neg (fun hu => hv (ht.valid.2 hu))]

theorem req_rel (h : Agree s₁ s₂) (p : Option Loc) : (s₁.req p).Rel (fun _ _ => True) (s₂.req p) := by
  obtain ⟨t, rfl, ht⟩ := h.out
  cases p with
  | none => rfl
  | some l =>
    unfold Sys.req
    refine (ht.deref l).bind fun a b _ _ hab => ?_
    rcases hab.2.2 with ⟨⟨r, hr⟩, r', hr'⟩ | e
    · rw [hr, hr']; trivial
    · rw [e]; exact Rel.same fun _ _ => trivial

theorem modReq_rel (h : Agree s₁ s₂) (l : Loc) (f g : ReqRec → ReqRec) : (s₁.modReq l f).Rel Agree (s₂.modReq l g) := by
  unfold Sys.modReq
  refine (req_rel h _).bind fun a b _ _ _ => ?_
  obtain ⟨t, rfl, ht⟩ := h.out
  exact .mk' (ht.setData l (Or.inl ⟨⟨_, rfl⟩, _, rfl⟩))

theorem allocReq_rel (h : Agree s₁ s₂) : (s₁.allocReq env).Rel AgreeR (s₂.allocReq (env.withJunk j)) := by
  unfold Sys.allocReq
  obtain ⟨t, rfl, ht⟩ := h.out
  refine (ht.alloc .raw).bind fun a b _ _ hab => ?_
  obtain ⟨a1, a2, a3⟩ := a
  obtain ⟨b1, b2, b3⟩ := b
  obtain ⟨h1, h2⟩ := hab
  cases h2
  exact ⟨.mk' (h1.setData _ (Or.inl ⟨⟨_, rfl⟩, _, rfl⟩)), rfl⟩

theorem toType_rel (h : Agree s₁ s₂) (x : Int) : (handleToDatatype s₁ x).Rel AgreeR (handleToDatatype s₂ x) := by
  unfold handleToDatatype
  refine Rel.ite (fun _ => Rel.bind_same fun _ _ => ⟨h, rfl⟩) fun _ => bindR (ptr_rel h x) fun a b p _ _ h1 => ?_
  cases p with
  | none => rfl
  | some l =>
    refine (h1.tab.deref l).bind fun a b _ _ hab => ?_
    rcases hab.2.2 with ⟨⟨r, hr⟩, r', hr'⟩ | e
    · rw [hr, hr']; rfl
    · rw [e]
      cases b.data <;> first | rfl | exact ⟨h1, rfl⟩

theorem derefType_rel (h : Agree s₁ s₂) (p : TPtr) : derefType env s₁ p = derefType (env.withJunk j) s₂ p := by
  obtain ⟨t, rfl, ht⟩ := h.out
  cases p <;> rfl

theorem typeOf_rel (h : Agree s₁ s₂) (x : Int) : (typeOf env s₁ x).Rel AgreeR (typeOf (env.withJunk j) s₂ x) := by
  unfold typeOf
  refine bindR (toType_rel h x) fun a b p _ _ hab => ?_
  dsimp only
  rw [derefType_rel (env := env) (j := j) hab]
  exact Rel.bind_same fun _ _ => ⟨hab, rfl⟩

theorem copy_rel (h : Agree s₁ s₂) (p n a q k b : Int) :
    (copy_data2 env s₁ p n a q k b).Rel Agree (copy_data2 (env.withJunk j) s₂ p n a q k b) := by
  unfold copy_data2
  refine bindR (toType_rel h a) fun x y _ _ _ h1 => bindR (toType_rel h1 b) fun z w _ _ _ h3 => ?_
  dsimp only
  rw [derefType_rel (env := env) (j := j) h3, derefType_rel (env := env) (j := j) h3, h3.mem]
  exact Rel.bind_same fun _ _ => Rel.bind_same fun _ _ => Rel.bind_same fun m _ => h3.withMem m

end State

end MpiSerial
