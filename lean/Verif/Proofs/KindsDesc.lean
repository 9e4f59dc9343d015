import Verif.Spec.Kinds
import Verif.Proofs.Twin
import Verif.Proofs.Garbage

/-!
# C93: descriptors
-/

set_option autoImplicit false
set_option linter.unusedSimpArgs false

namespace MpiSerial

variable {cfg : Cfg} {t t' u u' : Typestruct}

theorem SameSize.refl (a : Int) : SameSize cfg a a := ⟨rfl, .refl a⟩

/-- Two entries. -/
def Pair.Kin (cfg : Cfg) (p p' : Pair) : Prop := p'.disp = p.disp ∧ SameSize cfg p.type p'.type

theorem Pair.Kin.refl (p : Pair) : p.Kin cfg p := ⟨rfl, .refl _⟩

theorem Typestruct.Kin.refl (t : Typestruct) : t.Kin cfg t :=
  ⟨rfl, rfl, rfl, rfl, rfl, rfl, rfl, fun k p p' h h' => by rw [h] at h'; cases h'; exact ⟨rfl, .refl _⟩⟩

theorem Typestruct.Kin.pair (h : t.Kin cfg t') (k : Int) : (t.pair k).Rel (Pair.Kin cfg) (t'.pair k) := by
  unfold Typestruct.pair
  by_cases h0 : 0 ≤ k
  · rw [if_pos h0, if_pos h0]
    cases h1 : t.pairs[k.toNat]? with
    | none =>
      have : t'.pairs[k.toNat]? = none := by
        rw [List.getElem?_eq_none_iff] at h1 ⊢
        rw [h.len]; exact h1
      rw [this]; rfl
    | some p =>
      have hlt : k.toNat < t'.pairs.length := by rw [h.len]; exact (List.getElem?_eq_some_iff.mp h1).1
      have h2 : t'.pairs[k.toNat]? = some t'.pairs[k.toNat] := List.getElem?_eq_getElem hlt
      rw [h2]
      exact h.entries _ _ _ h1 h2
  · rw [if_neg h0, if_neg h0]; rfl

/-- Reading an entry and going on in the same way. -/
theorem Typestruct.Kin.read {A : Type} (h : t.Kin cfg t') (k : Int) {f f' : Pair → Res A}
    (hf : ∀ p p', p.Kin cfg p' → f' p' = f p) : (t'.pair k >>= f') = (t.pair k >>= f) := by
  have := h.pair k
  revert this
  cases t.pair k <;> cases t'.pair k <;> intro h <;> first | exact h.elim | (cases h; rfl) | exact hf _ _ h | rfl

theorem Typestruct.Kin.calcPaddingLoop (h : t.Kin cfg t') (n : Nat) : ∀ (i : Nat) (m : Int),
    calcPaddingLoop cfg t' n i m = MpiSerial.calcPaddingLoop cfg t n i m := by
  induction n with
  | zero => intros; rfl
  | succ n ih =>
    intro i m
    exact h.read _ fun p p' hp => by rw [hp.2.1]; simp only [ih]

theorem Typestruct.Kin.calc_padding (h : t.Kin cfg t') : calc_padding cfg t' = MpiSerial.calc_padding cfg t := by
  unfold MpiSerial.calc_padding
  rw [h.count, h.calcPaddingLoop]

theorem Typestruct.Kin.calcLbLoop (h : t.Kin cfg t') (n : Nat) : ∀ (i : Nat) (m : Int),
    calcLbLoop t' n i m = MpiSerial.calcLbLoop t n i m := by
  induction n with
  | zero => intros; rfl
  | succ n ih =>
    intro i m
    exact h.read _ fun p p' hp => by simp only [hp.1, ih]

theorem Typestruct.Kin.calc_lb (h : t.Kin cfg t') : calc_lb t' = MpiSerial.calc_lb t := by
  unfold MpiSerial.calc_lb
  rw [h.count, h.calcLbLoop]

theorem Typestruct.Kin.calcUbLoop (h : t.Kin cfg t') (n : Nat) : ∀ (i : Nat) (m : Int),
    calcUbLoop cfg t' n i m = MpiSerial.calcUbLoop cfg t n i m := by
  induction n with
  | zero => intros; rfl
  | succ n ih =>
    intro i m
    exact h.read _ fun p p' hp => by rw [hp.2.1]; simp only [hp.1, ih]

theorem Typestruct.Kin.calc_ub (h : t.Kin cfg t') : calc_ub cfg t' = MpiSerial.calc_ub cfg t := by
  unfold MpiSerial.calc_ub
  rw [h.count, h.calcUbLoop]

theorem Typestruct.Kin.extent (h : t.Kin cfg t') : Type_extent cfg t' = Type_extent cfg t := by
  unfold Type_extent
  simp only [h.calc_padding, h.ub, h.lb, h.o_lb, h.o_ub]

theorem Typestruct.Kin.typeSizeLoop (h : t.Kin cfg t') (n : Nat) : ∀ (i : Nat) (m : Int),
    typeSizeLoop cfg t' n i m = MpiSerial.typeSizeLoop cfg t n i m := by
  induction n with
  | zero => intros; rfl
  | succ n ih =>
    intro i m
    exact h.read _ fun p p' hp => by rw [hp.2.1]; simp only [ih]

theorem Typestruct.Kin.size (h : t.Kin cfg t') : Type_size cfg t' = Type_size cfg t := by
  unfold Type_size
  rw [h.count, h.typeSizeLoop]

theorem Typestruct.Kin.packSizeLoop (h : t.Kin cfg t') (n : Nat) : ∀ (i : Nat) (m : Int),
    packSizeLoop cfg t' n i m = MpiSerial.packSizeLoop cfg t n i m := by
  induction n with
  | zero => intros; rfl
  | succ n ih =>
    intro i m
    exact h.read _ fun p p' hp => by rw [hp.2.1]; simp only [ih]

theorem Typestruct.Kin.packSize (h : t.Kin cfg t') (n : Int) : Pack_size cfg n t' = Pack_size cfg n t := by
  unfold Pack_size
  rw [h.count, h.packSizeLoop]

/-! ## Copying -/

theorem Typestruct.Kin.entryOffset (h : t.Kin cfg t') (e : Int) (i : Nat) : entryOffset t' e i = MpiSerial.entryOffset t e i := by
  unfold MpiSerial.entryOffset
  rw [h.count]
  by_cases h0 : t.count = 0
  · rw [if_pos h0, if_pos h0]
  · rw [if_neg h0, if_neg h0]
    exact h.read _ fun p p' hp => by rw [hp.1]

theorem copyLoop_kin (hc : cfg.typeChecking = false) (h : t.Kin cfg t') (k : u.Kin cfg u') (a x b y : Int) (n : Nat) : ∀ i m,
    copyLoop cfg a t' x b u' y n i m = copyLoop cfg a t x b u y n i m := by
  induction n with
  | zero => intros; rfl
  | succ n ih =>
    intro i m
    unfold copyLoop
    rw [h.entryOffset, k.entryOffset, h.count, k.count]
    refine bind_congr fun so => bind_congr fun d => h.read _ fun p p' hp => k.read _ fun q q' hq => ?_
    rw [if_neg (by rw [hc]; simp), if_neg (by rw [hc]; simp), hq.2.1]
    simp only [ih]

theorem Pcopy_data2_kin (hc : cfg.typeChecking = false) (h : t.Kin cfg t') (k : u.Kin cfg u') (m : Mem) (a x b y : Int) :
    Pcopy_data2 cfg m a x t' b y u' = Pcopy_data2 cfg m a x t b y u := by
  unfold Pcopy_data2
  simp only [h.committed, k.committed, h.count, k.count, h.extent, k.extent, copyLoop_kin hc h k]

theorem packEntries_kin (h : t.Kin cfg t') (a e b z : Int) (i n : Nat) : ∀ (j : Nat) x,
    packEntries cfg a t' e b z i n j x = packEntries cfg a t e b z i n j x := by
  induction n with
  | zero => intros; rfl
  | succ n ih =>
    rintro j ⟨m, x⟩
    unfold packEntries
    exact h.read _ fun p p' hp => by rw [hp.2.1, hp.1]; simp only [ih]

theorem packLoop_kin (h : t.Kin cfg t') (a e b z : Int) (n : Nat) : ∀ i x,
    packLoop cfg a t' e b z n i x = packLoop cfg a t e b z n i x := by
  induction n with
  | zero => intros; rfl
  | succ n ih =>
    intro i x
    unfold packLoop
    rw [h.count, packEntries_kin h]
    simp only [ih]

theorem Pack_kin (h : t.Kin cfg t') (m : Mem) (a n b z x : Int) : Pack cfg m a n t' b z x = Pack cfg m a n t b z x := by
  unfold Pack
  simp only [h.extent, packLoop_kin h]

theorem unpackEntries_kin (h : t.Kin cfg t') (a z b e : Int) (i n : Nat) : ∀ (j : Nat) x,
    unpackEntries cfg a z b t' e i n j x = unpackEntries cfg a z b t e i n j x := by
  induction n with
  | zero => intros; rfl
  | succ n ih =>
    rintro j ⟨m, x⟩
    unfold unpackEntries
    exact h.read _ fun p p' hp => by rw [hp.2.1, hp.1]; simp only [ih]

theorem unpackLoop_kin (h : t.Kin cfg t') (a z b e : Int) (n : Nat) : ∀ i x,
    unpackLoop cfg a z b t' e n i x = unpackLoop cfg a z b t e n i x := by
  induction n with
  | zero => intros; rfl
  | succ n ih =>
    intro i x
    unfold unpackLoop
    rw [h.count, unpackEntries_kin h]
    simp only [ih]

theorem Unpack_kin (h : t.Kin cfg t') (m : Mem) (a z x b n : Int) : Unpack cfg m a z x b n t' = Unpack cfg m a z x b n t := by
  unfold Unpack
  simp only [h.extent, unpackLoop_kin h]

/-! ## Building -/

/-- The same block of a struct. -/
structure Block.Kin (cfg : Cfg) (b b' : Block) : Prop where
  len : b'.len = b.len
  disp : b'.disp = b.disp
  ty : b.ty.Kin cfg b'.ty

/-- Block by block. -/
inductive Blocks.Kin (cfg : Cfg) : List Block → List Block → Prop
  | nil : Blocks.Kin cfg [] []
  | cons {b b' : Block} {l l' : List Block} : b.Kin cfg b' → Blocks.Kin cfg l l' → Blocks.Kin cfg (b :: l) (b' :: l')

theorem structPass1_kin {bs bs' : List Block} (h : Blocks.Kin cfg bs bs') : ∀ s, structPass1 bs' s = structPass1 bs s := by
  induction h with
  | nil => intro s; rfl
  | @cons b b' bs bs' hb _ ih =>
    intro s
    unfold structPass1
    refine hb.ty.read 0 fun p p' hp => ?_
    simp only [← hp.2.2.1, ← hp.2.2.2, ih, hb.disp, hb.len, hb.ty.count, hb.ty.o_lb, hb.ty.o_ub]

/-- The arrays being filled. -/
structure Pass2.Kin (cfg : Cfg) (s s' : Pass2) : Prop where
  newcount : s'.newcount = s.newcount
  new_lb : s'.new_lb = s.new_lb
  new_ub : s'.new_ub = s.new_ub
  len : s'.pairs.length = s.pairs.length
  entries : ∀ (k : Nat) p p', s.pairs[k]? = some p → s'.pairs[k]? = some p' → p.Kin cfg p'

theorem structCopyPairs_kin (h : t.Kin cfg t') (off : Int) (n : Nat) : ∀ (k : Nat) (s s' : Pass2), s.Kin cfg s' →
    (structCopyPairs t off n k s).Rel (Pass2.Kin cfg) (structCopyPairs t' off n k s') := by
  induction n with
  | zero => intro k s s' hs; exact hs
  | succ n ih =>
    intro k s s' hs
    unfold structCopyPairs
    refine (h.pair _).bind fun p p' _ _ hp => ?_
    unfold setPair
    rw [hs.len, hs.newcount]
    by_cases hc : s.newcount < s.pairs.length
    · rw [if_pos hc, if_pos hc, Res.ok_bind, Res.ok_bind]
      refine ih (k + 1) _ _ ⟨by dsimp only; try rw [hs.newcount], hs.new_lb, hs.new_ub, ?_, ?_⟩
      · simp only [List.length_set, hs.len]
      · intro j q q' hq hq'
        simp only [List.getElem?_set, hs.len] at hq hq'
        by_cases e : s.newcount = j
        · rw [if_pos e, if_pos hc] at hq hq'
          cases hq; cases hq'
          exact ⟨by dsimp only; rw [hp.1], hp.2⟩
        · rw [if_neg e] at hq hq'
          exact hs.entries j q q' hq hq'
    · rw [if_neg hc, if_neg hc]; rfl

theorem structReps_kin {b b' : Block} (h : b.Kin cfg b') (n : Nat) : ∀ (j : Nat) (s s' : Pass2), s.Kin cfg s' →
    (structReps cfg b n j s).Rel (Pass2.Kin cfg) (structReps cfg b' n j s') := by
  induction n with
  | zero => intro j s s' hs; exact hs
  | succ n ih =>
    intro j s s' hs
    unfold structReps
    rw [h.ty.extent, h.disp, h.ty.lb, h.ty.ub, h.ty.count, hs.new_lb, hs.new_ub, h.ty.o_lb, h.ty.o_ub]
    refine .bind_same fun e _ => .bind (structCopyPairs_kin h.ty _ _ 0 _ _ ⟨hs.newcount, rfl, rfl, hs.len, hs.entries⟩) ?_
    intro r r' _ _ hr
    exact ih (j + 1) r r' hr

theorem structPass2_kin {bs bs' : List Block} (h : Blocks.Kin cfg bs bs') : ∀ s s' : Pass2, s.Kin cfg s' →
    (structPass2 cfg bs s).Rel (Pass2.Kin cfg) (structPass2 cfg bs' s') := by
  induction h with
  | nil => intro s s' hs; exact hs
  | @cons b b' bs bs' hb _ ih =>
    intro s s' hs
    unfold structPass2
    refine (hb.ty.pair 0).bind fun p p' _ _ hp => ?_
    simp only [← hp.2.2.1, ← hp.2.2.2, hb.len]
    exact .ite (fun _ => ih s s' hs) fun _ => (structReps_kin hb _ 0 s s' hs).bind fun r r' _ _ hr => ih r r' hr

theorem Type_struct_kin {bs bs' : List Block} (h : Blocks.Kin cfg bs bs') (g : Garbage) :
    (Type_struct cfg g bs).Rel (Typestruct.Kin cfg) (Type_struct cfg g bs') := by
  unfold Type_struct
  rw [structPass1_kin h]
  refine .bind_same fun p1 _ => .ite (fun _ => rfl) fun _ => ?_
  refine (structPass2_kin h _ _ ⟨rfl, rfl, rfl, rfl, fun k p p' e e' => by rw [e] at e'; cases e'; exact .refl _⟩).bind
    fun r r' _ _ hr => ?_
  have hk : ∀ lb ub : Int, Typestruct.Kin cfg ⟨p1.simpletype_count, ub, lb, 0, if p1.override_lower then 1 else g.o_lb,
      if p1.override_upper then 1 else g.o_ub, r.pairs⟩ ⟨p1.simpletype_count, ub, lb, 0, if p1.override_lower then 1 else g.o_lb,
      if p1.override_upper then 1 else g.o_ub, r'.pairs⟩ := fun lb ub => ⟨rfl, rfl, rfl, rfl, rfl, rfl, hr.len, hr.entries⟩
  dsimp only
  rw [(hk 0 0).calc_lb, (hk 0 0).calc_ub, hr.new_lb, hr.new_ub]
  have hk2 : ∀ lb : Int, Res.Rel (Typestruct.Kin cfg)
      (if p1.override_upper = true then do
          let ub ← pure (s64 r.new_ub)
          pure (⟨p1.simpletype_count, ub, lb, 0, if p1.override_lower then 1 else g.o_lb,
            if p1.override_upper then 1 else g.o_ub, r.pairs⟩ : Typestruct)
        else do
          let ub ← calc_ub cfg ⟨p1.simpletype_count, 0, 0, 0, if p1.override_lower then 1 else g.o_lb,
            if p1.override_upper then 1 else g.o_ub, r.pairs⟩
          pure (⟨p1.simpletype_count, ub, lb, 0, if p1.override_lower then 1 else g.o_lb,
            if p1.override_upper then 1 else g.o_ub, r.pairs⟩ : Typestruct))
      (if p1.override_upper = true then do
          let ub ← pure (s64 r.new_ub)
          pure (⟨p1.simpletype_count, ub, lb, 0, if p1.override_lower then 1 else g.o_lb,
            if p1.override_upper then 1 else g.o_ub, r'.pairs⟩ : Typestruct)
        else do
          let ub ← calc_ub cfg ⟨p1.simpletype_count, 0, 0, 0, if p1.override_lower then 1 else g.o_lb,
            if p1.override_upper then 1 else g.o_ub, r.pairs⟩
          pure (⟨p1.simpletype_count, ub, lb, 0, if p1.override_lower then 1 else g.o_lb,
            if p1.override_upper then 1 else g.o_ub, r'.pairs⟩ : Typestruct)) := by
    intro lb
    refine .ite (fun _ => ?_) (fun _ => .bind_same fun ub _ => ?_)
    · exact hk lb _
    · exact hk lb ub
  refine .ite (fun _ => .bind_same fun lb _ => ?_) (fun _ => .bind_same fun lb _ => ?_)
  · exact hk2 lb
  · exact hk2 lb

/-- An array of blocks. -/
theorem fill_kin {f f' : Nat → Res Block} (h : ∀ i, (f i).Rel (Block.Kin cfg) (f' i)) (n : Nat) : ∀ i,
    (fill f n i).Rel (Blocks.Kin cfg) (fill f' n i) := by
  induction n with
  | zero => intro i; exact Blocks.Kin.nil
  | succ n ih =>
    intro i
    unfold fill
    exact (h i).bind fun b b' _ _ hb => (ih (i + 1)).bind fun l l' _ _ hl => Blocks.Kin.cons hb hl

theorem Type_contiguous_kin (h : t.Kin cfg t') (g : Garbage) (n : Int) :
    (Type_contiguous cfg g n t).Rel (Typestruct.Kin cfg) (Type_contiguous cfg g n t') := by
  unfold Type_contiguous
  rw [h.extent]
  refine .bind_same fun n _ => .bind_same fun e _ => .bind (fill_kin (fun i => ?_) n 0) fun _ _ _ _ hb => Type_struct_kin hb g
  exact Block.Kin.mk rfl rfl h

theorem Type_hvector_kin (h : t.Kin cfg t') (g : Garbage) (n b d : Int) :
    (Type_hvector cfg g n b d t).Rel (Typestruct.Kin cfg) (Type_hvector cfg g n b d t') := by
  unfold Type_hvector
  rw [h.extent]
  refine .bind_same fun n _ => .bind_same fun e _ => .bind (fill_kin (fun i => ?_) n 0) fun _ _ _ _ hb => Type_struct_kin hb g
  exact Block.Kin.mk rfl rfl h

theorem Type_vector_kin (h : t.Kin cfg t') (g : Garbage) (n b d : Int) :
    (Type_vector cfg g n b d t).Rel (Typestruct.Kin cfg) (Type_vector cfg g n b d t') := by
  unfold Type_vector
  rw [h.extent]
  exact .bind_same fun e _ => Type_hvector_kin h g ..

theorem Type_hindexed_kin (h : t.Kin cfg t') (g : Garbage) (n : Int) (b d : List Int) :
    (Type_hindexed cfg g n b d t).Rel (Typestruct.Kin cfg) (Type_hindexed cfg g n b d t') := by
  unfold Type_hindexed
  refine .bind_same fun n _ => (fill_kin (fun i => ?_) n 0).bind fun _ _ _ _ hb => Type_struct_kin hb g
  refine .bind_same fun x _ => .bind_same fun y _ => ?_
  exact Block.Kin.mk rfl rfl h

theorem Type_indexed_kin (h : t.Kin cfg t') (g : Garbage) (n : Int) (b d : List Int) :
    (Type_indexed cfg g n b d t).Rel (Typestruct.Kin cfg) (Type_indexed cfg g n b d t') := by
  unfold Type_indexed
  rw [h.extent]
  exact .bind_same fun n _ => .bind_same fun x _ => Type_hindexed_kin h g ..

theorem Type_create_indexed_block_kin (h : t.Kin cfg t') (g : Garbage) (n b : Int) (d : List Int) :
    (Type_create_indexed_block cfg g n b d t).Rel (Typestruct.Kin cfg) (Type_create_indexed_block cfg g n b d t') := by
  unfold Type_create_indexed_block
  exact .bind_same fun n _ => .bind_same fun x _ => Type_indexed_kin h g ..

end MpiSerial
