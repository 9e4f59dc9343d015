import Verif.Spec.Garbage
import Verif.Proofs.Twin

/-!
# Helper lemmas for C79
-/

set_option autoImplicit false
set_option linter.unusedSimpArgs false

namespace MpiSerial

/-! ## Descriptors -/

/-- Two descriptors that differ only in what `Type_struct` did not write.  With `P` the first pairs also read alike as
markers. -/
structure Typestruct.Like (P : Prop) (t t' : Typestruct) : Prop where
  count : t'.count = t.count
  ub : t'.ub = t.ub
  lb : t'.lb = t.lb
  committed : t'.committed = t.committed
  o_lb : t'.o_lb = 0 ↔ t.o_lb = 0
  o_ub : t'.o_ub = 0 ↔ t.o_ub = 0
  len : t'.pairs.length = t.pairs.length
  entries : ∀ k : Nat, (k : Int) < t.count → t'.pairs[k]? = t.pairs[k]?
  nonneg : 0 ≤ t.count ∨ t.pairs = []
  first : P → ∀ p p', t.pairs[0]? = some p → t'.pairs[0]? = some p' → SameMark p.type p'.type

theorem SameMark.refl (a : Int) : SameMark a a := ⟨Iff.rfl, Iff.rfl⟩

variable {P : Prop} {cfg : Cfg} {t t' u u' : Typestruct}

theorem Typestruct.Like.refl (h : 0 ≤ t.count) : t.Like P t :=
  ⟨rfl, rfl, rfl, rfl, Iff.rfl, Iff.rfl, rfl, fun _ _ => rfl, .inl h, fun _ p p' h h' => by
    rw [h] at h'; cases h'; exact .refl _⟩

theorem Typestruct.Like.pair (h : t.Like P t') {k : Int} (hk : k < t.count) : t'.pair k = t.pair k := by
  unfold Typestruct.pair
  by_cases h0 : 0 ≤ k
  · rw [if_pos h0, if_pos h0, h.entries k.toNat (by omega)]
  · rw [if_neg h0, if_neg h0]

/-- Pairs are read at `i % count`. -/
theorem Typestruct.Like.pair_mod (h : t.Like P t') (i : Nat) (h0 : t.count ≠ 0) :
    t'.pair (Int.tmod i t.count) = t.pair (Int.tmod i t.count) := by
  rcases h.nonneg with hn | hn
  · exact h.pair (Int.tmod_lt_of_pos _ (by omega))
  · have hn' : t'.pairs = [] := List.length_eq_zero_iff.mp (by rw [h.len, hn]; rfl)
    unfold Typestruct.pair
    rw [hn, hn']

theorem Typestruct.Like.calcPaddingLoop (h : t.Like P t') (n : Nat) : ∀ (i : Nat) (m : Int), (i + n : Int) ≤ t.count →
    calcPaddingLoop cfg t' n i m = MpiSerial.calcPaddingLoop cfg t n i m := by
  induction n with
  | zero => intros; rfl
  | succ n ih =>
    intro i m hi
    unfold MpiSerial.calcPaddingLoop
    rw [h.pair (by omega)]
    congr 1; funext p; congr 1; funext l
    exact ih _ _ (by omega)

/-- Loops over all entries. -/
theorem Typestruct.Like.whole (h : t.Like P t') {α : Type} {f : Typestruct → Nat → Res α}
    (h0 : f t' 0 = f t 0) (hf : ∀ n : Nat, (n : Int) ≤ t.count → f t' n = f t n) :
    f t' t'.count.toNat = f t t.count.toNat := by
  rw [h.count]
  by_cases hc : 0 ≤ t.count
  · exact hf _ (by omega)
  · rw [show t.count.toNat = 0 by omega]; exact h0

theorem Typestruct.Like.calc_padding (h : t.Like P t') : calc_padding cfg t' = MpiSerial.calc_padding cfg t := by
  unfold MpiSerial.calc_padding
  rw [h.whole (f := fun t n => MpiSerial.calcPaddingLoop cfg t n 0 INT_MIN) rfl fun n hn => h.calcPaddingLoop n 0 _ (by omega)]

theorem Typestruct.Like.calcLbLoop (h : t.Like P t') (n : Nat) : ∀ (i : Nat) (m : Int), (i + n : Int) ≤ t.count →
    calcLbLoop t' n i m = MpiSerial.calcLbLoop t n i m := by
  induction n with
  | zero => intros; rfl
  | succ n ih =>
    intro i m hi
    unfold MpiSerial.calcLbLoop
    rw [h.pair (by omega)]
    congr 1; funext p
    exact ih _ _ (by omega)

theorem Typestruct.Like.calcUbLoop (h : t.Like P t') (n : Nat) : ∀ (i : Nat) (m : Int), (i + n : Int) ≤ t.count →
    calcUbLoop cfg t' n i m = MpiSerial.calcUbLoop cfg t n i m := by
  induction n with
  | zero => intros; rfl
  | succ n ih =>
    intro i m hi
    unfold MpiSerial.calcUbLoop
    rw [h.pair (by omega)]
    congr 1; funext p; congr 1; funext l; congr 1; funext e
    exact ih _ _ (by omega)

theorem Typestruct.Like.calc_lb (h : t.Like P t') : calc_lb t' = MpiSerial.calc_lb t :=
  h.whole (f := fun t n => MpiSerial.calcLbLoop t n 0 INT_MAX) rfl fun n hn => h.calcLbLoop n 0 _ (by omega)

theorem Typestruct.Like.calc_ub (h : t.Like P t') : calc_ub cfg t' = MpiSerial.calc_ub cfg t :=
  h.whole (f := fun t n => MpiSerial.calcUbLoop cfg t n 0 INT_MIN) rfl fun n hn => h.calcUbLoop n 0 _ (by omega)

theorem Typestruct.Like.extent (h : t.Like P t') : Type_extent cfg t' = Type_extent cfg t := by
  unfold Type_extent
  rw [h.calc_padding, h.ub, h.lb]
  simp only [h.o_lb, h.o_ub]

theorem Typestruct.Like.typeSizeLoop (h : t.Like P t') (n : Nat) : ∀ (i : Nat) (m : Int), (i + n : Int) ≤ t.count →
    typeSizeLoop cfg t' n i m = MpiSerial.typeSizeLoop cfg t n i m := by
  induction n with
  | zero => intros; rfl
  | succ n ih =>
    intro i m hi
    unfold MpiSerial.typeSizeLoop
    rw [h.pair (by omega)]
    congr 1; funext p; congr 1; funext l; congr 1; funext e
    exact ih _ _ (by omega)

theorem Typestruct.Like.size (h : t.Like P t') : Type_size cfg t' = Type_size cfg t :=
  h.whole (f := fun t n => MpiSerial.typeSizeLoop cfg t n 0 0) rfl fun n hn => h.typeSizeLoop n 0 _ (by omega)

theorem Typestruct.Like.packSizeLoop (h : t.Like P t') (n : Nat) : ∀ (i : Nat) (m : Int), (i + n : Int) ≤ t.count →
    packSizeLoop cfg t' n i m = MpiSerial.packSizeLoop cfg t n i m := by
  induction n with
  | zero => intros; rfl
  | succ n ih =>
    intro i m hi
    unfold MpiSerial.packSizeLoop
    rw [h.pair (by omega)]
    congr 1; funext p; congr 1; funext l
    exact ih _ _ (by omega)

theorem Typestruct.Like.packSize (h : t.Like P t') (n : Int) : Pack_size cfg n t' = Pack_size cfg n t := by
  unfold Pack_size
  rw [h.whole (f := fun t n => MpiSerial.packSizeLoop cfg t n 0 0) rfl fun n hn => h.packSizeLoop n 0 _ (by omega)]

/-! ## Copying -/

theorem Typestruct.Like.entryOffset (h : t.Like P t') (e : Int) (i : Nat) : entryOffset t' e i = MpiSerial.entryOffset t e i := by
  unfold MpiSerial.entryOffset
  rw [h.count]
  by_cases h0 : t.count = 0
  · rw [if_pos h0, if_pos h0]
  · rw [if_neg h0, if_neg h0, h.pair_mod i h0]

theorem copyLoop_like (h : t.Like P t') (k : u.Like P u') (a x b y : Int) (n : Nat) : ∀ i m,
    copyLoop cfg a t' x b u' y n i m = copyLoop cfg a t x b u y n i m := by
  induction n with
  | zero => intros; rfl
  | succ n ih =>
    intro i m
    unfold copyLoop
    rw [h.entryOffset, k.entryOffset, h.count, k.count]
    by_cases h0 : t.count = 0
    · rw [show entryOffset t x i = .ub .divZero from if_pos h0]; rfl
    by_cases k0 : u.count = 0
    · rw [show entryOffset u y i = .ub .divZero from if_pos k0]
      cases entryOffset t x i <;> rfl
    rw [h.pair_mod i h0, k.pair_mod i k0]
    simp only [ih]

theorem Pcopy_data2_like (h : t.Like P t') (k : u.Like P u') (m : Mem) (a x b y : Int) :
    Pcopy_data2 cfg m a x t' b y u' = Pcopy_data2 cfg m a x t b y u := by
  unfold Pcopy_data2
  simp only [h.committed, k.committed, h.count, k.count, h.extent, k.extent, copyLoop_like h k]

theorem packEntries_like (h : t.Like P t') (a e b z : Int) (i n : Nat) : ∀ (j : Nat) x, (j + n : Int) ≤ t.count →
    packEntries cfg a t' e b z i n j x = packEntries cfg a t e b z i n j x := by
  induction n with
  | zero => intros; rfl
  | succ n ih =>
    rintro j ⟨m, x⟩ hj
    unfold packEntries
    rw [h.pair (by omega)]
    have := fun e => ih (j + 1) e (by omega)
    simp only [this]

theorem packLoop_like (h : t.Like P t') (a e b z : Int) (n : Nat) : ∀ i x,
    packLoop cfg a t' e b z n i x = packLoop cfg a t e b z n i x := by
  induction n with
  | zero => intros; rfl
  | succ n ih =>
    intro i x
    unfold packLoop
    rw [h.whole (f := fun t n => packEntries cfg a t e b z i n 0 x) rfl fun n hn => packEntries_like h a e b z i n 0 x (by omega)]
    simp only [ih]

theorem Pack_like (h : t.Like P t') (m : Mem) (a n b z x : Int) : Pack cfg m a n t' b z x = Pack cfg m a n t b z x := by
  unfold Pack
  simp only [h.extent, packLoop_like h]

theorem unpackEntries_like (h : t.Like P t') (a z b e : Int) (i n : Nat) : ∀ (j : Nat) x, (j + n : Int) ≤ t.count →
    unpackEntries cfg a z b t' e i n j x = unpackEntries cfg a z b t e i n j x := by
  induction n with
  | zero => intros; rfl
  | succ n ih =>
    rintro j ⟨m, x⟩ hj
    unfold unpackEntries
    rw [h.pair (by omega)]
    have := fun e => ih (j + 1) e (by omega)
    simp only [this]

theorem unpackLoop_like (h : t.Like P t') (a z b e : Int) (n : Nat) : ∀ i x,
    unpackLoop cfg a z b t' e n i x = unpackLoop cfg a z b t e n i x := by
  induction n with
  | zero => intros; rfl
  | succ n ih =>
    intro i x
    unfold unpackLoop
    rw [h.whole (f := fun t n => unpackEntries cfg a z b t e i n 0 x) rfl
      fun n hn => unpackEntries_like h a z b e i n 0 x (by omega)]
    simp only [ih]

theorem Unpack_like (h : t.Like P t') (m : Mem) (a z x b n : Int) : Unpack cfg m a z x b n t' = Unpack cfg m a z x b n t := by
  unfold Unpack
  simp only [h.extent, unpackLoop_like h]

/-! ## Building -/

/-- The same block of a struct; the component may be used for building. -/
structure Block.Like (P : Prop) (b b' : Block) : Prop where
  len : b'.len = b.len
  disp : b'.disp = b.disp
  ty : b.ty.Like P b'.ty
  use : P ∨ b.ty.count ≠ 0

/-- Block by block. -/
inductive Blocks.Like (P : Prop) : List Block → List Block → Prop
  | nil : Blocks.Like P [] []
  | cons {b b' : Block} {l l' : List Block} : b.Like P b' → Blocks.Like P l l' → Blocks.Like P (b :: l) (b' :: l')

theorem Block.Like.first {b b' : Block} (h : b.Like P b') :
    (b.ty.pair 0).Rel (fun p p' => SameMark p.type p'.type ∧ 0 ≤ b.ty.count) (b'.ty.pair 0) := by
  have hl := h.ty.len
  unfold Typestruct.pair
  simp only [Int.le_refl, if_true, Int.toNat_zero]
  cases h1 : b.ty.pairs with
  | nil =>
    have h2 : b'.ty.pairs = [] := List.length_eq_zero_iff.mp (by rw [hl, h1]; rfl)
    rw [h2]; rfl
  | cons q l =>
    cases h2 : b'.ty.pairs with
    | nil => rw [h1, h2] at hl; cases hl
    | cons q' l' =>
      have hn : 0 ≤ b.ty.count := h.ty.nonneg.resolve_right (by rw [h1]; nofun)
      refine ⟨?_, hn⟩
      rcases h.use with hP | hc
      · exact h.ty.first hP q q' (by rw [h1]; rfl) (by rw [h2]; rfl)
      · have := h.ty.entries 0 (by omega)
        rw [h1, h2] at this
        cases this
        exact .refl _

theorem structPass1_like {bs bs' : List Block} (h : Blocks.Like P bs bs') : ∀ s,
    structPass1 bs' s = structPass1 bs s := by
  induction h with
  | nil => intro s; rfl
  | @cons b b' bs bs' hb _ ih =>
    intro s
    unfold structPass1
    have hf := hb.first
    revert hf
    cases b.ty.pair 0 <;> cases b'.ty.pair 0 <;> intro hf <;> try (first | exact hf.elim | (cases hf; rfl) | rfl)
    rename_i p p'
    obtain ⟨⟨h1, h2⟩, -⟩ := hf
    have e1 : (b'.ty.o_lb != 0) = (b.ty.o_lb != 0) := by rw [Bool.eq_iff_iff]; simp [hb.ty.o_lb]
    have e2 : (b'.ty.o_ub != 0) = (b.ty.o_ub != 0) := by rw [Bool.eq_iff_iff]; simp [hb.ty.o_ub]
    simp only [Res.ok_bind, ← h1, ← h2, ih, hb.disp, hb.len, hb.ty.count, e1, e2]

/-- The arrays being filled agree as far as they have been written. -/
structure Pass2.Like (P : Prop) (s s' : Pass2) : Prop where
  newcount : s'.newcount = s.newcount
  new_lb : s'.new_lb = s.new_lb
  new_ub : s'.new_ub = s.new_ub
  len : s'.pairs.length = s.pairs.length
  written : ∀ k, k < s.newcount → s'.pairs[k]? = s.pairs[k]?
  first : P → ∀ p p', s.pairs[0]? = some p → s'.pairs[0]? = some p' → SameMark p.type p'.type

/-- The loops write at least so many entries, and do not change the length. -/
def Filled (n : Int) (s r : Pass2) : Prop := (r.newcount : Int) = s.newcount + n ∧ r.pairs.length = s.pairs.length

theorem structCopyPairs_like (h : t.Like P t') (off : Int) (n : Nat) : ∀ (k : Nat) (s s' : Pass2), (k + n : Int) ≤ t.count →
    s.Like P s' → (structCopyPairs t off n k s).Rel (fun r r' => r.Like P r' ∧ Filled n s r) (structCopyPairs t' off n k s') := by
  induction n with
  | zero => intro k s s' _ hs; exact ⟨hs, by simp, rfl⟩
  | succ n ih =>
    intro k s s' hk hs
    unfold structCopyPairs
    rw [h.pair (by omega)]
    refine .bind_same fun p _ => ?_
    unfold setPair
    rw [hs.len, hs.newcount]
    by_cases hc : s.newcount < s.pairs.length
    · rw [if_pos hc, if_pos hc, Res.ok_bind, Res.ok_bind]
      refine (ih (k + 1) { s with pairs := s.pairs.set s.newcount ⟨s64 (p.disp + off), p.type⟩, newcount := s.newcount + 1 }
        { s' with pairs := s'.pairs.set s.newcount ⟨s64 (p.disp + off), p.type⟩, newcount := s.newcount + 1 } (by omega)
        ⟨rfl, hs.new_lb, hs.new_ub, ?_, ?_, ?_⟩).mono ?_
      · simp only [List.length_set, hs.len]
      · intro j hj
        simp only [List.getElem?_set, hs.len, hs.newcount]
        by_cases e : s.newcount = j
        · rw [if_pos e, if_pos e]
        · rw [if_neg e, if_neg e]
          exact hs.written j (by dsimp only at hj; omega)
      · intro hP q q' hq hq'
        simp only [List.getElem?_set, hs.len, hs.newcount] at hq hq'
        by_cases e : s.newcount = 0
        · rw [if_pos e, if_pos (by omega)] at hq hq'
          cases hq; cases hq'
          exact .refl _
        · rw [if_neg e] at hq hq'
          exact hs.first hP q q' hq hq'
      · rintro r r' - - ⟨h1, h2, h3⟩
        refine ⟨h1, ?_, ?_⟩
        · rw [h2]; push_cast; omega
        · rw [h3]; simp only [List.length_set]
    · rw [if_neg hc, if_neg hc]; rfl

theorem structReps_like {b b' : Block} (h : b.Like P b') (h0 : 0 ≤ b.ty.count) (n : Nat) : ∀ (j : Nat) (s s' : Pass2), s.Like P s' →
    (structReps cfg b n j s).Rel (fun r r' => r.Like P r' ∧ Filled (n * b.ty.count) s r) (structReps cfg b' n j s') := by
  induction n with
  | zero => intro j s s' hs; exact ⟨hs, by simp, rfl⟩
  | succ n ih =>
    intro j s s' hs
    unfold structReps
    rw [h.ty.extent, h.disp, h.ty.lb, h.ty.ub, h.ty.count, hs.new_lb, hs.new_ub]
    simp only [ne_eq, h.ty.o_lb, h.ty.o_ub]
    refine .bind_same fun e _ => ?_
    refine .bind (structCopyPairs_like h.ty _ _ 0 _ _ (by omega)
      ⟨hs.newcount, rfl, rfl, hs.len, hs.written, hs.first⟩) ?_
    rintro r r' - - ⟨hr, h1, h2⟩
    refine (ih (j + 1) r r' hr).mono ?_
    rintro z z' - - ⟨hz, h3, h4⟩
    refine ⟨hz, ?_, h4.trans h2⟩
    rw [h3, h1]
    rw [show ((b.ty.count.toNat : Nat) : Int) = b.ty.count by omega]
    push_cast
    rw [Int.add_mul]
    omega

theorem structPass1_counts {bs bs' : List Block} (h : Blocks.Like P bs bs') : ∀ (p : Pass1) (s s' : Pass2) (q : Pass1),
    structPass1 bs p = .ok q → s.Like P s' → p.simpletype_count ≤ s.newcount →
    (structPass2 cfg bs s).Rel (fun r r' => r.Like P r' ∧ q.simpletype_count ≤ r.newcount ∧ r.pairs.length = s.pairs.length)
      (structPass2 cfg bs' s') := by
  induction h with
  | nil =>
    intro p s s' q hq hs hle
    cases hq
    exact ⟨hs, hle, rfl⟩
  | @cons b b' bs bs' hb _ ih =>
    intro p s s' q hq hs hle
    unfold structPass2
    unfold structPass1 at hq
    have hf := hb.first
    revert hf hq
    cases b.ty.pair 0 <;> cases b'.ty.pair 0 <;> intro hq hf <;> try (first | exact hf.elim | cases hq)
    rename_i x x'
    obtain ⟨⟨h1, h2⟩, h0⟩ := hf
    rw [Res.ok_bind] at hq
    simp only [Res.ok_bind, ← h1, ← h2]
    by_cases c1 : x.type = SIMPLE_LOWER
    · rw [if_pos c1] at hq
      rw [if_pos (.inl c1), if_pos (.inl c1)]
      exact ih _ s s' q hq hs hle
    rw [if_neg c1] at hq
    by_cases c2 : x.type = SIMPLE_UPPER
    · rw [if_pos c2] at hq
      rw [if_pos (.inr c2), if_pos (.inr c2)]
      exact ih _ s s' q hq hs hle
    rw [if_neg c2] at hq
    rw [if_neg (by rintro (h | h) <;> contradiction), if_neg (by rintro (h | h) <;> contradiction), hb.len]
    obtain ⟨a, ha, hq⟩ := Res.bind_eq_ok.mp hq
    obtain ⟨c, hc, hq⟩ := Res.bind_eq_ok.mp hq
    refine .bind (structReps_like hb h0 _ 0 s s' hs) ?_
    rintro r r' - - ⟨hr, h3, h4⟩
    refine (ih _ r r' q hq hr ?_).mono fun z z' _ _ hz => ⟨hz.1, hz.2.1, hz.2.2.trans h4⟩
    have ea : a = b.len * b.ty.count := by unfold ck32 at ha; split at ha <;> cases ha; rfl
    have ec : c = p.simpletype_count + a := by unfold ck32 at hc; split at hc <;> cases hc; rfl
    show c ≤ r.newcount
    rw [h3, ec, ea]
    have : b.len * b.ty.count ≤ (b.len.toNat : Int) * b.ty.count := Int.mul_le_mul_of_nonneg_right (by omega) h0
    omega

/-- Garbage that makes no difference. -/
structure Garbage.Like (P : Prop) (g g' : Garbage) : Prop where
  flags : g.SameFlags g'
  first : P → SameMark (g.pair 0).type (g'.pair 0).type

/-- The descriptor at the end of `Type_struct`. -/
abbrev built (p : Pass1) (g : Garbage) (pairs : List Pair) (lb ub : Int) : Typestruct :=
  { count := p.simpletype_count, ub := ub, lb := lb, committed := 0, o_lb := if p.override_lower then 1 else g.o_lb,
    o_ub := if p.override_upper then 1 else g.o_ub, pairs := pairs }

theorem Type_struct_like {g g' : Garbage} (hg : g.Like P g') {bs bs' : List Block} (h : Blocks.Like P bs bs') :
    (Type_struct cfg g bs).Rel (Typestruct.Like P) (Type_struct cfg g' bs') := by
  unfold Type_struct
  rw [structPass1_like h]
  refine .bind_same fun p hp => .ite (fun _ => rfl) fun hge => ?_
  have hge : -1 ≤ p.simpletype_count := by omega
  dsimp only
  refine .bind (structPass1_counts (cfg := cfg) h {} ⟨_, 0, p.new_lb, p.new_ub⟩ ⟨_, 0, p.new_lb, p.new_ub⟩ p hp
    ⟨rfl, rfl, rfl, by simp, fun k hk => absurd hk (Nat.not_lt_zero k), ?_⟩ (Int.le_refl 0)) ?_
  · intro hP q q' hq hq'
    simp only [List.getElem?_map, Option.map_eq_some_iff] at hq hq'
    obtain ⟨a, ha, rfl⟩ := hq
    obtain ⟨a', ha', rfl⟩ := hq'
    obtain ⟨hl, rfl⟩ := List.getElem?_eq_some_iff.mp ha
    obtain ⟨hl', rfl⟩ := List.getElem?_eq_some_iff.mp ha'
    simp only [List.getElem_range]
    exact hg.first hP
  · rintro r r' - - ⟨hr, hle, hlen⟩
    have key : ∀ lb ub : Int, (built p g r.pairs lb ub).Like P (built p g' r'.pairs lb ub) := by
      intro lb ub
      refine ⟨rfl, rfl, rfl, rfl, ?_, ?_, hr.len, fun k hk => hr.written k (by dsimp only at hk; omega), ?_, hr.first⟩
      · dsimp only; split
        · exact Iff.rfl
        · exact hg.flags.1.symm
      · dsimp only; split
        · exact Iff.rfl
        · exact hg.flags.2.symm
      · by_cases h0 : 0 ≤ p.simpletype_count
        · exact .inl h0
        · refine .inr (List.length_eq_zero_iff.mp ?_)
          dsimp only
          rw [hlen]
          simp only [List.length_map, List.length_range]
          omega
    have hlb := (key 0 0).calc_lb
    have hub := (key 0 0).calc_ub (cfg := cfg)
    rw [hlb, hub, hr.new_lb, hr.new_ub]
    have hk2 : ∀ lb : Int, Res.Rel (Typestruct.Like P)
        (if p.override_upper = true then (pure (s64 r.new_ub) : Res Int) >>= fun ub => pure (built p g r.pairs lb ub)
         else calc_ub cfg (built p g r.pairs 0 0) >>= fun ub => pure (built p g r.pairs lb ub))
        (if p.override_upper = true then (pure (s64 r.new_ub) : Res Int) >>= fun ub => pure (built p g' r'.pairs lb ub)
         else calc_ub cfg (built p g r.pairs 0 0) >>= fun ub => pure (built p g' r'.pairs lb ub)) := fun lb =>
      .ite (fun _ => key lb _) fun _ => .bind_same fun ub _ => key lb ub
    exact .ite (fun _ => hk2 _) fun _ => .bind_same fun lb _ => hk2 lb

/-- Arrays of blocks. -/
theorem fill_like {f f' : Nat → Res Block} (h : ∀ i, (f i).Rel (Block.Like P) (f' i)) (n : Nat) : ∀ i,
    (fill f n i).Rel (Blocks.Like P) (fill f' n i) := by
  induction n with
  | zero => intro i; exact .nil
  | succ n ih =>
    intro i
    exact .bind (h i) fun _ _ _ _ hb => .bind (ih (i + 1)) fun _ _ _ _ hl => .cons hb hl

section
variable {g g' : Garbage} (hg : g.Like P g') (h : t.Like P t') (hu : P ∨ t.count ≠ 0)
include hg h hu

theorem Type_contiguous_like (n : Int) :
    (Type_contiguous cfg g n t).Rel (Typestruct.Like P) (Type_contiguous cfg g' n t') := by
  unfold Type_contiguous
  rw [h.extent]
  refine .bind_same fun k _ => .bind_same fun e _ => .bind (fill_like ?_ k 0) fun _ _ _ _ hb => Type_struct_like hg hb
  exact fun i => ⟨rfl, rfl, h, hu⟩

theorem Type_hvector_like (n b d : Int) :
    (Type_hvector cfg g n b d t).Rel (Typestruct.Like P) (Type_hvector cfg g' n b d t') := by
  unfold Type_hvector
  rw [h.extent]
  refine .bind_same fun k _ => .bind_same fun e _ => .bind (fill_like ?_ k 0) fun _ _ _ _ hb => Type_struct_like hg hb
  exact fun i => ⟨rfl, rfl, h, hu⟩

theorem Type_vector_like (n b d : Int) :
    (Type_vector cfg g n b d t).Rel (Typestruct.Like P) (Type_vector cfg g' n b d t') := by
  unfold Type_vector
  rw [h.extent]
  exact .bind_same fun e _ => Type_hvector_like hg h hu ..

theorem Type_hindexed_like (n : Int) (b d : List Int) :
    (Type_hindexed cfg g n b d t).Rel (Typestruct.Like P) (Type_hindexed cfg g' n b d t') := by
  unfold Type_hindexed
  refine .bind_same fun k _ => .bind (fill_like ?_ k 0) fun _ _ _ _ hb => Type_struct_like hg hb
  exact fun i => .bind_same fun _ _ => .bind_same fun _ _ => ⟨rfl, rfl, h, hu⟩

theorem Type_indexed_like (n : Int) (b d : List Int) :
    (Type_indexed cfg g n b d t).Rel (Typestruct.Like P) (Type_indexed cfg g' n b d t') := by
  unfold Type_indexed
  rw [h.extent]
  exact .bind_same fun k _ => .bind_same fun _ _ => Type_hindexed_like hg h hu ..

theorem Type_create_indexed_block_like (n b : Int) (d : List Int) :
    (Type_create_indexed_block cfg g n b d t).Rel (Typestruct.Like P) (Type_create_indexed_block cfg g' n b d t') := by
  unfold Type_create_indexed_block
  exact .bind_same fun k _ => .bind_same fun _ _ => Type_indexed_like hg h hu ..

end

/-! ## The state of the library -/

/-- The malloc'ed descriptors. -/
abbrev THeap := Nat → Option Typestruct

/-- The same addresses are in use, for like descriptors. -/
def THeap.Like (P : Prop) (H H' : THeap) : Prop :=
  ∀ p, (H p = none ∧ H' p = none) ∨ ∃ t t', H p = some t ∧ H' p = some t' ∧ t.Like P t'

/-- The same state with other descriptors. -/
def Sys.hp (s : Sys) (H : THeap) : Sys := { s with theap := H }

/-- Same outcome; what is handed back is put together (by `e`) from the same thing and like descriptors. -/
def Tw (P : Prop) {S A : Type} (e : S → THeap → A) (f f' : Res A) : Prop :=
  f.Rel (fun a a' => ∃ x H H', a = e x H ∧ a' = e x H' ∧ THeap.Like P H H') f'

namespace Tw
variable {S S' A B β : Type} {e : S → THeap → A} {e' : S' → THeap → B} {H H' : THeap}

theorem ret {f f' : Res A} (hH : THeap.Like P H H') (x : S) (h : f = .ok (e x H) := by rfl) (h' : f' = .ok (e x H') := by rfl) :
    Tw P e f f' := by
  subst h h'
  exact ⟨x, H, H', rfl, rfl, hH⟩

theorem abort {t : String} : Tw P e (.abort t) (.abort t) := rfl
theorem exit {t : Int} : Tw P e (.exit t) (.exit t) := rfl
theorem ub {t : UB} : Tw P e (.ub t) (.ub t) := rfl

theorem bind {f f' : Res A} {k k' : A → Res B} (h : Tw P e f f')
    (hk : ∀ x H H', THeap.Like P H H' → Tw P e' (k (e x H)) (k' (e x H'))) : Tw P e' (f >>= k) (f' >>= k') :=
  Res.Rel.bind h fun a a' _ _ ⟨x, H, H', h1, h2, h3⟩ => by subst h1 h2; exact hk x H H' h3

theorem skip {X : Res β} {k k' : β → Res A} (h : ∀ b, Tw P e (k b) (k' b)) : Tw P e (X >>= k) (X >>= k') :=
  Res.Rel.bind_same fun a _ => h a

theorem ite {p : Prop} [Decidable p] {f g f' g' : Res A} (hf : Tw P e f f') (hg : Tw P e g g') :
    Tw P e (if p then f else g) (if p then f' else g') := Res.Rel.ite (fun _ => hf) (fun _ => hg)

end Tw

def sysH : Sys → THeap → Sys := Sys.hp
def sysAndH {β : Type} : Sys × β → THeap → Sys × β := fun x H => (x.1.hp H, x.2)
def testH : TestRes → THeap → TestRes := fun x H => { x with sys := x.sys.hp H }
def arrH : ArrRes → THeap → ArrRes := fun x H => { x with sys := x.sys.hp H }
def arrAndH : ArrRes × Int → THeap → ArrRes × Int := fun x H => (arrH x.1 H, x.2)
def someH : SomeRes → THeap → SomeRes := fun x H => { x with arr := arrH x.arr H }

@[simp] theorem Sys.hp_comm (s : Sys) (H : THeap) (p : Option Loc) : (s.hp H).comm p = s.comm p := by cases p <;> rfl
@[simp] theorem Sys.hp_req (s : Sys) (H : THeap) (p : Option Loc) : (s.hp H).req p = s.req p := by cases p <;> rfl
@[simp] theorem Sys.hp_handles (s : Sys) (H : THeap) : (s.hp H).handles = s.handles := rfl
@[simp] theorem Sys.hp_lists (s : Sys) (H : THeap) : (s.hp H).lists = s.lists := rfl
@[simp] theorem Sys.hp_mem (s : Sys) (H : THeap) : (s.hp H).mem = s.mem := rfl
@[simp] theorem Sys.hp_nextType (s : Sys) (H : THeap) : (s.hp H).nextType = s.nextType := rfl
@[simp] theorem Sys.hp_num (s : Sys) (H : THeap) : (s.hp H).num = s.num := rfl
@[simp] theorem Sys.hp_clock (s : Sys) (H : THeap) : (s.hp H).clock = s.clock := rfl
@[simp] theorem Sys.hp_theap (s : Sys) (H : THeap) : (s.hp H).theap = H := rfl
@[simp] theorem match_recv_hp (s : Sys) (H : THeap) (tag : Int) : mpi_match_recv (s.hp H) tag = mpi_match_recv s tag := by
  funext r; unfold mpi_match_recv; rw [Sys.hp_req]
@[simp] theorem match_send_hp (s : Sys) (H : THeap) (tag : Int) : mpi_match_send (s.hp H) tag = mpi_match_send s tag := by
  funext r; unfold mpi_match_send; rw [Sys.hp_req]

variable {env : Env} {gs : Nat → Garbage} {H H' : THeap} (hH : THeap.Like P H H')
include hH

theorem ptr_tw (s : Sys) (h : Int) : Tw P sysAndH ((s.hp H).ptr h) ((s.hp H').ptr h) := by
  unfold Sys.ptr
  simp only [Sys.hp_handles]
  exact .skip fun x => .ret hH ({ s with handles := x.1 }, x.2)

theorem modReq_tw (s : Sys) (l : Loc) (f : ReqRec → ReqRec) : Tw P sysH ((s.hp H).modReq l f) ((s.hp H').modReq l f) := by
  unfold Sys.modReq
  simp only [Sys.hp_req]
  exact .skip fun r => .ret hH { s with handles := s.handles.setData l (.req (f r)) }

theorem allocReq_tw (s : Sys) : Tw P sysAndH ((s.hp H).allocReq env) ((s.hp H').allocReq (env.withGarbage gs)) := by
  unfold Sys.allocReq
  simp only [Sys.hp_handles]
  refine .skip fun x => ?_
  exact .ret hH
    ({ s with handles := x.1.setData x.2.2 (.req (match (x.1.items x.2.2).data with | .req r => r | _ => env.junk s.clock)),
              clock := s.clock + 1 }, x.2.1, x.2.2)

theorem handleToDatatype_tw (s : Sys) (h : Int) :
    Tw P sysAndH (handleToDatatype (s.hp H) h) (handleToDatatype (s.hp H') h) := by
  unfold handleToDatatype
  refine .ite (.skip fun p => .ret hH (s, p)) (.bind (ptr_tw hH s h) ?_)
  rintro ⟨s, p⟩ H H' hH
  cases p with
  | none => exact .ub
  | some l =>
    simp only [sysAndH, Sys.hp_handles]
    refine .skip fun it => ?_
    cases it.data with
    | dtype p => exact .ret hH (s, p)
    | _ => exact .ub

omit hH in
theorem static_nonneg (cfg : Cfg) {k : Nat} {t : Typestruct} (h : (simpletypes cfg)[k]? = some t) : 0 ≤ t.count := by
  have hm := List.mem_of_getElem? h
  revert hm
  unfold simpletypes static1 static2
  simp only [List.mem_cons, List.not_mem_nil, or_false]
  intro hm
  rcases hm with h | h | h | h | h | h | h | h | h | h | h | h | h | h | h | h | h | h | h | h | h | h | h | h | h | h | h | h | h | h |
    h | h | h | h | h | h | h | h | h | h | h | h | h | h | h <;> subst h <;> (dsimp only; omega)

theorem derefType_tw (s : Sys) (p : TPtr) :
    (derefType env (s.hp H) p).Rel (Typestruct.Like P) (derefType (env.withGarbage gs) (s.hp H') p) := by
  cases p with
  | null => rfl
  | static k =>
    show (match (simpletypes env.cfg)[k]? with | some t => Res.ok t | none => .ub .badPtr).Rel _
      (match (simpletypes env.cfg)[k]? with | some t => Res.ok t | none => .ub .badPtr)
    cases h : (simpletypes env.cfg)[k]? with
    | none => rfl
    | some t => exact .refl (static_nonneg env.cfg h)
  | heap p =>
    show (match H p with | some t => Res.ok t | none => .ub .badPtr).Rel _
      (match H' p with | some t => Res.ok t | none => .ub .badPtr)
    rcases hH p with ⟨h1, h2⟩ | ⟨t, t', h1, h2, h3⟩
    · rw [h1, h2]; rfl
    · rw [h1, h2]; exact h3

/-- Reading a datatype and then doing something with it. -/
theorem typeOf_then_tw {S A : Type} {e : S → THeap → A} (s : Sys) (h : Int) {k k' : Sys × Typestruct → Res A}
    (hk : ∀ (s' : Sys) t t' K K', THeap.Like P K K' → t.Like P t' → typeOf env (s.hp H) h = .ok (s'.hp K, t) →
      Tw P e (k (s'.hp K, t)) (k' (s'.hp K', t'))) :
    Tw P e (typeOf env (s.hp H) h >>= k) (typeOf (env.withGarbage gs) (s.hp H') h >>= k') := by
  have hr : (typeOf env (s.hp H) h).Rel (fun x x' => ∃ (s' : Sys) (K K' : THeap), x.1 = s'.hp K ∧ x'.1 = s'.hp K' ∧
      THeap.Like P K K' ∧ x.2.Like P x'.2) (typeOf (env.withGarbage gs) (s.hp H') h) := by
    unfold typeOf
    refine Res.Rel.bind (handleToDatatype_tw hH s h) ?_
    rintro _ _ - - ⟨⟨s', p⟩, K, K', rfl, rfl, hK⟩
    refine Res.Rel.bind (derefType_tw hK s' p) fun t t' _ _ ht => ?_
    exact ⟨s', K, K', rfl, rfl, hK, ht⟩
  refine Res.Rel.bind hr ?_
  rintro ⟨x, t⟩ ⟨x', t'⟩ h1 - ⟨s', K, K', rfl, rfl, hK, ht⟩
  exact hk s' t t' K K' hK ht h1

theorem newType_tw (hgs : ∀ n, (env.garbage n).Like P (gs n)) (s : Sys) {build build' : Garbage → Res Typestruct}
    (hb : ∀ g g', g.Like P g' → (build g).Rel (Typestruct.Like P) (build' g')) :
    Tw P sysAndH (newType env (s.hp H) build) (newType (env.withGarbage gs) (s.hp H') build') := by
  unfold newType
  simp only [Sys.hp_handles, Sys.hp_nextType]
  refine .skip fun x => Res.Rel.bind (hb _ _ (hgs s.nextType)) fun t t' _ _ ht => ?_
  refine ⟨({ s with handles := x.1.setData x.2.2 (.dtype (.heap s.nextType)), nextType := s.nextType + 1 }, x.2.1),
    fun q => if q = s.nextType then some t else H q, fun q => if q = s.nextType then some t' else H' q, rfl, rfl, ?_⟩
  intro q
  dsimp only
  by_cases hq : q = s.nextType
  · rw [if_pos hq, if_pos hq]; exact .inr ⟨t, t', rfl, rfl, ht⟩
  · rw [if_neg hq, if_neg hq]; exact hH q

omit hH in
/-- Lists of like descriptors. -/
inductive Types.Like (P : Prop) : List Typestruct → List Typestruct → Prop
  | nil : Types.Like P [] []
  | cons {t t' : Typestruct} {l l' : List Typestruct} : t.Like P t' → Types.Like P l l' → Types.Like P (t :: l) (t' :: l')

omit hH in
theorem rd_types {l l' : List Typestruct} (h : Types.Like P l l') (hu : ∀ t ∈ l, P ∨ t.count ≠ 0) : ∀ i,
    (rd l i).Rel (fun t t' => t.Like P t' ∧ (P ∨ t.count ≠ 0)) (rd l' i) := by
  induction h with
  | nil => intro i; rfl
  | cons ht _ ih =>
    intro i
    cases i with
    | zero => exact ⟨ht, hu _ List.mem_cons_self⟩
    | succ i => exact ih (fun t h => hu t (List.mem_cons_of_mem _ h)) i

omit hH in
theorem structTypes_rel (olds : List Int) (n : Nat) : ∀ i (s : Sys) (H H' : THeap), THeap.Like P H H' →
    (structTypes env olds n i (s.hp H)).Rel (fun x x' => ∃ (s' : Sys) (K K' : THeap), x.1 = s'.hp K ∧ x'.1 = s'.hp K' ∧
      THeap.Like P K K' ∧ Types.Like P x.2 x'.2) (structTypes (env.withGarbage gs) olds n i (s.hp H')) := by
  induction n with
  | zero => intro i s H H' hH; exact ⟨s, H, H', rfl, rfl, hH, .nil⟩
  | succ n ih =>
    intro i s H H' hH
    unfold structTypes
    refine .bind_same fun h _ => ?_
    have hr : (typeOf env (s.hp H) h).Rel (fun x x' => ∃ (s' : Sys) (K K' : THeap), x.1 = s'.hp K ∧ x'.1 = s'.hp K' ∧
        THeap.Like P K K' ∧ x.2.Like P x'.2) (typeOf (env.withGarbage gs) (s.hp H') h) := by
      unfold typeOf
      refine Res.Rel.bind (handleToDatatype_tw hH s h) ?_
      rintro _ _ - - ⟨⟨s', p⟩, K, K', rfl, rfl, hK⟩
      refine Res.Rel.bind (derefType_tw hK s' p) fun t t' _ _ ht => ?_
      exact ⟨s', K, K', rfl, rfl, hK, ht⟩
    refine Res.Rel.bind hr ?_
    rintro ⟨x, t⟩ ⟨x', t'⟩ - - ⟨s', K, K', rfl, rfl, hK, ht⟩
    refine Res.Rel.bind (ih (i + 1) s' K K' hK) ?_
    rintro ⟨x, l⟩ ⟨x', l'⟩ - - ⟨s'', L, L', rfl, rfl, hL, hl⟩
    exact ⟨s'', L, L', rfl, rfl, hL, .cons ht hl⟩

theorem Type_struct_tw (hgs : ∀ n, (env.garbage n).Like P (gs n)) (s : Sys) (n : Int) (b ds o : List Int)
    (hu : P ∨ Call.NoEmpty env (s.hp H) (.typeStruct n b ds o)) :
    Tw P sysAndH (MPI_Type_struct env (s.hp H) n b ds o) (MPI_Type_struct (env.withGarbage gs) (s.hp H') n b ds o) := by
  unfold MPI_Type_struct
  refine Res.Rel.bind_same fun k hk => Res.Rel.bind (structTypes_rel o k 0 s H H' hH) ?_
  rintro ⟨x, l⟩ ⟨x', l'⟩ h1 - ⟨s', K, K', rfl, rfl, hK, hl⟩
  refine newType_tw hK hgs s' fun g g' hg => Res.Rel.bind (fill_like ?_ k 0) fun _ _ _ _ hb => Type_struct_like hg hb
  intro i
  refine .bind_same fun _ _ => .bind_same fun _ _ => .bind (rd_types hl ?_ i) ?_
  · intro t ht
    rcases hu with hP | hu
    · exact .inl hP
    · have e : k = n.toNat := by unfold vla at hk; split at hk <;> cases hk; rfl
      subst e
      exact .inr (hu _ _ h1 t ht)
  · rintro t t' - - ⟨h1, h2⟩
    exact ⟨rfl, rfl, h1, h2⟩

theorem Type_commit_tw (s : Sys) (h : Int) :
    Tw P sysH (MPI_Type_commit env (s.hp H) h) (MPI_Type_commit (env.withGarbage gs) (s.hp H') h) := by
  unfold MPI_Type_commit
  refine .bind (handleToDatatype_tw hH s h) ?_
  rintro ⟨s, p⟩ H H' hH
  refine Res.Rel.bind (derefType_tw hH s p) fun t t' _ _ ht => ?_
  cases p with
  | heap q =>
    refine ⟨s, _, _, rfl, rfl, fun r => ?_⟩
    dsimp only
    by_cases hq : r = q
    · rw [if_pos hq, if_pos hq]
      exact .inr ⟨_, _, rfl, rfl, ht.count, ht.ub, ht.lb, rfl, ht.o_lb, ht.o_ub, ht.len, ht.entries, ht.nonneg, ht.first⟩
    · rw [if_neg hq, if_neg hq]; exact hH r
  | _ => exact ⟨s, H, H', rfl, rfl, hH⟩

theorem freeType_tw (s : Sys) (p : TPtr) : Tw P sysH (freeType (s.hp H) p) (freeType (s.hp H') p) := by
  unfold freeType
  cases p with
  | null => exact .ret hH s
  | static k => exact .ub
  | heap q =>
    simp only [Sys.hp_theap]
    rcases hH q with ⟨h1, h2⟩ | ⟨t, t', h1, h2, h3⟩
    · rw [h1, h2]; exact .ub
    · rw [h1, h2]
      refine ⟨s, _, _, rfl, rfl, fun r => ?_⟩
      dsimp only
      by_cases hq : r = q
      · rw [if_pos hq, if_pos hq]; exact .inl ⟨rfl, rfl⟩
      · rw [if_neg hq, if_neg hq]; exact hH r

theorem Type_free_tw (s : Sys) (h : Int) : Tw P sysH (MPI_Type_free (s.hp H) h) (MPI_Type_free (s.hp H') h) := by
  unfold MPI_Type_free
  refine .bind (handleToDatatype_tw hH s h) ?_
  rintro ⟨s, p⟩ H H' hH
  refine .bind (freeType_tw hH s p) fun s H H' hH => ?_
  simp only [sysH, Sys.hp_handles]
  exact .skip fun t => .ret hH { s with handles := t }

theorem Type_extent_tw (s : Sys) (h : Int) :
    Tw P sysAndH (MPI_Type_extent env (s.hp H) h) (MPI_Type_extent (env.withGarbage gs) (s.hp H') h) :=
  typeOf_then_tw hH s h fun s t t' H H' hH ht _ => by
    show Tw P _ (Type_extent env.cfg t >>= _) (Type_extent env.cfg t' >>= _)
    rw [ht.extent]
    exact .skip fun x => .ret hH (s, x)

theorem copy_data2_tw (s : Sys) (a b c x y z : Int) :
    Tw P sysH (copy_data2 env (s.hp H) a b c x y z) (copy_data2 (env.withGarbage gs) (s.hp H') a b c x y z) := by
  unfold copy_data2
  refine .bind (handleToDatatype_tw hH s c) ?_
  rintro ⟨s, p⟩ H H' hH
  refine .bind (handleToDatatype_tw hH s z) ?_
  rintro ⟨s, q⟩ H H' hH
  refine Res.Rel.bind (derefType_tw hH s p) fun t t' _ _ ht => Res.Rel.bind (derefType_tw hH s q) fun u u' _ _ hu => ?_
  show Tw P sysH (Pcopy_data2 env.cfg s.mem a b t x y u >>= fun m => .ok { s.hp H with mem := m })
    (Pcopy_data2 env.cfg s.mem a b t' x y u' >>= fun m => .ok { s.hp H' with mem := m })
  rw [Pcopy_data2_like ht hu]
  exact .skip fun m => .ret hH { s with mem := m }

theorem Pack_sys_tw (s : Sys) (a b t x y z comm : Int) :
    Tw P sysAndH (MPI_Pack env (s.hp H) a b t x y z comm) (MPI_Pack (env.withGarbage gs) (s.hp H') a b t x y z comm) := by
  unfold MPI_Pack
  refine typeOf_then_tw hH s t fun s t t' H H' hH ht _ => .bind (ptr_tw hH s comm) ?_
  rintro ⟨s, p⟩ H H' hH
  show Tw P sysAndH (Pack env.cfg s.mem a b t x y z >>= fun r => .ok ({ s.hp H with mem := r.1 }, r.2))
    (Pack env.cfg s.mem a b t' x y z >>= fun r => .ok ({ s.hp H' with mem := r.1 }, r.2))
  rw [Pack_like ht]
  exact .skip fun r => .ret hH ({ s with mem := r.1 }, r.2)

theorem Unpack_sys_tw (s : Sys) (a b c x y t comm : Int) :
    Tw P sysAndH (MPI_Unpack env (s.hp H) a b c x y t comm) (MPI_Unpack (env.withGarbage gs) (s.hp H') a b c x y t comm) := by
  unfold MPI_Unpack
  refine typeOf_then_tw hH s t fun s t t' H H' hH ht _ => .bind (ptr_tw hH s comm) ?_
  rintro ⟨s, p⟩ H H' hH
  show Tw P sysAndH (Unpack env.cfg s.mem a b c x y t >>= fun r => .ok ({ s.hp H with mem := r.1 }, r.2))
    (Unpack env.cfg s.mem a b c x y t' >>= fun r => .ok ({ s.hp H' with mem := r.1 }, r.2))
  rw [Unpack_like ht]
  exact .skip fun r => .ret hH ({ s with mem := r.1 }, r.2)

theorem comm_new_tw (s : Sys) : Tw P sysAndH (mpi_comm_new (s.hp H)) (mpi_comm_new (s.hp H')) := by
  unfold mpi_comm_new
  simp only [Sys.hp_handles, Sys.hp_lists, Sys.hp_num]
  refine .skip fun x => .skip fun y => .skip fun z => .skip fun n => ?_
  exact .ret hH ({ s with handles := x.1.setData x.2.2 (.comm ⟨y.2, z.2, s.num⟩), lists := z.1, num := n }, x.2.1)

theorem Comm_free_tw (s : Sys) (c : Int) : Tw P sysAndH (MPI_Comm_free (s.hp H) c) (MPI_Comm_free (s.hp H') c) := by
  unfold MPI_Comm_free
  refine .bind (ptr_tw hH s c) ?_
  rintro ⟨s, p⟩ H H' hH
  simp only [sysAndH, Sys.hp_comm, Sys.hp_lists, Sys.hp_handles]
  refine .skip fun c => .skip fun _ => .skip fun h => .skip fun _ => .skip fun h' => .skip fun t => ?_
  exact .ret hH ({ s with lists := h', handles := t }, MPI_COMM_NULL)

theorem Init_tw (s : Sys) : Tw P sysH (MPI_Init (s.hp H)) (MPI_Init (s.hp H')) := by
  unfold MPI_Init
  refine .bind (comm_new_tw hH s) ?_
  rintro ⟨s, c⟩ H H' hH
  exact .ite .abort (.ret hH { s with initialized := true })

theorem verify_size_tw (a : FortArgs) (name : String) (hn : a.const name < 0) (p q : Int) (s : Sys) (err : Int) :
    Tw P sysAndH (verify_size env a name p q (s.hp H) err) (verify_size (env.withGarbage gs) a name p q (s.hp H') err) := by
  unfold verify_size typeOf handleToDatatype
  simp only [if_pos hn, bind_assoc]
  refine Res.Rel.bind_same fun x hx => ?_
  show Tw P _ (derefType env (s.hp H) x >>= _) (derefType (env.withGarbage gs) (s.hp H') x >>= _)
  have he : derefType (env.withGarbage gs) (s.hp H') x = derefType env (s.hp H) x := by
    cases x with
    | heap k =>
      unfold simpletypePtr at hx
      dsimp only at hx
      split at hx
      · cases hx
      · split at hx <;> cases hx
    | _ => rfl
  rw [he]
  refine .skip fun t => ?_
  show Tw P _ (t.pair 0 >>= _) (t.pair 0 >>= _)
  refine .skip fun x => ?_
  show Tw P _ (Simpletype_length env.cfg x.type >>= _) (Simpletype_length env.cfg x.type >>= _)
  exact .skip fun len => .ret hH (s, if s32 (s64 (q - p)) ≠ len then 1 else err)

theorem init_fort_tw (a : FortArgs) (ha : Call.Consts (.fortInit a)) (s : Sys) :
    Tw P sysH (mpi_init_fort env a (s.hp H)) (mpi_init_fort (env.withGarbage gs) a (s.hp H')) := by
  unfold mpi_init_fort
  refine .bind (Init_tw hH s) fun s H H' hH => ?_
  unfold mpi_init_fort_checks
  refine .skip fun _ => .skip fun _ => .skip fun _ => ?_
  refine .bind (verify_size_tw hH a _ (ha _ (by simp)) _ _ s _) ?_
  rintro ⟨s, _⟩ H H' hH
  refine .bind (verify_size_tw hH a _ (ha _ (by simp)) _ _ s _) ?_
  rintro ⟨s, _⟩ H H' hH
  refine .bind (verify_size_tw hH a _ (ha _ (by simp)) _ _ s _) ?_
  rintro ⟨s, _⟩ H H' hH
  refine .bind (verify_size_tw hH a _ (ha _ (by simp)) _ _ s _) ?_
  rintro ⟨s, _⟩ H H' hH
  refine .bind (verify_size_tw hH a _ (ha _ (by simp)) _ _ s _) ?_
  rintro ⟨s, _⟩ H H' hH
  exact .ite .abort (.ret hH s)

/-! ## Messages -/

theorem sendMatched_tw (s : Sys) (buf count dt tag : Int) (rl item : Nat) (l : Loc) :
    Tw P sysH (sendMatched env (s.hp H) buf count dt tag rl item l) (sendMatched (env.withGarbage gs) (s.hp H') buf count dt tag rl item l) := by
  unfold sendMatched
  simp only [Sys.hp_lists]
  refine .skip fun r => .skip fun lists => ?_
  show Tw P sysH
    ((({ s with lists := lists } : Sys).hp H).req (some r) >>= fun q =>
      copy_data2 env (({ s with lists := lists } : Sys).hp H) buf count dt q.buf q.count q.type >>= fun s =>
      s.modReq r (fun r => { r with complete := 1, source := 0, tag := tag }) >>= fun s =>
      s.modReq l (fun r => { r with complete := 1 }))
    ((({ s with lists := lists } : Sys).hp H').req (some r) >>= fun q =>
      copy_data2 (env.withGarbage gs) (({ s with lists := lists } : Sys).hp H') buf count dt q.buf q.count q.type >>= fun s =>
      s.modReq r (fun r => { r with complete := 1, source := 0, tag := tag }) >>= fun s =>
      s.modReq l (fun r => { r with complete := 1 }))
  rw [Sys.hp_req, Sys.hp_req]
  exact .skip fun q => .bind (copy_data2_tw hH ..) fun s H H' hH => .bind (modReq_tw hH s _ _) fun s H H' hH => modReq_tw hH s _ _

theorem recvMatched_tw (s : Sys) (buf count dt : Int) (rl item : Nat) (l : Loc) :
    Tw P sysH (recvMatched env (s.hp H) buf count dt rl item l) (recvMatched (env.withGarbage gs) (s.hp H') buf count dt rl item l) := by
  unfold recvMatched
  simp only [Sys.hp_lists]
  refine .skip fun r => .skip fun lists => ?_
  show Tw P sysH
    ((({ s with lists := lists } : Sys).hp H).req (some r) >>= fun q =>
      copy_data2 env (({ s with lists := lists } : Sys).hp H) q.buf count dt buf count dt >>= fun s =>
      s.req (some r) >>= fun q =>
      s.modReq l (fun r => { r with complete := 1, source := 0, tag := q.tag }) >>= fun s =>
      s.modReq r (fun r => { r with complete := 1 }))
    ((({ s with lists := lists } : Sys).hp H').req (some r) >>= fun q =>
      copy_data2 (env.withGarbage gs) (({ s with lists := lists } : Sys).hp H') q.buf count dt buf count dt >>= fun s =>
      s.req (some r) >>= fun q =>
      s.modReq l (fun r => { r with complete := 1, source := 0, tag := q.tag }) >>= fun s =>
      s.modReq r (fun r => { r with complete := 1 }))
  rw [Sys.hp_req, Sys.hp_req]
  refine .skip fun q => .bind (copy_data2_tw hH ..) fun s H H' hH => ?_
  simp only [sysH, Sys.hp_req]
  exact .skip fun q => .bind (modReq_tw hH s _ _) fun s H H' hH => modReq_tw hH s _ _

theorem sendQueued_tw (s : Sys) (buf tag : Int) (sl : Nat) (l : Loc) :
    Tw P sysH (sendQueued (s.hp H) buf tag sl l) (sendQueued (s.hp H') buf tag sl l) := by
  unfold sendQueued
  refine .bind (modReq_tw hH s _ _) fun s H H' hH => ?_
  simp only [sysH, Sys.hp_lists]
  exact .skip fun x => modReq_tw hH { s with lists := x.1 } l fun r => { r with listitem := some x.2 }

theorem recvQueued_tw (s : Sys) (buf tag : Int) (sl : Nat) (l : Loc) :
    Tw P sysH (recvQueued (s.hp H) buf tag sl l) (recvQueued (s.hp H') buf tag sl l) := by
  unfold recvQueued
  refine .bind (modReq_tw hH s _ _) fun s H H' hH => ?_
  simp only [sysH, Sys.hp_lists]
  exact .skip fun x => modReq_tw hH { s with lists := x.1 } l fun r => { r with listitem := some x.2 }

theorem Isend_tw (s : Sys) (buf count dt dest tag comm : Int) :
    Tw P sysAndH (MPI_Isend env (s.hp H) buf count dt dest tag comm) (MPI_Isend (env.withGarbage gs) (s.hp H') buf count dt dest tag comm) := by
  unfold MPI_Isend
  refine .bind (ptr_tw hH s comm) ?_
  rintro ⟨s, p⟩ H H' hH
  refine .ite .abort (.bind (allocReq_tw hH s) ?_)
  rintro ⟨s, h, l⟩ H H' hH
  refine .ite (.bind (modReq_tw hH s _ _) fun s H H' hH => .ret hH (s, h)) ?_
  simp only [sysAndH, Sys.hp_comm, Sys.hp_lists, match_recv_hp]
  refine .skip fun c => .skip fun found => ?_
  cases found with
  | none => exact .bind (sendQueued_tw hH ..) fun s H H' hH => .ret hH (s, h)
  | some item => exact .bind (sendMatched_tw hH ..) fun s H H' hH => .ret hH (s, h)

theorem Irecv_tw (s : Sys) (buf count dt src tag comm : Int) :
    Tw P sysAndH (MPI_Irecv env (s.hp H) buf count dt src tag comm) (MPI_Irecv (env.withGarbage gs) (s.hp H') buf count dt src tag comm) := by
  unfold MPI_Irecv
  refine .bind (ptr_tw hH s comm) ?_
  rintro ⟨s, p⟩ H H' hH
  refine .ite .abort (.bind (allocReq_tw hH s) ?_)
  rintro ⟨s, h, l⟩ H H' hH
  refine .bind (modReq_tw hH s _ _) fun s H H' hH => .ite (.bind (modReq_tw hH s _ _) fun s H H' hH => .ret hH (s, h)) ?_
  simp only [sysH, Sys.hp_comm, Sys.hp_lists, match_send_hp]
  refine .skip fun c => .skip fun found => ?_
  cases found with
  | none => exact .bind (recvQueued_tw hH ..) fun s H H' hH => .ret hH (s, h)
  | some item => exact .bind (recvMatched_tw hH ..) fun s H H' hH => .ret hH (s, h)

theorem Test_tw (s : Sys) (r : Int) (st : StPtr) : Tw P testH (MPI_Test (s.hp H) r st) (MPI_Test (s.hp H') r st) := by
  unfold MPI_Test
  refine .ite (.skip fun st => .ret hH ⟨s, r, 1, st⟩) (.bind (ptr_tw hH s r) ?_)
  rintro ⟨s, p⟩ H H' hH
  simp only [sysAndH, Sys.hp_req, Sys.hp_handles]
  refine .skip fun q => .ite (.skip fun st => .skip fun t => ?_) (.ret hH ⟨s, r, q.complete, st⟩)
  exact .ret hH ⟨{ s with handles := t }, MPI_REQUEST_NULL, q.complete, st⟩

theorem Wait_tw (s : Sys) (r : Int) (st : StPtr) : Tw P sysAndH (MPI_Wait (s.hp H) r st) (MPI_Wait (s.hp H') r st) :=
  .bind (Test_tw hH s r st) fun x H H' hH => .ite (p := x.flag = 0) .abort (.ret hH (x.sys, x.request, x.status))

theorem Request_free_tw (s : Sys) (r : Int) : Tw P sysAndH (MPI_Request_free (s.hp H) r) (MPI_Request_free (s.hp H') r) := by
  unfold MPI_Request_free
  simp only [Sys.hp_handles]
  exact .skip fun t => .ret hH ({ s with handles := t }, MPI_REQUEST_NULL)

theorem Send_tw (s : Sys) (buf count dt dest tag comm : Int) :
    Tw P sysH (MPI_Send env (s.hp H) buf count dt dest tag comm) (MPI_Send (env.withGarbage gs) (s.hp H') buf count dt dest tag comm) :=
  .bind (Isend_tw hH s ..) fun x H H' hH => .bind (Wait_tw hH x.1 x.2 _) fun y H H' hH => .ret hH y.1

theorem Irsend_tw (s : Sys) (buf count dt dest tag comm : Int) :
    Tw P sysAndH (MPI_Irsend env (s.hp H) buf count dt dest tag comm) (MPI_Irsend (env.withGarbage gs) (s.hp H') buf count dt dest tag comm) := by
  unfold MPI_Irsend
  refine .bind (Isend_tw hH s ..) ?_
  rintro ⟨s, h⟩ H H' hH
  refine .bind (ptr_tw hH s h) ?_
  rintro ⟨s, p⟩ H H' hH
  simp only [sysAndH, Sys.hp_req]
  exact .skip fun q => .ite .abort (.ret hH (s, h))

theorem Recv_tw (s : Sys) (buf count dt src tag comm : Int) (st : StPtr) :
    Tw P sysAndH (MPI_Recv env (s.hp H) buf count dt src tag comm st) (MPI_Recv (env.withGarbage gs) (s.hp H') buf count dt src tag comm st) := by
  unfold MPI_Recv
  refine .bind (Irecv_tw hH s ..) ?_
  rintro ⟨s, h⟩ H H' hH
  refine .bind (Wait_tw hH s h st) ?_
  rintro ⟨s, h, st⟩ H H' hH
  cases st with
  | null => exact .ret hH (s, .null)
  | obj st => exact .ret hH (s, .obj { st with get_count := count })
  | bad => exact .ub

theorem Sendrecv_tw (s : Sys) (a b c x y a' b' c' x' y' comm : Int) (st : StPtr) :
    Tw P sysAndH (MPI_Sendrecv env (s.hp H) a b c x y a' b' c' x' y' comm st)
      (MPI_Sendrecv (env.withGarbage gs) (s.hp H') a b c x y a' b' c' x' y' comm st) := by
  unfold MPI_Sendrecv
  refine .bind (Irecv_tw hH s ..) ?_
  rintro ⟨s, h⟩ H H' hH
  refine .bind (Send_tw hH s ..) fun s H H' hH => .bind (Wait_tw hH s h st) ?_
  rintro ⟨s, h, st⟩ H H' hH
  exact .ret hH (s, st)

theorem Iprobe_tw (s : Sys) (src tag comm : Int) (st : StPtr) :
    Tw P sysAndH (MPI_Iprobe (s.hp H) src tag comm st) (MPI_Iprobe (s.hp H') src tag comm st) := by
  unfold MPI_Iprobe
  refine .bind (ptr_tw hH s comm) ?_
  rintro ⟨s, p⟩ H H' hH
  simp only [sysAndH, Sys.hp_comm, Sys.hp_lists, Sys.hp_req, match_send_hp]
  refine .ite .abort (.skip fun c => .skip fun found => ?_)
  cases found with
  | none => exact .ret hH (s, 0, st)
  | some item => exact .skip fun l => .skip fun q => .skip fun st => .ret hH (s, 1, st)

theorem Probe_tw (s : Sys) (src tag comm : Int) (st : StPtr) :
    Tw P sysAndH (MPI_Probe (s.hp H) src tag comm st) (MPI_Probe (s.hp H') src tag comm st) :=
  .bind (Iprobe_tw hH s ..) fun x H H' hH => .ite .abort (.ret hH (x.1, x.2.2))

/-! ## Arrays of requests -/

omit hH in
theorem testanyLoop_tw (n : Nat) : ∀ i (s : Sys) reqs st (H H' : THeap), THeap.Like P H H' →
    Tw P sysAndH (testanyLoop n i (s.hp H) reqs st) (testanyLoop n i (s.hp H') reqs st) := by
  induction n with
  | zero => intro i s reqs st H H' hH; exact .ret hH (s, reqs, 0, st)
  | succ n ih =>
    intro i s reqs st H H' hH
    unfold testanyLoop
    refine .skip fun h => .bind (Test_tw hH s h st) fun x H H' hH => ?_
    exact .ite (p := x.flag ≠ 0) (.ret hH (x.sys, reqs.set i x.request, x.flag, x.status))
      (ih _ x.sys (reqs.set i x.request) x.status H H' hH)

theorem Testany_tw (s : Sys) (n : Int) (rs : List Int) (i : Int) (st : StPtr) :
    Tw P sysAndH (MPI_Testany (s.hp H) n rs i st) (MPI_Testany (s.hp H') n rs i st) :=
  .bind (testanyLoop_tw _ 0 s rs st H H' hH) fun x H H' hH => .ret hH (x.1, x.2.1, i, x.2.2.1, x.2.2.2)

theorem Waitany_tw (s : Sys) (n : Int) (rs : List Int) (i : Int) (st : StPtr) :
    Tw P sysAndH (MPI_Waitany (s.hp H) n rs i st) (MPI_Waitany (s.hp H') n rs i st) :=
  .bind (Testany_tw hH s n rs i st) fun x H H' hH => .ite .abort (.ret hH (x.1, x.2.1, x.2.2.1, x.2.2.2.2))

omit hH in
theorem testallLoop_tw (n : Nat) : ∀ i (s : Sys) reqs sts flag (H H' : THeap), THeap.Like P H H' →
    Tw P arrAndH (testallLoop n i (s.hp H) reqs sts flag) (testallLoop n i (s.hp H') reqs sts flag) := by
  induction n with
  | zero => intro i s reqs sts flag H H' hH; exact .ret hH (⟨s, reqs, sts⟩, flag)
  | succ n ih =>
    intro i s reqs sts flag H H' hH
    unfold testallLoop
    exact .skip fun h => .skip fun p => .bind (Test_tw hH s h p) fun x H H' hH =>
      ih _ x.sys (reqs.set i x.request) (StArr.upd sts i x.status) (if x.flag = 0 then 0 else flag) H H' hH

omit hH in
theorem waitallLoop_tw (n : Nat) : ∀ i (s : Sys) reqs sts (H H' : THeap), THeap.Like P H H' →
    Tw P arrH (waitallLoop n i (s.hp H) reqs sts) (waitallLoop n i (s.hp H') reqs sts) := by
  induction n with
  | zero => intro i s reqs sts H H' hH; exact .ret hH ⟨s, reqs, sts⟩
  | succ n ih =>
    intro i s reqs sts H H' hH
    unfold waitallLoop
    exact .skip fun h => .skip fun p => .bind (Test_tw hH s h p) fun x H H' hH => .ite (p := x.flag = 0) .abort
      (ih _ x.sys (reqs.set i x.request) (StArr.upd sts i x.status) H H' hH)

omit hH in
theorem testsomeLoop_tw (n : Nat) : ∀ i (s : Sys) reqs sts k (H H' : THeap), THeap.Like P H H' →
    Tw P arrAndH (testsomeLoop n i (s.hp H) reqs sts k) (testsomeLoop n i (s.hp H') reqs sts k) := by
  induction n with
  | zero => intro i s reqs sts k H H' hH; exact .ret hH (⟨s, reqs, sts⟩, k)
  | succ n ih =>
    intro i s reqs sts k H H' hH
    unfold testsomeLoop
    exact .skip fun h => .skip fun p => .bind (Test_tw hH s h p) fun x H H' hH =>
      ih _ x.sys (reqs.set i x.request) (StArr.upd sts i x.status) (if x.flag = 0 then k else k + 1) H H' hH

theorem Testsome_tw (s : Sys) (n : Int) (rs ix : List Int) (sts : StArr) :
    Tw P someH (MPI_Testsome (s.hp H) n rs ix sts) (MPI_Testsome (s.hp H') n rs ix sts) :=
  .bind (testsomeLoop_tw _ 0 s rs sts 0 H H' hH) fun x H H' hH => .ret hH ⟨x.1, x.2, ix⟩

/-! ## All calls -/

omit hH in
theorem Tw.one {f f' : Res (Sys × Int)} (h : Tw P sysAndH f f') :
    Tw P sysAndH (f >>= fun x => .ok (x.1, (⟨[x.2], []⟩ : Out))) (f' >>= fun x => .ok (x.1, (⟨[x.2], []⟩ : Out))) :=
  .bind h fun x _ _ hH => .ret hH (x.1, ⟨[x.2], []⟩)

omit hH in
theorem Tw.none {f f' : Res Sys} (h : Tw P sysH f f') :
    Tw P sysAndH (f >>= fun s => .ok (s, (⟨[], []⟩ : Out))) (f' >>= fun s => .ok (s, (⟨[], []⟩ : Out))) :=
  .bind h fun x _ _ hH => .ret hH (x, ⟨[], []⟩)

theorem answer_tw (hgs : ∀ n, (env.garbage n).Like P (gs n)) (s : Sys) (c : Call) (hc : c.Consts)
    (hu : P ∨ c.NoEmpty env (s.hp H)) :
    Tw P sysAndH (c.answer env (s.hp H)) (c.answer (env.withGarbage gs) (s.hp H')) := by
  have hext := fun (s : Sys) t => Type_extent_tw (env := env) (gs := gs) hH s t
  have hbuild : ∀ (t : Int) {b b' : Garbage → Typestruct → Res Typestruct},
      (P ∨ ∀ s' d, typeOf env (s.hp H) t = .ok (s', d) → d.count ≠ 0) →
      (∀ g g' d d', g.Like P g' → d.Like P d' → (P ∨ d.count ≠ 0) → (b g d).Rel (Typestruct.Like P) (b' g' d')) →
      Tw P sysAndH (typeOf env (s.hp H) t >>= fun x => newType env x.1 fun g => b g x.2)
        (typeOf (env.withGarbage gs) (s.hp H') t >>= fun x => newType (env.withGarbage gs) x.1 fun g => b' g x.2) := by
    intro t b b' hu hb
    refine typeOf_then_tw hH s t fun s' d d' K K' hK hd he => newType_tw hK hgs s' fun g g' hg => hb g g' d d' hg hd ?_
    exact hu.imp id fun h => h _ _ he
  cases c with
  | store m => exact .ret hH ({ s with mem := m }, ⟨[], []⟩)
  | init => exact .none (Init_tw hH s)
  | initThread r => exact .one (.bind (Init_tw hH s) fun s _ _ hH => .ret hH (s, r))
  | fortInit a => exact .none (init_fort_tw hH a hc s)
  | initialized => exact .ret hH (s, ⟨[MPI_Initialized s], []⟩)
  | finalize => exact .none (.ret hH (MPI_Finalize s))
  | abort a b => exact .exit
  | commDup c => exact .one (comm_new_tw hH s)
  | commCreate c g => exact .one (.ite (.ret hH (s, MPI_COMM_NULL)) (comm_new_tw hH s))
  | commSplit a b c => exact .one (.ite (.ret hH (s, MPI_COMM_NULL)) (comm_new_tw hH s))
  | intercommCreate a b c x y => exact .one (.ite (.ret hH (s, MPI_COMM_NULL)) (comm_new_tw hH s))
  | cartCreate c n dims => exact .one (.skip fun _ => comm_new_tw hH s)
  | commFree c => exact .one (Comm_free_tw hH s c)
  | isend => exact .one (Isend_tw hH ..)
  | irsend => exact .one (Irsend_tw hH ..)
  | send => exact .none (Send_tw hH ..)
  | irecv => exact .one (Irecv_tw hH ..)
  | recv => exact .bind (Recv_tw hH ..) fun x _ _ hH => .ret hH (x.1, ⟨x.2.vals, []⟩)
  | sendrecv => exact .bind (Sendrecv_tw hH ..) fun x _ _ hH => .ret hH (x.1, ⟨x.2.vals, []⟩)
  | iprobe => exact .bind (Iprobe_tw hH ..) fun x _ _ hH => .ret hH (x.1, ⟨x.2.1 :: x.2.2.vals, []⟩)
  | probe => exact .bind (Probe_tw hH ..) fun x _ _ hH => .ret hH (x.1, ⟨x.2.vals, []⟩)
  | test => exact .bind (Test_tw hH ..) fun x _ _ hH => .ret hH (x.sys, .ofDone [x.request, x.flag] [x.status])
  | wait => exact .bind (Wait_tw hH ..) fun x _ _ hH => .ret hH (x.1, .ofDone [x.2.1] [x.2.2])
  | requestFree => exact .one (Request_free_tw hH ..)
  | testany =>
    exact .bind (Testany_tw hH ..) fun x _ _ hH => .ret hH (x.1, .ofDone (x.2.2.1 :: x.2.2.2.1 :: x.2.1) [x.2.2.2.2])
  | waitany => exact .bind (Waitany_tw hH ..) fun x _ _ hH => .ret hH (x.1, .ofDone (x.2.2.1 :: x.2.1) [x.2.2.2])
  | testall n rs sts =>
    exact .bind (testallLoop_tw n.toNat 0 s rs sts 1 H H' hH) fun x _ _ hH =>
      .ret hH (x.1.sys, .ofDone (x.2 :: x.1.reqs) x.1.stats.ptrs)
  | waitall n rs sts =>
    exact .bind (waitallLoop_tw n.toNat 0 s rs sts H H' hH) fun x _ _ hH => .ret hH (x.sys, .ofDone x.reqs x.stats.ptrs)
  | testsome | waitsome =>
    exact .bind (Testsome_tw hH ..) fun x _ _ hH =>
      .ret hH (x.arr.sys, .ofDone (x.outcount :: x.indices ++ x.arr.reqs) x.arr.stats.ptrs)
  | typeContiguous n t => exact .one (hbuild t hu fun g g' d d' hg hd hu => Type_contiguous_like hg hd hu n)
  | typeHvector n b x t => exact .one (hbuild t hu fun g g' d d' hg hd hu => Type_hvector_like hg hd hu n b x)
  | typeVector n b x t => exact .one (hbuild t hu fun g g' d d' hg hd hu => Type_vector_like hg hd hu n b x)
  | typeHindexed n b x t => exact .one (hbuild t hu fun g g' d d' hg hd hu => Type_hindexed_like hg hd hu n b x)
  | typeIndexed n b x t => exact .one (hbuild t hu fun g g' d d' hg hd hu => Type_indexed_like hg hd hu n b x)
  | typeIndexedBlock n b x t =>
    exact .one (hbuild t hu fun g g' d d' hg hd hu => Type_create_indexed_block_like hg hd hu n b x)
  | typeStruct => exact .one (Type_struct_tw hH hgs s _ _ _ _ hu)
  | typeCommit => exact .none (Type_commit_tw hH ..)
  | typeFree => exact .none (Type_free_tw hH ..)
  | typeExtent => exact .one (Type_extent_tw hH ..)
  | typeSize t =>
    exact .one (typeOf_then_tw hH s t fun s d d' _ _ hH hd _ => by
      show Tw P _ (Type_size env.cfg d >>= _) (Type_size env.cfg d' >>= _)
      rw [hd.size]
      exact .skip fun x => .ret hH (s, x))
  | typeLb t =>
    exact .one (typeOf_then_tw hH s t fun s d d' _ _ hH hd _ => .ret hH (s, Type_lb d) rfl (by show Res.ok _ = _; unfold Type_lb; rw [← hd.lb]; rfl))
  | typeUb t =>
    exact .one (typeOf_then_tw hH s t fun s d d' _ _ hH hd _ => .ret hH (s, Type_ub d) rfl (by show Res.ok _ = _; unfold Type_ub; rw [← hd.ub]; rfl))
  | getElements st t =>
    exact .one (typeOf_then_tw hH s t fun s d d' _ _ hH hd _ => by
      show Tw P _ (ck32 (st.get_count * d.count) >>= _) (ck32 (st.get_count * d'.count) >>= _)
      rw [hd.count]
      exact .skip fun x => .ret hH (s, x))
  | pack => exact .one (Pack_sys_tw hH ..)
  | packSize n t comm =>
    exact .one (typeOf_then_tw hH s t fun s d d' _ _ hH hd _ => .bind (ptr_tw hH s comm) fun y _ _ hH => by
      show Tw P _ (Pack_size env.cfg n d >>= _) (Pack_size env.cfg n d' >>= _)
      rw [hd.packSize]
      exact .skip fun n => .ret hH (y.1, n))
  | unpack => exact .one (Unpack_sys_tw hH ..)
  | barrier => exact .none (.ret hH s)
  | bcast => exact .none (.ite (.ret hH s) (.ite .abort (.ret hH s)))
  | gather | scatter => exact .none (.ite (.ret hH s) (.ite (.ret hH s) (.ite .abort (copy_data2_tw hH s ..))))
  | gatherv | scatterv =>
    exact .none (.ite (.ret hH s) (.ite (.ret hH s) (.ite .abort (.bind (hext s _) fun x _ _ hH =>
      .skip fun _ => .skip fun _ => copy_data2_tw hH x.1 ..))))
  | allgather | allreduce => exact .none (.ite (.ret hH s) (copy_data2_tw hH s ..))
  | allgatherv => exact .none (.ite (.ret hH s) (.bind (hext s _) fun x _ _ hH => .skip fun _ => .skip fun _ => copy_data2_tw hH x.1 ..))
  | reduce => exact .none (.ite .abort (copy_data2_tw hH s ..))
  | reduceScatter => exact .none (.skip fun _ => copy_data2_tw hH s ..)
  | scan | alltoall => exact .none (copy_data2_tw hH s ..)
  | alltoallv =>
    exact .none (.bind (hext s _) fun x _ _ hH => .bind (Type_extent_tw hH x.1 _) fun y _ _ hH => .skip fun _ => .skip fun _ =>
      .skip fun _ => .skip fun _ => copy_data2_tw hH y.1 ..)
  | alltoallw =>
    exact .none (.skip fun _ => .skip fun _ => .skip fun _ => .skip fun _ => .skip fun _ => .skip fun _ => copy_data2_tw hH s ..)

end MpiSerial
