import Verif.Model.Types
import Verif.Spec.Types

set_option linter.unusedSimpArgs false

/-! # Lemmas about type.c -/

namespace MpiSerial

/-- The initialised part of the type map. -/
def Typestruct.map (t : Typestruct) : List Pair := t.pairs.take t.count.toNat

theorem pair_ok {t : Typestruct} {i : Nat} (h : i < t.pairs.length) :
    t.pair (i : Int) = .ok t.pairs[i] := by
  unfold Typestruct.pair
  simp [h]

theorem drop_take_succ {α : Type} (l : List α) (i n : Nat) (h : i < l.length) :
    (l.drop i).take (n + 1) = l[i] :: (l.drop (i + 1)).take n := by
  rw [List.drop_eq_getElem_cons h, List.take_succ_cons]

/-- Length of a basic element (0 for codes without a length). -/
def lenOf (cfg : Cfg) (k : Int) : Int :=
  match Simpletype_length cfg k with
  | .ok s => s
  | _ => 0

/-- Codes that have a length. -/
def hasLen (cfg : Cfg) (k : Int) : Prop := Simpletype_length cfg k = .ok (lenOf cfg k)

theorem hasLen_of_ok {cfg : Cfg} {k s : Int} (h : Simpletype_length cfg k = .ok s) :
    hasLen cfg k ∧ lenOf cfg k = s := by
  unfold hasLen lenOf; rw [h]; exact ⟨rfl, rfl⟩

/-- The configured Fortran sizes are sensible. -/
structure Cfg.Ok (cfg : Cfg) : Prop where
  r1 : 1 ≤ cfg.fsizeReal
  r2 : cfg.fsizeReal ≤ 64
  d1 : 1 ≤ cfg.fsizeDouble
  d2 : cfg.fsizeDouble ≤ 64

theorem lenOf_range {cfg : Cfg} (hc : cfg.Ok) {k : Int} (h : hasLen cfg k) :
    1 ≤ lenOf cfg k ∧ lenOf cfg k ≤ 128 := by
  unfold hasLen at h
  obtain ⟨h1, h2, h3, h4⟩ := hc
  revert h
  generalize lenOf cfg k = s
  unfold Simpletype_length
  split <;> simp only [Res.ok.injEq, reduceCtorEq, false_implies] <;> omega

theorem hasLen_not_mark {cfg : Cfg} {k : Int} (h : hasLen cfg k) : k ≠ 12 ∧ k ≠ 13 := by
  unfold hasLen at h
  constructor <;> (rintro rfl; simp [Simpletype_length] at h)

theorem ite_max (a m : Int) : (if a > m then a else m) = max m a := by
  rw [Int.max_def]; split <;> split <;> omega
theorem ite_min (a m : Int) : (if a < m then a else m) = min a m := by
  rw [Int.min_def]; split <;> split <;> omega

theorem sum_nonneg_of {α : Type} (l : List α) (f : α → Int) (h : ∀ x ∈ l, 0 ≤ f x) :
    0 ≤ (l.map f).sum := by
  induction l with
  | nil => simp
  | cons a l ih =>
    rw [List.map_cons, List.sum_cons]
    have h1 := h a (List.mem_cons_self ..)
    have h2 := ih (fun x hx => h x (List.mem_cons_of_mem _ hx))
    omega

/-! ## The reading loops are folds over the type map -/

theorem calcPaddingLoop_eq (cfg : Cfg) (t : Typestruct) (n i : Nat) (m : Int)
    (hb : i + n ≤ t.pairs.length) (hl : ∀ p ∈ (t.pairs.drop i).take n, hasLen cfg p.type) :
    calcPaddingLoop cfg t n i m
      = .ok (((t.pairs.drop i).take n).foldl (fun m p => max m (lenOf cfg p.type)) m) := by
  induction n generalizing i m with
  | zero => simp [calcPaddingLoop]
  | succ n ih =>
    have hi : i < t.pairs.length := by omega
    rw [drop_take_succ _ _ _ hi] at hl ⊢
    have h0 := hl _ (List.mem_cons_self ..)
    unfold hasLen at h0
    rw [calcPaddingLoop, pair_ok hi, Res.ok_bind, h0, Res.ok_bind,
      ih _ _ (by omega) (fun p hp => hl p (List.mem_cons_of_mem _ hp)), List.foldl_cons, ite_max]

theorem calcLbLoop_eq (t : Typestruct) (n i : Nat) (m : Int)
    (hb : i + n ≤ t.pairs.length) :
    calcLbLoop t n i m
      = .ok (((t.pairs.drop i).take n).foldl (fun m p => s32 (min p.disp m)) m) := by
  induction n generalizing i m with
  | zero => simp [calcLbLoop]
  | succ n ih =>
    have hi : i < t.pairs.length := by omega
    rw [drop_take_succ _ _ _ hi, calcLbLoop, pair_ok hi, Res.ok_bind, ih _ _ (by omega),
      List.foldl_cons, ite_min]

theorem calcUbLoop_eq (cfg : Cfg) (t : Typestruct) (n i : Nat) (m : Int)
    (hb : i + n ≤ t.pairs.length) (hl : ∀ p ∈ (t.pairs.drop i).take n, hasLen cfg p.type)
    (hr : ∀ p ∈ (t.pairs.drop i).take n, -9223372036854775808 ≤ p.disp + lenOf cfg p.type ∧
      p.disp + lenOf cfg p.type ≤ 9223372036854775807) :
    calcUbLoop cfg t n i m
      = .ok (((t.pairs.drop i).take n).foldl (fun m p => max m (p.disp + lenOf cfg p.type)) m) := by
  induction n generalizing i m with
  | zero => simp [calcUbLoop]
  | succ n ih =>
    have hi : i < t.pairs.length := by omega
    rw [drop_take_succ _ _ _ hi] at hl hr ⊢
    have h0 := hl _ (List.mem_cons_self ..)
    have h1 := hr _ (List.mem_cons_self ..)
    unfold hasLen at h0
    rw [calcUbLoop, pair_ok hi, Res.ok_bind, h0, Res.ok_bind, ck64_ok h1.1 h1.2, Res.ok_bind,
      ih _ _ (by omega) (fun p hp => hl p (List.mem_cons_of_mem _ hp))
        (fun p hp => hr p (List.mem_cons_of_mem _ hp)), List.foldl_cons, ite_max]

theorem typeSizeLoop_eq (cfg : Cfg) (hc : cfg.Ok) (t : Typestruct) (n i : Nat) (s : Int)
    (hb : i + n ≤ t.pairs.length) (hl : ∀ p ∈ (t.pairs.drop i).take n, hasLen cfg p.type)
    (h0 : 0 ≤ s)
    (hr : s + (((t.pairs.drop i).take n).map (fun p => lenOf cfg p.type)).sum ≤ 2147483647) :
    typeSizeLoop cfg t n i s
      = .ok (s + (((t.pairs.drop i).take n).map (fun p => lenOf cfg p.type)).sum) := by
  induction n generalizing i s with
  | zero => simp [typeSizeLoop]
  | succ n ih =>
    have hi : i < t.pairs.length := by omega
    rw [drop_take_succ _ _ _ hi] at hl hr ⊢
    have hp := hl _ (List.mem_cons_self ..)
    have hlen := lenOf_range hc hp
    unfold hasLen at hp
    rw [List.map_cons, List.sum_cons] at hr ⊢
    have hnn : 0 ≤ (((t.pairs.drop (i + 1)).take n).map (fun p => lenOf cfg p.type)).sum := by
      apply sum_nonneg_of
      intro p hp
      have := lenOf_range hc (hl p (List.mem_cons_of_mem _ hp))
      omega
    rw [typeSizeLoop, pair_ok hi, Res.ok_bind, hp, Res.ok_bind, ck32_ok (by omega) (by omega),
      Res.ok_bind, ih _ _ (by omega) (fun p hp => hl p (List.mem_cons_of_mem _ hp)) (by omega)
        (by omega)]
    congr 1; omega

/-! ## Type_struct -/

/-- Code of the first type-map slot (what `Type_struct` looks at to recognise markers). -/
def Block.k0 (b : Block) : Int :=
  match b.ty.pairs[0]? with
  | some p => p.type
  | none => 0

/-- Neither MPI_LB nor MPI_UB. -/
def Block.isData (b : Block) : Prop := b.k0 ≠ 12 ∧ b.k0 ≠ 13
instance (b : Block) : Decidable b.isData := by unfold Block.isData; exact inferInstance

theorem pair0_ok {b : Block} (h : b.ty.pairs ≠ []) :
    ∃ p, b.ty.pair 0 = .ok p ∧ p.type = b.k0 := by
  have h0 : 0 < b.ty.pairs.length := List.length_pos_iff.2 h
  refine ⟨b.ty.pairs[0], by simpa using pair_ok h0, ?_⟩
  unfold Block.k0
  rw [List.getElem?_eq_getElem h0]

/-- `l` with the entries from position `k` on overwritten by `w`. -/
def writeAt {α : Type} (l : List α) (k : Nat) (w : List α) : List α :=
  l.take k ++ w ++ l.drop (k + w.length)

theorem writeAt_nil {α : Type} (l : List α) (k : Nat) : writeAt l k [] = l := by
  simp [writeAt]

theorem writeAt_length {α : Type} (l : List α) (k : Nat) (w : List α) (h : k + w.length ≤ l.length) :
    (writeAt l k w).length = l.length := by
  simp [writeAt]; omega

theorem writeAt_writeAt {α : Type} (l : List α) (k : Nat) (w w' : List α)
    (h : k + w.length + w'.length ≤ l.length) :
    writeAt (writeAt l k w) (k + w.length) w' = writeAt l k (w ++ w') := by
  unfold writeAt
  have h1 : (List.take k l ++ w).length = k + w.length := by simp; omega
  rw [List.take_left' h1, List.drop_append, h1, List.drop_drop]
  have h2 : List.drop (k + w.length + w'.length) (List.take k l ++ w) = [] := by
    apply List.drop_eq_nil_of_le; omega
  rw [h2, List.length_append]
  simp only [List.append_assoc, List.nil_append]
  congr 4
  omega

theorem set_eq_writeAt {α : Type} (l : List α) (k : Nat) (x : α) (h : k < l.length) :
    l.set k x = writeAt l k [x] := by
  unfold writeAt
  rw [List.set_eq_take_append_cons_drop, if_pos h]
  simp

theorem structCopyPairs_eq (ty : Typestruct) (off : Int) (n k : Nat) (s : Pass2)
    (hk : k + n ≤ ty.pairs.length) (hn : s.newcount + n ≤ s.pairs.length) :
    structCopyPairs ty off n k s = .ok { s with
      pairs := writeAt s.pairs s.newcount
        (((ty.pairs.drop k).take n).map fun p => ⟨s64 (p.disp + off), p.type⟩),
      newcount := s.newcount + n } := by
  induction n generalizing k s with
  | zero => simp [structCopyPairs, writeAt_nil]
  | succ n ih =>
    have hi : k < ty.pairs.length := by omega
    rw [structCopyPairs, pair_ok hi, Res.ok_bind, setPair, if_pos (by omega), Res.ok_bind,
      ih (k + 1) _ (by omega) (by simp; omega)]
    rw [drop_take_succ _ _ _ hi, List.map_cons]
    simp only [set_eq_writeAt _ _ _ (show s.newcount < s.pairs.length by omega)]
    have := writeAt_writeAt s.pairs s.newcount [(⟨s64 (ty.pairs[k].disp + off), ty.pairs[k].type⟩ : Pair)]
      (((ty.pairs.drop (k + 1)).take n).map fun p => ⟨s64 (p.disp + off), p.type⟩)
      (by simp; omega)
    simp only [List.length_cons, List.length_nil, Nat.zero_add] at this
    rw [this]
    simp only [List.cons_append, List.nil_append, Nat.add_comm 1 n, Nat.add_assoc]

/-- Type-map entries contributed by repetitions `j .. j+n-1` of a block with component extent `e`. -/
def repEntries (b : Block) (e : Int) (n j : Nat) : List Pair :=
  (List.range' j n).flatMap fun (j : Nat) =>
    b.ty.map.map fun p => ⟨s64 (p.disp + (b.disp + j * e)), p.type⟩

theorem repEntries_zero (b : Block) (e : Int) (j : Nat) : repEntries b e 0 j = [] := by
  simp [repEntries]

theorem repEntries_succ (b : Block) (e : Int) (n j : Nat) :
    repEntries b e (n + 1) j
      = (b.ty.map.map fun p => ⟨s64 (p.disp + (b.disp + j * e)), p.type⟩) ++ repEntries b e n (j + 1) := by
  simp [repEntries, List.range'_succ]

theorem repEntries_length (b : Block) (e : Int) (n j : Nat) :
    (repEntries b e n j).length = n * b.ty.map.length := by
  induction n generalizing j with
  | zero => simp [repEntries_zero]
  | succ n ih =>
    rw [repEntries_succ, List.length_append, List.length_map, ih, Nat.succ_mul]; omega

/-- Lower-bound candidates (unsigned) inherited from repetitions `j .. j+n-1`. -/
def repLbs (b : Block) (e : Int) (n j : Nat) : List Int :=
  if b.ty.o_lb ≠ 0 then (List.range' j n).map fun (j : Nat) => u64 (b.ty.lb + b.disp + j * e) else []

/-- Upper-bound candidates (unsigned) inherited from repetitions `j .. j+n-1`. -/
def repUbs (b : Block) (e : Int) (n j : Nat) : List Int :=
  if b.ty.o_ub ≠ 0 then (List.range' j n).map fun (j : Nat) => u64 (b.ty.ub + b.disp + j * e) else []

theorem foldl_min_assoc (l : List Int) (a : Int) (b : Int) :
    l.foldl min (min a b) = min a (l.foldl min b) := by
  induction l generalizing b with
  | nil => rfl
  | cons c l ih => rw [List.foldl_cons, List.foldl_cons, Int.min_assoc, ih]

theorem structReps_eq (cfg : Cfg) (b : Block) (e : Int) (n j : Nat) (s : Pass2)
    (hcl : b.ty.count.toNat ≤ b.ty.pairs.length)
    (he : n = 0 ∨ Type_extent cfg b.ty = .ok (u64 e))
    (hn : s.newcount + n * b.ty.map.length ≤ s.pairs.length) :
    structReps cfg b n j s = .ok
      { pairs := writeAt s.pairs s.newcount (repEntries b e n j),
        newcount := s.newcount + n * b.ty.map.length,
        new_lb := (repLbs b e n j).foldl min s.new_lb,
        new_ub := (repUbs b e n j).foldl max s.new_ub } := by
  induction n generalizing j s with
  | zero =>
    cases s
    simp [structReps, repEntries_zero, writeAt_nil, repLbs, repUbs]
  | succ n ih =>
    have he' : Type_extent cfg b.ty = .ok (u64 e) := by
      rcases he with h | h
      · omega
      · exact h
    have hml : b.ty.map.length = b.ty.count.toNat := by
      unfold Typestruct.map; rw [List.length_take]; omega
    rw [Nat.succ_mul] at hn
    rw [structReps, he', Res.ok_bind]
    simp only []
    rw [structCopyPairs_eq _ _ _ _ _ (by omega) (by simp only []; omega), Res.ok_bind,
      ih _ _ (Or.inr he') (by
        simp only []
        rw [writeAt_length]
        · omega
        · simp; omega)]
    have hoff : ∀ x : Int, s64 (x + u64 (b.disp + u64 (↑j * u64 e))) = s64 (x + (b.disp + ↑j * e)) := by
      intro x
      rw [s64_add_right, u64_mul_right]
      rw [show x + (b.disp + u64 (↑j * e)) = (x + b.disp) + u64 (↑j * e) by omega, s64_add_right]
      congr 1; omega
    have hlo : ∀ x : Int, u64 (u64 (x + b.disp) + u64 (↑j * u64 e)) = u64 (x + b.disp + ↑j * e) := by
      intro x
      rw [u64_mul_right, u64_add_left, u64_add_right]
    simp only [hoff, hlo, List.drop_zero]
    have hmap : List.take b.ty.count.toNat b.ty.pairs = b.ty.map := rfl
    rw [hmap]
    congr 1
    have hw := writeAt_writeAt s.pairs s.newcount
        (b.ty.map.map fun p => (⟨s64 (p.disp + (b.disp + j * e)), p.type⟩ : Pair))
        (repEntries b e n (j + 1)) (by rw [List.length_map, repEntries_length]; omega)
    rw [List.length_map, hml] at hw
    rw [hw, repEntries_succ]
    refine Pass2.mk.injEq .. ▸ ⟨rfl, ?_, ?_, ?_⟩
    · rw [Nat.succ_mul]; omega
    · unfold repLbs
      by_cases ho : b.ty.o_lb = 0
      · simp [ho]
      · simp only [ho, ne_eq, not_false_eq_true, true_and, if_true, List.range'_succ, List.map_cons,
          List.foldl_cons, ite_min]
        rw [Int.min_comm]
    · unfold repUbs
      by_cases ho : b.ty.o_ub = 0
      · simp [ho]
      · simp only [ho, ne_eq, not_false_eq_true, true_and, if_true, List.range'_succ, List.map_cons,
          List.foldl_cons, ite_max]

/-- Everything the second pass writes. -/
def blockEntries (e : Typestruct → Int) (b : Block) : List Pair :=
  if b.isData then repEntries b (e b.ty) b.len.toNat 0 else []
/-- Inherited lower bounds. -/
def blockLbs (e : Typestruct → Int) (b : Block) : List Int :=
  if b.isData then repLbs b (e b.ty) b.len.toNat 0 else []
/-- Inherited upper bounds. -/
def blockUbs (e : Typestruct → Int) (b : Block) : List Int :=
  if b.isData then repUbs b (e b.ty) b.len.toNat 0 else []

/-- A descriptor whose type map lies inside its storage, and can be inspected. -/
structure Typestruct.WF (t : Typestruct) : Prop where
  nonneg : 0 ≤ t.count
  fits : t.count.toNat ≤ t.pairs.length
  nonempty : t.pairs ≠ []

theorem Typestruct.WF.map_length {t : Typestruct} (h : t.WF) : (t.map.length : Int) = t.count := by
  have := h.nonneg
  have := h.fits
  unfold Typestruct.map; rw [List.length_take]; omega

theorem structPass2_eq (cfg : Cfg) (e : Typestruct → Int) (bs : List Block) (s : Pass2)
    (hwf : ∀ b ∈ bs, b.ty.WF)
    (he : ∀ b ∈ bs, b.isData → b.len.toNat ≠ 0 → Type_extent cfg b.ty = .ok (u64 (e b.ty)))
    (hn : s.newcount + (bs.flatMap (blockEntries e)).length ≤ s.pairs.length) :
    structPass2 cfg bs s = .ok
      { pairs := writeAt s.pairs s.newcount (bs.flatMap (blockEntries e)),
        newcount := s.newcount + (bs.flatMap (blockEntries e)).length,
        new_lb := (bs.flatMap (blockLbs e)).foldl min s.new_lb,
        new_ub := (bs.flatMap (blockUbs e)).foldl max s.new_ub } := by
  induction bs generalizing s with
  | nil => cases s; simp [structPass2, writeAt_nil]
  | cons b bs ih =>
    have hb := hwf b (List.mem_cons_self ..)
    obtain ⟨p0, hp0, hk⟩ := pair0_ok hb.nonempty
    have hwf' : ∀ b ∈ bs, b.ty.WF := fun b hb => hwf b (List.mem_cons_of_mem _ hb)
    have he' : ∀ b ∈ bs, b.isData → b.len.toNat ≠ 0 → Type_extent cfg b.ty = .ok (u64 (e b.ty)) :=
      fun b hb => he b (List.mem_cons_of_mem _ hb)
    rw [structPass2, hp0, Res.ok_bind, hk]
    simp only [List.flatMap_cons, List.foldl_append, List.length_append] at hn ⊢
    by_cases hd : b.isData
    · have hd' := hd
      unfold Block.isData at hd'
      rw [if_neg (by omega)]
      have hbe : blockEntries e b = repEntries b (e b.ty) b.len.toNat 0 := by
        unfold blockEntries; rw [if_pos hd]
      have hbl : blockLbs e b = repLbs b (e b.ty) b.len.toNat 0 := by
        unfold blockLbs; rw [if_pos hd]
      have hbu : blockUbs e b = repUbs b (e b.ty) b.len.toNat 0 := by
        unfold blockUbs; rw [if_pos hd]
      have hlen := repEntries_length b (e b.ty) b.len.toNat 0
      rw [hbe] at hn ⊢
      rw [hbl, hbu]
      rw [structReps_eq cfg b (e b.ty) _ _ _ hb.fits
        (by
          by_cases h0 : b.len.toNat = 0
          · exact Or.inl h0
          · exact Or.inr (he b (List.mem_cons_self ..) hd h0)) (by omega), Res.ok_bind,
        ih _ hwf' he' (by
          simp only []
          rw [writeAt_length] <;> omega)]
      congr 1
      have hw := writeAt_writeAt s.pairs s.newcount (repEntries b (e b.ty) b.len.toNat 0)
        (bs.flatMap (blockEntries e)) (by omega)
      rw [hlen] at hw
      simp only [hw, hlen, Nat.add_assoc]
    · have hd' := hd
      unfold Block.isData at hd'
      have hbe : blockEntries e b = [] := by unfold blockEntries; rw [if_neg hd]
      have hbl : blockLbs e b = [] := by unfold blockLbs; rw [if_neg hd]
      have hbu : blockUbs e b = [] := by unfold blockUbs; rw [if_neg hd]
      rw [hbe] at hn ⊢
      rw [hbl, hbu, if_pos (by omega), ih _ hwf' he' (by simpa using hn)]
      simp

/-- Displacements of the MPI_LB markers. -/
def lbMarks (bs : List Block) : List Int :=
  (bs.filter fun b => b.k0 = 12).map Block.disp
/-- Displacements of the MPI_UB markers. -/
def ubMarks (bs : List Block) : List Int :=
  (bs.filter fun b => b.k0 = 13).map Block.disp

theorem structPass1_eq (e : Typestruct → Int) (bs : List Block) (s : Pass1)
    (hwf : ∀ b ∈ bs, b.ty.WF) (hlen : ∀ b ∈ bs, b.isData → 0 ≤ b.len)
    (h0 : 0 ≤ s.simpletype_count)
    (hn : s.simpletype_count + (bs.flatMap (blockEntries e)).length ≤ 2147483647) :
    structPass1 bs s = .ok
      { override_lower := s.override_lower ||
          bs.any fun b => b.k0 = 12 || (b.isData && b.ty.o_lb != 0),
        override_upper := s.override_upper ||
          bs.any fun b => b.k0 = 13 || (b.isData && b.ty.o_ub != 0),
        new_lb := (lbMarks bs).foldl min s.new_lb,
        new_ub := (ubMarks bs).foldl max s.new_ub,
        simpletype_count := s.simpletype_count + (bs.flatMap (blockEntries e)).length } := by
  induction bs generalizing s with
  | nil => cases s; simp [structPass1, lbMarks, ubMarks]
  | cons b bs ih =>
    have hb := hwf b (List.mem_cons_self ..)
    obtain ⟨p0, hp0, hk⟩ := pair0_ok hb.nonempty
    have hwf' : ∀ b ∈ bs, b.ty.WF := fun b hb => hwf b (List.mem_cons_of_mem _ hb)
    have hlen' : ∀ b ∈ bs, b.isData → 0 ≤ b.len := fun b hb => hlen b (List.mem_cons_of_mem _ hb)
    rw [structPass1, hp0, Res.ok_bind, hk]
    simp only [List.flatMap_cons, List.length_append, Int.natCast_add] at hn ⊢
    by_cases h12 : b.k0 = 12
    · have hnd : ¬ b.isData := by unfold Block.isData; omega
      have hbe : blockEntries e b = [] := by unfold blockEntries; rw [if_neg hnd]
      have h13 : b.k0 ≠ 13 := by omega
      rw [hbe] at hn ⊢
      rw [if_pos h12, ih _ hwf' hlen' (by exact h0) (by simpa using hn)]
      simp only [gt_iff_lt, ite_min, lbMarks, ubMarks, h12, h13, hnd, List.filter_cons, decide_true,
        decide_false, if_true, if_false, List.map_cons, List.foldl_cons, List.any_cons, Bool.true_or,
        Bool.or_true, Bool.false_or, Bool.false_and, List.length_nil, Int.natCast_zero, Int.zero_add,
        Int.min_comm b.disp]
      simp
    · rw [if_neg h12]
      by_cases h13 : b.k0 = 13
      · have hnd : ¬ b.isData := by unfold Block.isData; omega
        have hbe : blockEntries e b = [] := by unfold blockEntries; rw [if_neg hnd]
        rw [hbe] at hn ⊢
        rw [if_pos h13, ih _ hwf' hlen' (by exact h0) (by simpa using hn)]
        have hm : ∀ a m : Int, (if m < a then a else m) = max m a := ite_max
        simp only [hm, lbMarks, ubMarks, h12, h13, hnd, List.filter_cons, decide_true,
          decide_false, if_true, if_false, List.map_cons, List.foldl_cons, List.any_cons, Bool.true_or,
          Bool.or_true, Bool.false_or, Bool.false_and, List.length_nil, Int.natCast_zero, Int.zero_add]
        simp
      · have hd : b.isData := ⟨h12, h13⟩
        have hbe : blockEntries e b = repEntries b (e b.ty) b.len.toNat 0 := by
          unfold blockEntries; rw [if_pos hd]
        have hl := repEntries_length b (e b.ty) b.len.toNat 0
        have hml := hb.map_length
        have hcl := hb.nonneg
        have hbl := hlen b (List.mem_cons_self ..) hd
        have hprod : ((repEntries b (e b.ty) b.len.toNat 0).length : Int) = b.len * b.ty.count := by
          rw [hl, Int.natCast_mul, hml]
          congr 1; omega
        have hpos : (0 : Int) ≤ b.len * b.ty.count := Int.mul_nonneg hbl hcl
        rw [hbe] at hn ⊢
        rw [hprod] at hn ⊢
        rw [if_neg h13, ck32_ok (by omega) (by omega), Res.ok_bind, ck32_ok (by omega) (by omega),
          Res.ok_bind, ih _ hwf' hlen' (by simp only []; omega) (by simp only []; omega)]
        simp only [lbMarks, ubMarks, h12, h13, hd, List.filter_cons, decide_true,
          decide_false, if_true, if_false, List.map_cons, List.foldl_cons, List.any_cons, Bool.true_or,
          Bool.or_true, Bool.false_or, Bool.false_and, Bool.true_and, Bool.or_assoc]
        simp [Int.add_assoc]


theorem foldl_append_min (a b : List Int) (x : Int) :
    b.foldl min (a.foldl min x) = (a ++ b).foldl min x := by rw [List.foldl_append]

/-- Some block forces an explicit lower bound. -/
def anyLower (bs : List Block) : Bool :=
  bs.any fun b => b.k0 = 12 || (b.isData && b.ty.o_lb != 0)
/-- Some block forces an explicit upper bound. -/
def anyUpper (bs : List Block) : Bool :=
  bs.any fun b => b.k0 = 13 || (b.isData && b.ty.o_ub != 0)

/-- The descriptor before its bounds are computed. -/
def structTemp (g : Garbage) (bs : List Block) (E : List Pair) : Typestruct :=
  { count := E.length, ub := 0, lb := 0, committed := 0,
    o_lb := if anyLower bs then 1 else g.o_lb,
    o_ub := if anyUpper bs then 1 else g.o_ub,
    pairs := E ++ [g.pair E.length] }

theorem structTemp_wf (g : Garbage) (bs : List Block) (E : List Pair) :
    (structTemp g bs E).WF := by
  constructor
  · simp only [structTemp]; omega
  · simp [structTemp]
  · simp [structTemp]

theorem structTemp_map (g : Garbage) (bs : List Block) (E : List Pair) :
    (structTemp g bs E).map = E := by
  simp [structTemp, Typestruct.map]

theorem Type_struct_eq (cfg : Cfg) (g : Garbage) (e : Typestruct → Int) (bs : List Block)
    (hwf : ∀ b ∈ bs, b.ty.WF) (hlen : ∀ b ∈ bs, b.isData → 0 ≤ b.len)
    (he : ∀ b ∈ bs, b.isData → b.len.toNat ≠ 0 → Type_extent cfg b.ty = .ok (u64 (e b.ty)))
    (hn : ((bs.flatMap (blockEntries e)).length : Int) ≤ 2147483647) :
    Type_struct cfg g bs = (do
      let temp := structTemp g bs (bs.flatMap (blockEntries e))
      let lb ← if anyLower bs
        then pure (s64 ((lbMarks bs ++ bs.flatMap (blockLbs e)).foldl min LONG_MAX))
        else calc_lb temp
      let ub ← if anyUpper bs
        then pure (s64 ((ubMarks bs ++ bs.flatMap (blockUbs e)).foldl max 9223372036854775808))
        else calc_ub cfg temp
      return { temp with lb := lb, ub := ub }) := by
  unfold Type_struct
  rw [structPass1_eq e bs _ hwf hlen (by simp) (by simpa using hn), Res.ok_bind]
  simp only [Int.zero_add, Bool.false_or]
  rw [if_neg (by omega)]
  have h1 : ((↑(bs.flatMap (blockEntries e)).length : Int) + 1).toNat
      = (bs.flatMap (blockEntries e)).length + 1 := by omega
  rw [h1, structPass2_eq cfg e bs _ hwf he (by simp), Res.ok_bind]
  simp only [foldl_append_min, ← List.foldl_append]
  have h2 : writeAt (List.map g.pair (List.range ((bs.flatMap (blockEntries e)).length + 1))) 0
      (bs.flatMap (blockEntries e))
      = bs.flatMap (blockEntries e) ++ [g.pair (bs.flatMap (blockEntries e)).length] := by
    unfold writeAt
    rw [List.range_succ, List.map_append, Nat.zero_add]
    rw [List.drop_left' (by simp)]
    simp
  rw [h2]
  rfl

end MpiSerial
