import Verif.Spec.CLayout
import Verif.Props.TypeUse

/-!
# C80, proofs
-/

set_option autoImplicit false
set_option linter.unusedSimpArgs false

namespace MpiSerial

open Spec

/-! ## Multiples -/

theorem nextMultiple_spec {x a : Int} (ha : 0 < a) : a ∣ nextMultiple x a ∧ x ≤ nextMultiple x a ∧ nextMultiple x a < x + a := by
  unfold nextMultiple
  have h1 := Int.emod_nonneg (-x) (show a ≠ 0 by omega)
  have h2 := Int.emod_lt_of_pos (-x) ha
  refine ⟨?_, by omega, by omega⟩
  have h3 := Int.mul_ediv_add_emod (-x) a
  exact ⟨-(-x / a), by rw [Int.mul_neg]; omega⟩

theorem dvd_nonneg {a z : Int} (h : a ∣ z) (hz : -a < z) (ha : 0 < a) : 0 ≤ z := by
  obtain ⟨k, rfl⟩ := h
  have h1 : -1 < k := by
    apply Int.lt_of_mul_lt_mul_left (a := a) _ (by omega)
    rw [Int.mul_neg, Int.mul_one]
    exact hz
  exact Int.mul_nonneg (by omega) (by omega)

/-- `r` is the least multiple of `a` from `x` on. -/
theorem roundUp_unique {x a r : Int} (ha : 0 < a) (hd : a ∣ r) (h1 : x ≤ r) (h2 : r < x + a) : roundUp x a = r := by
  have hs : a ∣ roundUp x a ∧ x ≤ roundUp x a ∧ roundUp x a < x + a := by
    unfold roundUp
    have h1 := Int.emod_nonneg x (show a ≠ 0 by omega)
    have h2 := Int.emod_lt_of_pos x ha
    split
    · rename_i h; exact ⟨Int.dvd_of_emod_eq_zero h, by omega, by omega⟩
    · have h3 := Int.mul_ediv_add_emod x a
      refine ⟨⟨x / a + 1, ?_⟩, by omega, by omega⟩
      rw [Int.mul_add, Int.mul_one]; omega
  have e1 := dvd_nonneg (Int.dvd_sub hs.1 hd) (by omega) ha
  have e2 := dvd_nonneg (Int.dvd_sub hd hs.1) (by omega) ha
  omega

theorem pow_dvd {a b : Int} (ha : ∃ e : Nat, a = 2 ^ e) (hb : ∃ e : Nat, b = 2 ^ e) (h : a ≤ b) : a ∣ b := by
  obtain ⟨i, rfl⟩ := ha
  obtain ⟨j, rfl⟩ := hb
  have h' : (2 : Nat) ^ i ≤ 2 ^ j := by exact_mod_cast h
  have hij : i ≤ j := (Nat.pow_le_pow_iff_right (by decide)).1 h'
  refine ⟨2 ^ (j - i), ?_⟩
  rw [← Int.pow_add, Nat.add_sub_cancel' hij]

theorem pow_pos {a : Int} (ha : ∃ e : Nat, a = 2 ^ e) : 0 < a := by
  obtain ⟨e, rfl⟩ := ha
  exact Int.pow_pos (by decide)

/-! ## Members -/

mutual
theorem CType.members_shift (abi : Abi) : ∀ (t : CType) (x : Int), t.members abi x = (t.members abi 0).map fun y => (y.1 + x, y.2)
  | .basic k, x => by simp [CType.members]
  | .array n t, x => by
    simp only [CType.members, List.map_flatMap]
    congr 1
    funext i
    rw [CType.members_shift abi t, CType.members_shift abi t (0 + _), List.map_map]
    congr 1
    funext y
    simp only [Function.comp_apply]
    congr 1
    omega
  | .struct fs, x => by
    simp only [CType.members]
    exact CFields.members_shift abi fs x 0
theorem CFields.members_shift (abi : Abi) : ∀ (fs : CFields) (x y : Int), fs.members abi x y = (fs.members abi 0 y).map fun z => (z.1 + x, z.2)
  | .one t, x, y => by
    simp only [CFields.members]
    rw [CType.members_shift abi t, CType.members_shift abi t (0 + _), List.map_map]
    congr 1
    funext z
    simp only [Function.comp_apply]
    congr 1
    omega
  | .more t fs, x, y => by
    simp only [CFields.members, List.map_append]
    rw [CType.members_shift abi t, CType.members_shift abi t (0 + _), List.map_map, CFields.members_shift abi fs]
    congr 2
    funext z
    simp only [Function.comp_apply]
    congr 1
    omega
end

/-- What holds of the members `m` of a type of alignment `A` and size `S`. -/
structure Laid (abi : Abi) (m : List (Int × Int)) (A S : Int) : Prop where
  pow : ∃ e : Nat, A = 2 ^ e
  dvd : A ∣ S
  sized : ∀ y ∈ m, 0 < abi.size y.2
  low : ∀ y ∈ m, 0 ≤ y.1
  zero : ∃ k, (0, k) ∈ m
  top : ∃ E, Greatest (m.map fun y => y.1 + abi.size y.2) E ∧ E ≤ S ∧ S < E + A
  big : Greatest (m.map fun y => abi.size y.2) A
  apart : m.Pairwise fun x y => Apart x.1 (abi.size x.2) y.1 (abi.size y.2)

/-- The same for the members of a struct from `y` on, with the last ending at `S`. -/
structure LaidF (abi : Abi) (m : List (Int × Int)) (y A S : Int) : Prop where
  pow : ∃ e : Nat, A = 2 ^ e
  sized : ∀ y ∈ m, 0 < abi.size y.2
  low : ∀ z ∈ m, y ≤ z.1
  le : y ≤ S
  zero : y = 0 → ∃ k, (0, k) ∈ m
  top : ∃ E a, Greatest (m.map fun y => y.1 + abi.size y.2) E ∧ a ∣ A ∧ a ∣ S ∧ 0 < a ∧ E ≤ S ∧ S < E + a
  big : Greatest (m.map fun y => abi.size y.2) A
  apart : m.Pairwise fun x y => Apart x.1 (abi.size x.2) y.1 (abi.size y.2)

theorem Laid.within {abi : Abi} {m : List (Int × Int)} {A S : Int} (h : Laid abi m A S) {y : Int × Int} (hy : y ∈ m) :
    0 ≤ y.1 ∧ y.1 + abi.size y.2 ≤ S := by
  obtain ⟨E, h1, h2, -⟩ := h.top
  have := h1.2 _ (List.mem_map.2 ⟨y, hy, rfl⟩)
  exact ⟨h.low y hy, by omega⟩

theorem Laid.size_pos {abi : Abi} {m : List (Int × Int)} {A S : Int} (h : Laid abi m A S) : 0 < S := by
  obtain ⟨y, hy, he⟩ := List.mem_map.1 h.big.1
  have := h.within hy
  have := pow_pos h.pow
  omega

theorem Laid.array {abi : Abi} {m : List (Int × Int)} {A S : Int} (h : Laid abi m A S) {n : Nat} (hn : n ≠ 0) :
    Laid abi ((List.range n).flatMap fun (i : Nat) => m.map fun y => (y.1 + i * S, y.2)) A (n * S) := by
  have hS := h.size_pos
  have hmem : ∀ z, z ∈ ((List.range n).flatMap fun (i : Nat) => m.map fun y => (y.1 + i * S, y.2)) ↔
      ∃ i < n, ∃ y ∈ m, z = (y.1 + i * S, y.2) := by
    intro z
    simp only [List.mem_flatMap, List.mem_range, List.mem_map]
    constructor
    · rintro ⟨i, hi, y, hy, rfl⟩; exact ⟨i, hi, y, hy, rfl⟩
    · rintro ⟨i, hi, y, hy, rfl⟩; exact ⟨i, hi, y, hy, rfl⟩
  have hstep : ∀ i j : Nat, i < j → (i : Int) * S + S ≤ j * S := by
    intro i j hij
    have : ((i : Int) + 1) * S ≤ j * S := Int.mul_le_mul_of_nonneg_right (by omega) (by omega)
    rw [Int.add_mul, Int.one_mul] at this
    exact this
  refine ⟨h.pow, Int.dvd_mul_of_dvd_right h.dvd, ?_, ?_, ?_, ?_, ?_, ?_⟩
  · intro z hz
    obtain ⟨i, -, y, hy, rfl⟩ := (hmem z).1 hz
    exact h.sized y hy
  · intro z hz
    obtain ⟨i, -, y, hy, rfl⟩ := (hmem z).1 hz
    have := (h.within hy).1
    have := Int.mul_nonneg (show 0 ≤ (i : Int) by omega) (show 0 ≤ S by omega)
    dsimp only; omega
  · obtain ⟨k, hk⟩ := h.zero
    exact ⟨k, (hmem _).2 ⟨0, by omega, _, hk, by simp⟩⟩
  · obtain ⟨E, h1, h2, h3⟩ := h.top
    have hlast : ((n - 1 : Nat) : Int) * S + S = n * S := by
      have : ((n - 1 : Nat) : Int) = n - 1 := by omega
      rw [this, Int.sub_mul, Int.one_mul]; omega
    refine ⟨((n - 1 : Nat) : Int) * S + E, ⟨?_, ?_⟩, by omega, by omega⟩
    · obtain ⟨y, hy, he⟩ := List.mem_map.1 h1.1
      exact List.mem_map.2 ⟨_, (hmem _).2 ⟨n - 1, by omega, y, hy, rfl⟩, by dsimp only at he ⊢; omega⟩
    · intro w hw
      obtain ⟨z, hz, rfl⟩ := List.mem_map.1 hw
      obtain ⟨i, hi, y, hy, rfl⟩ := (hmem z).1 hz
      have := h1.2 _ (List.mem_map.2 ⟨y, hy, rfl⟩)
      have : (i : Int) * S ≤ ((n - 1 : Nat) : Int) * S := Int.mul_le_mul_of_nonneg_right (by omega) (by omega)
      dsimp only at *; omega
  · refine ⟨?_, ?_⟩
    · obtain ⟨y, hy, he⟩ := List.mem_map.1 h.big.1
      exact List.mem_map.2 ⟨_, (hmem _).2 ⟨0, by omega, y, hy, rfl⟩, he⟩
    · intro w hw
      obtain ⟨z, hz, rfl⟩ := List.mem_map.1 hw
      obtain ⟨i, hi, y, hy, rfl⟩ := (hmem z).1 hz
      exact h.big.2 _ (List.mem_map.2 ⟨y, hy, rfl⟩)
  · rw [List.pairwise_flatMap]
    refine ⟨fun i _ => ?_, ?_⟩
    · rw [List.pairwise_map]
      refine h.apart.imp ?_
      intro x y hxy
      unfold Apart at *; dsimp only; omega
    · refine List.Pairwise.imp ?_ List.pairwise_lt_range
      intro i j hij x hx y hy
      obtain ⟨x, hx', rfl⟩ := List.mem_map.1 hx
      obtain ⟨y, hy', rfl⟩ := List.mem_map.1 hy
      have h1 := h.within hx'
      have h2 := h.within hy'
      have := hstep i j hij
      unfold Apart; dsimp only; omega

/-- A type put at `o`, a multiple of its alignment. -/
theorem Laid.at {abi : Abi} {m : List (Int × Int)} {A S y : Int} (h : Laid abi m A S) :
    LaidF abi (m.map fun z => (z.1 + nextMultiple y A, z.2)) y A (nextMultiple y A + S) := by
  obtain ⟨n1, n2, n3⟩ := nextMultiple_spec (x := y) (pow_pos h.pow)
  have hS := h.size_pos
  have hA := pow_pos h.pow
  refine ⟨h.pow, ?_, ?_, by omega, ?_, ?_, ?_, ?_⟩
  · intro z hz
    obtain ⟨w, hw, rfl⟩ := List.mem_map.1 hz
    exact h.sized w hw
  · intro z hz
    obtain ⟨w, hw, rfl⟩ := List.mem_map.1 hz
    have := (h.within hw).1
    dsimp only; omega
  · rintro rfl
    obtain ⟨k, hk⟩ := h.zero
    refine ⟨k, List.mem_map.2 ⟨_, hk, ?_⟩⟩
    have : nextMultiple 0 A = 0 := by unfold nextMultiple; simp
    simp [this]
  · obtain ⟨E, h1, h2, h3⟩ := h.top
    refine ⟨E + nextMultiple y A, A, ⟨?_, ?_⟩, Int.dvd_refl _, Int.dvd_add n1 h.dvd, hA, by omega, by omega⟩
    · obtain ⟨w, hw, he⟩ := List.mem_map.1 h1.1
      exact List.mem_map.2 ⟨_, List.mem_map.2 ⟨w, hw, rfl⟩, by dsimp only at he ⊢; omega⟩
    · intro v hv
      obtain ⟨z, hz, rfl⟩ := List.mem_map.1 hv
      obtain ⟨w, hw, rfl⟩ := List.mem_map.1 hz
      have := h1.2 _ (List.mem_map.2 ⟨w, hw, rfl⟩)
      dsimp only at *; omega
  · rw [List.map_map]
    exact h.big
  · rw [List.pairwise_map]
    refine h.apart.imp ?_
    intro x y hxy
    unfold Apart at *; dsimp only; omega

/-- Members, and those after them. -/
theorem LaidF.append {abi : Abi} {m m' : List (Int × Int)} {y A B S S' : Int} (h : LaidF abi m y A S) (h' : LaidF abi m' S B S') :
    LaidF abi (m ++ m') y (max A B) S' := by
  have hp : ∃ e : Nat, max A B = 2 ^ e := by
    rcases Int.le_total A B with hh | hh
    · rw [Int.max_eq_right hh]; exact h'.pow
    · rw [Int.max_eq_left hh]; exact h.pow
  obtain ⟨E, a, t1, t2, t3, t4, t5, t6⟩ := h.top
  obtain ⟨E', a', t1', t2', t3', t4', t5', t6'⟩ := h'.top
  have hA := pow_pos h.pow
  have hB := pow_pos h'.pow
  have hEE : S ≤ E' := by
    obtain ⟨w, hw, he⟩ := List.mem_map.1 t1'.1
    obtain ⟨v, hv, he'⟩ := List.mem_map.1 h'.big.1
    have h1 := t1'.2 _ (List.mem_map.2 ⟨v, hv, rfl⟩)
    have h2 := h'.low v hv
    omega
  refine ⟨hp, ?_, ?_, Int.le_trans h.le h'.le, ?_, ?_, ?_, ?_⟩
  · intro z hz
    rcases List.mem_append.1 hz with hz | hz
    · exact h.sized z hz
    · exact h'.sized z hz
  · intro z hz
    rcases List.mem_append.1 hz with hz | hz
    · exact h.low z hz
    · exact Int.le_trans h.le (h'.low z hz)
  · intro hy
    obtain ⟨k, hk⟩ := h.zero hy
    exact ⟨k, List.mem_append_left _ hk⟩
  · refine ⟨E', a', ⟨?_, ?_⟩, Int.dvd_trans t2' (pow_dvd h'.pow hp (Int.le_max_right _ _)), t3', t4', t5', t6'⟩
    · rw [List.map_append]; exact List.mem_append_right _ t1'.1
    · intro w hw
      rw [List.map_append] at hw
      rcases List.mem_append.1 hw with hw | hw
      · have := t1.2 w hw; omega
      · exact t1'.2 w hw
  · refine ⟨?_, ?_⟩
    · rw [List.map_append]
      rcases Int.le_total A B with hh | hh
      · rw [Int.max_eq_right hh]; exact List.mem_append_right _ h'.big.1
      · rw [Int.max_eq_left hh]; exact List.mem_append_left _ h.big.1
    · intro w hw
      rw [List.map_append] at hw
      rcases List.mem_append.1 hw with hw | hw
      · have := h.big.2 w hw; omega
      · have := h'.big.2 w hw; omega
  · rw [List.pairwise_append]
    refine ⟨h.apart, h'.apart, fun x hx z hz => ?_⟩
    have h1 := t1.2 _ (List.mem_map.2 ⟨x, hx, rfl⟩)
    have h2 := h'.low z hz
    unfold Apart; omega

theorem LaidF.struct {abi : Abi} {m : List (Int × Int)} {A S : Int} (h : LaidF abi m 0 A S) : Laid abi m A (nextMultiple S A) := by
  have hA := pow_pos h.pow
  obtain ⟨n1, n2, n3⟩ := nextMultiple_spec (x := S) hA
  obtain ⟨E, a, t1, t2, t3, t4, t5, t6⟩ := h.top
  refine ⟨h.pow, n1, h.sized, h.low, h.zero rfl, ⟨E, t1, by omega, ?_⟩, h.big, h.apart⟩
  -- S is the first multiple of a from E on
  rcases Int.lt_or_le (nextMultiple S A) (E + A) with hh | hh
  · exact hh
  · have := dvd_nonneg (Int.dvd_sub (Int.dvd_sub (Int.dvd_trans t2 n1) t2) t3) (a := a) (by omega) t4
    omega

mutual
theorem CType.laid (abi : Abi) : ∀ t : CType, t.Natural abi → Laid abi (t.members abi 0) (t.align abi) (t.size abi)
  | .basic k, h => by
    simp only [CType.Natural] at h
    simp only [CType.members, CType.align, CType.size]
    obtain ⟨h1, h2⟩ := h
    have := pow_pos h2
    rw [h1]
    refine ⟨h2, Int.dvd_refl _, by simp [this], by simp, ⟨k, by simp⟩, ⟨abi.size k, ⟨by simp, by simp⟩, by omega, by omega⟩, ⟨by simp, by simp⟩, by simp⟩
  | .array n t, h => by
    simp only [CType.Natural] at h
    have := (CType.laid abi t h.2).array h.1
    simp only [CType.members, CType.align, CType.size]
    have e : ∀ i : Nat, t.members abi (0 + i * t.size abi) = (t.members abi 0).map fun y => (y.1 + i * t.size abi, y.2) := by
      intro i
      rw [CType.members_shift]
      simp
    rw [funext e]
    exact this
  | .struct fs, h => by
    simp only [CType.Natural] at h
    simp only [CType.members, CType.align, CType.size]
    exact (CFields.laid abi fs h 0).struct
theorem CFields.laid (abi : Abi) : ∀ fs : CFields, fs.Natural abi → ∀ y,
    LaidF abi (fs.members abi 0 y) y (fs.align abi) (fs.stop abi y)
  | .one t, h, y => by
    simp only [CFields.Natural] at h
    simp only [CFields.members, CFields.align, CFields.stop]
    rw [CType.members_shift]
    simpa using (CType.laid abi t h).at (y := y)
  | .more t fs, h, y => by
    simp only [CFields.Natural] at h
    simp only [CFields.members, CFields.align, CFields.stop]
    rw [CType.members_shift abi t]
    refine LaidF.append ?_ (CFields.laid abi fs h.2 _)
    simpa using (CType.laid abi t h.1).at (y := y)
end

end MpiSerial

namespace MpiSerial

open Spec

/-! ## The datatype of a C type -/

/-- The datatype of the standard whose entries are the members. -/
def CType.dtype (abi : Abi) (c : CType) : DType := plain (c.members abi 0)

theorem Laid.dtype {abi : Abi} {m : List (Int × Int)} {A S : Int} (h : Laid abi m A S) :
    lb (plain m) = 0 ∧ align abi.size (plain m) = A ∧ extent abi.size (plain m) = S := by
  obtain ⟨E, h1, h2, h3⟩ := h.top
  have e1 : (m.map fun e => e.1).min? = some 0 := by
    refine min?_spec.2 ⟨?_, ?_⟩
    · obtain ⟨k, hk⟩ := h.zero
      exact List.mem_map.2 ⟨_, hk, rfl⟩
    · intro y hy
      obtain ⟨z, hz, rfl⟩ := List.mem_map.1 hy
      exact h.low z hz
  have e2 : (m.map fun e => e.1 + abi.size e.2).max? = some E := max?_spec.2 h1
  have e3 : (m.map fun e => abi.size e.2).max? = some A := max?_spec.2 h.big
  refine ⟨?_, ?_, ?_⟩
  · unfold lb plain; simp [e1]
  · unfold align plain; simp [e3]
  · unfold extent lb ub align plain
    simp only [and_self, if_true, Option.getD_none, e1, e2, e3, Option.getD_some, Int.sub_zero]
    exact roundUp_unique (pow_pos h.pow) h.dvd h2 h3

theorem CType.dtype_extent {abi : Abi} {c : CType} (h : c.Natural abi) : extent abi.size (c.dtype abi) = c.size abi :=
  (c.laid abi h).dtype.2.2

/-- `n` in a row, the first at `x`. -/
theorem CType.repeated_eq {abi : Abi} (c : CType) (n : Nat) (x : Int) :
    repeated (c.members abi 0) (c.size abi) n x = (CType.array n c).members abi x := by
  unfold repeated shift
  simp only [CType.members]
  congr 1
  funext i
  rw [CType.members_shift abi c (x + _)]

theorem CType.placed_eq {abi : Abi} {c : CType} (h : c.Natural abi) (n : Nat) (x : Int) :
    placed abi.size (c.dtype abi) n x = (CType.array n c).members abi x := by
  unfold placed
  rw [CType.dtype_extent h, Int.toNat_natCast]
  exact c.repeated_eq n x

/-! ## How many members there are -/

theorem one_le_basic {abi : Abi} {k : Int} (h : ∃ e : Nat, abi.size k = 2 ^ e) : 1 ≤ abi.size k := pow_pos h

mutual
theorem CType.length_le (abi : Abi) : ∀ t : CType, t.Natural abi → ∀ x, ((t.members abi x).length : Int) ≤ t.size abi
  | .basic k, h, x => by
    simp only [CType.Natural] at h
    simp only [CType.members, CType.size]
    exact one_le_basic h.2
  | .array n t, h, x => by
    simp only [CType.Natural] at h
    have := CType.length_le abi t h.2 x
    have e := repeated_length (t.members abi 0) (t.size abi) n x
    rw [CType.repeated_eq] at e
    rw [e]
    have e' : (t.members abi x).length = (t.members abi 0).length := by rw [CType.members_shift, List.length_map]
    rw [e'] at this
    simp only [CType.size, Int.natCast_mul]
    exact Int.mul_le_mul_of_nonneg_left this (by omega)
  | .struct fs, h, x => by
    simp only [CType.Natural] at h
    simp only [CType.members, CType.size]
    have := CFields.length_le abi fs h x 0
    have := (nextMultiple_spec (x := fs.stop abi 0) (pow_pos (CFields.laid abi fs h 0).pow)).2.1
    omega
theorem CFields.length_le (abi : Abi) : ∀ fs : CFields, fs.Natural abi → ∀ x y,
    ((fs.members abi x y).length : Int) ≤ fs.stop abi y - y
  | .one t, h, x, y => by
    simp only [CFields.Natural] at h
    simp only [CFields.members, CFields.stop]
    have := CType.length_le abi t h (x + nextMultiple y (t.align abi))
    have := (nextMultiple_spec (x := y) (pow_pos (CType.laid abi t h).pow)).2.1
    omega
  | .more t fs, h, x, y => by
    simp only [CFields.Natural] at h
    simp only [CFields.members, CFields.stop, List.length_append]
    have := CType.length_le abi t h.1 (x + nextMultiple y (t.align abi))
    have := CFields.length_le abi fs h.2 x (nextMultiple y (t.align abi) + t.size abi)
    have := (nextMultiple_spec (x := y) (pow_pos (CType.laid abi t h.1).pow)).2.1
    omega
end

/-! ## Struct calls -/

theorem CFields.offsets_members (abi : Abi) : ∀ (fs : CFields) (y : Int),
    (fs.offsets abi y).flatMap (fun o => o.2.members abi o.1) = fs.members abi 0 y
  | .one t, y => by simp [CFields.offsets, CFields.members]
  | .more t fs, y => by simp [CFields.offsets, CFields.members, CFields.offsets_members abi fs]

theorem CFields.offsets_range {abi : Abi} : ∀ (fs : CFields), fs.Natural abi → ∀ (y : Int), 0 ≤ y → ∀ o ∈ fs.offsets abi y,
    0 ≤ o.1 ∧ o.1 ≤ fs.stop abi y ∧ o.2.Natural abi
  | .one t, h, y, hy, o, ho => by
    simp only [CFields.Natural] at h
    simp only [CFields.offsets, List.mem_singleton] at ho
    subst ho
    simp only [CFields.stop]
    have := (nextMultiple_spec (x := y) (pow_pos (CType.laid abi t h).pow)).2.1
    have := (CType.laid abi t h).size_pos
    exact ⟨by omega, by omega, h⟩
  | .more t fs, h, y, hy, o, ho => by
    simp only [CFields.Natural] at h
    have h1 := (nextMultiple_spec (x := y) (pow_pos (CType.laid abi t h.1).pow)).2.1
    have h2 := (CType.laid abi t h.1).size_pos
    simp only [CFields.stop]
    simp only [CFields.offsets, List.mem_cons] at ho
    rcases ho with rfl | ho
    · have := (CFields.laid abi fs h.2 (nextMultiple y (t.align abi) + t.size abi)).le
      exact ⟨by dsimp only; omega, by dsimp only; omega, h.1⟩
    · exact CFields.offsets_range fs h.2 _ (by omega) o ho

/-- A member can be given as it is, or, if it is an array, as so many of its elements. -/
inductive Spelled : CType → Nat → CType → Prop
  | whole (t : CType) : Spelled t 1 t
  | elems (n : Nat) (t : CType) : Spelled (.array n t) n t

theorem Spelled.natural {abi : Abi} {t u : CType} {n : Nat} (h : Spelled t n u) (ht : t.Natural abi) : u.Natural abi := by
  cases h with
  | whole => exact ht
  | elems => simp only [CType.Natural] at ht; exact ht.2

/-- The entries such a block contributes are the members. -/
theorem Spelled.blockMap {abi : Abi} {t u : CType} {n : Nat} (h : Spelled t n u) (ht : t.Natural abi) (o : Int) :
    blockMap abi.size (n, o, .data (u.dtype abi)) = t.members abi o := by
  have hu := h.natural ht
  unfold Spec.blockMap
  dsimp only
  rw [CType.dtype_extent hu]
  show repeated (u.members abi 0) _ _ _ = _
  rw [CType.repeated_eq]
  cases h with
  | whole => simp [CType.members]
  | elems => rfl

/-- The blocks of a call that describes the members `os`: count, displacement, handle, datatype. -/
inductive Describing (P : Int → CType → Prop) (abi : Abi) : List (Int × CType) → List (Int × Int × Int × Comp) → Prop
  | nil : Describing P abi [] []
  | cons {o : Int} {t u : CType} {n : Nat} {h : Int} {os : List (Int × CType)} {xs : List (Int × Int × Int × Comp)} :
      Spelled t n u → P h u → Describing P abi os xs → Describing P abi ((o, t) :: os) ((n, o, h, .data (u.dtype abi)) :: xs)

theorem Describing.spec {P : Int → CType → Prop} {abi : Abi} {os : List (Int × CType)} {xs : List (Int × Int × Int × Comp)}
    (h : Describing P abi os xs) (hn : ∀ o ∈ os, o.2.Natural abi) :
    struct abi.size (xs.map fun x => (x.1.toNat, x.2.1, x.2.2.2)) = plain (os.flatMap fun o => o.2.members abi o.1) := by
  have key : (xs.map fun x => (x.1.toNat, x.2.1, x.2.2.2)).flatMap (Spec.blockMap abi.size) = (os.flatMap fun o => o.2.members abi o.1) ∧
      (xs.map fun x => (x.1.toNat, x.2.1, x.2.2.2)).flatMap (blockLb abi.size) = [] ∧
      (xs.map fun x => (x.1.toNat, x.2.1, x.2.2.2)).flatMap (blockUb abi.size) = [] := by
    induction h with
    | nil => exact ⟨rfl, rfl, rfl⟩
    | @cons o t u n hd os xs h1 h2 h3 ih =>
      obtain ⟨i1, i2, i3⟩ := ih fun o ho => hn o (List.mem_cons_of_mem _ ho)
      refine ⟨?_, ?_, ?_⟩
      · rw [List.map_cons, List.flatMap_cons, List.flatMap_cons, i1]
        dsimp only
        rw [Int.toNat_natCast, h1.blockMap (hn (o, t) (List.mem_cons_self ..))]
      · rw [List.map_cons, List.flatMap_cons, i2]; rfl
      · rw [List.map_cons, List.flatMap_cons, i3]; rfl
  unfold Spec.struct plain
  rw [key.1, key.2.1, key.2.2]
  rfl

theorem Describing.mem {P : Int → CType → Prop} {abi : Abi} {os : List (Int × CType)} {xs : List (Int × Int × Int × Comp)}
    (h : Describing P abi os xs) {x : Int × Int × Int × Comp} (hx : x ∈ xs) :
    0 ≤ x.1 ∧ (∃ u, P x.2.2.1 u ∧ x.2.2.2 = .data (u.dtype abi)) ∧ ∃ o ∈ os, o.1 = x.2.1 := by
  induction h with
  | nil => cases hx
  | @cons o t u n hd os xs h1 h2 h3 ih =>
    rcases List.mem_cons.1 hx with rfl | hx
    · exact ⟨by dsimp only; omega, ⟨u, h2, rfl⟩, (o, t), List.mem_cons_self .., rfl⟩
    · obtain ⟨a, b, q, hq, e⟩ := ih hx
      exact ⟨a, b, q, List.mem_cons_of_mem _ hq, e⟩

/-- A datatype without explicit bounds that fits is `Small`. -/
theorem small_of {abi : Abi} {bs : List (Nat × Int × Comp)} {m : List Entry} {S : Int} (he : struct abi.size bs = plain m)
    (hd : ∀ b ∈ bs, 0 ≤ b.2.1 ∧ b.2.1 ≤ S) (hu : ∀ b ∈ bs, ∃ m', b.2.2 = .data (plain m')) (hne : m ≠ [])
    (hlen : (m.length : Int) ≤ S) (hm : ∀ y ∈ m, 0 ≤ y.1 ∧ y.1 ≤ S) (hS : S ≤ 2147483647) : Small abi.size bs := by
  have hlb : bs.flatMap (blockLb abi.size) = [] := by
    rw [List.flatMap_eq_nil_iff]
    rintro ⟨n, o, c⟩ hb
    obtain ⟨m', rfl⟩ := hu _ hb
    rfl
  have hub : bs.flatMap (blockUb abi.size) = [] := by
    rw [List.flatMap_eq_nil_iff]
    rintro ⟨n, o, c⟩ hb
    obtain ⟨m', rfl⟩ := hu _ hb
    rfl
  refine ⟨fun b hb => ?_, ?_, ?_, ?_, ?_, ?_, ?_⟩
  · have := hd b hb; omega
  · rw [he]; exact hne
  · rw [he]; show (m.length : Int) ≤ _; omega
  · rw [he]; intro y hy; have := hm y hy; omega
  · rw [hlb]; simp
  · rw [hub]; simp
  · intro b hb τ hτ h
    obtain ⟨m', e⟩ := hu b hb
    rw [e] at hτ
    cases hτ
    simp [plain] at h

/-! ## Arrays of such values in memory -/

theorem array_within {abi : Abi} {c : CType} (hc : c.Natural abi) {n : Nat} {x : Int} {y : Int × Int}
    (hy : y ∈ (CType.array n c).members abi x) : x ≤ y.1 ∧ y.1 + abi.size y.2 ≤ x + n * c.size abi ∧ 0 < abi.size y.2 := by
  cases n with
  | zero => simp [CType.members] at hy
  | succ n =>
    have hl := (CType.array (n + 1) c).laid abi (by simp only [CType.Natural]; exact ⟨by omega, hc⟩)
    rw [CType.members_shift] at hy
    obtain ⟨z, hz, rfl⟩ := List.mem_map.1 hy
    have h1 := hl.within hz
    have h2 := hl.sized z hz
    simp only [CType.size] at h1
    dsimp only
    omega

theorem array_disjoint {abi : Abi} {c : CType} (hc : c.Natural abi) (n : Nat) (x : Int) :
    ElemsDisjoint abi.size ((CType.array n c).members abi x) := by
  cases n with
  | zero => simp [CType.members, ElemsDisjoint]
  | succ n =>
    have hl := (CType.array (n + 1) c).laid abi (by simp only [CType.Natural]; exact ⟨by omega, hc⟩)
    rw [CType.members_shift]
    unfold ElemsDisjoint
    rw [List.pairwise_map]
    refine hl.apart.imp ?_
    intro x y hxy
    unfold Apart at *; dsimp only; omega

theorem array_prefix {abi : Abi} (c : CType) {k n : Nat} (h : k ≤ n) (x : Int) :
    ∃ q, (CType.array n c).members abi x = (CType.array k c).members abi x ++ q := by
  obtain ⟨d, rfl⟩ := Nat.exists_eq_add_of_le h
  simp only [CType.members]
  rw [List.range_add, List.flatMap_append]
  exact ⟨_, rfl⟩

/-- An element of the one array, and the one at the same index of the other. -/
theorem array_index {abi : Abi} (c : CType) {k n : Nat} (h : k ≤ n) (x y : Int) {i : Nat} {z : Int × Int}
    (hz : ((CType.array k c).members abi 0)[i]? = some z) :
    ((CType.array k c).members abi x)[i]? = some (z.1 + x, z.2) ∧ ((CType.array n c).members abi y)[i]? = some (z.1 + y, z.2) := by
  obtain ⟨q, hq⟩ := array_prefix (abi := abi) c h y
  have hi := (List.getElem?_eq_some_iff.1 hz).1
  have key : ∀ w, ((CType.array k c).members abi w)[i]? = some (z.1 + w, z.2) := by
    intro w
    rw [CType.members_shift, List.getElem?_map, hz]
    rfl
  refine ⟨key x, ?_⟩
  rw [hq, List.getElem?_append_left (List.getElem?_eq_some_iff.1 (key y)).1]
  exact key y

theorem array_legal {abi : Abi} {c : CType} (hc : c.Natural abi) {strict : Prop} {sb rb : Int} {n k : Nat} (hk : k ≤ n)
    (hs : 0 ≤ sb ∧ sb + n * c.size abi ≤ 18446744073709551616) (hr : 0 ≤ rb ∧ rb + k * c.size abi ≤ 18446744073709551616)
    (hS : n * c.size abi ≤ 2147483647) (ha : Apart sb (n * c.size abi) rb (k * c.size abi)) :
    LegalExchange abi.size strict sb n (c.dtype abi) rb k (c.dtype abi) := by
  have hpos := (c.laid abi hc).size_pos
  have hle : (k : Int) * c.size abi ≤ n * c.size abi := Int.mul_le_mul_of_nonneg_right (by omega) (by omega)
  have hlen := c.length_le abi hc 0
  have hlen' : ∀ j : Nat, ((c.dtype abi).map.length : Int) * j ≤ j * c.size abi := by
    intro j
    rw [Int.mul_comm]
    exact Int.mul_le_mul_of_nonneg_left hlen (by omega)
  have hl : ((CType.array k c).members abi rb).length ≤ ((CType.array n c).members abi sb).length := by
    obtain ⟨q, hq⟩ := array_prefix (abi := abi) c hk sb
    rw [hq, List.length_append, CType.members_shift abi _ rb, CType.members_shift abi (CType.array k c) sb, List.length_map, List.length_map]
    omega
  have := hlen' n
  have := hlen' k
  refine ⟨by omega, by omega, by omega, by omega, ?_, ?_, ?_, ?_, ?_, ?_⟩
  · rw [CType.placed_eq hc, CType.placed_eq hc]; exact hl
  · intro x hx
    have hx := List.mem_of_mem_take hx
    rw [CType.placed_eq hc] at hx
    have := array_within hc hx
    omega
  · intro x hx
    rw [CType.placed_eq hc] at hx
    have := array_within hc hx
    omega
  · intro x hx
    rw [CType.placed_eq hc, CType.placed_eq hc] at hx
    obtain ⟨i, hi, he⟩ := List.getElem_of_mem hx
    have h1 : i < ((CType.array k c).members abi rb).length := by
      rw [List.length_zip] at hi; omega
    have h2 : i < ((CType.array k c).members abi 0).length := by
      rw [CType.members_shift, List.length_map] at h1; exact h1
    obtain ⟨e1, e2⟩ := array_index (abi := abi) c hk rb sb (List.getElem?_eq_getElem h2)
    have hz := List.getElem?_eq_getElem hi
    rw [he] at hz
    obtain ⟨f1, f2⟩ := List.getElem?_zip_eq_some.1 hz
    rw [e1] at f1
    rw [e2] at f2
    have f1 := Option.some.inj f1
    have f2 := Option.some.inj f2
    rw [← f1, ← f2]
    exact ⟨rfl, fun _ => rfl⟩
  · rw [CType.placed_eq hc]; exact array_disjoint hc k rb
  · intro x hx y hy
    have hy := List.mem_of_mem_take hy
    rw [CType.placed_eq hc] at hx hy
    have h1 := array_within hc hx
    have h2 := array_within hc hy
    unfold Apart at *
    omega

end MpiSerial
