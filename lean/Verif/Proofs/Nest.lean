import Verif.Spec.Types
import Verif.Proofs.TypesHom
import Verif.Proofs.CLayout

/-!
# Counts folded into the datatype: the standard's side (C94)

`m` times `n` times a datatype is `m * n` times the datatype, for the datatypes of the standard.
-/

set_option autoImplicit false

namespace MpiSerial.Spec

theorem shift_shift (a b : Int) (M : List Entry) : shift a (shift b M) = shift (a + b) M := by
  unfold shift
  rw [List.map_map]
  apply List.map_congr_left
  intro x _
  simp only [Function.comp_apply, Prod.mk.injEq, and_true]
  omega

theorem shift_flatMap {α : Type} (a : Int) (l : List α) (f : α → List Entry) :
    shift a (l.flatMap f) = l.flatMap fun x => shift a (f x) := by
  unfold shift
  rw [List.map_flatMap]

theorem repeated_add (M : List Entry) (e : Int) (a b : Nat) (d : Int) :
    repeated M e (a + b) d = repeated M e a d ++ repeated M e b (d + a * e) := by
  unfold repeated
  rw [List.range_add, List.flatMap_append, List.flatMap_map]
  congr 2
  funext j
  congr 1
  rw [Int.natCast_add, Int.add_mul]
  omega

theorem shift_of_repeated (M : List Entry) (e : Int) (n : Nat) (a d : Int) :
    shift a (repeated M e n d) = repeated M e n (a + d) := by
  unfold repeated
  rw [shift_flatMap]
  congr 1
  funext j
  rw [shift_shift]
  congr 1
  omega

theorem repeated_repeated (M : List Entry) (e : Int) (n m : Nat) (d : Int) :
    repeated (repeated M e n 0) (n * e) m d = repeated M e (m * n) d := by
  induction m with
  | zero => simp [repeated]
  | succ m ih =>
    rw [Nat.succ_mul, repeated_add, ih, repeated_add]
    congr 1
    have : repeated (repeated M e n 0) (n * e) 1 (d + m * (n * e))
        = shift (d + m * (n * e)) (repeated M e n 0) := by
      simp [repeated]
    rw [this, shift_of_repeated]
    congr 1
    rw [Int.natCast_mul, Int.mul_assoc]
    omega

theorem mem_repeated {M : List Entry} {e : Int} {n : Nat} {x : Entry} :
    x ∈ repeated M e n 0 ↔ ∃ j : Nat, j < n ∧ ∃ y ∈ M, x = (y.1 + j * e, y.2) := by
  unfold repeated shift
  simp only [List.mem_flatMap, List.mem_range, List.mem_map, Int.zero_add]
  constructor
  · rintro ⟨j, hj, y, hy, rfl⟩; exact ⟨j, hj, y, hy, rfl⟩
  · rintro ⟨j, hj, y, hy, rfl⟩; exact ⟨j, hj, y, hy, rfl⟩

theorem steps_le {e : Int} (he : 0 ≤ e) {j n : Nat} (hj : j < n) : 0 ≤ j * e ∧ j * e ≤ (n - 1) * e := by
  refine ⟨Int.mul_nonneg (by omega) he, Int.mul_le_mul_of_nonneg_right (by omega) he⟩

section
variable {z : Int → Int} {τ : DType} {n : Nat}

theorem contiguous_map : (contiguous z n τ).map = repeated τ.map (extent z τ) n 0 := by
  simp [contiguous, struct, blockMap]

theorem contiguous_lbMark (he : 0 ≤ extent z τ) (hn : 1 ≤ n) : (contiguous z n τ).lbMark = τ.lbMark := by
  obtain ⟨M, l, u⟩ := τ
  cases l with
  | none => simp [contiguous, struct, blockLb]
  | some l =>
    simp only [contiguous, struct, List.flatMap_cons, List.flatMap_nil, List.append_nil, blockLb]
    refine min?_spec.2 ⟨List.mem_map.2 ⟨0, List.mem_range.2 (by omega), by simp⟩, fun y hy => ?_⟩
    obtain ⟨j, hj, rfl⟩ := List.mem_map.1 hy
    have := steps_le he (List.mem_range.1 hj)
    omega

theorem contiguous_ubMark (he : 0 ≤ extent z τ) (hn : 1 ≤ n) :
    (contiguous z n τ).ubMark = τ.ubMark.map fun u => u + (n - 1) * extent z τ := by
  obtain ⟨M, l, u⟩ := τ
  cases u with
  | none => simp [contiguous, struct, blockUb]
  | some u =>
    simp only [contiguous, struct, List.flatMap_cons, List.flatMap_nil, List.append_nil, blockUb, Option.map_some]
    refine max?_spec.2 ⟨List.mem_map.2 ⟨n - 1, List.mem_range.2 (by omega), ?_⟩, fun y hy => ?_⟩
    · rw [show ((n - 1 : Nat) : Int) = (n : Int) - 1 by omega]; omega
    obtain ⟨j, hj, rfl⟩ := List.mem_map.1 hy
    have := steps_le he (List.mem_range.1 hj)
    omega

theorem exists_min? {l : List Int} (h : l ≠ []) : ∃ m, l.min? = some m := by
  cases l with
  | nil => exact absurd rfl h
  | cons a l => exact ⟨_, List.min?_cons'⟩

theorem exists_max? {l : List Int} (h : l ≠ []) : ∃ m, l.max? = some m := by
  cases l with
  | nil => exact absurd rfl h
  | cons a l => exact ⟨_, List.max?_cons'⟩

theorem contiguous_lb (hm : τ.map ≠ []) (he : 0 ≤ extent z τ) (hn : 1 ≤ n) : lb (contiguous z n τ) = lb τ := by
  unfold lb
  rw [contiguous_lbMark he hn, contiguous_map]
  obtain ⟨a, ha⟩ := exists_min? (l := τ.map.map fun e => e.1) (by simpa using hm)
  have : ((repeated τ.map (extent z τ) n 0).map fun e => e.1).min? = some a := by
    obtain ⟨h1, h2⟩ := min?_spec.1 ha
    obtain ⟨y, hy, rfl⟩ := List.mem_map.1 h1
    refine min?_spec.2 ⟨List.mem_map.2 ⟨y, mem_repeated.2 ⟨0, by omega, y, hy, by simp⟩, rfl⟩, fun b hb => ?_⟩
    obtain ⟨x, hx, rfl⟩ := List.mem_map.1 hb
    obtain ⟨j, hj, w, hw, rfl⟩ := mem_repeated.1 hx
    have h3 := h2 _ (List.mem_map.2 ⟨w, hw, rfl⟩)
    have := steps_le he hj
    simp only
    omega
  rw [this, ha]

theorem contiguous_ub (hm : τ.map ≠ []) (he : 0 ≤ extent z τ) (hn : 1 ≤ n) :
    ub z (contiguous z n τ) = ub z τ + (n - 1) * extent z τ := by
  unfold ub
  rw [contiguous_ubMark he hn, contiguous_map]
  obtain ⟨a, ha⟩ := exists_max? (l := τ.map.map fun e => e.1 + z e.2) (by simpa using hm)
  have : ((repeated τ.map (extent z τ) n 0).map fun e => e.1 + z e.2).max? = some (a + (n - 1) * extent z τ) := by
    obtain ⟨h1, h2⟩ := max?_spec.1 ha
    obtain ⟨y, hy, rfl⟩ := List.mem_map.1 h1
    refine max?_spec.2 ⟨List.mem_map.2 ⟨_, mem_repeated.2 ⟨n - 1, by omega, y, hy, rfl⟩, ?_⟩, fun b hb => ?_⟩
    · simp only
      rw [show ((n - 1 : Nat) : Int) = (n : Int) - 1 by omega]; omega
    obtain ⟨x, hx, rfl⟩ := List.mem_map.1 hb
    obtain ⟨j, hj, w, hw, rfl⟩ := mem_repeated.1 hx
    have h3 := h2 _ (List.mem_map.2 ⟨w, hw, rfl⟩)
    have := steps_le he hj
    simp only at h3 ⊢
    omega
  rw [this, ha]
  cases τ.ubMark <;> simp

theorem contiguous_align (hm : τ.map ≠ []) (hn : 1 ≤ n) : align z (contiguous z n τ) = align z τ := by
  unfold align
  rw [contiguous_map]
  obtain ⟨a, ha⟩ := exists_max? (l := τ.map.map fun e => z e.2) (by simpa using hm)
  have : ((repeated τ.map (extent z τ) n 0).map fun e => z e.2).max? = some a := by
    obtain ⟨h1, h2⟩ := max?_spec.1 ha
    obtain ⟨y, hy, rfl⟩ := List.mem_map.1 h1
    refine max?_spec.2 ⟨List.mem_map.2 ⟨_, mem_repeated.2 ⟨0, by omega, y, hy, rfl⟩, rfl⟩, fun b hb => ?_⟩
    obtain ⟨x, hx, rfl⟩ := List.mem_map.1 hb
    obtain ⟨j, hj, w, hw, rfl⟩ := mem_repeated.1 hx
    exact h2 _ (List.mem_map.2 ⟨w, hw, rfl⟩)
  rw [this, ha]

theorem align_pos (hz : ∀ x ∈ τ.map, 1 ≤ z x.2) : 1 ≤ align z τ := by
  unfold align
  cases h : (τ.map.map fun e => z e.2).max? with
  | none => simp
  | some a =>
    obtain ⟨y, hy, rfl⟩ := List.mem_map.1 (max?_spec.1 h).1
    exact hz y hy

/-- `n` items take `n` times the room of one. -/
theorem contiguous_extent (hm : τ.map ≠ []) (hz : ∀ x ∈ τ.map, 1 ≤ z x.2) (he : 0 ≤ extent z τ) (hn : 1 ≤ n) :
    extent z (contiguous z n τ) = n * extent z τ := by
  have h1 := contiguous_lb (z := z) hm he hn
  have h2 := contiguous_ub (z := z) hm he hn
  have h3 := contiguous_align (z := z) hm hn
  have hmul : (n : Int) * extent z τ = extent z τ + (n - 1) * extent z τ := by
    rw [Int.sub_mul]; omega
  have hno : ((contiguous z n τ).lbMark = none ∧ (contiguous z n τ).ubMark = none)
      ↔ (τ.lbMark = none ∧ τ.ubMark = none) := by
    rw [contiguous_lbMark he hn, contiguous_ubMark he hn, Option.map_eq_none_iff]
  have hex : extent z (contiguous z n τ) = if τ.lbMark = none ∧ τ.ubMark = none then
      roundUp (ub z τ + (n - 1) * extent z τ - lb τ) (align z τ) else ub z τ + (n - 1) * extent z τ - lb τ := by
    conv => lhs; unfold extent
    simp only [hno, h1, h2, h3]
  rw [hex, hmul]
  by_cases hc : τ.lbMark = none ∧ τ.ubMark = none
  · rw [if_pos hc]
    have ha := align_pos hz
    have e1 : extent z τ = roundUp (ub z τ - lb τ) (align z τ) := by unfold extent; rw [if_pos hc]
    have hr := roundUp_range (ub z τ - lb τ) (align z τ) ha
    rw [← e1] at hr
    have hd : align z τ ∣ extent z τ := by
      rw [e1]
      unfold roundUp
      split
      · rename_i h; exact Int.dvd_of_emod_eq_zero h
      · apply Int.dvd_of_emod_eq_zero
        have := Int.mul_ediv_add_emod (ub z τ - lb τ) (align z τ)
        rw [show ub z τ - lb τ + (align z τ - (ub z τ - lb τ) % align z τ)
          = align z τ * ((ub z τ - lb τ) / align z τ + 1) by rw [Int.mul_add]; omega]
        exact Int.mul_emod_right ..
    apply roundUp_unique (by omega)
    · exact Int.dvd_add hd (Int.dvd_mul_of_dvd_right hd)
    · omega
    · omega
  · rw [if_neg hc]
    have e1 : extent z τ = ub z τ - lb τ := by conv => lhs; unfold extent; rw [if_neg hc]
    omega

/-- `m` times `n` items are `m * n` items. -/
theorem contiguous_contiguous {m : Nat} (hm : τ.map ≠ []) (hz : ∀ x ∈ τ.map, 1 ≤ z x.2) (he : 0 ≤ extent z τ)
    (hn : 1 ≤ n) (h1 : 1 ≤ m) : contiguous z m (contiguous z n τ) = contiguous z (m * n) τ := by
  have hx := contiguous_extent hm hz he hn
  have he' : 0 ≤ extent z (contiguous z n τ) := by rw [hx]; exact Int.mul_nonneg (by omega) he
  have hmn : 1 ≤ m * n := Nat.mul_pos h1 hn
  apply DType.ext
  · rw [contiguous_map, contiguous_map, contiguous_map, hx, repeated_repeated]
  · rw [contiguous_lbMark he' h1, contiguous_lbMark he hn, contiguous_lbMark he hmn]
  · rw [contiguous_ubMark he' h1, contiguous_ubMark he hn, contiguous_ubMark he hmn, Option.map_map, hx]
    congr 1
    funext u
    simp only [Function.comp_apply]
    rw [Int.natCast_mul, Int.sub_mul, Int.sub_mul, Int.sub_mul, ← Int.mul_assoc]
    omega

end

end MpiSerial.Spec
