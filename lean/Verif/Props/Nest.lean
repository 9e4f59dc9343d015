import Verif.Proofs.Nest
import Verif.Props.Overlap

/-!
# Counts folded into the datatype (C94)

`m` items of `MPI_Type_contiguous(n, t)` are `m * n` items of `t`: to the constructor, to the inquiry calls and to
every transfer.
-/

set_option autoImplicit false

namespace MpiSerial

open Spec

theorem Describes.sized {cfg : Cfg} (hc : cfg.Ok) {t : Typestruct} {τ : DType} (h : Describes cfg t (.data τ)) :
    τ.map ≠ [] ∧ ∀ x ∈ τ.map, 1 ≤ sz cfg x.2 := by
  obtain ⟨hg, ha⟩ := h.meaning hc
  obtain ⟨d, hm, _⟩ := h.dataDesc hc
  refine ⟨fun he => ?_, fun x hx => ?_⟩
  · have := hg.ne
    rw [← hm] at he
    unfold typeMap at he
    exact this (List.map_eq_nil_iff.1 he)
  · have := elems_sized hc d 0 1 0 x (by unfold elems; rw [hm]; simpa [repeated, shift] using hx)
    exact this.1

/-- The elements of `m` times `n` items. -/
theorem placed_contiguous {z : Int → Int} {τ : DType} {n : Nat} (hm : τ.map ≠ []) (hz : ∀ x ∈ τ.map, 1 ≤ z x.2)
    (he : 0 ≤ extent z τ) (hn : 1 ≤ n) (m : Nat) (b : Int) :
    placed z (contiguous z n τ) m b = placed z τ (m * n : Nat) b := by
  unfold placed
  rw [contiguous_map, contiguous_extent hm hz he hn, Int.toNat_natCast, Int.toNat_natCast, repeated_repeated]

theorem contiguous_length {z : Int → Int} {τ : DType} {n : Nat} (m : Nat) :
    ((contiguous z n τ).map.length : Int) * m = τ.map.length * (m * n : Nat) := by
  rw [contiguous_map, repeated_length, ← Int.natCast_mul, ← Int.natCast_mul]
  congr 1
  rw [Nat.mul_comm m n, ← Nat.mul_assoc, Nat.mul_comm n]

theorem mem_blockLb {z : Int → Int} {τ : DType} {d c : Int} :
    c ∈ blockLb z (1, d, .data τ) ↔ ∃ l, τ.lbMark = some l ∧ c = l + d := by
  obtain ⟨M, l, u⟩ := τ
  cases l with
  | none => simp [blockLb]
  | some l => simp [blockLb]

theorem mem_blockUb {z : Int → Int} {τ : DType} {d c : Int} :
    c ∈ blockUb z (1, d, .data τ) ↔ ∃ u, τ.ubMark = some u ∧ c = u + d := by
  obtain ⟨M, l, u⟩ := τ
  cases u with
  | none => simp [blockUb]
  | some u => simp [blockUb]

theorem mem_blockLb_some {z : Int → Int} {τ : DType} {n : Nat} {d c : Int} :
    c ∈ blockLb z (n, d, .data τ) ↔ ∃ l, τ.lbMark = some l ∧ ∃ j : Nat, j < n ∧ c = l + d + j * extent z τ := by
  obtain ⟨M, l, u⟩ := τ
  cases l with
  | none => simp [blockLb]
  | some l =>
    simp only [blockLb, List.mem_map, List.mem_range, Option.some.injEq]
    constructor
    · rintro ⟨j, hj, rfl⟩; exact ⟨l, rfl, j, hj, rfl⟩
    · rintro ⟨_, rfl, j, hj, rfl⟩; exact ⟨j, hj, rfl⟩

theorem mem_blockUb_some {z : Int → Int} {τ : DType} {n : Nat} {d c : Int} :
    c ∈ blockUb z (n, d, .data τ) ↔ ∃ u, τ.ubMark = some u ∧ ∃ j : Nat, j < n ∧ c = u + d + j * extent z τ := by
  obtain ⟨M, l, u⟩ := τ
  cases u with
  | none => simp [blockUb]
  | some u =>
    simp only [blockUb, List.mem_map, List.mem_range, Option.some.injEq]
    constructor
    · rintro ⟨j, hj, rfl⟩; exact ⟨u, rfl, j, hj, rfl⟩
    · rintro ⟨_, rfl, j, hj, rfl⟩; exact ⟨j, hj, rfl⟩

/-- The blocks of `n` items, as MPI_Type_contiguous lists them. -/
def itemBlocks (z : Int → Int) (n : Nat) (τ : DType) : List (Nat × Int × Comp) :=
  (List.range n).map fun (i : Nat) => (1, extent z τ * i, .data τ)

theorem Small.fewer {z : Int → Int} {τ : DType} {n N : Nat} (hm : τ.map ≠ []) (hn : 1 ≤ n) (hle : n ≤ N)
    (h : Small z (itemBlocks z N τ)) : Small z (itemBlocks z n τ) := by
  have hsub : ∀ b ∈ itemBlocks z n τ, b ∈ itemBlocks z N τ := by
    intro b hb
    obtain ⟨i, hi, rfl⟩ := List.mem_map.1 hb
    exact List.mem_map.2 ⟨i, List.mem_range.2 (by have := List.mem_range.1 hi; omega), rfl⟩
  have e := fun k => spec_contiguous_eq z k τ
  have h1 := h.count
  have h2 := h.disps
  unfold itemBlocks at h1 h2
  rw [← e, contiguous_map] at h1 h2
  refine ⟨fun b hb => h.disp b (hsub b hb), ?_, ?_, ?_, fun c hc => ?_, fun c hc => ?_, fun b hb => h.zero b (hsub b hb)⟩
  · unfold itemBlocks
    rw [← e, contiguous_map]
    obtain ⟨y, ys, hy⟩ := List.exists_cons_of_ne_nil hm
    intro h0
    have : (y.1 + (0 : Nat) * extent z τ, y.2) ∈ repeated τ.map (extent z τ) n 0 :=
      mem_repeated.2 ⟨0, by omega, y, by rw [hy]; exact List.mem_cons_self .., rfl⟩
    rw [h0] at this
    cases this
  · unfold itemBlocks
    rw [← e, contiguous_map]
    rw [repeated_length] at h1 ⊢
    have := Nat.mul_le_mul_right τ.map.length hle
    omega
  · unfold itemBlocks
    rw [← e, contiguous_map]
    intro x hx
    obtain ⟨j, hj, y, hy, rfl⟩ := mem_repeated.1 hx
    exact h2 _ (mem_repeated.2 ⟨j, by omega, y, hy, rfl⟩)
  · obtain ⟨b, hb, hcb⟩ := List.mem_flatMap.1 hc
    exact h.lbs c (List.mem_flatMap.2 ⟨b, hsub b hb, hcb⟩)
  · obtain ⟨b, hb, hcb⟩ := List.mem_flatMap.1 hc
    exact h.ubs c (List.mem_flatMap.2 ⟨b, hsub b hb, hcb⟩)

theorem Small.grouped {z : Int → Int} {τ : DType} {n m : Nat} (hne : τ.map ≠ []) (hz : ∀ x ∈ τ.map, 1 ≤ z x.2)
    (he : 0 ≤ extent z τ) (hn : 1 ≤ n) (hm : 1 ≤ m) (h : Small z (itemBlocks z (m * n) τ)) :
    Small z (itemBlocks z m (contiguous z n τ)) := by
  have hs : struct z (itemBlocks z m (contiguous z n τ)) = struct z (itemBlocks z (m * n) τ) := by
    unfold itemBlocks
    rw [← spec_contiguous_eq, ← spec_contiguous_eq, contiguous_contiguous hne hz he hn hm]
  have hx := contiguous_extent hne hz he hn
  have hidx : ∀ i r : Nat, i < m → r < n → n * i + r < m * n := by
    intro i r hi hr
    have := Nat.mul_le_mul_left n (show i + 1 ≤ m by omega)
    rw [Nat.mul_add, Nat.mul_comm n m] at this
    omega
  have hin : ∀ k : Nat, k < m * n → (1, extent z τ * k, Comp.data τ) ∈ itemBlocks z (m * n) τ :=
    fun k hk => List.mem_map.2 ⟨k, List.mem_range.2 hk, rfl⟩
  have hd : ∀ i r : Nat, extent z τ * ((n * i + r : Nat) : Int) = n * extent z τ * i + r * extent z τ := by
    intro i r
    rw [Int.natCast_add, Int.natCast_mul, Int.mul_add, ← Int.mul_assoc, Int.mul_comm _ (n : Int), Int.mul_comm _ (r : Int)]
  refine ⟨fun b hb => ?_, by rw [hs]; exact h.ne, by rw [hs]; exact h.count, by rw [hs]; exact h.disps,
    fun c hc => ?_, fun c hc => ?_, fun b hb _ _ _ => ?_⟩
  · obtain ⟨i, hi, rfl⟩ := List.mem_map.1 hb
    have := h.disp _ (hin _ (hidx i 0 (List.mem_range.1 hi) (by omega)))
    rw [hd] at this
    simp only [hx] at this ⊢
    omega
  · obtain ⟨b, hb, hcb⟩ := List.mem_flatMap.1 hc
    obtain ⟨i, hi, rfl⟩ := List.mem_map.1 hb
    obtain ⟨l, hl, rfl⟩ := mem_blockLb.1 hcb
    rw [contiguous_lbMark he hn] at hl
    refine h.lbs _ (List.mem_flatMap.2 ⟨_, hin _ (hidx i 0 (List.mem_range.1 hi) (by omega)), mem_blockLb.2 ⟨l, hl, ?_⟩⟩)
    rw [hd, hx]
    omega
  · obtain ⟨b, hb, hcb⟩ := List.mem_flatMap.1 hc
    obtain ⟨i, hi, rfl⟩ := List.mem_map.1 hb
    obtain ⟨u, hu, rfl⟩ := mem_blockUb.1 hcb
    rw [contiguous_ubMark he hn] at hu
    obtain ⟨v, hv, rfl⟩ := Option.map_eq_some_iff.1 hu
    refine h.ubs _ (List.mem_flatMap.2 ⟨_, hin _ (hidx i (n - 1) (List.mem_range.1 hi) (by omega)), mem_blockUb.2 ⟨v, hv, ?_⟩⟩)
    rw [hd, hx, show ((n - 1 : Nat) : Int) = (n : Int) - 1 by omega]
    omega
  · obtain ⟨i, hi, rfl⟩ := List.mem_map.1 hb
    simp

/-- Blocks of `n` items are blocks of one item of `n` times the datatype. -/
theorem hvector_contiguous {z : Int → Int} {τ : DType} {n c : Nat} {S : Int} (hne : τ.map ≠ []) (hz : ∀ x ∈ τ.map, 1 ≤ z x.2)
    (he : 0 ≤ extent z τ) (hn : 1 ≤ n) (hc : 1 ≤ c) : hvector z c 1 S (contiguous z n τ) = hvector z c n S τ := by
  have hx := contiguous_extent hne hz he hn
  unfold hvector struct
  apply DType.ext
  · simp only [List.flatMap_map, blockMap]
    congr 1
    funext i
    rw [contiguous_map, hx, repeated_repeated, Nat.one_mul]
  · simp only [List.flatMap_map]
    have h1 : ∀ i : Nat, ∀ x, x ∈ blockLb z (1, S * i, .data (contiguous z n τ)) ↔ ∃ l, τ.lbMark = some l ∧ x = l + S * i := by
      intro i x; rw [mem_blockLb, contiguous_lbMark he hn]
    cases hl : τ.lbMark with
    | none =>
      rw [List.flatMap_eq_nil_iff.2, List.flatMap_eq_nil_iff.2]
      · intro i _
        apply List.eq_nil_iff_forall_not_mem.2
        intro x hx'
        obtain ⟨l, h, _⟩ := mem_blockLb_some.1 hx'
        rw [hl] at h; cases h
      · intro i _
        apply List.eq_nil_iff_forall_not_mem.2
        intro x hx'
        obtain ⟨l, h, _⟩ := (h1 i x).1 hx'
        rw [hl] at h; cases h
    | some l =>
      obtain ⟨a, ha⟩ := exists_min? (l := (List.range c).flatMap fun (i : Nat) => blockLb z (1, S * i, .data (contiguous z n τ)))
        (List.ne_nil_of_mem (List.mem_flatMap.2 ⟨0, List.mem_range.2 (by omega), (h1 0 _).2 ⟨l, hl, rfl⟩⟩))
      rw [ha]
      symm
      obtain ⟨g1, g2⟩ := min?_spec.1 ha
      obtain ⟨i, hi, hi'⟩ := List.mem_flatMap.1 g1
      obtain ⟨l', hl', rfl⟩ := (h1 i a).1 hi'
      refine min?_spec.2 ⟨List.mem_flatMap.2 ⟨i, hi, mem_blockLb_some.2 ⟨l', hl', 0, by omega, by simp⟩⟩, fun y hy => ?_⟩
      obtain ⟨k, hk, hk'⟩ := List.mem_flatMap.1 hy
      obtain ⟨l2, h2, j, hj, rfl⟩ := mem_blockLb_some.1 hk'
      have := g2 _ (List.mem_flatMap.2 ⟨k, hk, (h1 k _).2 ⟨l2, h2, rfl⟩⟩)
      have := steps_le he hj
      omega
  · simp only [List.flatMap_map]
    have h1 : ∀ i : Nat, ∀ x, x ∈ blockUb z (1, S * i, .data (contiguous z n τ)) ↔
        ∃ u, τ.ubMark = some u ∧ x = u + (n - 1) * extent z τ + S * i := by
      intro i x
      rw [mem_blockUb, contiguous_ubMark he hn]
      cases τ.ubMark <;> simp
    cases hl : τ.ubMark with
    | none =>
      rw [List.flatMap_eq_nil_iff.2, List.flatMap_eq_nil_iff.2]
      · intro i _
        apply List.eq_nil_iff_forall_not_mem.2
        intro x hx'
        obtain ⟨l, h, _⟩ := mem_blockUb_some.1 hx'
        rw [hl] at h; cases h
      · intro i _
        apply List.eq_nil_iff_forall_not_mem.2
        intro x hx'
        obtain ⟨l, h, _⟩ := (h1 i x).1 hx'
        rw [hl] at h; cases h
    | some l =>
      obtain ⟨a, ha⟩ := exists_max? (l := (List.range c).flatMap fun (i : Nat) => blockUb z (1, S * i, .data (contiguous z n τ)))
        (List.ne_nil_of_mem (List.mem_flatMap.2 ⟨0, List.mem_range.2 (by omega), (h1 0 _).2 ⟨l, hl, rfl⟩⟩))
      rw [ha]
      symm
      obtain ⟨g1, g2⟩ := max?_spec.1 ha
      obtain ⟨i, hi, hi'⟩ := List.mem_flatMap.1 g1
      obtain ⟨l', hl', rfl⟩ := (h1 i a).1 hi'
      refine max?_spec.2 ⟨List.mem_flatMap.2 ⟨i, hi, mem_blockUb_some.2 ⟨l', hl', n - 1, by omega, ?_⟩⟩, fun y hy => ?_⟩
      · rw [show ((n - 1 : Nat) : Int) = (n : Int) - 1 by omega]; omega
      obtain ⟨k, hk, hk'⟩ := List.mem_flatMap.1 hy
      obtain ⟨l2, h2, j, hj, rfl⟩ := mem_blockUb_some.1 hk'
      have := g2 _ (List.mem_flatMap.2 ⟨k, hk, (h1 k _).2 ⟨l2, h2, rfl⟩⟩)
      have := steps_le he hj
      omega

/-- The blocks of `c` times `b` items with stride `S`. -/
def strideBlocks (c b : Nat) (S : Int) (τ : DType) : List (Nat × Int × Comp) :=
  (List.range c).map fun (i : Nat) => (b, S * i, .data τ)

theorem strideBlocks_map {z : Int → Int} {τ : DType} {n c : Nat} {S : Int} :
    (struct z (strideBlocks (c + 1) n S τ)).map = repeated τ.map (extent z τ) n 0 ++
      (List.range c).flatMap fun (i : Nat) => repeated τ.map (extent z τ) n (S * (i + 1 : Nat)) := by
  unfold struct strideBlocks
  simp only [List.flatMap_map, blockMap]
  rw [List.range_succ_eq_map, List.flatMap_cons, List.flatMap_map]
  simp

theorem Small.first {z : Int → Int} {τ : DType} {n c : Nat} {S : Int} (hne : τ.map ≠ []) (hn : 1 ≤ n) (hc : 1 ≤ c)
    (h : Small z (strideBlocks c n S τ)) : Small z (itemBlocks z n τ) := by
  obtain ⟨c, rfl⟩ : ∃ k, c = k + 1 := ⟨c - 1, by omega⟩
  have h0 : ((n, 0, Comp.data τ) : Nat × Int × Comp) ∈ strideBlocks (c + 1) n S τ :=
    List.mem_map.2 ⟨0, List.mem_range.2 (by omega), by simp⟩
  have hmap : ∀ x ∈ repeated τ.map (extent z τ) n 0, -2147483648 ≤ x.1 ∧ x.1 ≤ 2147483647 := fun x hx =>
    h.disps x (by rw [strideBlocks_map]; exact List.mem_append_left _ hx)
  obtain ⟨y, ys, hy⟩ := List.exists_cons_of_ne_nil hne
  have hy : y ∈ τ.map := by rw [hy]; exact List.mem_cons_self ..
  have hcount := h.count
  rw [strideBlocks_map, List.length_append] at hcount
  have e := spec_contiguous_eq z n τ
  refine ⟨fun b hb => ?_, ?_, ?_, ?_, fun k hk => ?_, fun k hk => ?_, fun b hb _ _ _ => ?_⟩
  · obtain ⟨i, hi, rfl⟩ := List.mem_map.1 hb
    have a1 := hmap _ (mem_repeated.2 ⟨0, by omega, y, hy, rfl⟩)
    have a2 := hmap _ (mem_repeated.2 ⟨i, List.mem_range.1 hi, y, hy, rfl⟩)
    simp only [Int.mul_comm (i : Int)] at a1 a2 ⊢
    simp at a1
    omega
  · unfold itemBlocks
    rw [← e, contiguous_map]
    exact List.ne_nil_of_mem (mem_repeated.2 ⟨0, by omega, y, hy, rfl⟩)
  · unfold itemBlocks
    rw [← e, contiguous_map]
    omega
  · unfold itemBlocks
    rw [← e, contiguous_map]
    exact hmap
  · obtain ⟨b, hb, hkb⟩ := List.mem_flatMap.1 hk
    obtain ⟨i, hi, rfl⟩ := List.mem_map.1 hb
    obtain ⟨l, hl, rfl⟩ := mem_blockLb.1 hkb
    exact h.lbs _ (List.mem_flatMap.2 ⟨_, h0, mem_blockLb_some.2 ⟨l, hl, i, List.mem_range.1 hi, by rw [Int.mul_comm]; omega⟩⟩)
  · obtain ⟨b, hb, hkb⟩ := List.mem_flatMap.1 hk
    obtain ⟨i, hi, rfl⟩ := List.mem_map.1 hb
    obtain ⟨l, hl, rfl⟩ := mem_blockUb.1 hkb
    exact h.ubs _ (List.mem_flatMap.2 ⟨_, h0, mem_blockUb_some.2 ⟨l, hl, i, List.mem_range.1 hi, by rw [Int.mul_comm]; omega⟩⟩)
  · obtain ⟨i, hi, rfl⟩ := List.mem_map.1 hb
    simp

theorem Small.blocks {z : Int → Int} {τ : DType} {n c : Nat} {S : Int} (hne : τ.map ≠ []) (hz : ∀ x ∈ τ.map, 1 ≤ z x.2)
    (he : 0 ≤ extent z τ) (hn : 1 ≤ n) (hc : 1 ≤ c) (h : Small z (strideBlocks c n S τ)) :
    Small z (strideBlocks c 1 S (contiguous z n τ)) := by
  have hs : struct z (strideBlocks c 1 S (contiguous z n τ)) = struct z (strideBlocks c n S τ) :=
    hvector_contiguous hne hz he hn hc
  have hin : ∀ i : Nat, i ∈ List.range c → (n, S * i, Comp.data τ) ∈ strideBlocks c n S τ :=
    fun i hi => List.mem_map.2 ⟨i, hi, rfl⟩
  refine ⟨fun b hb => ?_, by rw [hs]; exact h.ne, by rw [hs]; exact h.count, by rw [hs]; exact h.disps,
    fun k hk => ?_, fun k hk => ?_, fun b hb _ _ _ => ?_⟩
  · obtain ⟨i, hi, rfl⟩ := List.mem_map.1 hb
    exact h.disp (n, S * i, .data τ) (hin i hi)
  · obtain ⟨b, hb, hkb⟩ := List.mem_flatMap.1 hk
    obtain ⟨i, hi, rfl⟩ := List.mem_map.1 hb
    obtain ⟨l, hl, rfl⟩ := mem_blockLb.1 hkb
    rw [contiguous_lbMark he hn] at hl
    exact h.lbs _ (List.mem_flatMap.2 ⟨_, hin i hi, mem_blockLb_some.2 ⟨l, hl, 0, by omega, by simp⟩⟩)
  · obtain ⟨b, hb, hkb⟩ := List.mem_flatMap.1 hk
    obtain ⟨i, hi, rfl⟩ := List.mem_map.1 hb
    obtain ⟨u, hu, rfl⟩ := mem_blockUb.1 hkb
    rw [contiguous_ubMark he hn] at hu
    obtain ⟨v, hv, rfl⟩ := Option.map_eq_some_iff.1 hu
    refine h.ubs _ (List.mem_flatMap.2 ⟨_, hin i hi, mem_blockUb_some.2 ⟨v, hv, n - 1, by omega, ?_⟩⟩)
    rw [show ((n - 1 : Nat) : Int) = (n : Int) - 1 by omega]
    omega
  · obtain ⟨i, hi, rfl⟩ := List.mem_map.1 hb
    simp

/-- Two transfers of the same elements. -/
theorem same_outcome {z : Int → Int} {M0 : Mem} {l : List (Entry × Entry)} {R R' : Res Mem}
    (x1 : (∀ x ∈ l, Copyable z M0 x.1 x.2) → R = .ok (oneByOne z l M0)) (x2 : (∃ x ∈ l, ¬ Copyable z M0 x.1 x.2) → ∃ e, R = .ub e)
    (y1 : (∀ x ∈ l, Copyable z M0 x.1 x.2) → R' = .ok (oneByOne z l M0)) (y2 : (∃ x ∈ l, ¬ Copyable z M0 x.1 x.2) → ∃ e, R' = .ub e) :
    (∀ M, R = .ok M ↔ R' = .ok M) ∧ ((∃ e, R = .ub e) ↔ ∃ e, R' = .ub e) ∧ ((∃ M, R = .ok M) ∨ ∃ e, R = .ub e) := by
  by_cases hall : ∀ x ∈ l, Copyable z M0 x.1 x.2
  · rw [x1 hall, y1 hall]
    exact ⟨fun _ => Iff.rfl, Iff.rfl, .inl ⟨_, rfl⟩⟩
  · have : ∃ x ∈ l, ¬ Copyable z M0 x.1 x.2 :=
      Classical.byContradiction fun hno => hall fun x hx => Classical.byContradiction fun hcx => hno ⟨x, hx, hcx⟩
    obtain ⟨e, he⟩ := x2 this
    obtain ⟨e', he'⟩ := y2 this
    rw [he, he']
    exact ⟨fun M => ⟨(fun h => nomatch h), (fun h => nomatch h)⟩, ⟨fun _ => ⟨_, rfl⟩, fun _ => ⟨_, rfl⟩⟩, .inr ⟨_, rfl⟩⟩

section
variable {env : Env} {s : Sys} {L : Ledger}

/-- C94, construction: MPI_Type_contiguous applied twice gives the datatype that one call with the product of the counts
gives (if it is one that C25 is about) - the same type map, bounds, extent and size.  Partial: as for C25. -/
theorem C94_nested_partial (hr : Reach env s L) (hc : env.cfg.Ok) (hroom : L.objs.length < 262142)
    (hg : ∀ i, (env.garbage i).o_lb = 0 ∧ (env.garbage i).o_ub = 0) {old : Int} {τ : DType} {n m : Nat}
    (hd : StandsFor env.cfg L old (.data τ)) (he : 0 ≤ extent (sz env.cfg) τ) (hn : 1 ≤ n) (hm : 1 ≤ m)
    (hs : Small (sz env.cfg) ((List.range (m * n)).map fun (i : Nat) => (1, extent (sz env.cfg) τ * i, .data τ))) :
    ∃ s1 a s2 b L2, MPI_Type_contiguous env s n old = .ok (s1, a) ∧ MPI_Type_contiguous env s1 m a = .ok (s2, b) ∧
      s2.mem = s.mem ∧ Reach env s2 L2 ∧ StandsFor env.cfg L2 b (.data (contiguous (sz env.cfg) (m * n) τ)) ∧
      HandleReports env s2 b (contiguous (sz env.cfg) (m * n) τ) := by
  obtain ⟨t, _, hdesc, _⟩ := id hd
  obtain ⟨hne, hz⟩ := hdesc.sized hc
  have h1 : Small (sz env.cfg) (itemBlocks (sz env.cfg) n τ) :=
    Small.fewer hne hn (Nat.le_mul_of_pos_left n hm) hs
  have h2 := Small.grouped hne hz he hn hm hs
  obtain ⟨s1, a, t1, e1, _, _, m1, st1, d1, _⟩ := C59_built_partial hr hc (by omega) (hg _).1 (hg _).2
    (TypeBuild.contiguous (n := n) hd (by omega) (by rw [Int.toNat_natCast]; exact h1))
  have r1 := hr.step st1
  rw [Int.toNat_natCast] at d1
  obtain ⟨s2, b, t2, e2, _, _, m2, st2, d2, q2⟩ := C59_built_partial r1 hc
    (by unfold Ledger.addType; simp only [List.length_cons]; omega) (hg _).1 (hg _).2
    (TypeBuild.contiguous (n := m) d1 (by omega) (by rw [Int.toNat_natCast]; exact h2))
  rw [Int.toNat_natCast, contiguous_contiguous hne hz he hn hm] at d2 q2
  exact ⟨s1, a, s2, b, _, e1, e2, m2.trans m1, r1.step st2, d2, q2⟩

/-- C94, blocks: `c` blocks of one item of `n` times the datatype, `S` bytes apart, are `c` blocks of `n` items.  Partial:
as for C25. -/
theorem C94_blocks_partial (hr : Reach env s L) (hc : env.cfg.Ok) (hroom : L.objs.length < 262142)
    (hg : ∀ i, (env.garbage i).o_lb = 0 ∧ (env.garbage i).o_ub = 0) {old S : Int} {τ : DType} {n c : Nat}
    (hd : StandsFor env.cfg L old (.data τ)) (he : 0 ≤ extent (sz env.cfg) τ) (hn : 1 ≤ n) (h1 : 1 ≤ c)
    (hs : Small (sz env.cfg) ((List.range c).map fun (i : Nat) => (n, S * i, .data τ))) :
    ∃ s1 a s2 b L2, MPI_Type_contiguous env s n old = .ok (s1, a) ∧ MPI_Type_hvector env s1 c 1 (u64 S) a = .ok (s2, b) ∧
      s2.mem = s.mem ∧ Reach env s2 L2 ∧ StandsFor env.cfg L2 b (.data (hvector (sz env.cfg) c n S τ)) ∧
      HandleReports env s2 b (hvector (sz env.cfg) c n S τ) := by
  obtain ⟨t, _, hdesc, _⟩ := id hd
  obtain ⟨hne, hz⟩ := hdesc.sized hc
  have g1 : Small (sz env.cfg) (itemBlocks (sz env.cfg) n τ) := Small.first hne hn h1 hs
  have g2 := Small.blocks hne hz he hn h1 hs
  obtain ⟨s1, a, t1, e1, _, _, m1, st1, d1, _⟩ := C59_built_partial hr hc (by omega) (hg _).1 (hg _).2
    (TypeBuild.contiguous (n := n) hd (by omega) (by rw [Int.toNat_natCast]; exact g1))
  have r1 := hr.step st1
  rw [Int.toNat_natCast] at d1
  obtain ⟨s2, b, t2, e2, _, _, m2, st2, d2, q2⟩ := C59_built_partial r1 hc
    (by unfold Ledger.addType; simp only [List.length_cons]; omega) (hg _).1 (hg _).2
    (TypeBuild.hvector (n := c) (bl := 1) (st := S) d1 (by omega) (by omega) (by rw [Int.toNat_natCast]; exact g2))
  rw [Int.toNat_natCast, show (1 : Int).toNat = 1 from rfl, hvector_contiguous hne hz he hn h1] at d2 q2
  exact ⟨s1, a, s2, b, _, e1, e2, m2.trans m1, r1.step st2, d2, q2⟩

/-- C94, transfers: a message of `m` items of `n` times `τs` received into `m'` items of `n'` times `τr` does what the
message of `m * n` items `τs` received into `m' * n'` items `τr` does: the same memory results, or neither is
carried out.  (`n = 1` is the datatype itself: `contiguous_one`.) -/
theorem C94_exchange (hr : Reach env s L) (hc : env.cfg.Ok) {sb rb st rt ss rr : Int} {m n m' n' : Nat} {R R' : Res Mem}
    {τs τr : DType} (hn : 1 ≤ n) (hn' : 1 ≤ n')
    (h : Delivers env s L sb m st rb m' rt R) (h' : Delivers env s L sb (m * n : Nat) ss rb (m' * n' : Nat) rr R')
    (d1 : StandsFor env.cfg L st (.data (contiguous (sz env.cfg) n τs)))
    (d2 : StandsFor env.cfg L rt (.data (contiguous (sz env.cfg) n' τr)))
    (d3 : StandsFor env.cfg L ss (.data τs)) (d4 : StandsFor env.cfg L rr (.data τr))
    (c1 : Committed env.cfg L st) (c2 : Committed env.cfg L rt) (c3 : Committed env.cfg L ss) (c4 : Committed env.cfg L rr)
    (e1 : 0 ≤ extent (sz env.cfg) τs) (e2 : 0 ≤ extent (sz env.cfg) τr)
    (hl : Exchangeable (sz env.cfg) (env.cfg.typeChecking = true) sb (m * n : Nat) τs rb (m' * n' : Nat) τr) :
    (∀ M, R = .ok M ↔ R' = .ok M) ∧ ((∃ e, R = .ub e) ↔ ∃ e, R' = .ub e) ∧ ((∃ M, R = .ok M) ∨ ∃ e, R = .ub e) := by
  obtain ⟨_, _, q3, _⟩ := id d3
  obtain ⟨_, _, q4, _⟩ := id d4
  obtain ⟨n3, z3⟩ := q3.sized hc
  obtain ⟨n4, z4⟩ := q4.sized hc
  have p1 := fun b => placed_contiguous n3 z3 e1 hn m b
  have p2 := fun b => placed_contiguous n4 z4 e2 hn' m' b
  have hl' : Exchangeable (sz env.cfg) (env.cfg.typeChecking = true) sb m (contiguous (sz env.cfg) n τs) rb m'
      (contiguous (sz env.cfg) n' τr) :=
    { srcCount := by omega
      dstCount := by omega
      srcFits := by rw [contiguous_length]; exact hl.srcFits
      dstFits := by rw [contiguous_length]; exact hl.dstFits
      enough := by rw [p1, p2]; exact hl.enough
      srcReach := by rw [p1, p2]; exact hl.srcReach
      dstReach := by rw [p2]; exact hl.dstReach
      kinds := by rw [p1, p2]; exact hl.kinds }
  obtain ⟨x1, x2⟩ := C81_exact hr hc h d1 d2 c1 c2 hl'
  obtain ⟨y1, y2⟩ := C81_exact hr hc h' d3 d4 c3 c4 hl
  rw [p1, p2] at x1 x2
  exact same_outcome x1 x2 y1 y2

/-- C94, messages that wait: receiving `m` items of `n` times `τ` is receiving `m * n` items `τ`. -/
theorem C94_collects (hr : Reach env s L) (hc : env.cfg.Ok) {sb sc st rb rt rr : Int} {m n : Nat} {R R' : Res Mem} {τ : DType}
    (hn : 1 ≤ n) (h : Collects env s L sb sc st rb m rt R) (h' : Collects env s L sb sc st rb (m * n : Nat) rr R')
    (d1 : StandsFor env.cfg L rt (.data (contiguous (sz env.cfg) n τ))) (d2 : StandsFor env.cfg L rr (.data τ))
    (c1 : Committed env.cfg L rt) (c2 : Committed env.cfg L rr) (he : 0 ≤ extent (sz env.cfg) τ)
    (hl : Exchangeable (sz env.cfg) (env.cfg.typeChecking = true) sb (m * n : Nat) τ rb (m * n : Nat) τ) :
    (∀ M, R = .ok M ↔ R' = .ok M) ∧ ((∃ e, R = .ub e) ↔ ∃ e, R' = .ub e) ∧ ((∃ M, R = .ok M) ∨ ∃ e, R = .ub e) := by
  obtain ⟨_, _, q, _⟩ := id d2
  obtain ⟨hne, hz⟩ := q.sized hc
  have p := fun b => placed_contiguous hne hz he hn m b
  have hl' : Exchangeable (sz env.cfg) (env.cfg.typeChecking = true) sb m (contiguous (sz env.cfg) n τ) rb m
      (contiguous (sz env.cfg) n τ) :=
    { srcCount := by omega
      dstCount := by omega
      srcFits := by rw [contiguous_length]; exact hl.srcFits
      dstFits := by rw [contiguous_length]; exact hl.dstFits
      enough := by rw [p, p]; exact hl.enough
      srcReach := by rw [p, p]; exact hl.srcReach
      dstReach := by rw [p]; exact hl.dstReach
      kinds := by rw [p, p]; exact hl.kinds }
  obtain ⟨x1, x2⟩ := C81_exact_waiting hr hc h d1 c1 hl'
  obtain ⟨y1, y2⟩ := C81_exact_waiting hr hc h' d2 c2 hl
  rw [p, p] at x1 x2
  exact same_outcome x1 x2 y1 y2

/-- C94, packing: packing `m` items of `n` times `τ` is packing `m * n` items `τ` - the same bytes, the same position, the
same end if there is no room. -/
theorem C94_pack (hr : Reach env s L) (hc : env.cfg.Ok) {inbuf st ss : Int} {m n : Nat} {τ : DType} (hn : 1 ≤ n)
    (d1 : StandsFor env.cfg L st (.data (contiguous (sz env.cfg) n τ))) (d2 : StandsFor env.cfg L ss (.data τ))
    (he : 0 ≤ extent (sz env.cfg) τ)
    (hm : ∀ x ∈ placed (sz env.cfg) τ (m * n : Nat) inbuf, 0 ≤ x.1 ∧ x.1 < 18446744073709551616)
    (outbuf outsize position comm : Int) :
    MPI_Pack env s inbuf m st outbuf outsize position comm = MPI_Pack env s inbuf (m * n : Nat) ss outbuf outsize position comm := by
  obtain ⟨M, lst, hi⟩ := hr.inv
  obtain ⟨t1, a1, b1, _⟩ := d1
  obtain ⟨t2, a2, b2, _⟩ := d2
  obtain ⟨q1, e1, _⟩ := b1.dataDesc hc
  obtain ⟨q2, e2, _⟩ := b2.dataDesc hc
  obtain ⟨hne, hz⟩ := b2.sized hc
  have p := placed_contiguous hne hz he hn m inbuf
  have hp : ∀ M0, Pack env.cfg M0 inbuf m t1 outbuf outsize position = Pack env.cfg M0 inbuf (m * n : Nat) t2 outbuf outsize position := by
    intro M0
    unfold Pack
    rw [b1.extent hc, b2.extent hc, Res.ok_bind, Res.ok_bind, packLoop_eq' q1, packLoop_eq' q2, e1, e2]
    · unfold placed at p; rw [p]
    · rw [e2]; exact hm
    · rw [e1]; rw [← p] at hm; exact hm
  unfold MPI_Pack
  rw [hi.typeOf a1, hi.typeOf a2]
  simp only [Res.ok_bind, hp]

/-- C94, unpacking. -/
theorem C94_unpack (hr : Reach env s L) (hc : env.cfg.Ok) {outbuf rt rr : Int} {m n : Nat} {τ : DType} (hn : 1 ≤ n)
    (d1 : StandsFor env.cfg L rt (.data (contiguous (sz env.cfg) n τ))) (d2 : StandsFor env.cfg L rr (.data τ))
    (he : 0 ≤ extent (sz env.cfg) τ)
    (hm : ∀ x ∈ placed (sz env.cfg) τ (m * n : Nat) outbuf, 0 ≤ x.1 ∧ x.1 < 18446744073709551616)
    (inbuf insize position comm : Int) :
    MPI_Unpack env s inbuf insize position outbuf m rt comm = MPI_Unpack env s inbuf insize position outbuf (m * n : Nat) rr comm := by
  obtain ⟨M, lst, hi⟩ := hr.inv
  obtain ⟨t1, a1, b1, _⟩ := d1
  obtain ⟨t2, a2, b2, _⟩ := d2
  obtain ⟨q1, e1, _⟩ := b1.dataDesc hc
  obtain ⟨q2, e2, _⟩ := b2.dataDesc hc
  obtain ⟨hne, hz⟩ := b2.sized hc
  have p := placed_contiguous hne hz he hn m outbuf
  have hp : ∀ M0, Unpack env.cfg M0 inbuf insize position outbuf m t1 = Unpack env.cfg M0 inbuf insize position outbuf (m * n : Nat) t2 := by
    intro M0
    unfold Unpack
    rw [b1.extent hc, b2.extent hc, Res.ok_bind, Res.ok_bind, unpackLoop_eq' q1, unpackLoop_eq' q2, e1, e2]
    · unfold placed at p; rw [p]
    · rw [e2]; exact hm
    · rw [e1]; rw [← p] at hm; exact hm
  unfold MPI_Unpack
  rw [hi.typeOf a1, hi.typeOf a2]
  simp only [Res.ok_bind, hp]

end

/-- One item of a datatype is the datatype. -/
theorem contiguous_one {z : Int → Int} {τ : DType} (he : 0 ≤ extent z τ) : contiguous z 1 τ = τ := by
  apply DType.ext
  · rw [contiguous_map]; simp [repeated, shift]
  · exact contiguous_lbMark he (by omega)
  · rw [contiguous_ubMark he (by omega)]
    cases τ.ubMark <;> simp

/-- C94 fails: for an MPI_INT with MPI_LB at -8 (type.c:267, 283: bounds are compared as unsigned numbers, C26), two times two items have extent 0, four items
have extent 10. -/
theorem C94_fails : ∃ t a b c,
    Type_struct {} ⟨0, 0, fun _ => ⟨0, 0⟩⟩ [⟨1, 0, static1 4 2⟩, ⟨1, u64 (-8), static1 0 12⟩] = .ok t ∧
    Type_contiguous {} ⟨0, 0, fun _ => ⟨0, 0⟩⟩ 2 t = .ok a ∧ Type_contiguous {} ⟨0, 0, fun _ => ⟨0, 0⟩⟩ 2 a = .ok b ∧
    Type_contiguous {} ⟨0, 0, fun _ => ⟨0, 0⟩⟩ 4 t = .ok c ∧ Type_extent {} b = .ok 0 ∧ Type_extent {} c = .ok 10 := by
  refine ⟨_, _, _, _, rfl, rfl, rfl, rfl, ?_, ?_⟩ <;> decide +kernel

/-! ## Instances -/

theorem ints_small : Small (sz {}) ((List.range 3).map fun (i : Nat) =>
    (1, extent (sz {}) (plain [(0, 2)]) * i, .data (plain [(0, 2)]))) :=
  ⟨by decide, by decide, by decide, by decide, by decide, by decide, fun b hb τ _ _ => by
    obtain ⟨i, _, rfl⟩ := List.mem_map.1 hb; simp⟩

/-- C94_nested_partial: two times three MPI_INTs, of extent 24. -/
example : ∃ s1 a s2 b, MPI_Type_contiguous env0 CL.s 3 (-3) = .ok (s1, a) ∧ MPI_Type_contiguous env0 s1 2 a = .ok (s2, b) ∧
    MPI_Type_extent env0 s2 b = .ok (s2, 24) := by
  have hlen : CL.L.objs.length = 1 := by decide +kernel
  obtain ⟨s1, a, s2, b, _, e1, e2, _, _, _, h⟩ := C94_nested_partial (env := env0) (n := 3) (m := 2) (show Reach env0 CL.s CL.L from CL_ok)
    cfg_default_ok (by omega) (fun _ => ⟨rfl, rfl⟩) (int_represents CL.L) (by decide) (by decide) (by decide)
    ⟨by decide, by decide, by decide, by decide, by decide, by decide, fun b hb τ _ _ => by
      obtain ⟨i, _, rfl⟩ := List.mem_map.1 hb; simp⟩
  exact ⟨s1, a, s2, b, e1, e2, h.extent⟩

/-- C94_blocks_partial: two blocks of three MPI_INTs, 20 bytes apart; extent 32. -/
example : ∃ s1 a s2 b, MPI_Type_contiguous env0 CL.s 3 (-3) = .ok (s1, a) ∧ MPI_Type_hvector env0 s1 2 1 20 a = .ok (s2, b) ∧
    MPI_Type_extent env0 s2 b = .ok (s2, 32) := by
  have hlen : CL.L.objs.length = 1 := by decide +kernel
  obtain ⟨s1, a, s2, b, _, e1, e2, _, _, _, h⟩ := C94_blocks_partial (env := env0) (n := 3) (c := 2) (S := 20) (show Reach env0 CL.s CL.L from CL_ok)
    cfg_default_ok (by omega) (fun _ => ⟨rfl, rfl⟩) (int_represents CL.L) (by decide) (by decide) (by decide)
    ⟨by decide, by decide, by decide, by decide, by decide, by decide, fun b hb τ _ _ => by
      obtain ⟨i, _, rfl⟩ := List.mem_map.1 hb; simp⟩
  exact ⟨s1, a, s2, b, e1, e2, h.extent⟩

/-- C94_exchange, C94_pack, C94_unpack: two times three MPI_INTs at 1000 are packed, unpacked and sent into six MPI_INTs at 2000. -/
example : ∃ s1 a s2, MPI_Type_contiguous env0 { CL.s with mem := memAll } 3 (-3) = .ok (s1, a) ∧ MPI_Type_commit env0 s1 a = .ok s2 ∧
    MPI_Pack env0 s2 1000 2 a 2000 100 0 1 = MPI_Pack env0 s2 1000 6 (-3) 2000 100 0 1 ∧
    MPI_Unpack env0 s2 2000 100 0 1000 2 a 1 = MPI_Unpack env0 s2 2000 100 0 1000 6 (-3) 1 ∧
    ∀ M, (MPI_Sendrecv env0 s2 1000 2 a 0 5 2000 6 (-3) 0 5 1 .null >>= fun x => Res.ok x.1.mem) = .ok M ↔
      (MPI_Sendrecv env0 s2 1000 6 (-3) 0 5 2000 6 (-3) 0 5 1 .null >>= fun x => Res.ok x.1.mem) = .ok M := by
  have r0 : Reach env0 { CL.s with mem := memAll } CL.L := Reach.step CL_ok .memory
  have hlen : CL.L.objs.length = 1 := by decide +kernel
  have hops : CL.L.ops = [] := by decide +kernel
  obtain ⟨s1, a, t1, e1, p1, n1, m1, st1, d1, _⟩ := C59_built_partial r0 cfg_default_ok (by omega) rfl rfl
    (TypeBuild.contiguous (n := 3) (int_represents CL.L) (by decide) ints_small)
  have r1 := r0.step st1
  obtain ⟨s2, e2, m2, st2, d2, c2⟩ := C59_commit r1 cfg_default_ok p1 d1
  have hx : CanExchange ((CL.L.addType a t1).commit a) 1 5 := by
    refine ⟨⟨0, ?_, ?_, ?_⟩, ?_, ?_⟩
    · have : ((1 : Int), Obj.comm 0) ∈ CL.L.objs := by decide +kernel
      unfold Ledger.commit
      exact List.mem_map.2 ⟨_, List.mem_cons_of_mem _ this, rfl⟩
    · unfold NoOpen
      show ∀ o ∈ CL.L.ops, _
      rw [hops]; intro o h; cases h
    · unfold NoOpen
      show ∀ o ∈ CL.L.ops, _
      rw [hops]; intro o h; cases h
    · unfold Ledger.commit Ledger.addType
      simp only [List.length_map, List.length_cons, hlen]
      omega
    · show CL.L.ops.countP _ + 1 < 2147483647
      rw [hops]; decide
  have hi : StandsFor {} ((CL.L.addType a t1).commit a) (-3) (.data (plain [(0, 2)])) := int_represents _
  have hc : Committed {} ((CL.L.addType a t1).commit a) (-3) := ⟨static1 4 2, rfl, by decide⟩
  refine ⟨s1, a, s2, e1, e2, C94_pack (env := env0) (m := 2) (n := 3) (r1.step st2) cfg_default_ok (by decide) d2 hi (by decide) (by decide) ..,
    C94_unpack (env := env0) (m := 2) (n := 3) (r1.step st2) cfg_default_ok (by decide) d2 hi (by decide) (by decide) .., ?_⟩
  exact (C94_exchange (env := env0) (m := 2) (n := 3) (m' := 6) (n' := 1) (r1.step st2) cfg_default_ok (by decide) (by decide)
    (.sendrecv (sb := 1000) (rb := 2000) hx) (.sendrecv (sb := 1000) (rb := 2000) hx) d2
    (by rw [contiguous_one (by decide)]; exact hi) hi hi c2 hc hc hc (by decide) (by decide)
    (by constructor <;> decide +kernel)).1

/-- C94_collects: three characters wait at 100 (`H2`) and are received at 300 as one item of three MPI_CHARs. -/
example : ∃ s1 a s2, MPI_Type_contiguous env0 { H2.s with mem := memAll } 3 (-1) = .ok (s1, a) ∧ MPI_Type_commit env0 s1 a = .ok s2 ∧
    ∀ M, (MPI_Irecv env0 s2 300 1 a 0 5 1 >>= fun x => Res.ok x.1.mem) = .ok M ↔
      (MPI_Irecv env0 s2 300 3 (-1) 0 5 1 >>= fun x => Res.ok x.1.mem) = .ok M := by
  have r0 : Reach env0 { H2.s with mem := memAll } H2.L := Reach.step H2_ok .memory
  have hlen : H2.L.objs.length = 2 := by decide +kernel
  obtain ⟨s1, a, t1, e1, p1, n1, m1, st1, d1, _⟩ := C59_built_partial r0 cfg_default_ok (by omega) rfl rfl
    (TypeBuild.contiguous (n := 3) (char_standsFor H2.L) (by decide)
      ⟨by decide, by decide, by decide, by decide, by decide, by decide, fun b hb τ _ _ => by
        obtain ⟨i, _, rfl⟩ := List.mem_map.1 hb; simp⟩)
  have r1 := r0.step st1
  obtain ⟨s2, e2, m2, st2, d2, c2⟩ := C59_commit r1 cfg_default_ok p1 d1
  have hready : Ready ((H2.L.addType a t1).commit a) 1 0 := by
    refine ⟨?_, ?_, ?_⟩
    · have : ((1 : Int), Obj.comm 0) ∈ H2.L.objs := by decide +kernel
      unfold Ledger.commit
      exact List.mem_map.2 ⟨_, List.mem_cons_of_mem _ this, rfl⟩
    · unfold Ledger.commit Ledger.addType
      simp only [List.length_map, List.length_cons, hlen]
      omega
    · have h2 : H2.L.unmatched < 2147483647 := by decide +kernel
      unfold Ledger.unmatched at h2 ⊢
      unfold Ledger.commit Ledger.addType
      exact h2
  have hops : ((H2.L.addType a t1).commit a).ops = H2.L.ops := rfl
  have hfirst : Earliest ((H2.L.addType a t1).commit a) .send 0 (fun t => accepts 5 t) 0 ⟨.send, 0, 5, 100, 3, -1, 2, .pending⟩ :=
    ⟨by rw [hops]; decide +kernel, by decide, by decide, fun j' o' h => by omega⟩
  refine ⟨s1, a, s2, e1, e2, ?_⟩
  exact (C94_collects (env := env0) (m := 1) (n := 3) (r1.step st2) cfg_default_ok (by decide)
    (.irecv (buf := 300) hready (.inl rfl) hfirst) (.irecv (buf := 300) hready (.inl rfl) hfirst) d2 (char_standsFor _) c2
    ⟨static1 1 0, rfl, by decide⟩ (by decide) (by constructor <;> decide +kernel)).1

/-- The extent must not be negative: with a negative extent (upper bound 0, lower bound 4) two items do not
take twice the room of one, by the standard's own definitions. -/
example : extent (sz {}) ⟨[(0, 0)], some 4, some 0⟩ = -4 ∧
    extent (sz {}) (contiguous (sz {}) 2 ⟨[(0, 0)], some 4, some 0⟩) = 0 := by decide +kernel

end MpiSerial
