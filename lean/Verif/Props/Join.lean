import Verif.Proofs.Join
import Verif.Props.Nest

/-!
# Blocks that follow each other may be joined (C95)
-/

set_option autoImplicit false

namespace MpiSerial

open Spec

section
variable {env : Env} {s : Sys} {L : Ledger} {old : Int} {τ : DType} {a b d : Int}

/-- The first entry of a datatype is not a marker. -/
theorem Describes.first {cfg : Cfg} (hc : cfg.Ok) {t : Typestruct} (h : Describes cfg t (.data τ)) :
    ∃ p, t.pair 0 = .ok p ∧ (p.type ≠ SIMPLE_LOWER ∧ p.type ≠ SIMPLE_UPPER) ∧ 0 ≤ t.count := by
  have hk := (h.meaning hc).1.k0 ⟨0, 0, t⟩ rfl
  obtain ⟨p, hp, hk0⟩ := pair0_ok (b := ⟨0, 0, t⟩) fun hn => (h.meaning hc).1.ne (by
    unfold Typestruct.map
    rw [show t.pairs = [] from hn, List.take_nil])
  exact ⟨p, hp, ⟨by rw [hk0]; exact hk.1, by rw [hk0]; exact hk.2⟩, by rw [(h.dataDesc hc).2.2]; omega⟩

/-- Blocks of one datatype, the second where the first ends. -/
theorem blocks_join {cfg : Cfg} (hc : cfg.Ok) (g : Garbage) {t : Typestruct} (h : Describes cfg t (.data τ)) (ha : 0 ≤ a) (hb : 0 ≤ b)
    (l₁ l₂ : List (Int × Int)) (hl : ∀ x ∈ l₁, 0 ≤ x.1) :
    Type_struct cfg g (((l₁ ++ (a + b, d) :: l₂).map fun x => (x.1, x.2, t)).map mkBlock) =
      Type_struct cfg g (((l₁ ++ (a, d) :: (b, d + a * extent (sz cfg) τ) :: l₂).map fun x => (x.1, x.2, t)).map mkBlock) := by
  obtain ⟨p, hp, ⟨h1, h2⟩, hcnt⟩ := h.first hc
  simp only [List.map_append, List.map_cons, mkBlock]
  rw [Type_struct_join g (h.extent hc) hcnt ha hb hp ⟨h1, h2⟩]
  · have : u64 (u64 d + a * u64 (extent (sz cfg) τ)) = u64 (d + a * extent (sz cfg) τ) := by
      have h1 := u64_mul_right a (extent (sz cfg) τ)
      unfold u64 at h1 ⊢
      omega
    rw [this]
  · intro x hx
    obtain ⟨y, hy, rfl⟩ := List.mem_map.1 hx
    obtain ⟨z, hz, rfl⟩ := List.mem_map.1 hy
    exact ⟨hl z hz, hcnt⟩

/-- C95, byte displacements: in any history, MPI_Type_hindexed with a block of `a + b` items is the same call as with a
block of `a` items and one of `b` items that begins where the first ends: same handle, same state, same failure. -/
theorem C95_hindexed (hr : Reach env s L) (hc : env.cfg.Ok) (ho : StandsFor env.cfg L old (.data τ)) (ha : 0 ≤ a) (hb : 0 ≤ b)
    (l₁ l₂ : List (Int × Int)) (hl : ∀ x ∈ l₁, 0 ≤ x.1) {one two : List (Int × Int)} (h1 : one = l₁ ++ (a + b, d) :: l₂)
    (h2 : two = l₁ ++ (a, d) :: (b, d + a * extent (sz env.cfg) τ) :: l₂) :
    MPI_Type_hindexed env s one.length (one.map Prod.fst) (one.map fun x => u64 x.2) old =
      MPI_Type_hindexed env s two.length (two.map Prod.fst) (two.map fun x => u64 x.2) old := by
  obtain ⟨t, ht, hD, _⟩ := ho
  obtain ⟨M, lst, hi⟩ := hr.inv
  subst h1 h2
  unfold MPI_Type_hindexed
  rw [hi.typeOf ht, Res.ok_bind, Res.ok_bind]
  simp only [hindexed_eq, blocks_join hc _ hD ha hb l₁ l₂ hl]

/-- C95, displacements in items: the second block begins `a` items after the first. -/
theorem C95_indexed (hr : Reach env s L) (hc : env.cfg.Ok) (ho : StandsFor env.cfg L old (.data τ)) (ha : 0 ≤ a) (hb : 0 ≤ b)
    (l₁ l₂ : List (Int × Int)) (hl : ∀ x ∈ l₁, 0 ≤ x.1) {one two : List (Int × Int)} (h1 : one = l₁ ++ (a + b, d) :: l₂)
    (h2 : two = l₁ ++ (a, d) :: (b, d + a) :: l₂) :
    MPI_Type_indexed env s one.length (one.map Prod.fst) (one.map Prod.snd) old =
      MPI_Type_indexed env s two.length (two.map Prod.fst) (two.map Prod.snd) old := by
  obtain ⟨t, ht, hD, _⟩ := ho
  obtain ⟨M, lst, hi⟩ := hr.inv
  subst h1 h2
  unfold MPI_Type_indexed
  rw [hi.typeOf ht, Res.ok_bind, Res.ok_bind]
  have := fun g => blocks_join (d := d * extent (sz env.cfg) τ) hc g hD ha hb (l₁.map fun x => (x.1, x.2 * extent (sz env.cfg) τ))
    (l₂.map fun x => (x.1, x.2 * extent (sz env.cfg) τ)) (fun x hx => by
      obtain ⟨y, hy, rfl⟩ := List.mem_map.1 hx
      exact hl y hy)
  simp only [indexed_eq _ (hD.extent hc)]
  simp only [List.map_append, List.map_cons, List.map_map, Function.comp_def, ← Int.add_mul] at this ⊢
  simp only [this]

/-- A row of blocks, each where the one before ends, is one block. -/
theorem row_join {cfg : Cfg} (hc : cfg.Ok) (g : Garbage) {t : Typestruct} (h : Describes cfg t (.data τ)) {bl : Int} (hb : 0 ≤ bl) :
    ∀ (n : Nat) (l : List (Int × Int)),
    Type_struct cfg g (((((List.range (n + 1)).map fun (i : Nat) => (bl, bl * extent (sz cfg) τ * i)) ++ l).map fun x => (x.1, x.2, t)).map mkBlock)
      = Type_struct cfg g (((((n + 1 : Nat) * bl, 0) :: l).map fun x => (x.1, x.2, t)).map mkBlock) := by
  intro n
  induction n with
  | zero => intro l; simp
  | succ n ih =>
    intro l
    rw [List.range_succ, List.map_append (l₁ := List.range (n + 1)), List.append_assoc, ih]
    have := blocks_join (a := (n + 1 : Nat) * bl) (b := bl) (d := 0) hc g h (Int.mul_nonneg (by omega) hb) hb [] l (by simp)
    rw [List.nil_append, List.nil_append] at this
    rw [show ((n + 1 + 1 : Nat) : Int) * bl = (n + 1 : Nat) * bl + bl by rw [Int.natCast_add (n + 1) 1, Int.add_mul]; simp, this,
      show (0 : Int) + (n + 1 : Nat) * bl * extent (sz cfg) τ = bl * extent (sz cfg) τ * (n + 1 : Nat) by
        rw [Int.zero_add, Int.mul_assoc, Int.mul_comm]]
    rfl

/-- C95, vectors: blocks that leave no gap are a contiguous datatype. -/
theorem C95_vector (hr : Reach env s L) (hc : env.cfg.Ok) (ho : StandsFor env.cfg L old (.data τ)) {n bl : Int} (hn : 1 ≤ n) (hb : 1 ≤ bl) :
    MPI_Type_vector env s n bl bl old = MPI_Type_contiguous env s (n * bl) old ∧
    MPI_Type_hvector env s n bl (u64 (bl * extent (sz env.cfg) τ)) old = MPI_Type_contiguous env s (n * bl) old := by
  obtain ⟨t, ht, hD, _⟩ := ho
  obtain ⟨M, lst, hi⟩ := hr.inv
  have hm : 1 ≤ n * bl := by have := Int.mul_le_mul hn hb (by decide) (by omega); omega
  have hv := fun g => row_join hc g hD (bl := bl) (by omega) (n.toNat - 1) []
  have h1 := fun g => row_join hc g hD (bl := 1) (by omega) ((n * bl).toNat - 1) []
  rw [show n.toNat - 1 + 1 = n.toNat by omega] at hv
  rw [show (n * bl).toNat - 1 + 1 = (n * bl).toNat by omega] at h1
  simp only [List.append_nil, List.map_map, Function.comp_def, Int.toNat_of_nonneg (show 0 ≤ n by omega),
    Int.toNat_of_nonneg (show 0 ≤ n * bl by omega), Int.one_mul, Int.mul_one] at hv h1
  have key : ∀ g, Type_struct env.cfg g (((List.range n.toNat).map fun (i : Nat) => (bl, bl * extent (sz env.cfg) τ * i, t)).map mkBlock) =
      Type_contiguous env.cfg g (n * bl) t := by
    intro g
    rw [contiguous_eq (by omega) (hD.extent hc)]
    simp only [List.map_map, Function.comp_def]
    rw [hv, h1]
  constructor
  · unfold MPI_Type_vector MPI_Type_contiguous
    rw [hi.typeOf ht, Res.ok_bind, Res.ok_bind]
    simp only [vector_eq (show 0 ≤ n by omega) (hD.extent hc), key]
  · unfold MPI_Type_hvector MPI_Type_contiguous
    rw [hi.typeOf ht, Res.ok_bind, Res.ok_bind]
    simp only [hvector_eq (show 0 ≤ n by omega) (hD.extent hc), key]

/-- An MPI_Type_struct call whose handles (third component) stand for datatypes or markers. -/
theorem struct_call (hr : Reach env s L) (xs : List (Int × Int × Int)) (hx : ∀ x ∈ xs, ∃ c, StandsFor env.cfg L x.2.2 c) :
    MPI_Type_struct env s xs.length (xs.map fun x => x.1) (xs.map fun x => u64 x.2.1) (xs.map fun x => x.2.2) =
      newType env s fun g => Type_struct env.cfg g
        (xs.map fun x => ⟨x.1, u64 x.2.1, (L.desc env.cfg x.2.2).getD (static1 0 12)⟩) := by
  obtain ⟨M, lst, hi⟩ := hr.inv
  have hcall := TypeCall.struct (env := env) (L := L) (s := s) (blocklens := xs.map fun x => x.1)
    (disps := xs.map fun x => u64 x.2.1) (olds := xs.map fun x => x.2.2)
    (ts := xs.map fun x => (L.desc env.cfg x.2.2).getD (static1 0 12))
    (by simp) (by simp) (by simp)
    (by
      intro i h t h1 h2
      rw [List.getElem?_map] at h1 h2
      cases h3 : xs[i]? with
      | none => rw [h3] at h2; cases h2
      | some x =>
        rw [h3] at h1 h2
        cases h1
        cases h2
        obtain ⟨c, t, ht, _⟩ := hx x (List.mem_of_getElem? h3)
        simp only [ht, Option.getD_some])
  have e : ((xs.map fun x => x.1).zip ((xs.map fun x => u64 x.2.1).zip (xs.map fun x => (L.desc env.cfg x.2.2).getD (static1 0 12)))).map
      (fun x => (⟨x.1, x.2.1, x.2.2⟩ : Block)) = xs.map fun x => ⟨x.1, u64 x.2.1, (L.desc env.cfg x.2.2).getD (static1 0 12)⟩ := by
    clear hcall hx
    induction xs with
    | nil => rfl
    | cons x xs ih => simp only [List.map_cons, List.zip_cons_cons, ih]
  rw [e] at hcall
  have := hcall.eq hi
  rw [List.length_map] at this
  exact this

/-- C95, structs: the same, among blocks of any datatypes and markers. -/
theorem C95_struct (hr : Reach env s L) (hc : env.cfg.Ok) (ho : StandsFor env.cfg L old (.data τ)) (ha : 0 ≤ a) (hb : 0 ≤ b)
    (l₁ l₂ : List (Int × Int × Int)) (hl : ∀ x ∈ l₁, 0 ≤ x.1) (hl₁ : ∀ x ∈ l₁, ∃ c, StandsFor env.cfg L x.2.2 c)
    (hl₂ : ∀ x ∈ l₂, ∃ c, StandsFor env.cfg L x.2.2 c) {one two : List (Int × Int × Int)} (h1 : one = l₁ ++ (a + b, d, old) :: l₂)
    (h2 : two = l₁ ++ (a, d, old) :: (b, d + a * extent (sz env.cfg) τ, old) :: l₂) :
    MPI_Type_struct env s one.length (one.map fun x => x.1) (one.map fun x => u64 x.2.1) (one.map fun x => x.2.2) =
      MPI_Type_struct env s two.length (two.map fun x => x.1) (two.map fun x => u64 x.2.1) (two.map fun x => x.2.2) := by
  have hall : ∀ x ∈ two, ∃ c, StandsFor env.cfg L x.2.2 c := by
    subst h2
    intro x hx
    simp only [List.mem_append, List.mem_cons] at hx
    rcases hx with hx | rfl | rfl | hx
    · exact hl₁ x hx
    · exact ⟨_, ho⟩
    · exact ⟨_, ho⟩
    · exact hl₂ x hx
  have hall' : ∀ x ∈ one, ∃ c, StandsFor env.cfg L x.2.2 c := by
    subst h1
    intro x hx
    simp only [List.mem_append, List.mem_cons] at hx
    rcases hx with hx | rfl | hx
    · exact hl₁ x hx
    · exact ⟨_, ho⟩
    · exact hl₂ x hx
  rw [struct_call hr one hall', struct_call hr two hall]
  obtain ⟨t, ht, h, _⟩ := ho
  obtain ⟨p, hp, hk, hcnt⟩ := h.first hc
  subst h1 h2
  simp only [List.map_append, List.map_cons, ht, Option.getD_some]
  congr 1
  funext g
  rw [Type_struct_join g (h.extent hc) hcnt ha hb hp hk]
  · have : u64 (u64 d + a * u64 (extent (sz env.cfg) τ)) = u64 (d + a * extent (sz env.cfg) τ) := by
      have h1 := u64_mul_right a (extent (sz env.cfg) τ)
      unfold u64 at h1 ⊢
      omega
    rw [this]
  · intro x hx
    obtain ⟨y, hy, rfl⟩ := List.mem_map.1 hx
    refine ⟨hl y hy, ?_⟩
    obtain ⟨c, t', ht', hD, _⟩ := hl₁ y hy
    simp only [ht', Option.getD_some]
    cases c with
    | lb => cases hD; decide
    | ub => cases hD; decide
    | data τ' => rw [(hD.dataDesc hc).2.2]; omega

end

/-- C95_struct: a character, 5 MPI_INTs at byte 8, an upper bound at 32. -/
example : MPI_Type_struct env0 CL.s 3 [1, 5, 1] [0, 8, 32] [-1, -3, -15] =
    MPI_Type_struct env0 CL.s 4 [1, 2, 3, 1] [0, 8, 16, 32] [-1, -3, -3, -15] := by
  have hu : StandsFor {} CL.L (-15) .ub := ⟨static1 0 13, rfl, .ub, fun h => by cases h⟩
  exact C95_struct (env := env0) (a := 2) (b := 3) (d := 8) (τ := plain [(0, 2)]) CL_ok cfg_default_ok (int_represents _) (by decide) (by decide)
    [(1, 0, -1)] [(1, 32, -15)] (by decide) (fun x hx => by cases List.mem_singleton.1 hx; exact ⟨_, char_standsFor _⟩)
    (fun x hx => by cases List.mem_singleton.1 hx; exact ⟨_, hu⟩)
    (one := [(1, 0, -1), (5, 8, -3), (1, 32, -15)]) (two := [(1, 0, -1), (2, 8, -3), (3, 16, -3), (1, 32, -15)]) rfl (by decide +kernel)

/-- C95_vector: 3 blocks of 2 MPI_INTs, 2 items (8 bytes) apart, are 6 MPI_INTs. -/
example : MPI_Type_vector env0 CL.s 3 2 2 (-3) = MPI_Type_contiguous env0 CL.s 6 (-3) ∧
    MPI_Type_hvector env0 CL.s 3 2 8 (-3) = MPI_Type_contiguous env0 CL.s 6 (-3) :=
  C95_vector (env := env0) (n := 3) (bl := 2) (τ := plain [(0, 2)]) CL_ok cfg_default_ok (int_represents _) (by decide) (by decide)

/-- C95_hindexed, C95_indexed: 5 MPI_INTs at byte 8 are 2 at byte 8 and 3 at byte 16; the calls succeed. -/
example : (∃ x, MPI_Type_hindexed env0 CL.s 2 [1, 5] [0, 8] (-3) = .ok x) ∧
    MPI_Type_hindexed env0 CL.s 2 [1, 5] [0, 8] (-3) = MPI_Type_hindexed env0 CL.s 3 [1, 2, 3] [0, 8, 16] (-3) ∧
    MPI_Type_indexed env0 CL.s 2 [1, 5] [0, 2] (-3) = MPI_Type_indexed env0 CL.s 3 [1, 2, 3] [0, 2, 4] (-3) := by
  have hi : StandsFor {} CL.L (-3) (.data (plain [(0, 2)])) := int_represents _
  refine ⟨?_, C95_hindexed (env := env0) (a := 2) (b := 3) (d := 8) CL_ok cfg_default_ok hi (by decide) (by decide) [(1, 0)] []
    (by decide) (one := [(1, 0), (5, 8)]) (two := [(1, 0), (2, 8), (3, 16)]) rfl (by decide +kernel),
    C95_indexed (env := env0) (a := 2) (b := 3) (d := 2) CL_ok cfg_default_ok hi (by decide) (by decide) [(1, 0)] []
    (by decide) (one := [(1, 0), (5, 2)]) (two := [(1, 0), (2, 2), (3, 4)]) rfl rfl⟩
  have hlen : CL.L.objs.length = 1 := by decide +kernel
  obtain ⟨s1, a, _, e1, _⟩ := C59_built_partial CL_ok cfg_default_ok (by omega) rfl rfl
    (TypeBuild.hindexed [(1, 0), (5, 8)] hi (by decide)
      ⟨by decide, by decide, by decide, by decide, by decide, by decide, fun b hb τ _ _ => by
        simp at hb; rcases hb with rfl | rfl <;> simp⟩)
  exact ⟨_, e1⟩

end MpiSerial
