import Verif.Props.TypesBounds

/-!
# Exact behaviour of the type constructors where C25 fails
-/

set_option linter.unusedSimpArgs false
set_option autoImplicit false

namespace MpiSerial

/-- No component of the call is a marker or has explicit bounds. -/
def Unmarked (xs : List (Int × Int × Typestruct × Spec.Comp)) : Prop :=
  ∀ x ∈ xs, ∃ τ, x.2.2.2 = .data τ ∧ τ.lbMark = none ∧ τ.ubMark = none

theorem unmarked_call {cfg : Cfg} (hc : cfg.Ok) (g : Garbage)
    {xs : List (Int × Int × Typestruct × Spec.Comp)}
    (hx : ∀ x ∈ xs, Describes cfg x.2.2.1 x.2.2.2) (hu : Unmarked xs) (hn : ∀ x ∈ xs, 0 ≤ x.1)
    (hd : ∀ x ∈ xs, -9223372036854775808 ≤ x.2.1 ∧ x.2.1 ≤ 9223372036854775807)
    (hcount : ((Spec.struct (sz cfg) (specBlocks xs)).map.length : Int) ≤ 2147483647)
    (hdisp : ∀ y ∈ (Spec.struct (sz cfg) (specBlocks xs)).map,
      -2147483648 ≤ y.1 ∧ y.1 ≤ 2147483647) :
    ∃ (E : List Pair) (l u : Int),
      Type_struct cfg g (callBlocks xs) = .ok { count := E.length, ub := u, lb := l, committed := 0, o_lb := g.o_lb, o_ub := g.o_ub, pairs := E ++ [g.pair E.length] } ∧
      E.map (fun p => (p.disp, p.type)) = (Spec.struct (sz cfg) (specBlocks xs)).map ∧
      (∀ p ∈ E, hasLen cfg p.type) ∧ (∀ p ∈ E, -2147483648 ≤ p.disp ∧ p.disp ≤ 2147483647) ∧
      calc_lb ⟨E.length, 0, 0, 0, g.o_lb, g.o_ub, E ++ [g.pair E.length]⟩ = .ok l ∧
      calc_ub cfg ⟨E.length, 0, 0, 0, g.o_lb, g.o_ub, E ++ [g.pair E.length]⟩ = .ok u := by
  have hm : ∀ x ∈ xs, Meaning cfg x.2.2.1 x.2.2.2 := fun x hxx => (hx x hxx).meaning hc
  have hb : (callBlocks xs).map absB = specBlocks xs := by
    unfold callBlocks specBlocks
    rw [List.map_map]
    apply List.map_congr_left
    intro x hx
    exact (hm x hx).absB _ _ (hd x hx)
  have hmem : ∀ b ∈ callBlocks xs, ∃ x ∈ xs, mkBlock (x.1, x.2.1, x.2.2.1) = b := by
    intro b hb; exact List.mem_map.1 hb
  have hE := entries_eq cfg (callBlocks xs)
  rw [hb] at hE
  have hlen : ((callBlocks xs).flatMap (blockEntries (extOf cfg))).length
      = (Spec.struct (lenOf cfg) (specBlocks xs)).map.length := by
    have := congrArg List.length hE
    simpa using this
  have heq := Type_struct_eq cfg g (extOf cfg) (callBlocks xs)
    (by intro b hb; obtain ⟨x, hx, rfl⟩ := hmem b hb; exact (hm x hx).goodComp.wf)
    (by intro b hb _; obtain ⟨x, hx, rfl⟩ := hmem b hb; exact hn x hx)
    (by
      intro b hb hdt _
      obtain ⟨x, hx, rfl⟩ := hmem b hb
      exact Type_extent_good hc ((hm x hx).goodComp.good hdt))
    (by rw [hlen]; exact hcount)
  have hEl : ∀ p ∈ (callBlocks xs).flatMap (blockEntries (extOf cfg)), hasLen cfg p.type := by
    intro p hp
    obtain ⟨b, hb, hdt, q, hq, hqt⟩ := mem_entries_kind hp
    obtain ⟨x, hx, rfl⟩ := hmem b hb
    rw [← hqt]
    exact ((hm x hx).goodComp.good hdt).lens q hq
  have hid : (Spec.struct (lenOf cfg) (specBlocks xs)).map.map (fun x => (s64 x.1, x.2))
      = (Spec.struct (lenOf cfg) (specBlocks xs)).map := by
    conv => rhs; rw [← List.map_id (Spec.struct (lenOf cfg) (specBlocks xs)).map]
    apply List.map_congr_left
    intro x hx
    have := hdisp x hx
    rw [s64_of_range (by omega) (by omega)]; rfl
  rw [hid] at hE
  have hEd : ∀ p ∈ (callBlocks xs).flatMap (blockEntries (extOf cfg)),
      -2147483648 ≤ p.disp ∧ p.disp ≤ 2147483647 := by
    intro p hp
    have : (p.disp, p.type) ∈ (Spec.struct (lenOf cfg) (specBlocks xs)).map := by
      rw [← hE]; exact List.mem_map.2 ⟨p, hp, rfl⟩
    exact hdisp _ this
  have hno : ∀ b ∈ callBlocks xs, b.isData ∧ b.ty.o_lb = 0 ∧ b.ty.o_ub = 0 := by
    intro b hb
    obtain ⟨x, hxx, rfl⟩ := hmem b hb
    obtain ⟨τ, h1, h2, h3⟩ := hu x hxx
    have h4 := hm x hxx
    rw [h1] at h4
    obtain ⟨h4, rfl⟩ := h4
    refine ⟨h4.k0 _ rfl, ?_, ?_⟩
    · show x.2.2.1.o_lb = 0
      unfold absT at h2
      simpa using h2
    · show x.2.2.1.o_ub = 0
      unfold absT at h3
      simpa using h3
  have hA : anyLower (callBlocks xs) = false := by
    unfold anyLower
    rw [List.any_eq_false]
    intro b hb
    obtain ⟨h1, h2, h3⟩ := hno b hb
    unfold Block.isData at h1
    simp [h2, h1.1]
  have hU : anyUpper (callBlocks xs) = false := by
    unfold anyUpper
    rw [List.any_eq_false]
    intro b hb
    obtain ⟨h1, h2, h3⟩ := hno b hb
    unfold Block.isData at h1
    simp [h3, h1.2]
  generalize (callBlocks xs).flatMap (blockEntries (extOf cfg)) = E at *
  have hwf := structTemp_wf g (callBlocks xs) E
  have hmap := structTemp_map g (callBlocks xs) E
  obtain ⟨l, hl⟩ : ∃ l, calc_lb (structTemp g (callBlocks xs) E) = .ok l := ⟨_, calc_lb_wf hwf⟩
  obtain ⟨u, hu⟩ : ∃ u, calc_ub cfg (structTemp g (callBlocks xs) E) = .ok u := by
    unfold calc_ub
    rw [calcUbLoop_eq cfg _ _ _ _ (by have := hwf.fits; omega)
      (by rw [List.drop_zero]; change ∀ p ∈ (structTemp g (callBlocks xs) E).map, _; rw [hmap]; exact hEl)
      (by
        rw [List.drop_zero]
        change ∀ p ∈ (structTemp g (callBlocks xs) E).map, _
        rw [hmap]
        intro p hp
        have := hEd p hp
        have := lenOf_range hc (hEl p hp)
        omega)]
    exact ⟨_, rfl⟩
  refine ⟨E, l, u, ?_, hE, hEl, hEd, ?_, ?_⟩
  · rw [heq]
    simp only [hA, hU, if_false, Bool.false_eq_true, hl, hu, Res.ok_bind, Res.pure_eq]
    simp [structTemp, hA, hU]
  · rw [← hl]; simp [structTemp, hA, hU]
  · rw [← hu]; simp [structTemp, hA, hU]

/-- C25, the exact behaviour for a type without any data entry, whatever the call: its lower bound is INT_MAX, its upper
bound INT_MIN and its extent -2^32 (one more if the memory of the descriptor did not read as zero) - for every call of
MPI_Type_struct with zero elements in total; the standard has 0 for all three. -/
theorem C25_empty_exact {cfg : Cfg} (hc : cfg.Ok) (g : Garbage)
    {xs : List (Int × Int × Typestruct × Spec.Comp)}
    (hx : ∀ x ∈ xs, Describes cfg x.2.2.1 x.2.2.2) (hu : Unmarked xs) (hn : ∀ x ∈ xs, 0 ≤ x.1)
    (hd : ∀ x ∈ xs, -9223372036854775808 ≤ x.2.1 ∧ x.2.1 ≤ 9223372036854775807)
    (hempty : (Spec.struct (sz cfg) (specBlocks xs)).map = []) :
    ∃ t, Type_struct cfg g (callBlocks xs) = .ok t ∧ typeMap t = [] ∧
      Type_lb t = 2147483647 ∧ Type_ub t = u64 (-2147483648) ∧
      Type_extent cfg t = .ok (u64 (if g.o_lb = 0 ∧ g.o_ub = 0 then -4294967296 else -4294967295)) := by
  obtain ⟨E, l, u, h1, h2, -, -, h5, h6⟩ := unmarked_call hc g hx hu hn hd (by rw [hempty]; decide) (by rw [hempty]; simp)
  rw [hempty, List.map_eq_nil_iff] at h2
  subst h2
  refine ⟨_, h1, rfl, ?_, ?_, ?_⟩
  · cases h5; rfl
  · cases h6; rfl
  · cases h5; cases h6
    unfold Type_extent
    dsimp only
    by_cases hg : g.o_lb = 0 ∧ g.o_ub = 0
    · rw [if_pos hg, if_pos hg]
      rfl
    · rw [if_neg hg, if_neg hg]
      rfl

/-- C25, the exact behaviour when the memory of the descriptor does not read as zero: no trailing padding; so the extent is
right exactly when none is needed. -/
theorem C25_uninitialised_exact {cfg : Cfg} (hc : cfg.Ok) {g : Garbage} (hg : ¬ (g.o_lb = 0 ∧ g.o_ub = 0))
    {xs : List (Int × Int × Typestruct × Spec.Comp)}
    (hx : ∀ x ∈ xs, Describes cfg x.2.2.1 x.2.2.2) (hu : Unmarked xs) (hn : ∀ x ∈ xs, 0 ≤ x.1)
    (hd : ∀ x ∈ xs, -9223372036854775808 ≤ x.2.1 ∧ x.2.1 ≤ 9223372036854775807)
    (hne : (Spec.struct (sz cfg) (specBlocks xs)).map ≠ [])
    (hcount : ((Spec.struct (sz cfg) (specBlocks xs)).map.length : Int) ≤ 2147483647)
    (hdisp : ∀ y ∈ (Spec.struct (sz cfg) (specBlocks xs)).map,
      -2147483648 ≤ y.1 ∧ y.1 ≤ 2147483647) :
    ∃ t l u, Type_struct cfg g (callBlocks xs) = .ok t ∧ typeMap t = (Spec.struct (sz cfg) (specBlocks xs)).map ∧
      Least ((typeMap t).map fun y => y.1) l ∧ Greatest ((typeMap t).map fun y => y.1 + sz cfg y.2) u ∧
      Type_lb t = u64 l ∧ Type_ub t = u64 u ∧ Type_extent cfg t = .ok (u64 (u - l)) ∧
      ∀ a, Greatest ((typeMap t).map fun y => sz cfg y.2) a →
        ((∃ e, Type_extent cfg t = .ok (u64 e) ∧ LeastMultiple a (u - l) e) ↔ a ∣ u - l) := by
  obtain ⟨E, l, u, h1, h2, h3, h4, h5, h6⟩ := unmarked_call hc g hx hu hn hd hcount hdisp
  have hEne : E ≠ [] := by rintro rfl; exact hne h2.symm
  have hwf : Typestruct.WF ⟨E.length, 0, 0, 0, g.o_lb, g.o_ub, E ++ [g.pair E.length]⟩ :=
    ⟨by simp, by simp, by simp⟩
  have hmap : ∀ a b c d e, Typestruct.map ⟨E.length, a, b, c, d, e, E ++ [g.pair E.length]⟩ = E := by
    intros; simp [Typestruct.map]
  have hl := calc_lb_min hwf (by rw [hmap]; exact hEne) (by rw [hmap]; exact h4)
  have hub := calc_ub_max hc hwf (by rw [hmap]; exact hEne) (by rw [hmap]; exact h3) (by rw [hmap]; exact h4)
  rw [hmap] at hl hub
  rw [h5] at hl
  rw [h6] at hub
  obtain ⟨ml, hml⟩ := min?_some_of_ne (l := E.map fun p => p.disp) (by simpa using hEne)
  obtain ⟨mu, hmu⟩ := max?_some_of_ne (l := E.map fun p => p.disp + lenOf cfg p.type) (by simpa using hEne)
  rw [hml, Option.getD_some] at hl
  rw [hmu, Option.getD_some] at hub
  cases hl; cases hub
  rw [min?_spec] at hml
  rw [max?_spec] at hmu
  have hty : typeMap ⟨E.length, u, l, 0, g.o_lb, g.o_ub, E ++ [g.pair E.length]⟩ = E.map fun p => (p.disp, p.type) := by
    rw [← absT_map]; unfold absT; simp [hmap]
  have hll : Least ((E.map fun p => (p.disp, p.type)).map fun y => y.1) l := by
    rw [List.map_map]; exact hml
  have huu : Greatest ((E.map fun p => (p.disp, p.type)).map fun y => y.1 + sz cfg y.2) u := by
    rw [List.map_map]; exact hmu
  have hlr : -2147483648 ≤ l ∧ l ≤ 2147483647 := by
    obtain ⟨p, hp, rfl⟩ := List.mem_map.1 hml.1; exact h4 p hp
  have hur : -2147483648 ≤ u ∧ u ≤ 2147483647 + 128 := by
    obtain ⟨p, hp, rfl⟩ := List.mem_map.1 hmu.1
    have := h4 p hp; have := lenOf_range hc (h3 p hp); omega
  have hlu : l ≤ u := by
    obtain ⟨p, hp⟩ := List.exists_mem_of_ne_nil E hEne
    have := hml.2 _ (List.mem_map.2 ⟨p, hp, rfl⟩)
    have := hmu.2 _ (List.mem_map.2 ⟨p, hp, rfl⟩)
    have := lenOf_range hc (h3 p hp)
    omega
  have hext : Type_extent cfg ⟨E.length, u, l, 0, g.o_lb, g.o_ub, E ++ [g.pair E.length]⟩ = .ok (u64 (u - l)) := by
    unfold Type_extent
    rw [if_neg hg, ck64_ok (by dsimp only; omega) (by dsimp only; omega)]
    rfl
  refine ⟨_, l, u, h1, by rw [hty, h2], by rw [hty]; exact hll, by rw [hty]; exact huu, rfl, rfl, hext, ?_⟩
  intro a ha
  rw [hty] at ha
  have har : 1 ≤ a ∧ a ≤ 128 := by
    obtain ⟨y, hy, rfl⟩ := List.mem_map.1 ha.1
    obtain ⟨p, hp, rfl⟩ := List.mem_map.1 hy
    exact lenOf_range hc (h3 p hp)
  rw [hext]
  constructor
  · rintro ⟨e, he, hm1, hm2, hm3⟩
    have h7 := roundUp_leastMultiple (x := u - l) (a := a) har.1
    have h8 := roundUp_range (u - l) a har.1
    have h9 := hm3 _ h7.1 h7.2.1
    obtain rfl : e = u - l := by
      have : u64 (u - l) = u64 e := by simpa using he
      unfold u64 at this
      omega
    exact hm1
  · intro hdvd
    exact ⟨u - l, rfl, hdvd, Int.le_refl _, fun k _ hk => hk⟩

/-- C28, the exact behaviour for blocks without elements of types with explicit bounds (`MPI_Type_vector` and the like
with a block length of 0): the lower bound is LONG_MAX if some type has an explicit lower bound, the upper bound LONG_MIN
if some type has an explicit upper bound - no displacement of the call plays a part. -/
theorem C28_zero_exact {cfg : Cfg} (hc : cfg.Ok) (g : Garbage)
    {xs : List (Int × Int × Typestruct × Spec.Comp)}
    (hx : ∀ x ∈ xs, Describes cfg x.2.2.1 x.2.2.2) (hz : ∀ x ∈ xs, x.1 = 0 ∧ ∃ τ, x.2.2.2 = .data τ) :
    ∃ t, Type_struct cfg g (callBlocks xs) = .ok t ∧ typeMap t = [] ∧
      ((∃ x ∈ xs, ∃ τ, x.2.2.2 = .data τ ∧ τ.lbMark ≠ none) → Type_lb t = 9223372036854775807) ∧
      ((¬ ∃ x ∈ xs, ∃ τ, x.2.2.2 = .data τ ∧ τ.lbMark ≠ none) → Type_lb t = 2147483647) ∧
      ((∃ x ∈ xs, ∃ τ, x.2.2.2 = .data τ ∧ τ.ubMark ≠ none) → Type_ub t = u64 (-9223372036854775808)) ∧
      ((¬ ∃ x ∈ xs, ∃ τ, x.2.2.2 = .data τ ∧ τ.ubMark ≠ none) → Type_ub t = u64 (-2147483648)) := by
  have hm : ∀ x ∈ xs, Meaning cfg x.2.2.1 x.2.2.2 := fun x hxx => (hx x hxx).meaning hc
  have hmem : ∀ b ∈ callBlocks xs, ∃ x ∈ xs, mkBlock (x.1, x.2.1, x.2.2.1) = b := by
    intro b hb; exact List.mem_map.1 hb
  have hdat : ∀ b ∈ callBlocks xs, b.isData ∧ b.len = 0 := by
    intro b hb
    obtain ⟨x, hxx, rfl⟩ := hmem b hb
    obtain ⟨h0, τ, h1⟩ := hz x hxx
    have h4 := hm x hxx
    rw [h1] at h4
    exact ⟨h4.1.k0 _ rfl, h0⟩
  have hE : (callBlocks xs).flatMap (blockEntries (extOf cfg)) = [] := by
    rw [List.flatMap_eq_nil_iff]
    intro b hb
    unfold blockEntries
    rw [(hdat b hb).2]
    split
    · exact repEntries_zero ..
    · rfl
  have hL : (callBlocks xs).flatMap (blockLbs (extOf cfg)) = [] := by
    rw [List.flatMap_eq_nil_iff]
    intro b hb
    unfold blockLbs
    rw [(hdat b hb).2]
    split
    · simp [repLbs, repUbs]
    · rfl
  have hU : (callBlocks xs).flatMap (blockUbs (extOf cfg)) = [] := by
    rw [List.flatMap_eq_nil_iff]
    intro b hb
    unfold blockUbs
    rw [(hdat b hb).2]
    split
    · simp [repLbs, repUbs]
    · rfl
  have hLm : lbMarks (callBlocks xs) = [] := by
    unfold lbMarks
    rw [List.map_eq_nil_iff, List.filter_eq_nil_iff]
    intro b hb
    have := (hdat b hb).1
    unfold Block.isData at this
    simp [this.1]
  have hUm : ubMarks (callBlocks xs) = [] := by
    unfold ubMarks
    rw [List.map_eq_nil_iff, List.filter_eq_nil_iff]
    intro b hb
    have := (hdat b hb).1
    unfold Block.isData at this
    simp [this.2]
  have heq := Type_struct_eq cfg g (extOf cfg) (callBlocks xs)
    (by intro b hb; obtain ⟨x, hx, rfl⟩ := hmem b hb; exact (hm x hx).goodComp.wf)
    (by intro b hb _; rw [(hdat b hb).2]; exact Int.le_refl _)
    (by
      intro b hb hdt h0
      rw [(hdat b hb).2] at h0
      exact absurd rfl h0)
    (by rw [hE]; decide)
  have hmark : ∀ x ∈ xs, ∀ τ, x.2.2.2 = .data τ →
      ((τ.lbMark ≠ none ↔ x.2.2.1.o_lb ≠ 0) ∧ (τ.ubMark ≠ none ↔ x.2.2.1.o_ub ≠ 0)) := by
    intro x hxx τ h1
    have h4 := hm x hxx
    rw [h1] at h4
    obtain ⟨-, rfl⟩ := h4
    unfold absT
    constructor <;> simp
  have hA : anyLower (callBlocks xs) = true ↔ ∃ x ∈ xs, ∃ τ, x.2.2.2 = .data τ ∧ τ.lbMark ≠ none := by
    unfold anyLower
    rw [List.any_eq_true]
    constructor
    · rintro ⟨b, hb, h⟩
      have hd := (hdat b hb).1
      obtain ⟨x, hxx, rfl⟩ := hmem b hb
      obtain ⟨-, τ, h1⟩ := hz x hxx
      refine ⟨x, hxx, τ, h1, (hmark x hxx τ h1).1.2 ?_⟩
      have hk := hd
      unfold Block.isData at hk
      simp [hk.1, hd] at h
      exact h
    · rintro ⟨x, hxx, τ, h1, h2⟩
      have hb : mkBlock (x.1, x.2.1, x.2.2.1) ∈ callBlocks xs := List.mem_map.2 ⟨x, hxx, rfl⟩
      refine ⟨_, hb, ?_⟩
      have h3 := (hmark x hxx τ h1).1.1 h2
      have := (hdat _ hb).1
      simp [this]
      exact Or.inr h3
  have hB : anyUpper (callBlocks xs) = true ↔ ∃ x ∈ xs, ∃ τ, x.2.2.2 = .data τ ∧ τ.ubMark ≠ none := by
    unfold anyUpper
    rw [List.any_eq_true]
    constructor
    · rintro ⟨b, hb, h⟩
      have hd := (hdat b hb).1
      obtain ⟨x, hxx, rfl⟩ := hmem b hb
      obtain ⟨-, τ, h1⟩ := hz x hxx
      refine ⟨x, hxx, τ, h1, (hmark x hxx τ h1).2.2 ?_⟩
      have hk := hd
      unfold Block.isData at hk
      simp [hk.2, hd] at h
      exact h
    · rintro ⟨x, hxx, τ, h1, h2⟩
      have hb : mkBlock (x.1, x.2.1, x.2.2.1) ∈ callBlocks xs := List.mem_map.2 ⟨x, hxx, rfl⟩
      refine ⟨_, hb, ?_⟩
      have h3 := (hmark x hxx τ h1).2.1 h2
      have := (hdat _ hb).1
      simp [this]
      exact Or.inr h3
  rw [heq, hE, hL, hU, hLm, hUm]
  have c1 : calc_lb (structTemp g (callBlocks xs) []) = .ok 2147483647 := rfl
  have c2 : calc_ub cfg (structTemp g (callBlocks xs) []) = .ok (-2147483648) := rfl
  simp only [← hA, ← hB]
  cases h1 : anyLower (callBlocks xs) <;> cases h2 : anyUpper (callBlocks xs) <;>
    simp only [if_true, if_false, Bool.false_eq_true, c1, c2, Res.ok_bind, Res.pure_eq] <;>
    exact ⟨_, rfl, rfl, by simp <;> rfl, by simp <;> rfl, by simp <;> rfl, by simp <;> rfl⟩

/-! ## Instances -/

theorem int_described : Describes {} (static1 4 2) (.data (Spec.plain [(0, 2)])) :=
  .basic (t := static1 4 2) ⟨by decide, by decide, by decide⟩
theorem char_described : Describes {} (static1 1 0) (.data (Spec.plain [(0, 0)])) :=
  .basic (t := static1 1 0) ⟨by decide, by decide, by decide⟩

/-- `{int at 0, char at 4}` with `o_lb` reading as 1: extent 5, and 4 does not divide 5. -/
example : ∃ t, Type_struct {} ⟨1, 0, fun _ => ⟨0, 0⟩⟩ (callBlocks [(1, 0, static1 4 2, .data (Spec.plain [(0, 2)])),
      (1, 4, static1 1 0, .data (Spec.plain [(0, 0)]))]) = .ok t ∧ Type_extent {} t = .ok 5 := by
  obtain ⟨t, l, u, h1, h2, hl, hu, h5, h6, h7, -⟩ := C25_uninitialised_exact cfg_default_ok
    (g := ⟨1, 0, fun _ => ⟨0, 0⟩⟩) (by decide)
    (xs := [(1, 0, static1 4 2, .data (Spec.plain [(0, 2)])), (1, 4, static1 1 0, .data (Spec.plain [(0, 0)]))])
    (by simp only [List.mem_cons, List.not_mem_nil, or_false, forall_eq_or_imp, forall_eq]
        exact ⟨int_described, char_described⟩)
    (by simp only [Unmarked, List.mem_cons, List.not_mem_nil, or_false, forall_eq_or_imp, forall_eq]
        exact ⟨⟨_, rfl, rfl, rfl⟩, ⟨_, rfl, rfl, rfl⟩⟩)
    (by decide) (by decide) (by decide) (by decide) (by decide)
  have e : typeMap t = [(0, 2), (4, 0)] := by rw [h2]; decide
  rw [e] at hl hu
  obtain rfl : l = 0 := by
    have h := hl.2 0 (by decide)
    have := hl.1
    simp at this
    omega
  obtain rfl : u = 5 := by
    have h := hu.2 5 (by decide)
    have := hu.1
    simp [sz, lenOf, Simpletype_length] at this
    omega
  exact ⟨t, h1, h7⟩

/-- One block of no elements. -/
example : ∃ t, Type_struct {} ⟨0, 0, fun _ => ⟨0, 0⟩⟩ (callBlocks [(0, 24, static1 4 2, .data (Spec.plain [(0, 2)]))]) = .ok t ∧
    Type_extent {} t = .ok (u64 (-4294967296)) := by
  obtain ⟨t, h1, h2, h3, h4, h5⟩ := C25_empty_exact cfg_default_ok ⟨0, 0, fun _ => ⟨0, 0⟩⟩
    (xs := [(0, 24, static1 4 2, .data (Spec.plain [(0, 2)]))])
    (by simp only [List.mem_cons, List.not_mem_nil, or_false, forall_eq_or_imp, forall_eq]; exact int_described)
    (by simp only [Unmarked, List.mem_cons, List.not_mem_nil, or_false, forall_eq_or_imp, forall_eq]; exact ⟨_, rfl, rfl, rfl⟩)
    (by decide) (by decide) (by decide)
  exact ⟨t, h1, h5⟩

/-- A vector of no elements of `{MPI_LB at 0, int at 0}`. -/
example : ∃ t v, Type_struct {} ⟨0, 0, fun _ => ⟨0, 0⟩⟩ [⟨1, 0, static1 4 2⟩, ⟨1, 0, static1 0 12⟩] = .ok t ∧
    Type_struct {} ⟨0, 0, fun _ => ⟨0, 0⟩⟩ [⟨0, 0, t⟩] = .ok v ∧ Type_lb v = 9223372036854775807 := by
  have ht : Describes {} ⟨1, 4, 0, 0, 1, 0, [⟨0, 2⟩, ⟨0, 0⟩]⟩ (.data (Spec.struct (sz {}) (specBlocks
      [(1, 0, static1 4 2, .data (Spec.plain [(0, 2)])), (1, 0, static1 0 12, .lb)]))) :=
    .struct (g := ⟨0, 0, fun _ => ⟨0, 0⟩⟩)
      (by simp only [List.mem_cons, List.not_mem_nil, or_false, forall_eq_or_imp, forall_eq]; exact ⟨int_described, .lb⟩)
      (by decide) rfl rfl
      ⟨by decide, by decide, by decide, by decide, by decide, by decide, by
        intro b hb τ hτ
        simp [specBlocks] at hb
        rcases hb with rfl | rfl <;> (simp only [] at hτ; cases hτ; try simp [Spec.plain])⟩
      (by decide)
  obtain ⟨v, h1, h2, h3, -⟩ := C28_zero_exact cfg_default_ok ⟨0, 0, fun _ => ⟨0, 0⟩⟩
    (xs := [(0, 0, _, _)])
    (by simp only [List.mem_cons, List.not_mem_nil, or_false, forall_eq_or_imp, forall_eq]; exact ht)
    (by simp only [List.mem_cons, List.not_mem_nil, or_false, forall_eq_or_imp, forall_eq]; exact ⟨trivial, _, rfl⟩)
  exact ⟨_, v, by decide, h1, h3 ⟨_, List.mem_cons_self .., _, rfl, by decide⟩⟩

end MpiSerial
