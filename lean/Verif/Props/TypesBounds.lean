import Verif.Proofs.TypesNest

set_option linter.unusedSimpArgs false

/-!
# C25, C26: bounds and extent of derived datatypes, nested to any depth
-/

namespace MpiSerial

/-- `m` is the least element of `l`. -/
def Least (l : List Int) (m : Int) : Prop := m ∈ l ∧ ∀ y ∈ l, m ≤ y
/-- `m` is the greatest element of `l`. -/
def Greatest (l : List Int) (m : Int) : Prop := m ∈ l ∧ ∀ y ∈ l, y ≤ m

/-- `e` is the least multiple of `a` that covers `span`. -/
def LeastMultiple (a span e : Int) : Prop :=
  a ∣ e ∧ span ≤ e ∧ ∀ k, a ∣ k → span ≤ k → e ≤ k

/-- The inquiry functions report the type map, bounds and extent of the datatype `τ` of the standard (as
`MPI_Aint`: negative values appear modulo 2^64). -/
structure Reports (cfg : Cfg) (t : Typestruct) (τ : Spec.DType) : Prop where
  map : typeMap t = τ.map
  lb : Type_lb t = u64 (Spec.lb τ)
  ub : Type_ub t = u64 (Spec.ub (sz cfg) τ)
  extent : Type_extent cfg t = .ok (u64 (Spec.extent (sz cfg) τ))

theorem Exact.reports {cfg : Cfg} (hc : cfg.Ok) {t : Typestruct} (h : Exact cfg t) {τ : Spec.DType} (ht : absT t = τ) :
    Reports cfg t τ := by
  subst ht
  refine ⟨rfl, ?_, ?_, Type_extent_good hc (h.good hc)⟩
  · unfold Type_lb; rw [← h.lb_ok]
  · unfold Type_ub; rw [h.ub_ok]

theorem roundUp_leastMultiple {x a : Int} (ha : 1 ≤ a) : LeastMultiple a x (Spec.roundUp x a) := by
  have hr := roundUp_range x a ha
  have hd : a ∣ Spec.roundUp x a := by
    unfold Spec.roundUp
    split
    · rename_i h; exact Int.dvd_of_emod_eq_zero h
    · apply Int.dvd_of_emod_eq_zero
      have : x + (a - x % a) = a * (x / a + 1) := by
        have := Int.mul_ediv_add_emod x a
        rw [Int.mul_add]; omega
      rw [this]; exact Int.mul_emod_right ..
  refine ⟨hd, hr.1, fun k hk hx => ?_⟩
  apply Classical.byContradiction
  intro hlt
  obtain ⟨c, hc⟩ := hd
  obtain ⟨d, hd⟩ := hk
  rw [hc] at hlt hr
  rw [hd] at hlt hx
  have h1 : d < c := by
    apply Classical.byContradiction
    intro h
    exact hlt (Int.mul_le_mul_of_nonneg_left (by omega) (by omega))
  have h2 : a * (d + 1) ≤ a * c := Int.mul_le_mul_of_nonneg_left (by omega) (by omega)
  rw [Int.mul_add] at h2
  omega

theorem absT_map (t : Typestruct) : (absT t).map = typeMap t := rfl

theorem lenOf_align {cfg : Cfg} (hc : cfg.Ok) {t : Typestruct} (h : Good cfg t) {a : Int}
    (ha : Greatest ((typeMap t).map fun y => sz cfg y.2) a) :
    1 ≤ a ∧ Spec.align (lenOf cfg) (absT t) = a := by
  have h1 : ((absT t).map.map fun y => lenOf cfg y.2).max? = some a := max?_spec.2 ha
  constructor
  · obtain ⟨y, hy, rfl⟩ := List.mem_map.1 ha.1
    unfold typeMap at hy
    obtain ⟨p, hp, rfl⟩ := List.mem_map.1 hy
    exact (lenOf_range hc (h.lens p hp)).1
  · unfold Spec.align; rw [h1]; rfl

/-- C25 (partial): in every struct built from described components (nested to any depth) whose exact
values are `Small` and with malloc'ed memory reading as zero, the call succeeds, the type map is the
exact one, and without explicit bounds the lower bound is the least displacement, the upper bound
the greatest displacement plus size, and the extent the least multiple of the largest element size
covering their difference.  Missing: types without any data entry and uninitialised memory that does
not read as zero, for which the statement is false (`C25_fails_empty`, `C25_fails_uninitialised`). -/
theorem C25_bounds_partial {cfg : Cfg} (hc : cfg.Ok) {g : Garbage}
    {xs : List (Int × Int × Typestruct × Spec.Comp)}
    (hx : ∀ x ∈ xs, Describes cfg x.2.2.1 x.2.2.2) (hn : ∀ x ∈ xs, 0 ≤ x.1)
    (hgl : g.o_lb = 0) (hgu : g.o_ub = 0) (hs : Small (sz cfg) (specBlocks xs)) :
    ∃ t, Type_struct cfg g (callBlocks xs) = .ok t ∧
      Describes cfg t (.data (Spec.struct (sz cfg) (specBlocks xs))) ∧
      Reports cfg t (Spec.struct (sz cfg) (specBlocks xs)) ∧
      ∃ l u, Type_lb t = u64 l ∧ Type_ub t = u64 u ∧
      ((specBlocks xs).flatMap (Spec.blockLb (sz cfg)) = [] →
        Least ((typeMap t).map fun y => y.1) l) ∧
      ((specBlocks xs).flatMap (Spec.blockUb (sz cfg)) = [] →
        Greatest ((typeMap t).map fun y => y.1 + sz cfg y.2) u) ∧
      ((specBlocks xs).flatMap (Spec.blockLb (sz cfg)) = [] →
        (specBlocks xs).flatMap (Spec.blockUb (sz cfg)) = [] →
        ∀ a, Greatest ((typeMap t).map fun y => sz cfg y.2) a →
          ∃ e, Type_extent cfg t = .ok (u64 e) ∧ LeastMultiple a (u - l) e) := by
  obtain ⟨t, h1, h2, h3, _⟩ := struct_meaning hc (fun x hxx => (hx x hxx).meaning hc) hn hgl hgu hs
  refine ⟨t, h1, .struct hx hn hgl hgu hs h1, h2.reports hc h3, t.lb, t.ub, rfl, rfl, ?_, ?_, ?_⟩
  · intro hlb
    have hm : (absT t).lbMark = none := by rw [h3]; simp [Spec.struct, hlb]
    have := h2.lb_ok
    unfold Spec.lb at this
    rw [hm, Option.getD_none] at this
    obtain ⟨m, hmm⟩ := min?_some_of_ne (l := (absT t).map.map fun e => e.1) (by
      rw [absT_map_map]; simpa using h2.ne)
    rw [hmm, Option.getD_some] at this
    rw [this]
    exact min?_spec.1 hmm
  · intro hub
    have hm : (absT t).ubMark = none := by rw [h3]; simp [Spec.struct, hub]
    have := h2.ub_ok
    unfold Spec.ub at this
    rw [hm, Option.getD_none] at this
    obtain ⟨m, hmm⟩ := max?_some_of_ne (l := (absT t).map.map fun e => e.1 + lenOf cfg e.2) (by
      rw [absT_map_map]; simpa using h2.ne)
    rw [hmm, Option.getD_some] at this
    rw [this]
    exact max?_spec.1 hmm
  · intro hlb hub a ha
    have hm : (absT t).lbMark = none := by rw [h3]; simp [Spec.struct, hlb]
    have hm' : (absT t).ubMark = none := by rw [h3]; simp [Spec.struct, hub]
    obtain ⟨ha1, ha2⟩ := lenOf_align hc (h2.good hc) ha
    refine ⟨extOf cfg t, Type_extent_good hc (h2.good hc), ?_⟩
    unfold extOf Spec.extent
    rw [if_pos ⟨hm, hm'⟩, ← h2.lb_ok, ← h2.ub_ok, ha2]
    exact roundUp_leastMultiple ha1

/-- C25 for the other constructors (partial in the same way): each of them succeeds and builds the
type the standard prescribes, which `C25_bounds_partial` describes because the result is again
`Describes`d. -/
theorem Describes.extent {cfg : Cfg} (hc : cfg.Ok) {t : Typestruct} {τ : Spec.DType}
    (h : Describes cfg t (.data τ)) : Type_extent cfg t = .ok (u64 (Spec.extent (sz cfg) τ)) := by
  obtain ⟨h1, h2⟩ := h.meaning hc
  rw [Type_extent_good hc h1]
  unfold extOf
  rw [h2]

theorem struct_nested {cfg : Cfg} (hc : cfg.Ok) {g : Garbage}
    {t : Typestruct} {τ : Spec.DType} (ht : Describes cfg t (.data τ)) (l : List (Int × Int))
    (hn : ∀ x ∈ l, 0 ≤ x.1) (hgl : g.o_lb = 0) (hgu : g.o_ub = 0)
    (hs : Small (sz cfg) (l.map fun x => (x.1.toNat, x.2, .data τ))) :
    ∃ t', Type_struct cfg g ((l.map fun x => (x.1, x.2, t)).map mkBlock) = .ok t' ∧
      Describes cfg t' (.data (Spec.struct (sz cfg) (l.map fun x => (x.1.toNat, x.2, .data τ)))) ∧
      Reports cfg t' (Spec.struct (sz cfg) (l.map fun x => (x.1.toNat, x.2, .data τ))) := by
  have e1 : specBlocks (l.map fun x => (x.1, x.2, t, Spec.Comp.data τ))
      = l.map fun x => (x.1.toNat, x.2, .data τ) := by
    unfold specBlocks; rw [List.map_map]; rfl
  have e2 : callBlocks (l.map fun x => (x.1, x.2, t, Spec.Comp.data τ))
      = (l.map fun x => (x.1, x.2, t)).map mkBlock := by
    unfold callBlocks; rw [List.map_map, List.map_map]; rfl
  have := C25_bounds_partial hc (g := g) (xs := l.map fun x => (x.1, x.2, t, Spec.Comp.data τ))
    (by intro x hx; obtain ⟨y, _, rfl⟩ := List.mem_map.1 hx; exact ht)
    (by intro x hx; obtain ⟨y, hy, rfl⟩ := List.mem_map.1 hx; exact hn y hy) hgl hgu
    (by rw [e1]; exact hs)
  rw [e1, e2] at this
  obtain ⟨t', h1, h2, h3, _⟩ := this
  exact ⟨t', h1, h2, h3⟩

theorem spec_contiguous_eq (s : Int → Int) (n : Nat) (τ : Spec.DType) :
    Spec.contiguous s n τ
      = Spec.struct s ((List.range n).map fun (i : Nat) => (1, Spec.extent s τ * i, .data τ)) := by
  unfold Spec.contiguous Spec.struct
  have hnil : ∀ (l : List Nat), l.flatMap (fun _ => ([] : List Int)) = [] := by
    intro l; rw [List.flatMap_eq_nil_iff]; intros; rfl
  apply Spec.DType.ext
  · simp only [List.flatMap_cons, List.flatMap_nil, List.append_nil, List.flatMap_map, Spec.blockMap,
      Spec.repeated]
    congr 1
    funext i
    simp [Int.mul_comm]
  · obtain ⟨m, l, u⟩ := τ
    cases l with
    | none =>
      simp [List.flatMap_map, Spec.blockLb, hnil]
    | some l =>
      simp only [List.flatMap_cons, List.flatMap_nil, List.append_nil, List.flatMap_map, Spec.blockLb]
      congr 1
      rw [List.map_eq_flatMap]
      congr 1
      funext i
      simp [Int.mul_comm]
  · obtain ⟨m, l, u⟩ := τ
    cases u with
    | none =>
      simp [List.flatMap_map, Spec.blockUb, hnil]
    | some u =>
      simp only [List.flatMap_cons, List.flatMap_nil, List.append_nil, List.flatMap_map, Spec.blockUb]
      congr 1
      rw [List.map_eq_flatMap]
      congr 1
      funext i
      simp [Int.mul_comm]

theorem C25_contiguous_partial {cfg : Cfg} (hc : cfg.Ok) {g : Garbage} {n : Int} {t : Typestruct}
    {τ : Spec.DType} (ht : Describes cfg t (.data τ)) (hn : 0 ≤ n)
    (hgl : g.o_lb = 0) (hgu : g.o_ub = 0)
    (hs : Small (sz cfg) ((List.range n.toNat).map fun (i : Nat) =>
      (1, Spec.extent (sz cfg) τ * i, .data τ))) :
    ∃ t', Type_contiguous cfg g n t = .ok t' ∧
      Describes cfg t' (.data (Spec.contiguous (sz cfg) n.toNat τ)) ∧
      Reports cfg t' (Spec.contiguous (sz cfg) n.toNat τ) := by
  rw [contiguous_eq hn (ht.extent hc), spec_contiguous_eq]
  have := struct_nested hc (g := g) ht
    ((List.range n.toNat).map fun (i : Nat) => (1, Spec.extent (sz cfg) τ * i))
    (by intro x hx; obtain ⟨y, _, rfl⟩ := List.mem_map.1 hx; simp) hgl hgu
    (by rw [List.map_map]; exact hs)
  rw [List.map_map, List.map_map, List.map_map] at this
  rw [List.map_map]
  exact this

theorem C25_hvector_partial {cfg : Cfg} (hc : cfg.Ok) {g : Garbage} {n bl s : Int} {t : Typestruct}
    {τ : Spec.DType} (ht : Describes cfg t (.data τ)) (hn : 0 ≤ n) (hb : 0 ≤ bl)
    (hgl : g.o_lb = 0) (hgu : g.o_ub = 0)
    (hs : Small (sz cfg) ((List.range n.toNat).map fun (i : Nat) => (bl.toNat, s * i, .data τ))) :
    ∃ t', Type_hvector cfg g n bl (u64 s) t = .ok t' ∧
      Describes cfg t' (.data (Spec.hvector (sz cfg) n.toNat bl.toNat s τ)) ∧
      Reports cfg t' (Spec.hvector (sz cfg) n.toNat bl.toNat s τ) := by
  rw [hvector_eq hn (ht.extent hc)]
  have := struct_nested hc (g := g) ht ((List.range n.toNat).map fun (i : Nat) => (bl, s * i))
    (by intro x hx; obtain ⟨y, _, rfl⟩ := List.mem_map.1 hx; exact hb) hgl hgu
    (by rw [List.map_map]; exact hs)
  rw [List.map_map, List.map_map, List.map_map] at this
  rw [List.map_map]
  exact this

theorem C25_vector_partial {cfg : Cfg} (hc : cfg.Ok) {g : Garbage} {n bl s : Int} {t : Typestruct}
    {τ : Spec.DType} (ht : Describes cfg t (.data τ)) (hn : 0 ≤ n) (hb : 0 ≤ bl)
    (hgl : g.o_lb = 0) (hgu : g.o_ub = 0)
    (hs : Small (sz cfg) ((List.range n.toNat).map fun (i : Nat) =>
      (bl.toNat, s * Spec.extent (sz cfg) τ * i, .data τ))) :
    ∃ t', Type_vector cfg g n bl s t = .ok t' ∧
      Describes cfg t' (.data (Spec.vector (sz cfg) n.toNat bl.toNat s τ)) ∧
      Reports cfg t' (Spec.vector (sz cfg) n.toNat bl.toNat s τ) := by
  rw [vector_eq hn (ht.extent hc), ← hvector_eq hn (ht.extent hc)]
  exact C25_hvector_partial hc ht hn hb hgl hgu hs

theorem C25_hindexed_partial {cfg : Cfg} (hc : cfg.Ok) {g : Garbage} {t : Typestruct}
    {τ : Spec.DType} (ht : Describes cfg t (.data τ)) (l : List (Int × Int))
    (hb : ∀ x ∈ l, 0 ≤ x.1) (hgl : g.o_lb = 0) (hgu : g.o_ub = 0)
    (hs : Small (sz cfg) (l.map fun x => (x.1.toNat, x.2, .data τ))) :
    ∃ t', Type_hindexed cfg g l.length (l.map Prod.fst) (l.map fun x => u64 x.2) t = .ok t' ∧
      Describes cfg t' (.data (Spec.hindexed (sz cfg) (l.map fun x => (x.1.toNat, x.2)) τ)) ∧
      Reports cfg t' (Spec.hindexed (sz cfg) (l.map fun x => (x.1.toNat, x.2)) τ) := by
  rw [hindexed_eq]
  have := struct_nested hc (g := g) ht l hb hgl hgu hs
  unfold Spec.hindexed
  rw [List.map_map (l := l) (f := fun x => (x.1.toNat, x.2))]
  exact this

theorem C25_indexed_partial {cfg : Cfg} (hc : cfg.Ok) {g : Garbage} {t : Typestruct}
    {τ : Spec.DType} (ht : Describes cfg t (.data τ)) (l : List (Int × Int))
    (hb : ∀ x ∈ l, 0 ≤ x.1) (hgl : g.o_lb = 0) (hgu : g.o_ub = 0)
    (hs : Small (sz cfg) (l.map fun x => (x.1.toNat, x.2 * Spec.extent (sz cfg) τ, .data τ))) :
    ∃ t', Type_indexed cfg g l.length (l.map Prod.fst) (l.map Prod.snd) t = .ok t' ∧
      Describes cfg t' (.data (Spec.indexed (sz cfg) (l.map fun x => (x.1.toNat, x.2)) τ)) ∧
      Reports cfg t' (Spec.indexed (sz cfg) (l.map fun x => (x.1.toNat, x.2)) τ) := by
  rw [indexed_eq l (ht.extent hc)]
  have := struct_nested hc (g := g) ht (l.map fun x => (x.1, x.2 * Spec.extent (sz cfg) τ))
    (by intro x hx; obtain ⟨y, hy, rfl⟩ := List.mem_map.1 hx; exact hb y hy) hgl hgu
    (by rw [List.map_map]; exact hs)
  unfold Spec.indexed Spec.hindexed
  simp only [List.map_map] at this ⊢
  exact this

theorem C25_indexed_block_partial {cfg : Cfg} (hc : cfg.Ok) {g : Garbage} {t : Typestruct} {bl : Int}
    {τ : Spec.DType} (ht : Describes cfg t (.data τ)) (l : List Int)
    (hb : 0 ≤ bl) (hgl : g.o_lb = 0) (hgu : g.o_ub = 0)
    (hs : Small (sz cfg) (l.map fun d => (bl.toNat, d * Spec.extent (sz cfg) τ, .data τ))) :
    ∃ t', Type_create_indexed_block cfg g l.length bl l t = .ok t' ∧
      Describes cfg t' (.data (Spec.indexedBlock (sz cfg) bl.toNat l τ)) ∧
      Reports cfg t' (Spec.indexedBlock (sz cfg) bl.toNat l τ) := by
  rw [indexed_block_eq l (ht.extent hc)]
  have := struct_nested hc (g := g) ht (l.map fun d => (bl, d * Spec.extent (sz cfg) τ))
    (by intro x hx; obtain ⟨y, hy, rfl⟩ := List.mem_map.1 hx; exact hb) hgl hgu
    (by rw [List.map_map]; exact hs)
  unfold Spec.indexedBlock Spec.indexed Spec.hindexed
  simp only [List.map_map] at this ⊢
  exact this

/-- The predefined types have the extent of their type map (their stored upper bound may include
the trailing padding). -/
theorem C25_basic_extent {cfg : Cfg} (hc : cfg.Ok) {t : Typestruct} (ht : IsBasic cfg t) {a l u : Int}
    (ha : Greatest ((typeMap t).map fun y => sz cfg y.2) a)
    (hl : Least ((typeMap t).map fun y => y.1) l)
    (hu : Greatest ((typeMap t).map fun y => y.1 + sz cfg y.2) u) :
    ∃ e, Type_extent cfg t = .ok (u64 e) ∧ LeastMultiple a (u - l) e := by
  have hg := ht.good hc
  obtain ⟨ha1, ha2⟩ := lenOf_align hc hg ha
  refine ⟨extOf cfg t, Type_extent_good hc hg, ?_⟩
  obtain ⟨_, hm⟩ := (Describes.basic ht).meaning hc
  unfold extOf Spec.extent
  rw [if_pos (by rw [hm]; exact ⟨rfl, rfl⟩), ha2]
  have e1 : Spec.lb (absT t) = l := by
    rw [hm]; unfold Spec.lb Spec.plain
    simp only [Option.getD_none]
    rw [min?_spec.2 hl]; rfl
  have e2 : Spec.ub (lenOf cfg) (absT t) = u := by
    rw [hm]; unfold Spec.ub Spec.plain
    simp only [Option.getD_none]
    rw [max?_spec.2 hu]; rfl
  rw [e1, e2]
  exact roundUp_leastMultiple ha1

/-- C25 fails for a type without data entries: `MPI_Type_contiguous(0, MPI_INT)` has extent
-2^32 (as `MPI_Aint` 18446744069414584320). -/
theorem C25_fails_empty :
    ∃ t, Type_contiguous {} ⟨0, 0, fun _ => ⟨0, 0⟩⟩ 0 (static1 4 2) = .ok t ∧
      typeMap t = [] ∧ Type_extent {} t = .ok 18446744069414584320 := by
  exact ⟨⟨0, -2147483648, 2147483647, 0, 0, 0, [⟨0, 0⟩]⟩, by decide, by decide, by decide⟩

/-- C25 fails when the memory `malloc` returns does not read as zero: the never initialised
`o_lb` disables padding, `{int at 0, char at 4}` gets extent 5 instead of 8. -/
theorem C25_fails_uninitialised :
    ∃ t, Type_struct {} ⟨1, 0, fun _ => ⟨0, 0⟩⟩ [⟨1, 0, static1 4 2⟩, ⟨1, 4, static1 1 0⟩] = .ok t ∧
      typeMap t = [(0, 2), (4, 0)] ∧ Type_extent {} t = .ok 5 := by
  exact ⟨⟨2, 5, 0, 0, 1, 0, [⟨0, 2⟩, ⟨4, 0⟩, ⟨0, 0⟩]⟩, by decide, by decide, by decide⟩

/-! ## C26 -/

/-- C26 (partial): an explicit lower bound is the least of the `MPI_LB` displacements and inherited
explicit lower bounds, an explicit upper bound the greatest of the `MPI_UB` displacements and
inherited ones, and the extent is then their difference, without padding - nested to any depth,
provided explicit lower bounds are non-negative and explicit upper bounds negative.  For the other
signs the statement is false: `C26_fails_upper`, `C26_fails_lower`. -/
theorem C26_markers_partial {cfg : Cfg} (hc : cfg.Ok) {g : Garbage}
    {xs : List (Int × Int × Typestruct × Spec.Comp)}
    (hx : ∀ x ∈ xs, Describes cfg x.2.2.1 x.2.2.2) (hn : ∀ x ∈ xs, 0 ≤ x.1)
    (hgl : g.o_lb = 0) (hgu : g.o_ub = 0) (hs : Small (sz cfg) (specBlocks xs)) :
    ∃ t, Type_struct cfg g (callBlocks xs) = .ok t ∧
      Describes cfg t (.data (Spec.struct (sz cfg) (specBlocks xs))) ∧
      Reports cfg t (Spec.struct (sz cfg) (specBlocks xs)) ∧
      ∃ l u, Type_lb t = u64 l ∧ Type_ub t = u64 u ∧
      ((specBlocks xs).flatMap (Spec.blockLb (sz cfg)) ≠ [] →
        Least ((specBlocks xs).flatMap (Spec.blockLb (sz cfg))) l) ∧
      ((specBlocks xs).flatMap (Spec.blockUb (sz cfg)) ≠ [] →
        Greatest ((specBlocks xs).flatMap (Spec.blockUb (sz cfg))) u) ∧
      ((specBlocks xs).flatMap (Spec.blockLb (sz cfg)) ≠ [] ∨
        (specBlocks xs).flatMap (Spec.blockUb (sz cfg)) ≠ [] →
        Type_extent cfg t = .ok (u64 (u - l))) := by
  obtain ⟨t, h1, h2, h3, _⟩ := struct_meaning hc (fun x hxx => (hx x hxx).meaning hc) hn hgl hgu hs
  have hL : ∀ m, ((specBlocks xs).flatMap (Spec.blockLb (sz cfg))).min? = some m → t.lb = m := by
    intro m hm
    have := h2.lb_ok
    rw [h3] at this
    unfold Spec.lb Spec.struct at this
    rw [hm] at this; exact this
  have hU : ∀ m, ((specBlocks xs).flatMap (Spec.blockUb (sz cfg))).max? = some m → t.ub = m := by
    intro m hm
    have := h2.ub_ok
    rw [h3] at this
    unfold Spec.ub Spec.struct at this
    rw [hm] at this; exact this
  refine ⟨t, h1, .struct hx hn hgl hgu hs h1, h2.reports hc h3, t.lb, t.ub, rfl, rfl, ?_, ?_, ?_⟩
  · intro hne
    obtain ⟨m, hm⟩ := min?_some_of_ne hne
    rw [hL m hm]; exact min?_spec.1 hm
  · intro hne
    obtain ⟨m, hm⟩ := max?_some_of_ne hne
    rw [hU m hm]; exact max?_spec.1 hm
  · intro hor
    rw [Type_extent_good hc (h2.good hc)]
    unfold extOf Spec.extent
    rw [← h2.lb_ok, ← h2.ub_ok, if_neg]
    rw [h3]
    rintro ⟨e1, e2⟩
    simp only [Spec.struct, List.min?_eq_none_iff, List.max?_eq_none_iff] at e1 e2
    rcases hor with h | h
    · exact h e1
    · exact h e2

theorem foldl_max_stay (l : List Int) (x : Int) (h : ∀ y ∈ l, y ≤ x) : l.foldl max x = x := by
  have := foldl_max_spec l x
  have h1 := this.2 x (List.mem_cons_self ..)
  have h2 := this.1
  rw [List.mem_cons] at h2
  rcases h2 with h2 | h2
  · exact h2
  · have := h _ h2; omega

theorem foldl_min_stay (l : List Int) (x : Int) (h : ∀ y ∈ l, x ≤ y) : l.foldl min x = x := by
  have := foldl_min_spec l x
  have h1 := this.2 x (List.mem_cons_self ..)
  have h2 := this.1
  rw [List.mem_cons] at h2
  rcases h2 with h2 | h2
  · exact h2
  · have := h _ h2; omega

theorem described_call {cfg : Cfg} (hc : cfg.Ok) (g : Garbage)
    {xs : List (Int × Int × Typestruct × Spec.Comp)}
    (hx : ∀ x ∈ xs, Describes cfg x.2.2.1 x.2.2.2) (hn : ∀ x ∈ xs, 0 ≤ x.1)
    (hd : ∀ x ∈ xs, -9223372036854775808 ≤ x.2.1 ∧ x.2.1 ≤ 9223372036854775807)
    (hcount : ((Spec.struct (sz cfg) (specBlocks xs)).map.length : Int) ≤ 2147483647)
    (hdisp : ∀ y ∈ (Spec.struct (sz cfg) (specBlocks xs)).map,
      -2147483648 ≤ y.1 ∧ y.1 ≤ 2147483647) :
    ∃ L U, Type_struct cfg g (callBlocks xs) = .ok
        { structTemp g (callBlocks xs) ((callBlocks xs).flatMap (blockEntries (extOf cfg)))
          with lb := L, ub := U } ∧
      (anyLower (callBlocks xs) = true → L = s64 ((lbMarks (callBlocks xs) ++
        (callBlocks xs).flatMap (blockLbs (extOf cfg))).foldl min 9223372036854775807)) ∧
      (anyUpper (callBlocks xs) = true → U = s64 ((ubMarks (callBlocks xs) ++
        (callBlocks xs).flatMap (blockUbs (extOf cfg))).foldl max 9223372036854775808)) := by
  have hm : ∀ x ∈ xs, Meaning cfg x.2.2.1 x.2.2.2 := fun x hxx => (hx x hxx).meaning hc
  have hb : (callBlocks xs).map absB = specBlocks xs := by
    unfold callBlocks specBlocks
    rw [List.map_map]
    apply List.map_congr_left
    intro x hx
    exact (hm x hx).absB _ _ (hd x hx)
  have hmem : ∀ b ∈ callBlocks xs, ∃ x ∈ xs, mkBlock (x.1, x.2.1, x.2.2.1) = b := by
    intro b hb; exact List.mem_map.1 hb
  have hE := entries_eq cfg (callBlocks xs)
  rw [hb] at hE
  have hlen : ((callBlocks xs).flatMap (blockEntries (extOf cfg))).length
      = (Spec.struct (lenOf cfg) (specBlocks xs)).map.length := by
    have := congrArg List.length hE
    simpa using this
  have heq := Type_struct_eq cfg g (extOf cfg) (callBlocks xs)
    (by intro b hb; obtain ⟨x, hx, rfl⟩ := hmem b hb; exact (hm x hx).goodComp.wf)
    (by intro b hb _; obtain ⟨x, hx, rfl⟩ := hmem b hb; exact hn x hx)
    (by
      intro b hb hdt _
      obtain ⟨x, hx, rfl⟩ := hmem b hb
      exact Type_extent_good hc ((hm x hx).goodComp.good hdt))
    (by rw [hlen]; exact hcount)
  have hEl : ∀ p ∈ (callBlocks xs).flatMap (blockEntries (extOf cfg)), hasLen cfg p.type := by
    intro p hp
    obtain ⟨b, hb, hdt, q, hq, hqt⟩ := mem_entries_kind hp
    obtain ⟨x, hx, rfl⟩ := hmem b hb
    rw [← hqt]
    exact ((hm x hx).goodComp.good hdt).lens q hq
  have hEd : ∀ p ∈ (callBlocks xs).flatMap (blockEntries (extOf cfg)),
      -2147483648 ≤ p.disp ∧ p.disp ≤ 2147483647 := by
    intro p hp
    have : (p.disp, p.type) ∈ (Spec.struct (lenOf cfg) (specBlocks xs)).map.map
        fun x => (s64 x.1, x.2) := by
      rw [← hE]; exact List.mem_map.2 ⟨p, hp, rfl⟩
    obtain ⟨y, hy, hyp⟩ := List.mem_map.1 this
    have hr := hdisp y hy
    rw [s64_of_range (by omega) (by omega)] at hyp
    have : p.disp = y.1 := by
      have := congrArg Prod.fst hyp; exact this.symm
    omega
  generalize (callBlocks xs).flatMap (blockEntries (extOf cfg)) = E at *
  have hwf := structTemp_wf g (callBlocks xs) E
  have hmap := structTemp_map g (callBlocks xs) E
  obtain ⟨l, hl⟩ : ∃ l, calc_lb (structTemp g (callBlocks xs) E) = .ok l := ⟨_, calc_lb_wf hwf⟩
  obtain ⟨u, hu⟩ : ∃ u, calc_ub cfg (structTemp g (callBlocks xs) E) = .ok u := by
    unfold calc_ub
    rw [calcUbLoop_eq cfg _ _ _ _ (by have := hwf.fits; omega)
      (by rw [List.drop_zero]; change ∀ p ∈ (structTemp g (callBlocks xs) E).map, _; rw [hmap]; exact hEl)
      (by
        rw [List.drop_zero]
        change ∀ p ∈ (structTemp g (callBlocks xs) E).map, _
        rw [hmap]
        intro p hp
        have := hEd p hp
        have := lenOf_range hc (hEl p hp)
        omega)]
    exact ⟨_, rfl⟩
  rw [heq]
  cases hA : anyLower (callBlocks xs) <;> cases hU : anyUpper (callBlocks xs) <;>
    simp only [hA, hU, if_true, if_false, Bool.false_eq_true, hl, hu, Res.ok_bind, Res.pure_eq,
      false_implies, true_implies, Res.ok.injEq]
  · exact ⟨l, u, rfl, trivial, trivial⟩
  · exact ⟨l, _, rfl, trivial, rfl⟩
  · exact ⟨_, u, rfl, rfl, trivial⟩
  · exact ⟨_, _, rfl, rfl, rfl⟩

theorem fails_upper {cfg : Cfg} (hc : cfg.Ok) (g : Garbage)
    {xs : List (Int × Int × Typestruct × Spec.Comp)}
    (hx : ∀ x ∈ xs, Describes cfg x.2.2.1 x.2.2.2) (hn : ∀ x ∈ xs, 0 ≤ x.1)
    (hd : ∀ x ∈ xs, -9223372036854775808 ≤ x.2.1 ∧ x.2.1 ≤ 9223372036854775807)
    (hcount : ((Spec.struct (sz cfg) (specBlocks xs)).map.length : Int) ≤ 2147483647)
    (hdisp : ∀ y ∈ (Spec.struct (sz cfg) (specBlocks xs)).map,
      -2147483648 ≤ y.1 ∧ y.1 ≤ 2147483647)
    (hno : ∀ x ∈ xs, ∀ τ, x.2.2.2 = .data τ → τ.ubMark = none)
    (hmark : ∃ x ∈ xs, x.2.2.2 = .ub)
    (hpos : ∀ x ∈ xs, x.2.2.2 = .ub → 0 ≤ x.2.1) :
    ∃ t, Type_struct cfg g (callBlocks xs) = .ok t ∧ t.ub = -9223372036854775808 := by
  obtain ⟨L, U, h1, -, h2⟩ := described_call hc g hx hn hd hcount hdisp
  refine ⟨_, h1, ?_⟩
  have hm : ∀ x ∈ xs, Meaning cfg x.2.2.1 x.2.2.2 := fun x hxx => (hx x hxx).meaning hc
  have hmem : ∀ b ∈ callBlocks xs, ∃ x ∈ xs, mkBlock (x.1, x.2.1, x.2.2.1) = b := by
    intro b hb; exact List.mem_map.1 hb
  have hA : anyUpper (callBlocks xs) = true := by
    obtain ⟨x, hxx, hxu⟩ := hmark
    unfold anyUpper
    rw [List.any_eq_true]
    refine ⟨mkBlock (x.1, x.2.1, x.2.2.1), List.mem_map.2 ⟨x, hxx, rfl⟩, ?_⟩
    have := hm x hxx
    rw [hxu] at this
    unfold Block.k0 mkBlock
    rw [show x.2.2.1 = static1 0 13 from this]
    simp [static1]
  show U = _
  rw [h2 hA]
  have hcand : ∀ y ∈ ubMarks (callBlocks xs) ++ (callBlocks xs).flatMap (blockUbs (extOf cfg)),
      y ≤ 9223372036854775808 := by
    intro y hy
    have hr : ∀ b ∈ callBlocks xs, 0 ≤ b.disp ∧ b.disp < 18446744073709551616 := by
      intro b hb; obtain ⟨x, hx, rfl⟩ := hmem b hb
      exact ⟨u64_nonneg _, u64_lt _⟩
    obtain ⟨c, hc', rfl⟩ := (mem_ubCands cfg (callBlocks xs) hr y).1 hy
    have hb : (callBlocks xs).map absB = specBlocks xs := by
      unfold callBlocks specBlocks
      rw [List.map_map]
      apply List.map_congr_left
      intro x hx
      exact (hm x hx).absB _ _ (hd x hx)
    rw [hb, List.mem_flatMap] at hc'
    obtain ⟨b, hbm, hcb⟩ := hc'
    obtain ⟨x, hxx, rfl⟩ := List.mem_map.1 hbm
    have hdx := hd x hxx
    have hpx := hpos x hxx
    have hnx := hno x hxx
    cases hcx : x.2.2.2 with
    | lb => rw [hcx] at hcb; simp [Spec.blockUb] at hcb
    | ub =>
      rw [hcx] at hcb
      simp only [Spec.blockUb, List.mem_singleton] at hcb
      have := hpx hcx
      rw [hcb, u64_of_range (by omega) (by omega)]; omega
    | data τ =>
      rw [hcx] at hcb
      obtain ⟨m, l, u⟩ := τ
      have : u = none := hnx _ hcx
      subst this
      simp [Spec.blockUb] at hcb
  rw [foldl_max_stay _ _ hcand]
  decide

/-- C26 fails: whatever else a struct contains (of data types without explicit upper bounds), if it
has `MPI_UB` markers and all their displacements are non-negative, its upper bound is LONG_MIN,
never the greatest displacement. -/
theorem C26_fails_upper {cfg : Cfg} (hc : cfg.Ok) (g : Garbage)
    {xs : List (Int × Int × Typestruct × Spec.Comp)}
    (hx : ∀ x ∈ xs, Describes cfg x.2.2.1 x.2.2.2) (hn : ∀ x ∈ xs, 0 ≤ x.1)
    (hd : ∀ x ∈ xs, -9223372036854775808 ≤ x.2.1 ∧ x.2.1 ≤ 9223372036854775807)
    (hcount : ((Spec.struct (sz cfg) (specBlocks xs)).map.length : Int) ≤ 2147483647)
    (hdisp : ∀ y ∈ (Spec.struct (sz cfg) (specBlocks xs)).map,
      -2147483648 ≤ y.1 ∧ y.1 ≤ 2147483647)
    (hno : ∀ x ∈ xs, ∀ τ, x.2.2.2 = .data τ → τ.ubMark = none)
    (hmark : ∃ x ∈ xs, x.2.2.2 = .ub)
    (hpos : ∀ x ∈ xs, x.2.2.2 = .ub → 0 ≤ x.2.1) :
    ∃ t, Type_struct cfg g (callBlocks xs) = .ok t ∧ Type_ub t = u64 (-9223372036854775808) := by
  obtain ⟨t, h1, h2⟩ := fails_upper hc g hx hn hd hcount hdisp hno hmark hpos
  exact ⟨t, h1, by unfold Type_ub; rw [h2]⟩

theorem fails_lower {cfg : Cfg} (hc : cfg.Ok) (g : Garbage)
    {xs : List (Int × Int × Typestruct × Spec.Comp)}
    (hx : ∀ x ∈ xs, Describes cfg x.2.2.1 x.2.2.2) (hn : ∀ x ∈ xs, 0 ≤ x.1)
    (hd : ∀ x ∈ xs, -9223372036854775808 ≤ x.2.1 ∧ x.2.1 ≤ 9223372036854775807)
    (hcount : ((Spec.struct (sz cfg) (specBlocks xs)).map.length : Int) ≤ 2147483647)
    (hdisp : ∀ y ∈ (Spec.struct (sz cfg) (specBlocks xs)).map,
      -2147483648 ≤ y.1 ∧ y.1 ≤ 2147483647)
    (hno : ∀ x ∈ xs, ∀ τ, x.2.2.2 = .data τ → τ.lbMark = none)
    (hmark : ∃ x ∈ xs, x.2.2.2 = .lb)
    (hneg : ∀ x ∈ xs, x.2.2.2 = .lb → x.2.1 < 0) :
    ∃ t, Type_struct cfg g (callBlocks xs) = .ok t ∧ t.lb = 9223372036854775807 := by
  obtain ⟨L, U, h1, h2, -⟩ := described_call hc g hx hn hd hcount hdisp
  refine ⟨_, h1, ?_⟩
  have hm : ∀ x ∈ xs, Meaning cfg x.2.2.1 x.2.2.2 := fun x hxx => (hx x hxx).meaning hc
  have hmem : ∀ b ∈ callBlocks xs, ∃ x ∈ xs, mkBlock (x.1, x.2.1, x.2.2.1) = b := by
    intro b hb; exact List.mem_map.1 hb
  have hA : anyLower (callBlocks xs) = true := by
    obtain ⟨x, hxx, hxu⟩ := hmark
    unfold anyLower
    rw [List.any_eq_true]
    refine ⟨mkBlock (x.1, x.2.1, x.2.2.1), List.mem_map.2 ⟨x, hxx, rfl⟩, ?_⟩
    have := hm x hxx
    rw [hxu] at this
    unfold Block.k0 mkBlock
    rw [show x.2.2.1 = static1 0 12 from this]
    simp [static1]
  show L = _
  rw [h2 hA]
  have hcand : ∀ y ∈ lbMarks (callBlocks xs) ++ (callBlocks xs).flatMap (blockLbs (extOf cfg)),
      9223372036854775807 ≤ y := by
    intro y hy
    have hr : ∀ b ∈ callBlocks xs, 0 ≤ b.disp ∧ b.disp < 18446744073709551616 := by
      intro b hb; obtain ⟨x, hx, rfl⟩ := hmem b hb
      exact ⟨u64_nonneg _, u64_lt _⟩
    obtain ⟨c, hc', rfl⟩ := (mem_lbCands cfg (callBlocks xs) hr y).1 hy
    have hb : (callBlocks xs).map absB = specBlocks xs := by
      unfold callBlocks specBlocks
      rw [List.map_map]
      apply List.map_congr_left
      intro x hx
      exact (hm x hx).absB _ _ (hd x hx)
    rw [hb, List.mem_flatMap] at hc'
    obtain ⟨b, hbm, hcb⟩ := hc'
    obtain ⟨x, hxx, rfl⟩ := List.mem_map.1 hbm
    have hdx := hd x hxx
    have hpx := hneg x hxx
    have hnx := hno x hxx
    cases hcx : x.2.2.2 with
    | ub => rw [hcx] at hcb; simp [Spec.blockLb] at hcb
    | lb =>
      rw [hcx] at hcb
      simp only [Spec.blockLb, List.mem_singleton] at hcb
      have := hpx hcx
      rw [hcb]
      unfold u64; omega
    | data τ =>
      rw [hcx] at hcb
      obtain ⟨m, l, u⟩ := τ
      have : l = none := hnx _ hcx
      subst this
      simp [Spec.blockLb] at hcb
  rw [foldl_min_stay _ _ hcand]
  decide

/-- C26 fails: if a struct has `MPI_LB` markers and all their displacements are negative, its lower
bound is LONG_MAX, never the least displacement. -/
theorem C26_fails_lower {cfg : Cfg} (hc : cfg.Ok) (g : Garbage)
    {xs : List (Int × Int × Typestruct × Spec.Comp)}
    (hx : ∀ x ∈ xs, Describes cfg x.2.2.1 x.2.2.2) (hn : ∀ x ∈ xs, 0 ≤ x.1)
    (hd : ∀ x ∈ xs, -9223372036854775808 ≤ x.2.1 ∧ x.2.1 ≤ 9223372036854775807)
    (hcount : ((Spec.struct (sz cfg) (specBlocks xs)).map.length : Int) ≤ 2147483647)
    (hdisp : ∀ y ∈ (Spec.struct (sz cfg) (specBlocks xs)).map,
      -2147483648 ≤ y.1 ∧ y.1 ≤ 2147483647)
    (hno : ∀ x ∈ xs, ∀ τ, x.2.2.2 = .data τ → τ.lbMark = none)
    (hmark : ∃ x ∈ xs, x.2.2.2 = .lb)
    (hneg : ∀ x ∈ xs, x.2.2.2 = .lb → x.2.1 < 0) :
    ∃ t, Type_struct cfg g (callBlocks xs) = .ok t ∧ Type_lb t = u64 (9223372036854775807) := by
  obtain ⟨t, h1, h2⟩ := fails_lower hc g hx hn hd hcount hdisp hno hmark hneg
  exact ⟨t, h1, by unfold Type_lb; rw [h2]⟩

/-- Concrete instance of the defect: `{MPI_INT at 0, MPI_UB at 16}`. -/
theorem C26_fails_witness :
    ∃ t, Type_struct {} ⟨0, 0, fun _ => ⟨0, 0⟩⟩ [⟨1, 0, static1 4 2⟩, ⟨1, 16, static1 0 13⟩] = .ok t ∧
      Type_ub t ≠ 16 ∧ Type_extent {} t ≠ .ok 16 := by
  exact ⟨⟨1, -9223372036854775808, 0, 0, 0, 1, [⟨0, 2⟩, ⟨0, 0⟩]⟩, by decide, by decide, by decide⟩

/-! ### Non-trivial instances -/

/-- `{2 doubles at -8, char at 16}`: all hypotheses of C25 hold. -/
example : ∃ t, Type_struct {} ⟨0, 0, fun _ => ⟨0, 0⟩⟩
      (callBlocks [(2, -8, static1 8 9, .data (Spec.plain [(0, 9)])),
        (1, 16, static1 1 0, .data (Spec.plain [(0, 0)]))]) = .ok t ∧
    Type_lb t = u64 (-8) ∧ Type_ub t = 17 ∧ Type_extent {} t = .ok 32 := by
  obtain ⟨t, h1, -, ⟨h3, -, -, -⟩, l, u, hlb, hub, h4, h5, h6⟩ := C25_bounds_partial cfg_default_ok
    (g := ⟨0, 0, fun _ => ⟨0, 0⟩⟩)
    (xs := [(2, -8, static1 8 9, .data (Spec.plain [(0, 9)])),
        (1, 16, static1 1 0, .data (Spec.plain [(0, 0)]))])
    (by
      intro x hx
      simp only [List.mem_cons, List.not_mem_nil, or_false] at hx
      rcases hx with rfl | rfl
      · exact .basic (t := static1 8 9) ⟨by decide, by decide, by decide⟩
      · exact .basic (t := static1 1 0) ⟨by decide, by decide, by decide⟩)
    (by decide) rfl rfl
    ⟨by decide, by decide, by decide, by decide, by decide, by decide, by
      intro b hb τ hτ
      simp [specBlocks] at hb
      rcases hb with rfl | rfl <;> (simp only [] at hτ; cases hτ; simp [Spec.plain])⟩
  have e : typeMap t = [(-8, 9), (0, 9), (16, 0)] := by rw [h3]; decide
  have hl := h4 (by decide)
  have hu := h5 (by decide)
  rw [e] at hl hu
  have hl8 : l = -8 := by
    have h := hl.2 (-8) (by decide)
    have := hl.1
    simp at this
    omega
  have hu17 : u = 17 := by
    have h := hu.2 17 (by decide)
    have := hu.1
    simp [sz, lenOf, Simpletype_length] at this
    omega
  refine ⟨t, h1, by rw [hlb, hl8], by rw [hub, hu17]; rfl, ?_⟩
  obtain ⟨x, hx, h32, hmin⟩ := h6 (by decide) (by decide) 8 (by rw [e]; unfold Greatest; decide)
  rw [hx]
  have := hmin.2 32 (by decide) (by omega)
  rw [hl8, hu17] at hmin
  have : x = 32 := by omega
  rw [this]; rfl

/-- `{MPI_LB at 3, int at 8, MPI_UB at -1}` as in C26. -/
example : ∃ t, Type_struct {} ⟨0, 0, fun _ => ⟨0, 0⟩⟩
      (callBlocks [(1, 3, static1 0 12, .lb), (1, 8, static1 4 2, .data (Spec.plain [(0, 2)])),
        (1, -1, static1 0 13, .ub)]) = .ok t ∧
    Type_lb t = 3 ∧ Type_ub t = u64 (-1) := by
  obtain ⟨t, h1, -, -, l, u, hlb, hub, h4, h5, -⟩ := C26_markers_partial cfg_default_ok
    (g := ⟨0, 0, fun _ => ⟨0, 0⟩⟩)
    (xs := [(1, 3, static1 0 12, .lb), (1, 8, static1 4 2, .data (Spec.plain [(0, 2)])),
        (1, -1, static1 0 13, .ub)])
    (by
      intro x hx
      simp only [List.mem_cons, List.not_mem_nil, or_false] at hx
      rcases hx with rfl | rfl | rfl
      · exact .lb
      · exact .basic (t := static1 4 2) ⟨by decide, by decide, by decide⟩
      · exact .ub)
    (by decide) rfl rfl
    ⟨by decide, by decide, by decide, by decide, by decide, by decide, by
      intro b hb τ hτ
      simp [specBlocks] at hb
      rcases hb with rfl | rfl | rfl <;> (simp only [] at hτ; cases hτ; try simp [Spec.plain])⟩
  have hl := h4 (by decide)
  have hu := h5 (by decide)
  refine ⟨t, h1, ?_, ?_⟩
  · have := hl.1
    simp [specBlocks, Spec.blockLb, Spec.plain] at this
    rw [hlb, this]; rfl
  · have := hu.1
    simp [specBlocks, Spec.blockUb, Spec.plain] at this
    rw [hub, this]

end MpiSerial
