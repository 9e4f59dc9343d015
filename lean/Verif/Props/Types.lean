import Verif.Proofs.TypesHom

set_option linter.unusedSimpArgs false

/-!
# C24-C29: derived datatypes

A descriptor is observed through its type map (`typeMap`), `Type_lb`, `Type_ub`, `Type_extent`,
`Type_size` and `committed`.  Specifications are in `Spec/Types.lean`.
-/

namespace MpiSerial

/-- The type map of a descriptor: displacement and kind of its `count` entries. -/
def typeMap (t : Typestruct) : List Spec.Entry :=
  (t.pairs.take t.count.toNat).map fun p => (p.disp, p.type)

/-- The descriptors of MPI_LB and MPI_UB (type_const.c:46-49). -/
def IsMarker (t : Typestruct) : Prop := t = static1 0 12 ∨ t = static1 0 13
instance (t : Typestruct) : Decidable (IsMarker t) := by unfold IsMarker; exact inferInstance

/-- A descriptor of data: storage for its type map, and every entry of a kind with a length. -/
structure DataDesc (cfg : Cfg) (t : Typestruct) : Prop where
  wf : t.WF
  lens : ∀ x ∈ typeMap t, ∃ s, Simpletype_length cfg x.2 = .ok s

/-- A block argument of a constructor: block length, exact displacement in bytes, component.
The C caller passes the displacement as an `MPI_Aint`. -/
def mkBlock (x : Int × Int × Typestruct) : Block := ⟨x.1, u64 x.2.1, x.2.2⟩

/-- Type map the standard prescribes for one block, `e` being the component's extent. -/
def blockSpec (e : Typestruct → Int) (x : Int × Int × Typestruct) : List Spec.Entry :=
  if IsMarker x.2.2 then [] else Spec.repeated (typeMap x.2.2) (e x.2.2) x.1.toNat x.2.1

theorem blockEntries_spec (cfg : Cfg) (e : Typestruct → Int) (x : Int × Int × Typestruct)
    (hx : IsMarker x.2.2 ∨ DataDesc cfg x.2.2) :
    (blockEntries e (mkBlock x)).map (fun p => (p.disp, p.type))
      = (blockSpec e x).map fun y => (s64 y.1, y.2) := by
  unfold blockSpec
  by_cases hm : IsMarker x.2.2
  · rw [if_pos hm]
    have : ¬ (mkBlock x).isData := by
      unfold Block.isData Block.k0 mkBlock
      rcases hm with h | h <;> rw [h] <;> simp [static1]
    unfold blockEntries
    rw [if_neg this]; rfl
  · rw [if_neg hm]
    have hdd := hx.resolve_left hm
    unfold blockEntries
    by_cases hd : (mkBlock x).isData
    · rw [if_pos hd]
      simp only [Spec.repeated, repEntries, Spec.shift, List.map_flatMap, List.map_map,
        List.range_eq_range', Function.comp_def, typeMap, Typestruct.map, mkBlock]
      congr 1
      funext j
      congr 1
      funext p
      congr 1
      unfold s64 u64; omega
    · rw [if_neg hd]
      have hnil : typeMap x.2.2 = [] := by
        by_cases hn : x.2.2.count.toNat = 0
        · simp [typeMap, hn]
        · exfalso
          apply hd
          obtain ⟨n, hn⟩ := Nat.exists_eq_succ_of_ne_zero hn
          have hl := hdd.lens
          unfold typeMap at hl
          unfold Block.isData Block.k0 mkBlock
          simp only []
          cases hp : x.2.2.pairs with
          | nil => exact absurd hp hdd.wf.nonempty
          | cons p ps =>
            rw [hp, hn, List.take_succ_cons, List.map_cons] at hl
            obtain ⟨s, hs⟩ := hl _ (List.mem_cons_self ..)
            have := hasLen_not_mark (hasLen_of_ok hs).1
            simpa using this
      simp [hnil, Spec.repeated, Spec.shift]

theorem entries_spec (cfg : Cfg) (e : Typestruct → Int) (xs : List (Int × Int × Typestruct))
    (hx : ∀ x ∈ xs, IsMarker x.2.2 ∨ DataDesc cfg x.2.2) :
    ((xs.map mkBlock).flatMap (blockEntries e)).map (fun p => (p.disp, p.type))
      = (xs.flatMap (blockSpec e)).map fun y => (s64 y.1, y.2) := by
  induction xs with
  | nil => rfl
  | cons x xs ih =>
    rw [List.map_cons, List.flatMap_cons, List.flatMap_cons, List.map_append, List.map_append,
      blockEntries_spec cfg e x (hx x (List.mem_cons_self ..)),
      ih (fun y hy => hx y (List.mem_cons_of_mem _ hy))]

theorem IsMarker.wf {t : Typestruct} (h : IsMarker t) : t.WF := by
  rcases h with rfl | rfl <;> constructor <;> simp [static1]

/-- C24: for every block list with non-negative lengths whose exact result fits the C types,
`MPI_Type_struct` succeeds (no out-of-bounds write, no overflow) and its type map is the
concatenation of the displaced repetitions of the component maps; markers contribute nothing;
whatever the allocated memory contained.  `e` is any function giving the components' extents as
reported by `MPI_Type_extent`, read as signed. -/
theorem C24_struct_typemap (cfg : Cfg) (hcfg : cfg.Ok) (g : Garbage) (e : Typestruct → Int)
    (xs : List (Int × Int × Typestruct))
    (hcomp : ∀ x ∈ xs, IsMarker x.2.2 ∨ DataDesc cfg x.2.2)
    (hext : ∀ x ∈ xs, ¬ IsMarker x.2.2 → Type_extent cfg x.2.2 = .ok (u64 (e x.2.2)))
    (hlen : ∀ x ∈ xs, ¬ IsMarker x.2.2 → 0 ≤ x.1)
    (hcount : ((xs.flatMap (blockSpec e)).length : Int) ≤ 2147483647)
    (hfit : ∀ y ∈ xs.flatMap (blockSpec e),
      -9223372036854775808 ≤ y.1 ∧ y.1 ≤ 9223372036854775807 - 128) :
    ∃ t, Type_struct cfg g (xs.map mkBlock) = .ok t ∧
      typeMap t = xs.flatMap (blockSpec e) ∧
      t.count = (xs.flatMap (blockSpec e)).length ∧
      t.committed = 0 ∧ DataDesc cfg t := by
  have hE := entries_spec cfg e xs hcomp
  have hid : (xs.flatMap (blockSpec e)).map (fun y => (s64 y.1, y.2)) = xs.flatMap (blockSpec e) := by
    conv => rhs; rw [← List.map_id (xs.flatMap (blockSpec e))]
    apply List.map_congr_left
    intro y hy
    have := hfit y hy
    rw [s64_of_range (by omega) (by omega)]; rfl
  rw [hid] at hE
  generalize hEdef : (xs.map mkBlock).flatMap (blockEntries e) = E at hE
  have hElen : E.length = (xs.flatMap (blockSpec e)).length := by rw [← hE, List.length_map]
  have hwfb : ∀ b ∈ xs.map mkBlock, b.ty.WF := by
    intro b hb
    obtain ⟨x, hx, rfl⟩ := List.mem_map.1 hb
    rcases hcomp x hx with h | h
    · exact h.wf
    · exact h.wf
  have hdata : ∀ x ∈ xs, (mkBlock x).isData → ¬ IsMarker x.2.2 := by
    intro x _ hd hm
    unfold Block.isData Block.k0 mkBlock at hd
    rcases hm with h | h <;> rw [h] at hd <;> simp [static1] at hd
  have heq := Type_struct_eq cfg g e (xs.map mkBlock) hwfb
    (by
      intro b hb hd
      obtain ⟨x, hx, rfl⟩ := List.mem_map.1 hb
      exact hlen x hx (hdata x hx hd))
    (by
      intro b hb hd _
      obtain ⟨x, hx, rfl⟩ := List.mem_map.1 hb
      exact hext x hx (hdata x hx hd))
    (by rw [hEdef, hElen]; exact hcount)
  rw [hEdef] at heq
  have hwf := structTemp_wf g (xs.map mkBlock) E
  have hmap := structTemp_map g (xs.map mkBlock) E
  have hEl : ∀ p ∈ E, hasLen cfg p.type := by
    intro p hp
    have : (p.disp, p.type) ∈ xs.flatMap (blockSpec e) := by
      rw [← hE]; exact List.mem_map.2 ⟨p, hp, rfl⟩
    obtain ⟨x, hx, hy⟩ := List.mem_flatMap.1 this
    unfold blockSpec at hy
    by_cases hm : IsMarker x.2.2
    · rw [if_pos hm] at hy; simp at hy
    · rw [if_neg hm] at hy
      unfold Spec.repeated Spec.shift at hy
      obtain ⟨j, _, hy⟩ := List.mem_flatMap.1 hy
      obtain ⟨q, hq, hqq⟩ := List.mem_map.1 hy
      obtain ⟨s, hs⟩ := ((hcomp x hx).resolve_left hm).lens q hq
      have : q.2 = p.type := by
        have := congrArg Prod.snd hqq; simpa using this
      rw [← this]
      exact (hasLen_of_ok hs).1
  have hub : ∃ u, calc_ub cfg (structTemp g (xs.map mkBlock) E) = .ok u := by
    unfold calc_ub
    refine ⟨_, calcUbLoop_eq cfg _ _ _ _ (by have := hwf.fits; omega)
      (by rw [List.drop_zero]; show ∀ p ∈ (structTemp g (xs.map mkBlock) E).map, _; rw [hmap]; exact hEl)
      ?_⟩
    rw [List.drop_zero]
    show ∀ p ∈ (structTemp g (xs.map mkBlock) E).map, _
    rw [hmap]
    intro p hp
    have : (p.disp, p.type) ∈ xs.flatMap (blockSpec e) := by
      rw [← hE]; exact List.mem_map.2 ⟨p, hp, rfl⟩
    have h1 := hfit _ this
    have h2 := lenOf_range hcfg (hEl p hp)
    simp only [] at h1
    omega
  have hlb := calc_lb_wf hwf
  obtain ⟨u, hu⟩ := hub
  have key : ∃ l u, Type_struct cfg g (xs.map mkBlock)
      = .ok { structTemp g (xs.map mkBlock) E with lb := l, ub := u } := by
    rw [heq]
    cases hA : anyLower (xs.map mkBlock) <;> cases hU : anyUpper (xs.map mkBlock) <;>
      simp only [if_true, if_false, Bool.false_eq_true, hlb, hu, Res.ok_bind, Res.pure_eq] <;>
      exact ⟨_, _, rfl⟩
  obtain ⟨l, u', hk⟩ := key
  refine ⟨_, hk, ?_, ?_, rfl, ?_⟩
  · show (Typestruct.map (structTemp g (xs.map mkBlock) E)).map _ = _
    rw [hmap]; exact hE
  · show (E.length : Int) = _
    rw [hElen]
  · refine ⟨⟨hwf.nonneg, hwf.fits, hwf.nonempty⟩, ?_⟩
    intro y hy
    have hy' : y ∈ (Typestruct.map (structTemp g (xs.map mkBlock) E)).map
      fun p => (p.disp, p.type) := hy
    rw [hmap] at hy'
    obtain ⟨p, hp, rfl⟩ := List.mem_map.1 hy'
    exact ⟨_, hEl p hp⟩

/-- Non-trivial instance: MPI_INT twice at 0 and an MPI_LB at -8, a double at 16. -/
example : ∃ t, Type_struct {} ⟨7, 7, fun _ => ⟨3, 3⟩⟩
      ([(2, 0, static1 4 2), (1, -8, static1 0 12), (1, 16, static1 8 9)].map mkBlock) = .ok t ∧
      typeMap t = [(0, 2), (4, 2), (16, 9)] :=
  ⟨_, rfl, by decide⟩


/-! ### The other constructors -/

theorem fill_ok {α : Type} (f : Nat → α) (n i : Nat) :
    fill (fun i => .ok (f i)) n i = .ok ((List.range' i n).map f) := by
  induction n generalizing i with
  | zero => rfl
  | succ n ih => rw [fill, Res.ok_bind, ih, Res.ok_bind, List.range'_succ]; rfl

theorem fill_congr {α : Type} {f g : Nat → Res α} (n i : Nat)
    (h : ∀ k, i ≤ k → k < i + n → f k = g k) : fill f n i = fill g n i := by
  induction n generalizing i with
  | zero => rfl
  | succ n ih =>
    rw [fill, fill, h i (by omega) (by omega), ih (i + 1) (fun k h1 h2 => h k (by omega) (by omega))]

theorem vla_ok {c : Int} (h : 0 ≤ c) : vla c = .ok c.toNat := by
  unfold vla; rw [if_neg (by omega)]

theorem contiguous_eq {cfg : Cfg} {g : Garbage} {t : Typestruct} {e : Int} {n : Int} (hn : 0 ≤ n)
    (he : Type_extent cfg t = .ok (u64 e)) :
    Type_contiguous cfg g n t
      = Type_struct cfg g (((List.range n.toNat).map fun (i : Nat) => (1, e * i, t)).map mkBlock) := by
  unfold Type_contiguous
  rw [vla_ok hn, Res.ok_bind, he, Res.ok_bind, fill_ok, Res.ok_bind, List.map_map,
    List.range_eq_range']
  simp only [u64_mul_left]
  rfl

theorem hvector_eq {cfg : Cfg} {g : Garbage} {t : Typestruct} {e : Int} {n bl s : Int} (hn : 0 ≤ n)
    (he : Type_extent cfg t = .ok e) :
    Type_hvector cfg g n bl (u64 s) t
      = Type_struct cfg g (((List.range n.toNat).map fun (i : Nat) => (bl, s * i, t)).map mkBlock) := by
  unfold Type_hvector
  rw [vla_ok hn, Res.ok_bind, he, Res.ok_bind, fill_ok, Res.ok_bind, List.map_map,
    List.range_eq_range']
  simp only [u64_mul_left]
  rfl

theorem vector_eq {cfg : Cfg} {g : Garbage} {t : Typestruct} {e : Int} {n bl s : Int} (hn : 0 ≤ n)
    (he : Type_extent cfg t = .ok (u64 e)) :
    Type_vector cfg g n bl s t
      = Type_struct cfg g
          (((List.range n.toNat).map fun (i : Nat) => (bl, s * e * i, t)).map mkBlock) := by
  unfold Type_vector
  rw [he, Res.ok_bind]
  simp only []
  rw [u64_mul_right, hvector_eq hn he]

theorem hindexed_eq {cfg : Cfg} {g : Garbage} {t : Typestruct} (l : List (Int × Int)) :
    Type_hindexed cfg g l.length (l.map Prod.fst) (l.map fun x => u64 x.2) t
      = Type_struct cfg g ((l.map fun x => (x.1, x.2, t)).map mkBlock) := by
  unfold Type_hindexed
  rw [vla_ok (by omega), Res.ok_bind]
  have : ∀ (k : Nat), fill (fun i => do
      let b ← rd (l.map Prod.fst) i
      let d ← rd (l.map fun x => u64 x.2) i
      return (⟨b, d, t⟩ : Block)) (l.length - k) k
      = .ok (((l.drop k).map fun x => (x.1, x.2, t)).map mkBlock) := by
    intro k
    induction hk : l.length - k generalizing k with
    | zero =>
      rw [List.drop_eq_nil_of_le (by omega)]; rfl
    | succ n ih =>
      have hlt : k < l.length := by omega
      rw [fill, ih (k + 1) (by omega), List.drop_eq_getElem_cons hlt]
      simp only [rd, List.getElem?_map, List.getElem?_eq_getElem hlt, Option.map_some, Res.ok_bind,
        Res.pure_eq, List.map_cons]
      rfl
  have h0 := this 0
  simp only [Nat.sub_zero, List.drop_zero] at h0
  rw [show (l.length : Int).toNat = l.length by omega, h0, Res.ok_bind]

theorem indexed_eq {cfg : Cfg} {g : Garbage} {t : Typestruct} {e : Int} (l : List (Int × Int))
    (he : Type_extent cfg t = .ok (u64 e)) :
    Type_indexed cfg g l.length (l.map Prod.fst) (l.map Prod.snd) t
      = Type_struct cfg g ((l.map fun x => (x.1, x.2 * e, t)).map mkBlock) := by
  unfold Type_indexed
  rw [vla_ok (by omega), Res.ok_bind]
  have : ∀ (k : Nat), fill (fun i => do
      let extent ← Type_extent cfg t
      let d ← rd (l.map Prod.snd) i
      return u64 (d * extent)) (l.length - k) k
      = .ok ((l.drop k).map fun x => u64 (x.2 * e)) := by
    intro k
    induction hk : l.length - k generalizing k with
    | zero =>
      rw [List.drop_eq_nil_of_le (by omega)]; rfl
    | succ n ih =>
      have hlt : k < l.length := by omega
      rw [fill, ih (k + 1) (by omega), List.drop_eq_getElem_cons hlt, he]
      simp only [rd, List.getElem?_map, List.getElem?_eq_getElem hlt, Option.map_some, Res.ok_bind,
        Res.pure_eq, List.map_cons, u64_mul_right]
  have h0 := this 0
  simp only [Nat.sub_zero, List.drop_zero] at h0
  rw [show (l.length : Int).toNat = l.length by omega, h0, Res.ok_bind]
  have := hindexed_eq (cfg := cfg) (g := g) (t := t) (l.map fun x => (x.1, x.2 * e))
  simp only [List.length_map, List.map_map, Function.comp_def] at this
  rw [show (l.map Prod.fst) = l.map (fun x => x.1) from rfl, this, List.map_map]
  rfl

theorem indexed_block_eq {cfg : Cfg} {g : Garbage} {t : Typestruct} {e bl : Int} (l : List Int)
    (he : Type_extent cfg t = .ok (u64 e)) :
    Type_create_indexed_block cfg g l.length bl l t
      = Type_struct cfg g ((l.map fun d => (bl, d * e, t)).map mkBlock) := by
  unfold Type_create_indexed_block
  rw [vla_ok (by omega), Res.ok_bind, fill_ok, Res.ok_bind]
  have h1 : (List.range' 0 (l.length : Int).toNat).map (fun _ => bl) = l.map fun _ => bl := by
    apply List.ext_getElem
    · simp
    · simp
  rw [h1]
  have := indexed_eq (cfg := cfg) (g := g) (t := t) (e := e) (l.map fun d => (bl, d)) he
  simp only [List.length_map, List.map_map, Function.comp_def, List.map_id'] at this
  rw [this, List.map_map]
  rfl

/-- The constructor succeeded with exactly the type map `spec`, uncommitted. -/
def Yields (cfg : Cfg) (r : Res Typestruct) (spec : List Spec.Entry) : Prop :=
  ∃ t, r = .ok t ∧ typeMap t = spec ∧ t.count = spec.length ∧ t.committed = 0 ∧ DataDesc cfg t

/-- The exact type map fits the C types (`int` count, `long` displacements and ends). -/
def Fits (spec : List Spec.Entry) : Prop :=
  (spec.length : Int) ≤ 2147483647 ∧
    ∀ y ∈ spec, -9223372036854775808 ≤ y.1 ∧ y.1 ≤ 9223372036854775807 - 128

/-- Blocks of one data component: the struct theorem in a form suited to the other constructors. -/
theorem homogeneous_typemap {cfg : Cfg} (hcfg : cfg.Ok) (g : Garbage) {t : Typestruct} {e : Int}
    (ht : DataDesc cfg t) (hm : ¬ IsMarker t) (he : Type_extent cfg t = .ok (u64 e))
    (l : List (Int × Int)) (hlen : ∀ x ∈ l, 0 ≤ x.1)
    (hf : Fits (l.flatMap fun x => Spec.repeated (typeMap t) e x.1.toNat x.2)) :
    Yields cfg (Type_struct cfg g ((l.map fun x => (x.1, x.2, t)).map mkBlock))
      (l.flatMap fun x => Spec.repeated (typeMap t) e x.1.toNat x.2) := by
  have hspec : (l.map fun x => (x.1, x.2, t)).flatMap (blockSpec fun _ => e)
      = l.flatMap fun x => Spec.repeated (typeMap t) e x.1.toNat x.2 := by
    rw [List.flatMap_map]
    congr 1
    funext x
    unfold blockSpec
    rw [if_neg hm]
  obtain ⟨h1, h2⟩ := hf
  have := C24_struct_typemap cfg hcfg g (fun _ => e) (l.map fun x => (x.1, x.2, t))
    (by
      intro x hx
      obtain ⟨y, _, rfl⟩ := List.mem_map.1 hx
      exact Or.inr ht)
    (by
      intro x hx _
      obtain ⟨y, _, rfl⟩ := List.mem_map.1 hx
      exact he)
    (by
      intro x hx _
      obtain ⟨y, hy, rfl⟩ := List.mem_map.1 hx
      exact hlen y hy)
    (by rw [hspec]; exact h1) (by rw [hspec]; exact h2)
  rw [hspec] at this
  exact this

/-- C24, contiguous: `n` copies, one extent apart. -/
theorem C24_contiguous_typemap {cfg : Cfg} (hcfg : cfg.Ok) (g : Garbage) {t : Typestruct} {e n : Int}
    (ht : DataDesc cfg t) (hm : ¬ IsMarker t) (he : Type_extent cfg t = .ok (u64 e)) (hn : 0 ≤ n)
    (hf : Fits (Spec.repeated (typeMap t) e n.toNat 0)) :
    Yields cfg (Type_contiguous cfg g n t) (Spec.repeated (typeMap t) e n.toNat 0) := by
  have hs : ((List.range n.toNat).map fun (i : Nat) => ((1 : Int), e * i)).flatMap
        (fun x => Spec.repeated (typeMap t) e x.1.toNat x.2)
      = Spec.repeated (typeMap t) e n.toNat 0 := by
    rw [List.flatMap_map]
    unfold Spec.repeated
    congr 1
    funext i
    simp [Int.mul_comm]
  rw [contiguous_eq hn he]
  have := homogeneous_typemap hcfg g ht hm he ((List.range n.toNat).map fun (i : Nat) => (1, e * i))
    (by intro x hx; obtain ⟨i, _, rfl⟩ := List.mem_map.1 hx; simp) (by rw [hs]; exact hf)
  rw [hs, List.map_map, List.map_map] at this
  rw [List.map_map]
  exact this

/-- C24, hvector: `n` blocks of `bl` copies, `s` bytes apart. -/
theorem C24_hvector_typemap {cfg : Cfg} (hcfg : cfg.Ok) (g : Garbage) {t : Typestruct} {e n bl s : Int}
    (ht : DataDesc cfg t) (hm : ¬ IsMarker t) (he : Type_extent cfg t = .ok (u64 e)) (hn : 0 ≤ n)
    (hb : 0 ≤ bl)
    (hf : Fits ((List.range n.toNat).flatMap fun (i : Nat) =>
      Spec.repeated (typeMap t) e bl.toNat (s * i))) :
    Yields cfg (Type_hvector cfg g n bl (u64 s) t)
      ((List.range n.toNat).flatMap fun (i : Nat) => Spec.repeated (typeMap t) e bl.toNat (s * i)) := by
  rw [hvector_eq hn he]
  have := homogeneous_typemap hcfg g ht hm he ((List.range n.toNat).map fun (i : Nat) => (bl, s * i))
    (by intro x hx; obtain ⟨i, _, rfl⟩ := List.mem_map.1 hx; exact hb)
    (by rw [List.flatMap_map]; exact hf)
  rw [List.flatMap_map, List.map_map, List.map_map] at this
  rw [List.map_map]
  exact this

/-- C24, vector: `n` blocks of `bl` copies, `s` extents apart. -/
theorem C24_vector_typemap {cfg : Cfg} (hcfg : cfg.Ok) (g : Garbage) {t : Typestruct} {e n bl s : Int}
    (ht : DataDesc cfg t) (hm : ¬ IsMarker t) (he : Type_extent cfg t = .ok (u64 e)) (hn : 0 ≤ n)
    (hb : 0 ≤ bl)
    (hf : Fits ((List.range n.toNat).flatMap fun (i : Nat) =>
      Spec.repeated (typeMap t) e bl.toNat (s * e * i))) :
    Yields cfg (Type_vector cfg g n bl s t)
      ((List.range n.toNat).flatMap fun (i : Nat) =>
        Spec.repeated (typeMap t) e bl.toNat (s * e * i)) := by
  rw [vector_eq hn he, ← hvector_eq hn he]
  exact C24_hvector_typemap hcfg g ht hm he hn hb hf

/-- C24, hindexed: blocks (length, byte displacement). -/
theorem C24_hindexed_typemap {cfg : Cfg} (hcfg : cfg.Ok) (g : Garbage) {t : Typestruct} {e : Int}
    (ht : DataDesc cfg t) (hm : ¬ IsMarker t) (he : Type_extent cfg t = .ok (u64 e))
    (l : List (Int × Int)) (hb : ∀ x ∈ l, 0 ≤ x.1)
    (hf : Fits (l.flatMap fun x => Spec.repeated (typeMap t) e x.1.toNat x.2)) :
    Yields cfg (Type_hindexed cfg g l.length (l.map fun x => x.1) (l.map fun x => u64 x.2) t)
      (l.flatMap fun x => Spec.repeated (typeMap t) e x.1.toNat x.2) := by
  have := homogeneous_typemap hcfg g ht hm he l hb hf
  rw [← hindexed_eq] at this
  exact this

/-- C24, indexed: blocks (length, displacement in extents). -/
theorem C24_indexed_typemap {cfg : Cfg} (hcfg : cfg.Ok) (g : Garbage) {t : Typestruct} {e : Int}
    (ht : DataDesc cfg t) (hm : ¬ IsMarker t) (he : Type_extent cfg t = .ok (u64 e))
    (l : List (Int × Int)) (hb : ∀ x ∈ l, 0 ≤ x.1)
    (hf : Fits (l.flatMap fun x => Spec.repeated (typeMap t) e x.1.toNat (x.2 * e))) :
    Yields cfg (Type_indexed cfg g l.length (l.map fun x => x.1) (l.map fun x => x.2) t)
      (l.flatMap fun x => Spec.repeated (typeMap t) e x.1.toNat (x.2 * e)) := by
  have := homogeneous_typemap hcfg g ht hm he (l.map fun x => (x.1, x.2 * e))
    (by intro x hx; obtain ⟨y, hy, rfl⟩ := List.mem_map.1 hx; exact hb y hy)
    (by rw [List.flatMap_map]; exact hf)
  rw [List.flatMap_map, List.map_map, List.map_map] at this
  have h2 := indexed_eq (g := g) l he
  rw [show l.map (fun x => x.1) = l.map Prod.fst from rfl,
    show l.map (fun x => x.2) = l.map Prod.snd from rfl, h2, List.map_map]
  exact this

/-- C24, create_indexed_block: equal blocks at displacements given in extents. -/
theorem C24_indexed_block_typemap {cfg : Cfg} (hcfg : cfg.Ok) (g : Garbage) {t : Typestruct}
    {e bl : Int} (ht : DataDesc cfg t) (hm : ¬ IsMarker t) (he : Type_extent cfg t = .ok (u64 e))
    (l : List Int) (hb : 0 ≤ bl)
    (hf : Fits (l.flatMap fun d => Spec.repeated (typeMap t) e bl.toNat (d * e))) :
    Yields cfg (Type_create_indexed_block cfg g l.length bl l t)
      (l.flatMap fun d => Spec.repeated (typeMap t) e bl.toNat (d * e)) := by
  rw [indexed_block_eq l he]
  have := homogeneous_typemap hcfg g ht hm he (l.map fun d => (bl, d * e))
    (by intro x hx; obtain ⟨y, hy, rfl⟩ := List.mem_map.1 hx; exact hb)
    (by rw [List.flatMap_map]; exact hf)
  rw [List.flatMap_map, List.map_map, List.map_map] at this
  rw [List.map_map]
  exact this

theorem cfg_default_ok : ({} : Cfg).Ok := by constructor <;> decide

/-- Non-trivial instance: `MPI_Type_vector(2, 2, 3, MPI_DOUBLE)`. -/
example : Yields {} (Type_vector {} ⟨9, 9, fun _ => ⟨0, 0⟩⟩ 2 2 3 (static1 8 9))
    [(0, 9), (8, 9), (24, 9), (32, 9)] := by
  have h := C24_vector_typemap (cfg := {}) cfg_default_ok ⟨9, 9, fun _ => ⟨0, 0⟩⟩
    (t := static1 8 9) (e := 8) (n := 2) (bl := 2) (s := 3)
    ⟨by constructor <;> decide, by
      intro x hx
      simp [typeMap, static1] at hx
      subst hx
      exact ⟨8, rfl⟩⟩ (by decide) (by decide) (by decide) (by decide)
    (by constructor <;> decide)
  exact h

end MpiSerial
