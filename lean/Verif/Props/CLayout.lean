import Verif.Proofs.CLayout
import Verif.Props.TypeUse

/-!
# C80: datatypes of C structs
-/

set_option autoImplicit false

namespace MpiSerial

open Spec

/-- The ABI with the sizes the library knows and the alignments `al`. -/
abbrev abiOf (cfg : Cfg) (al : Int → Int) : Abi := ⟨sz cfg, al⟩

/-- Datatype handle `h` stands for the datatype whose entries are the members of the C type, in order. -/
def Represents (cfg : Cfg) (al : Int → Int) (L : Ledger) (h : Int) (c : CType) : Prop :=
  StandsFor cfg L h (.data (plain (c.members (abiOf cfg al) 0)))

section
variable {env : Env} {s : Sys} {L : Ledger} {al : Int → Int}

/-- C80: the handle of a predefined datatype with one entry represents the basic type. -/
theorem C80_basic {h k : Int} {t : Typestruct} (hd : L.desc env.cfg h = some t) (hn : h < 0) (hb : IsBasic env.cfg t)
    (hm : typeMap t = [(0, k)]) : Represents env.cfg al L h (.basic k) := by
  refine ⟨t, hd, ?_, fun hh => absurd hh (by omega)⟩
  have := Describes.basic hb
  rwa [hm] at this

/-- struct { T a; int b; } -/
def withInt (k : Int) : CType := .struct (.more (.basic k) (.one (.basic 2)))

/-- C80: the predefined pairs (MPI_FLOAT_INT, MPI_DOUBLE_INT, MPI_LONG_INT, MPI_2INT, MPI_SHORT_INT, MPI_LONG_DOUBLE_INT) represent the
structs of a value and an `int` the standard describes them by. -/
theorem C80_pairs (ha : ∀ k ∈ [1, 2, 3, 8, 9, 10], al k = sz env.cfg k) :
    Represents env.cfg al L (-26) (withInt 8) ∧ Represents env.cfg al L (-27) (withInt 9) ∧ Represents env.cfg al L (-28) (withInt 3) ∧
    Represents env.cfg al L (-29) (withInt 2) ∧ Represents env.cfg al L (-30) (withInt 1) ∧ Represents env.cfg al L (-31) (withInt 10) := by
  have key : ∀ (h k : Int) (t : Typestruct), h < 0 → L.desc env.cfg h = some t → IsBasic env.cfg t → k ∈ [1, 2, 3, 8, 9, 10] →
      typeMap t = [(0, k), (nextMultiple (sz env.cfg k) 4, 2)] → Represents env.cfg al L h (withInt k) := by
    intro h k t h1 h2 h3 h4 h5
    refine ⟨t, h2, ?_, fun hh => absurd hh (by omega)⟩
    have hd := Describes.basic h3
    rw [h5] at hd
    have e : (withInt k).members (abiOf env.cfg al) 0 = [(0, k), (nextMultiple (sz env.cfg k) 4, 2)] := by
      have h0 : nextMultiple 0 (al k) = 0 := by unfold nextMultiple; simp
      have e2 : al 2 = 4 := ha 2 (by decide)
      simp only [withInt, CType.members, CFields.members, CType.align, CType.size, h0, e2, Int.zero_add, List.cons_append, List.nil_append]
    rw [e]
    exact hd
  have hb : ∀ u a d b, static2 u a d b ∈ simpletypes env.cfg → IsBasic env.cfg (static2 u a d b) :=
    fun u a d b h => ⟨h, by unfold IsMarker static2 static1; simp, by unfold static2 static1; simp⟩
  refine ⟨key _ _ _ (by decide) rfl (hb 8 8 4 2 ?_) (by decide) rfl, key _ _ _ (by decide) rfl (hb 16 9 8 2 ?_) (by decide) rfl,
    key _ _ _ (by decide) rfl (hb 16 3 8 2 ?_) (by decide) rfl, key _ _ _ (by decide) rfl (hb 8 2 4 2 ?_) (by decide) rfl,
    key _ _ _ (by decide) rfl (hb 8 1 4 2 ?_) (by decide) rfl, key _ _ _ (by decide) rfl (hb 32 10 16 2 ?_) (by decide) rfl⟩ <;>
    simp [simpletypes]

/-- C80 (partial): the datatype of a naturally aligned C type has the extent that C calls its size, and lower bound 0. -/
theorem C80_sizeof_partial (hr : Reach env s L) (hc : env.cfg.Ok) {h : Int} {c : CType} (hn : c.Natural (abiOf env.cfg al))
    (hd : Represents env.cfg al L h c) (hS : c.size (abiOf env.cfg al) ≤ 2147483647) :
    MPI_Type_extent env s h = .ok (s, c.size (abiOf env.cfg al)) ∧ MPI_Type_lb env s h = .ok (s, 0) := by
  have hl := c.laid _ hn
  have h2 := hl.dtype
  have h3 := hl.size_pos
  obtain ⟨t, hdesc, hdes, hrep⟩ := hd
  obtain ⟨M, lst, hi⟩ := hr.inv
  refine ⟨?_, ?_⟩
  · unfold MPI_Type_extent
    rw [hi.typeOf hdesc, Res.ok_bind]
    dsimp only
    rw [hdes.extent hc]
    have : extent (sz env.cfg) (plain (c.members (abiOf env.cfg al) 0)) = c.size (abiOf env.cfg al) := h2.2.2
    rw [this, u64_of_range (by omega) (by omega)]
    rfl
  · by_cases hp : 0 ≤ h
    · rw [(C59_reports hr hc hp ⟨t, hdesc, hdes, hrep⟩).lb, h2.1]
      rfl
    · unfold MPI_Type_lb
      rw [hi.typeOf hdesc, Res.ok_bind]
      dsimp only
      have hm : t ∈ simpletypes env.cfg := by
        unfold Ledger.desc at hdesc
        rw [if_pos (by omega)] at hdesc
        exact List.mem_of_getElem? hdesc
      have h0 : t.lb = 0 := by
        simp only [simpletypes, List.mem_cons, List.not_mem_nil, or_false] at hm
        rcases hm with h | h | h | h | h | h | h | h | h | h | h | h | h | h | h | h | h | h | h | h | h | h | h | h | h | h | h | h | h | h |
          h | h | h | h | h | h | h | h | h | h | h | h | h | h | h <;> rw [h] <;> rfl
      unfold Type_lb
      rw [h0]
      rfl

/-- C80 (partial): MPI_Type_struct, given `offsetof` of every member and a datatype for each member - or, for an array, its length and the
datatype of its elements - returns a handle that represents the struct.  Its extent is then `sizeof` (`C80_sizeof_partial`).
Missing: basic types whose alignment is not their size (`C80_fails_complex`), empty arrays (`C25_fails_empty`), dirty memory (`C79_fails_flags`). -/
theorem C80_struct_partial (hr : Reach env s L) (hc : env.cfg.Ok) (hroom : L.objs.length < 262143)
    (hgl : (env.garbage s.nextType).o_lb = 0) (hgu : (env.garbage s.nextType).o_ub = 0)
    {fs : CFields} (hn : fs.Natural (abiOf env.cfg al)) (hS : (CType.struct fs).size (abiOf env.cfg al) ≤ 2147483647)
    {xs : List (Int × Int × Int × Comp)}
    (hx : Describing (Represents env.cfg al L) (abiOf env.cfg al) (fs.offsets (abiOf env.cfg al) 0) xs) :
    ∃ s' h t, MPI_Type_struct env s xs.length (xs.map fun x => x.1) (xs.map fun x => x.2.1) (xs.map fun x => x.2.2.1) = .ok (s', h) ∧
      0 ≤ h ∧ h ∉ L.objs.map Prod.fst ∧ s'.mem = s.mem ∧ Step env s L s' (L.addType h t) ∧
      Represents env.cfg al (L.addType h t) h (.struct fs) := by
  have hl := (CType.struct fs).laid _ (by simpa only [CType.Natural] using hn)
  have hrange := fs.offsets_range hn 0 (Int.le_refl 0)
  have hstop := (nextMultiple_spec (x := fs.stop (abiOf env.cfg al) 0) (pow_pos (fs.laid _ hn 0).pow)).2.1
  have he := hx.spec fun o ho => (hrange o ho).2.2
  rw [CFields.offsets_members] at he
  have hS' : nextMultiple (fs.stop (abiOf env.cfg al) 0) (fs.align (abiOf env.cfg al)) ≤ 2147483647 := by
    simpa only [CType.size] using hS
  have hsmall := small_of (S := 2147483647) he
    (by
      intro b hb
      obtain ⟨x, hxx, rfl⟩ := List.mem_map.1 hb
      obtain ⟨-, -, o, ho, e⟩ := hx.mem hxx
      have := hrange o ho
      dsimp only; omega)
    (by
      intro b hb
      obtain ⟨x, hxx, rfl⟩ := List.mem_map.1 hb
      obtain ⟨-, ⟨u, -, e⟩, -⟩ := hx.mem hxx
      exact ⟨_, e⟩)
    (by
      obtain ⟨k, hk⟩ := hl.zero
      simp only [CType.members] at hk
      exact List.ne_nil_of_mem hk)
    (by
      have := fs.length_le _ hn 0 0
      omega)
    (by
      intro y hy
      have := hl.within (y := y) (by simpa only [CType.members] using hy)
      have := hl.sized y (by simpa only [CType.members] using hy)
      omega)
    (Int.le_refl _)
  have hu : (xs.map fun x => u64 x.2.1) = xs.map fun x => x.2.1 := by
    apply List.map_congr_left
    intro x hxx
    obtain ⟨-, -, o, ho, e⟩ := hx.mem hxx
    have := hrange o ho
    rw [u64_of_range (by omega) (by omega)]
  obtain ⟨s', h, t, h1, h2, h3, h4, h5, h6, -⟩ := C59_built_partial hr hc hroom hgl hgu
    (TypeBuild.struct xs (fun x hxx => (hx.mem hxx).1) (fun x hxx => by
      obtain ⟨-, ⟨u, hu, e⟩, -⟩ := hx.mem hxx
      rw [e]
      exact hu) hsmall)
  rw [hu] at h1
  refine ⟨s', h, t, h1, h2, h3, h4, h5, ?_⟩
  have e2 : struct (sz env.cfg) (xs.map fun x => (x.1.toNat, x.2.1, x.2.2.2)) =
      plain ((CType.struct fs).members (abiOf env.cfg al) 0) := by
    simp only [CType.members]
    exact he
  rw [e2] at h6
  exact h6

/-- C80 (partial): MPI_Type_contiguous gives the datatype of an array. -/
theorem C80_array_partial (hr : Reach env s L) (hc : env.cfg.Ok) (hroom : L.objs.length < 262143)
    (hgl : (env.garbage s.nextType).o_lb = 0) (hgu : (env.garbage s.nextType).o_ub = 0)
    {n : Nat} {c : CType} (hn : (CType.array n c).Natural (abiOf env.cfg al)) (hS : (CType.array n c).size (abiOf env.cfg al) ≤ 2147483647)
    {old : Int} (hd : Represents env.cfg al L old c) :
    ∃ s' h t, MPI_Type_contiguous env s n old = .ok (s', h) ∧
      0 ≤ h ∧ h ∉ L.objs.map Prod.fst ∧ s'.mem = s.mem ∧ Step env s L s' (L.addType h t) ∧
      Represents env.cfg al (L.addType h t) h (.array n c) := by
  have hl := (CType.array n c).laid _ hn
  have hn' : c.Natural (abiOf env.cfg al) := by simp only [CType.Natural] at hn; exact hn.2
  have hext : extent (sz env.cfg) (plain (c.members (abiOf env.cfg al) 0)) = c.size (abiOf env.cfg al) := (c.laid _ hn').dtype.2.2
  have hmap : Spec.contiguous (sz env.cfg) n (plain (c.members (abiOf env.cfg al) 0)) =
      plain ((CType.array n c).members (abiOf env.cfg al) 0) := by
    unfold Spec.contiguous Spec.struct
    simp only [List.flatMap_cons, List.flatMap_nil, List.append_nil]
    show (⟨repeated (c.members (abiOf env.cfg al) 0) (extent (sz env.cfg) (plain (c.members (abiOf env.cfg al) 0))) n 0, none, none⟩ : DType) = _
    rw [hext]
    exact congrArg plain (c.repeated_eq n 0)
  have hmap' := hmap
  rw [spec_contiguous_eq] at hmap'
  have hsize : (CType.array n c).size (abiOf env.cfg al) = n * c.size (abiOf env.cfg al) := by simp only [CType.size]
  have hpos := (c.laid _ hn').size_pos
  have hsmall := small_of (abi := abiOf env.cfg al) (S := 2147483647) hmap'
    (by
      intro b hb
      obtain ⟨i, hi, rfl⟩ := List.mem_map.1 hb
      have hi := List.mem_range.1 hi
      dsimp only
      rw [hext, Int.mul_comm]
      have h1 := Int.mul_nonneg (show 0 ≤ (i : Int) by omega) (Int.le_of_lt hpos)
      have h2 : (i : Int) * c.size (abiOf env.cfg al) ≤ n * c.size (abiOf env.cfg al) :=
        Int.mul_le_mul_of_nonneg_right (by omega) (by omega)
      omega)
    (by
      intro b hb
      obtain ⟨i, hi, rfl⟩ := List.mem_map.1 hb
      exact ⟨_, rfl⟩)
    (by
      obtain ⟨k, hk⟩ := hl.zero
      exact List.ne_nil_of_mem hk)
    (by
      have := (CType.array n c).length_le _ hn 0
      omega)
    (by
      intro y hy
      have := hl.within hy
      have := hl.sized y hy
      omega)
    (Int.le_refl _)
  obtain ⟨s', h, t, h1, h2, h3, h4, h5, h6, -⟩ := C59_built_partial hr hc hroom hgl hgu
    (TypeBuild.contiguous (n := (n : Int)) hd (by omega) (by simpa using hsmall))
  refine ⟨s', h, t, h1, h2, h3, h4, h5, ?_⟩
  rw [Int.toNat_natCast, hmap] at h6
  exact h6

/-- C80 (partial): an array of `n` values of the C type at `sb`, sent with a datatype for it and received into an array of `k ≤ n` at `rb`: the
call returns, every member of every element has arrived, and nothing else has changed, not even the padding.
Missing as above, and arrays beyond 2 GiB (`C31_fails_large`). -/
theorem C80_delivers_partial (hr : Reach env s L) (hc : env.cfg.Ok) {c : CType} (hn : c.Natural (abiOf env.cfg al))
    {sb st rb rt : Int} {n k : Nat} {R : Res Mem} (h : Delivers env s L sb n st rb k rt R) (hk : k ≤ n)
    (h1 : Represents env.cfg al L st c) (h2 : Represents env.cfg al L rt c) (c1 : Committed env.cfg L st) (c2 : Committed env.cfg L rt)
    (hs : 0 ≤ sb ∧ sb + n * c.size (abiOf env.cfg al) ≤ 18446744073709551616)
    (hrb : 0 ≤ rb ∧ rb + k * c.size (abiOf env.cfg al) ≤ 18446744073709551616) (hS : n * c.size (abiOf env.cfg al) ≤ 2147483647)
    (ha : Apart sb (n * c.size (abiOf env.cfg al)) rb (k * c.size (abiOf env.cfg al)))
    (hsa : ∀ a, InBytes a sb (n * c.size (abiOf env.cfg al)) → (s.mem a).isSome = true)
    (hra : ∀ a, InBytes a rb (k * c.size (abiOf env.cfg al)) → (s.mem a).isSome = true) :
    ∃ m', R = .ok m' ∧
      (∀ y ∈ (CType.array k c).members (abiOf env.cfg al) 0, ∀ b, 0 ≤ b → b < sz env.cfg y.2 →
        m' (rb + y.1 + b) = s.mem (sb + y.1 + b)) ∧
      ∀ a, (∀ y ∈ (CType.array k c).members (abiOf env.cfg al) rb, ¬ InBytes a y.1 (sz env.cfg y.2)) → m' a = s.mem a := by
  have hl := array_legal (strict := env.cfg.typeChecking = true) hn hk hs hrb hS ha
  have e : ∀ (j : Nat) (x : Int), placed (sz env.cfg) (c.dtype (abiOf env.cfg al)) j x = (CType.array j c).members (abiOf env.cfg al) x :=
    fun j x => CType.placed_eq hn j x
  obtain ⟨m', hm⟩ := C59_returns_partial hr hc h h1 h2 c1 c2 hl
    (by
      intro x hx a hax
      have hx : x ∈ placed (sz env.cfg) (c.dtype (abiOf env.cfg al)) k rb := hx
      rw [e] at hx
      obtain ⟨w1, w2, -⟩ := array_within hn hx
      have w2 : x.1 + sz env.cfg x.2 ≤ rb + k * c.size (abiOf env.cfg al) := w2
      exact hra a (by unfold InBytes at *; omega))
    (by
      intro x hx a hax
      have hx : x ∈ placed (sz env.cfg) (c.dtype (abiOf env.cfg al)) n sb := hx
      rw [e] at hx
      obtain ⟨w1, w2, -⟩ := array_within hn hx
      have w2 : x.1 + sz env.cfg x.2 ≤ sb + n * c.size (abiOf env.cfg al) := w2
      exact hsa a (by unfold InBytes at *; omega))
  have hmv := C59_delivers_partial hr hc h h1 h2 c1 c2 hl hm
  have hmv : Moved (sz env.cfg) s.mem m' (placed (sz env.cfg) (c.dtype (abiOf env.cfg al)) n sb)
    (placed (sz env.cfg) (c.dtype (abiOf env.cfg al)) k rb) := hmv
  rw [e, e] at hmv
  refine ⟨m', hm, ?_, hmv.others⟩
  intro y hy b hb0 hb
  obtain ⟨i, hi, rfl⟩ := List.getElem_of_mem hy
  obtain ⟨i1, i2⟩ := array_index (abi := abiOf env.cfg al) c hk rb sb (List.getElem?_eq_getElem hi)
  obtain ⟨q, hq, hv⟩ := hmv.values i _ i1
  rw [i2] at hq
  cases hq
  have := hv b hb0 hb
  rw [Int.add_comm rb, Int.add_comm sb]
  exact this

/-- C80 (partial): the same if the message is there first. -/
theorem C80_collects_partial (hr : Reach env s L) (hc : env.cfg.Ok) {c : CType} (hn : c.Natural (abiOf env.cfg al))
    {sb st rb rt : Int} {n k : Nat} {R : Res Mem} (h : Collects env s L sb n st rb k rt R) (hk : k ≤ n)
    (h2 : Represents env.cfg al L rt c) (c2 : Committed env.cfg L rt)
    (hs : 0 ≤ sb ∧ sb + n * c.size (abiOf env.cfg al) ≤ 18446744073709551616)
    (hrb : 0 ≤ rb ∧ rb + k * c.size (abiOf env.cfg al) ≤ 18446744073709551616) (hS : n * c.size (abiOf env.cfg al) ≤ 2147483647)
    (ha : Apart sb (n * c.size (abiOf env.cfg al)) rb (k * c.size (abiOf env.cfg al))) {m' : Mem} (hok : R = .ok m') :
    (∀ y ∈ (CType.array k c).members (abiOf env.cfg al) 0, ∀ b, 0 ≤ b → b < sz env.cfg y.2 →
      m' (rb + y.1 + b) = s.mem (sb + y.1 + b)) ∧
    ∀ a, (∀ y ∈ (CType.array k c).members (abiOf env.cfg al) rb, ¬ InBytes a y.1 (sz env.cfg y.2)) → m' a = s.mem a := by
  have hpos := (c.laid _ hn).size_pos
  have hle : (k : Int) * c.size (abiOf env.cfg al) ≤ n * c.size (abiOf env.cfg al) := Int.mul_le_mul_of_nonneg_right (by omega) (by omega)
  have hl := array_legal (strict := env.cfg.typeChecking = true) (n := k) hn (Nat.le_refl k) (sb := sb) (rb := rb) (by omega) hrb (by omega)
    (by unfold Apart at *; omega)
  have e : ∀ (j : Nat) (x : Int), placed (sz env.cfg) (c.dtype (abiOf env.cfg al)) j x = (CType.array j c).members (abiOf env.cfg al) x :=
    fun j x => CType.placed_eq hn j x
  have hmv : Moved (sz env.cfg) s.mem m' (placed (sz env.cfg) (c.dtype (abiOf env.cfg al)) n sb)
    (placed (sz env.cfg) (c.dtype (abiOf env.cfg al)) k rb) := C59_collects_partial hr hc h h2 c2 (by omega) hl hok
  rw [e, e] at hmv
  refine ⟨?_, hmv.others⟩
  intro y hy b hb0 hb
  obtain ⟨i, hi, rfl⟩ := List.getElem_of_mem hy
  obtain ⟨i1, i2⟩ := array_index (abi := abiOf env.cfg al) c hk rb sb (List.getElem?_eq_getElem hi)
  obtain ⟨q, hq, hv⟩ := hmv.values i _ i1
  rw [i2] at hq
  cases hq
  have := hv b hb0 hb
  rw [Int.add_comm rb, Int.add_comm sb]
  exact this

end

/-! ## What is missing -/

/-- Everything aligned to its size but the complex types, which are aligned to their parts, as C and Fortran compilers do. -/
def cAlign (k : Int) : Int := if k = 17 ∨ k = 18 ∨ k = 29 ∨ k = 30 ∨ k = 31 then sz {} k / 2 else sz {} k

/-- struct { float complex z; float r; } -/
def complexRec : CFields := .more (.basic 17) (.one (.basic 15))

/-- C80 fails for complex members, because calc_padding (type.c:45-60) takes the largest size for the largest alignment:
`struct { float complex z; float r; }` has 12 bytes, but its datatype - MPI_COMPLEX at 0, MPI_REAL at 8, as `offsetof` says - has extent 16:
from the second element on, arrays of it are read and written in the wrong places. -/
theorem C80_fails_complex :
    (CType.struct complexRec).size (abiOf {} cAlign) = 12 ∧
    (complexRec.offsets (abiOf {} cAlign) 0).map Prod.fst = [0, 8] ∧
    (MPI_Type_struct env0 CL.s 2 [1, 1] [0, 8] [-19, -17] >>= fun x => MPI_Type_extent env0 x.1 x.2 >>= fun y => .ok y.2) = .ok 16 ∧
    (MPI_Type_struct env0 CL.s 2 [1, 1] [0, 8] [-19, -17] >>= fun x => MPI_Type_commit env0 x.1 x.2 >>= fun s =>
      MPI_Sendrecv env0 s 1000 2 x.2 0 5 2000 2 x.2 0 5 1 .null >>= fun y =>
        .ok (y.1.mem 2012 == CL.s.mem 1012, y.1.mem 2016 == CL.s.mem 1016, y.1.mem 2024 == CL.s.mem 2024)) =
      .ok (false, true, false) := by
  decide +kernel

/-! ## Instances -/

/-- C80_pairs, C80_sizeof_partial: an MPI_LONG_DOUBLE_INT takes 32 bytes. -/
example : MPI_Type_extent env0 CL.s (-31) = .ok (CL.s, 32) := by
  have h : (withInt 10).Natural (abiOf {} cAlign) := by
    simp only [withInt, CType.Natural, CFields.Natural]
    exact ⟨⟨rfl, 4, by decide⟩, ⟨rfl, 2, by decide⟩⟩
  exact (C80_sizeof_partial (env := env0) (show Reach env0 CL.s CL.L from CL_ok) cfg_default_ok h
    (C80_pairs (env := env0) (by decide)).2.2.2.2.2 (by decide)).1

/-- struct { short a; char b; } -/
def innerRec : CFields := .more (.basic 1) (.one (.basic 0))

/-- struct { char c; int i; double d[2]; struct { short a; char b; } p; } -/
def outerRec : CFields := .more (.basic 0) (.more (.basic 2) (.more (.array 2 (.basic 9)) (.one (.struct innerRec))))

theorem innerRec_natural : innerRec.Natural (abiOf {} cAlign) :=
  ⟨⟨rfl, 1, by decide⟩, ⟨rfl, 0, by decide⟩⟩

theorem outerRec_natural : outerRec.Natural (abiOf {} cAlign) :=
  ⟨⟨rfl, 0, by decide⟩, ⟨rfl, 2, by decide⟩, ⟨by decide, rfl, 3, by decide⟩, innerRec_natural⟩

theorem outerRec_natural' : (CType.struct outerRec).Natural (abiOf {} cAlign) := by
  simpa only [CType.Natural] using outerRec_natural

/-- What a C compiler makes of it: 32 bytes, with padding after the `char`, in the inner struct and at the end. -/
example : (CType.struct outerRec).size (abiOf {} cAlign) = 32 ∧ (CType.struct innerRec).size (abiOf {} cAlign) = 4 ∧
    (CType.struct outerRec).members (abiOf {} cAlign) 0 = [(0, 0), (4, 2), (8, 9), (16, 9), (24, 1), (26, 0)] ∧
    (outerRec.offsets (abiOf {} cAlign) 0).map Prod.fst = [0, 4, 8, 24] := by decide +kernel

theorem basic_represents {L : Ledger} {h k : Int} {t : Typestruct} (h1 : h < 0) (h2 : (simpletypes {})[(-1 - h).toNat]? = some t)
    (h3 : IsBasic {} t) (h4 : typeMap t = [(0, k)]) : Represents {} cAlign L h (.basic k) :=
  C80_basic (env := env0) (by unfold Ledger.desc; rw [if_pos h1]; exact h2) h1 h3 h4

theorem short_represents (L : Ledger) : Represents {} cAlign L (-2) (.basic 1) :=
  basic_represents (t := static1 2 1) (by decide) rfl ⟨by decide, by decide, by decide⟩ rfl

theorem char_represents (L : Ledger) : Represents {} cAlign L (-1) (.basic 0) :=
  basic_represents (t := static1 1 0) (by decide) rfl ⟨by decide, by decide, by decide⟩ rfl

theorem int_represents (L : Ledger) : Represents {} cAlign L (-3) (.basic 2) :=
  basic_represents (t := static1 4 2) (by decide) rfl ⟨by decide, by decide, by decide⟩ rfl

theorem double_represents (L : Ledger) : Represents {} cAlign L (-10) (.basic 9) :=
  basic_represents (t := static1 8 9) (by decide) rfl ⟨by decide, by decide, by decide⟩ rfl

/-- C80_struct_partial (twice), C80_sizeof_partial, C80_delivers_partial: the datatype of the inner struct, from it the datatype of the outer
one, whose extent is 32; then three such structs at 1000 are sent into an array of two at 2000, and the bytes of every member arrive. -/
example : ∃ s1 h1 s2 h2 s3, MPI_Type_struct env0 { CL.s with mem := memAll } 2 [1, 1] [0, 2] [-2, -1] = .ok (s1, h1) ∧
    MPI_Type_struct env0 s1 4 [1, 1, 2, 1] [0, 4, 8, 24] [-1, -3, -10, h1] = .ok (s2, h2) ∧
    MPI_Type_extent env0 s2 h2 = .ok (s2, 32) ∧ MPI_Type_commit env0 s2 h2 = .ok s3 ∧
    ∃ m', (MPI_Sendrecv env0 s3 1000 3 h2 0 5 2000 2 h2 0 5 1 .null >>= fun x => Res.ok x.1.mem) = .ok m' ∧
      (∀ y ∈ (CType.array 2 (.struct outerRec)).members (abiOf {} cAlign) 0, ∀ b, 0 ≤ b → b < sz {} y.2 →
        m' (2000 + y.1 + b) = memAll (1000 + y.1 + b)) ∧
      ∀ a, (∀ y ∈ (CType.array 2 (.struct outerRec)).members (abiOf {} cAlign) 2000, ¬ InBytes a y.1 (sz {} y.2)) → m' a = memAll a := by
  have r0 : Reach env0 { CL.s with mem := memAll } CL.L := Reach.step CL_ok .memory
  have hlen : CL.L.objs.length = 1 := by decide +kernel
  have hops : CL.L.ops = [] := by decide +kernel
  obtain ⟨s1, h1, t1, e1, p1, n1, m1, st1, d1⟩ := C80_struct_partial (env := env0) (al := cAlign) r0 cfg_default_ok (by omega) rfl rfl
    innerRec_natural (by decide) (.cons (.whole _) (short_represents _) (.cons (.whole _) (char_represents _) .nil))
  have r1 := r0.step st1
  obtain ⟨s2, h2, t2, e2, p2, n2, m2, st2, d2⟩ := C80_struct_partial (env := env0) (al := cAlign) r1 cfg_default_ok
    (by show (CL.L.objs.length + 1 < 262143); omega) rfl rfl outerRec_natural (by decide)
    (.cons (.whole _) (char_represents _) (.cons (.whole _) (int_represents _) (.cons (.elems 2 _) (double_represents _)
      (.cons (.whole _) d1 .nil))))
  have r2 := r1.step st2
  have e3 := (C80_sizeof_partial (env := env0) r2 cfg_default_ok outerRec_natural' d2 (by decide)).1
  obtain ⟨s3, e4, m3, st3, d3, c3⟩ := C59_commit r2 cfg_default_ok p2 d2
  have r3 := r2.step st3
  have hx : CanExchange (((CL.L.addType h1 t1).addType h2 t2).commit h2) 1 5 := by
    refine ⟨⟨0, ?_, ?_, ?_⟩, ?_, ?_⟩
    · have : ((1 : Int), Obj.comm 0) ∈ CL.L.objs := by decide +kernel
      unfold Ledger.commit
      exact List.mem_map.2 ⟨_, List.mem_cons_of_mem _ (List.mem_cons_of_mem _ this), rfl⟩
    · unfold NoOpen
      show ∀ o ∈ CL.L.ops, _
      rw [hops]; intro o h; cases h
    · unfold NoOpen
      show ∀ o ∈ CL.L.ops, _
      rw [hops]; intro o h; cases h
    · unfold Ledger.commit Ledger.addType
      simp only [List.length_map, List.length_cons, hlen]
      omega
    · show CL.L.ops.countP _ + 1 < 2147483647
      rw [hops]; decide
  have hm : s3.mem = memAll := by
    rw [m3, m2, m1]
  obtain ⟨m', h⟩ := C80_delivers_partial (env := env0) r3 cfg_default_ok (c := .struct outerRec) outerRec_natural'
    (n := 3) (k := 2) (.sendrecv (sb := 1000) (rb := 2000) hx) (by decide) d3 d3 c3 c3 (by decide) (by decide) (by decide) (by unfold Apart; decide)
    (by rw [hm]; exact fun _ _ => rfl) (by rw [hm]; exact fun _ _ => rfl)
  rw [hm] at h
  exact ⟨s1, h1, s2, h2, s3, e1, e2, e3, e4, m', h⟩

/-- C80_array_partial, C80_sizeof_partial: `struct { short a; char b; } x[5]`. -/
example : ∃ s1 h1 s2 h2, MPI_Type_struct env0 CL.s 2 [1, 1] [0, 2] [-2, -1] = .ok (s1, h1) ∧
    MPI_Type_contiguous env0 s1 5 h1 = .ok (s2, h2) ∧ MPI_Type_extent env0 s2 h2 = .ok (s2, 20) := by
  have r0 : Reach env0 CL.s CL.L := CL_ok
  have hlen : CL.L.objs.length = 1 := by decide +kernel
  obtain ⟨s1, h1, t1, e1, p1, n1, m1, st1, d1⟩ := C80_struct_partial (env := env0) (al := cAlign) r0 cfg_default_ok (by omega) rfl rfl
    innerRec_natural (by decide) (.cons (.whole _) (short_represents _) (.cons (.whole _) (char_represents _) .nil))
  have r1 := r0.step st1
  have hn : (CType.array 5 (.struct innerRec)).Natural (abiOf {} cAlign) := by
    simpa only [CType.Natural] using And.intro (by decide : 5 ≠ 0) innerRec_natural
  obtain ⟨s2, h2, t2, e2, p2, n2, m2, st2, d2⟩ := C80_array_partial (env := env0) (al := cAlign) r1 cfg_default_ok
    (by show (CL.L.objs.length + 1 < 262143); omega) rfl rfl hn (by decide) d1
  exact ⟨s1, h1, s2, h2, e1, e2, (C80_sizeof_partial (env := env0) (r1.step st2) cfg_default_ok hn d2 (by decide)).1⟩

/-- C80_collects_partial: three characters wait at 100 (`H2`), two are received at 300. -/
example {m' : Mem} (h : (MPI_Irecv env0 H2.s 300 2 (-1) 0 5 1 >>= fun x => Res.ok x.1.mem) = .ok m') :
    (∀ y ∈ (CType.array 2 (.basic 0)).members (abiOf {} cAlign) 0, ∀ b, 0 ≤ b → b < sz {} y.2 →
      m' (300 + y.1 + b) = H2.s.mem (100 + y.1 + b)) ∧
    ∀ a, (∀ y ∈ (CType.array 2 (.basic 0)).members (abiOf {} cAlign) 300, ¬ InBytes a y.1 (sz {} y.2)) → m' a = H2.s.mem a :=
  C80_collects_partial (show Reach env0 H2.s H2.L from H2_ok) cfg_default_ok (c := .basic 0) ⟨rfl, 0, by decide⟩ (n := 3) (k := 2)
    (Collects.irecv (c := 0) (j := 0) (o := ⟨.send, 0, 5, 100, 3, -1, 2, .pending⟩)
      ⟨by decide +kernel, by decide +kernel, by decide +kernel⟩ (Or.inl rfl)
      ⟨by decide +kernel, by decide, by decide, fun j' o' h => by omega⟩)
    (by decide) (char_represents _) ⟨static1 1 0, rfl, by decide⟩ (by decide) (by decide) (by decide) (by unfold Apart; decide) h

end MpiSerial
