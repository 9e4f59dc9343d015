import Verif.Props.CopyExact
import Verif.Props.TypesSize
import Verif.Model.Stubs

set_option linter.unusedSimpArgs false
set_option autoImplicit false

/-!
# C51: types built from addresses

The usual way to describe variables scattered in memory: take their addresses with `MPI_Get_address`,
build a struct whose displacements are the differences to the address of a base variable (or the
addresses themselves, the base being MPI_BOTTOM), and transfer one element of that type from the base.
-/

namespace MpiSerial
open Spec

/-- A variable: an array of `len` elements of a datatype at an address. -/
structure Var where
  addr : Int
  len : Nat
  ty : Typestruct

/-- The basic elements of a variable, `e` giving the extents of datatypes. -/
def Var.elems (e : Typestruct → Int) (v : Var) : List Entry :=
  repeated (typeMap v.ty) (e v.ty) v.len v.addr

/-- What the program passes to `MPI_Type_struct`: for each variable its length, the difference of its
address and that of `base` in `MPI_Aint` arithmetic, its type. `get` is the function it takes addresses with. -/
def blocksOf (get : Int → Int) (base : Int) (vs : List Var) : List Block :=
  vs.map fun v => ⟨v.len, u64 (get v.addr - get base), v.ty⟩

/-- The same with the addresses themselves. -/
def blocksAt (get : Int → Int) (vs : List Var) : List Block :=
  vs.map fun v => ⟨v.len, get v.addr, v.ty⟩

/-- mpi.h:67 -/
def MPI_BOTTOM : Int := 0

/-- The blocks `bs` describe the variables relative to the buffer `base`: differences of addresses, or addresses if
the buffer is MPI_BOTTOM, taken with MPI_Get_address or MPI_Address. -/
def BlocksFor (base : Int) (vs : List Var) (bs : List Block) : Prop :=
  ∃ get, (get = MPI_Get_address ∨ get = MPI_Address) ∧
    (bs = blocksOf get base vs ∨ (base = MPI_BOTTOM ∧ bs = blocksAt get vs))

/-- The variables are of data types with extents `e`, in the lower half of the address space (where
programs live), and not more elements than an `int` counts. -/
structure Vars (cfg : Cfg) (e : Typestruct → Int) (vs : List Var) : Prop where
  data : ∀ v ∈ vs, ¬ IsMarker v.ty ∧ DataDesc cfg v.ty
  ext : ∀ v ∈ vs, Type_extent cfg v.ty = .ok (u64 (e v.ty))
  addrs : ∀ x ∈ vs.flatMap (Var.elems e), 0 ≤ x.1 ∧ x.1 ≤ 9223372036854775807 - 128
  bytes : total (sz cfg) (vs.flatMap (Var.elems e)) ≤ 2147483647

theorem Vars.sized {cfg : Cfg} (hc : cfg.Ok) {e : Typestruct → Int} {vs : List Var} (h : Vars cfg e vs) :
    Sized (sz cfg) (vs.flatMap (Var.elems e)) := by
  intro x hx
  obtain ⟨v, hv, hx⟩ := List.mem_flatMap.1 hx
  unfold Var.elems repeated at hx
  obtain ⟨j, _, hx⟩ := List.mem_flatMap.1 hx
  obtain ⟨y, hy, rfl⟩ := List.mem_map.1 hx
  exact lenOf_range hc ((h.data v hv).2.hasLenMap (x := y) hy)

theorem sized_length {f : Int → Int} {es : List Entry} (h : Sized f es) : (es.length : Int) ≤ total f es := by
  induction es with
  | nil => simp [total]
  | cons x xs ih =>
    have h1 := h x (List.mem_cons_self ..)
    have h2 := ih fun y hy => h y (List.mem_cons_of_mem _ hy)
    rw [total_cons, List.length_cons]
    omega

theorem repeated_shift (m : List Entry) (e : Int) (n : Nat) (d a : Int) :
    shift a (repeated m e n d) = repeated m e n (d + a) := by
  unfold repeated shift
  rw [List.map_flatMap]
  congr 1
  funext j
  rw [List.map_map]
  apply List.map_congr_left
  intro x _
  simp only [Function.comp]
  congr 1
  omega

theorem elems_one (t : Typestruct) (e base : Int) : elems t e 1 base = shift base (typeMap t) := by
  unfold elems repeated
  simp

/-- C51: for every list of variables and every base, the struct built from their addresses exists and
one element of it at the base is exactly the variables' elements, in order. -/
theorem C51_elements {cfg : Cfg} (hc : cfg.Ok) (g : Garbage) {e : Typestruct → Int} {vs : List Var} {base : Int}
    {bs : List Block} (hv : Vars cfg e vs) (hb : 0 ≤ base ∧ base ≤ 9223372036854775807) (hbs : BlocksFor base vs bs) :
    ∃ t, Type_struct cfg g bs = .ok t ∧ DataDesc cfg t ∧
      ∀ e', elems t e' 1 base = vs.flatMap (Var.elems e) := by
  have hs : (vs.map fun v => ((v.len : Int), v.addr - base, v.ty)).flatMap (blockSpec e)
      = shift (-base) (vs.flatMap (Var.elems e)) := by
    unfold shift
    rw [List.map_flatMap, List.flatMap_map]
    rw [List.flatMap_def, List.flatMap_def]
    congr 1
    apply List.map_congr_left
    intro v hvm
    have := repeated_shift (typeMap v.ty) (e v.ty) v.len v.addr (-base)
    unfold shift at this
    unfold blockSpec Var.elems
    rw [this, if_neg (hv.data v hvm).1, Int.toNat_natCast, Int.sub_eq_add_neg]
  have hbk : bs = (vs.map fun v => ((v.len : Int), v.addr - base, v.ty)).map mkBlock := by
    obtain ⟨get, hg, hbs⟩ := hbs
    have hg : get = u64 := by rcases hg with rfl | rfl <;> rfl
    rw [List.map_map]
    rcases hbs with rfl | ⟨rfl, rfl⟩
    · unfold blocksOf
      apply List.map_congr_left
      intro v _
      simp only [Function.comp, mkBlock, Block.mk.injEq, true_and, and_true]
      rw [hg]
      unfold u64
      omega
    · unfold blocksAt
      apply List.map_congr_left
      intro v _
      simp only [Function.comp, mkBlock, Block.mk.injEq, true_and, and_true]
      rw [hg, MPI_BOTTOM, Int.sub_zero]
  have hlen := sized_length (hv.sized hc)
  have hby := hv.bytes
  obtain ⟨t, h1, h2, _, _, h5⟩ := C24_struct_typemap cfg hc g e
    (vs.map fun v => ((v.len : Int), v.addr - base, v.ty))
    (by intro x hx; obtain ⟨v, hvm, rfl⟩ := List.mem_map.1 hx; exact .inr (hv.data v hvm).2)
    (by intro x hx _; obtain ⟨v, hvm, rfl⟩ := List.mem_map.1 hx; exact hv.ext v hvm)
    (by intro x hx _; obtain ⟨v, hvm, rfl⟩ := List.mem_map.1 hx; exact Int.natCast_nonneg _)
    (by rw [hs]; unfold shift; rw [List.length_map]; omega)
    (by
      intro y hy
      rw [hs] at hy
      obtain ⟨z, hz, rfl⟩ := List.mem_map.1 hy
      have := hv.addrs z hz
      dsimp only
      omega)
  refine ⟨t, by rw [hbk]; exact h1, h5, ?_⟩
  intro e'
  rw [elems_one, h2, hs]
  unfold shift
  rw [List.map_map]
  conv => rhs; rw [← List.map_id (vs.flatMap (Var.elems e))]
  apply List.map_congr_left
  intro x _
  simp only [Function.comp, id]
  congr 1
  omega

theorem extent_u64 {cfg : Cfg} {t : Typestruct} {x : Int} (h : Type_extent cfg t = .ok x) : x = u64 x := by
  unfold Type_extent at h
  split at h
  · obtain ⟨_, _, h⟩ := Res.bind_eq_ok.1 h
    obtain ⟨_, _, h⟩ := Res.bind_eq_ok.1 h
    split at h
    · cases h
    · dsimp only at h
      split at h
      all_goals
        obtain ⟨_, _, h⟩ := Res.bind_eq_ok.1 h
        obtain ⟨_, _, h⟩ := Res.bind_eq_ok.1 h
        rw [← Res.ok.inj h, u64_u64]
  · obtain ⟨_, _, h⟩ := Res.bind_eq_ok.1 h
    rw [← Res.ok.inj h, u64_u64]

/-- The premises of the pack theorems, for the type built from addresses. -/
theorem Vars.packArgs {cfg : Cfg} (hc : cfg.Ok) {e : Typestruct → Int} {vs : List Var} {base : Int}
    (hv : Vars cfg e vs) {t : Typestruct} (ht : DataDesc cfg t)
    (hel : ∀ e', elems t e' 1 base = vs.flatMap (Var.elems e)) {x : Int} (hx : Type_extent cfg t = .ok x)
    {packed pos size : Int} (hlo : 0 ≤ packed + pos)
    (hhi : packed + pos + total (sz cfg) (vs.flatMap (Var.elems e)) ≤ 18446744073709551616 ∧
      packed + size ≤ 18446744073709551616) :
    PackArgs cfg t x (total (sz cfg) (vs.flatMap (Var.elems e))) 1 base packed pos size := by
  have hm : mapSize cfg (typeMap t) = total (sz cfg) (vs.flatMap (Var.elems e)) := by
    rw [← hel 0, elems_one]
    unfold total shift mapSize
    rw [List.map_map]
    rfl
  have hs := Type_size_map hc ht (by rw [hm]; exact hv.bytes)
  refine ⟨ht, by rw [hx]; exact congrArg _ (extent_u64 hx), by rw [hs, hm], ?_, hlo, ?_⟩
  · intro y hy
    rw [show ((1 : Nat) : Int) = 1 from rfl, hel] at hy
    have := hv.addrs y hy
    omega
  · rw [show ((1 : Nat) : Int) = 1 from rfl, Int.one_mul]
    exact hhi

/-- C51: pack the variables `vs` with the type `t` built from their addresses relative to `base`, carry the
packed bytes anywhere (memory `m1`, buffer `inbuf`, position `pos2`), unpack them with the type `t2` built
from the addresses of the variables `ws` relative to `base2`.  If the variables' elements have the same sizes
in order, the bytes of the i-th element of `vs` are now those of the i-th element of `ws`, no other byte of
`m1` has changed, and both positions advanced by the size of the data. -/
theorem C51_gather_scatter {cfg : Cfg} (hc : cfg.Ok) {g g2 : Garbage} {e : Typestruct → Int} {vs ws : List Var}
    {base base2 : Int} (hv : Vars cfg e vs) (hw : Vars cfg e ws)
    (hb : 0 ≤ base ∧ base ≤ 9223372036854775807) (hb2 : 0 ≤ base2 ∧ base2 ≤ 9223372036854775807)
    (hsame : (vs.flatMap (Var.elems e)).map (fun x => sz cfg x.2)
      = (ws.flatMap (Var.elems e)).map fun x => sz cfg x.2)
    {n : Int} (hn : n = total (sz cfg) (vs.flatMap (Var.elems e)))
    {bs bs2 : List Block} (hbs : BlocksFor base vs bs) (hbs2 : BlocksFor base2 ws bs2)
    {t t2 : Typestruct} (ht : Type_struct cfg g bs = .ok t) (ht2 : Type_struct cfg g2 bs2 = .ok t2)
    {outbuf outsize pos pos' inbuf insize pos2 pos2' : Int} {m m' m1 m2 : Mem}
    (hbuf : 0 ≤ outbuf + pos ∧ outbuf + pos + n ≤ 18446744073709551616 ∧
      outbuf + outsize ≤ 18446744073709551616)
    (hbuf2 : 0 ≤ inbuf + pos2 ∧ inbuf + pos2 + n ≤ 18446744073709551616 ∧
      inbuf + insize ≤ 18446744073709551616)
    (hap : ∀ x ∈ vs.flatMap (Var.elems e), Apart x.1 (sz cfg x.2) (outbuf + pos) n)
    (h : Pack cfg m base 1 t outbuf outsize pos = .ok (m', pos'))
    (hcarry : ∀ k, 0 ≤ k → k < n → m1 (inbuf + pos2 + k) = m' (outbuf + pos + k))
    (hdis : ElemsDisjoint (sz cfg) (ws.flatMap (Var.elems e)))
    (hap2 : ∀ x ∈ ws.flatMap (Var.elems e), Apart x.1 (sz cfg x.2) (inbuf + pos2) n)
    (h2 : Unpack cfg m1 inbuf insize pos2 base2 1 t2 = .ok (m2, pos2')) :
    (∀ (i : Nat) (x y : Entry), (vs.flatMap (Var.elems e))[i]? = some x →
      (ws.flatMap (Var.elems e))[i]? = some y → ∀ k, 0 ≤ k → k < sz cfg x.2 → m2 (y.1 + k) = m (x.1 + k)) ∧
    (∀ a, (∀ y ∈ ws.flatMap (Var.elems e), ¬ InBytes a y.1 (sz cfg y.2)) → m2 a = m1 a) ∧
    pos' = pos + n ∧ pos2' = pos2 + n := by
  obtain ⟨t', ht', hd, hel⟩ := C51_elements hc g hv hb hbs
  cases (Res.ok.inj (ht'.symm.trans ht))
  obtain ⟨t2', ht2', hd2, hel2⟩ := C51_elements hc g2 hw hb2 hbs2
  cases (Res.ok.inj (ht2'.symm.trans ht2))
  have hn2 : n = total (sz cfg) (ws.flatMap (Var.elems e)) := by rw [hn]; unfold total; rw [hsame]
  obtain ⟨x1, hx1, _⟩ := Res.bind_eq_ok.1 h
  obtain ⟨x2, hx2, _⟩ := Res.bind_eq_ok.1 h2
  have ha := hv.packArgs hc hd hel hx1 (packed := outbuf) (pos := pos) (size := outsize) hbuf.1
    (by rw [← hn]; exact hbuf.2)
  have ha2 := hw.packArgs hc hd2 hel2 hx2 (packed := inbuf) (pos := pos2) (size := insize) hbuf2.1
    (by rw [← hn2]; exact hbuf2.2)
  rw [← hn] at ha
  rw [← hn2] at ha2
  have one : ((1 : Nat) : Int) = 1 := rfl
  obtain ⟨_, hp⟩ := Pack_contents hc ha (by rw [one, Int.one_mul, hel]; exact hap) (by rw [one]; exact h)
  obtain ⟨hu1, hu2⟩ := Unpack_contents hc ha2 (by rw [one, hel2]; exact hdis)
    (by rw [one, Int.one_mul, hel2]; exact hap2) (by rw [one]; exact h2)
  rw [one, hel] at hp
  rw [one, hel2] at hu1 hu2
  have hsz := hw.sized hc
  refine ⟨?_, hu1, ?_, ?_⟩
  · intro i x y hx hy k hk0 hk
    have hxy : sz cfg x.2 = sz cfg y.2 := by
      have := congrArg (fun l => l[i]?) hsame
      simpa [List.getElem?_map, hx, hy] using this
    have hat : packedAt (sz cfg) (ws.flatMap (Var.elems e)) i = packedAt (sz cfg) (vs.flatMap (Var.elems e)) i := by
      unfold packedAt total
      rw [List.map_take, List.map_take, hsame]
    have hi := (List.getElem?_eq_some_iff.1 hy).1
    have h5 : n = packedAt (sz cfg) (ws.flatMap (Var.elems e)) i
        + total (sz cfg) ((ws.flatMap (Var.elems e)).drop i) := by
      rw [hn2]
      unfold packedAt total
      rw [← List.sum_append, ← List.map_append, List.take_append_drop]
    have h6 : (ws.flatMap (Var.elems e))[i] = y := (List.getElem?_eq_some_iff.1 hy).2
    rw [List.drop_eq_getElem_cons hi, total_cons, h6] at h5
    have h7 : 0 ≤ total (sz cfg) ((ws.flatMap (Var.elems e)).drop (i + 1)) :=
      total_nonneg fun z hz => hsz z (List.mem_of_mem_drop hz)
    have h8 : 0 ≤ packedAt (sz cfg) (ws.flatMap (Var.elems e)) i :=
      total_nonneg fun z hz => hsz z (List.mem_of_mem_take hz)
    rw [hu2 i y hy k hk0 (by omega), Int.add_assoc (inbuf + pos2), hcarry _ (by omega) (by omega),
      hat, ← Int.add_assoc, hp i x hx k hk0 hk]
  · have := (C34_pack_position hc ha (by rw [one]; exact h)).1
    rw [one, Int.one_mul] at this
    exact this
  · have := (C34_unpack_position hc ha2 (by rw [one]; exact h2)).1
    rw [one, Int.one_mul] at this
    exact this

/-- What a transfer from the variables `vs` to the variables `ws` needs: elements of the same sizes (and, in
a TYPE_CHECKING build, kinds), no overlap, and every element less than 2 GiB from its base. -/
structure VarTransfer (cfg : Cfg) (e : Typestruct → Int) (vs ws : List Var) (base base2 : Int) : Prop where
  src : Vars cfg e vs
  dst : Vars cfg e ws
  srcBase : 0 ≤ base ∧ base ≤ 9223372036854775807
  dstBase : 0 ≤ base2 ∧ base2 ≤ 9223372036854775807
  same : (vs.flatMap (Var.elems e)).map (fun x => sz cfg x.2) = (ws.flatMap (Var.elems e)).map fun x => sz cfg x.2
  kinds : cfg.typeChecking = true →
    (vs.flatMap (Var.elems e)).map (fun x => x.2) = (ws.flatMap (Var.elems e)).map fun x => x.2
  srcNear : ∀ x ∈ vs.flatMap (Var.elems e), -2147483648 ≤ x.1 - base ∧ x.1 - base ≤ 2147483647
  dstNear : ∀ x ∈ ws.flatMap (Var.elems e), -2147483648 ≤ x.1 - base2 ∧ x.1 - base2 ≤ 2147483647
  disjoint : ElemsDisjoint (sz cfg) (ws.flatMap (Var.elems e))
  apart : ElemsApart (sz cfg) (ws.flatMap (Var.elems e)) (vs.flatMap (Var.elems e))

theorem VarTransfer.transfer {cfg : Cfg} (hc : cfg.Ok) {e : Typestruct → Int} {vs ws : List Var} {base base2 : Int}
    (h : VarTransfer cfg e vs ws base base2) {t t2 : Typestruct} (hd : DataDesc cfg t) (hd2 : DataDesc cfg t2)
    (hel : ∀ e', elems t e' 1 base = vs.flatMap (Var.elems e))
    (hel2 : ∀ e', elems t2 e' 1 base2 = ws.flatMap (Var.elems e)) {x x2 : Int}
    (hx : Type_extent cfg t = .ok x) (hx2 : Type_extent cfg t2 = .ok x2)
    (hcm : t.committed ≠ 0) (hcm2 : t2.committed ≠ 0) : Transfer cfg base 1 t x base2 1 t2 x2 := by
  have hl : (vs.flatMap (Var.elems e)).length = (ws.flatMap (Var.elems e)).length := by
    have := congrArg List.length h.same
    simpa only [List.length_map] using this
  have hs := sized_length (h.src.sized hc)
  have hs2 := sized_length (h.dst.sized hc)
  have hb := h.src.bytes
  have hb2 := h.dst.bytes
  have hc1 := elems_length hd.wf 0 1 base
  have hc2 := elems_length hd2.wf 0 1 base2
  rw [hel] at hc1
  rw [hel2] at hc2
  have hn1 := hd.wf.nonneg
  have hn2 := hd2.wf.nonneg
  refine ⟨hd, hd2, by rw [hx]; exact congrArg _ (extent_u64 hx), by rw [hx2]; exact congrArg _ (extent_u64 hx2),
    ⟨by omega, by omega⟩, hcm, hcm2, by decide, ?_, ?_, ?_, ?_, ?_, ?_⟩
  · rw [hel, hel2, hl]; exact Nat.le_refl _
  · rw [hel, hel2]
    intro y hy
    have hy := List.mem_of_mem_take hy
    have := h.srcNear y hy
    have := h.src.addrs y hy
    omega
  · rw [hel2]
    intro y hy
    have := h.dstNear y hy
    have := h.dst.addrs y hy
    omega
  · rw [hel, hel2]
    intro y hy
    obtain ⟨i, hi, rfl⟩ := List.mem_iff_getElem.1 hy
    rw [List.length_zip] at hi
    rw [List.getElem_zip]
    have h1 : i < (vs.flatMap (Var.elems e)).length := by omega
    have h2 : i < (ws.flatMap (Var.elems e)).length := by omega
    constructor
    · have := congrArg (fun l => l[i]?) h.same
      simpa only [List.getElem?_map, List.getElem?_eq_getElem h1, List.getElem?_eq_getElem h2,
        Option.map_some, Option.some.injEq] using this
    · intro htc
      have := congrArg (fun l => l[i]?) (h.kinds htc)
      simpa only [List.getElem?_map, List.getElem?_eq_getElem h1, List.getElem?_eq_getElem h2,
        Option.map_some, Option.some.injEq] using this
  · rw [hel2]; exact h.disjoint
  · rw [hel, hel2, ← hl, List.take_length]; exact h.apart

/-- C51 (partial): a message described by the type built from the addresses of `vs`, received with the type
built from the addresses of `ws`, moves the bytes of the variables element by element and modifies nothing
else.  Partial: every variable within 2 GiB of its base (`VarTransfer.srcNear`, `dstNear`); beyond that, in
particular for MPI_BOTTOM as base, it is false (`C51_fails_bottom`). -/
theorem C51_transfer_partial {cfg : Cfg} (hc : cfg.Ok) {g g2 : Garbage} {e : Typestruct → Int} {vs ws : List Var}
    {base base2 : Int} (h : VarTransfer cfg e vs ws base base2) {bs bs2 : List Block} (hbs : BlocksFor base vs bs)
    (hbs2 : BlocksFor base2 ws bs2) {t t2 : Typestruct}
    (ht : Type_struct cfg g bs = .ok t) (ht2 : Type_struct cfg g2 bs2 = .ok t2)
    {m m' : Mem}
    (hok : Pcopy_data2 cfg m base 1 { t with committed := 1 } base2 1 { t2 with committed := 1 } = .ok m') :
    (∀ (i : Nat) (x y : Entry), (vs.flatMap (Var.elems e))[i]? = some x →
      (ws.flatMap (Var.elems e))[i]? = some y → ∀ k, 0 ≤ k → k < sz cfg y.2 → m' (y.1 + k) = m (x.1 + k)) ∧
    (∀ a, (∀ y ∈ ws.flatMap (Var.elems e), ¬ InBytes a y.1 (sz cfg y.2)) → m' a = m a) := by
  obtain ⟨t', ht', hd, hel⟩ := C51_elements hc g h.src h.srcBase hbs
  cases (Res.ok.inj (ht'.symm.trans ht))
  obtain ⟨t2', ht2', hd2, hel2⟩ := C51_elements hc g2 h.dst h.dstBase hbs2
  cases (Res.ok.inj (ht2'.symm.trans ht2))
  have hx : ∃ x x2, Type_extent cfg { t with committed := 1 } = .ok x ∧
      Type_extent cfg { t2 with committed := 1 } = .ok x2 := by
    unfold Pcopy_data2 at hok
    split at hok
    · cases hok
    · obtain ⟨_, _, hok⟩ := Res.bind_eq_ok.1 hok
      obtain ⟨_, _, hok⟩ := Res.bind_eq_ok.1 hok
      split at hok
      · cases hok
      · obtain ⟨x, hx, hok⟩ := Res.bind_eq_ok.1 hok
        obtain ⟨x2, hx2, hok⟩ := Res.bind_eq_ok.1 hok
        exact ⟨x, x2, hx, hx2⟩
  obtain ⟨x, x2, hx, hx2⟩ := hx
  have htr := h.transfer hc (t := { t with committed := 1 }) (t2 := { t2 with committed := 1 })
    ⟨⟨hd.wf.nonneg, hd.wf.fits, hd.wf.nonempty⟩, hd.lens⟩ ⟨⟨hd2.wf.nonneg, hd2.wf.fits, hd2.wf.nonempty⟩, hd2.lens⟩
    hel hel2 hx hx2 Int.one_ne_zero Int.one_ne_zero
  have e1 : ∀ e', elems { t with committed := 1 } e' 1 base = vs.flatMap (Var.elems e) := hel
  have e2 : ∀ e', elems { t2 with committed := 1 } e' 1 base2 = ws.flatMap (Var.elems e) := hel2
  constructor
  · intro i y z hy hz k hk0 hk
    obtain ⟨s, h1, h2⟩ := C32_bytes hc htr hok i z (by rw [e2]; exact hz)
    rw [e1, hy] at h1
    cases h1
    exact h2 k hk0 hk
  · intro a ha
    refine C31_frame_partial htr.dstDesc.wf htr.dstExt htr.dstReach hok a ?_
    rw [e2]; exact ha

theorem extent_is_u64 {cfg : Cfg} {t : Typestruct} {e : Int} (h : Type_extent cfg t = .ok e) : ∃ e', e = u64 e' := by
  unfold Type_extent at h
  split at h
  · obtain ⟨_, _, h⟩ := Res.bind_eq_ok.1 h
    obtain ⟨_, _, h⟩ := Res.bind_eq_ok.1 h
    split at h
    · cases h
    · simp only at h
      split at h
      all_goals
        obtain ⟨_, _, h⟩ := Res.bind_eq_ok.1 h
        obtain ⟨_, _, h⟩ := Res.bind_eq_ok.1 h
        exact ⟨_, (Res.ok.inj h).symm⟩
  · obtain ⟨_, _, h⟩ := Res.bind_eq_ok.1 h
    exact ⟨_, (Res.ok.inj h).symm⟩

/-- C51 fails for messages at MPI_BOTTOM whatever the variables are: a typed copy to address 0 changes no byte between
2^31 + 128 and 2^64 - 2^31, so no variable at an ordinary 64-bit address is ever reached. -/
theorem C51_fails_bottom_always {cfg : Cfg} (hc : cfg.Ok) {m m' : Mem} {source sc dc : Int} {st dt : Typestruct} (hd : dt.WF)
    (h : Pcopy_data2 cfg m source sc st 0 dc dt = .ok m') {a : Int} (h1 : 2147483648 + 128 ≤ a)
    (h2 : a < 18446744073709551616 - 2147483648) : m' a = m a := by
  obtain ⟨de, hde⟩ : ∃ de, Type_extent cfg dt = .ok (u64 de) := by
    unfold Pcopy_data2 at h
    split at h
    · cases h
    · obtain ⟨_, _, h⟩ := Res.bind_eq_ok.1 h
      obtain ⟨_, _, h⟩ := Res.bind_eq_ok.1 h
      split at h
      · cases h
      · obtain ⟨_, _, h⟩ := Res.bind_eq_ok.1 h
        obtain ⟨e, he, _⟩ := Res.bind_eq_ok.1 h
        obtain ⟨e', rfl⟩ := extent_is_u64 he
        exact ⟨e', he⟩
  refine C31_frame_exact hd hde h a fun x hx hin => ?_
  obtain ⟨y, hy, rfl⟩ := List.mem_map.1 hx
  have hl : landing 0 y.1 < 2147483648 ∨ 18446744073709551616 - 2147483648 ≤ landing 0 y.1 := by
    unfold landing; omega
  have hs : sz cfg y.2 ≤ 128 := by
    by_cases hk : hasLen cfg y.2
    · exact (lenOf_range hc hk).2
    · have : sz cfg y.2 = 0 := by
        show lenOf cfg y.2 = 0
        unfold hasLen at hk
        unfold lenOf at hk ⊢
        split at hk
        · next h => exact absurd h hk
        · rfl
      omega
  unfold InBytes at hin
  dsimp only at hin
  omega

/-- C51 fails for MPI_BOTTOM: one byte at address 2^32 + 5 described by its address and received from
MPI_BOTTOM is written to address 5. -/
theorem C51_fails_bottom :
    ∃ t, Type_struct {} ⟨0, 0, fun _ => ⟨0, 0⟩⟩ (blocksAt MPI_Get_address [⟨4294967301, 1, static1 1 0⟩]) = .ok t ∧
      ∃ m', Pcopy_data2 {} (fun a => if a = 1000 then some 7 else some 0) 1000 1 (static1 1 0) 0 1
          { t with committed := 1 } = .ok m' ∧
        m' 4294967301 = some 0 ∧ m' 5 = some 7 := by
  have h : (match Pcopy_data2 {} (fun a => if a = 1000 then some 7 else some 0) 1000 1 (static1 1 0) 0 1
      ⟨1, 4294967302, 2147483647, 1, 0, 0, [⟨4294967301, 0⟩, ⟨0, 0⟩]⟩ with
      | .ok m' => decide (m' 4294967301 = some 0 ∧ m' 5 = some 7)
      | _ => false) = true := by decide
  refine ⟨⟨1, 4294967302, 2147483647, 0, 0, 0, [⟨4294967301, 0⟩, ⟨0, 0⟩]⟩, by decide, ?_⟩
  dsimp only
  cases hr : Pcopy_data2 {} (fun a => if a = 1000 then some 7 else some 0) 1000 1 (static1 1 0) 0 1
      ⟨1, 4294967302, 2147483647, 1, 0, 0, [⟨4294967301, 0⟩, ⟨0, 0⟩]⟩ with
  | ok m' => rw [hr] at h; exact ⟨m', rfl, of_decide_eq_true h⟩
  | abort _ => rw [hr] at h; cases h
  | exit _ => rw [hr] at h; cases h
  | ub _ => rw [hr] at h; cases h
  | hang => rw [hr] at h; cases h

/-- C51 fails in Fortran: MPI_BOTTOM is an integer constant (mpif.h:13-14), so the bindings receive the address `a` of
a word holding 0 as the buffer, never the address 0.  For every list of variables and every such address, every element
of the type built from absolute addresses is sought `a` bytes away from where it is. -/
theorem C51_fails_fortran {cfg : Cfg} (hc : cfg.Ok) {g : Garbage} {e : Typestruct → Int} {vs : List Var}
    (hv : Vars cfg e vs) {get : Int → Int} (hg : get = MPI_Get_address ∨ get = MPI_Address) {t : Typestruct}
    (ht : Type_struct cfg g (blocksAt get vs) = .ok t) {a : Int} (ha : a ≠ 0) (e' : Int) (i : Nat) (x : Entry)
    (hx : (vs.flatMap (Var.elems e))[i]? = some x) :
    (elems t e' 1 a)[i]? = some (x.1 + a, x.2) ∧ (elems t e' 1 a)[i]? ≠ some x := by
  obtain ⟨t', ht', _, hel⟩ := C51_elements hc g hv (base := 0) (by decide) ⟨get, hg, .inr ⟨rfl, rfl⟩⟩
  cases (Res.ok.inj (ht'.symm.trans ht))
  have hm := hel e'
  rw [elems_one] at hm
  have h0 : shift 0 (typeMap t) = typeMap t := by
    unfold shift
    conv => rhs; rw [← List.map_id (typeMap t)]
    apply List.map_congr_left
    intro y _
    simp
  rw [h0] at hm
  have : (elems t e' 1 a)[i]? = some (x.1 + a, x.2) := by
    rw [elems_one, hm]
    unfold shift
    rw [List.getElem?_map, hx]
    rfl
  refine ⟨this, ?_⟩
  rw [this]
  intro h
  have := congrArg Prod.fst (Option.some.inj h)
  dsimp only at this
  omega

/-! ## Instances -/

/-- extents of the example types -/
def exExt (t : Typestruct) : Int := if t = static1 4 2 then 4 else 8

/-- two ints and a pair, at three places; the pair before the base -/
def exVars : List Var := [⟨1099511627776, 2, static1 4 2⟩, ⟨1099511620000, 1, static2 8 1 4 2⟩]
def exVars2 : List Var := [⟨8192, 1, static1 4 2⟩, ⟨4096, 1, static1 4 2⟩, ⟨16384, 1, static2 8 1 4 2⟩]

theorem intDesc : DataDesc {} (static1 4 2) := by
  refine ⟨by constructor <;> decide, ?_⟩
  intro x hx
  simp [typeMap, static1] at hx
  subst hx
  exact ⟨4, rfl⟩

theorem exVars_ok : Vars {} exExt exVars := by
  refine ⟨?_, ?_, by decide, by decide⟩
  · intro v hv
    simp only [exVars, List.mem_cons, List.not_mem_nil, or_false] at hv
    rcases hv with rfl | rfl
    · exact ⟨by decide, intDesc⟩
    · exact ⟨by decide, pairDesc⟩
  · decide

theorem exVars2_ok : Vars {} exExt exVars2 := by
  refine ⟨?_, ?_, by decide, by decide⟩
  · intro v hv
    simp only [exVars2, List.mem_cons, List.not_mem_nil, or_false] at hv
    rcases hv with rfl | rfl | rfl
    · exact ⟨by decide, intDesc⟩
    · exact ⟨by decide, intDesc⟩
    · exact ⟨by decide, pairDesc⟩
  · decide

example : VarTransfer {} exExt exVars exVars2 1099511627776 0 :=
  ⟨exVars_ok, exVars2_ok, by decide, by decide, by decide, by decide, by decide, by decide, by decide, by decide⟩

example : BlocksFor 4096 exVars (blocksOf MPI_Address 4096 exVars) ∧ BlocksFor MPI_BOTTOM exVars (blocksAt MPI_Get_address exVars) :=
  ⟨⟨_, .inr rfl, .inl rfl⟩, ⟨_, .inl rfl, .inr ⟨rfl, rfl⟩⟩⟩

/-- The elements at work: the second int, through `MPI_BOTTOM` addresses, is found where it is. -/
example : ∃ t, Type_struct {} ⟨0, 0, fun _ => ⟨0, 0⟩⟩ (blocksAt MPI_Get_address exVars) = .ok t ∧
    elems t 16 1 0 = [(1099511627776, 2), (1099511627780, 2), (1099511620000, 1), (1099511620004, 2)] :=
  ⟨_, rfl, by decide⟩

example : (match Type_struct {} ⟨0, 0, fun _ => ⟨0, 0⟩⟩ (blocksAt MPI_Get_address exVars) with
    | .ok t => match Pack {} (fun a => some (UInt8.ofNat (a % 251).toNat)) 0 1 t 5000 40 3 with
      | .ok (m', p) => decide (p = 17 ∧ m' 5007 = some (UInt8.ofNat (1099511627780 % 251)))
      | _ => false
    | _ => false) = true := by decide +kernel

/-- The Fortran constant at address 64: the byte packed for a variable at 1000 is the one at 1064. -/
example : (match Type_struct {} ⟨0, 0, fun _ => ⟨0, 0⟩⟩ (blocksAt MPI_Get_address [⟨1000, 1, static1 1 0⟩]) with
    | .ok t => match Pack {} (fun a => if a = 1000 then some 7 else if a = 1064 then some 9 else some 0) 64 1 t 5000 1 0 with
      | .ok (m', _) => decide (m' 5000 = some 9)
      | _ => false
    | _ => false) = true := by decide +kernel

end MpiSerial
