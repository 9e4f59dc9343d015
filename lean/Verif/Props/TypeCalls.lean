import Verif.Props.TypesSize
import Verif.Props.Exchange
import Verif.Proofs.Safe

/-!
# Datatype calls on handles (C25, C26, C27, C55)

`Props/TypesBounds` is about descriptors.  Here the same is said of the calls a program makes: a constructor
call in any history returns a handle, and the inquiry calls on that handle report the bounds, extent and
size of the datatype of the standard - immediately and for as long as the handle lives.
-/

set_option linter.unusedSimpArgs false
set_option autoImplicit false

namespace MpiSerial

/-- The MPI inquiry calls on handle `h` report the datatype `τ` of the standard (bounds and extent as
`MPI_Aint`, so negative values appear modulo 2^64) and change nothing. -/
structure HandleReports (env : Env) (s : Sys) (h : Int) (τ : Spec.DType) : Prop where
  lb : MPI_Type_lb env s h = .ok (s, u64 (Spec.lb τ))
  ub : MPI_Type_ub env s h = .ok (s, u64 (Spec.ub (sz env.cfg) τ))
  extent : MPI_Type_extent env s h = .ok (s, u64 (Spec.extent (sz env.cfg) τ))
  size : Spec.size (sz env.cfg) τ ≤ 2147483647 → MPI_Type_size env s h = .ok (s, Spec.size (sz env.cfg) τ)

section
variable {env : Env} {s s' : Sys} {L L' : Ledger}

/-- C25 - C27: the inquiry calls on a live handle report what its descriptor says. -/
theorem C25_reports (hr : Reach env s L) (hc : env.cfg.Ok) {h : Int} {t : Typestruct} {τ : Spec.DType}
    (hd : L.desc env.cfg h = some t) (hD : Describes env.cfg t (.data τ)) (hR : Reports env.cfg t τ) :
    HandleReports env s h τ := by
  obtain ⟨M, lst, hi⟩ := hr.inv
  refine ⟨?_, ?_, ?_, fun hz => ?_⟩
  · unfold MPI_Type_lb; rw [hi.typeOf hd, Res.ok_bind]; dsimp only; rw [hR.lb]; rfl
  · unfold MPI_Type_ub; rw [hi.typeOf hd, Res.ok_bind]; dsimp only; rw [hR.ub]; rfl
  · unfold MPI_Type_extent; rw [hi.typeOf hd, Res.ok_bind]; dsimp only; rw [hR.extent]; rfl
  · have hg := (hD.meaning hc).1
    have hdd : DataDesc env.cfg t := ⟨hg.wf, fun x hx => by
      unfold typeMap at hx
      obtain ⟨p, hp, rfl⟩ := List.mem_map.1 hx
      exact ⟨_, hg.lens p hp⟩⟩
    have e : mapSize env.cfg (typeMap t) = Spec.size (sz env.cfg) τ := by rw [hR.map]; rfl
    unfold MPI_Type_size
    rw [hi.typeOf hd, Res.ok_bind]
    dsimp only
    rw [Type_size_map hc hdd (by rw [e]; exact hz), e]
    rfl

/-- A constructor call whose descriptor-level construction succeeds. -/
theorem call_reports (hr : Reach env s L) (hc : env.cfg.Ok) (hroom : L.objs.length < 262143)
    {build : Garbage → Res Typestruct} {r : Res (Sys × Int)} (hcall : TypeCall env L s build r)
    {t : Typestruct} {τ : Spec.DType} (hb : build (env.garbage s.nextType) = .ok t)
    (hD : Describes env.cfg t (.data τ)) (hR : Reports env.cfg t τ) :
    ∃ s' h, r = .ok (s', h) ∧ h ∉ L.objs.map Prod.fst ∧ s'.mem = s.mem ∧ Step env s L s' (L.addType h t) ∧
      (L.addType h t).desc env.cfg h = some t ∧ HandleReports env s' h τ := by
  obtain ⟨M, lst, hi⟩ := hr.inv
  rcases newType_spec (env := env) hi build with ⟨hf, _⟩ | ⟨_, S, h, hf, hN, hI⟩
  · omega
  · rw [hb, Res.ok_bind] at hN
    have he : r = .ok (S t, h) := (hcall.eq hi).trans hN
    have hs := Step.newType hcall he hb
    have hr' := hr.step hs
    obtain ⟨M', lst', hi'⟩ := hr'.inv
    have hd : (L.addType h t).desc env.cfg h = some t := by
      refine (desc_iff hi'.hst.nodup).2 (Or.inr ⟨?_, List.mem_cons_self ..⟩)
      have := hi'.hst.pos (mem_keys (List.mem_cons_self .. : (h, Obj.dtype t) ∈ (L.addType h t).objs))
      omega
    exact ⟨S t, h, he, hf, (hI t).1, hs, hd, C25_reports hr' hc hd hD hR⟩

/-- The outcome of a constructor call: a new handle, whose descriptor describes `τ`, whose inquiry calls
report `τ`; memory is unchanged. -/
def Constructs (env : Env) (s : Sys) (L : Ledger) (r : Res (Sys × Int)) (τ : Spec.DType) : Prop :=
  ∃ s' h t, r = .ok (s', h) ∧ h ∉ L.objs.map Prod.fst ∧ s'.mem = s.mem ∧ Step env s L s' (L.addType h t) ∧
    (L.addType h t).desc env.cfg h = some t ∧ Describes env.cfg t (.data τ) ∧ Reports env.cfg t τ ∧
    HandleReports env s' h τ

theorem constructs (hr : Reach env s L) (hc : env.cfg.Ok) (hroom : L.objs.length < 262143)
    {build : Garbage → Res Typestruct} {r : Res (Sys × Int)} (hcall : TypeCall env L s build r) {τ : Spec.DType}
    (hb : ∃ t, build (env.garbage s.nextType) = .ok t ∧ Describes env.cfg t (.data τ) ∧ Reports env.cfg t τ) :
    Constructs env s L r τ := by
  obtain ⟨t, h1, h2, h3⟩ := hb
  obtain ⟨s', h, a, b, c, d, e, f⟩ := call_reports hr hc hroom hcall h1 h2 h3
  exact ⟨s', h, t, a, b, c, d, e, h2, h3, f⟩

/-- MPI_Type_struct in any history (partial as `C25_bounds_partial`: exact values fit, explicit bounds have
the signs the code handles, `malloc` returns zeroed memory). -/
theorem C25_struct_call_partial (hr : Reach env s L) (hc : env.cfg.Ok) (hroom : L.objs.length < 262143)
    (hgl : (env.garbage s.nextType).o_lb = 0) (hgu : (env.garbage s.nextType).o_ub = 0)
    {olds : List Int} {xs : List (Int × Int × Typestruct × Spec.Comp)} (hlen : olds.length = xs.length)
    (hd : ∀ (i : Nat) h x, olds[i]? = some h → xs[i]? = some x → L.desc env.cfg h = some x.2.2.1)
    (hx : ∀ x ∈ xs, Describes env.cfg x.2.2.1 x.2.2.2) (hn : ∀ x ∈ xs, 0 ≤ x.1)
    (hs : Small (sz env.cfg) (specBlocks xs)) :
    Constructs env s L
      (MPI_Type_struct env s olds.length (xs.map fun x => x.1) (xs.map fun x => u64 x.2.1) olds)
      (Spec.struct (sz env.cfg) (specBlocks xs)) := by
  have hcall := TypeCall.struct (env := env) (L := L) (s := s) (blocklens := xs.map fun x => x.1)
    (disps := xs.map fun x => u64 x.2.1) (olds := olds) (ts := xs.map fun x => x.2.2.1)
    (by rw [List.length_map, hlen]) (by rw [List.length_map, hlen]) (by rw [List.length_map, hlen])
    (by
      intro i h t h1 h2
      rw [List.getElem?_map] at h2
      cases h3 : xs[i]? with
      | none => rw [h3] at h2; cases h2
      | some x =>
        rw [h3] at h2
        cases h2
        exact hd i h x h1 h3)
  have e : ((xs.map fun x => x.1).zip ((xs.map fun x => u64 x.2.1).zip (xs.map fun x => x.2.2.1))).map
      (fun x => (⟨x.1, x.2.1, x.2.2⟩ : Block)) = callBlocks xs := by
    unfold callBlocks mkBlock
    clear hlen hd hx hn hs hcall
    induction xs with
    | nil => rfl
    | cons x xs ih => simp only [List.map_cons, List.zip_cons_cons, ih]
  rw [e] at hcall
  obtain ⟨t, h1, h2, h3, _⟩ := C25_bounds_partial hc (g := env.garbage s.nextType) hx hn hgl hgu hs
  exact constructs hr hc hroom hcall ⟨t, h1, h2, h3⟩

/-- The six other constructors in any history (partial in the same way). -/
theorem C25_contiguous_call_partial (hr : Reach env s L) (hc : env.cfg.Ok) (hroom : L.objs.length < 262143)
    (hgl : (env.garbage s.nextType).o_lb = 0) (hgu : (env.garbage s.nextType).o_ub = 0)
    {old n : Int} {t : Typestruct} {τ : Spec.DType} (hd : L.desc env.cfg old = some t)
    (ht : Describes env.cfg t (.data τ)) (hn : 0 ≤ n)
    (hs : Small (sz env.cfg) ((List.range n.toNat).map fun (i : Nat) =>
      (1, Spec.extent (sz env.cfg) τ * i, .data τ))) :
    Constructs env s L (MPI_Type_contiguous env s n old) (Spec.contiguous (sz env.cfg) n.toNat τ) :=
  constructs hr hc hroom (.contiguous hd) (C25_contiguous_partial hc ht hn hgl hgu hs)

theorem C25_hvector_call_partial (hr : Reach env s L) (hc : env.cfg.Ok) (hroom : L.objs.length < 262143)
    (hgl : (env.garbage s.nextType).o_lb = 0) (hgu : (env.garbage s.nextType).o_ub = 0)
    {old n bl st : Int} {t : Typestruct} {τ : Spec.DType} (hd : L.desc env.cfg old = some t)
    (ht : Describes env.cfg t (.data τ)) (hn : 0 ≤ n) (hb : 0 ≤ bl)
    (hs : Small (sz env.cfg) ((List.range n.toNat).map fun (i : Nat) => (bl.toNat, st * i, .data τ))) :
    Constructs env s L (MPI_Type_hvector env s n bl (u64 st) old)
      (Spec.hvector (sz env.cfg) n.toNat bl.toNat st τ) :=
  constructs hr hc hroom (.hvector hd) (C25_hvector_partial hc ht hn hb hgl hgu hs)

theorem C25_vector_call_partial (hr : Reach env s L) (hc : env.cfg.Ok) (hroom : L.objs.length < 262143)
    (hgl : (env.garbage s.nextType).o_lb = 0) (hgu : (env.garbage s.nextType).o_ub = 0)
    {old n bl st : Int} {t : Typestruct} {τ : Spec.DType} (hd : L.desc env.cfg old = some t)
    (ht : Describes env.cfg t (.data τ)) (hn : 0 ≤ n) (hb : 0 ≤ bl)
    (hs : Small (sz env.cfg) ((List.range n.toNat).map fun (i : Nat) =>
      (bl.toNat, st * Spec.extent (sz env.cfg) τ * i, .data τ))) :
    Constructs env s L (MPI_Type_vector env s n bl st old) (Spec.vector (sz env.cfg) n.toNat bl.toNat st τ) :=
  constructs hr hc hroom (.vector hd) (C25_vector_partial hc ht hn hb hgl hgu hs)

theorem C25_hindexed_call_partial (hr : Reach env s L) (hc : env.cfg.Ok) (hroom : L.objs.length < 262143)
    (hgl : (env.garbage s.nextType).o_lb = 0) (hgu : (env.garbage s.nextType).o_ub = 0)
    {old : Int} {t : Typestruct} {τ : Spec.DType} (hd : L.desc env.cfg old = some t)
    (ht : Describes env.cfg t (.data τ)) (l : List (Int × Int)) (hb : ∀ x ∈ l, 0 ≤ x.1)
    (hs : Small (sz env.cfg) (l.map fun x => (x.1.toNat, x.2, .data τ))) :
    Constructs env s L (MPI_Type_hindexed env s l.length (l.map Prod.fst) (l.map fun x => u64 x.2) old)
      (Spec.hindexed (sz env.cfg) (l.map fun x => (x.1.toNat, x.2)) τ) :=
  constructs hr hc hroom (.hindexed hd) (C25_hindexed_partial hc ht l hb hgl hgu hs)

theorem C25_indexed_call_partial (hr : Reach env s L) (hc : env.cfg.Ok) (hroom : L.objs.length < 262143)
    (hgl : (env.garbage s.nextType).o_lb = 0) (hgu : (env.garbage s.nextType).o_ub = 0)
    {old : Int} {t : Typestruct} {τ : Spec.DType} (hd : L.desc env.cfg old = some t)
    (ht : Describes env.cfg t (.data τ)) (l : List (Int × Int)) (hb : ∀ x ∈ l, 0 ≤ x.1)
    (hs : Small (sz env.cfg) (l.map fun x => (x.1.toNat, x.2 * Spec.extent (sz env.cfg) τ, .data τ))) :
    Constructs env s L (MPI_Type_indexed env s l.length (l.map Prod.fst) (l.map Prod.snd) old)
      (Spec.indexed (sz env.cfg) (l.map fun x => (x.1.toNat, x.2)) τ) :=
  constructs hr hc hroom (.indexed hd) (C25_indexed_partial hc ht l hb hgl hgu hs)

theorem C25_indexed_block_call_partial (hr : Reach env s L) (hc : env.cfg.Ok) (hroom : L.objs.length < 262143)
    (hgl : (env.garbage s.nextType).o_lb = 0) (hgu : (env.garbage s.nextType).o_ub = 0)
    {old bl : Int} {t : Typestruct} {τ : Spec.DType} (hd : L.desc env.cfg old = some t)
    (ht : Describes env.cfg t (.data τ)) (l : List Int) (hb : 0 ≤ bl)
    (hs : Small (sz env.cfg) (l.map fun d => (bl.toNat, d * Spec.extent (sz env.cfg) τ, .data τ))) :
    Constructs env s L (MPI_Type_create_indexed_block env s l.length bl l old)
      (Spec.indexedBlock (sz env.cfg) bl.toNat l τ) :=
  constructs hr hc hroom (.indexedBlock hd) (C25_indexed_block_partial hc ht l hb hgl hgu hs)

end

/-! ## C55: true extent -/

section
variable {cfg : Cfg} {t : Typestruct} {τ : Spec.DType} {a l u : Int}

/-- What Type_get_true_extent computes: the span of the data, whatever explicit bounds the type has, rounded
up to a multiple of its largest element. -/
theorem C55_padded (hc : cfg.Ok) (hD : Describes cfg t (.data τ))
    (ha : Greatest ((typeMap t).map fun y => sz cfg y.2) a)
    (hl : Least ((typeMap t).map fun y => y.1) l)
    (hu : Greatest ((typeMap t).map fun y => y.1 + sz cfg y.2) u) :
    ∃ e, Type_get_true_extent cfg t = .ok (u64 e) ∧ LeastMultiple a (u - l) e := by
  have hg := (hD.meaning hc).1
  obtain ⟨m, hm, h1, h2, hp⟩ := calc_padding_max hc hg.wf hg.ne hg.lens
  have e1 : (t.map.map fun p => p.disp).min? = some l := by
    have hl := min?_spec.2 hl
    rw [← hl]
    unfold typeMap Typestruct.map
    rw [List.map_map]; rfl
  have e2 : (t.map.map fun p => p.disp + lenOf cfg p.type).max? = some u := by
    have hu := max?_spec.2 hu
    rw [← hu]
    unfold typeMap Typestruct.map
    rw [List.map_map]; rfl
  have e3 : m = a := by
    have ha := max?_spec.2 ha
    have : (t.map.map fun p => lenOf cfg p.type).max? = some a := by
      rw [← ha]
      unfold typeMap Typestruct.map
      rw [List.map_map]; rfl
    rw [this] at hm
    exact (Option.some.inj hm).symm
  subst e3
  have hlr : -2147483648 ≤ l ∧ l ≤ 2147483647 := by
    obtain ⟨p, hpm, hpe⟩ := List.mem_map.1 (min?_spec.1 e1).1
    have := hg.disps p hpm
    omega
  have hur : -2147483648 ≤ u ∧ u ≤ 2147483647 + 128 := by
    obtain ⟨p, hpm, hpe⟩ := List.mem_map.1 (max?_spec.1 e2).1
    have := hg.disps p hpm
    have := lenOf_range hc (hg.lens p hpm)
    omega
  have hlu : l ≤ u := by
    obtain ⟨p, hpm, hpe⟩ := List.mem_map.1 (min?_spec.1 e1).1
    have h3 := (max?_spec.1 e2).2 _ (List.mem_map.2 ⟨p, hpm, rfl⟩)
    have := lenOf_range hc (hg.lens p hpm)
    omega
  refine ⟨Spec.roundUp (u - l) m, ?_, roundUp_leastMultiple h1⟩
  unfold Type_get_true_extent
  rw [hp, Res.ok_bind, calc_ub_max hc hg.wf hg.ne hg.lens hg.disps, e2, Res.ok_bind, calc_lb_min hg.wf hg.ne hg.disps, e1,
    Res.ok_bind]
  simp only [Option.getD_some]
  rw [ck64_ok (by omega) (by omega), Res.ok_bind, if_neg (by omega), Int.tmod_eq_emod_of_nonneg (by omega)]
  have he0 := Int.emod_nonneg (u - l) (show m ≠ 0 by omega)
  have he1 := Int.emod_lt_of_pos (u - l) (show 0 < m by omega)
  unfold Spec.roundUp
  by_cases hz : (u - l) % m = 0
  · simp only [hz, if_true, Res.pure_eq, Res.ok_bind, Int.add_zero]
    rw [ck64_ok (by omega) (by omega), Res.ok_bind]
  · simp only [hz, if_false]
    rw [ck64_ok (by omega) (by omega), Res.ok_bind, ck64_ok (by omega) (by omega), Res.ok_bind]
    rfl

/-- C55 (partial): the true extent is the span of the data if that is a multiple of the largest element.
Otherwise it is larger (`C55_fails`). -/
theorem C55_span_partial (hc : cfg.Ok) (hD : Describes cfg t (.data τ))
    (ha : Greatest ((typeMap t).map fun y => sz cfg y.2) a)
    (hl : Least ((typeMap t).map fun y => y.1) l)
    (hu : Greatest ((typeMap t).map fun y => y.1 + sz cfg y.2) u) (hdiv : a ∣ u - l) :
    Type_get_true_extent cfg t = .ok (u64 (u - l)) := by
  obtain ⟨e, h1, h2, h3, h4⟩ := C55_padded hc hD ha hl hu
  have := h4 (u - l) hdiv (Int.le_refl _)
  rw [h1, show e = u - l by omega]

/-- C55: the true extent is the span of the data exactly if that is a multiple of the largest element; otherwise it is
larger, by less than that element. -/
theorem C55_exact (hc : cfg.Ok) (hD : Describes cfg t (.data τ))
    (ha : Greatest ((typeMap t).map fun y => sz cfg y.2) a)
    (hl : Least ((typeMap t).map fun y => y.1) l)
    (hu : Greatest ((typeMap t).map fun y => y.1 + sz cfg y.2) u) :
    (Type_get_true_extent cfg t = .ok (u64 (u - l)) ↔ a ∣ u - l) ∧
      ∃ k, 0 ≤ k ∧ k < a ∧ Type_get_true_extent cfg t = .ok (u64 (u - l + k)) := by
  obtain ⟨e, h1, h2, h3, h4⟩ := C55_padded hc hD ha hl hu
  obtain ⟨y, hy, rfl⟩ := List.mem_map.1 ha.1
  have hr : 1 ≤ sz cfg y.2 ∧ sz cfg y.2 ≤ 128 := by
    unfold typeMap at hy
    obtain ⟨p, hp, rfl⟩ := List.mem_map.1 hy
    exact lenOf_range hc ((hD.meaning hc).1.lens p hp)
  have h5 := h4 (e - sz cfg y.2) (Int.dvd_sub h2 (Int.dvd_refl _))
  have h6 : u - l ≤ e - sz cfg y.2 → False := fun h => by have := h5 h; omega
  refine ⟨⟨fun h => ?_, C55_span_partial hc hD ha hl hu⟩, e - (u - l), by omega, by omega, ?_⟩
  · rw [h1] at h
    have h7 : u64 e = u64 (u - l) := Res.ok.inj h
    have : e = u - l := by unfold u64 at h7; omega
    rwa [← this]
  · rw [h1, show u - l + (e - (u - l)) = e by omega]

end

/-- C55 fails: the data of `{int at 0, char at 4}` span five bytes, the true extent is given as eight. -/
theorem C55_fails :
    ∃ t, Type_struct {} ⟨0, 0, fun _ => ⟨0, 0⟩⟩ [⟨1, 0, static1 4 2⟩, ⟨1, 4, static1 1 0⟩] = .ok t ∧
      typeMap t = [(0, 2), (4, 0)] ∧ sz {} 2 = 4 ∧ sz {} 0 = 1 ∧ Type_get_true_extent {} t = .ok 8 := by
  exact ⟨⟨2, 5, 0, 0, 0, 0, [⟨0, 2⟩, ⟨4, 0⟩, ⟨0, 0⟩]⟩, by decide, by decide, by decide, by decide, by decide⟩

/-! ## Instances -/

/-- Three MPI_CHARs in a row, after MPI_Init. -/
example : Constructs env0 H1.s H1.L (MPI_Type_contiguous env0 H1.s 3 (-1))
    (Spec.contiguous (sz {}) 3 (Spec.plain [(0, 0)])) :=
  C25_contiguous_call_partial (env := env0) (t := static1 1 0) H1_ok cfg_default_ok (by decide +kernel) rfl rfl
    (by decide +kernel) (.basic (t := static1 1 0) ⟨by decide, by decide, by decide⟩) (by decide)
    ⟨by decide, by decide, by decide, by decide, by decide, by decide, by
      intro b hb τ hτ h
      obtain ⟨y, _, rfl⟩ := List.mem_map.1 hb
      simp⟩

/-- ... what the calls report in the end. -/
example : (Spec.lb (Spec.contiguous (sz {}) 3 (Spec.plain [(0, 0)])),
    Spec.ub (sz {}) (Spec.contiguous (sz {}) 3 (Spec.plain [(0, 0)])),
    Spec.size (sz {}) (Spec.contiguous (sz {}) 3 (Spec.plain [(0, 0)]))) = (0, 3, 3) := by decide

/-- `{MPI_LB at 3, int at 8, MPI_UB at -1}`: the true extent is that of the int. -/
example : ∃ t, Type_struct {} ⟨0, 0, fun _ => ⟨0, 0⟩⟩
      (callBlocks [(1, 3, static1 0 12, .lb), (1, 8, static1 4 2, .data (Spec.plain [(0, 2)])),
        (1, -1, static1 0 13, .ub)]) = .ok t ∧
    Type_extent {} t = .ok (u64 (-4)) ∧ Type_get_true_extent {} t = .ok 4 := by
  obtain ⟨t, h1, hD, hR, -⟩ := C26_markers_partial cfg_default_ok
    (g := ⟨0, 0, fun _ => ⟨0, 0⟩⟩)
    (xs := [(1, 3, static1 0 12, .lb), (1, 8, static1 4 2, .data (Spec.plain [(0, 2)])),
        (1, -1, static1 0 13, .ub)])
    (by
      intro x hx
      simp only [List.mem_cons, List.not_mem_nil, or_false] at hx
      rcases hx with rfl | rfl | rfl
      · exact .lb
      · exact .basic (t := static1 4 2) ⟨by decide, by decide, by decide⟩
      · exact .ub)
    (by decide) rfl rfl
    ⟨by decide, by decide, by decide, by decide, by decide, by decide, by
      intro b hb τ hτ
      simp [specBlocks] at hb
      rcases hb with rfl | rfl | rfl <;> (simp only [] at hτ; cases hτ; try simp [Spec.plain])⟩
  have e : typeMap t = [(8, 2)] := by rw [hR.map]; decide
  refine ⟨t, h1, hR.extent, ?_⟩
  exact C55_span_partial (a := 4) (l := 8) (u := 12) cfg_default_ok hD (by rw [e]; unfold Greatest; decide)
    (by rw [e]; unfold Least; decide) (by rw [e]; unfold Greatest; decide) (by decide)

end MpiSerial
