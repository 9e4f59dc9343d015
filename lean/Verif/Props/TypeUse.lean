import Verif.Spec.TypeUse
import Verif.Props.TypeCalls

/-!
# Derived datatypes from construction to use (C59)

The properties of constructors (C24, C25), of commit (C30) and of typed messages (C22, C31, C32) put
together at the level of the program: handles, and datatypes of the standard.
-/

set_option linter.unusedSimpArgs false
set_option autoImplicit false

namespace MpiSerial

open Spec

/-- Datatype handle `h` stands for `c`: a datatype of the standard, or a marker.  The descriptor of a derived
type also holds the bounds that MPI_Type_lb and MPI_Type_ub must report. -/
def StandsFor (cfg : Cfg) (L : Ledger) (h : Int) (c : Comp) : Prop :=
  ∃ t, L.desc cfg h = some t ∧ Describes cfg t c ∧ (0 ≤ h → ∀ τ, c = .data τ → Reports cfg t τ)

/-- ... and may be used for communication. -/
def Committed (cfg : Cfg) (L : Ledger) (h : Int) : Prop := ∃ t, L.desc cfg h = some t ∧ t.committed ≠ 0

/-- Constructor calls, and the datatype of the standard each has to build.  `Small`: the exact values fit and
explicit bounds have the signs the code handles. -/
inductive TypeBuild (env : Env) (s : Sys) (L : Ledger) : Res (Sys × Int) → DType → Prop
  | contiguous {old n τ} : StandsFor env.cfg L old (.data τ) → 0 ≤ n →
      Small (sz env.cfg) ((List.range n.toNat).map fun (i : Nat) => (1, extent (sz env.cfg) τ * i, .data τ)) →
      TypeBuild env s L (MPI_Type_contiguous env s n old) (Spec.contiguous (sz env.cfg) n.toNat τ)
  | hvector {old n bl st τ} : StandsFor env.cfg L old (.data τ) → 0 ≤ n → 0 ≤ bl →
      Small (sz env.cfg) ((List.range n.toNat).map fun (i : Nat) => (bl.toNat, st * i, .data τ)) →
      TypeBuild env s L (MPI_Type_hvector env s n bl (u64 st) old) (Spec.hvector (sz env.cfg) n.toNat bl.toNat st τ)
  | vector {old n bl st τ} : StandsFor env.cfg L old (.data τ) → 0 ≤ n → 0 ≤ bl →
      Small (sz env.cfg) ((List.range n.toNat).map fun (i : Nat) =>
        (bl.toNat, st * extent (sz env.cfg) τ * i, .data τ)) →
      TypeBuild env s L (MPI_Type_vector env s n bl st old) (Spec.vector (sz env.cfg) n.toNat bl.toNat st τ)
  | hindexed {old τ} (l : List (Int × Int)) : StandsFor env.cfg L old (.data τ) → (∀ x ∈ l, 0 ≤ x.1) →
      Small (sz env.cfg) (l.map fun x => (x.1.toNat, x.2, .data τ)) →
      TypeBuild env s L (MPI_Type_hindexed env s l.length (l.map Prod.fst) (l.map fun x => u64 x.2) old)
        (Spec.hindexed (sz env.cfg) (l.map fun x => (x.1.toNat, x.2)) τ)
  | indexed {old τ} (l : List (Int × Int)) : StandsFor env.cfg L old (.data τ) → (∀ x ∈ l, 0 ≤ x.1) →
      Small (sz env.cfg) (l.map fun x => (x.1.toNat, x.2 * extent (sz env.cfg) τ, .data τ)) →
      TypeBuild env s L (MPI_Type_indexed env s l.length (l.map Prod.fst) (l.map Prod.snd) old)
        (Spec.indexed (sz env.cfg) (l.map fun x => (x.1.toNat, x.2)) τ)
  | indexedBlock {old bl τ} (l : List Int) : StandsFor env.cfg L old (.data τ) → 0 ≤ bl →
      Small (sz env.cfg) (l.map fun d => (bl.toNat, d * extent (sz env.cfg) τ, .data τ)) →
      TypeBuild env s L (MPI_Type_create_indexed_block env s l.length bl l old)
        (Spec.indexedBlock (sz env.cfg) bl.toNat l τ)
  /-- blocks: block length, displacement, handle, and what the handle stands for -/
  | struct (xs : List (Int × Int × Int × Comp)) : (∀ x ∈ xs, 0 ≤ x.1) → (∀ x ∈ xs, StandsFor env.cfg L x.2.2.1 x.2.2.2) →
      Small (sz env.cfg) (xs.map fun x => (x.1.toNat, x.2.1, x.2.2.2)) →
      TypeBuild env s L
        (MPI_Type_struct env s xs.length (xs.map fun x => x.1) (xs.map fun x => u64 x.2.1) (xs.map fun x => x.2.2.1))
        (Spec.struct (sz env.cfg) (xs.map fun x => (x.1.toNat, x.2.1, x.2.2.2)))

section
variable {env : Env} {s s' : Sys} {L L' : Ledger}

/-- The descriptors behind the handles of a struct call. -/
theorem blocks_of_standsFor {cfg : Cfg} : ∀ {xs : List (Int × Int × Int × Comp)},
    (∀ x ∈ xs, StandsFor cfg L x.2.2.1 x.2.2.2) →
    ∃ ys : List (Int × Int × Typestruct × Comp), ys.length = xs.length ∧
      (∀ y ∈ ys, Describes cfg y.2.2.1 y.2.2.2) ∧
      (∀ (i : Nat) h y, (xs.map fun x => x.2.2.1)[i]? = some h → ys[i]? = some y → L.desc cfg h = some y.2.2.1) ∧
      (ys.map fun y => y.1) = (xs.map fun x => x.1) ∧ (ys.map fun y => u64 y.2.1) = (xs.map fun x => u64 x.2.1) ∧
      specBlocks ys = (xs.map fun x => (x.1.toNat, x.2.1, x.2.2.2)) := by
  intro xs
  induction xs with
  | nil => intro _; exact ⟨[], rfl, by simp, by simp, rfl, rfl, rfl⟩
  | cons x xs ih =>
    intro h
    obtain ⟨ys, h1, h2, h3, h4, h5, h6⟩ := ih fun y hy => h y (List.mem_cons_of_mem _ hy)
    obtain ⟨t, ht, hD, _⟩ := h x (List.mem_cons_self ..)
    refine ⟨(x.1, x.2.1, t, x.2.2.2) :: ys, by simp [h1], ?_, ?_, by simp [h4], by simp [h5], by simpa [specBlocks] using h6⟩
    · intro y hy
      rcases List.mem_cons.1 hy with rfl | hy
      · exact hD
      · exact h2 y hy
    · intro i h' y ha hb
      cases i with
      | zero =>
        simp at ha hb
        subst ha hb
        exact ht
      | succ i => simp at ha hb; exact h3 i h' y (by simpa using ha) hb

/-- C59, construction: in any history a constructor call applied to handles that stand for datatypes of the
standard (predefined, or derived and nested to any depth, committed or not) returns a new handle that stands
for the datatype the standard prescribes; nothing else changes.  Partial: as for C25. -/
theorem C59_built_partial (hr : Reach env s L) (hc : env.cfg.Ok) (hroom : L.objs.length < 262143)
    (hgl : (env.garbage s.nextType).o_lb = 0) (hgu : (env.garbage s.nextType).o_ub = 0)
    {r : Res (Sys × Int)} {τ : DType} (hb : TypeBuild env s L r τ) :
    ∃ s' h t, r = .ok (s', h) ∧ 0 ≤ h ∧ h ∉ L.objs.map Prod.fst ∧ s'.mem = s.mem ∧ Step env s L s' (L.addType h t) ∧
      StandsFor env.cfg (L.addType h t) h (.data τ) ∧ HandleReports env s' h τ := by
  have key : Constructs env s L r τ := by
    cases hb with
    | contiguous hd hn hs =>
      obtain ⟨t, h1, h2, _⟩ := hd
      exact C25_contiguous_call_partial hr hc hroom hgl hgu h1 h2 hn hs
    | hvector hd hn hb hs =>
      obtain ⟨t, h1, h2, _⟩ := hd
      exact C25_hvector_call_partial hr hc hroom hgl hgu h1 h2 hn hb hs
    | vector hd hn hb hs =>
      obtain ⟨t, h1, h2, _⟩ := hd
      exact C25_vector_call_partial hr hc hroom hgl hgu h1 h2 hn hb hs
    | hindexed l hd hb hs =>
      obtain ⟨t, h1, h2, _⟩ := hd
      exact C25_hindexed_call_partial hr hc hroom hgl hgu h1 h2 l hb hs
    | indexed l hd hb hs =>
      obtain ⟨t, h1, h2, _⟩ := hd
      exact C25_indexed_call_partial hr hc hroom hgl hgu h1 h2 l hb hs
    | indexedBlock l hd hb hs =>
      obtain ⟨t, h1, h2, _⟩ := hd
      exact C25_indexed_block_call_partial hr hc hroom hgl hgu h1 h2 l hb hs
    | struct xs hn hd hs =>
      obtain ⟨ys, h1, h2, h3, h4, h5, h6⟩ := blocks_of_standsFor hd
      have hn' : ∀ y ∈ ys, 0 ≤ y.1 := by
        intro y hy
        have : y.1 ∈ xs.map fun x => x.1 := by rw [← h4]; exact List.mem_map.2 ⟨y, hy, rfl⟩
        obtain ⟨x, hx, he⟩ := List.mem_map.1 this
        rw [← he]; exact hn x hx
      have := C25_struct_call_partial hr hc hroom hgl hgu (olds := xs.map fun x => x.2.2.1) (xs := ys) (by simp [h1]) h3 h2 hn'
        (by rw [h6]; exact hs)
      rw [h4, h5, h6, List.length_map] at this
      exact this
  obtain ⟨s', h, t, h1, h2, h3, h4, h5, h6, h7, h8⟩ := key
  obtain ⟨M, lst, hi⟩ := (hr.step h4).inv
  have hp : 0 ≤ h := by
    have := hi.hst.pos (mem_keys (List.mem_cons_self .. : (h, Obj.dtype t) ∈ (L.addType h t).objs))
    omega
  exact ⟨s', h, _, h1, hp, h2, h3, h4, ⟨t, h5, h6, fun _ _ he => by cases he; exact h7⟩, h8⟩

/-- A step either drops a datatype or keeps it, at most committing it. -/
theorem Step.dtype (hs : Step env s L s' L') {h : Int} {t : Typestruct}
    (hm : (h, Obj.dtype t) ∈ L.objs) (hl : h ∈ L'.objs.map Prod.fst) :
    (h, Obj.dtype t) ∈ L'.objs ∨ (h, Obj.dtype { t with committed := 1 }) ∈ L'.objs := by
  have hrel : ∀ x, h ∈ (L.release x).objs.map Prod.fst → (h, Obj.dtype t) ∈ (L.release x).objs := by
    intro x hx
    obtain ⟨⟨a, o⟩, ha, he⟩ := List.mem_map.1 hx
    cases he
    exact mem_release.2 ⟨hm, (mem_release.1 ha).2⟩
  cases hs with
  | memory => exact Or.inl hm
  | init _ _ _ => exact Or.inl (List.mem_cons_of_mem _ hm)
  | finalize => cases hl
  | comm _ _ _ _ =>
    left
    unfold Ledger.noteComm
    split
    · exact hm
    · exact List.mem_cons_of_mem _ hm
  | commFree _ _ => exact Or.inl (hrel _ hl)
  | isend _ _ _ => exact Or.inl (mem_post hm)
  | irecv _ _ _ _ => exact Or.inl (mem_post hm)
  | isendNull _ _ => exact Or.inl (List.mem_cons_of_mem _ hm)
  | irecvNull _ _ => exact Or.inl (List.mem_cons_of_mem _ hm)
  | test _ _ =>
    left
    split
    · exact hm
    · rename_i hf
      rw [if_neg hf] at hl
      exact hrel _ hl
  | requestFree _ _ _ _ => exact Or.inl (hrel _ hl)
  | newType _ _ _ => exact Or.inl (List.mem_cons_of_mem _ hm)
  | commit hm' _ =>
    rename_i h' _ _
    by_cases he : h = h'
    · subst he
      exact Or.inr (mem_commit.2 (Or.inr ⟨rfl, t, hm, rfl⟩))
    · exact Or.inl (mem_commit.2 (Or.inl ⟨hm, Or.inl he⟩))
  | typeFree _ _ => exact Or.inl (hrel _ hl)

/-- C59: whatever the program does in between, a handle stands for the same datatype until it is freed. -/
theorem C59_lasting (hr : Reach env s L) (hc : env.cfg.Ok) {h : Int} (hs : Lasts env h s L s' L') {c : Comp} (hd : StandsFor env.cfg L h c)
    (hcom : 0 ≤ h → ∃ τ, c = .data τ) : Reach env s' L' ∧ StandsFor env.cfg L' h c ∧
      (Committed env.cfg L h → Committed env.cfg L' h) := by
  induction hs with
  | now => exact ⟨hr, hd, id⟩
  | @«then» s1 s2 L1 L2 _ hstep hl ih =>
    obtain ⟨hr1, ⟨t, h1, h2, h3⟩, h4⟩ := ih
    have hr2 := hr1.step hstep
    refine ⟨hr2, ?_⟩
    obtain ⟨M, lst, hi⟩ := hr1.inv
    rcases (desc_iff hi.hst.nodup).1 h1 with ⟨hn, h5⟩ | ⟨hp, h5⟩
    · have e : L2.desc env.cfg h = some t := by unfold Ledger.desc; rw [if_pos hn]; exact h5
      refine ⟨⟨t, e, h2, h3⟩, fun hx => ?_⟩
      obtain ⟨t', h6, h7⟩ := h4 hx
      rw [h1] at h6
      cases h6
      exact ⟨t, e, h7⟩
    · rcases hl with hl | hl
      · omega
      rcases hstep.dtype h5 hl with h6 | h6
      · have e := desc_mem (cfg := env.cfg) hr2 h6
        refine ⟨⟨t, e, h2, h3⟩, fun hx => ?_⟩
        obtain ⟨t', h6, h7⟩ := h4 hx
        rw [h1] at h6
        cases h6
        exact ⟨t, e, h7⟩
      · have e := desc_mem (cfg := env.cfg) hr2 h6
        obtain ⟨τ, rfl⟩ := hcom hp
        refine ⟨⟨_, e, h2.committed, fun hh τ' he => ?_⟩, fun _ => ⟨_, e, by simp⟩⟩
        obtain ⟨a, b, c, _⟩ := h3 hh τ' he
        cases he
        exact ⟨a, b, c, h2.committed.extent hc⟩

/-- C59: MPI_Type_commit returns and makes the type usable; it stands for the same datatype. -/
theorem C59_commit (hr : Reach env s L) (hc : env.cfg.Ok) {h : Int} {τ : DType} (hp : 0 ≤ h) (hd : StandsFor env.cfg L h (.data τ)) :
    ∃ s', MPI_Type_commit env s h = .ok s' ∧ s'.mem = s.mem ∧ Step env s L s' (L.commit h) ∧
      StandsFor env.cfg (L.commit h) h (.data τ) ∧ Committed env.cfg (L.commit h) h := by
  obtain ⟨t, h1, h2, h3⟩ := hd
  obtain ⟨M, lst, hi⟩ := hr.inv
  rcases (desc_iff hi.hst.nodup).1 h1 with ⟨hn, _⟩ | ⟨_, h5⟩
  · omega
  obtain ⟨s', h6, h7, h8, h9⟩ := C30_commit hr h5
  refine ⟨s', h6, h7, .commit h5 h6, ⟨_, h9, h2.committed, fun hh τ' he => ?_⟩, _, h9, by simp⟩
  obtain ⟨a, b, c, _⟩ := h3 hh τ' he
  cases he
  exact ⟨a, b, c, h2.committed.extent hc⟩

/-- C59: at any time until it is freed, the inquiry calls on a derived type report the datatype. -/
theorem C59_reports (hr : Reach env s L) (hc : env.cfg.Ok) {h : Int} {τ : DType} (hp : 0 ≤ h)
    (hd : StandsFor env.cfg L h (.data τ)) : HandleReports env s h τ := by
  obtain ⟨t, h1, h2, h3⟩ := hd
  exact C25_reports hr hc h1 h2 (h3 hp τ rfl)

theorem Describes.dataDesc {cfg : Cfg} (hc : cfg.Ok) {t : Typestruct} {τ : DType} (h : Describes cfg t (.data τ)) :
    DataDesc cfg t ∧ typeMap t = τ.map ∧ t.count = τ.map.length := by
  obtain ⟨hg, ha⟩ := h.meaning hc
  have hm : typeMap t = τ.map := by rw [← ha]; rfl
  refine ⟨⟨hg.wf, fun x hx => ?_⟩, hm, ?_⟩
  · unfold typeMap at hx
    obtain ⟨p, hp, rfl⟩ := List.mem_map.1 hx
    exact ⟨_, hg.lens p hp⟩
  · rw [← hm]
    have := elems_length hg.wf 0 1 0
    unfold elems at this
    rw [repeated_length] at this
    have h0 := hg.wf.1
    simp at this
    omega

/-- Exchanges between buffers described by handles that stand for `τs` and `τr`. -/
theorem transfer_of_legal {cfg : Cfg} (hc : cfg.Ok) {ts tr : Typestruct} {τs τr : DType}
    (hs : Describes cfg ts (.data τs)) (hr : Describes cfg tr (.data τr)) (hcs : ts.committed ≠ 0) (hcr : tr.committed ≠ 0)
    {sb sc rb rc : Int} (hl : LegalExchange (sz cfg) (cfg.typeChecking = true) sb sc τs rb rc τr) :
    Transfer cfg sb sc ts (extent (sz cfg) τs) rb rc tr (extent (sz cfg) τr) := by
  obtain ⟨d1, m1, c1⟩ := hs.dataDesc hc
  obtain ⟨d2, m2, c2⟩ := hr.dataDesc hc
  have e1 : elems ts (extent (sz cfg) τs) sc sb = placed (sz cfg) τs sc sb := by unfold elems placed; rw [m1]
  have e2 : elems tr (extent (sz cfg) τr) rc rb = placed (sz cfg) τr rc rb := by unfold elems placed; rw [m2]
  have n1 := Int.mul_nonneg (show 0 ≤ (τs.map.length : Int) by omega) hl.srcCount
  have n2 := Int.mul_nonneg (show 0 ≤ (τr.map.length : Int) by omega) hl.dstCount
  exact
    { srcDesc := d1, dstDesc := d2
      srcExt := hs.extent hc, dstExt := hr.extent hc
      fit := ⟨by rw [c1]; exact ⟨by omega, hl.srcFits⟩, by rw [c2]; exact ⟨by omega, hl.dstFits⟩⟩
      srcCommitted := hcs, dstCommitted := hcr, srcCount := hl.srcCount
      enough := by rw [e1, e2]; exact hl.enough
      srcReach := by rw [e1, e2]; exact hl.srcReach
      dstReach := by rw [e2]; exact hl.dstReach
      kinds := by rw [e1, e2]; exact hl.kinds
      disjoint := by rw [e2]; exact hl.disjoint
      apart := by rw [e1, e2]; exact hl.apart }

/-- C59, use: a call in which a message of `sc` items `st` meets a waiting receive of `rc` items `rt` (also
MPI_Sendrecv and the collectives) moves the elements the standard says, and changes no other byte, if it
returns.  Partial: the limits in `LegalExchange`. -/
theorem C59_delivers_partial (hr : Reach env s L) (hc : env.cfg.Ok) {sb sc st rb rc rt : Int} {R : Res Mem}
    (h : Delivers env s L sb sc st rb rc rt R) {τs τr : DType} (h1 : StandsFor env.cfg L st (.data τs))
    (h2 : StandsFor env.cfg L rt (.data τr)) (c1 : Committed env.cfg L st) (c2 : Committed env.cfg L rt)
    (hl : LegalExchange (sz env.cfg) (env.cfg.typeChecking = true) sb sc τs rb rc τr) {m' : Mem} (hok : R = .ok m') :
    Moved (sz env.cfg) s.mem m' (placed (sz env.cfg) τs sc sb) (placed (sz env.cfg) τr rc rb) := by
  obtain ⟨ts, a1, b1, _⟩ := h1
  obtain ⟨tr, a2, b2, _⟩ := h2
  obtain ⟨_, a1', k1⟩ := c1
  obtain ⟨_, a2', k2⟩ := c2
  rw [a1] at a1'; cases a1'
  rw [a2] at a2'; cases a2'
  have ht := transfer_of_legal hc b1 b2 k1 k2 hl
  have m1 := (b1.dataDesc hc).2.1
  have m2 := (b2.dataDesc hc).2.1
  have := C22_recv_first_partial hc hr h hok a1 a2 ht
  have hf := C31_frame_partial (b2.dataDesc hc).1.wf (b2.extent hc) ht.dstReach ((h.eq hr a1 a2).symm.trans hok)
  unfold elems at this hf
  rw [m1, m2] at this
  rw [m2] at hf
  exact ⟨this, hf⟩

/-- ... and it returns whenever the program may access both buffers. -/
theorem C59_returns_partial (hr : Reach env s L) (hc : env.cfg.Ok) {sb sc st rb rc rt : Int} {R : Res Mem}
    (h : Delivers env s L sb sc st rb rc rt R) {τs τr : DType} (h1 : StandsFor env.cfg L st (.data τs))
    (h2 : StandsFor env.cfg L rt (.data τr)) (c1 : Committed env.cfg L st) (c2 : Committed env.cfg L rt)
    (hl : LegalExchange (sz env.cfg) (env.cfg.typeChecking = true) sb sc τs rb rc τr)
    (had : Accessible (sz env.cfg) (fun a => (s.mem a).isSome) (placed (sz env.cfg) τr rc rb))
    (has : Accessible (sz env.cfg) (fun a => (s.mem a).isSome) (placed (sz env.cfg) τs sc sb)) :
    ∃ m', R = .ok m' := by
  obtain ⟨ts, a1, b1, _⟩ := h1
  obtain ⟨tr, a2, b2, _⟩ := h2
  obtain ⟨_, a1', k1⟩ := c1
  obtain ⟨_, a2', k2⟩ := c2
  rw [a1] at a1'; cases a1'
  rw [a2] at a2'; cases a2'
  have ht := transfer_of_legal hc b1 b2 k1 k2 hl
  refine C22_recv_first_returns_partial hc hr h a1 a2 ht ?_ ?_
  · unfold elems; rw [(b2.dataDesc hc).2.1]; exact had
  · unfold elems; rw [(b1.dataDesc hc).2.1]
    exact fun x hx => has x (List.mem_of_mem_take hx)

/-- The same for a receive that finds its message waiting.  Partial: also, the message must have the datatype
of the receive (possibly through another handle): the code ignores the sender's - `C22_fails_send_first`. -/
theorem C59_collects_partial (hr : Reach env s L) (hc : env.cfg.Ok) {sb sc st rb rc rt : Int} {R : Res Mem}
    (h : Collects env s L sb sc st rb rc rt R) {τ : DType}
    (h2 : StandsFor env.cfg L rt (.data τ)) (c2 : Committed env.cfg L rt)
    (hle : rc ≤ sc) (hl : LegalExchange (sz env.cfg) (env.cfg.typeChecking = true) sb rc τ rb rc τ)
    {m' : Mem} (hok : R = .ok m') :
    Moved (sz env.cfg) s.mem m' (placed (sz env.cfg) τ sc sb) (placed (sz env.cfg) τ rc rb) := by
  obtain ⟨tr, a2, b2, _⟩ := h2
  obtain ⟨_, a2', k2⟩ := c2
  rw [a2] at a2'; cases a2'
  have ht := transfer_of_legal hc b2 b2 k2 k2 hl
  have m2 := (b2.dataDesc hc).2.1
  have he := (h.eq hr a2).symm.trans hok
  have hb := C32_bytes hc ht he
  have hf := C31_frame_partial (b2.dataDesc hc).1.wf (b2.extent hc) ht.dstReach he
  have hpre := elems_prefix tr (extent (sz env.cfg) τ) sb hle
  unfold elems at hb hf hpre
  rw [m2] at hb hf hpre
  refine ⟨fun i d hd => ?_, hf⟩
  obtain ⟨e, h3, h4⟩ := hb i d hd
  obtain ⟨q, hq⟩ := hpre
  refine ⟨e, ?_, h4⟩
  unfold placed
  rw [← hq, List.getElem?_append_left (List.getElem?_eq_some_iff.1 h3).1]
  exact h3

end

/-! ## Instances -/

/-- Two MPI_CHARs two bytes apart. -/
def vec2 : DType := Spec.vector (sz {}) 2 1 2 (Spec.plain [(0, 0)])

theorem vec2_map : vec2.map = [(0, 0), (2, 0)] ∧ extent (sz {}) vec2 = 3 := by decide

theorem char_standsFor (L : Ledger) : StandsFor {} L (-1) (.data (Spec.plain [(0, 0)])) :=
  ⟨static1 1 0, rfl, .basic (t := static1 1 0) ⟨by decide, by decide, by decide⟩, fun h => absurd h (by decide)⟩

theorem vec2_small : Small (sz {}) ((List.range (2 : Int).toNat).map fun (i : Nat) =>
    ((1 : Int).toNat, 2 * extent (sz {}) (Spec.plain [(0, 0)]) * i, .data (Spec.plain [(0, 0)]))) :=
  ⟨by decide, by decide, by decide, by decide, by decide, by decide, by
    intro b hb τ hτ h
    obtain ⟨y, _, rfl⟩ := List.mem_map.1 hb
    simp⟩

theorem pair_small : Small (sz {}) ((List.range (2 : Int).toNat).map fun (i : Nat) =>
    (1, extent (sz {}) vec2 * i, .data vec2)) :=
  ⟨by decide, by decide, by decide, by decide, by decide, by decide, by
    intro b hb τ hτ h
    obtain ⟨y, _, rfl⟩ := List.mem_map.1 hb
    simp⟩

/-- C59_built_partial, C59_commit, C59_lasting: after MPI_Init a vector type is built and committed, two of
them are made into another type, which is committed too; in the end both handles stand for their datatypes
and can be used. -/
example : ∃ s1 h1 s2 s3 h2 s4 L4, MPI_Type_vector env0 H1.s 2 1 2 (-1) = .ok (s1, h1) ∧
    MPI_Type_commit env0 s1 h1 = .ok s2 ∧ MPI_Type_contiguous env0 s2 2 h1 = .ok (s3, h2) ∧
    MPI_Type_commit env0 s3 h2 = .ok s4 ∧ Reach env0 s4 L4 ∧
    StandsFor {} L4 h1 (.data vec2) ∧ Committed {} L4 h1 ∧
    StandsFor {} L4 h2 (.data (Spec.contiguous (sz {}) 2 vec2)) ∧ Committed {} L4 h2 := by
  have h0 : Reach env0 H1.s H1.L := H1_ok
  obtain ⟨s1, h1, t1, e1, p1, n1, _, st1, d1, _⟩ := C59_built_partial h0 cfg_default_ok (by decide +kernel) rfl rfl
    (TypeBuild.vector (n := 2) (bl := 1) (st := 2) (char_standsFor H1.L) (by decide) (by decide) vec2_small)
  have r1 := h0.step st1
  obtain ⟨s2, e2, _, st2, d2, c2⟩ := C59_commit r1 cfg_default_ok p1 d1
  have r2 := r1.step st2
  have hlen : ((H1.L.addType h1 t1).commit h1).objs.length < 262143 := by
    have b : ((H1.L.addType h1 t1).commit h1).objs.length = H1.L.objs.length + 1 := by
      unfold Ledger.commit Ledger.addType; simp
    have : H1.L.objs.length = 1 := by decide +kernel
    omega
  obtain ⟨s3, h2, t2, e3, p3, n3, _, st3, d3, _⟩ := C59_built_partial r2 cfg_default_ok hlen rfl rfl
    (TypeBuild.contiguous (n := 2) d2 (by decide) pair_small)
  have r3 := r2.step st3
  obtain ⟨s4, e4, _, st4, d4, c4⟩ := C59_commit r3 cfg_default_ok p3 d3
  have k3 : h1 ∈ (((H1.L.addType h1 t1).commit h1).addType h2 t2).objs.map Prod.fst := by
    unfold Ledger.addType Ledger.commit; simp
  have k4 : h1 ∈ ((((H1.L.addType h1 t1).commit h1).addType h2 t2).commit h2).objs.map Prod.fst := by
    unfold Ledger.addType Ledger.commit
    simp
  obtain ⟨r4, d5, c5⟩ := C59_lasting r2 cfg_default_ok
    (Lasts.then (Lasts.then .now st3 (Or.inr k3)) st4 (Or.inr k4)) d2 (fun _ => ⟨_, rfl⟩)
  exact ⟨s1, h1, s2, s3, h2, s4, _, e1, e2, e3, e4, r4, d5, c5 c2, d4, c4⟩

theorem vecDesc_describes : Describes {} vecDesc (.data vec2) ∧ Reports {} vecDesc vec2 := by
  obtain ⟨t, h1, h2, h3⟩ := C25_vector_partial (n := 2) (bl := 1) (s := 2) (g := env0.garbage 0) cfg_default_ok
    (.basic (t := static1 1 0) ⟨by decide, by decide, by decide⟩) (by decide) (by decide) rfl rfl vec2_small
  have e : vecDesc = { t with committed := 1 } := by
    unfold vecDesc
    rw [h1]
    rfl
  rw [e]
  exact ⟨h2.committed, h3.map, h3.lb, h3.ub, h2.committed.extent cfg_default_ok⟩

theorem V4_standsFor : StandsFor {} V4.L 2 (.data vec2) :=
  ⟨vecDesc, V4_type, vecDesc_describes.1, fun _ τ h => by cases h; exact vecDesc_describes.2⟩

theorem vec2_legal : LegalExchange (sz {}) (({} : Cfg).typeChecking = true) 100 1 vec2 300 2 (Spec.plain [(0, 0)]) := by
  constructor <;> decide +kernel

/-- C59_delivers_partial, C59_returns_partial: one vector (the bytes at 100 and 102) is received as two
MPI_CHARs at 300. -/
example : ∃ m', (MPI_Isend env0 { V4.s with mem := memAll } 100 1 2 0 5 1 >>= fun x => Res.ok x.1.mem) = .ok m' ∧
    Moved (sz {}) memAll m' [(100, 0), (102, 0)] [(300, 0), (301, 0)] := by
  have hr : Reach env0 { V4.s with mem := memAll } V4.L := Reach.step V4_ok .memory
  have hd : Delivers env0 { V4.s with mem := memAll } V4.L 100 1 2 300 2 (-1) _ := .isend V4_ready V4_meets
  have c1 : Committed {} V4.L 2 := ⟨vecDesc, V4_type, by decide⟩
  have c2 : Committed {} V4.L (-1) := ⟨static1 1 0, rfl, by decide⟩
  obtain ⟨m', h⟩ := C59_returns_partial hr cfg_default_ok hd V4_standsFor (char_standsFor _) c1 c2 vec2_legal
    (fun _ _ _ _ => rfl) (fun _ _ _ _ => rfl)
  exact ⟨m', h, C59_delivers_partial hr cfg_default_ok hd V4_standsFor (char_standsFor _) c1 c2 vec2_legal h⟩

/-- C59_collects_partial: a vector is waiting (`V3`) and is received as a vector at 300. -/
example {m' : Mem} (h : (MPI_Irecv env0 V3.s 300 1 2 0 5 1 >>= fun x => Res.ok x.1.mem) = .ok m') :
    Moved (sz {}) V3.s.mem m' [(100, 0), (102, 0)] [(300, 0), (302, 0)] := by
  have ht : V3.L.desc {} 2 = some vecDesc := by decide +kernel
  exact C59_collects_partial (show Reach env0 V3.s V3.L from V3_ok) cfg_default_ok
    (Collects.irecv (c := 0) (j := 0) (o := ⟨.send, 0, 5, 100, 1, 2, 3, .pending⟩)
      ⟨by decide +kernel, by decide +kernel, by decide +kernel⟩ (Or.inl rfl)
      ⟨by decide +kernel, by decide, by decide, fun j' o' h => by omega⟩)
    ⟨vecDesc, ht, vecDesc_describes.1, fun _ τ h => by cases h; exact vecDesc_describes.2⟩ ⟨vecDesc, ht, by decide⟩
    (by decide) (by constructor <;> decide +kernel) h

end MpiSerial
