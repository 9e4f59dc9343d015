import Verif.Spec.Coll
import Verif.Proofs.Blocking
import Verif.Props.Requests

/-!
# Collectives (C35, C36)
-/

set_option linter.unusedSimpArgs false
set_option autoImplicit false

namespace MpiSerial

section
variable {env : Env} {s s' : Sys} {L L' : Ledger}

theorem copy_data2_desc {M : AbsLists Loc} {lst : Nat → Kind → Nat} (hi : Inv s L M lst)
    (hn : s.handles.needInit = false) {st rt : Int} {ts tr : Typestruct}
    (h1 : L.desc env.cfg st = some ts) (h2 : L.desc env.cfg rt = some tr) (sb sc rb rc : Int) :
    copy_data2 env s sb sc st rb rc rt =
      (Pcopy_data2 env.cfg s.mem sb sc ts rb rc tr >>= fun m => .ok { s with mem := m }) := by
  rw [copy_data2_eq hn, copyMem_desc hi.hst hi.typesOk h1 h2]

/-- The common part: `copy_data2` is a message to oneself. -/
theorem copy_like (hr : Reach env s L) {st rt : Int} (h1 : IsType env L st) (h2 : IsType env L rt)
    (sb sc rb rc : Int) :
    LikeSelfMessage env s L sb sc st rb rc rt (copy_data2 env s sb sc st rb rc rt) := by
  intro comm tag hx
  obtain ⟨c, hcm, ha, hb⟩ := hx.live
  obtain ⟨ts, h1⟩ := h1
  obtain ⟨tr, h2⟩ := h2
  obtain ⟨S, hS, he⟩ := C15_sendrecv hr hcm hx.queue (src := 0) (Or.inl rfl) sb sc st tag rb rc rt tag (st := .null)
    (by simp) ha hb (by simp [accepts]) hx.room h1 h2
  obtain ⟨M, lst, hi⟩ := hr.inv
  rw [he, copy_data2_desc hi (hi.hst.inited (mem_keys hcm)) h1 h2]
  cases Pcopy_data2 env.cfg s.mem sb sc ts rb rc tr <;> simp [hS]

theorem displ_eq {b d e : Int} (h : DisplFits b d e) : padd b (displOffset d (u64 e)) = b + d * e := by
  obtain ⟨h1, h2, h3, h4⟩ := h
  unfold displOffset
  rw [u64_mul_left, u64_mul_right, s32_u64, s32_of_range h1 h2]
  unfold padd
  omega

/-! ## C35 -/

/-- C35: with root 0 and no MPI_IN_PLACE. -/
theorem C35_gather (hr : Reach env s L) {sb sc st rb rc rt comm : Int} (h1 : IsType env L st) (h2 : IsType env L rt)
    (hb : sb ≠ MPI_IN_PLACE) :
    LikeSelfMessage env s L sb sc st rb rc rt (MPI_Gather env s sb sc st rb rc rt 0 comm) ∧
    LikeSelfMessage env s L sb sc st rb rc rt (MPI_Allgather env s sb sc st rb rc rt comm) := by
  unfold MPI_Gather MPI_Allgather
  rw [if_neg hb, if_neg (by decide), if_neg (by simp), if_neg hb]
  exact ⟨copy_like hr h1 h2 sb sc rb rc, copy_like hr h1 h2 sb sc rb rc⟩

theorem C35_scatter (hr : Reach env s L) {sb sc st rb rc rt comm : Int} (h1 : IsType env L st) (h2 : IsType env L rt)
    (hb : rb ≠ MPI_IN_PLACE) :
    LikeSelfMessage env s L sb sc st rb rc rt (MPI_Scatter env s sb sc st rb rc rt 0 comm) := by
  unfold MPI_Scatter
  rw [if_neg hb, if_neg (by decide), if_neg (by simp)]
  exact copy_like hr h1 h2 sb sc rb rc

theorem C35_alltoall (hr : Reach env s L) {sb sc st rb rc rt comm : Int} (h1 : IsType env L st)
    (h2 : IsType env L rt) :
    LikeSelfMessage env s L sb sc st rb rc rt (MPI_Alltoall env s sb sc st rb rc rt comm) :=
  copy_like hr h1 h2 sb sc rb rc

/-- C35, reductions: whatever the operator, the reduction of one contribution is that contribution. -/
theorem C35_reductions (hr : Reach env s L) {sb rb n t op comm : Int} (h : IsType env L t) :
    LikeSelfMessage env s L sb n t rb n t (MPI_Reduce env s sb rb n t op 0 comm) ∧
    (sb ≠ MPI_IN_PLACE → LikeSelfMessage env s L sb n t rb n t (MPI_Allreduce env s sb rb n t op comm)) ∧
    (∀ ns, LikeSelfMessage env s L sb n t rb n t (MPI_Reduce_scatter env s sb rb (n :: ns) t op comm)) ∧
    LikeSelfMessage env s L sb n t rb n t (MPI_Scan env s sb rb n t op comm) := by
  refine ⟨?_, ?_, ?_, ?_⟩
  · unfold MPI_Reduce
    rw [if_neg (by simp)]
    exact copy_like hr h h sb n rb n
  · intro hb
    unfold MPI_Allreduce
    rw [if_neg hb]
    exact copy_like hr h h sb n rb n
  · intro ns
    exact copy_like hr h h sb n rb n
  · exact copy_like hr h h sb n rb n

/-- C35, the operator makes no difference. -/
theorem C35_operator (sb rb n t op op' root comm : Int) (ns : List Int) :
    MPI_Reduce env s sb rb n t op root comm = MPI_Reduce env s sb rb n t op' root comm ∧
    MPI_Allreduce env s sb rb n t op comm = MPI_Allreduce env s sb rb n t op' comm ∧
    MPI_Reduce_scatter env s sb rb ns t op comm = MPI_Reduce_scatter env s sb rb ns t op' comm ∧
    MPI_Scan env s sb rb n t op comm = MPI_Scan env s sb rb n t op' comm := ⟨rfl, rfl, rfl, rfl⟩

/-- C35, MPI_Gatherv and MPI_Allgatherv: at the receive displacement times the extent.  Partial: the
byte offset must be an `int` (`DisplFits`); see `C35_fails_displacement`. -/
theorem C35_gatherv_partial (hr : Reach env s L) {sb sc st rb n d rt e comm : Int} {ns ds : List Int}
    (h1 : IsType env L st) (h2 : IsType env L rt) (hb : sb ≠ MPI_IN_PLACE) (he : HasExtent env s rt e)
    (hd : DisplFits rb d e) :
    LikeSelfMessage env s L sb sc st (rb + d * e) n rt
      (MPI_Gatherv env s sb sc st rb (n :: ns) (d :: ds) rt 0 comm) ∧
    LikeSelfMessage env s L sb sc st (rb + d * e) n rt
      (MPI_Allgatherv env s sb sc st rb (n :: ns) (d :: ds) rt comm) := by
  have key := copy_like hr h1 h2 sb sc (rb + d * e) n
  rw [← displ_eq hd] at key ⊢
  unfold MPI_Gatherv MPI_Allgatherv
  rw [if_neg hb, if_neg (by decide), if_neg (by simp), if_neg hb, he, Res.ok_bind]
  exact ⟨key, key⟩

/-- C35, MPI_Scatterv: from the send displacement times the extent.  Partial as above. -/
theorem C35_scatterv_partial (hr : Reach env s L) {sb n d st rb rc rt e comm : Int} {ns ds : List Int}
    (h1 : IsType env L st) (h2 : IsType env L rt) (hb : rb ≠ MPI_IN_PLACE) (he : HasExtent env s st e)
    (hd : DisplFits sb d e) :
    LikeSelfMessage env s L (sb + d * e) n st rb rc rt
      (MPI_Scatterv env s sb (n :: ns) (d :: ds) st rb rc rt 0 comm) := by
  have key := copy_like hr h1 h2 (sb + d * e) n rb rc
  rw [← displ_eq hd] at key ⊢
  unfold MPI_Scatterv
  rw [if_neg hb, if_neg (by decide), if_neg (by simp), he, Res.ok_bind]
  exact key

/-- C35, MPI_Alltoallv: both displacements, each times its own extent.  Partial as above. -/
theorem C35_alltoallv_partial (hr : Reach env s L) {sb n d st e rb n' d' rt e' comm : Int}
    {ns ds ns' ds' : List Int} (h1 : IsType env L st) (h2 : IsType env L rt)
    (he : HasExtent env s st e) (hd : DisplFits sb d e) (he' : HasExtent env s rt e') (hd' : DisplFits rb d' e') :
    LikeSelfMessage env s L (sb + d * e) n st (rb + d' * e') n' rt
      (MPI_Alltoallv env s sb (n :: ns) (d :: ds) st rb (n' :: ns') (d' :: ds') rt comm) := by
  have key := copy_like hr h1 h2 (sb + d * e) n (rb + d' * e') n'
  rw [← displ_eq hd, ← displ_eq hd'] at key ⊢
  unfold MPI_Alltoallv
  rw [he, Res.ok_bind]
  dsimp only
  rw [he', Res.ok_bind]
  exact key

/-- C35, MPI_Alltoallw: displacements are bytes, no multiplication. -/
theorem C35_alltoallw (hr : Reach env s L) {sb n d st rb n' d' rt comm : Int} {ns ds ts ns' ds' ts' : List Int}
    (h1 : IsType env L st) (h2 : IsType env L rt)
    (hd : 0 ≤ sb + d ∧ sb + d < 18446744073709551616) (hd' : 0 ≤ rb + d' ∧ rb + d' < 18446744073709551616) :
    LikeSelfMessage env s L (sb + d) n st (rb + d') n' rt
      (MPI_Alltoallw env s sb (n :: ns) (d :: ds) (st :: ts) rb (n' :: ns') (d' :: ds') (rt :: ts') comm) := by
  have key := copy_like hr h1 h2 (sb + d) n (rb + d') n'
  have e1 : padd sb d = sb + d := by unfold padd; omega
  have e2 : padd rb d' = rb + d' := by unfold padd; omega
  rw [← e1, ← e2] at key ⊢
  exact key

theorem displ_reduced {b d e a : Int} (h : DisplReduced b d e a) : padd b (displOffset d (u64 e)) = a := by
  obtain ⟨off, h1, h2, h3, rfl, h4, h5⟩ := h
  unfold displOffset
  rw [u64_mul_left, u64_mul_right, s32_u64]
  have : s32 (d * e) = off := by unfold s32; omega
  rw [this]
  unfold padd
  omega

/-- C35, the exact behaviour of the calls with displacements, for every displacement and extent: the message goes to
(comes from) the address with the byte offset reduced to the range of `int`. -/
theorem C35_displacement_exact (hr : Reach env s L) {sb sc n d st rb rc n' d' rt e e' a a' comm : Int}
    {ns ds ns' ds' : List Int} (h1 : IsType env L st) (h2 : IsType env L rt)
    (he : HasExtent env s st e) (hd : DisplReduced sb d e a)
    (he' : HasExtent env s rt e') (hd' : DisplReduced rb d' e' a') :
    (sb ≠ MPI_IN_PLACE → LikeSelfMessage env s L sb sc st a' n' rt
        (MPI_Gatherv env s sb sc st rb (n' :: ns') (d' :: ds') rt 0 comm) ∧
      LikeSelfMessage env s L sb sc st a' n' rt
        (MPI_Allgatherv env s sb sc st rb (n' :: ns') (d' :: ds') rt comm)) ∧
    (rb ≠ MPI_IN_PLACE → LikeSelfMessage env s L a n st rb rc rt
        (MPI_Scatterv env s sb (n :: ns) (d :: ds) st rb rc rt 0 comm)) ∧
    LikeSelfMessage env s L a n st a' n' rt
      (MPI_Alltoallv env s sb (n :: ns) (d :: ds) st rb (n' :: ns') (d' :: ds') rt comm) := by
  refine ⟨fun hb => ?_, fun hb => ?_, ?_⟩
  · have key := copy_like hr h1 h2 sb sc a' n'
    rw [← displ_reduced hd'] at key ⊢
    unfold MPI_Gatherv MPI_Allgatherv
    rw [if_neg hb, if_neg (by decide), if_neg (by simp), if_neg hb, he', Res.ok_bind]
    exact ⟨key, key⟩
  · have key := copy_like hr h1 h2 a n rb rc
    rw [← displ_reduced hd] at key ⊢
    unfold MPI_Scatterv
    rw [if_neg hb, if_neg (by decide), if_neg (by simp), he, Res.ok_bind]
    exact key
  · have key := copy_like hr h1 h2 a n a' n'
    rw [← displ_reduced hd, ← displ_reduced hd'] at key ⊢
    unfold MPI_Alltoallv
    rw [he, Res.ok_bind]
    dsimp only
    rw [he', Res.ok_bind]
    exact key

/-- C35: that address is the right one exactly when the byte offset is an `int`. -/
theorem C35_displacement_right {b d e a : Int} (h : DisplReduced b d e a) :
    a = b + d * e ↔ INT_MIN ≤ d * e ∧ d * e ≤ INT_MAX := by
  obtain ⟨off, h1, h2, h3, rfl, _⟩ := h
  constructor
  · intro h
    obtain rfl : off = d * e := by omega
    exact ⟨h1, h2⟩
  · rintro ⟨g1, g2⟩
    omega

/-- C35: the displacements `DisplFits` allows are reduced to themselves. -/
theorem DisplFits.reduced {b d e : Int} (h : DisplFits b d e) : DisplReduced b d e (b + d * e) :=
  ⟨d * e, h.1, h.2.1, by simp, rfl, h.2.2⟩

/-! ## C36 -/

/-- C36: a root that is neither 0 nor MPI_ROOT (MPI_Reduce: other than 0) ends the program — in every
state, so in particular when no byte of memory may be accessed.  Partial: not with MPI_IN_PLACE, where
the root is not looked at (`C36_fails_root`). -/
theorem C36_root_partial {root : Int} (h0 : root ≠ 0) (s : Sys) (sb sc st rb rc rt op comm : Int)
    (ns ds : List Int) :
    (MPI_Reduce env s sb rb sc st op root comm).aborted = true ∧
    (root ≠ MPI_ROOT →
      (MPI_Bcast s sb sc st root comm).aborted = true ∧
      (sb ≠ MPI_IN_PLACE → (MPI_Gather env s sb sc st rb rc rt root comm).aborted = true ∧
        (MPI_Gatherv env s sb sc st rb ns ds rt root comm).aborted = true) ∧
      (rb ≠ MPI_IN_PLACE → (MPI_Scatter env s sb sc st rb rc rt root comm).aborted = true ∧
        (MPI_Scatterv env s sb ns ds st rb rc rt root comm).aborted = true)) := by
  refine ⟨?_, fun h1 => ⟨?_, fun hb => ⟨?_, ?_⟩, fun hb => ⟨?_, ?_⟩⟩⟩
  · unfold MPI_Reduce; rw [if_pos h0]; rfl
  · unfold MPI_Bcast; rw [if_neg h1, if_pos h0]; rfl
  · unfold MPI_Gather; rw [if_neg hb, if_neg h1, if_pos h0]; rfl
  · unfold MPI_Gatherv; rw [if_neg hb, if_neg h1, if_pos h0]; rfl
  · unfold MPI_Scatter; rw [if_neg hb, if_neg h1, if_pos h0]; rfl
  · unfold MPI_Scatterv; rw [if_neg hb, if_neg h1, if_pos h0]; rfl

/-- C36: MPI_ROOT returns at once with nothing changed. -/
theorem C36_mpi_root (s : Sys) (sb sc st rb rc rt comm : Int) (ns ds : List Int) :
    MPI_Bcast s sb sc st MPI_ROOT comm = .ok s ∧
    MPI_Gather env s sb sc st rb rc rt MPI_ROOT comm = .ok s ∧
    MPI_Gatherv env s sb sc st rb ns ds rt MPI_ROOT comm = .ok s ∧
    MPI_Scatter env s sb sc st rb rc rt MPI_ROOT comm = .ok s ∧
    MPI_Scatterv env s sb ns ds st rb rc rt MPI_ROOT comm = .ok s := by
  unfold MPI_Bcast MPI_Gather MPI_Gatherv MPI_Scatter MPI_Scatterv
  refine ⟨by simp, ?_, ?_, ?_, ?_⟩ <;> split <;> simp

/-- C36: MPI_IN_PLACE returns at once with nothing changed.  Partial: MPI_Reduce, MPI_Reduce_scatter,
MPI_Scan and the MPI_Alltoall family do not know MPI_IN_PLACE (`C36_fails_in_place`). -/
theorem C36_in_place_partial (s : Sys) (sc st buf rc rt root op comm : Int) (ns ds : List Int) :
    MPI_Gather env s MPI_IN_PLACE sc st buf rc rt root comm = .ok s ∧
    MPI_Gatherv env s MPI_IN_PLACE sc st buf ns ds rt root comm = .ok s ∧
    MPI_Allgather env s MPI_IN_PLACE sc st buf rc rt comm = .ok s ∧
    MPI_Allgatherv env s MPI_IN_PLACE sc st buf ns ds rt comm = .ok s ∧
    MPI_Scatter env s buf sc st MPI_IN_PLACE rc rt root comm = .ok s ∧
    MPI_Scatterv env s buf ns ds st MPI_IN_PLACE rc rt root comm = .ok s ∧
    MPI_Allreduce env s MPI_IN_PLACE buf sc st op comm = .ok s := by
  unfold MPI_Gather MPI_Gatherv MPI_Allgather MPI_Allgatherv MPI_Scatter MPI_Scatterv MPI_Allreduce
  simp

/-- C36, the exact behaviour of the calls that do not know MPI_IN_PLACE, for every argument: they send from the address
that constant stands for. -/
theorem C36_in_place_exact (hr : Reach env s L) {rb n n' t t' op comm : Int} (h : IsType env L t) (h' : IsType env L t')
    (ns : List Int) :
    LikeSelfMessage env s L MPI_IN_PLACE n t rb n t (MPI_Reduce env s MPI_IN_PLACE rb n t op 0 comm) ∧
    LikeSelfMessage env s L MPI_IN_PLACE n t rb n t (MPI_Reduce_scatter env s MPI_IN_PLACE rb (n :: ns) t op comm) ∧
    LikeSelfMessage env s L MPI_IN_PLACE n t rb n t (MPI_Scan env s MPI_IN_PLACE rb n t op comm) ∧
    LikeSelfMessage env s L MPI_IN_PLACE n t rb n' t' (MPI_Alltoall env s MPI_IN_PLACE n t rb n' t' comm) := by
  refine ⟨?_, copy_like hr h h _ n rb n, copy_like hr h h _ n rb n, copy_like hr h h' _ n rb n'⟩
  unfold MPI_Reduce
  rw [if_neg (by simp)]
  exact copy_like hr h h _ n rb n

/-- C36: MPI_Barrier, and MPI_Bcast from the only process, change nothing at all. -/
theorem C36_nothing (s : Sys) (buf n t comm : Int) :
    MPI_Barrier s comm = .ok s ∧ MPI_Bcast s buf n t 0 comm = .ok s := by
  constructor
  · rfl
  · unfold MPI_Bcast; rw [if_neg (by decide), if_neg (by simp)]

end

/-! ## Disagreements -/

/-- Memory in which every byte may be accessed; byte `a` holds `a mod 251`. -/
def memAll : Mem := fun a => some (UInt8.ofNat (a % 251).toNat)

/-- MPI_Init with that memory. -/
def CL : Demo := (Demo.start memAll).init
theorem CL_ok : CL.Ok := Demo.init_ok (Demo.start_ok _) (by decide +kernel) (by decide +kernel)

/-- C35 fails when displacement times extent is no `int` (collective.c:127): MPI_Gatherv of one MPI_INT
at displacement 2^30 (byte offset 2^32) writes at offset 0. -/
theorem C35_fails_displacement :
    HasExtent env0 CL.s (-3) 4 ∧
    ((MPI_Gatherv env0 CL.s 1000 1 (-3) 2000 [1] [1073741824] (-3) 0 1).getD CL.s).mem 2000 = memAll 1000 ∧
    ((MPI_Sendrecv env0 CL.s 1000 1 (-3) 0 7 (2000 + 1073741824 * 4) 1 (-3) 0 7 1 .null).getD (CL.s, .null)).1.mem 2000
      = memAll 2000 ∧ memAll 1000 ≠ memAll 2000 := by
  refine ⟨?_, by decide +kernel, by decide +kernel, by decide +kernel⟩
  obtain ⟨M, lst, hi⟩ := (show Reach env0 CL.s CL.L from CL_ok).inv
  unfold HasExtent MPI_Type_extent
  rw [hi.typeOf (t := (simpletypes env0.cfg)[2]) (by decide +kernel), Res.ok_bind]
  dsimp only
  rw [show Type_extent env0.cfg (simpletypes env0.cfg)[2] = .ok (u64 4) by decide +kernel]
  rfl

/-- C36 fails: with MPI_IN_PLACE the root is not checked (collective.c:72-74 before 81). -/
theorem C36_fails_root : ∀ s : Sys,
    MPI_Gather env0 s MPI_IN_PLACE 1 (-3) 2000 1 (-3) 7 1 = .ok s ∧
    MPI_Scatter env0 s 2000 1 (-3) MPI_IN_PLACE 1 (-3) 7 1 = .ok s := fun _ => ⟨rfl, rfl⟩

/-- C36 fails: MPI_Reduce, MPI_Scan, MPI_Reduce_scatter and MPI_Alltoall take MPI_IN_PLACE for the address
of a send buffer and read from it. -/
theorem C36_fails_in_place :
    (MPI_Reduce env0 { CL.s with mem := fun a => if a < 10000 then some 0 else none } MPI_IN_PLACE 2000 1 (-3) 0 0 1).returned
      = false ∧
    ((MPI_Reduce env0 CL.s MPI_IN_PLACE 2000 1 (-3) 0 0 1).getD CL.s).mem 2000 ≠ memAll 2000 ∧
    ((MPI_Scan env0 CL.s MPI_IN_PLACE 2000 1 (-3) 0 1).getD CL.s).mem 2000 ≠ memAll 2000 ∧
    ((MPI_Reduce_scatter env0 CL.s MPI_IN_PLACE 2000 [1] (-3) 0 1).getD CL.s).mem 2000 ≠ memAll 2000 ∧
    ((MPI_Alltoall env0 CL.s MPI_IN_PLACE 1 (-3) 2000 1 (-3) 1).getD CL.s).mem 2000 ≠ memAll 2000 := by
  decide +kernel

/-! ## Instances -/

theorem H8_exchange : CanExchange H8.L 1 6 where
  live := ⟨0, by decide +kernel, by rw [NoOpen, H8_ops]; decide, by rw [NoOpen, H8_ops]; decide⟩
  room := by decide +kernel
  queue := by decide +kernel

theorem IsType.simple {env : Env} {L : Ledger} {h : Int} (h1 : -45 ≤ h) (h2 : h < 0) : IsType env L h := by
  have hl : (-1 - h).toNat < (simpletypes env.cfg).length := by rw [simpletypes_length]; omega
  exact ⟨_, by unfold Ledger.desc; rw [if_pos h2]; exact List.getElem?_eq_getElem hl⟩

/-- C35_gather with pending traffic around: the three characters at 100 arrive at 700, as they would with
a message of tag 6; MPI_Scan with any operator likewise. -/
example : MPI_Gather env0 H8.s 100 3 (-1) 700 3 (-1) 0 1 =
    (MPI_Sendrecv env0 H8.s 100 3 (-1) 0 6 700 3 (-1) 0 6 1 .null >>= fun x => .ok { H8.s with mem := x.1.mem }) :=
  (C35_gather H8_ok (.simple (by decide) (by decide)) (.simple (by decide) (by decide)) (by decide)).1 1 6 H8_exchange
example : ((MPI_Gather env0 H8.s 100 3 (-1) 700 3 (-1) 0 1).getD H8.s).mem 702 = some 3 := by decide +kernel
/-- An exchange that is refused: more is to be received than sent. -/
example : (MPI_Alltoall env0 H8.s 100 1 (-1) 700 3 (-1) 1 >>= fun _ => Res.ok ()) = .exit 1 := by decide +kernel
example : LikeSelfMessage env0 H8.s H8.L 100 2 (-1) 700 2 (-1) (MPI_Scan env0 H8.s 100 700 2 (-1) 77 1) :=
  (C35_reductions H8_ok (.simple (by decide) (by decide))).2.2.2

/-- C35_gatherv_partial: displacement 2 of MPI_INT (extent 4). -/
example : LikeSelfMessage env0 CL.s CL.L 1000 1 (-3) (2000 + 2 * 4) 1 (-3)
    (MPI_Gatherv env0 CL.s 1000 1 (-3) 2000 [1] [2] (-3) 0 1) :=
  (C35_gatherv_partial (show Reach env0 CL.s CL.L from CL_ok) (.simple (by decide) (by decide))
    (.simple (by decide) (by decide)) (by decide) C35_fails_displacement.1 (by unfold DisplFits; decide)).1
example : ((MPI_Gatherv env0 CL.s 1000 1 (-3) 2000 [1] [2] (-3) 0 1).getD CL.s).mem 2008 = memAll 1000 ∧
    ((MPI_Alltoallv env0 CL.s 1000 [1] [-3] (-3) 2000 [1] [2] (-3) 1).getD CL.s).mem 2008 = memAll 988 ∧
    ((MPI_Scatterv env0 CL.s 1000 [1] [3] (-3) 2000 1 (-3) 0 1).getD CL.s).mem 2000 = memAll 1012 ∧
    ((MPI_Alltoallw env0 CL.s 1000 [1] [-3] [-3] 2000 [1] [2] [-3] 1).getD CL.s).mem 2002 = memAll 997 := by
  decide +kernel

/-- C35_displacement_exact: displacement 2^30 of MPI_INT leads back to the start of the buffer. -/
example : LikeSelfMessage env0 CL.s CL.L 1000 1 (-3) 2000 1 (-3)
    (MPI_Gatherv env0 CL.s 1000 1 (-3) 2000 [1] [1073741824] (-3) 0 1) :=
  ((C35_displacement_exact (show Reach env0 CL.s CL.L from CL_ok) (n := 0) (rc := 0) (ns := []) (ds := [])
    (.simple (by decide) (by decide)) (.simple (by decide) (by decide)) C35_fails_displacement.1
    (a := 1000) (d := 0) ⟨0, by decide, by decide, by decide, by decide, by decide, by decide⟩ C35_fails_displacement.1
    ⟨0, by decide, by decide, by decide, by decide, by decide, by decide⟩).1 (by decide)).1
example : LikeSelfMessage env0 CL.s CL.L MPI_IN_PLACE 1 (-3) 2000 1 (-3) (MPI_Scan env0 CL.s MPI_IN_PLACE 2000 1 (-3) 0 1) :=
  (C36_in_place_exact (show Reach env0 CL.s CL.L from CL_ok) (n' := 0) (.simple (by decide) (by decide))
    (.simple (h := -3) (by decide) (by decide)) []).2.2.1

/-- C36: roots 1, -1 and MPI_ROOT. -/
example : (MPI_Bcast CL.s 0 1 (-3) 1 1).aborted = true ∧ (MPI_Reduce env0 CL.s 0 8 1 (-3) 0 MPI_ROOT 1).aborted = true ∧
    (MPI_Gather env0 CL.s 0 1 (-3) 8 1 (-3) (-1) 1).aborted = true ∧
    (MPI_Gather env0 CL.s 0 1 (-3) 8 1 (-3) MPI_ROOT 1).returned = true := by decide +kernel

end MpiSerial
