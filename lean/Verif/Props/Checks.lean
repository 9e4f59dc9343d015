import Verif.Spec.Checks
import Verif.Props.Handles
import Verif.Props.Lists

/-!
# C48: the consistency checks of the CHECKS build
-/

set_option linter.unusedSimpArgs false
set_option autoImplicit false

namespace MpiSerial

section Handles
variable {D : Type}

/-- The table of an initialised library. -/
def ready (t : HTab D) : HTab D := if t.needInit then init_handles t else t

theorem HSt.ready {t : HTab D} {L : List Int} (hs : HSt t L) : ∃ fl, HInv (ready t) L fl := by
  rcases hs with ⟨h, rfl⟩ | ⟨fl, hi⟩
  · exact ⟨_, by unfold MpiSerial.ready; rw [if_pos h]; exact init_handles_inv t⟩
  · exact ⟨fl, by unfold MpiSerial.ready; rw [if_neg (by rw [hi.init]; simp)]; exact hi⟩

/-- verify_handle passes exactly for handles of allocated blocks. -/
theorem verify_spec {t : HTab D} {L : List Int} {fl : List Loc} (hi : HInv t L fl) (h : Int) :
    (verify_handle t h (handleToBlock h) (handleToIndex h) = .ok () ∧ itemAddr t h = .ok (locOf h) ∧
      0 ≤ h ∧ h < 256 * t.nblocks ∧ t.valid (locOf h)) ∨
    ((verify_handle t h (handleToBlock h) (handleToIndex h)).aborted = true ∧ (∃ u, itemAddr t h = .ub u) ∧
      (h < 0 ∨ 256 * (t.nblocks : Int) ≤ h)) := by
  have hb := hi.nb2
  unfold verify_handle itemAddr
  simp only [handleToBlock_eq, handleToIndex_eq]
  by_cases h1 : (t.nblocks : Int) ≤ h / 256 ∨ h / 256 < 0
  · right
    rw [if_pos (by omega)]
    refine ⟨rfl, ?_, by omega⟩
    split
    · exact ⟨_, rfl⟩
    · rw [if_pos (by omega)]; exact ⟨_, rfl⟩
  · left
    have hv : t.valid (locOf h) := ⟨by simp only [locOf]; omega, by simp only [locOf]; omega⟩
    rw [if_neg (by omega), if_neg, if_neg (by omega), if_neg (by omega)]
    · exact ⟨rfl, rfl, by omega, by omega, hv⟩
    · have := hi.hnum _ hv
      rw [encLoc_locOf (by omega)] at this
      exact fun hc => hc this

/-- The link field of a live item is null. -/
theorem HStep.next {t t' : HTab D} {L L' : List Int} {e : HEvent D} (h : HStep t L e t' L') (hs : HSt t L)
    (hn : ∀ h ∈ L, (t.items (locOf h)).next = none) : ∀ h ∈ L', (t'.items (locOf h)).next = none := by
  cases h with
  | @alloc _ _ h l fresh he =>
    have main : ∀ (u : HTab D) (fl : List Loc), HInv u L fl → (∀ h ∈ L, (u.items (locOf h)).next = none) →
        mpi_alloc_handle u fresh = .ok (t', h, l) → ∀ x ∈ h :: L, (t'.items (locOf x)).next = none := by
      intro u fl hi hn he x hx
      have hl : l = locOf h := by
        rcases hi.alloc fresh with ⟨_, t2, h2, fl', h3, _⟩ | ⟨_, h2⟩
        · rw [he] at h3; cases h3; rfl
        · rw [he] at h2; simp [Res.aborted] at h2
      subst hl
      unfold mpi_alloc_handle at he
      simp only [hi.init, Bool.false_eq_true, if_false] at he
      split at he
      · next new hnew =>
        simp only [HTab.deref] at he
        split at he
        · simp only [Res.ok_bind, Res.pure_eq, Res.ok.injEq, Prod.mk.injEq] at he
          obtain ⟨rfl, _, rfl⟩ := he
          simp only [HTab.set_items]
          split
          · rfl
          · next hne =>
            rcases List.mem_cons.1 hx with rfl | hx
            · exact absurd rfl hne
            · exact hn x hx
        · cases he
      · next hnone =>
        split at he
        · cases he
        · simp only [Res.pure_eq, Res.ok.injEq, Prod.mk.injEq] at he
          obtain ⟨rfl, _, hloc⟩ := he
          simp only [HTab.set_items]
          split
          · rfl
          · next hne =>
            rcases List.mem_cons.1 hx with rfl | hx
            · exact absurd hloc.symm hne
            · have hv := (hi.live_pos hx).2.2.1
              obtain ⟨_, _, _, b4⟩ := init_block_spec
                { u with needInit := false, items := fun l => if l.block = u.nblocks then ⟨0, none, fresh⟩ else u.items l } u.nblocks
              rw [b4, if_neg (by intro hc; have := hv.1; omega)]
              dsimp only
              rw [if_neg (by have := hv.1; omega)]
              exact hn x hx
    rcases hs with ⟨h1, rfl⟩ | ⟨fl, hi⟩
    · rw [mpi_alloc_handle_needInit h1] at he
      exact main _ _ (init_handles_inv t) (by simp) he
    · exact main _ _ hi hn he
  | @release _ _ h hm he =>
    rcases hs with ⟨h1, rfl⟩ | ⟨fl, hi⟩
    · simp at hm
    · have hp := hi.live_pos hm
      unfold mpi_free_handle at he
      rw [if_neg (by omega), if_neg (by rw [hi.init]; simp), itemAddr_live hi hm] at he
      simp only [Res.ok_bind, Res.pure_eq, Res.ok.injEq] at he
      subst he
      intro x hx
      have hne : x ≠ h := ((hi.lnodup.mem_erase_iff).1 hx).1
      have hxL := ((hi.lnodup.mem_erase_iff).1 hx).2
      have hx' := hi.live_pos hxL
      simp only [HTab.set_items]
      rw [if_neg (fun hc => hne (locOf_inj (by omega) (by omega) hc))]
      exact hn x hxL
  | @lookup _ _ h p hm he =>
    rcases hm with hm | rfl
    · rw [hs.lookup hm] at he; cases he; exact hn
    · unfold mpi_handle_to_ptr at he
      simp only [if_true, Res.pure_eq, Res.ok.injEq, Prod.mk.injEq] at he
      rw [← he.1]
      rcases hs with ⟨h1, rfl⟩ | ⟨fl, hi⟩
      · simp
      · rw [if_neg (by rw [hi.init]; simp)]; exact hn
  | @write _ _ h l d hm he =>
    rw [hs.lookup hm] at he
    cases he
    intro x hx
    rw [HTab.setData_items]
    split
    · next hc => rw [← hc]; exact hn x hx
    · exact hn x hx
  | finalize => simp

theorem HReach.next {t : HTab D} {L : List Int} {evs : List (HEvent D)} (h : HReach t L evs) :
    ∀ h ∈ L, (t.items (locOf h)).next = none := by
  obtain ⟨d, h⟩ := h
  have hs0 : HSt (HTab.start d) [] := HSt.start d
  have hn0 : ∀ h ∈ ([] : List Int), ((HTab.start d).items (locOf h)).next = none := by simp
  generalize HTab.start d = T at h hs0 hn0
  generalize ([] : List Int) = L0 at h hs0 hn0
  induction h with
  | nil => exact hn0
  | snoc h1 h2 ih => exact h2.next (h1.hst hs0) (ih hs0 hn0)

theorem alloc_some {t : HTab D} {l : Loc} (h1 : t.needInit = false) (h2 : t.nextfree = some l) (h3 : t.valid l)
    (fresh : D) : mpi_alloc_handle t fresh =
      .ok ({ t with nextfree := (t.items l).next }.set l { t.items l with next := none }, (t.items l).handle, l) := by
  unfold mpi_alloc_handle
  simp only [h1, Bool.false_eq_true, if_false, h2, HTab.deref, h3, if_true, Res.ok_bind, Res.pure_eq]

/-- C48: on live handles and the null handle the checked functions do what the unchecked ones do. -/
theorem C48_live {t : HTab D} {L : List Int} {evs : List (HEvent D)} (hr : HReach t L evs) :
    (∀ h, h ∈ L ∨ h = 0 → mpi_handle_to_ptr_checks t h = mpi_handle_to_ptr t h) ∧
    (∀ h, h ∈ L ∨ h = 0 → mpi_free_handle_checks t h = mpi_free_handle t h) := by
  have hs := hr.hst
  have hn := hr.next
  constructor
  · rintro h (hm | rfl)
    · rcases hs with ⟨_, rfl⟩ | ⟨fl, hi⟩
      · simp at hm
      · have hp := hi.live_pos hm
        rw [hi.lookup hm]
        unfold mpi_handle_to_ptr_checks
        simp only [hi.init, Bool.false_eq_true, if_false]
        rw [if_neg (by omega)]
        rcases verify_spec hi h with ⟨h1, h2, _⟩ | ⟨_, ⟨u, h2⟩, _⟩
        · rw [h1, h2]; rfl
        · rw [itemAddr_live hi hm] at h2; cases h2
    · rfl
  · rintro h (hm | rfl)
    · rcases hs with ⟨_, rfl⟩ | ⟨fl, hi⟩
      · simp at hm
      · have hp := hi.live_pos hm
        unfold mpi_free_handle_checks mpi_free_handle
        rw [if_neg (by omega), if_neg (by rw [hi.init]; simp), if_neg (by omega), if_neg (by rw [hi.init]; simp)]
        rcases verify_spec hi h with ⟨h1, h2, _⟩ | ⟨_, ⟨u, h2⟩, _⟩
        · rw [h1, h2]
          simp only [Res.ok_bind, hn h hm, Option.isSome_none, Bool.false_eq_true, if_false]
        · rw [itemAddr_live hi hm] at h2; cases h2
    · rfl

theorem HStepC_iff {t t' : HTab D} {L L' : List Int} {evs : List (HEvent D)} {e : HEvent D} (hr : HReach t L evs) :
    HStepC t L e t' L' ↔ HStep t L e t' L' := by
  obtain ⟨h1, h2⟩ := C48_live hr
  constructor
  · intro h
    cases h with
    | alloc he => exact .alloc he
    | release hm he => exact .release hm (by rw [← h2 _ (Or.inl hm)]; exact he)
    | lookup hm he => exact .lookup hm (by rw [← h1 _ hm]; exact he)
    | write hm he => exact .write hm (by rw [← h1 _ (Or.inl hm)]; exact he)
    | finalize => exact .finalize
  · intro h
    cases h with
    | alloc he => exact .alloc he
    | release hm he => exact .release hm (by rw [h2 _ (Or.inl hm)]; exact he)
    | lookup hm he => exact .lookup hm (by rw [h1 _ hm]; exact he)
    | write hm he => exact .write hm (by rw [h1 _ (Or.inl hm)]; exact he)
    | finalize => exact .finalize

/-- C48: the histories of correct clients are the same in both builds: no check ever fires, and none changes
anything. -/
theorem C48_histories {d : D} {t : HTab D} {L : List Int} {evs : List (HEvent D)} :
    HRunC (HTab.start d) [] evs t L ↔ HRun (HTab.start d) [] evs t L := by
  constructor
  · intro h
    have hd : ∃ d', HTab.start d = HTab.start d' := ⟨d, rfl⟩
    generalize HTab.start d = T at h hd
    generalize hL : ([] : List Int) = L0 at h
    induction h with
    | nil => exact .nil
    | snoc _ h2 ih =>
      have := ih hL
      obtain ⟨d', rfl⟩ := hd
      subst hL
      exact this.snoc ((HStepC_iff ⟨d', this⟩).1 h2)
  · intro h
    have hd : ∃ d', HTab.start d = HTab.start d' := ⟨d, rfl⟩
    generalize HTab.start d = T at h hd
    generalize hL : ([] : List Int) = L0 at h
    induction h with
    | nil => exact .nil
    | snoc h1 h2 ih =>
      have := ih hL
      obtain ⟨d', rfl⟩ := hd
      subst hL
      exact this.snoc ((HStepC_iff ⟨d', h1⟩).2 h2)

theorem HReach.ready_nblocks {t : HTab D} {L : List Int} {evs : List (HEvent D)} (hr : HReach t L evs) :
    256 * (ready t).nblocks = tableSize evs := by
  unfold MpiSerial.ready tableSize
  split
  · next h =>
    rw [hr.peak.2.2.1 h, init_handles_eq]
    simp [initTail]
  · next h =>
    rw [(C05_blocks_high_water hr (by simpa using h)).1]

/-- C48: with checks, looking up any C int never computes an invalid pointer.  The call aborts exactly for numbers
outside the table, which is where the unchecked build has undefined behaviour; for all others it does what the
unchecked build does. -/
theorem C48_lookup {t : HTab D} {L : List Int} {evs : List (HEvent D)} (hr : HReach t L evs) (h : Int) :
    if 0 ≤ h ∧ h < tableSize evs then
      mpi_handle_to_ptr_checks t h = mpi_handle_to_ptr t h ∧ (mpi_handle_to_ptr t h).returned = true
    else (mpi_handle_to_ptr_checks t h).aborted = true ∧ ∃ u, mpi_handle_to_ptr t h = .ub u := by
  obtain ⟨fl, hi⟩ := hr.hst.ready
  have hnb := hr.ready_nblocks
  have hnb1 := hi.nb1
  by_cases h0 : h = 0
  · subst h0
    rw [if_pos (by omega)]
    exact ⟨rfl, rfl⟩
  · have e1 : mpi_handle_to_ptr_checks t h = (verify_handle (ready t) h (handleToBlock h) (handleToIndex h) >>= fun _ =>
        itemAddr (ready t) h >>= fun l => .ok (ready t, some l)) := by
      unfold mpi_handle_to_ptr_checks; rw [if_neg h0]; rfl
    have e2 : mpi_handle_to_ptr t h = (itemAddr (ready t) h >>= fun l => .ok (ready t, some l)) := by
      unfold mpi_handle_to_ptr; rw [if_neg h0]; rfl
    rw [e1, e2]
    rcases verify_spec hi h with ⟨h1, h2, h3, h4, _⟩ | ⟨h1, ⟨u, h2⟩, h3⟩
    · rw [if_pos (by omega), h1, h2]
      exact ⟨rfl, rfl⟩
    · rw [if_neg (by omega), h2]
      refine ⟨?_, u, rfl⟩
      cases hv : verify_handle (ready t) h (handleToBlock h) (handleToIndex h) with
      | abort m => rfl
      | _ => rw [hv] at h1; simp [Res.aborted] at h1

/-- C48: releasing a live handle and releasing it again right away: the second call aborts if another handle of the
table was free at the time, and is not noticed if there was none - the same handle is then handed out over and
over. -/
theorem C48_double_release {t t1 : HTab D} {L : List Int} {evs : List (HEvent D)} (hr : HReach t L evs) {h : Int}
    (hh : h ∈ L) (hf : mpi_free_handle_checks t h = .ok t1) :
    if L.length + 1 < tableSize evs then (mpi_free_handle_checks t1 h).aborted = true
    else ∃ t2, mpi_free_handle_checks t1 h = .ok t2 ∧ ∀ fresh fresh' : D, ∃ t3 l3 t4 l4,
      mpi_alloc_handle t2 fresh = .ok (t3, h, l3) ∧ mpi_alloc_handle t3 fresh' = .ok (t4, h, l4) := by
  obtain ⟨fl, hi⟩ := hr.hst.ready
  have hnb := hr.ready_nblocks
  have hni : t.needInit = false := by
    rcases hr.hst with ⟨_, rfl⟩ | ⟨fl, hi⟩
    · simp at hh
    · exact hi.init
  have hrt : ready t = t := by unfold ready; rw [hni]; simp
  rw [hrt] at hi hnb
  have hp := hi.live_pos hh
  have hsz := hi.size
  rw [(C48_live hr).2 h (Or.inl hh)] at hf
  unfold mpi_free_handle at hf
  rw [if_neg (by omega), if_neg (by rw [hi.init]; simp), itemAddr_live hi hh] at hf
  simp only [Res.ok_bind, Res.pure_eq, Res.ok.injEq] at hf
  have hv : verify_handle t1 h (handleToBlock h) (handleToIndex h) = .ok () ∧ itemAddr t1 h = .ok (locOf h) := by
    obtain ⟨t1', h1, h2, _⟩ := hi.free hh
    have : t1 = t1' := by
      unfold mpi_free_handle at h1
      rw [if_neg (by omega), if_neg (by rw [hi.init]; simp), itemAddr_live hi hh] at h1
      simp only [Res.ok_bind, Res.pure_eq, Res.ok.injEq] at h1
      rw [← hf, h1]
    subst this
    rcases verify_spec h2 h with ⟨h3, h4, _⟩ | ⟨_, _, h4⟩
    · exact ⟨h3, h4⟩
    · subst hf
      have h5 := hp.2.2.1.1
      simp only [locOf] at h5
      rcases h4 with h4 | h4
      · omega
      · simp only [HTab.set_nblocks] at h4; omega
  have hchk : mpi_free_handle_checks t1 h = (if (t1.items (locOf h)).next.isSome then
      .abort "mpi_free_handle: handle still in use"
      else .ok { t1.set (locOf h) { t1.items (locOf h) with next := t1.nextfree } with nextfree := some (locOf h) }) := by
    unfold mpi_free_handle_checks
    rw [if_neg (by omega), if_neg (by rw [← hf]; simp [hi.init]), hv.1, hv.2]
    rfl
  have hnext : (t1.items (locOf h)).next = t.nextfree := by rw [← hf]; simp
  rw [hchk, hnext]
  have hc := hi.chain
  split
  · next hlt =>
    cases fl with
    | nil => simp only [List.length_nil] at hsz; omega
    | cons x xs =>
      rw [hc.1]
      rfl
  · next hge =>
    have hfl : fl = [] := by
      cases fl with
      | nil => rfl
      | cons x xs => simp only [List.length_cons] at hsz; omega
    subst hfl
    have hnone : t.nextfree = none := hc
    rw [hnone]
    refine ⟨_, rfl, fun fresh fresh' => ?_⟩
    have hh1 : (t.items (locOf h)).handle = h := by
      rw [hi.hnum _ hp.2.2.1, encLoc_locOf (by omega)]
    have hvl : t.valid (locOf h) := hp.2.2.1
    have hval : ∀ u : HTab D, u.nblocks = t.nblocks → u.valid (locOf h) := fun u hu => by
      unfold HTab.valid at hvl ⊢; rw [hu]; exact hvl
    have a1 := alloc_some (t := { t1.set (locOf h) { t1.items (locOf h) with next := t1.nextfree } with
      nextfree := some (locOf h) }) (l := locOf h) (by rw [← hf]; simp [hni]) rfl
      (hval _ (by rw [← hf]; rfl)) fresh
    have e1 : ({ t1.set (locOf h) { t1.items (locOf h) with next := t1.nextfree } with
      nextfree := some (locOf h) } : HTab D).items (locOf h) = ⟨h, some (locOf h), (t.items (locOf h)).data⟩ := by
      rw [← hf]; simp [hh1]
    rw [e1] at a1
    exact ⟨_, _, _, _, a1, (alloc_some (l := locOf h) (by rw [← hf]; simp [hni]) rfl
      (hval _ (by rw [← hf]; rfl)) fresh').trans (by simp; exact ⟨rfl, rfl⟩)⟩

/-- A table is uninitialised exactly at the start and right after it was destroyed. -/
theorem HReach.needInit_iff {t : HTab D} {L : List Int} {evs : List (HEvent D)} (hr : HReach t L evs) :
    t.needInit = true ↔ ∀ e ∈ evs.getLast?, e = .finalize := by
  obtain ⟨d, h⟩ := hr
  cases h with
  | nil => simp [HTab.start]
  | snoc h1 h2 =>
    have hs := HReach.hst ⟨d, h1⟩
    have hr' : HReach t L _ := ⟨d, h1.snoc h2⟩
    have hne : ∀ h, h ∈ L → t.needInit = false := fun h hh => by
      rcases hr'.hst with ⟨_, rfl⟩ | ⟨_, hi⟩
      · simp at hh
      · exact hi.init
    simp only [List.getLast?_append, List.getLast?_singleton, Option.some_or, Option.mem_def, Option.some.injEq,
      forall_eq']
    cases h2 with
    | alloc he => simp [hne _ (List.mem_cons_self ..)]
    | @release _ _ h hm he =>
      rcases hs with ⟨_, rfl⟩ | ⟨fl, hi⟩
      · simp at hm
      · unfold mpi_free_handle at he
        rw [if_neg (by have := hi.live_pos hm; omega), if_neg (by rw [hi.init]; simp), itemAddr_live hi hm] at he
        simp only [Res.ok_bind, Res.pure_eq, Res.ok.injEq] at he
        subst he
        simp [hi.init]
    | @lookup _ _ h p hm he =>
      rcases hm with hm | rfl
      · simp [hne _ hm]
      · unfold mpi_handle_to_ptr at he
        simp only [if_true, Res.pure_eq, Res.ok.injEq, Prod.mk.injEq] at he
        rw [← he.1]
        have := (hs.ready).choose_spec.init
        unfold MpiSerial.ready at this
        simp [this]
    | write hm he => rw [hne _ hm]; simp
    | finalize =>
      rcases hs with ⟨h1, _⟩ | ⟨fl, hi⟩
      · simp [mpi_destroy_handles, h1]
      · simp [mpi_destroy_handles, hi.init]

/-- Exactly one item of a free list has a null link. -/
theorem FreeChain.last {items : Loc → Item D} : ∀ {fl : List Loc} {p : Option Loc}, FreeChain items p fl → fl ≠ [] →
    ∃ z ∈ fl, (items z).next = none ∧ ∀ l ∈ fl, (items l).next = none → l = z
  | [], _, _, h => absurd rfl h
  | [x], _, hc, _ => ⟨x, by simp, hc.2, by simp⟩
  | x :: y :: fl, _, hc, _ => by
    obtain ⟨z, h1, h2, h3⟩ := FreeChain.last hc.2 (by simp)
    refine ⟨z, List.mem_cons_of_mem _ h1, h2, fun l hl hn => ?_⟩
    rcases List.mem_cons.1 hl with rfl | hl
    · have := hc.2.1
      rw [hn] at this
      cases this
    · exact h3 l hl hn

/-- C48: releasing any C int in any state.  Before the table is initialised every number except the null handle is
refused by both builds.  Afterwards a number outside the table is refused by the CHECKS build and is undefined
behaviour without it; of the numbers inside the table that are not live, the CHECKS build refuses all but one. -/
theorem C48_release {t : HTab D} {L : List Int} {evs : List (HEvent D)} (hr : HReach t L evs) :
    ((∀ e ∈ evs.getLast?, e = .finalize) → ∀ h : Int, h ≠ 0 →
      (mpi_free_handle_checks t h).aborted = true ∧ (mpi_free_handle t h).aborted = true) ∧
    ((¬ ∀ e ∈ evs.getLast?, e = .finalize) →
      (∀ h : Int, ¬ (0 ≤ h ∧ h < tableSize evs) →
        (mpi_free_handle_checks t h).aborted = true ∧ ∃ u, mpi_free_handle t h = .ub u) ∧
      (∀ h : Int, 0 < h → h < tableSize evs → h ∉ L →
        (mpi_free_handle t h).returned = true ∧
        ((mpi_free_handle_checks t h).aborted = true ∨ mpi_free_handle_checks t h = mpi_free_handle t h)) ∧
      (L.length + 1 < tableSize evs →
        ∃ one, ∀ h : Int, 0 < h ∧ h < tableSize evs ∧ h ∉ L ∧ mpi_free_handle_checks t h = mpi_free_handle t h ↔
          h = one)) := by
  rw [← hr.needInit_iff]
  refine ⟨fun hn h h0 => ?_, fun hn => ?_⟩
  · unfold mpi_free_handle_checks mpi_free_handle
    rw [if_neg h0, if_pos hn, if_neg h0, if_pos hn]
    exact ⟨rfl, rfl⟩
  have hrt : ready t = t := by unfold ready; rw [if_neg hn]
  obtain ⟨fl, hi⟩ := hr.hst.ready
  have hnb := hr.ready_nblocks
  rw [hrt] at hi hnb
  have hsz := hi.size
  have hnb1 := hi.nb1
  have e1 : ∀ h : Int, h ≠ 0 → mpi_free_handle_checks t h =
      (verify_handle t h (handleToBlock h) (handleToIndex h) >>= fun _ => itemAddr t h >>= fun l =>
        if (t.items l).next.isSome then .abort "mpi_free_handle: handle still in use"
        else .ok { t.set l { t.items l with next := t.nextfree } with nextfree := some l }) := fun h h0 => by
    unfold mpi_free_handle_checks; rw [if_neg h0, if_neg hn]; rfl
  have e2 : ∀ h : Int, h ≠ 0 → mpi_free_handle t h = (itemAddr t h >>= fun l =>
        .ok { t.set l { t.items l with next := t.nextfree } with nextfree := some l }) := fun h h0 => by
    unfold mpi_free_handle; rw [if_neg h0, if_neg hn]; rfl
  have e3 : ∀ h : Int, 0 < h → h < tableSize evs →
      mpi_free_handle_checks t h = (if (t.items (locOf h)).next.isSome then
        .abort "mpi_free_handle: handle still in use" else mpi_free_handle t h) ∧
      (mpi_free_handle t h).returned = true ∧ t.valid (locOf h) := fun h h1 h2 => by
    rw [e1 h (by omega), e2 h (by omega)]
    rcases verify_spec hi h with ⟨h3, h4, _, _, h5⟩ | ⟨_, _, h3⟩
    · rw [h3, h4]
      exact ⟨rfl, rfl, h5⟩
    · omega
  have e4 : ∀ h : Int, 0 < h → h < tableSize evs → (h ∉ L ↔ locOf h ∈ fl) := fun h h1 h2 => by
    rw [hi.live]
    constructor
    · intro hx
      refine Classical.byContradiction fun hc => hx ⟨locOf h, (e3 h h1 h2).2.2, fun h0 => ?_, hc, (encLoc_locOf (by omega)).symm⟩
      have := encLoc_locOf (h := h) (by omega)
      rw [h0] at this
      simp [encLoc] at this
      omega
    · rintro hx ⟨l, h3, _, h4, rfl⟩
      rw [locOf_encLoc h3.2] at hx
      exact h4 hx
  refine ⟨fun h hh => ?_, fun h h1 h2 _ => ?_, fun hlt => ?_⟩
  · rw [e1 h (by omega), e2 h (by omega)]
    rcases verify_spec hi h with ⟨_, _, h3, h4, _⟩ | ⟨h1, ⟨u, h2⟩, _⟩
    · omega
    · rw [h2]
      refine ⟨?_, u, rfl⟩
      cases hv : verify_handle t h (handleToBlock h) (handleToIndex h) with
      | abort m => rfl
      | _ => rw [hv] at h1; simp [Res.aborted] at h1
  · obtain ⟨h3, h4, _⟩ := e3 h h1 h2
    refine ⟨h4, ?_⟩
    rw [h3]
    split
    · exact Or.inl rfl
    · exact Or.inr rfl
  · obtain ⟨z, hz, hz1, hz2⟩ := hi.chain.last (by rintro rfl; simp only [List.length_nil] at hsz; omega)
    obtain ⟨hv, hv0⟩ := hi.fvalid z hz
    have hp := encLoc_pos hv0
    have hb : encLoc z < tableSize evs := by
      have h1 := hv.1
      have h2 := hv.2
      unfold encLoc
      omega
    have hl : locOf (encLoc z) = z := locOf_encLoc hv.2
    refine ⟨encLoc z, fun h => ⟨?_, ?_⟩⟩
    rotate_left
    · rintro rfl
      refine ⟨hp, hb, (e4 _ hp hb).2 (by rw [hl]; exact hz), ?_⟩
      rw [(e3 _ hp hb).1, hl, hz1]; rfl
    · rintro ⟨h1, h2, h3, h4⟩
      have h5 := (e4 _ h1 h2).1 h3
      have h6 : (t.items (locOf h)).next = none := by
        obtain ⟨h7, h8, _⟩ := e3 h h1 h2
        rw [h7] at h4
        split at h4
        · rw [← h4] at h8; simp [Res.returned] at h8
        · next hs => simpa using hs
      rw [← hz2 _ h5 h6, encLoc_locOf (by omega)]

/-- Right after initialisation the one free handle whose release goes unnoticed is 255. -/
example : ∃ (t : HTab Nat), HReach t [] [.lookup 0] ∧ mpi_free_handle_checks t 255 = mpi_free_handle t 255 ∧
    (mpi_free_handle_checks t 1).aborted = true ∧ (mpi_free_handle_checks t 256).aborted = true ∧
    (mpi_free_handle_checks (HTab.start 7) 1).aborted = true := by
  refine ⟨init_handles (HTab.start 7), ⟨7, HRun.nil.snoc (.lookup (Or.inr rfl) rfl)⟩, ?_, ?_, ?_, ?_⟩
  · rfl
  · decide +kernel
  · decide +kernel
  · decide +kernel

/-- The numbers are as expected: with nothing allocated the table has 256 entries, with a peak of 256 live
handles it has 512. -/
example : tableSize ([] : List (HEvent Nat)) = 256 ∧ tableSize ((List.range 255).map fun (i : Nat) => HEvent.alloc (D := Nat) i) = 256 ∧
    tableSize ((List.range 256).map fun (i : Nat) => HEvent.alloc (D := Nat) i) = 512 := by decide +kernel

/-- Both cases of `C48_double_release` occur. -/
example : ∃ (t : HTab Nat) (L : List Int) (evs : List (HEvent Nat)), HReach t L evs ∧ L ≠ [] ∧ L.length + 1 < tableSize evs := by
  obtain ⟨t, L, evs, hr, hl⟩ := C03_capacity_reached (D := Nat) 7 2 (by omega)
  exact ⟨t, L, evs, hr, by rintro rfl; simp at hl, by unfold tableSize; omega⟩

example : ∃ (t : HTab Nat) (L : List Int) (evs : List (HEvent Nat)), HReach t L evs ∧ L ≠ [] ∧ ¬ L.length + 1 < tableSize evs := by
  obtain ⟨t, L, evs, hr, hl⟩ := C03_capacity_reached (D := Nat) 7 262143 (by omega)
  refine ⟨t, L, evs, hr, by rintro rfl; simp at hl, ?_⟩
  have h1 := hr.ready_nblocks
  obtain ⟨fl, hi⟩ := hr.hst.ready
  have h2 := hi.nb2
  omega

end Handles

section Lists
variable {A : Type} [DecidableEq A]

/-- The field `list` of every item of a list points to that list. -/
def Owned (c : CHeap A) (M : AbsLists A) : Prop := ∀ l s x a, (l, s) ∈ M → (x, a) ∈ s → c.owner x = l

omit [DecidableEq A] in
theorem mem_updL {M : AbsLists A} {k l : Nat} {f : List (Nat × A) → List (Nat × A)} {s : List (Nat × A)}
    (h : (l, s) ∈ updL M k f) : (l ≠ k ∧ (l, s) ∈ M) ∨ (l = k ∧ ∃ s0, (k, s0) ∈ M ∧ s = f s0) := by
  obtain ⟨⟨l0, s0⟩, hm, he⟩ := List.mem_map.1 h
  by_cases hk : l0 = k
  · subst hk
    simp only [if_true, Prod.mk.injEq] at he
    obtain ⟨rfl, rfl⟩ := he
    exact Or.inr ⟨rfl, s0, hm, rfl⟩
  · simp only [hk, if_false, Prod.mk.injEq] at he
    obtain ⟨rfl, rfl⟩ := he
    exact Or.inl ⟨hk, hm⟩

omit [DecidableEq A] in
theorem Owned.upd {c : CHeap A} {h : LHeap A} {M : AbsLists A} {k : Nat} {f : List (Nat × A) → List (Nat × A)}
    (ho : Owned c M) (hf : ∀ s, ∀ e ∈ f s, e ∈ s) : Owned { c with heap := h } (updL M k f) := by
  intro l s x a hm hx
  rcases mem_updL hm with ⟨_, h1⟩ | ⟨rfl, s0, h1, rfl⟩
  · exact ho l s x a h1 hx
  · exact ho l s0 x a h1 (hf _ _ hx)

omit [DecidableEq A] in
theorem Owned.item {c : CHeap A} {M : AbsLists A} {l x : Nat} {s : List (Nat × A)} {a : A} (ho : Owned c M)
    (hi : LInv c.heap M) (hm : (l, s) ∈ M) (hx : (x, a) ∈ s) :
    (∃ n, c.heap.getN x = .ok n) ∧ c.owner x = l := by
  refine ⟨?_, ho l s x a hm hx⟩
  obtain ⟨s1, s2, rfl⟩ := List.append_of_mem hx
  exact ⟨_, hi.getN hm⟩

omit [DecidableEq A] in
theorem delete_item_same {c : CHeap A} {M : AbsLists A} {l x : Nat} {s : List (Nat × A)} {a : A} (ho : Owned c M)
    (hi : LInv c.heap M) (hm : (l, s) ∈ M) (hx : (x, a) ∈ s) :
    AP_list_delete_item_checks c l x = (AP_list_delete_item c.heap l x >>= fun h => .ok { c with heap := h }) := by
  obtain ⟨⟨n, h1⟩, h2⟩ := ho.item hi hm hx
  unfold AP_list_delete_item_checks
  rw [h1, Res.ok_bind, if_neg (by rw [h2]; simp)]
  rfl

theorem delete_same {c : CHeap A} {M : AbsLists A} {l : Nat} (ho : Owned c M) (hi : LInv c.heap M)
    (hm : l ∈ M.map Prod.fst) (a : A) :
    AP_list_delete_checks c l a = (AP_list_delete c.heap l a >>= fun x => .ok ({ c with heap := x.1 }, x.2)) := by
  obtain ⟨⟨l', s⟩, hm', rfl⟩ := List.mem_map.1 hm
  unfold AP_list_delete_checks AP_list_delete
  dsimp only
  rw [hi.search hm' a, Res.ok_bind, Res.ok_bind]
  cases hf : s.find? (fun e => decide (e.2 = a)) with
  | none => rfl
  | some e =>
    obtain ⟨x, b⟩ := e
    dsimp only [Option.map_some]
    rw [delete_item_same ho hi hm' (List.mem_of_find?_eq_some hf)]
    cases AP_list_delete_item c.heap l' x <;> rfl

theorem LStepC.step {c c' : CHeap A} {M M' : AbsLists A} {e : LEvent} (h : LStepC c M e c' M') (hi : LOk c.heap M)
    (ho : Owned c M) : LStep c.heap M e c'.heap M' ∧ Owned c' M' := by
  have hI := hi.1
  have hb := hi.bounds
  have hown : ∀ {n l : Nat} {h' : LHeap A} {f : List (Nat × A) → List (Nat × A)}, n = c.heap.nextNode →
      (∀ s, ∀ e ∈ f s, e ∈ s ∨ e.1 = n) → Owned ({ c with heap := h' }.setOwner n l) (updL M l f) := by
    intro n l h' f hn hf l1 s1 x a hm hx
    unfold CHeap.setOwner
    dsimp only
    rcases mem_updL hm with ⟨h1, h2⟩ | ⟨rfl, s0, h2, rfl⟩
    · rw [if_neg]
      · exact ho _ _ _ _ h2 hx
      · rintro rfl
        have := hI.bnode x (List.mem_flatMap.2 ⟨_, h2, List.mem_map.2 ⟨_, hx, rfl⟩⟩)
        omega
    · split
      · rfl
      · next hne =>
        rcases hf _ _ hx with h | h
        · exact ho _ _ _ _ h2 h
        · exact absurd h hne
  cases h with
  | new h1 h2 =>
    obtain ⟨⟨h', l'⟩, h3, h4⟩ := Res.bind_eq_ok.1 h2
    cases h4
    refine ⟨.new h1 h3, ?_⟩
    intro l s x a hm hx
    rcases List.mem_cons.1 hm with h | h
    · cases h; simp at hx
    · exact ho l s x a h hx
  | free h1 h2 =>
    obtain ⟨h', h3, h4⟩ := Res.bind_eq_ok.1 h2
    cases h4
    exact ⟨.free h1 h3, fun l s x a hm hx => ho l s x a (List.mem_filter.1 hm).1 hx⟩
  | @append _ _ l n a h1 h2 h3 =>
    obtain ⟨⟨h', n'⟩, h4, h5⟩ := Res.bind_eq_ok.1 h3
    cases h5
    refine ⟨.append h1 h2 h4, hown ?_ ?_⟩
    · obtain ⟨⟨l', s⟩, hm', rfl⟩ := List.mem_map.1 h1
      obtain ⟨M', hp, _, hu⟩ := split_key hI.keys hm'
      obtain ⟨h6, h7, _, _⟩ := (hI.perm hp).append a (by omega)
      rw [h4] at h7; cases h7; rfl
    · intro s e he
      rcases List.mem_append.1 he with h | h
      · exact Or.inl h
      · rw [List.mem_singleton.1 h]; exact Or.inr rfl
  | @prepend _ _ l n a h1 h2 h3 =>
    obtain ⟨⟨h', n'⟩, h4, h5⟩ := Res.bind_eq_ok.1 h3
    cases h5
    refine ⟨.prepend h1 h2 h4, hown ?_ ?_⟩
    · obtain ⟨⟨l', s⟩, hm', rfl⟩ := List.mem_map.1 h1
      obtain ⟨M', hp, _, hu⟩ := split_key hI.keys hm'
      obtain ⟨h6, h7, _, _⟩ := (hI.perm hp).prepend a (by omega)
      rw [h4] at h7; cases h7; rfl
    · intro s e he
      rcases List.mem_cons.1 he with rfl | h
      · exact Or.inr rfl
      · exact Or.inl h
  | @deleteItem _ _ l x s a h1 h2 h3 =>
    rw [delete_item_same ho hI h1 h2] at h3
    obtain ⟨h', h4, h5⟩ := Res.bind_eq_ok.1 h3
    cases h5
    exact ⟨.deleteItem h1 h2 h4, ho.upd fun s e he => (List.mem_filter.1 he).1⟩
  | @delete _ _ l a r h1 h2 =>
    rw [delete_same ho hI h1] at h2
    obtain ⟨⟨h', r'⟩, h4, h5⟩ := Res.bind_eq_ok.1 h2
    cases h5
    exact ⟨.delete h1 h4, ho.upd fun s e he => List.mem_of_mem_eraseP he⟩

theorem LRunC.run {c0 c : CHeap A} {M0 M : AbsLists A} {evs : List LEvent} (h : LRunC c0 M0 evs c M)
    (hi : LOk c0.heap M0) (ho : Owned c0 M0) : LRun c0.heap M0 evs c.heap M ∧ Owned c M := by
  induction h with
  | nil => exact ⟨.nil, ho⟩
  | snoc _ h2 ih =>
    obtain ⟨h3, h4⟩ := ih hi ho
    obtain ⟨h5, h6⟩ := h2.step (h3.ok hi) h4
    exact ⟨h3.snoc h5, h6⟩

theorem LStep.checked {c : CHeap A} {h' : LHeap A} {M M' : AbsLists A} {e : LEvent} (h : LStep c.heap M e h' M')
    (hi : LInv c.heap M) (ho : Owned c M) (hd : ∀ l l', e ≠ .duplicate l l') : ∃ own, LStepC c M e ⟨h', own⟩ M' := by
  cases h with
  | new h1 h2 => exact ⟨_, .new h1 (by unfold AP_list_new_checks; rw [h2]; rfl)⟩
  | free h1 h2 => exact ⟨_, .free h1 (by unfold AP_list_free_checks; rw [h2]; rfl)⟩
  | append h1 h2 h3 => exact ⟨_, .append h1 h2 (by unfold AP_list_append_checks; rw [h3]; rfl)⟩
  | prepend h1 h2 h3 => exact ⟨_, .prepend h1 h2 (by unfold AP_list_prepend_checks; rw [h3]; rfl)⟩
  | deleteItem h1 h2 h3 => exact ⟨_, .deleteItem h1 h2 (by rw [delete_item_same ho hi h1 h2, h3]; rfl)⟩
  | delete h1 h2 => exact ⟨_, .delete h1 (by rw [delete_same ho hi h1, h2]; rfl)⟩
  | duplicate => exact absurd rfl (hd _ _)

theorem LRun.checked {c0 : CHeap A} {h : LHeap A} {M0 M : AbsLists A} {evs : List LEvent}
    (hr : LRun c0.heap M0 evs h M) (hi : LOk c0.heap M0) (ho : Owned c0 M0) (hd : ∀ l l', LEvent.duplicate l l' ∉ evs) :
    ∃ own, LRunC c0 M0 evs ⟨h, own⟩ M := by
  generalize hH : c0.heap = H at hr
  induction hr with
  | nil => subst hH; exact ⟨c0.owner, .nil⟩
  | snoc hr hs ih =>
    subst hH
    obtain ⟨own, h1⟩ := ih hi ho (fun l l' hm => hd l l' (by simp [hm]))
    obtain ⟨h2, h3⟩ := h1.run hi ho
    obtain ⟨own', h4⟩ := LStep.checked (c := ⟨_, own⟩) hs (h2.ok hi).1 h3 (fun l l' he => hd l l' (by simp [he]))
    exact ⟨own', h1.snoc h4⟩

/-- C48: a history of list operations without AP_list_duplicate is possible in the CHECKS build exactly if it is in
the other build, with the same lists (whatever the fields `list` contain initially). -/
theorem C48_list_histories {own : Nat → Nat} {h : LHeap A} {M : AbsLists A} {evs : List LEvent}
    (hd : ∀ l l', LEvent.duplicate l l' ∉ evs) :
    (∃ own', LRunC ⟨LHeap.empty, own⟩ [] evs ⟨h, own'⟩ M) ↔ LRun LHeap.empty [] evs h M := by
  have h0 : LOk (LHeap.empty : LHeap A) [] := ⟨LInv.empty, by simp [totalItems], by simp⟩
  have o0 : Owned (⟨LHeap.empty, own⟩ : CHeap A) [] := fun l s x a hm => by simp at hm
  exact ⟨fun ⟨own', hr⟩ => (hr.run h0 o0).1, fun hr => LRun.checked (c0 := ⟨LHeap.empty, own⟩) hr h0 o0 hd⟩

/-- C48: in such a history, AP_list_delete_item aborts when asked to remove an item from another list than its
own, and otherwise does what it does in the other build. -/
theorem C48_list_delete {own : Nat → Nat} {c : CHeap A} {M : AbsLists A} {evs : List LEvent}
    (hr : LRunC ⟨LHeap.empty, own⟩ [] evs c M) {l x : Nat} {s : List (Nat × A)} {a : A} (hm : (l, s) ∈ M) (hx : (x, a) ∈ s) :
    (AP_list_delete_item_checks c l x = (AP_list_delete_item c.heap l x >>= fun h => .ok { c with heap := h })) ∧
    ∀ l', l' ≠ l → (AP_list_delete_item_checks c l' x).aborted = true := by
  obtain ⟨h1, h2⟩ := hr.run ⟨LInv.empty, by simp [totalItems], by simp⟩ (fun l s x a hm => by simp at hm)
  have hi := h1.start_ok.1
  refine ⟨delete_item_same h2 hi hm hx, fun l' hl => ?_⟩
  obtain ⟨⟨n, h3⟩, h4⟩ := h2.item hi hm hx
  unfold AP_list_delete_item_checks
  rw [h3, Res.ok_bind, if_pos (by rw [h4]; exact Ne.symm hl)]
  rfl

/-- C48: exactly when removing an item from a duplicated list aborts in the CHECKS build: its field `list` is
whatever the storage of the item contained, and the check passes only if that happens to be the new list. -/
theorem C48_duplicate_exact {own : Nat → Nat} {c c' : CHeap A} {M : AbsLists A} {evs : List LEvent}
    (hr : LRunC ⟨LHeap.empty, own⟩ [] evs c M) {l l' : Nat} {s : List (Nat × A)} (hm : (l, s) ∈ M)
    (hn : M.length < 2147483647) (ht : totalItems M + s.length ≤ 2147483647) {g : Option Nat}
    (hd : AP_list_duplicate_checks g c l = .ok (c', l')) :
    ∃ t, walk c'.heap l' = .ok t ∧ t.map Prod.snd = s.map Prod.snd ∧ ∀ x ∈ t.map Prod.fst,
      (AP_list_delete_item c'.heap l' x).returned = true ∧
      AP_list_delete_item_checks c' l' x =
        if c.owner x = l' then AP_list_delete_item c'.heap l' x >>= fun h => .ok { c' with heap := h }
        else .abort "AP_list_delete_item: item is not in list" := by
  obtain ⟨h1, _⟩ := hr.run ⟨LInv.empty, by simp [totalItems], by simp⟩ (fun l s x a hm => by simp at hm)
  have hok := h1.start_ok
  obtain ⟨b1, b2⟩ := hok.bounds
  obtain ⟨⟨h2, l2⟩, he, hd⟩ := Res.bind_eq_ok.1 hd
  cases hd
  obtain ⟨hI, hc, hc'⟩ := id hok
  obtain ⟨M', hp, _, _⟩ := split_key hI.keys hm
  obtain ⟨h3, t, h4, h5, h6⟩ := (hI.perm hp).duplicate g (by omega) (by omega)
  rw [he] at h4
  cases h4
  have hw := h6.walk (List.mem_cons_self ..)
  have hok2 := LStep.ok (.duplicate hm hn ht he hw) hok
  obtain ⟨b3, _⟩ := hok2.bounds
  have b4 := hok2.2.1
  refine ⟨t, hw, h5, fun x hx => ?_⟩
  obtain ⟨⟨x', a⟩, hxa, rfl⟩ := List.mem_map.1 hx
  obtain ⟨s1, s2, rfl⟩ := List.append_of_mem hxa
  have hg : ∃ n, h2.getN x' = .ok n := ⟨_, h6.getN (List.mem_cons_self ..)⟩
  obtain ⟨n, hg⟩ := hg
  obtain ⟨h7, h8, _⟩ := h6.delete_item (by omega)
  refine ⟨by rw [h8]; rfl, ?_⟩
  unfold AP_list_delete_item_checks
  simp only
  rw [hg, Res.ok_bind]
  by_cases ho : c.owner x' = c.heap.nextList
  · rw [if_neg (by simpa using ho), if_pos ho]; rfl
  · rw [if_pos ho, if_neg ho]

/-- C48 fails for duplicated lists: AP_list_duplicate leaves the field `list` of the new items unassigned, so in the
CHECKS build removing an item from the duplicate aborts (here the memory from malloc contained 99), which it does
not in the other build. -/
theorem C48_fails_duplicate :
    (do let (c, l) ← AP_list_new_checks (A := Nat) ⟨LHeap.empty, fun _ => 99⟩
        let (c, _) ← AP_list_append_checks c l 5
        let (c, l') ← AP_list_duplicate_checks none c l
        AP_list_delete_checks c l' 5).aborted = true ∧
    (do let (h, l) ← AP_list_new (A := Nat) LHeap.empty
        let (h, _) ← AP_list_append h l 5
        let (h, l') ← AP_list_duplicate none h l
        AP_list_delete h l' 5).returned = true := by
  decide +kernel

end Lists

end MpiSerial
