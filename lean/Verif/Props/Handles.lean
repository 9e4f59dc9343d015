import Verif.Spec.Handles
import Verif.Proofs.Handles

/-! # C01, C02, C03, C05: handle properties -/

set_option linter.unusedSimpArgs false

namespace MpiSerial
variable {D : Type}

theorem HStep.hst {t t' : HTab D} {L L' e} (h : HStep t L e t' L') (hs : HSt t L) : HSt t' L' := by
  cases h with
  | @alloc _ _ h l fresh he =>
    rcases hs.alloc fresh with ⟨_, t2, h2, h3, h4, h5, h6⟩ | ⟨_, h2⟩
    · rw [he] at h3; cases h3; exact h4
    · rw [he] at h2; simp [Res.aborted] at h2
  | @release _ _ h hm he =>
    obtain ⟨t2, h2, h3, h4⟩ := hs.free hm
    rw [he] at h2; cases h2; exact h3
  | @lookup _ _ h p hm he =>
    rcases hm with hm | rfl
    · rw [hs.lookup hm] at he; cases he; exact hs
    · unfold mpi_handle_to_ptr at he
      simp only [if_true, Res.pure_eq, Res.ok.injEq, Prod.mk.injEq] at he
      rw [← he.1]
      rcases hs with ⟨h1, rfl⟩ | ⟨fl, hi⟩
      · simp only [h1, if_true]; exact Or.inr ⟨_, init_handles_inv t⟩
      · simp only [hi.init, Bool.false_eq_true, if_false]; exact Or.inr ⟨fl, hi⟩
  | @write _ _ h l d hm he =>
    rw [hs.lookup hm] at he; cases he; exact hs.setData _ _
  | finalize => exact hs.destroy

theorem HRun.hst {t t' : HTab D} {L L' evs} (h : HRun t L evs t' L') (hs : HSt t L) : HSt t' L' := by
  induction h with
  | nil => exact hs
  | snoc _ h2 ih => exact h2.hst (ih hs)

theorem HReach.hst {t : HTab D} {L evs} (h : HReach t L evs) : HSt t L := by
  obtain ⟨d, h⟩ := h
  exact h.hst (HSt.start d)

/-- **C01.** After every history the live handles are pairwise different, strictly positive C ints
(hence not a null handle), and they denote pairwise different storage. -/
theorem C01_live_handles_distinct {t : HTab D} {L evs} (hr : HReach t L evs) :
    L.Nodup ∧ (∀ h ∈ L, 0 < h ∧ h ≤ INT_MAX) ∧
    (∀ h ∈ L, ∃ l, mpi_handle_to_ptr t h = .ok (t, some l)) ∧
    (∀ h ∈ L, ∀ h' ∈ L, h ≠ h' → ∀ l l', mpi_handle_to_ptr t h = .ok (t, some l) →
      mpi_handle_to_ptr t h' = .ok (t, some l') → l ≠ l') := by
  have hs := hr.hst
  refine ⟨hs.nodup, ?_, ?_, ?_⟩
  · intro h hh; have := hs.pos hh; omega
  · intro h hh; exact ⟨_, hs.lookup hh⟩
  · intro h hh h' hh' hne l l' h1 h2
    rw [hs.lookup hh] at h1
    rw [hs.lookup hh'] at h2
    cases h1; cases h2
    intro he
    have := hs.pos hh; have := hs.pos hh'
    exact hne (locOf_inj (by omega) (by omega) he)

/-- Events that leave the object denoted by `h` alone. -/
def HEvent.spares (h : Int) : HEvent D → Prop
  | .release h' => h' ≠ h
  | .write h' _ => h' ≠ h
  | .finalize => False
  | _ => True

theorem HStep.keep {t t' : HTab D} {L L' e} (h : HStep t L e t' L') (hs : HSt t L) {x : Int}
    (hx : x ∈ L) (hk : e.spares x) :
    x ∈ L' ∧ (t'.items (locOf x)).data = (t.items (locOf x)).data := by
  cases h with
  | @alloc _ _ h l fresh he =>
    rcases hs.alloc fresh with ⟨_, t2, h2, h3, h4, h5, h6⟩ | ⟨_, h2⟩
    · rw [he] at h3; cases h3; exact ⟨by simp [hx], h6 x hx⟩
    · rw [he] at h2; simp [Res.aborted] at h2
  | @release _ _ h hm he =>
    obtain ⟨t2, h2, h3, h4⟩ := hs.free hm
    rw [he] at h2; cases h2
    simp only [HEvent.spares] at hk
    exact ⟨(hs.nodup.mem_erase_iff).2 ⟨fun h => hk h.symm, hx⟩, h4 _⟩
  | @lookup _ _ h p hm he =>
    refine ⟨hx, ?_⟩
    rcases hm with hm | rfl
    · rw [hs.lookup hm] at he; cases he; rfl
    · unfold mpi_handle_to_ptr at he
      simp only [if_true, Res.pure_eq, Res.ok.injEq, Prod.mk.injEq] at he
      rw [← he.1]
      rcases hs with ⟨h1, rfl⟩ | ⟨fl, hi⟩
      · simp at hx
      · simp only [hi.init, Bool.false_eq_true, if_false]
  | @write _ _ h l d hm he =>
    rw [hs.lookup hm] at he; cases he
    refine ⟨hx, ?_⟩
    rw [HTab.setData_items, if_neg]
    simp only [HEvent.spares] at hk
    intro h5
    have := hs.pos hx; have := hs.pos hm
    exact hk (locOf_inj (by omega) (by omega) h5.symm)
  | finalize => simp [HEvent.spares] at hk

/-- **C02.** From any reachable state, through any sequence of calls that neither releases nor
writes through `h` nor finalizes, a live handle `h` stays live, keeps resolving to the same address,
and the object at that address is unchanged. -/
theorem C02_live_handle_stable {t t' : HTab D} {L L' evs evs'} (hr : HReach t L evs)
    (hrun : HRun t L evs' t' L') {h : Int} (hh : h ∈ L) (hk : ∀ e ∈ evs', e.spares h) :
    h ∈ L' ∧ ∃ l, mpi_handle_to_ptr t h = .ok (t, some l) ∧
      mpi_handle_to_ptr t' h = .ok (t', some l) ∧ (t'.items l).data = (t.items l).data := by
  have hs := hr.hst
  have key : h ∈ L' ∧ HSt t' L' ∧ (t'.items (locOf h)).data = (t.items (locOf h)).data := by
    clear hr
    induction hrun with
    | nil => exact ⟨hh, hs, rfl⟩
    | snoc h1 h2 ih =>
      obtain ⟨h3, h4, h5⟩ := ih hh (fun e he => hk e (by simp [he])) hs
      obtain ⟨h6, h7⟩ := h2.keep h4 h3 (hk _ (by simp))
      exact ⟨h6, h2.hst h4, by rw [h7, h5]⟩
  exact ⟨key.1, _, hs.lookup hh, key.2.1.lookup key.1, key.2.2⟩

/-- **C03.** In every reachable state: at most 262143 objects are live; with fewer an allocation
succeeds and returns a handle that is not live; with exactly 262143 it aborts.  Releasing or looking
up a live handle always succeeds. -/
theorem C03_capacity {t : HTab D} {L evs} (hr : HReach t L evs) (fresh : D) :
    L.length ≤ 262143 ∧
    (L.length < 262143 → ∃ t' h l, mpi_alloc_handle t fresh = .ok (t', h, l) ∧ h ∉ L) ∧
    (L.length = 262143 → (mpi_alloc_handle t fresh).aborted = true) ∧
    (∀ h ∈ L, ∃ t', mpi_free_handle t h = .ok t') := by
  have hs := hr.hst
  have hf : ∀ h ∈ L, ∃ t', mpi_free_handle t h = .ok t' := fun h hh =>
    let ⟨t', h1, _⟩ := hs.free hh; ⟨t', h1⟩
  rcases hs.alloc fresh with ⟨h1, t', h, h2, h3, h4, _⟩ | ⟨h1, h2⟩
  · exact ⟨by omega, fun _ => ⟨t', h, _, h2, h4⟩, fun h => by omega, hf⟩
  · exact ⟨by omega, fun h => by omega, fun _ => h2, hf⟩

/-- Every live count up to the capacity is really reached (so C03 is not vacuous). -/
theorem C03_capacity_reached (d : D) (n : Nat) (hn : n ≤ 262143) :
    ∃ (t : HTab D) (L : List Int) (evs : List (HEvent D)), HReach t L evs ∧ L.length = n := by
  induction n with
  | zero => exact ⟨_, [], [], ⟨d, HRun.nil⟩, rfl⟩
  | succ n ih =>
    obtain ⟨t, L, evs, hr, hl⟩ := ih (by omega)
    obtain ⟨_, h1, _⟩ := C03_capacity hr d
    obtain ⟨_, h2, _⟩ := C03_capacity hr d
    obtain ⟨t', h, l, h3, h4⟩ := h2 (by omega)
    obtain ⟨d', hrun⟩ := hr
    exact ⟨t', h :: L, evs ++ [.alloc h], ⟨d', hrun.snoc (.alloc h3)⟩, by simp [hl]⟩

theorem HSt.lifo {t t' : HTab D} {L : List Int} (hs : HSt t L) {h : Int} (hh : h ∈ L)
    (hf : mpi_free_handle t h = .ok t') (fresh : D) :
    ∃ t'' l, mpi_alloc_handle t' fresh = .ok (t'', h, l) ∧
      t''.nblocks = t.nblocks ∧ mpi_handle_to_ptr t h = .ok (t, some l) := by
  rcases hs with ⟨_, rfl⟩ | ⟨fl, hi⟩
  · simp at hh
  · obtain ⟨t1, h1, h2, h3, h4⟩ := hi.free hh
    rw [hf] at h1; cases h1
    have hp := hi.live_pos hh
    rcases h2.alloc fresh with ⟨h5, t2, h6, fl', h7, h8, h9, h10, h11, h12⟩ | ⟨h5, h6⟩
    · obtain ⟨h13, h14, h15⟩ := h12 _ _ rfl
      rw [encLoc_locOf (by omega)] at h14
      subst h14
      exact ⟨t2, _, h7, by rw [h13, h3], hi.lookup hh⟩
    · exfalso
      have h13 := hi.nb2; have h14 := hi.size
      have h15 := List.length_erase_of_mem hh
      have h16 := h2.size; have h17 := h2.nb2
      have h18 : 0 < L.length := List.length_pos_of_mem hh
      omega

/-- **C05 (first half).** A released handle is the next one handed out. -/
theorem C05_lifo {t t' : HTab D} {L evs} (hr : HReach t L evs) {h : Int} (hh : h ∈ L)
    (hf : mpi_free_handle t h = .ok t') (fresh : D) :
    ∃ t'' l, mpi_alloc_handle t' fresh = .ok (t'', h, l) ∧
      t''.nblocks = t.nblocks ∧ mpi_handle_to_ptr t h = .ok (t, some l) :=
  hr.hst.lifo hh hf fresh

theorem livePeak_snoc (evs : List (HEvent D)) (e : HEvent D) :
    livePeak (evs ++ [e]) = (match e with
      | .alloc _ => ((livePeak evs).1 + 1, max (livePeak evs).2 ((livePeak evs).1 + 1))
      | .release _ => ((livePeak evs).1 - 1, (livePeak evs).2)
      | .finalize => (0, 0)
      | _ => livePeak evs) := by
  unfold livePeak
  rw [List.foldl_append]
  cases e <;> rfl

theorem HReach.peak {t : HTab D} {L evs} (hr : HReach t L evs) :
    (livePeak evs).1 = L.length ∧ L.length ≤ (livePeak evs).2 ∧
    (t.needInit = true → livePeak evs = (0, 0)) ∧
    (t.needInit = false → 256 * (t.nblocks - 1) ≤ (livePeak evs).2 ∧
      (livePeak evs).2 + 1 ≤ 256 * t.nblocks) := by
  obtain ⟨d, hrun⟩ := hr
  have hs0 : HSt (HTab.start d) [] := HSt.start d
  generalize hT : HTab.start d = T at hrun hs0
  generalize hL : ([] : List Int) = L0 at hrun hs0
  induction hrun with
  | nil => subst hT; subst hL; simp [livePeak, HTab.start]
  | @snoc t3 t4 L2 L3 L4 evs e h1 h2 ih =>
    have hst : HSt t3 L3 := h1.hst hs0
    obtain ⟨i1, i2, i3, i4⟩ := ih hL hs0
    rw [livePeak_snoc]
    cases h2 with
    | @alloc _ _ h l fresh he =>
      have main : ∀ (u : HTab D) fl, HInv u L3 fl → mpi_alloc_handle u fresh = .ok (t4, h, l) →
          256 * (u.nblocks - 1) ≤ (livePeak evs).2 → (livePeak evs).2 + 1 ≤ 256 * u.nblocks →
          t4.needInit = false ∧
          256 * (t4.nblocks - 1) ≤ max (livePeak evs).2 ((livePeak evs).1 + 1) ∧
          max (livePeak evs).2 ((livePeak evs).1 + 1) + 1 ≤ 256 * t4.nblocks := by
        intro u fl hi he' b1 b2
        rcases hi.alloc fresh with ⟨h5, t5, h6, fl', h7, h8, h9, h10, h11, h12⟩ | ⟨h5, h6⟩
        · rw [he'] at h7; cases h7
          refine ⟨h8.init, ?_⟩
          have hsz := hi.size
          have hsz' := h8.size
          have := hi.nb1
          simp only [List.length_cons] at hsz'
          cases fl with
          | nil =>
            have := h11 rfl
            simp only [List.length_nil] at hsz
            omega
          | cons x xs =>
            have := (h12 x xs rfl).1
            simp only [List.length_cons] at hsz
            omega
        · rw [he'] at h6; simp [Res.aborted] at h6
      have hm : t4.needInit = false ∧
          256 * (t4.nblocks - 1) ≤ max (livePeak evs).2 ((livePeak evs).1 + 1) ∧
          max (livePeak evs).2 ((livePeak evs).1 + 1) + 1 ≤ 256 * t4.nblocks := by
        rcases hst with ⟨h3, rfl⟩ | ⟨fl, hi⟩
        · rw [mpi_alloc_handle_needInit h3] at he
          have hn : (init_handles t3).nblocks = 1 := by
            rw [init_handles_eq]; rfl
          have h0 := i3 h3
          exact main _ _ (init_handles_inv t3) he (by rw [hn, h0]; omega) (by rw [hn, h0]; omega)
        · obtain ⟨b1, b2⟩ := i4 hi.init
          exact main t3 fl hi he b1 b2
      refine ⟨by simp [i1], by simp only [List.length_cons]; omega, ?_, fun _ => hm.2⟩
      intro hc; rw [hm.1] at hc; simp at hc
    | @release _ _ h hm he =>
      have hlen := List.length_erase_of_mem hm
      have hpos : 0 < L3.length := List.length_pos_of_mem hm
      rcases hst with ⟨_, rfl⟩ | ⟨fl, hi⟩
      · simp at hm
      · obtain ⟨t5, h3, h4, h5, _⟩ := hi.free hm
        rw [he] at h3; cases h3
        obtain ⟨b1, b2⟩ := i4 hi.init
        refine ⟨by simp only []; omega, by simp only []; omega, ?_, ?_⟩
        · intro hc; rw [h4.init] at hc; simp at hc
        · intro _; simp only [h5]; exact ⟨b1, b2⟩
    | @lookup _ _ h p hm he =>
      rcases hm with hm | rfl
      · rw [hst.lookup hm] at he; cases he; exact ⟨i1, i2, i3, i4⟩
      · unfold mpi_handle_to_ptr at he
        simp only [if_true, Res.pure_eq, Res.ok.injEq, Prod.mk.injEq] at he
        rw [← he.1]
        rcases hst with ⟨h3, rfl⟩ | ⟨fl, hi⟩
        · simp only [h3, if_true]
          have hn : (init_handles t3).nblocks = 1 := by rw [init_handles_eq]; rfl
          have h0 := i3 h3
          refine ⟨i1, i2, fun _ => h0, fun _ => ?_⟩
          rw [hn, h0]; omega
        · rw [hi.init]; exact ⟨i1, i2, i3, fun _ => i4 hi.init⟩
    | @write _ _ h l d hm he =>
      rw [hst.lookup hm] at he; cases he; exact ⟨i1, i2, i3, i4⟩
    | finalize =>
      refine ⟨rfl, by simp, fun _ => rfl, ?_⟩
      intro hc
      unfold mpi_destroy_handles at hc
      split at hc
      · next h => rw [h] at hc; simp at hc
      · simp at hc

/-- **C05 (second half).** The number of 256-entry blocks in use is exactly the least number (at
least one) that holds the peak number of live objects since the last finalize plus the reserved
null handle. -/
theorem C05_blocks_high_water {t : HTab D} {L evs} (hr : HReach t L evs)
    (hi : t.needInit = false) :
    t.nblocks = max 1 (((livePeak evs).2 + 1 + 255) / 256) ∧ (livePeak evs).1 = L.length := by
  obtain ⟨h1, h2, h3, h4⟩ := hr.peak
  obtain ⟨h5, h6⟩ := h4 hi
  refine ⟨?_, h1⟩
  have : 1 ≤ t.nblocks := by omega
  omega

/-! ### Concrete instances: the hypotheses are met by non-trivial states -/

/-- A state with two live handles after an allocate/allocate/release/allocate history. -/
example : ∃ (t : HTab Nat) (L : List Int) (evs : List (HEvent Nat)),
    HReach t L evs ∧ L.length = 2 ∧ t.needInit = false := by
  obtain ⟨t, L, evs, hr, hl⟩ := C03_capacity_reached (D := Nat) 7 2 (by omega)
  refine ⟨t, L, evs, hr, hl, ?_⟩
  rcases hr.hst with ⟨_, h⟩ | ⟨fl, hi⟩
  · simp [h] at hl
  · exact hi.init

/-- The very first allocation returns handle 1 (MPI_COMM_WORLD). -/
theorem first_alloc {t : HTab D} (h : t.needInit = true) (fresh : D) :
    ∃ t', mpi_alloc_handle t fresh = .ok (t', 1, ⟨0, 1⟩) ∧ HSt t' [1] ∧
      ∀ l, (t'.items l).data = (t.items l).data := by
  rw [mpi_alloc_handle_needInit h]
  have hi := init_handles_inv t
  have hb : blockFrom 0 1 = ⟨0, 1⟩ :: blockFrom 0 2 := by
    unfold blockFrom
    rw [show 256 - 1 = 254 + 1 from rfl, List.range'_succ]; rfl
  rw [hb] at hi
  rcases hi.alloc fresh with ⟨h5, t2, h6, fl', h7, h8, h9, h10, h11, h12⟩ | ⟨h5, h6⟩
  · obtain ⟨_, h13, _⟩ := h12 _ _ rfl
    have : h6 = 1 := by rw [h13]; rfl
    subst this
    refine ⟨t2, h7, Or.inr ⟨_, h8⟩, ?_⟩
    intro l
    obtain ⟨hc1, _⟩ := hi.chain
    have hx := hi.fvalid ⟨0, 1⟩ (by simp)
    unfold mpi_alloc_handle at h7
    simp only [hi.init, Bool.false_eq_true, if_false, hc1, HTab.deref, hx.1, if_true,
        Res.ok_bind, Res.pure_eq, Res.ok.injEq, Prod.mk.injEq] at h7
    rw [← h7.1]
    simp only [HTab.set_items]
    split
    · next h => rw [h, init_handles_items]
    · exact init_handles_items t l
  · simp at h5

end MpiSerial
