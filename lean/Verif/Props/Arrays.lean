import Verif.Proofs.Arrays

/-!
# Arrays of requests (C18-C20)

`WfReqs L reqs`: every entry of the array is MPI_REQUEST_NULL or a live request, no request twice.
`TestedEach s reqs sts reqs' sts' d`: entry by entry, the results are those of MPI_Test on that request
alone in the state before the call; `d` are the complete ones.  `Released env s L d s'`: the requests `d`
were released, nothing else changed.  (`Spec/Arrays.lean`)
-/

set_option linter.unusedSimpArgs false
set_option autoImplicit false

namespace MpiSerial

section
variable {env : Env} {s : Sys} {L : Ledger}

/-! ## C18 -/

/-- C18, MPI_Waitall with an array of statuses: returns iff all requests are complete, and aborts
otherwise; on success all handles become MPI_REQUEST_NULL, each status is that of its own request, and
exactly the requests of the array are released. -/
theorem C18_waitall (hr : Reach env s L) {reqs : List Int} (hw : WfReqs L reqs) {sts : List Status}
    (hlen : sts.length = reqs.length) :
    ((∀ h ∈ reqs, Complete s h) → ∃ s' sts',
      MPI_Waitall s reqs.length reqs (some sts) = .ok ⟨s', List.replicate reqs.length MPI_REQUEST_NULL, some sts'⟩ ∧
      TestedEach s reqs sts (List.replicate reqs.length MPI_REQUEST_NULL) sts' reqs ∧ Released env s L reqs s') ∧
    ((∃ h ∈ reqs, ¬ Complete s h) → (MPI_Waitall s reqs.length reqs (some sts)).aborted = true) :=
  waitall_loop reqs [] [] sts s L hr hw rfl hlen

/-- C18, MPI_Testall with an array of statuses, as far as the code goes: flag 1 iff all requests are
complete; then all handles become MPI_REQUEST_NULL, each status is that of its own request, and exactly
the requests of the array are released.  If none is complete, nothing changes.  (Missing: flag 0 with
some requests complete, where the claim is false: `C18_fails_testall`.) -/
theorem C18_testall_partial (hr : Reach env s L) {reqs : List Int} (hw : WfReqs L reqs) {sts : List Status}
    (hlen : sts.length = reqs.length) :
    ∃ s' reqs' sts' flag, MPI_Testall s reqs.length reqs (some sts) = .ok (⟨s', reqs', some sts'⟩, flag) ∧
      ((∀ h ∈ reqs, Complete s h) → flag = 1 ∧ reqs' = List.replicate reqs.length MPI_REQUEST_NULL ∧
        TestedEach s reqs sts reqs' sts' reqs ∧ Released env s L reqs s') ∧
      ((∃ h ∈ reqs, ¬ Complete s h) → flag = 0) ∧
      ((∀ h ∈ reqs, ¬ Complete s h) → reqs' = reqs ∧ sts' = sts ∧ Released env s L [] s') := by
  obtain ⟨s', reqs', sts', d, h1, h2, h3⟩ := testall_loop reqs [] [] sts s L 1 hr hw rfl hlen
  obtain ⟨h4, h5⟩ := h2.all hr hw
  refine ⟨s', reqs', sts', _, h1, ?_, ?_, ?_⟩
  · intro hall
    have hd := h4.2 hall
    obtain ⟨rfl, rfl⟩ := h5 hd
    exact ⟨if_pos hd, rfl, h2, h3⟩
  · rintro ⟨h, hh, hnc⟩
    rw [if_neg]
    exact fun hd => hnc (h4.1 hd h hh)
  · intro hnone
    have key : reqs' = reqs ∧ sts' = sts ∧ d = [] := by
      clear h1 h3 h4 h5
      induction h2 with
      | nil => exact ⟨rfl, rfl, rfl⟩
      | done q1 _ _ =>
        exact absurd ((flag_complete hr hw.head q1).1.1 rfl) (hnone _ (List.mem_cons_self ..))
      | not q1 _ ih =>
        obtain ⟨r1, r2, r3⟩ := ih hw.2 (by simpa using hlen) (fun h hh => hnone h (List.mem_cons_of_mem _ hh))
        obtain ⟨r4, r5⟩ := (flag_complete hr hw.head q1).2.1 rfl
        cases r5
        exact ⟨by rw [r4, r1], by rw [r2], r3⟩
    obtain ⟨r1, r2, rfl⟩ := key
    exact ⟨r1, r2, h3⟩

open Classical in
/-- What MPI_Testall does in every case: every complete request is released, whatever the flag. -/
theorem C18_testall_releases (hr : Reach env s L) {reqs : List Int} (hw : WfReqs L reqs) {sts : List Status}
    (hlen : sts.length = reqs.length) :
    ∃ s' reqs' sts' d, MPI_Testall s reqs.length reqs (some sts) =
        .ok (⟨s', reqs', some sts'⟩, if ∀ h ∈ reqs, Complete s h then 1 else 0) ∧
      TestedEach s reqs sts reqs' sts' d ∧ Released env s L d s' := by
  obtain ⟨s', reqs', sts', d, h1, h2, h3⟩ := testall_loop reqs [] [] sts s L 1 hr hw rfl hlen
  obtain ⟨h4, _⟩ := h2.all hr hw
  refine ⟨s', reqs', sts', d, ?_, h2, h3⟩
  rw [show MPI_Testall s reqs.length reqs (some sts) = testallLoop reqs.length 0 s reqs (some sts) 1 from rfl]
  refine h1.trans ?_
  by_cases hd : d.length = reqs.length
  · rw [if_pos hd, if_pos (h4.1 hd)]; rfl
  · rw [if_neg hd, if_neg (fun h => hd (h4.2 h))]; rfl

/-- C18, MPI_STATUSES_IGNORE with at most one request: the same outcome as with a status object.  (With
two or more requests see `C18_fails_ignore`.) -/
theorem C18_ignore_partial (hr : Reach env s L) {h : Int} (hw : WfReqs L [h]) :
    (Complete s h → ∃ s', MPI_Waitall s 1 [h] none = .ok ⟨s', [MPI_REQUEST_NULL], none⟩ ∧
      MPI_Testall s 1 [h] none = .ok (⟨s', [MPI_REQUEST_NULL], none⟩, 1) ∧ Released env s L [h] s') ∧
    (¬ Complete s h → (MPI_Waitall s 1 [h] none).aborted = true ∧
      MPI_Testall s 1 [h] none = .ok (⟨s, [h], none⟩, 0)) := by
  have e1 : MPI_Waitall s 1 [h] none = (MPI_Test s h .null >>= fun r =>
      if r.flag = 0 then .abort "MPI_Waitall: request not complete, deadlock" else .ok ⟨r.sys, [r.request], none⟩) := rfl
  have e2 : MPI_Testall s 1 [h] none = (MPI_Test s h .null >>= fun r =>
      .ok (⟨r.sys, [r.request], none⟩, if r.flag = 0 then 0 else 1)) := rfl
  rw [e1, e2]
  rcases test_one hr hw.head (st := .null) (by simp) with ⟨h1, h2, h3⟩ | ⟨s1, st', h1, h2, h3, _, h5⟩
  · rw [h1]
    exact ⟨fun hc => (not_complete_and_incomplete hc h3).elim, fun _ => ⟨rfl, rfl⟩⟩
  · rw [h1]
    exact ⟨fun _ => ⟨s1, rfl, rfl, h5⟩, fun hn => absurd h2 hn⟩

/-- C18 is false with MPI_STATUSES_IGNORE and two or more requests: MPI_Waitall on complete requests
writes through the invalid address `&MPI_STATUSES_IGNORE[1]`. -/
theorem C18_fails_ignore (hr : Reach env s L) {h h' : Int} {hs : List Int} (hw : WfReqs L (h :: h' :: hs))
    (hc : Complete s h) (hc' : Complete s h') :
    MPI_Waitall s (h :: h' :: hs).length (h :: h' :: hs) none = .ub .memAccess ∧
    MPI_Testall s (h :: h' :: hs).length (h :: h' :: hs) none = .ub .memAccess ∧
    ∀ ix, MPI_Testsome s (h :: h' :: hs).length (h :: h' :: hs) ix none = .ub .memAccess := by
  have bad : ∀ s1 L1, Reach env s1 L1 → (h' = MPI_REQUEST_NULL ∨ ∃ i, (h', Obj.req i) ∈ L1.objs) → Complete s1 h' →
      MPI_Test s1 h' .bad = .ub .memAccess := by
    intro s1 L1 hr1 hh hcc
    by_cases h0 : h' = MPI_REQUEST_NULL
    · rw [h0]; rfl
    · obtain ⟨i, hm⟩ := hh.resolve_left h0
      obtain ⟨M, lst, hi⟩ := hr1.inv
      obtain ⟨o, ho, _⟩ := hi.opOf hm
      obtain ⟨t, src, tag, _, _, ht⟩ := test_done hi hm ho ((hi.complete_iff hm ho).1 hcc)
      rw [ht]; rfl
  rcases test_one hr hw.head (st := .null) (by simp) with ⟨h1, h2, h3⟩ | ⟨s1, st', h1, h2, h3, _, h5⟩
  · exact (not_complete_and_incomplete hc h3).elim
  · have hn : h' ≠ MPI_REQUEST_NULL → h' ∉ [h] := by
      intro h0 he
      rw [List.mem_singleton] at he
      subst he
      rcases hw.1 with h6 | h6
      · exact h0 h6
      · exact h6.2 (by simp)
    have hw1 : WfReqs { L with objs := L.objs.filter (fun e => decide (e.1 ∉ [h])) } (h' :: hs) := hw.2.rest (by
      intro x hx h0
      rw [List.mem_singleton] at hx
      subst hx
      rcases hw.1 with h6 | h6
      · exact absurd h6 h0
      · exact h6.2)
    have hb := bad s1 _ h5.reach hw1.head ((h5.complete hw.2.head hn).2 hc')
    have hupd : StArr.upd none 0 st' = none := rfl
    refine ⟨?_, ?_, fun ix => ?_⟩
    · show waitallLoop (hs.length + 2) 0 s (h :: h' :: hs) none = _
      unfold waitallLoop
      simp only [rd, StArr.at, List.getElem?_cons_zero, Res.ok_bind, if_true, h1]
      rw [if_neg (by decide)]
      unfold waitallLoop
      simp only [rd, StArr.at, List.set_cons_zero, List.getElem?_cons_succ, List.getElem?_cons_zero, Res.ok_bind]
      rw [hupd]; dsimp only
      rw [if_neg (by decide), Res.ok_bind, hb]
      rfl
    · show testallLoop (hs.length + 2) 0 s (h :: h' :: hs) none 1 = _
      unfold testallLoop
      simp only [rd, StArr.at, List.getElem?_cons_zero, Res.ok_bind, if_true, h1]
      unfold testallLoop
      simp only [rd, StArr.at, List.set_cons_zero, List.getElem?_cons_succ, List.getElem?_cons_zero, Res.ok_bind]
      rw [hupd]; dsimp only
      rw [if_neg (by decide), Res.ok_bind, hb]
      rfl
    · have : testsomeLoop (hs.length + 2) 0 s (h :: h' :: hs) none 0 = .ub .memAccess := by
        unfold testsomeLoop
        simp only [rd, StArr.at, List.getElem?_cons_zero, Res.ok_bind, if_true, h1]
        unfold testsomeLoop
        simp only [rd, StArr.at, List.set_cons_zero, List.getElem?_cons_succ, List.getElem?_cons_zero, Res.ok_bind]
        rw [hupd]; dsimp only
        rw [if_neg (by decide), Res.ok_bind, hb]
        rfl
      unfold MPI_Testsome
      rw [show ((h :: h' :: hs).length : Int).toNat = hs.length + 2 from rfl, this]
      rfl

/-! ## C19 -/

/-- C19, MPI_Testany, apart from the index: with `h` the first complete (or null) request of the array,
exactly `h` is completed, with its status, and all else is untouched; if no request is complete, flag is 0
and nothing changes.  (Missing: the index, `C19_fails_index`.) -/
theorem C19_testany_partial (hr : Reach env s L) {reqs : List Int} (hw : WfReqs L reqs) {st : StPtr} (hst : st ≠ .bad)
    (index : Int) :
    (∀ a h b, reqs = a ++ h :: b → (∀ x ∈ a, ¬ Complete s x) → Complete s h → ∃ s' st',
      MPI_Testany s reqs.length reqs index st = .ok (s', a ++ MPI_REQUEST_NULL :: b, index, 1, st') ∧
      testView s h st = .ok (MPI_REQUEST_NULL, 1, st') ∧ Released env s L [h] s') ∧
    ((∀ h ∈ reqs, ¬ Complete s h) → MPI_Testany s reqs.length reqs index st = .ok (s, reqs, index, 0, st)) := by
  obtain ⟨h1, h2⟩ := testany_loop (env := env) reqs [] s L st hr hw hst
  simp only [List.nil_append, List.length_nil] at h1 h2
  constructor
  · intro a h b hab hna hc
    obtain ⟨s', st', q1, q2, q3⟩ := h2 a h b hab hna hc
    refine ⟨s', st', ?_, q2, q3⟩
    unfold MPI_Testany
    rw [Int.toNat_natCast, q1]
    rfl
  · intro hall
    unfold MPI_Testany
    rw [Int.toNat_natCast, h1 hall]
    rfl

/-- C19, MPI_Waitany, apart from the index: it completes the first complete (or null) request, and aborts
exactly if there is none. -/
theorem C19_waitany_partial (hr : Reach env s L) {reqs : List Int} (hw : WfReqs L reqs) {st : StPtr} (hst : st ≠ .bad)
    (index : Int) :
    (∀ a h b, reqs = a ++ h :: b → (∀ x ∈ a, ¬ Complete s x) → Complete s h → ∃ s' st',
      MPI_Waitany s reqs.length reqs index st = .ok (s', a ++ MPI_REQUEST_NULL :: b, index, st') ∧
      testView s h st = .ok (MPI_REQUEST_NULL, 1, st') ∧ Released env s L [h] s') ∧
    ((∀ h ∈ reqs, ¬ Complete s h) → (MPI_Waitany s reqs.length reqs index st).aborted = true) := by
  obtain ⟨h1, h2⟩ := C19_testany_partial hr hw hst index
  constructor
  · intro a h b hab hna hc
    obtain ⟨s', st', q1, q2, q3⟩ := h1 a h b hab hna hc
    refine ⟨s', st', ?_, q2, q3⟩
    unfold MPI_Waitany
    rw [q1]
    rfl
  · intro hall
    unfold MPI_Waitany
    rw [h2 hall]
    rfl

/-- C19 is false about the index: MPI_Testany and MPI_Waitany never write `*index`. -/
theorem C19_fails_index (s : Sys) (count : Int) (reqs : List Int) (index : Int) (st : StPtr) :
    (∀ s' reqs' index' flag st', MPI_Testany s count reqs index st = .ok (s', reqs', index', flag, st') →
      index' = index) ∧
    (∀ s' reqs' index' st', MPI_Waitany s count reqs index st = .ok (s', reqs', index', st') → index' = index) := by
  have key : ∀ s' reqs' index' flag st', MPI_Testany s count reqs index st = .ok (s', reqs', index', flag, st') →
      index' = index := by
    intro s' reqs' index' flag st' h
    unfold MPI_Testany at h
    obtain ⟨⟨a, b, c, d⟩, _, h2⟩ := Res.bind_eq_ok.1 h
    simp only [Res.pure_eq, Res.ok.injEq, Prod.mk.injEq] at h2
    exact h2.2.2.1.symm
  refine ⟨key, ?_⟩
  intro s' reqs' index' st' h
  unfold MPI_Waitany at h
  obtain ⟨⟨a, b, c, d, e⟩, h1, h2⟩ := Res.bind_eq_ok.1 h
  dsimp only at h2
  split at h2
  · cases h2
  · simp only [Res.pure_eq, Res.ok.injEq, Prod.mk.injEq] at h2
    rw [← h2.2.2.1]
    exact key _ _ _ _ _ h1

/-! ## C20 -/

/-- C20, MPI_Testsome: outcount is the number of entries MPI_Test reports complete (null entries are among
them), exactly those requests are released, each status is that of its own request, the others are
untouched. -/
theorem C20_testsome (hr : Reach env s L) {reqs : List Int} (hw : WfReqs L reqs) {sts : List Status}
    (hlen : sts.length = reqs.length) (ix : List Int) :
    ∃ s' reqs' sts' d, MPI_Testsome s reqs.length reqs ix (some sts) =
        .ok ⟨⟨s', reqs', some sts'⟩, d.length, ix⟩ ∧
      TestedEach s reqs sts reqs' sts' d ∧ Released env s L d s' := by
  obtain ⟨s', reqs', sts', d, h1, h2, h3⟩ := testsome_loop reqs [] [] sts s L 0 hr hw rfl hlen
  refine ⟨s', reqs', sts', d, ?_, h2, h3⟩
  simp only [List.nil_append, List.length_nil, Int.zero_add] at h1
  unfold MPI_Testsome
  rw [Int.toNat_natCast, h1]
  rfl

/-- C20, the counted requests are the complete ones. -/
theorem C20_counted (hr : Reach env s L) {reqs reqs' d : List Int} {sts sts' : List Status} (hw : WfReqs L reqs)
    (ht : TestedEach s reqs sts reqs' sts' d) : ∀ h, h ∈ d ↔ h ∈ reqs ∧ Complete s h := by
  induction ht with
  | nil => simp
  | @done h h' st st' hs sts hs' sts' d h1 _ ih =>
    intro a
    have hc := (flag_complete hr hw.head h1).1.1 rfl
    rw [List.mem_cons, List.mem_cons, ih hw.2]
    constructor
    · rintro (rfl | h2)
      · exact ⟨Or.inl rfl, hc⟩
      · exact ⟨Or.inr h2.1, h2.2⟩
    · rintro ⟨rfl | h2, h3⟩
      · exact Or.inl rfl
      · exact Or.inr ⟨h2, h3⟩
  | @not h h' st st' hs sts hs' sts' d h1 _ ih =>
    intro a
    have hc : ¬ Complete s h := fun h => absurd ((flag_complete hr hw.head h1).1.2 h) (by decide)
    rw [List.mem_cons, ih hw.2]
    constructor
    · exact fun h2 => ⟨Or.inr h2.1, h2.2⟩
    · rintro ⟨rfl | h2, h3⟩
      · exact absurd h3 hc
      · exact ⟨h2, h3⟩

/-- C20 is false about MPI_Waitsome: it returns outcount 0 where it should abort. -/
theorem C20_fails_waitsome (hr : Reach env s L) {reqs : List Int} (hw : WfReqs L reqs) {sts : List Status}
    (hlen : sts.length = reqs.length) (ix : List Int) (hnone : ∀ h ∈ reqs, ¬ Complete s h) :
    ∃ s' reqs' sts', MPI_Waitsome s reqs.length reqs ix (some sts) = .ok ⟨⟨s', reqs', some sts'⟩, 0, ix⟩ := by
  obtain ⟨s', reqs', sts', d, h1, h2, _⟩ := C20_testsome hr hw hlen ix
  have : d = [] := by
    rw [List.eq_nil_iff_forall_not_mem]
    intro a ha
    obtain ⟨h3, h4⟩ := (C20_counted hr hw h2 a).1 ha
    exact hnone a h3 h4
  subst this
  exact ⟨s', reqs', sts', h1⟩

/-- C20, MPI_Waitsome is MPI_Testsome when some request is complete. -/
theorem C20_waitsome_partial (hr : Reach env s L) {reqs : List Int} (hw : WfReqs L reqs) {sts : List Status}
    (hlen : sts.length = reqs.length) (ix : List Int) (hsome : ∃ h ∈ reqs, Complete s h) :
    ∃ s' reqs' sts' d, MPI_Waitsome s reqs.length reqs ix (some sts) =
        .ok ⟨⟨s', reqs', some sts'⟩, d.length, ix⟩ ∧ 0 < d.length ∧
      TestedEach s reqs sts reqs' sts' d ∧ Released env s L d s' := by
  obtain ⟨s', reqs', sts', d, h1, h2, h3⟩ := C20_testsome hr hw hlen ix
  obtain ⟨h, h4, h5⟩ := hsome
  exact ⟨s', reqs', sts', d, h1, List.length_pos_of_mem ((C20_counted hr hw h2 h).2 ⟨h4, h5⟩), h2, h3⟩

end

/-! ## The hypotheses can be met, and the failures

In `H8` the requests 2, 5 and 8 are complete, 3, 4 and 7 are not. -/

theorem H8_wf : WfReqs H8.L [5, 0, 3, 8] := by
  refine ⟨Or.inr ⟨⟨3, by decide +kernel⟩, by decide⟩, Or.inl rfl, Or.inr ⟨⟨1, by decide +kernel⟩, by decide⟩,
    Or.inr ⟨⟨5, by decide +kernel⟩, by decide⟩, trivial⟩

def st7 : Status := ⟨7, 7, 7, 7⟩

/-- C18_waitall. -/
example : (MPI_Waitall H8.s 3 [5, 0, 8] (some [st7, st7, st7])).getD ⟨H8.s, [], none⟩ |>
    (fun r => r.reqs = [0, 0, 0] ∧ r.stats = some [⟨0, 5, 7, 7⟩, ⟨-1, -1, 7, 7⟩, ⟨-2, -1, 7, 7⟩]) := by decide +kernel
example : (MPI_Waitall H8.s 4 [5, 0, 3, 8] (some [st7, st7, st7, st7])).aborted = true := by decide +kernel

/-- C18_testall_partial, all complete. -/
example : (MPI_Testall H8.s 3 [5, 0, 8] (some [st7, st7, st7])).getD (⟨H8.s, [], none⟩, 7) |>
    (fun r => r.2 = 1 ∧ r.1.reqs = [0, 0, 0]) := by decide +kernel

/-- C18 is false for MPI_Testall: with flag 0 it nevertheless completes request 5, whose status 3 then
has, and releases its handle. -/
theorem C18_fails_testall : Reach env0 H8.s H8.L ∧ WfReqs H8.L [5, 3] ∧
    ∃ s' , MPI_Testall H8.s 2 [5, 3] (some [st7, st7]) = .ok (⟨s', [0, 3], some [⟨0, 5, 7, 7⟩, st7]⟩, 0) ∧
      Released env0 H8.s H8.L [5] s' := by
  have hw : WfReqs H8.L [5, 3] :=
    ⟨Or.inr ⟨⟨3, by decide +kernel⟩, by decide⟩, Or.inr ⟨⟨1, by decide +kernel⟩, by decide⟩, trivial⟩
  refine ⟨H8_ok, hw, ?_⟩
  obtain ⟨s', reqs', sts', d, h1, h2, h3⟩ := testall_loop [5, 3] [] [] [st7, st7] H8.s H8.L 1 H8_ok hw rfl rfl
  have h4 : (MPI_Testall H8.s 2 [5, 3] (some [st7, st7])).getD (⟨H8.s, [], none⟩, 7) |>
    (fun r => r.2 = 0 ∧ r.1.reqs = [0, 3] ∧ r.1.stats = some [⟨0, 5, 7, 7⟩, st7]) := by decide +kernel
  have h5 : ∀ h, h ∈ d ↔ h = 5 := by
    intro h
    obtain ⟨M, lst, hi⟩ := H8_ok.inv
    have c5 : Complete H8.s 5 := hi.complete (i := 3) (o := ⟨.recv, 0, -1, 300, 3, -1, 5, .matched 0⟩)
      (by decide +kernel) (by decide +kernel) (by decide)
    have c3 : Incomplete H8.s 3 := hi.incomplete (i := 1) (o := ⟨.send, 0, 5, 101, 1, -1, 3, .pending⟩)
      (by decide +kernel) (by decide +kernel) rfl
    rw [C20_counted H8_ok hw h2]
    simp only [List.mem_cons, List.not_mem_nil, or_false]
    constructor
    · rintro ⟨rfl | rfl, hc⟩
      · rfl
      · exact (not_complete_and_incomplete hc c3).elim
    · rintro rfl
      exact ⟨Or.inl rfl, c5⟩
  have h6 : MPI_Testall H8.s 2 [5, 3] (some [st7, st7]) = .ok (⟨s', reqs', some sts'⟩, if d.length = 2 then 1 else 0) := h1
  rw [h6] at h4
  dsimp only [Res.getD] at h4
  obtain ⟨q1, q2, q3⟩ := h4
  refine ⟨s', by rw [h6, q1, q2, q3], ?_⟩
  have hmem : ∀ x, (x ∉ d) ↔ (x ∉ [5]) := by
    intro x; rw [h5, List.mem_singleton]
  refine ⟨?_, h3.rest, fun h i hm hn => h3.same h i hm ((hmem h).2 hn)⟩
  have := h3.reach
  rw [show H8.L.objs.filter (fun e => decide (e.1 ∉ d)) = H8.L.objs.filter (fun e => decide (e.1 ∉ [5])) from
    List.filter_congr (fun e _ => by rw [decide_eq_decide]; exact hmem e.1)] at this
  exact this

/-- C18_ignore_partial and C18_fails_ignore. -/
example : (MPI_Waitall H8.s 1 [5] none).returned = true ∧ (MPI_Waitall H8.s 1 [3] none).aborted = true ∧
    (match MPI_Waitall H8.s 2 [5, 8] none with | .ub .memAccess => true | _ => false) = true := by decide +kernel

/-- C19: the first complete request of [3, 5, 8] is 5, at index 1; `*index` keeps its value 77. -/
example : (MPI_Testany H8.s 3 [3, 5, 8] 77 (.obj st7)).getD (H8.s, [], 0, 0, .null) |>
    (fun r => r.2 = ([3, 0, 8], 77, 1, .obj ⟨0, 5, 7, 7⟩)) := by decide +kernel
example : (MPI_Testany H8.s 2 [3, 4] 77 (.obj st7)).getD (H8.s, [], 0, 5, .null) |>
    (fun r => r.2 = ([3, 4], 77, 0, .obj st7)) := by decide +kernel
example : (MPI_Waitany H8.s 2 [3, 4] 77 (.obj st7)).aborted = true := by decide +kernel

/-- C20. -/
example : (MPI_Testsome H8.s 4 [5, 0, 3, 8] [77, 77, 77, 77] (some [st7, st7, st7, st7])).getD ⟨⟨H8.s, [], none⟩, 9, []⟩ |>
    (fun r => r.outcount = 3 ∧ r.arr.reqs = [0, 0, 3, 0] ∧ r.indices = [77, 77, 77, 77] ∧
      r.arr.stats = some [⟨0, 5, 7, 7⟩, ⟨-1, -1, 7, 7⟩, st7, ⟨-2, -1, 7, 7⟩]) := by decide +kernel
example : (MPI_Waitsome H8.s 2 [3, 4] [] (some [st7, st7])).returned = true := by decide +kernel

end MpiSerial
