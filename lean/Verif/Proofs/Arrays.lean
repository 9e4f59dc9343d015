import Verif.Spec.Arrays
import Verif.Props.Requests

/-! # Lemmas about the array completion calls -/

set_option linter.unusedSimpArgs false
set_option autoImplicit false

namespace MpiSerial

section
variable {env : Env} {s s' s'' : Sys} {L : Ledger} {M : AbsLists Loc} {lst : Nat → Kind → Nat}

/-- MPI_Test on a live request, in terms of its record. -/
theorem testView_rec (hi : Inv s L M lst) {h : Int} {i : Nat} (hm : (h, Obj.req i) ∈ L.objs) {r : ReqRec}
    (hd : dataAt s h = .req r) (st : StPtr) :
    testView s h st = if r.complete ≠ 0 then StPtr.put st r.source r.tag >>= fun st' => .ok (0, r.complete, st')
      else .ok (h, r.complete, st) := by
  have hpos := hi.hst.pos (mem_keys hm)
  obtain ⟨t, h4, _⟩ := hi.hst.free (mem_keys hm)
  unfold testView MPI_Test
  rw [if_neg (by omega), Sys.ptr_live hi.hst (mem_keys hm), Res.ok_bind]
  dsimp only
  rw [Sys.req_live hi.hst (mem_keys hm) hd, Res.ok_bind]
  split
  · rw [h4]
    cases StPtr.put st r.source r.tag <;> rfl
  · rfl

theorem Released.refl (hr : Reach env s L) : Released env s L [] s :=
  ⟨by rw [show L.objs.filter (fun e => decide (e.1 ∉ ([] : List Int))) = L.objs from
      List.filter_eq_self.2 (fun _ _ => by simp)]; exact hr, rfl, fun _ _ _ _ _ => rfl⟩

theorem Released.null (hr : Reach env s L) : Released env s L [MPI_REQUEST_NULL] s := by
  obtain ⟨M, lst, hi⟩ := hr.inv
  refine ⟨?_, rfl, fun _ _ _ _ _ => rfl⟩
  rw [show L.objs.filter (fun e => decide (e.1 ∉ [MPI_REQUEST_NULL])) = L.objs from
      List.filter_eq_self.2 (fun e he => by
        have := hi.hst.pos (mem_keys he)
        rw [decide_eq_true_iff, List.mem_singleton]
        intro h; rw [h] at this; exact absurd this.1 (by decide))]
  exact hr

theorem Released.trans {hs hs' : List Int} (h1 : Released env s L hs s')
    (h2 : Released env s' { L with objs := L.objs.filter (fun e => decide (e.1 ∉ hs)) } hs' s'') :
    Released env s L (hs ++ hs') s'' := by
  refine ⟨?_, ?_, ?_⟩
  · have := h2.reach
    dsimp only at this
    rw [List.filter_filter] at this
    have he : L.objs.filter (fun a => decide (a.1 ∉ hs') && decide (a.1 ∉ hs)) =
        L.objs.filter (fun e => decide (e.1 ∉ hs ++ hs')) := by
      apply List.filter_congr
      intro e _
      simp only [List.mem_append, not_or]
      by_cases h1 : e.1 ∈ hs <;> by_cases h2 : e.1 ∈ hs' <;> simp [h1, h2]
    rw [he] at this
    exact this
  · have h3 := h2.rest
    rw [h1.rest] at h3
    exact h3
  · intro h i hm hn st
    simp only [List.mem_append, not_or] at hn
    rw [h2.same h i (by simp [List.mem_filter, hm, hn.1]) hn.2 st, h1.same h i hm hn.1 st]

/-- One MPI_Test. -/
theorem test_one (hr : Reach env s L) {h : Int} (hh : h = MPI_REQUEST_NULL ∨ ∃ i, (h, Obj.req i) ∈ L.objs)
    {st : StPtr} (hst : st ≠ .bad) :
    (MPI_Test s h st = .ok ⟨s, h, 0, st⟩ ∧ h ≠ MPI_REQUEST_NULL ∧ Incomplete s h) ∨
    (∃ s' st', MPI_Test s h st = .ok ⟨s', 0, 1, st'⟩ ∧ Complete s h ∧
      (h = MPI_REQUEST_NULL → s' = s) ∧ (∀ x, st = .obj x → ∃ y, st' = .obj y) ∧
      Released env s L [h] s') := by
  obtain ⟨M, lst, hi⟩ := hr.inv
  by_cases h0 : h = MPI_REQUEST_NULL
  · right
    subst h0
    refine ⟨s, st.map fun st => { st with MPI_SOURCE := MPI_ANY_SOURCE, MPI_TAG := MPI_ANY_TAG }, ?_,
      ⟨⟨_, rfl, rfl⟩, fun _ => ⟨_, rfl, rfl⟩⟩, fun _ => rfl, ?_, ?_⟩
    · cases st with
      | bad => exact absurd rfl hst
      | _ => rfl
    · rintro x rfl; exact ⟨_, rfl⟩
    · exact .null hr
  · obtain ⟨i, hm⟩ := hh.resolve_left h0
    obtain ⟨o, r, ho, _, hd, hrec⟩ := hi.req _ _ hm
    by_cases hp : o.st = .pending
    · exact Or.inl ⟨test_pending hi hm ho hp st, h0, hi.incomplete hm ho hp⟩
    · right
      obtain ⟨t, src, tag, _, _, ht⟩ := test_done hi hm ho hp
      have hput : ∃ st', StPtr.put st src tag = .ok st' ∧ (∀ x, st = .obj x → ∃ y, st' = .obj y) := by
        cases st with
        | bad => exact absurd rfl hst
        | null => exact ⟨_, rfl, fun x h => by cases h⟩
        | obj x => exact ⟨_, rfl, fun _ _ => ⟨_, rfl⟩⟩
      obtain ⟨st', hst', hobj⟩ := hput
      have hok : MPI_Test s h st = .ok ⟨{ s with handles := t }, 0, 1, st'⟩ := by rw [ht st, hst']; rfl
      obtain ⟨_, _, hfree, _, hreach, _⟩ := C17_test_success hr hm hok (by simp)
      refine ⟨_, st', hok, hi.complete hm ho hp, fun h => absurd h h0, hobj, ?_⟩
      refine ⟨?_, rfl, ?_⟩
      · have : L.objs.filter (fun e => decide (e.1 ∉ [h])) = (L.release h).objs := by
          unfold Ledger.release
          apply List.filter_congr
          intro e _
          simp
        rw [this]
        exact hreach
      · intro h' i' hm' hne st2
        simp only [List.mem_singleton] at hne
        obtain ⟨o', r', _, _, hd', _⟩ := hi.req _ _ hm'
        obtain ⟨M2, lst2, hi2⟩ := hreach.inv
        obtain ⟨t', h1, _, h2⟩ := hi.hst.free (mem_keys hm)
        rw [hfree] at h1
        cases h1
        rw [testView_rec hi hm' hd', testView_rec hi2 (by rw [mem_release]; exact ⟨hm', hne⟩) (r := r') ?_]
        unfold dataAt at hd' ⊢
        rw [← hd']
        exact h2 _

theorem WfReqs.head {h : Int} {hs : List Int} (hw : WfReqs L (h :: hs)) :
    h = MPI_REQUEST_NULL ∨ ∃ i, (h, Obj.req i) ∈ L.objs := by
  rcases hw.1 with h1 | h1
  · exact Or.inl h1
  · exact Or.inr h1.1

theorem WfReqs.rest {hs rel : List Int} (hw : WfReqs L hs) (hn : ∀ x ∈ rel, x ≠ MPI_REQUEST_NULL → x ∉ hs) :
    WfReqs { L with objs := L.objs.filter (fun e => decide (e.1 ∉ rel)) } hs := by
  induction hs with
  | nil => trivial
  | cons a hs ih =>
    refine ⟨?_, ih hw.2 (fun x hx h0 hx' => hn x hx h0 (List.mem_cons_of_mem _ hx'))⟩
    rcases hw.1 with h1 | ⟨⟨i, h1⟩, h2⟩
    · exact Or.inl h1
    · by_cases h0 : a = MPI_REQUEST_NULL
      · exact Or.inl h0
      · refine Or.inr ⟨⟨i, ?_⟩, h2⟩
        rw [List.mem_filter]
        refine ⟨h1, ?_⟩
        rw [decide_eq_true_iff]
        exact fun hx => hn a hx h0 (by simp)

/-- Testing the rest of the array after releasing `h` looks the same as before. -/
theorem TestedEach.back {hs sts hs' sts' d : _} {h : Int} (hi : Inv s L M lst) (hw : WfReqs L hs)
    (hn : h ≠ MPI_REQUEST_NULL → h ∉ hs) (hrel : Released env s L [h] s')
    (ht : TestedEach s' hs sts hs' sts' d) : TestedEach s hs sts hs' sts' d := by
  have key : ∀ a, (a = MPI_REQUEST_NULL ∨ ∃ i, (a, Obj.req i) ∈ L.objs) → (h ≠ MPI_REQUEST_NULL → a ≠ h) →
      ∀ st x, testView s' a st = .ok x → testView s a st = .ok x := by
    intro a ha hne st x hx
    by_cases h0 : a = MPI_REQUEST_NULL
    · subst h0
      rw [← hx]
      unfold testView MPI_Test
      rw [if_pos rfl, if_pos rfl]
      cases StPtr.put st MPI_ANY_SOURCE MPI_ANY_TAG <;> rfl
    · obtain ⟨i, hm⟩ := ha.resolve_left h0
      rw [← hx]
      refine (hrel.same a i hm ?_ st).symm
      rw [List.mem_singleton]
      intro he
      exact hne (by rw [← he]; exact h0) he
  induction ht with
  | nil => exact .nil
  | done h1 _ ih =>
    refine .done (key _ hw.head ?_ _ _ h1) (ih hw.2 (fun h0 hx => hn h0 (List.mem_cons_of_mem _ hx)))
    intro h0 he
    exact hn h0 (by rw [he]; simp)
  | not h1 _ ih =>
    refine .not (key _ hw.head ?_ _ _ h1) (ih hw.2 (fun h0 hx => hn h0 (List.mem_cons_of_mem _ hx)))
    intro h0 he
    exact hn h0 (by rw [he]; simp)

theorem rd_mid {α : Type} (p q : List α) (x : α) : rd (p ++ x :: q) p.length = .ok x := by
  unfold rd; simp

theorem set_mid {α : Type} (p q : List α) (x y : α) : (p ++ x :: q).set p.length y = (p ++ [y]) ++ q := by
  simp

/-- One iteration of a loop over the array. -/
theorem test_iter (hr : Reach env s L) {h : Int} {hs : List Int} (hw : WfReqs L (h :: hs)) (st : Status) :
    ∃ s1 h' f st' d1, MPI_Test s h (.obj st) = .ok ⟨s1, h', f, .obj st'⟩ ∧
      testView s h (.obj st) = .ok (h', f, .obj st') ∧
      Released env s L d1 s1 ∧ WfReqs { L with objs := L.objs.filter (fun e => decide (e.1 ∉ d1)) } hs ∧
      (∀ sts hs' sts' d, TestedEach s1 hs sts hs' sts' d → TestedEach s hs sts hs' sts' d) ∧
      ((f = 0 ∧ d1 = [] ∧ s1 = s ∧ h' = h ∧ st' = st ∧ ¬ Complete s h) ∨ (f = 1 ∧ d1 = [h] ∧ h' = 0 ∧ Complete s h)) := by
  obtain ⟨M, lst, hi⟩ := hr.inv
  rcases test_one hr hw.head (st := .obj st) (by simp) with ⟨h1, h2, h3⟩ | ⟨s1, st', h1, h2, h3, h4, h5⟩
  · refine ⟨s, h, 0, st, [], h1, by unfold testView; rw [h1]; rfl, .refl hr, hw.2.rest (by simp),
      fun _ _ _ _ h => h, Or.inl ⟨rfl, rfl, rfl, rfl, rfl, fun hc => not_complete_and_incomplete hc h3⟩⟩
  · obtain ⟨y, rfl⟩ := h4 st rfl
    have hn : h ≠ MPI_REQUEST_NULL → h ∉ hs := by
      intro h0
      rcases hw.1 with h6 | h6
      · exact absurd h6 h0
      · exact h6.2
    refine ⟨s1, 0, 1, y, [h], h1, by unfold testView; rw [h1]; rfl, h5, hw.2.rest ?_,
      fun _ _ _ _ ht => ht.back hi hw.2 hn h5, Or.inr ⟨rfl, rfl, rfl, h2⟩⟩
    intro x hx h0
    rw [List.mem_singleton] at hx
    subst hx
    exact hn h0

theorem testView_ok {h : Int} {st : StPtr} {x : Int × Int × StPtr} :
    testView s h st = .ok x ↔ ∃ r, MPI_Test s h st = .ok r ∧ x = (r.request, r.flag, r.status) := by
  unfold testView
  rw [Res.bind_eq_ok]
  constructor
  · rintro ⟨r, h1, h2⟩; cases h2; exact ⟨r, h1, rfl⟩
  · rintro ⟨r, h1, rfl⟩; exact ⟨r, h1, rfl⟩

theorem complete_view {h : Int} (hv : ∀ st, testView s' h st = testView s h st) : Complete s h → Complete s' h := by
  have key : ∀ st, (∃ r, MPI_Test s h st = .ok r ∧ r.flag = 1) → ∃ r, MPI_Test s' h st = .ok r ∧ r.flag = 1 := by
    rintro st ⟨r, h1, h2⟩
    have h3 : testView s h st = .ok (r.request, r.flag, r.status) := testView_ok.2 ⟨r, h1, rfl⟩
    rw [← hv] at h3
    obtain ⟨r', h4, h5⟩ := testView_ok.1 h3
    simp only [Prod.mk.injEq] at h5
    exact ⟨r', h4, by rw [← h5.2.1, h2]⟩
  rintro ⟨h1, h2⟩
  exact ⟨key _ h1, fun st => key _ (h2 st)⟩

theorem complete_null (s : Sys) : Complete s MPI_REQUEST_NULL := ⟨⟨_, rfl, rfl⟩, fun _ => ⟨_, rfl, rfl⟩⟩

theorem WfReqs.mem {hs : List Int} (hw : WfReqs L hs) {a : Int} (ha : a ∈ hs) :
    a = MPI_REQUEST_NULL ∨ ∃ i, (a, Obj.req i) ∈ L.objs := by
  induction hs with
  | nil => simp at ha
  | cons b hs ih =>
    rcases List.mem_cons.1 ha with rfl | h1
    · exact hw.head
    · exact ih hw.2 h1

theorem Released.complete {d : List Int} (hrel : Released env s L d s') {a : Int}
    (ha : a = MPI_REQUEST_NULL ∨ ∃ i, (a, Obj.req i) ∈ L.objs) (hn : a ≠ MPI_REQUEST_NULL → a ∉ d) :
    Complete s' a ↔ Complete s a := by
  by_cases h0 : a = MPI_REQUEST_NULL
  · subst h0; exact ⟨fun _ => complete_null s, fun _ => complete_null s'⟩
  · obtain ⟨i, hm⟩ := ha.resolve_left h0
    have := hrel.same a i hm (hn h0)
    exact ⟨complete_view fun st => (this st).symm, complete_view this⟩

/-- The flag MPI_Test gives is completion. -/
theorem flag_complete (hr : Reach env s L) {h h' : Int} (hh : h = MPI_REQUEST_NULL ∨ ∃ i, (h, Obj.req i) ∈ L.objs)
    {st : Status} {f : Int} {st' : StPtr} (hv : testView s h (.obj st) = .ok (h', f, st')) :
    (f = 1 ↔ Complete s h) ∧ (f = 0 → h' = h ∧ st' = .obj st) ∧ (f = 1 → h' = 0) := by
  obtain ⟨r, h1, h2⟩ := testView_ok.1 hv
  rcases test_one hr hh (st := .obj st) (by simp) with ⟨h3, h4, h5⟩ | ⟨s1, st2, h3, h4, _⟩
  · rw [h1] at h3
    cases h3
    simp only [Prod.mk.injEq] at h2
    obtain ⟨rfl, rfl, rfl⟩ := h2
    exact ⟨⟨fun h => absurd h (by decide), fun h => (not_complete_and_incomplete h h5).elim⟩, fun _ => ⟨rfl, rfl⟩,
      fun h => absurd h (by decide)⟩
  · rw [h1] at h3
    cases h3
    simp only [Prod.mk.injEq] at h2
    obtain ⟨rfl, rfl, rfl⟩ := h2
    exact ⟨⟨fun _ => h4, fun _ => rfl⟩, fun h => absurd h (by decide), fun _ => rfl⟩

theorem TestedEach.len {hs sts hs' sts' d} (ht : TestedEach s hs sts hs' sts' d) : d.length ≤ hs.length := by
  induction ht with
  | nil => exact Nat.le_refl _
  | done _ _ ih => simpa using ih
  | not _ _ ih => simp only [List.length_cons]; omega

theorem TestedEach.all {hs sts hs' sts' d} (hr : Reach env s L) (hw : WfReqs L hs)
    (ht : TestedEach s hs sts hs' sts' d) :
    (d.length = hs.length ↔ ∀ h ∈ hs, Complete s h) ∧
    (d.length = hs.length → d = hs ∧ hs' = List.replicate hs.length 0) := by
  induction ht with
  | nil => simp
  | @done h h' st st' hs sts hs' sts' d h1 h2 ih =>
    obtain ⟨ih1, ih2⟩ := ih hw.2
    obtain ⟨q1, _, q2⟩ := flag_complete hr hw.head h1
    simp only [List.length_cons, Nat.add_right_cancel_iff, List.forall_mem_cons]
    refine ⟨⟨fun h => ⟨q1.1 rfl, ih1.1 h⟩, fun h => ih1.2 h.2⟩, fun h => ?_⟩
    obtain ⟨rfl, q3⟩ := ih2 h
    rw [List.replicate_succ, ← q3, q2 rfl]
    exact ⟨rfl, rfl⟩
  | @not h h' st st' hs sts hs' sts' d h1 h2 ih =>
    obtain ⟨q1, _⟩ := flag_complete hr hw.head h1
    have := h2.len
    simp only [List.length_cons, List.forall_mem_cons]
    refine ⟨⟨fun h => by omega, fun h => ?_⟩, fun h => by omega⟩
    exact absurd (q1.2 h.1) (by decide)

/-! ## The loops -/

theorem testall_loop (hs : List Int) : ∀ (pre : List Int) (p q : List Status) (s : Sys) (L : Ledger) (flag : Int),
    Reach env s L → WfReqs L hs → p.length = pre.length → q.length = hs.length →
    ∃ s' hs' sts' d, testallLoop hs.length pre.length s (pre ++ hs) (some (p ++ q)) flag =
      .ok (⟨s', pre ++ hs', some (p ++ sts')⟩, if d.length = hs.length then flag else 0) ∧
      TestedEach s hs q hs' sts' d ∧ Released env s L d s' := by
  induction hs with
  | nil =>
    intro pre p q s L flag hr _ _ hq
    have : q = [] := List.length_eq_zero_iff.1 hq
    subst this
    exact ⟨s, [], [], [], rfl, .nil, .refl hr⟩
  | cons h hs ih =>
    intro pre p q s L flag hr hw hp hq
    obtain ⟨st, q, rfl⟩ : ∃ st q', q = st :: q' := by
      cases q with
      | nil => simp at hq
      | cons a b => exact ⟨a, b, rfl⟩
    obtain ⟨s1, h', f, st', d1, h1, h2, h3, h4, h5, h6⟩ := test_iter hr hw st
    obtain ⟨s', hs', sts', d, h7, h8, h9⟩ := ih (pre ++ [h']) (p ++ [st']) q s1 _ (if f = 0 then 0 else flag) h3.reach h4
      (by simp [hp]) (by simpa using hq)
    refine ⟨s', h' :: hs', st' :: sts', d1 ++ d, ?_, ?_, h3.trans h9⟩
    · rw [List.length_cons]
      unfold testallLoop
      rw [rd_mid, Res.ok_bind]
      unfold StArr.at
      dsimp only
      rw [← hp, rd_mid]
      simp only [Res.ok_bind, Res.pure_eq]
      rw [h1, Res.ok_bind]
      dsimp only [StArr.upd]
      rw [set_mid, hp, set_mid, show pre.length + 1 = (pre ++ [h']).length by simp, h7]
      simp only [List.append_assoc, List.cons_append, List.nil_append, Res.ok.injEq, Prod.mk.injEq, true_and]
      have := h8.len
      rcases h6 with ⟨rfl, rfl, _⟩ | ⟨rfl, rfl, _⟩
      · have hne : ¬ ([] ++ d).length = hs.length + 1 := by
          simp only [List.nil_append]; omega
        rw [if_neg hne, if_pos rfl]
        split <;> rfl
      · simp
    · rcases h6 with ⟨rfl, rfl, _⟩ | ⟨rfl, rfl, _⟩
      · exact .not h2 (h5 _ _ _ _ h8)
      · exact .done h2 (h5 _ _ _ _ h8)

theorem testsome_loop (hs : List Int) : ∀ (pre : List Int) (p q : List Status) (s : Sys) (L : Ledger) (n : Int),
    Reach env s L → WfReqs L hs → p.length = pre.length → q.length = hs.length →
    ∃ s' hs' sts' d, testsomeLoop hs.length pre.length s (pre ++ hs) (some (p ++ q)) n =
      .ok (⟨s', pre ++ hs', some (p ++ sts')⟩, n + d.length) ∧
      TestedEach s hs q hs' sts' d ∧ Released env s L d s' := by
  induction hs with
  | nil =>
    intro pre p q s L n hr _ _ hq
    have : q = [] := List.length_eq_zero_iff.1 hq
    subst this
    refine ⟨s, [], [], [], ?_, .nil, .refl hr⟩
    unfold testsomeLoop
    simp
  | cons h hs ih =>
    intro pre p q s L n hr hw hp hq
    obtain ⟨st, q, rfl⟩ : ∃ st q', q = st :: q' := by
      cases q with
      | nil => simp at hq
      | cons a b => exact ⟨a, b, rfl⟩
    obtain ⟨s1, h', f, st', d1, h1, h2, h3, h4, h5, h6⟩ := test_iter hr hw st
    obtain ⟨s', hs', sts', d, h7, h8, h9⟩ := ih (pre ++ [h']) (p ++ [st']) q s1 _ (if f = 0 then n else n + 1) h3.reach h4
      (by simp [hp]) (by simpa using hq)
    refine ⟨s', h' :: hs', st' :: sts', d1 ++ d, ?_, ?_, h3.trans h9⟩
    · rw [List.length_cons]
      unfold testsomeLoop
      rw [rd_mid, Res.ok_bind]
      unfold StArr.at
      dsimp only
      rw [← hp, rd_mid]
      simp only [Res.ok_bind, Res.pure_eq]
      rw [h1, Res.ok_bind]
      dsimp only [StArr.upd]
      rw [set_mid, hp, set_mid, show pre.length + 1 = (pre ++ [h']).length by simp, h7]
      simp only [List.append_assoc, List.cons_append, List.nil_append, Res.ok.injEq, Prod.mk.injEq, true_and]
      rcases h6 with ⟨rfl, rfl, _⟩ | ⟨rfl, rfl, _⟩
      · simp
      · simp only [List.cons_append, List.nil_append, List.length_cons]
        rw [if_neg (by decide)]
        omega
    · rcases h6 with ⟨rfl, rfl, _⟩ | ⟨rfl, rfl, _⟩
      · exact .not h2 (h5 _ _ _ _ h8)
      · exact .done h2 (h5 _ _ _ _ h8)

theorem waitall_loop (hs : List Int) : ∀ (pre : List Int) (p q : List Status) (s : Sys) (L : Ledger),
    Reach env s L → WfReqs L hs → p.length = pre.length → q.length = hs.length →
    ((∀ h ∈ hs, Complete s h) → ∃ s' sts', waitallLoop hs.length pre.length s (pre ++ hs) (some (p ++ q)) =
      .ok ⟨s', pre ++ List.replicate hs.length 0, some (p ++ sts')⟩ ∧
      TestedEach s hs q (List.replicate hs.length 0) sts' hs ∧ Released env s L hs s') ∧
    ((∃ h ∈ hs, ¬ Complete s h) →
      (waitallLoop hs.length pre.length s (pre ++ hs) (some (p ++ q))).aborted = true) := by
  induction hs with
  | nil =>
    intro pre p q s L hr _ _ hq
    have : q = [] := List.length_eq_zero_iff.1 hq
    subst this
    exact ⟨fun _ => ⟨s, [], rfl, .nil, .refl hr⟩, fun ⟨h, h1, _⟩ => by simp at h1⟩
  | cons h hs ih =>
    intro pre p q s L hr hw hp hq
    obtain ⟨st, q, rfl⟩ : ∃ st q', q = st :: q' := by
      cases q with
      | nil => simp at hq
      | cons a b => exact ⟨a, b, rfl⟩
    obtain ⟨s1, h', f, st', d1, h1, h2, h3, h4, h5, h6⟩ := test_iter hr hw st
    have heq : waitallLoop (h :: hs).length pre.length s (pre ++ h :: hs) (some (p ++ st :: q)) =
        if f = 0 then .abort "MPI_Waitall: request not complete, deadlock"
        else waitallLoop hs.length (pre ++ [h']).length s1 ((pre ++ [h']) ++ hs) (some ((p ++ [st']) ++ q)) := by
      rw [List.length_cons]
      unfold waitallLoop
      rw [rd_mid, Res.ok_bind]
      unfold StArr.at
      dsimp only
      rw [← hp, rd_mid]
      simp only [Res.ok_bind, Res.pure_eq]
      rw [h1, Res.ok_bind]
      dsimp only [StArr.upd]
      rw [set_mid, hp, set_mid, show pre.length + 1 = (pre ++ [h']).length by simp]
      split <;> first | rfl | (cases hs <;> rfl)
    rw [heq]
    rcases h6 with ⟨rfl, rfl, rfl, rfl, rfl, hnc⟩ | ⟨rfl, rfl, rfl, hc⟩
    · rw [if_pos rfl]
      exact ⟨fun hall => absurd (hall _ (List.mem_cons_self ..)) hnc, fun _ => rfl⟩
    · rw [if_neg (by decide)]
      obtain ⟨ih1, ih2⟩ := ih (pre ++ [0]) (p ++ [st']) q s1 _ h3.reach h4 (by simp [hp]) (by simpa using hq)
      have hcc : ∀ a ∈ hs, (Complete s1 a ↔ Complete s a) := by
        intro a ha
        refine h3.complete (hw.2.mem ha) (fun h0 hd => ?_)
        rw [List.mem_singleton] at hd
        subst hd
        rcases hw.1 with h6 | h6
        · exact h0 h6
        · exact h6.2 ha
      constructor
      · intro hall
        obtain ⟨s', sts', q1, q2, q3⟩ := ih1 (fun a ha => (hcc a ha).2 (hall a (List.mem_cons_of_mem _ ha)))
        refine ⟨s', st' :: sts', ?_, ?_, h3.trans q3⟩
        · rw [q1]
          simp [List.replicate_succ]
        · rw [List.length_cons, List.replicate_succ]
          exact .done h2 (h5 _ _ _ _ q2)
      · rintro ⟨a, ha, hna⟩
        rcases List.mem_cons.1 ha with rfl | ha'
        · exact absurd hc hna
        · exact ih2 ⟨a, ha', fun h => hna ((hcc a ha').1 h)⟩

theorem testany_loop (hs : List Int) : ∀ (pre : List Int) (s : Sys) (L : Ledger) (st : StPtr),
    Reach env s L → WfReqs L hs → st ≠ .bad →
    ((∀ h ∈ hs, ¬ Complete s h) → testanyLoop hs.length pre.length s (pre ++ hs) st = .ok (s, pre ++ hs, 0, st)) ∧
    (∀ a h b, hs = a ++ h :: b → (∀ x ∈ a, ¬ Complete s x) → Complete s h →
      ∃ s' st', testanyLoop hs.length pre.length s (pre ++ hs) st = .ok (s', pre ++ a ++ 0 :: b, 1, st') ∧
        testView s h st = .ok (0, 1, st') ∧ Released env s L [h] s') := by
  induction hs with
  | nil =>
    intro pre s L st _ _ _
    refine ⟨fun _ => rfl, fun a h b hab => ?_⟩
    have := congrArg List.length hab
    simp at this
  | cons x hs ih =>
    intro pre s L st hr hw hst
    have heq : testanyLoop (x :: hs).length pre.length s (pre ++ x :: hs) st =
        (MPI_Test s x st >>= fun r => if r.flag ≠ 0 then .ok (r.sys, (pre ++ [r.request]) ++ hs, r.flag, r.status)
          else testanyLoop hs.length (pre ++ [r.request]).length r.sys ((pre ++ [r.request]) ++ hs) r.status) := by
      rw [List.length_cons]
      conv => lhs; unfold testanyLoop
      rw [rd_mid, Res.ok_bind]
      congr 1
      funext r
      rw [set_mid, show pre.length + 1 = (pre ++ [r.request]).length by simp]
      rfl
    rw [heq]
    rcases test_one hr hw.head hst with ⟨h1, h2, h3⟩ | ⟨s1, st', h1, h2, h3, h4, h5⟩
    · rw [h1, Res.ok_bind]
      dsimp only
      rw [if_neg (by decide)]
      obtain ⟨ih1, ih2⟩ := ih (pre ++ [x]) s L st hr hw.2 hst
      constructor
      · intro hall
        rw [ih1 (fun h hh => hall h (List.mem_cons_of_mem _ hh))]
        simp
      · intro a h b hab hna hc
        cases a with
        | nil =>
          simp only [List.nil_append, List.cons.injEq] at hab
          obtain ⟨rfl, rfl⟩ := hab
          exact (not_complete_and_incomplete hc h3).elim
        | cons y a =>
          simp only [List.cons_append, List.cons.injEq] at hab
          obtain ⟨rfl, hab⟩ := hab
          obtain ⟨s', st', q1, q2, q3⟩ := ih2 a h b hab (fun z hz => hna z (List.mem_cons_of_mem _ hz)) hc
          refine ⟨s', st', ?_, q2, q3⟩
          rw [q1]
          simp
    · rw [h1, Res.ok_bind]
      dsimp only
      rw [if_pos (by decide)]
      constructor
      · intro hall
        exact absurd h2 (hall x (by simp))
      · intro a h b hab hna hc
        cases a with
        | nil =>
          simp only [List.nil_append, List.cons.injEq] at hab
          obtain ⟨rfl, rfl⟩ := hab
          refine ⟨s1, st', by simp, by unfold testView; rw [h1]; rfl, h5⟩
        | cons y a =>
          simp only [List.cons_append, List.cons.injEq] at hab
          obtain ⟨rfl, hab⟩ := hab
          exact absurd h2 (hna x (by simp))

end

end MpiSerial
