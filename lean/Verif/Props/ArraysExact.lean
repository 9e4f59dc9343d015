import Verif.Props.Arrays
import Verif.Spec.Fate

/-!
# C18, C20: MPI_STATUSES_IGNORE with two or more requests
-/

set_option linter.unusedSimpArgs false
set_option autoImplicit false

namespace MpiSerial

section
variable {env : Env} {s : Sys} {L : Ledger}

/-- MPI_Test with an invalid status pointer: the pointer is used exactly if the request is complete. -/
theorem test_bad (hr : Reach env s L) {h : Int} (hh : h = MPI_REQUEST_NULL ∨ ∃ i, (h, Obj.req i) ∈ L.objs) :
    (Complete s h → MPI_Test s h .bad = .ub .memAccess) ∧ (¬ Complete s h → MPI_Test s h .bad = .ok ⟨s, h, 0, .bad⟩) := by
  by_cases h0 : h = MPI_REQUEST_NULL
  · subst h0
    exact ⟨fun _ => rfl, fun hn => absurd ⟨⟨_, rfl, rfl⟩, fun _ => ⟨_, rfl, rfl⟩⟩ hn⟩
  · obtain ⟨i, hm⟩ := hh.resolve_left h0
    obtain ⟨M, lst, hi⟩ := hr.inv
    obtain ⟨o, ho, _⟩ := hi.opOf hm
    constructor
    · intro hc
      obtain ⟨t, src, tag, _, _, ht⟩ := test_done hi hm ho ((hi.complete_iff hm ho).1 hc)
      rw [ht]; rfl
    · intro hn
      refine test_pending hi hm ho ?_ _
      rw [hi.complete_iff hm ho] at hn
      exact Classical.not_not.1 hn

theorem testall_bad (hr : Reach env s L) : ∀ (hs pre : List Int), pre ≠ [] → WfReqs L hs → ∀ flag : Int,
    ((∃ x ∈ hs, Complete s x) → testallLoop hs.length pre.length s (pre ++ hs) none flag = .ub .memAccess) ∧
    ((∀ x ∈ hs, ¬ Complete s x) → testallLoop hs.length pre.length s (pre ++ hs) none flag =
      .ok (⟨s, pre ++ hs, none⟩, if hs = [] then flag else 0)) := by
  intro hs
  induction hs with
  | nil => intro pre _ _ flag; exact ⟨by simp, fun _ => rfl⟩
  | cons h hs ih =>
    intro pre hp hw flag
    obtain ⟨h1, h2⟩ := test_bad hr hw.head
    have hat : StArr.at none pre.length = .ok .bad := by
      unfold StArr.at
      dsimp only
      rw [if_neg (by simpa using hp)]
    have hstep : testallLoop (h :: hs).length pre.length s (pre ++ h :: hs) none flag = (MPI_Test s h .bad >>= fun r =>
        testallLoop hs.length (pre.length + 1) r.sys ((pre ++ h :: hs).set pre.length r.request) none (if r.flag = 0 then 0 else flag)) := by
      rw [List.length_cons]
      conv => lhs; unfold testallLoop
      rw [rd_mid, Res.ok_bind, hat, Res.ok_bind]
      rfl
    have hgo : ¬ Complete s h → testallLoop (h :: hs).length pre.length s (pre ++ h :: hs) none flag =
        testallLoop hs.length (pre ++ [h]).length s ((pre ++ [h]) ++ hs) none 0 := fun hn => by
      rw [hstep, h2 hn, Res.ok_bind]
      dsimp only
      rw [set_mid, if_pos rfl]
      simp
    obtain ⟨i1, i2⟩ := ih (pre ++ [h]) (by simp) hw.2 0
    constructor
    · rintro ⟨x, hx, hc⟩
      by_cases hn : Complete s h
      · rw [hstep, h1 hn]; rfl
      · rw [hgo hn]
        refine i1 ⟨x, ?_, hc⟩
        rcases List.mem_cons.1 hx with rfl | hx
        · exact absurd hc hn
        · exact hx
    · intro hall
      rw [hgo (hall h (by simp)), i2 (fun x hx => hall x (by simp [hx]))]
      simp

theorem testsome_bad (hr : Reach env s L) : ∀ (hs pre : List Int), pre ≠ [] → WfReqs L hs → ∀ n : Int,
    ((∃ x ∈ hs, Complete s x) → testsomeLoop hs.length pre.length s (pre ++ hs) none n = .ub .memAccess) ∧
    ((∀ x ∈ hs, ¬ Complete s x) → testsomeLoop hs.length pre.length s (pre ++ hs) none n = .ok (⟨s, pre ++ hs, none⟩, n)) := by
  intro hs
  induction hs with
  | nil => intro pre _ _ flag; exact ⟨by simp, fun _ => rfl⟩
  | cons h hs ih =>
    intro pre hp hw n
    obtain ⟨h1, h2⟩ := test_bad hr hw.head
    have hat : StArr.at none pre.length = .ok .bad := by
      unfold StArr.at
      dsimp only
      rw [if_neg (by simpa using hp)]
    have hstep : testsomeLoop (h :: hs).length pre.length s (pre ++ h :: hs) none n = (MPI_Test s h .bad >>= fun r =>
        testsomeLoop hs.length (pre.length + 1) r.sys ((pre ++ h :: hs).set pre.length r.request) none (if r.flag = 0 then n else n + 1)) := by
      rw [List.length_cons]
      conv => lhs; unfold testsomeLoop
      rw [rd_mid, Res.ok_bind, hat, Res.ok_bind]
      rfl
    have hgo : ¬ Complete s h → testsomeLoop (h :: hs).length pre.length s (pre ++ h :: hs) none n =
        testsomeLoop hs.length (pre ++ [h]).length s ((pre ++ [h]) ++ hs) none n := fun hn => by
      rw [hstep, h2 hn, Res.ok_bind]
      dsimp only
      rw [set_mid, if_pos rfl]
      simp
    obtain ⟨i1, i2⟩ := ih (pre ++ [h]) (by simp) hw.2 n
    constructor
    · rintro ⟨x, hx, hc⟩
      by_cases hn : Complete s h
      · rw [hstep, h1 hn]; rfl
      · rw [hgo hn]
        refine i1 ⟨x, ?_, hc⟩
        rcases List.mem_cons.1 hx with rfl | hx
        · exact absurd hc hn
        · exact hx
    · intro hall
      rw [hgo (hall h (by simp)), i2 (fun x hx => hall x (by simp [hx]))]
      simp

open Classical in
/-- C18 and C20 with MPI_STATUSES_IGNORE and two or more requests, in every case.  MPI_Waitall: undefined if the first two
requests are complete, else it aborts; it never returns.  MPI_Testall and MPI_Testsome: undefined if any request
but the first is complete; else they return, and release the first request if that is complete. -/
theorem C18_ignore_exact (hr : Reach env s L) {h h' : Int} {hs : List Int} (hw : WfReqs L (h :: h' :: hs)) :
    (if Complete s h ∧ Complete s h' then MPI_Waitall s (h :: h' :: hs).length (h :: h' :: hs) none = .ub .memAccess
     else (MPI_Waitall s (h :: h' :: hs).length (h :: h' :: hs) none).aborted = true) ∧
    (if ∃ x ∈ h' :: hs, Complete s x then
      MPI_Testall s (h :: h' :: hs).length (h :: h' :: hs) none = .ub .memAccess ∧
      ∀ ix, MPI_Testsome s (h :: h' :: hs).length (h :: h' :: hs) ix none = .ub .memAccess
     else ∃ s', MPI_Testall s (h :: h' :: hs).length (h :: h' :: hs) none =
          .ok (⟨s', (if Complete s h then MPI_REQUEST_NULL else h) :: h' :: hs, none⟩, 0) ∧
        (∀ ix, MPI_Testsome s (h :: h' :: hs).length (h :: h' :: hs) ix none =
          .ok ⟨⟨s', (if Complete s h then MPI_REQUEST_NULL else h) :: h' :: hs, none⟩, if Complete s h then 1 else 0, ix⟩) ∧
        Released env s L (if Complete s h then [h] else []) s') := by
  have e0 : (StArr.at none 0) = .ok .null := rfl
  have hat : (StArr.at none 1) = .ok .bad := rfl
  have ew : MPI_Waitall s (h :: h' :: hs).length (h :: h' :: hs) none = (MPI_Test s h .null >>= fun r =>
      if r.flag = 0 then .abort "MPI_Waitall: request not complete, deadlock"
      else MPI_Test r.sys h' .bad >>= fun r' =>
        if r'.flag = 0 then .abort "MPI_Waitall: request not complete, deadlock"
        else waitallLoop hs.length 2 r'.sys (r.request :: r'.request :: hs) none) := rfl
  have ea : MPI_Testall s (h :: h' :: hs).length (h :: h' :: hs) none = (MPI_Test s h .null >>= fun r =>
      testallLoop (h' :: hs).length [r.request].length r.sys ([r.request] ++ (h' :: hs)) none (if r.flag = 0 then 0 else 1)) := rfl
  have es : ∀ ix, MPI_Testsome s (h :: h' :: hs).length (h :: h' :: hs) ix none = (do
      let (a, n) ← (MPI_Test s h .null >>= fun r =>
        testsomeLoop (h' :: hs).length [r.request].length r.sys ([r.request] ++ (h' :: hs)) none (if r.flag = 0 then 0 else 0 + 1))
      return ⟨a, n, ix⟩) := fun ix => rfl
  rcases test_one hr hw.head (st := .null) (by simp) with ⟨h1, h2, h3⟩ | ⟨s1, st', h1, h2, h3, _, h5⟩
  · have hnc : ¬ Complete s h := fun hc => not_complete_and_incomplete hc h3
    rw [h1] at ew ea
    simp only [h1] at es
    obtain ⟨a1, a2⟩ := testall_bad hr (h' :: hs) [h] (by simp) hw.2 0
    obtain ⟨b1, b2⟩ := testsome_bad hr (h' :: hs) [h] (by simp) hw.2 0
    have ea' : MPI_Testall s (h :: h' :: hs).length (h :: h' :: hs) none =
        testallLoop (h' :: hs).length [h].length s ([h] ++ (h' :: hs)) none 0 := ea
    have es' : ∀ ix, MPI_Testsome s (h :: h' :: hs).length (h :: h' :: hs) ix none = (do
        let (a, n) ← testsomeLoop (h' :: hs).length [h].length s ([h] ++ (h' :: hs)) none 0
        return ⟨a, n, ix⟩) := es
    refine ⟨?_, ?_⟩
    · rw [if_neg (fun hc => hnc hc.1), ew]; rfl
    split
    · rename_i hx
      refine ⟨ea'.trans (a1 hx), fun ix => ?_⟩
      rw [es', b1 hx]; rfl
    · rename_i hx
      have hall : ∀ x ∈ h' :: hs, ¬ Complete s x := fun x hxm hc => hx ⟨x, hxm, hc⟩
      refine ⟨s, ?_, ?_, ?_⟩
      · rw [ea', a2 hall]; rfl
      · intro ix
        rw [es', b2 hall]; rfl
      · exact .refl hr
  · have hw1 : WfReqs { L with objs := L.objs.filter (fun e => decide (e.1 ∉ [h])) } (h' :: hs) := hw.2.rest (by
      intro x hx h0
      rw [List.mem_singleton] at hx
      subst hx
      rcases hw.1 with h6 | h6
      · exact absurd h6 h0
      · exact h6.2)
    have hsame : ∀ x ∈ h' :: hs, (Complete s1 x ↔ Complete s x) := by
      intro x hx
      refine h5.complete (hw.2.mem hx) fun h0 he => ?_
      rw [List.mem_singleton] at he
      subst he
      rcases hw.1 with h6 | h6
      · exact h0 h6
      · exact h6.2 hx
    rw [h1] at ew ea
    simp only [h1] at es
    obtain ⟨a1, a2⟩ := testall_bad h5.reach (h' :: hs) [MPI_REQUEST_NULL] (by simp) hw1 1
    obtain ⟨b1, b2⟩ := testsome_bad h5.reach (h' :: hs) [MPI_REQUEST_NULL] (by simp) hw1 1
    obtain ⟨c1, c2⟩ := test_bad h5.reach hw1.head
    have ew' : MPI_Waitall s (h :: h' :: hs).length (h :: h' :: hs) none = (MPI_Test s1 h' .bad >>= fun r' =>
        if r'.flag = 0 then .abort "MPI_Waitall: request not complete, deadlock"
        else waitallLoop hs.length 2 r'.sys (MPI_REQUEST_NULL :: r'.request :: hs) none) := ew
    have ea' : MPI_Testall s (h :: h' :: hs).length (h :: h' :: hs) none =
        testallLoop (h' :: hs).length [MPI_REQUEST_NULL].length s1 ([MPI_REQUEST_NULL] ++ (h' :: hs)) none 1 := ea
    have es' : ∀ ix, MPI_Testsome s (h :: h' :: hs).length (h :: h' :: hs) ix none = (do
        let (a, n) ← testsomeLoop (h' :: hs).length [MPI_REQUEST_NULL].length s1 ([MPI_REQUEST_NULL] ++ (h' :: hs)) none 1
        return ⟨a, n, ix⟩) := es
    constructor
    · by_cases hc' : Complete s h'
      · rw [if_pos ⟨h2, hc'⟩, ew', c1 ((hsame h' (by simp)).2 hc')]; rfl
      · rw [if_neg (fun hc => hc' hc.2), ew', c2 (fun hc => hc' ((hsame h' (by simp)).1 hc))]; rfl
    · split
      · rename_i hx
        obtain ⟨x, hxm, hc⟩ := hx
        have hx1 : ∃ x ∈ h' :: hs, Complete s1 x := ⟨x, hxm, (hsame x hxm).2 hc⟩
        refine ⟨ea'.trans (a1 hx1), fun ix => ?_⟩
        rw [es', b1 hx1]; rfl
      · rename_i hx
        have hall : ∀ x ∈ h' :: hs, ¬ Complete s1 x := fun x hxm hc => hx ⟨x, hxm, (hsame x hxm).1 hc⟩
        refine ⟨s1, ?_, ?_, ?_⟩
        · rw [ea', a2 hall]; rfl
        · intro ix
          rw [es', b2 hall]; rfl
        · exact h5

end

/-! ## Instances

In `H8` the requests 2, 5 and 8 are complete, 3, 4 and 7 are not. -/

example : WfReqs H8.L [5, 3, 4] ∧ WfReqs H8.L [3, 5] := by
  refine ⟨⟨Or.inr ⟨⟨3, by decide +kernel⟩, by decide⟩, Or.inr ⟨⟨1, by decide +kernel⟩, by decide⟩,
    Or.inr ⟨⟨2, by decide +kernel⟩, by decide⟩, trivial⟩,
    Or.inr ⟨⟨1, by decide +kernel⟩, by decide⟩, Or.inr ⟨⟨3, by decide +kernel⟩, by decide⟩, trivial⟩

/-- The three outcomes of MPI_Testall and the two of MPI_Waitall occur. -/
example : ((MPI_Testall H8.s 3 [5, 3, 4] none).getD (⟨H8.s, [], none⟩, 7) |> fun r => r.2 = 0 ∧ r.1.reqs = [0, 3, 4]) ∧
    (MPI_Testall H8.s 2 [3, 5] none).fate = some (.ub .memAccess) ∧
    (MPI_Waitall H8.s 2 [3, 5] none).aborted = true ∧ (MPI_Waitall H8.s 2 [5, 8] none).fate = some (.ub .memAccess) := by
  decide +kernel

end MpiSerial
