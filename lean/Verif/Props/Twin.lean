import Verif.Proofs.TwinAll
import Verif.Props.Calls

/-!
# C56: leftovers in recycled request storage do not show

handles.c:178-225 hands out a slot without clearing it, and MPI_Isend and MPI_Irecv (send.c:36-95, recv.c:40-108) do
not write every field of a new request.
-/

set_option autoImplicit false

namespace MpiSerial

open Res (Rel)

theorem Steps.kinds {env : Env} {s s' : Sys} {L L' : Ledger} (h : Steps env s L s' L') :
    ∀ (i : Nat) o, L.ops[i]? = some o → ∃ o', L'.ops[i]? = some o' ∧ o'.kind = o.kind := by
  induction h with
  | refl => exact fun i o h => ⟨o, h, rfl⟩
  | step h1 h2 ih =>
    intro i o ho
    obtain ⟨o1, h3, h4⟩ := ih i o ho
    rw [← h4]
    cases h2 with
    | isend => exact ⟨_, post_old _ _ _ _ _ _ _ h3, by split <;> rfl⟩
    | irecv => exact ⟨_, post_old _ _ _ _ _ _ _ h3, by split <;> rfl⟩
    | isendNull => exact ⟨_, postNull_old _ _ _ _ _ _ h3, rfl⟩
    | irecvNull => exact ⟨_, postNull_old _ _ _ _ _ _ h3, rfl⟩
    | comm =>
      refine ⟨o1, ?_, rfl⟩
      unfold Ledger.noteComm
      split
      · exact h3
      · exact h3
    | test =>
      refine ⟨o1, ?_, rfl⟩
      split
      · exact h3
      · exact h3
    | _ => exact ⟨o1, h3, rfl⟩

/-- The program's record of its requests is right. -/
def Knows (seen : List Obs) (L : Ledger) : Prop :=
  ∀ h i o, (h, Obj.req i) ∈ L.objs → L.ops[i]? = some o → lastPost seen h = some o.kind

theorem lastPost_cons (x : Obs) (seen : List Obs) (r : Int) :
    lastPost (x :: seen) r = (if x.vals = [r] then x.call.posts else none).or (lastPost seen r) := by
  unfold lastPost
  rw [List.findSome?_cons]
  cases (if x.vals = [r] then x.call.posts else none) <;> rfl

/-- C56: a well-formed call, made in two histories with the same account whose states differ in leftovers only,
ends in the same way, hands back the same results and writes the same memory.  If every request to be completed is
a receive, the statuses are the same too.  And the states differ in leftovers only again. -/
theorem C56_call {env : Env} {j : Nat → ReqRec} {s₁ s₂ : Sys} {L : Ledger} (h₁ : Reach env s₁ L)
    (h₂ : Reach (env.withJunk j) s₂ L) (ha : Agree s₁ s₂) (hr : Room L) {c : Call} (hc : c.Wf env L) :
    (c.answer env s₁).fate = (c.answer (env.withJunk j) s₂).fate ∧
    ∀ s₁' o₁, c.answer env s₁ = .ok (s₁', o₁) → ∃ s₂' o₂ L', c.answer (env.withJunk j) s₂ = .ok (s₂', o₂) ∧
      o₁.vals = o₂.vals ∧ s₁'.mem = s₂'.mem ∧ (c.onlyReceives L → o₁.done = o₂.done) ∧
      Steps env s₁ L s₁' L' ∧ Steps (env.withJunk j) s₂ L s₂' L' ∧ Agree s₁' s₂' := by
  have h := Call.twin ⟨h₁, h₂, ha⟩ hr c hc
  refine ⟨h.fate, fun s₁' o₁ hok => ?_⟩
  obtain ⟨⟨s₂', o₂⟩, h1, ⟨L', h2, h3, h4, _⟩, h5, h6⟩ := h.ok_left hok
  exact ⟨s₂', o₂, L', h1, h5, h4.mem.symm, h6, h2, h3, h4⟩

theorem run_twin {env : Env} {j : Nat → ReqRec} {p : Prog} : ∀ (n k : Nat) (seen : List Obs) (s₁ s₂ : Sys) (L : Ledger),
    Both env j L s₁ s₂ → WfReach env s₁ L → Knows seen L → L.ncomms ≤ k → L.unmatched ≤ 2 * k → k + n ≤ 1073741823 →
    p.Wf env n seen s₁ → p.run env n seen s₁ = p.run (env.withJunk j) n seen s₂ := by
  intro n
  induction n with
  | zero => intros; rfl
  | succ n ih =>
    intro k seen s₁ s₂ L hp hw hk h1 h2 h3 hwf
    unfold Prog.run
    cases hc : p seen with
    | none => rfl
    | some c =>
      obtain ⟨h4, h5⟩ := hwf c hc
      have hrm : Room L := ⟨by omega, by omega, by omega⟩
      have ht := Call.twin hp hrm c (h4 L hw)
      dsimp only
      cases hx : c.answer env s₁ with
      | ok z =>
        obtain ⟨s₁', o₁⟩ := z
        obtain ⟨⟨s₂', o₂⟩, h6, ⟨L', g1, g2, g3, g4, g5⟩, g6, g7⟩ := ht.ok_left hx
        have hob : observe seen c s₁' o₁ = observe seen c s₂' o₂ := by
          unfold observe
          rw [g6, g3.mem]
          congr 1
          split
          · next hkn =>
            refine g7 fun r hr i o hm ho => ?_
            unfold knownReceives at hkn
            rw [List.all_eq_true] at hkn
            have h8 := hkn r hr
            have h9 := hk r i o hm ho
            obtain ⟨M, lst, hi⟩ := hp.r₁.inv
            have hpos := hi.hst.pos (mem_keys hm)
            simp only [Bool.or_eq_true, beq_iff_eq] at h8
            rcases h8 with h8 | h8
            · rw [h8] at hpos; exact absurd hpos (by decide)
            · rw [h9] at h8; exact Option.some.inj h8
          · rfl
        rw [h6]
        dsimp only
        rw [← hob]
        refine ih (k + 1) _ s₁' s₂' L' ⟨hp.r₁.steps g1, hp.r₂.steps g2, g3⟩ ?_ ?_ (by have := g4.1; omega) (by have := g4.2; omega) (by omega)
          (h5 _ _ hx)
        · refine .call hw hrm (h4 L hw) ?_ g1
          rw [Call.exec_answer, hx]
          rfl
        · intro h i o hm ho
          rw [lastPost_cons]
          have hn := g5 h i o hm ho
          have hold : (h, Obj.req i) ∈ L.objs → lastPost seen h = some o.kind := fun hm' => by
            obtain ⟨M, lst, hi⟩ := hp.r₁.inv
            obtain ⟨o0, _, ho0, _⟩ := hi.req _ _ hm'
            obtain ⟨o1, ho1, he⟩ := Steps.kinds g1 i o0 ho0
            rw [ho] at ho1
            cases ho1
            rw [hk h i o0 hm' ho0, he]
          unfold observe
          dsimp only
          cases hps : c.posts with
          | none =>
            rw [hps] at hn
            rw [ite_self, Option.none_or]
            exact hold hn
          | some k =>
            rw [hps] at hn
            rcases hn with ⟨hv, hkk⟩ | ⟨hv, hm'⟩
            · rw [if_pos hv, ← hkk]; rfl
            · rw [if_neg hv, Option.none_or]
              exact hold hm'
      | abort m => rw [hx] at ht; have := ht.fate; cases hy : c.answer (env.withJunk j) s₂ <;> rw [hy] at this <;> simp_all [Res.fate]
      | exit m => rw [hx] at ht; have := ht.fate; cases hy : c.answer (env.withJunk j) s₂ <;> rw [hy] at this <;> simp_all [Res.fate]
      | ub m => rw [hx] at ht; have := ht.fate; cases hy : c.answer (env.withJunk j) s₂ <;> rw [hy] at this <;> simp_all [Res.fate]
      | hang => rw [hx] at ht; have := ht.fate; cases hy : c.answer (env.withJunk j) s₂ <;> rw [hy] at this <;> simp_all [Res.fate]

/-- C56: a program, whatever it computes from the handles, flags, counts, statuses and memory contents it sees,
sees the same and ends in the same way whatever the unused storage of requests contained (fewer than 2^30 calls,
all well formed). -/
theorem C56_program {env : Env} {j : Nat → ReqRec} {p : Prog} {m : Mem} {n : Nat} (hn : n ≤ 1073741823)
    (h : p.Wf env n [] (Sys.start m)) :
    p.run env n [] (Sys.start m) = p.run (env.withJunk j) n [] (Sys.start m) :=
  run_twin n 0 [] _ _ .start ⟨.start, .start, .refl _⟩ .start (fun _ _ _ hm => nomatch hm) (Nat.le_refl _) (Nat.le_refl _) (by omega) h

/-! ## A program the theorem applies to -/

theorem Prog.wf_step {env : Env} {p : Prog} {n : Nat} {seen : List Obs} {s s' : Sys} {L : Ledger} {c : Call} {o : Out}
    (hp : p seen = some c) (hr : Reach env s L) (hnf : ∀ t, c ≠ .typeFree t) (hc : c.Wf env L)
    (ha : c.answer env s = .ok (s', o)) (hn : p.Wf env n (observe seen c s' o :: seen) s') :
    p.Wf env (n + 1) seen s := by
  intro c' hp'
  rw [hp] at hp'
  cases hp'
  refine ⟨fun L' hL' => hc.agree hr hL'.reach.1 c hnf, fun s'' o' ha' => ?_⟩
  rw [ha] at ha'
  cases ha'
  exact hn

/-- Posts a receive and a message for it, waits for the receive, posts a receive from MPI_PROC_NULL (which gets
the storage of the first receive) and waits for it too. -/
def twoWaits : Prog
  | [] => some .init
  | [_] => some (.irecv 200 3 (-1) 0 5 1)
  | [_, _] => some (.isend 100 3 (-1) 0 5 1)
  | [_, r, _] => some (.wait (r.vals.headD 0) (.obj ⟨0, 0, 0, 0⟩))
  | [_, _, _, _] => some (.irecv 300 1 (-1) MPI_PROC_NULL 7 1)
  | [r, _, _, _, _] => some (.wait (r.vals.headD 0) (.obj ⟨0, 0, 0, 0⟩))
  | _ => none

def st0 : StPtr := .obj ⟨0, 0, 0, 0⟩

/-- MPI_Test. -/
def Demo.test (d : Demo) (h : Int) : TestRes := (MPI_Test d.s h st0).getD ⟨d.s, h, 0, st0⟩

/-- MPI_Wait. -/
def Demo.wait (d : Demo) (h : Int) : Demo := ⟨(d.test h).sys, if (d.test h).flag = 0 then d.L else d.L.release h, 0⟩

theorem Demo.wait_ok {d : Demo} {h : Int} (i : Nat) (hr : d.Ok) (hm : decide ((h, Obj.req i) ∈ d.L.objs) = true)
    (hx : (MPI_Test d.s h st0).returned = true) : (d.wait h).Ok := by
  rw [decide_eq_true_iff] at hm
  exact hr.step (.test hm (Res.eq_getD ⟨d.s, h, 0, st0⟩ hx))

theorem Demo.wait_eq {d : Demo} {h : Int} (hx : (MPI_Test d.s h st0).returned = true)
    (hf : decide ((d.test h).flag ≠ 0) = true) :
    (Call.wait h st0).answer env0 d.s = .ok ((d.wait h).s, .ofDone [(d.test h).request] [(d.test h).status]) := by
  rw [decide_eq_true_iff] at hf
  have he : MPI_Test d.s h st0 = .ok (d.test h) := by unfold Demo.test; exact Res.eq_getD _ hx
  simp only [Call.answer, MPI_Wait, he, Res.ok_bind, if_neg hf]
  rfl

theorem Demo.init_ans {d : Demo} (hx : (MPI_Init d.s).returned = true) :
    Call.init.answer env0 d.s = .ok (d.init.s, ⟨[], []⟩) := by
  have he : MPI_Init d.s = .ok d.init.s := Res.eq_getD d.s hx
  simp only [Call.answer, Call.exec, he, Res.ok_bind]

theorem Demo.irecv_ans {d : Demo} {buf count dtype src tag comm : Int} {c : Nat}
    (hx : (MPI_Irecv env0 d.s buf count dtype src tag comm).returned = true) :
    (Call.irecv buf count dtype src tag comm).answer env0 d.s =
      .ok ((d.irecv buf count dtype src tag comm c).s, ⟨[(d.irecv buf count dtype src tag comm c).h], []⟩) := by
  simp only [Call.answer, Demo.irecv_eq c hx, Res.ok_bind]

theorem Demo.isend_ans {d : Demo} {buf count dtype tag comm : Int} {c : Nat}
    (hx : (MPI_Isend env0 d.s buf count dtype 0 tag comm).returned = true) :
    (Call.isend buf count dtype 0 tag comm).answer env0 d.s =
      .ok ((d.isend buf count dtype tag comm c).s, ⟨[(d.isend buf count dtype tag comm c).h], []⟩) := by
  simp only [Call.answer, Demo.isend_eq c hx, Res.ok_bind]

theorem Demo.irecvNull_ans {d : Demo} {buf count dtype tag comm : Int}
    (hx : (MPI_Irecv env0 d.s buf count dtype MPI_PROC_NULL tag comm).returned = true) :
    (Call.irecv buf count dtype MPI_PROC_NULL tag comm).answer env0 d.s =
      .ok ((d.irecvNull buf count dtype tag comm).s, ⟨[(d.irecvNull buf count dtype tag comm).h], []⟩) := by
  have he : MPI_Irecv env0 d.s buf count dtype MPI_PROC_NULL tag comm =
      .ok ((d.irecvNull buf count dtype tag comm).s, (d.irecvNull buf count dtype tag comm).h) := Res.eq_getD (d.s, 0) hx
  simp only [Call.answer, he, Res.ok_bind]

def T1 : Demo := (Demo.start mem0).init
def T2 : Demo := T1.irecv 200 3 (-1) 0 5 1 0
def T3 : Demo := T2.isend 100 3 (-1) 5 1 0
def T4 : Demo := T3.wait 2
def T5 : Demo := T4.irecvNull 300 1 (-1) 7 1

theorem T1_ok : T1.Ok := Demo.init_ok (Demo.start_ok _) (by decide) (by decide +kernel)
theorem T2_ok : T2.Ok := Demo.irecv_ok T1_ok (by decide +kernel) (by decide +kernel)
theorem T3_ok : T3.Ok := Demo.isend_ok T2_ok (by decide +kernel) (by decide +kernel)
theorem T4_ok : T4.Ok := Demo.wait_ok 0 T3_ok (by decide +kernel) (by decide +kernel)
theorem T5_ok : T5.Ok := Demo.irecvNull_ok T4_ok 0 (by decide +kernel) (by decide +kernel)

theorem IsComm.of_decide {L : Ledger} {h : Int} (c : Nat) (hm : decide ((h, Obj.comm c) ∈ L.objs) = true) : IsComm L h :=
  ⟨c, of_decide_eq_true hm⟩

theorem Demo.init_reach {env : Env} {d : Demo} (hr : Reach env d.s d.L) (h : d.L.ncomms < 2147483647)
    (h' : d.L.ncomms - d.L.nfreed < 1073741823) (hx : (MPI_Init d.s).returned = true) : Reach env d.init.s d.init.L :=
  hr.step (.init h h' (Res.eq_getD _ hx))

/-- The hypotheses of C56_call, for a call that takes fresh storage. -/
example (j : Nat → ReqRec) : Reach env0 T1.s T1.L ∧ Reach (env0.withJunk j) T1.s T1.L ∧ Agree T1.s T1.s ∧ Room T1.L ∧
    (Call.irecv 200 3 (-1) 0 5 1).Wf env0 T1.L ∧ ((Call.irecv 200 3 (-1) 0 5 1).answer env0 T1.s).returned = true :=
  ⟨T1_ok, Demo.init_reach (d := .start mem0) .start (by decide) (by decide) (by decide +kernel), .refl _, by decide +kernel,
    ⟨.simple (by decide) (by decide), .inl (.of_decide 0 (by decide +kernel))⟩, by decide +kernel⟩

/-- Its first six calls are well formed. -/
theorem twoWaits_wf : twoWaits.Wf env0 6 [] (Sys.start mem0) := by
  have e1 : Call.init.answer env0 (Sys.start mem0) = .ok (T1.s, ⟨[], []⟩) :=
    Demo.init_ans (d := .start mem0) (by decide +kernel)
  have e2 : (Call.irecv 200 3 (-1) 0 5 1).answer env0 T1.s = .ok (T2.s, ⟨[T2.h], []⟩) :=
    Demo.irecv_ans (d := T1) (by decide +kernel)
  have e3 : (Call.isend 100 3 (-1) 0 5 1).answer env0 T2.s = .ok (T3.s, ⟨[T3.h], []⟩) :=
    Demo.isend_ans (d := T2) (by decide +kernel)
  have e5 : (Call.irecv 300 1 (-1) MPI_PROC_NULL 7 1).answer env0 T4.s = .ok (T5.s, ⟨[T5.h], []⟩) :=
    Demo.irecvNull_ans (d := T4) (by decide +kernel)
  have h2 : T2.h = 2 := by decide +kernel
  have h5 : T5.h = 2 := by decide +kernel
  have hc : P2PArgs env0 T1.L (-1) 0 1 := ⟨.simple (by decide) (by decide), .inl (.of_decide 0 (by decide +kernel))⟩
  have hc' : P2PArgs env0 T2.L (-1) 0 1 := ⟨.simple (by decide) (by decide), .inl (.of_decide 0 (by decide +kernel))⟩
  have hc'' : P2PArgs env0 T4.L (-1) MPI_PROC_NULL 1 :=
    ⟨.simple (by decide) (by decide), .inl (.of_decide 0 (by decide +kernel))⟩
  refine Prog.wf_step rfl .start (fun _ h => nomatch h) trivial e1 ?_
  refine Prog.wf_step rfl T1_ok (fun _ h => nomatch h) hc e2 ?_
  refine Prog.wf_step rfl T2_ok (fun _ h => nomatch h) hc' e3 ?_
  refine Prog.wf_step (L := T3.L) (s' := T4.s) (c := .wait 2 st0) (by show some (Call.wait T2.h st0) = _; rw [h2]) T3_ok
    (fun _ h => nomatch h) (Or.inr ⟨0, of_decide_eq_true (by decide +kernel)⟩)
    (Demo.wait_eq (by decide +kernel) (by decide +kernel)) ?_
  refine Prog.wf_step rfl T4_ok (fun _ h => nomatch h) hc'' e5 ?_
  refine Prog.wf_step (L := T5.L) (s' := (T5.wait 2).s) (c := .wait 2 st0) (by show some (Call.wait T5.h st0) = _; rw [h5]) T5_ok
    (fun _ h => nomatch h) (Or.inr ⟨2, of_decide_eq_true (by decide +kernel)⟩)
    (Demo.wait_eq (by decide +kernel) (by decide +kernel)) ?_
  trivial

/-- It is alive after them and has seen these results and statuses (newest first): the second request is the
handle of the first again. -/
example : (twoWaits.run env0 6 [] (Sys.start mem0)).2 = none ∧
    (twoWaits.run env0 6 [] (Sys.start mem0)).1.map (fun o => (o.vals, o.stats)) =
      [([0, 0, 0], [.obj ⟨-2, -1, 0, 0⟩]), ([2], []), ([0, 0, 0], [.obj ⟨0, 5, 0, 0⟩]), ([3], []), ([2], []), ([], [])] := by
  decide +kernel

example (j : Nat → ReqRec) : twoWaits.run env0 6 [] (Sys.start mem0) = twoWaits.run (env0.withJunk j) 6 [] (Sys.start mem0) :=
  C56_program (by decide) twoWaits_wf

/-! ## What does depend on the leftovers -/

/-- The results of calls made one after the other. -/
def outs (env : Env) : List Call → Sys → List Out
  | [], _ => []
  | c :: cs, s =>
    match c.answer env s with
    | .ok (s', o) => o :: outs env cs s'
    | _ => []

/-- The source and tag in the status of a completed send are whatever the storage of the request held
(send.c:60-64 and send.c:75 write neither): here 77 and 88. -/
theorem C56_send_status (b : Bool) :
    outs (env0.withJunk fun _ => if b then ⟨none, 0, 77, 88, 0, 0, 0⟩ else ⟨none, 0, 0, 0, 0, 0, 0⟩)
      [.init, .isend 100 3 (-1) MPI_PROC_NULL 5 1, .wait 2 st0] (Sys.start mem0) =
    [⟨[], []⟩, ⟨[2], []⟩, ⟨[0, 0, 0], [.obj (if b then ⟨77, 88, 0, 0⟩ else ⟨0, 0, 0, 0⟩)]⟩] := by
  cases b <;> decide +kernel

end MpiSerial
