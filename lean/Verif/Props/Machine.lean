import Verif.Proofs.MachineStep
import Verif.Props.Twin

/-!
# C62: the library behaves as a simple reference machine

Handle table, linked lists, request records and the heap of descriptors (handles.c, list.c, comm.c, send.c,
recv.c, req.c, type.c) are an implementation of `Mach` (`Spec/Machine.lean`).
-/

set_option autoImplicit false

namespace MpiSerial

open Res (Rel)

theorem Sim.start (env : Env) (m : Mem) : Sim env (Sys.start m) (.start m) :=
  ⟨.start, .start, Or.inl ⟨rfl, rfl⟩, rfl, rfl⟩

/-- C62: a well-formed call ends as it does on the machine; if it returns, so does the machine, with the same results
and the same memory, and for receives with the same statuses; and the next call can be treated in the same way. -/
theorem C62_call {env : Env} {s : Sys} {M : Mach} (h : Sim env s M) (hr : Room M.L) {c : Call} (hc : c.Wf env M.L) :
    (c.answer env s).fate = (M.answer env c).fate ∧
    ∀ s' o, c.answer env s = .ok (s', o) → ∃ M' o', M.answer env c = .ok (M', o') ∧ o.vals = o'.vals ∧ s'.mem = M'.mem ∧
      (c.onlyReceives M.L → o.done = o'.done) ∧ Steps env s M.L s' M'.L ∧ Sim env s' M' := by
  have h := Call.sim h hr c hc
  refine ⟨h.fate, fun s' o hok => ?_⟩
  obtain ⟨⟨M', o'⟩, h1, h2⟩ := h.ok_left hok
  exact ⟨M', o', h1, h2.vals, h2.sim.mem, h2.done, h2.steps, h2.sim⟩

theorem run_sim {env : Env} {p : Prog} : ∀ (n k : Nat) (seen : List Obs) (s : Sys) (M : Mach),
    Sim env s M → Knows seen M.L → M.L.ncomms ≤ k → M.L.unmatched ≤ 2 * k → k + n ≤ 1073741823 →
    p.MachWf env n seen M → p.run env n seen s = p.runMach env n seen M := by
  intro n
  induction n with
  | zero => intros; rfl
  | succ n ih =>
    intro k seen s M hs hk h1 h2 h3 hwf
    unfold Prog.run Prog.runMach
    cases hc : p seen with
    | none => rfl
    | some c =>
      obtain ⟨h4, h5⟩ := hwf c hc
      have hrm : Room M.L := ⟨by omega, by omega, by omega⟩
      have ht := Call.sim hs hrm c h4
      dsimp only
      cases hx : c.answer env s with
      | ok z =>
        obtain ⟨s', o⟩ := z
        obtain ⟨⟨M', o'⟩, h6, ha⟩ := ht.ok_left hx
        have hob : observe seen c s' o = ⟨c, o'.vals, if knownReceives seen c then o'.done else [], M'.mem⟩ := by
          unfold observe
          rw [ha.vals, ha.sim.mem]
          congr 1
          split
          · next hkn =>
            refine ha.done fun r hr i o hm ho => ?_
            unfold knownReceives at hkn
            rw [List.all_eq_true] at hkn
            have h8 := hkn r hr
            have h9 := hk r i o hm ho
            obtain ⟨A, lst, hi⟩ := hs.reach.inv
            have hpos := hi.hst.pos (mem_keys hm)
            simp only [Bool.or_eq_true, beq_iff_eq] at h8
            rcases h8 with h8 | h8
            · rw [h8] at hpos; exact absurd hpos (by decide)
            · rw [h9] at h8; exact Option.some.inj h8
          · rfl
        rw [h6]
        dsimp only
        rw [hob]
        refine ih (k + 1) _ s' M' ha.sim ?_ (by have := ha.room.1; dsimp only at this; omega)
          (by have := ha.room.2; dsimp only at this; omega) (by omega) (h5 _ _ h6)
        intro h i op hm ho
        rw [lastPost_cons]
        have hn := ha.news h i op hm ho
        have hold : (h, Obj.req i) ∈ M.L.objs → lastPost seen h = some op.kind := fun hm' => by
          obtain ⟨A, lst, hi⟩ := hs.reach.inv
          obtain ⟨o0, _, ho0, _⟩ := hi.req _ _ hm'
          obtain ⟨o1, ho1, he⟩ := Steps.kinds ha.steps i o0 ho0
          rw [ho] at ho1
          cases ho1
          rw [hk h i o0 hm' ho0, he]
        dsimp only
        rw [ha.vals] at hn
        cases hps : c.posts with
        | none =>
          rw [hps] at hn
          rw [ite_self, Option.none_or]
          exact hold hn
        | some k =>
          rw [hps] at hn
          rcases hn with ⟨hv, hkk⟩ | ⟨hv, hm'⟩
          · rw [if_pos hv, ← hkk]; rfl
          · rw [if_neg hv, Option.none_or]
            exact hold hm'
      | abort m => rw [hx] at ht; have := ht.fate; cases hy : M.answer env c <;> rw [hy] at this <;> simp_all [Res.fate]
      | exit m => rw [hx] at ht; have := ht.fate; cases hy : M.answer env c <;> rw [hy] at this <;> simp_all [Res.fate]
      | ub m => rw [hx] at ht; have := ht.fate; cases hy : M.answer env c <;> rw [hy] at this <;> simp_all [Res.fate]
      | hang => rw [hx] at ht; have := ht.fate; cases hy : M.answer env c <;> rw [hy] at this <;> simp_all [Res.fate]

/-- C62: a program (whatever it computes from what it has seen) sees the same on the library as on the machine and
ends in the same way.  Its calls are well formed by the machine's account and there are fewer than 2^30 of them. -/
theorem C62_program {env : Env} {p : Prog} {m : Mem} {n : Nat} (hn : n ≤ 1073741823) (h : p.MachWf env n [] (.start m)) :
    p.run env n [] (Sys.start m) = p.runMach env n [] (.start m) :=
  run_sim n 0 [] _ _ (.start env m) (fun _ _ _ hm => nomatch hm) (Nat.le_refl _) (Nat.le_refl _) (by omega) h

/-! ## A program the theorem applies to -/

theorem Prog.machWf_step {env : Env} {p : Prog} {n : Nat} {seen : List Obs} {M : Mach} (c : Call) (d : Mach × Out)
    (hp : p seen = some c) (hc : c.Wf env M.L)
    (hn : p.MachWf env n (⟨c, ((M.answer env c).getD d).2.vals, if knownReceives seen c then ((M.answer env c).getD d).2.done else [],
      ((M.answer env c).getD d).1.mem⟩ :: seen) ((M.answer env c).getD d).1) : p.MachWf env (n + 1) seen M := by
  intro c' hp'
  rw [hp] at hp'
  cases hp'
  refine ⟨hc, fun M' o ha => ?_⟩
  rw [ha] at hn
  exact hn

/-- The machine after a call. -/
def Mach.next (M : Mach) (c : Call) : Mach × Out := (M.answer env0 c).getD (M, ⟨[], []⟩)

def U1 : Mach := ((Mach.start mem0).next .init).1
def U2 : Mach := (U1.next (.irecv 200 3 (-1) 0 5 1)).1
def U3 : Mach := (U2.next (.isend 100 3 (-1) 0 5 1)).1
def U4 : Mach := (U3.next (.wait 2 st0)).1
def U5 : Mach := (U4.next (.irecv 300 1 (-1) MPI_PROC_NULL 7 1)).1

/-- The six calls of `twoWaits` are well formed by the machine's account. -/
theorem twoWaits_machWf : twoWaits.MachWf env0 6 [] (.start mem0) := by
  have hc : P2PArgs env0 U1.L (-1) 0 1 := ⟨.simple (by decide) (by decide), .inl (.of_decide 0 (by decide +kernel))⟩
  have hc' : P2PArgs env0 U2.L (-1) 0 1 := ⟨.simple (by decide) (by decide), .inl (.of_decide 0 (by decide +kernel))⟩
  have hc'' : P2PArgs env0 U4.L (-1) MPI_PROC_NULL 1 :=
    ⟨.simple (by decide) (by decide), .inl (.of_decide 0 (by decide +kernel))⟩
  have h2 : (U1.next (.irecv 200 3 (-1) 0 5 1)).2.vals.headD 0 = 2 := by decide +kernel
  have h5 : (U4.next (.irecv 300 1 (-1) MPI_PROC_NULL 7 1)).2.vals.headD 0 = 2 := by decide +kernel
  refine Prog.machWf_step .init (.start mem0, ⟨[], []⟩) rfl trivial ?_
  refine Prog.machWf_step (M := U1) _ (U1, ⟨[], []⟩) rfl hc ?_
  refine Prog.machWf_step (M := U2) _ (U2, ⟨[], []⟩) rfl hc' ?_
  refine Prog.machWf_step (M := U3) (.wait 2 st0) (U3, ⟨[], []⟩) (by show some (Call.wait _ st0) = _; exact congrArg (fun h => some (Call.wait h st0)) h2)
    (Or.inr ⟨0, of_decide_eq_true (by decide +kernel)⟩) ?_
  refine Prog.machWf_step (M := U4) _ (U4, ⟨[], []⟩) rfl hc'' ?_
  refine Prog.machWf_step (M := U5) (.wait 2 st0) (U5, ⟨[], []⟩) (by show some (Call.wait _ st0) = _; exact congrArg (fun h => some (Call.wait h st0)) h5)
    (Or.inr ⟨2, of_decide_eq_true (by decide +kernel)⟩) ?_
  trivial

example : twoWaits.run env0 6 [] (Sys.start mem0) = twoWaits.runMach env0 6 [] (.start mem0) :=
  C62_program (by decide) twoWaits_machWf

/-- What it sees, computed on the machine: the second request gets the number of the first again. -/
example : (twoWaits.runMach env0 6 [] (.start mem0)).2 = none ∧
    (twoWaits.runMach env0 6 [] (.start mem0)).1.map (fun o => (o.vals, o.stats)) =
      [([0, 0, 0], [.obj ⟨-2, -1, 0, 0⟩]), ([2], []), ([0, 0, 0], [.obj ⟨0, 5, 0, 0⟩]), ([3], []), ([2], []), ([], [])] := by
  decide +kernel

/-- The hypotheses of C62_call. -/
example : Sim env0 (Sys.start mem0) (.start mem0) ∧ Room (Mach.start mem0).L ∧ Call.init.Wf env0 (Mach.start mem0).L ∧
    (Call.init.answer env0 (Sys.start mem0)).returned = true :=
  ⟨.start _ _, by decide +kernel, trivial, by decide +kernel⟩

end MpiSerial
