import Verif.Proofs.Sessions
import Verif.Proofs.ComposeRun
import Verif.Props.Machine

/-!
# C72: MPI_Finalize leaves no trace
-/

set_option linter.unusedSimpArgs false
set_option autoImplicit false

namespace MpiSerial

/-- C72: whatever has happened before (`Sim`: any history of well-formed calls, with any communicators, datatypes, requests and
messages left over), MPI_Finalize returns, and the library then is as on its first day: every call of the next program gives the same
results, the same handles, the same memory and ends in the same way as on a machine that has just been started with the same
memory. -/
theorem C72_machine {env : Env} {s : Sys} {M : Mach} (h : Sim env s M) (hg : ∀ k, env.garbage (k + M.built) = env.garbage k) (p : Prog) (n : Nat) :
    (∃ s', Call.finalize.answer env s = .ok (s', ⟨[], []⟩) ∧ s'.mem = s.mem ∧ Sim env s' M.finalize) ∧
    p.runMach env n [] M.finalize = p.runMach env n [] (.start M.mem) := by
  constructor
  · have hf := finalize_sim h
    exact ⟨_, rfl, rfl, hf.sim⟩
  · rw [Mach.finalize_onto M]
    exact onto_run (B := M.finalize) h.past hg n [] _

/-- C72: the same between two runs of the library.  `k` bounds the communicators made and messages left unmatched before, for the
`int` counters. -/
theorem C72_library {env : Env} {s : Sys} {M : Mach} (h : Sim env s M) (hg : ∀ k, env.garbage (k + M.built) = env.garbage k) {p : Prog} {n k : Nat}
    (h1 : M.L.ncomms ≤ k) (h2 : M.L.unmatched ≤ 2 * k) (h3 : k + n ≤ 1073741823) (hwf : p.MachWf env n [] (.start s.mem)) :
    p.run env n [] (MPI_Finalize s) = p.run env n [] (Sys.start s.mem) := by
  have hf : Sim env (MPI_Finalize s) M.finalize := (finalize_sim h).sim
  rw [h.mem] at hwf ⊢
  rw [C62_program (by omega) hwf, ← (C72_machine h hg p n).2]
  refine run_sim n k [] _ _ hf (fun _ _ _ hm => nomatch hm) h1 h2 h3 ?_
  rw [Mach.finalize_onto M]
  exact onto_machWf (B := M.finalize) h.past hg n [] _ hwf

/-! ## A session that leaves things behind -/

/-- One step of a session, on machine and library. -/
theorem Sim.goes {env : Env} {s : Sys} {M M' : Mach} {c : Call} {o : Out} (h : Sim env s M) (hr : Room M.L) (hw : c.Wf env M.L)
    (ha : M.answer env c = .ok (M', o)) : ∃ s' o', c.answer env s = .ok (s', o') ∧ Sim env s' M' := by
  obtain ⟨⟨s', o'⟩, h1, h2⟩ := Res.Rel.ok_right (Call.sim h hr c hw) ha
  exact ⟨s', o', h1, h2.sim⟩

/-- MPI_Init, a message that nobody receives, a communicator and a datatype that nobody frees. -/
def Left1 : Mach := ((Mach.start mem0).next .init).1
def Left2 : Mach := (Left1.next (.isend 100 3 (-1) 0 5 1)).1
def Left3 : Mach := (Left2.next (.commDup 1)).1
def Left4 : Mach := (Left3.next (.typeContiguous 2 (-1))).1

theorem Mach.next_ok {M : Mach} {c : Call} (h : (M.answer env0 c).fate = none) : M.answer env0 c = .ok ((M.next c).1, (M.next c).2) := by
  unfold Mach.next
  cases ha : M.answer env0 c with
  | ok x => rfl
  | _ => rw [ha] at h; cases h

/-- The first datatype is built in storage that reads as zero, later ones in storage that does not. -/
def envOld : Env := { env0 with garbage := fun k => if k = 0 then ⟨0, 0, fun _ => ⟨0, 0⟩⟩ else ⟨1, 0, fun _ => ⟨0, 0⟩⟩ }

theorem Mach.next_ok' {env : Env} {M : Mach} {c : Call} (he : M.answer env c = M.answer env0 c) (h : (M.answer env0 c).fate = none) :
    M.answer env c = .ok ((M.next c).1, (M.next c).2) :=
  he.trans (Mach.next_ok h)

theorem Left4_sim {env : Env} (he : env = env0 ∨ env = envOld) : ∃ s, Sim env s Left4 := by
  obtain ⟨s1, _, _, h1⟩ := Sim.goes (.start env mem0) (show Room Ledger.start by decide) (c := .init) trivial
    (Mach.next_ok' (M := .start mem0) (c := .init) rfl (by decide +kernel))
  obtain ⟨s2, _, _, h2⟩ := Sim.goes (M := Left1) h1 (by decide +kernel) (c := .isend 100 3 (-1) 0 5 1)
    ⟨.simple (by decide) (by decide), .inl (.of_decide 0 (by decide +kernel))⟩ (Mach.next_ok' (by rcases he with rfl | rfl <;> rfl) (by decide +kernel))
  obtain ⟨s3, _, _, h3⟩ := Sim.goes (M := Left2) h2 (by decide +kernel) (c := .commDup 1) trivial (Mach.next_ok' rfl (by decide +kernel))
  obtain ⟨s4, _, _, h4⟩ := Sim.goes (M := Left3) h3 (by decide +kernel) (c := .typeContiguous 2 (-1)) ⟨by decide, .simple (by decide) (by decide)⟩
    (Mach.next_ok' (by rcases he with rfl | rfl <;> rfl) (by decide +kernel))
  exact ⟨s4, h4⟩

theorem Left4_mem : Left4.mem = mem0 := rfl

/-- The theorems apply after it, for instance to the program `twoWaits` of C62, which starts with MPI_Init. -/
example : ∃ s, Sim env0 s Left4 ∧ twoWaits.run env0 6 [] (MPI_Finalize s) = twoWaits.run env0 6 [] (Sys.start mem0) := by
  obtain ⟨s, h⟩ := Left4_sim (.inl rfl)
  have hm : s.mem = mem0 := h.mem.trans Left4_mem
  have := C72_library h (fun _ => rfl) (p := twoWaits) (n := 6) (k := 2) (by decide +kernel) (by decide +kernel) (by decide) (hm ▸ twoWaits_machWf)
  rw [hm] at this
  exact ⟨s, h, this⟩

/-- Before MPI_Finalize a probe finds the message; in the next session it does not, and the handles start from 1 again. -/
def looks : Prog
  | [] => some .init
  | [_] => some (.iprobe 0 5 1 st0)
  | [_, _] => some (.commDup 1)
  | _ => none

example : (Left4.next (.iprobe 0 5 1 st0)).2.vals.head? = some 1 ∧
    (looks.runMach env0 3 [] Left4.finalize).1.map (fun o => o.vals.head?) = [some 2, some 0, none] ∧
    Left4.finalize.L.unmatched = 1 ∧ Left4.finalize.L.ncomms = 2 := by
  decide +kernel

/-! ## Uninitialised storage -/

/-- A structure of an int and a char, and its extent. -/
def measures : Prog
  | [] => some .init
  | [_] => some (.typeStruct 2 [1, 1] [0, 4] [-3, -1])
  | [r, _] => some (.typeExtent (r.vals.headD 0))
  | _ => none

/-- The condition on the storage is needed: the constructors leave parts of the descriptor as malloc left them (C25_fails_uninitialised),
so a datatype of the second session can differ from the same one of the first: extent 5 instead of 8. -/
theorem C72_storage : (∃ s, Sim envOld s Left4) ∧ (measures.runMach envOld 3 [] Left4.finalize).1.map Obs.vals = [[5], [2], []] ∧
    (measures.runMach envOld 3 [] (.start Left4.mem)).1.map Obs.vals = [[8], [2], []] :=
  ⟨Left4_sim (.inr rfl), by decide +kernel, by decide +kernel⟩

end MpiSerial
