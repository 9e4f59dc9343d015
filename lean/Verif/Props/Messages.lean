import Verif.Proofs.MessagesLib

/-!
# C71: collectives may be done as messages on a private communicator
-/

set_option linter.unusedSimpArgs false
set_option autoImplicit false

namespace MpiSerial

section
variable {env : Env} {m : Mem} {p : Prog}

/-- C71: a layer between the program and the machine calls MPI_Comm_dup after MPI_Init, keeps the new communicator to itself, and
does some of the collectives of the program (those `pick` tells it to, with the tags `pick` gives) as MPI_Sendrecv on that
communicator.  Unless the process runs out of handle numbers, the program sees exactly what it sees without the layer, in every
call, and is stopped in the same call and in the same way if it is stopped. -/
theorem C71_machine (hst : env.Steady) (hc : p.whole.Correct env m) (pick : List Obs → Option Int) (n : Nat) :
    ∃ M x, (Mach.session m).answer env (.commDup MPI_COMM_WORLD) = .ok (M, ⟨[x], []⟩) ∧
      ((p.runVia env pick x n [] .start M).2 = some (.abort exhausted) ∨
        p.runVia env pick x n [] .start M = p.runNamed env .lifo n 0 [] .start (.session m)) := by
  refine ⟨_, _, session_dup env m, ?_⟩
  have h := Via.run pick hst hc n 0 [] .start _ (Via.start hc)
  rw [Nat.zero_add] at h
  exact h

/-- C71: it does not run out of handle numbers in its first 262140 calls. -/
theorem C71_bounded (hst : env.Steady) (hc : p.whole.Correct env m) (pick : List Obs → Option Int) {n : Nat} (hn : n ≤ 262140) :
    ∃ M x, (Mach.session m).answer env (.commDup MPI_COMM_WORLD) = .ok (M, ⟨[x], []⟩) ∧
      p.runVia env pick x n [] .start M = p.runNamed env .lifo n 0 [] .start (.session m) := by
  refine ⟨_, _, session_dup env m, ?_⟩
  have h := Via.run pick hst hc n 0 [] .start _ (Via.start hc)
  rw [Nat.zero_add] at h
  refine h.resolve_left (Via.capacity pick hst hc n 0 [] .start _ (Via.start hc) ?_)
  show 2 + n ≤ 262142
  omega

/-- C71: the same on the library: MPI_Init returns, MPI_Comm_dup returns a handle, and for 262140 calls the program cannot tell
whether the layer is there. -/
theorem C71_library (hst : env.Steady) (hc : p.whole.Correct env m) (pick : List Obs → Option Int) {n : Nat} (hn : n ≤ 262140) :
    ∃ s o s' x, Call.init.answer env (Sys.start m) = .ok (s, o) ∧ (Call.commDup MPI_COMM_WORLD).answer env s = .ok (s', ⟨[x], []⟩) ∧
      p.runViaLib env pick x n [] .start s' = p.runNamedLib env n [] .start s := by
  have key : ∀ (c : Call) (s : Sys) (M M' : Mach) (o : Out), Sim env s M → Room M.L → c.Wf env M.L → M.answer env c = .ok (M', o) →
      c.requests = [] → ∃ s', c.answer env s = .ok (s', o) ∧ Sim env s' M' := fun c s M M' o hs hr hw hm hq => by
    obtain ⟨⟨s', o'⟩, h1, h2⟩ := Res.Rel.ok_right (Call.sim hs hr c hw) hm
    have e1 : o'.vals = o.vals := h2.vals
    have e2 : o'.done = o.done := h2.done fun r hr => by rw [hq] at hr; cases hr
    refine ⟨s', ?_, h2.sim⟩
    rw [h1]
    cases o; cases o'
    dsimp only at e1 e2
    rw [e1, e2]
  have hm : (Mach.start m).answer env .init = .ok (.session m, ⟨[], []⟩) := by
    show Mach.quiet (Mach.start m).init = _
    rw [session_init]
    rfl
  have hrm : Room (Mach.start m).L := show Room Ledger.start by decide
  obtain ⟨s, h1, h2⟩ := key .init _ _ _ _ (Sim.start env m) hrm trivial hm rfl
  have hrm2 : Room (Mach.session m).L := ⟨by show 1 < 2147483647; decide, by show 1 - 0 < 1073741823; decide, by show 0 + 1 < 2147483647; decide⟩
  obtain ⟨s', h3, h4⟩ := key (.commDup 1) _ _ _ _ h2 hrm2 trivial (session_dup env m) rfl
  refine ⟨s, _, s', 2, h1, h3, ?_⟩
  have hb := C71_bounded hst hc pick hn
  obtain ⟨M, x, hM, hb⟩ := hb
  rw [session_dup] at hM
  cases hM
  rw [via_sim pick hst hc n 2 0 [] .start s' _ (Via.start hc) h4 (fun _ _ hm => (List.not_mem_nil hm).elim) (Nat.le_refl _) (Nat.zero_le _) (by omega), hb]
  obtain ⟨ps, hF⟩ := session_full m
  exact (named_sim n 1 0 [] .start s _ ps [] h2 hF ⟨rfl, rfl, rfl, .nil, .nil, .nil, (fun _ h => (List.not_mem_nil h).elim), Int.le_refl _,
      fun _ h => (List.not_mem_nil h).elim⟩ (fun _ _ hm => (List.not_mem_nil hm).elim) (Nat.le_refl _) (Nat.zero_le _) (by omega) (hc n).1).symm

end

/-! ## A program the theorems apply to -/

/-- A program that waits for any message on MPI_COMM_WORLD while it calls MPI_Allreduce (2 bytes, MPI_SUM), and then sends the
message. -/
def reducing : Prog
  | [] => some (.irecv 200 3 (-1) MPI_ANY_SOURCE MPI_ANY_TAG 1)
  | [_] => some (.allreduce 100 400 2 (-1) 3 1)
  | [_, _] => some (.isend 100 3 (-1) 0 5 1)
  | [_, _, r] => some (.wait (r.vals.headD 0) st0)
  | _ => none

namespace Stage
def c0 : Stage := ⟨.start, .session memT, []⟩
def c1 : Stage := c0.go (.irecv 200 3 (-1) MPI_ANY_SOURCE MPI_ANY_TAG 1)
def c2 : Stage := c1.go (.allreduce 100 400 2 (-1) 3 1)
def c3 : Stage := c2.go (.isend 100 3 (-1) 0 5 1)
end Stage

theorem reducing_ends : reducing.whole.Ends env0 4 [] .start (.session memT) := by
  have n3 : Stage.c3.ν.number 2 = 2 := by decide +kernel
  refine Layer.Ends.step (M := Stage.c0.M) (ν := Stage.c0.ν) _ (Stage.c0.M, ⟨[], []⟩) rfl (known_const (by decide) (known_const (by decide) known_nil))
    (by show Stage.c0.M.L.inited = true; decide +kernel) ⟨.simple (by decide) (by decide), .inl (.of_decide 0 (by decide +kernel))⟩ (fun _ => rfl) (by decide +kernel) ?_
  refine Layer.Ends.step (M := Stage.c1.M) (ν := Stage.c1.ν) _ (Stage.c1.M, ⟨[], []⟩) rfl (known_const (by decide) (known_const (by decide) known_nil))
    (by show Stage.c1.M.L.inited = true; decide +kernel) (.simple (by decide) (by decide)) (fun _ => rfl) (by decide +kernel) ?_
  refine Layer.Ends.step (M := Stage.c2.M) (ν := Stage.c2.ν) _ (Stage.c2.M, ⟨[], []⟩) rfl (known_const (by decide) (known_const (by decide) known_nil))
    (by show Stage.c2.M.L.inited = true; decide +kernel) ⟨.simple (by decide) (by decide), .inl (.of_decide 0 (by decide +kernel))⟩ (fun _ => rfl) (by decide +kernel) ?_
  refine Layer.Ends.step (M := Stage.c3.M) (ν := Stage.c3.ν) (.wait 2 st0) (Stage.c3.M, ⟨[], []⟩) ?_
    (known_name 2 (of_decide_eq_true (by decide +kernel)) known_nil) (by show Stage.c3.M.L.inited = true; decide +kernel) ?_ (fun h => nomatch h) (by decide +kernel) ?_
  · show some (Call.wait _ st0) = _
    exact congrArg (fun h => some (Call.wait h st0)) (by decide +kernel)
  · show Stage.c3.ν.number 2 = 0 ∨ _
    rw [n3]
    exact Or.inr ⟨0, of_decide_eq_true (by decide +kernel)⟩
  rfl

theorem reducing_correct : reducing.whole.Correct env0 memT := reducing_ends.correct

/-- The theorems apply to it, whatever the layer does. -/
example (pick : List Obs → Option Int) := C71_machine (fun _ => rfl) reducing_correct pick

example (pick : List Obs → Option Int) := C71_library (fun _ => rfl) reducing_correct pick (n := 4) (by decide)

/-- With the layer, the four calls return, the posted receive gets the message the program sent (7 at 200) and the result of
MPI_Allreduce is at 400 (most recent call first). -/
example : (reducing.runVia env0 (fun _ => some 5) 2 4 [] .start (.withComm memT)).2 = none ∧
    (reducing.runVia env0 (fun _ => some 5) 2 4 [] .start (.withComm memT)).1.map (fun o => (o.vals, o.mem 200, o.mem 400)) =
      [([0, 0, 0], some 7, some 7), ([3], some 7, some 7), ([], some 0, some 7), ([2], some 0, some 0)] := by
  decide +kernel

/-- The MPI_Allreduce is really done as a message. -/
example : (Call.allreduce 100 400 2 (-1) 3 1).via (fun _ => some 1) 2 (some 5) = .sendrecv 100 2 (-1) 0 5 400 2 (-1) 0 5 2 .null := rfl

/-- The communicator has to be private: on MPI_COMM_WORLD the message for MPI_Allreduce goes to the receive the program
posted (200 is filled already, 400 is not), and MPI_Sendrecv stops the program. -/
theorem C71_needs_private : (reducing.runVia env0 (fun _ => some 5) MPI_COMM_WORLD 4 [] .start (.withComm memT)).2 ≠ none ∧
    ∀ n, (reducing.whole.alone env0 memT n).2 = none :=
  ⟨by decide +kernel, fun n => (reducing_ends.opaque (k := 0) n).2.1⟩

end MpiSerial
