import Verif.Proofs.MoveCalls
import Verif.Props.Twin

/-!
# C84: where the data lie does not show

The library adds offsets to the addresses it is given (copy.c:85, pack.c:54, pack.c:143, collective.c:129), keeps them in
queued requests (send.c:84, recv.c:96) and compares them with MPI_IN_PLACE; nothing else.
-/

set_option autoImplicit false

namespace MpiSerial

/-- C84: calling with all data `δ` further on is calling and then moving all data.  It holds for any state, also
one that cannot arise, and any call: it dies in the same way, or hands back the same numbers and statuses and leaves
the library in the same state up to the addresses of the buffers of its requests. -/
theorem C84_call (δ : Int) (env : Env) {s : Sys} (hs : s.mem.Fits δ) (c : Call) (hc : c.Moves δ) :
    (c.moved δ).answer (env.moved δ) (s.moved δ) = c.answer env s >>= fun x => .ok (x.1.moved δ, x.2) :=
  (answer_movesTo env hs c hc).eq

theorem Call.moved_posts (δ : Int) (c : Call) : (c.moved δ).posts = c.posts := by cases c <;> rfl
theorem Call.moved_requests (δ : Int) (c : Call) : (c.moved δ).requests = c.requests := by cases c <;> rfl

theorem lastPost_moved (δ : Int) (l : List Obs) (r : Int) : lastPost (l.map (Obs.moved δ)) r = lastPost l r := by
  induction l with
  | nil => rfl
  | cons o l ih =>
    unfold lastPost at ih ⊢
    rw [List.map_cons, List.findSome?_cons, List.findSome?_cons, ih]
    rw [show (Obs.moved δ o).call.posts = o.call.posts from Call.moved_posts δ o.call]
    rfl

theorem observe_moved (δ : Int) (l : List Obs) (c : Call) (s : Sys) (o : Out) :
    observe (l.map (Obs.moved δ)) (c.moved δ) (s.moved δ) o = (observe l c s o).moved δ := by
  have h : knownReceives (l.map (Obs.moved δ)) (c.moved δ) = knownReceives l c := by
    unfold knownReceives
    rw [Call.moved_requests]
    simp only [lastPost_moved]
  unfold observe
  rw [h]
  rfl

theorem run_moved {δ : Int} (env : Env) {p q : Prog} (hpq : p.MovedTo δ q) (hp : ∀ l c, p l = some c → c.Moves δ) (n : Nat) :
    ∀ (l : List Obs) (s : Sys), s.mem.Fits δ → q.run (env.moved δ) n (l.map (Obs.moved δ)) (s.moved δ)
      = ((p.run env n l s).1.map (Obs.moved δ), (p.run env n l s).2) := by
  induction n with
  | zero => intro l s _; rfl
  | succ n ih =>
    intro l s hs
    simp only [Prog.run]
    rw [hpq l]
    cases hc : p l with
    | none => rfl
    | some c =>
      have h := answer_movesTo env hs c (hp l c hc)
      dsimp only [Option.map_some]
      rw [h.eq]
      cases hx : c.answer env s with
      | ok x =>
        have := ih (observe l c x.1 x.2 :: l) x.1 (h.post x hx)
        rw [List.map_cons, ← observe_moved] at this
        exact this
      | abort t => rfl
      | exit t => rfl
      | ub t => rfl
      | hang => rfl

/-- C84: a program whose data the operating system has put `δ` further on makes the same calls - with its buffers
there - sees the same numbers and statuses, has the same data in the end, `δ` further on, and dies in the same way.
For programs of fewer than 2^30 calls, all well formed. -/
theorem C84_program {δ : Int} {env : Env} {p q : Prog} (hpq : p.MovedTo δ q) (hp : ∀ l c, p l = some c → c.Moves δ)
    {m : Mem} (hm : m.Fits δ) {n : Nat} (hn : n ≤ 1073741823) (hw : p.Wf env n [] (Sys.start m)) :
    q.run env n [] (Sys.start (m.moved δ))
      = ((p.run env n [] (Sys.start m)).1.map (Obs.moved δ), (p.run env n [] (Sys.start m)).2) := by
  let j : Nat → ReqRec := fun k => { env.junk k with buf := (env.junk k).buf - δ }
  have he : (env.withJunk j).moved δ = env := by
    have : (fun k => (j k).moved δ) = env.junk := by
      funext k
      show ({ env.junk k with buf := (env.junk k).buf - δ + δ } : ReqRec) = env.junk k
      rw [show (env.junk k).buf - δ + δ = (env.junk k).buf by omega]
    exact congrArg (fun f => ({ env with junk := f } : Env)) this
  have h := run_moved (env.withJunk j) hpq hp n [] (Sys.start m) hm
  rw [he, ← C56_program hn hw] at h
  exact h

/-! ## An example -/

/-- A thousand accessible bytes. -/
def memLow : Mem := fun a => if 0 ≤ a ∧ a < 1000 then mem0 a else none

theorem memLow_fits : memLow.Fits 4096 := by
  intro a ha
  unfold memLow at ha
  split at ha
  · omega
  · cases ha

/-- Posts a receive and a message for it and waits for the receive; its data are at `b`. -/
def oneWait (b : Int) : Prog
  | [] => some .init
  | [_] => some (.irecv (b + 200) 3 (-1) 0 5 1)
  | [_, _] => some (.isend (b + 100) 3 (-1) 0 5 1)
  | [_, r, _] => some (.wait (r.vals.headD 0) st0)
  | _ => none

theorem oneWait_moved (δ : Int) : (oneWait 0).MovedTo δ (oneWait δ) := by
  intro l
  rcases l with _ | ⟨a, _ | ⟨b, _ | ⟨c, _ | ⟨d, l⟩⟩⟩⟩
  · rfl
  · show some (Call.irecv (δ + 200) 3 (-1) 0 5 1) = some (Call.irecv (0 + 200 + δ) 3 (-1) 0 5 1)
    rw [show δ + 200 = 0 + 200 + δ by omega]
  · show some (Call.isend (δ + 100) 3 (-1) 0 5 1) = some (Call.isend (0 + 100 + δ) 3 (-1) 0 5 1)
    rw [show δ + 100 = 0 + 100 + δ by omega]
  · rfl
  · rfl

def Mv1 : Demo := (Demo.start memLow).init
def Mv2 : Demo := Mv1.irecv 200 3 (-1) 0 5 1 0
def Mv3 : Demo := Mv2.isend 100 3 (-1) 5 1 0

theorem oneWait_wf : (oneWait 0).Wf env0 4 [] (Sys.start memLow) := by
  have o1 : Mv1.Ok := Demo.init_ok (Demo.start_ok _) (by decide) (by decide +kernel)
  have o2 : Mv2.Ok := Demo.irecv_ok o1 (by decide +kernel) (by decide +kernel)
  have o3 : Mv3.Ok := Demo.isend_ok o2 (by decide +kernel) (by decide +kernel)
  have e1 : Call.init.answer env0 (Sys.start memLow) = .ok (Mv1.s, ⟨[], []⟩) :=
    Demo.init_ans (d := .start memLow) (by decide +kernel)
  have e2 : (Call.irecv 200 3 (-1) 0 5 1).answer env0 Mv1.s = .ok (Mv2.s, ⟨[Mv2.h], []⟩) :=
    Demo.irecv_ans (d := Mv1) (by decide +kernel)
  have e3 : (Call.isend 100 3 (-1) 0 5 1).answer env0 Mv2.s = .ok (Mv3.s, ⟨[Mv3.h], []⟩) :=
    Demo.isend_ans (d := Mv2) (by decide +kernel)
  have h2 : Mv2.h = 2 := by decide +kernel
  refine Prog.wf_step rfl .start (fun _ h => nomatch h) trivial e1 ?_
  refine Prog.wf_step rfl o1 (fun _ h => nomatch h) ⟨.simple (by decide) (by decide), .inl (.of_decide 0 (by decide +kernel))⟩ e2 ?_
  refine Prog.wf_step rfl o2 (fun _ h => nomatch h) ⟨.simple (by decide) (by decide), .inl (.of_decide 0 (by decide +kernel))⟩ e3 ?_
  refine Prog.wf_step (L := Mv3.L) (s' := (Mv3.wait 2).s) (c := .wait 2 st0) (by show some (Call.wait Mv2.h st0) = _; rw [h2]) o3
    (fun _ h => nomatch h) (Or.inr ⟨0, of_decide_eq_true (by decide +kernel)⟩)
    (Demo.wait_eq (by decide +kernel) (by decide +kernel)) ?_
  trivial

/-- The theorem applies to it, and it does what it should: the receive is reported with source 0 and tag 5, and the
three bytes have arrived 4096 bytes further on. -/
example : (oneWait 4096).run env0 4 [] (Sys.start (memLow.moved 4096))
    = (((oneWait 0).run env0 4 [] (Sys.start memLow)).1.map (Obs.moved 4096), none) ∧
    ((oneWait 4096).run env0 4 [] (Sys.start (memLow.moved 4096))).1.map (fun o => (o.vals, o.stats)) =
      [([0, 0, 0], [.obj ⟨0, 5, 0, 0⟩]), ([3], []), ([2], []), ([], [])] ∧
    (((oneWait 4096).run env0 4 [] (Sys.start (memLow.moved 4096))).1.head?.map fun o => [o.mem 200, o.mem 4296, o.mem 4298])
      = some [none, some 1, some 3] := by
  refine ⟨?_, by decide +kernel, by decide +kernel⟩
  rw [C84_program (oneWait_moved 4096) ?_ memLow_fits (by decide) oneWait_wf]
  · have : ((oneWait 0).run env0 4 [] (Sys.start memLow)).2 = none := by decide +kernel
    rw [this]
  · intro l c hc
    rcases l with _ | ⟨a, _ | ⟨b, _ | ⟨x, _ | ⟨d, l⟩⟩⟩⟩ <;> cases hc <;> trivial

/-- A transfer that runs out of the data does so in both places. -/
example : Mem.Fits 4096 memLow ∧ (Call.sendrecv 990 20 (-1) 0 5 100 20 (-1) 0 5 1 .null).Moves 4096 ∧
    ((Call.sendrecv 990 20 (-1) 0 5 100 20 (-1) 0 5 1 .null).answer env0 Mv1.s).fate = some (.ub .memAccess) ∧
    ((Call.sendrecv 5086 20 (-1) 0 5 4196 20 (-1) 0 5 1 .null).answer (env0.moved 4096) (Mv1.s.moved 4096)).fate
      = some (.ub .memAccess) :=
  ⟨memLow_fits, trivial, by decide +kernel, by decide +kernel⟩

/-! ## What the exception is for -/

/-- One accessible byte at the second last address and a few at 200. -/
def memHigh : Mem := fun a => if a = 18446744073709551614 then some 7 else if 200 ≤ a ∧ a < 210 then some 0 else none

/-- The last address cannot be given as a send buffer: MPI_Allreduce of the byte there leaves the receive buffer as it
was, while one address before it is copied. -/
theorem C84_needs_moves : memHigh.Fits 1 ∧
    (((Call.allreduce 18446744073709551614 200 1 (-1) 0 1).answer env0 (Sys.start memHigh)).getD (Sys.start memHigh, ⟨[], []⟩)).1.mem 200
      = some 7 ∧
    (((Call.allreduce 18446744073709551615 201 1 (-1) 0 1).answer (env0.moved 1) ((Sys.start memHigh).moved 1)).getD
      (Sys.start memHigh, ⟨[], []⟩)).1.mem 201 = some 0 := by
  refine ⟨?_, by decide +kernel, by decide +kernel⟩
  intro a ha
  unfold memHigh at ha
  split at ha
  · omega
  · split at ha
    · omega
    · cases ha

end MpiSerial
