import Verif.Spec.Polling
import Verif.Props.Asking

/-!
# C87: waiting may be done by polling
-/

set_option linter.unusedSimpArgs false
set_option autoImplicit false

namespace MpiSerial

theorem poll_same {c : Call} (h : c.waits = false) : c.poll = c := by
  cases c <;> first | rfl | simp [Call.waits] at h

theorem asWait_same {o : Obs} (h : o.call.polls = false) : o.asWait = some o := by
  obtain ⟨c, v, st, m⟩ := o
  unfold Obs.asWait
  cases c <;> first | rfl | simp [Call.polls] at h

theorem asWait_lost {o : Obs} (h : o.asWait = none) : o.call.posts = none ∧ o.call.isInit = false ∧ o.call.isFinalize = false := by
  obtain ⟨c, v, st, m⟩ := o
  cases c <;> first | exact ⟨rfl, rfl, rfl⟩ | simp [Obs.asWait] at h

theorem asWait_kept {o o' : Obs} (h : o.asWait = some o') :
    (o' = o ∨ o.call.posts = none ∧ o'.call.posts = none) ∧ o'.call.isInit = o.call.isInit ∧ o'.call.isFinalize = o.call.isFinalize := by
  unfold Obs.asWait at h
  split at h
  · rename_i e _
    split at h
    · cases h
    · cases h
      rw [e]
      exact ⟨.inr ⟨rfl, rfl⟩, rfl, rfl⟩
  · rename_i e _
    split at h
    · cases h
    · cases h
      rw [e]
      exact ⟨.inr ⟨rfl, rfl⟩, rfl, rfl⟩
  · cases h
    exact ⟨.inl rfl, rfl, rfl⟩

theorem lastPost_waited (r : Int) : ∀ seen, lastPost (waited seen) r = lastPost seen r
  | [] => rfl
  | o :: seen => by
    have ih := lastPost_waited r seen
    unfold lastPost waited at ih ⊢
    cases h : o.asWait with
    | none =>
      rw [List.filterMap_cons_none h, ih, List.findSome?_cons, (asWait_lost h).1]
      simp
    | some o' =>
      rw [List.filterMap_cons_some h, List.findSome?_cons, List.findSome?_cons, ih]
      rcases (asWait_kept h).1 with e | ⟨e1, e2⟩
      · rw [e]
      · rw [e1, e2]
        simp

theorem between_waited : ∀ seen, between (waited seen) = between seen
  | [] => rfl
  | o :: seen => by
    have ih := between_waited seen
    unfold between waited at ih ⊢
    cases h : o.asWait with
    | none =>
      obtain ⟨_, h1, h2⟩ := asWait_lost h
      rw [List.filterMap_cons_none h, ih, List.find?_cons, h1, h2]
      rfl
    | some o' =>
      obtain ⟨_, h1, h2⟩ := asWait_kept h
      rw [List.filterMap_cons_some h, List.find?_cons, List.find?_cons, h1, h2]
      cases hb : (o.call.isInit || o.call.isFinalize)
      · exact ih
      · exact h1

theorem known_waited (seen : List Obs) (c d : Call) (h : c.requests = d.requests) : knownReceives (waited seen) c = knownReceives seen d := by
  simp only [knownReceives, lastPost_waited, h]

/-! ## One call -/

/-- **C87 (one call).**  MPI_Wait and MPI_Test, in any state in which the library is up, with any request (MPI_Waitany and MPI_Testany, with
any requests): if the poll succeeds the wait returns, with the same results and in the same state; if the poll is in vain, nothing has
changed, and the wait stops the program with a message; and the wait does not end otherwise, except as the poll does. -/
theorem C87_call (env : Env) {s : Sys} (h : s.handles.needInit = false) (c : Call) (hc : c.waits = true) :
    match c.poll.answer env s with
    | .ok (s', o) => ∃ first flag rest, o.vals = first :: flag :: rest ∧
        if flag = 0 then s' = s ∧ ∃ m, c.answer env s = .abort m
        else c.answer env s = .ok (s', ⟨first :: rest, o.done⟩)
    | .abort m => c.answer env s = .abort m
    | .exit k => c.answer env s = .exit k
    | .ub u => c.answer env s = .ub u
    | .hang => c.answer env s = .hang := by
  cases c with
  | wait r st =>
    simp only [Call.poll, Call.answer, MPI_Wait]
    cases hx : MPI_Test s r st with
    | ok x =>
      refine ⟨x.request, x.flag, _, rfl, ?_⟩
      dsimp only [Bind.bind, Res.bind]
      by_cases hf : x.flag = 0
      · rw [if_pos hf, if_pos hf]
        exact ⟨(test_same h hx hf).1, _, rfl⟩
      · rw [if_neg hf, if_neg hf]
        rfl
    | _ => rfl
  | waitany n rs i st =>
    simp only [Call.poll, Call.answer, MPI_Waitany]
    cases hx : MPI_Testany s n rs i st with
    | ok x =>
      obtain ⟨s', rs', i', flag, st'⟩ := x
      refine ⟨i', flag, _, rfl, ?_⟩
      dsimp only [Bind.bind, Res.bind]
      by_cases hf : flag = 0
      · rw [if_pos hf, if_pos hf]
        have := C86_poll h |>.2.1 _ _ _ _ _ hx hf
        cases this
        exact ⟨rfl, _, rfl⟩
      · rw [if_neg hf, if_neg hf]
        rfl
    | _ => rfl
  | _ => simp [Call.waits] at hc

/-! ## Programs -/

theorem poll_requests (c : Call) : c.poll.requests = c.requests := by
  cases c <;> rfl

/-- What a poll shows, as a wait. -/
theorem observe_poll (seen : List Obs) {c : Call} (hc : c.waits = true) (s : Sys) {o : Out} {first flag : Int} {rest : List Int}
    (hv : o.vals = first :: flag :: rest) :
    (observe seen c.poll s o).asWait = if flag = 0 then none else some (observe (waited seen) c s ⟨first :: rest, o.done⟩) := by
  have hk := known_waited seen c c.poll (poll_requests c).symm
  cases c with
  | wait r st => simp only [Call.poll] at hk ⊢; simp only [observe, Obs.asWait, hv, hk]
  | waitany n rs i st => simp only [Call.poll] at hk ⊢; simp only [observe, Obs.asWait, hv, hk]
  | _ => simp [Call.waits] at hc

theorem waited_none {o : Obs} (h : o.asWait = none) (seen : List Obs) : waited (o :: seen) = waited seen := List.filterMap_cons_none h

theorem waited_some {o o' : Obs} (h : o.asWait = some o') (seen : List Obs) : waited (o :: seen) = o' :: waited seen := List.filterMap_cons_some h

/-- **C87 (deadlock).**  Where the program that waits would wait for a request that is not complete, the program that polls polls for ever: it never
ends and never gets to do anything else, the polls are all in vain and change nothing. -/
theorem C87_deadlock (env : Env) (p : Prog) {s : Sys} (h : s.handles.needInit = false) {c : Call} (hc : c.waits = true) {o : Out} {first : Int}
    {rest : List Int} {s' : Sys} (ha : c.poll.answer env s = .ok (s', o)) (hv : o.vals = first :: 0 :: rest) :
    ∀ (n : Nat) (seen : List Obs), p (waited seen) = some c →
      ∃ obs, p.polling.run env n seen s = (obs ++ seen, none) ∧ obs.length = n ∧ ∀ ob ∈ obs, ob.call = c.poll ∧ ob.vals = o.vals ∧ ob.mem = s.mem
  | 0, seen, _ => ⟨[], rfl, rfl, by simp⟩
  | n + 1, seen, hp => by
    have hs : s' = s := by
      have := C87_call env h c hc
      rw [ha] at this
      obtain ⟨a, b, r, e, h2⟩ := this
      rw [hv] at e
      cases e
      rw [if_pos rfl] at h2
      exact h2.1
    subst hs
    have hw : waited (observe seen c.poll s' o :: seen) = waited seen := by
      refine waited_none ?_ _
      rw [observe_poll seen hc s' hv, if_pos rfl]
    obtain ⟨obs, h1, h2, h3⟩ := C87_deadlock env p h hc ha hv n (observe seen c.poll s' o :: seen) (by rw [hw, hp])
    refine ⟨obs ++ [observe seen c.poll s' o], ?_, by simp [h2], ?_⟩
    · have e : p.polling seen = some c.poll := by simp [Prog.polling, hp]
      simp only [Prog.run, e, ha, h1, List.append_assoc, List.singleton_append]
    · intro ob hob
      rw [List.mem_append] at hob
      rcases hob with hob | hob
      · exact h3 ob hob
      · rw [List.mem_singleton] at hob
        subst hob
        exact ⟨rfl, rfl, rfl⟩

/-- The polls of a program that is stuck leave no trace in what it has seen as a program that waits. -/
theorem stuck_waited (env : Env) (p : Prog) {s : Sys} (h : s.handles.needInit = false) {c : Call} (hc : c.waits = true) {o : Out} {first : Int}
    {rest : List Int} {s' : Sys} (ha : c.poll.answer env s = .ok (s', o)) (hv : o.vals = first :: 0 :: rest) (n : Nat) (seen : List Obs)
    (hp : p (waited seen) = some c) : waited (p.polling.run env n seen s).1 = waited seen ∧ (p.polling.run env n seen s).2 = none := by
  obtain ⟨obs, h1, _, h3⟩ := C87_deadlock env p h hc ha hv n seen hp
  rw [h1]
  refine ⟨?_, rfl⟩
  unfold waited
  rw [List.filterMap_append]
  have : obs.filterMap Obs.asWait = [] := by
    rw [List.filterMap_eq_nil_iff]
    intro ob hob
    obtain ⟨e1, e2, _⟩ := h3 ob hob
    rw [hv] at e2
    unfold Obs.asWait
    cases c with
    | wait r st => simp [e1, e2, Call.poll]
    | waitany n rs i st => simp [e1, e2, Call.poll]
    | _ => simp [Call.waits] at hc
  rw [this]
  rfl

/-- **C87 (programs).**  A program that waits for its requests with MPI_Wait and MPI_Waitany may poll them with MPI_Test and MPI_Testany instead.
After any number of calls, the program that polls has seen what the program that waits has seen after as many: the first poll is
not in vain unless the program that waits is stopped for a deadlock.  It ends the same way, except that in a deadlock it does not end
(`C87_deadlock`). -/
theorem C87_program (env : Env) {p : Prog} (hp : p.Waits) : ∀ (n : Nat) (seen : List Obs) (s : Sys),
    (between seen = true → s.handles.needInit = false) →
    waited (p.polling.run env n seen s).1 = (p.run env n (waited seen) s).1 ∧
      ((p.polling.run env n seen s).2 = (p.run env n (waited seen) s).2 ∨
        (p.polling.run env n seen s).2 = none ∧
          ∃ c m, p (p.run env n (waited seen) s).1 = some c ∧ c.waits = true ∧ (p.run env n (waited seen) s).2 = some (.abort m))
  | 0, seen, s, _ => ⟨rfl, .inl rfl⟩
  | n + 1, seen, s, h => by
    cases e : p (waited seen) with
    | none => simp [Prog.run, Prog.polling, e]
    | some c =>
      have eq : p.polling seen = some c.poll := by simp [Prog.polling, e]
      cases hc : c.waits with
      | false =>
        rw [poll_same hc] at eq
        cases ha : c.answer env s with
        | ok x =>
          obtain ⟨s', o⟩ := x
          obtain ⟨h1, h2⟩ := C87_program env hp n (observe seen c s' o :: seen) s' (between_up h ha)
          have hd : waited (observe seen c s' o :: seen) = observe (waited seen) c s' o :: waited seen := by
            rw [waited_some (asWait_same (o := observe seen c s' o) (hp.polls _ _ e))]
            simp only [observe, known_waited seen c c rfl]
          rw [hd] at h1 h2
          simp only [Prog.run, e, eq, ha]
          exact ⟨h1, h2⟩
        | _ => simp [Prog.run, e, eq, ha]
      | true =>
        have hb := hp.between _ _ e hc
        rw [between_waited] at hb
        have hu := h hb
        have hcall := C87_call env hu c hc
        cases ha : c.poll.answer env s with
        | ok x =>
          obtain ⟨s', o⟩ := x
          rw [ha] at hcall
          obtain ⟨first, flag, rest, hv, hcall⟩ := hcall
          by_cases hf : flag = 0
          · subst hf
            rw [if_pos rfl] at hcall
            obtain ⟨rfl, m, hm⟩ := hcall
            obtain ⟨h1, h2⟩ := stuck_waited env p hu hc ha hv (n + 1) seen e
            refine ⟨?_, .inr ⟨h2, c, m, ?_, hc, ?_⟩⟩
            · rw [h1]
              simp only [Prog.run, e, hm]
            · simp only [Prog.run, e, hm]
            · simp only [Prog.run, e, hm]
              rfl
          · rw [if_neg hf] at hcall
            obtain ⟨h1, h2⟩ := C87_program env hp n (observe seen c.poll s' o :: seen) s' (between_up h ha)
            have hd : waited (observe seen c.poll s' o :: seen) = observe (waited seen) c s' ⟨first :: rest, o.done⟩ :: waited seen := by
              refine waited_some ?_ _
              rw [observe_poll seen hc s' hv, if_neg hf]
            rw [hd] at h1 h2
            simp only [Prog.run, e, eq, ha, hcall]
            exact ⟨h1, h2⟩
        | _ =>
          rw [ha] at hcall
          simp [Prog.run, e, eq, ha, hcall]

/-- The same from the start of the process: nothing is assumed about the state. -/
theorem C87_program_start (env : Env) {p : Prog} (hp : p.Waits) (n : Nat) (m : Mem) :
    waited (p.polling.run env n [] (Sys.start m)).1 = (p.run env n [] (Sys.start m)).1 ∧
      ((p.polling.run env n [] (Sys.start m)).2 = (p.run env n [] (Sys.start m)).2 ∨
        (p.polling.run env n [] (Sys.start m)).2 = none ∧
          ∃ c msg, p (p.run env n [] (Sys.start m)).1 = some c ∧ c.waits = true ∧ (p.run env n [] (Sys.start m)).2 = some (.abort msg)) :=
  C87_program env hp n [] (Sys.start m) (fun h => by simp [between] at h)

/-! ## Examples -/

/-- `p` where `between` holds, and nothing elsewhere but what does not wait. -/
def Prog.careful (p : Prog) : Prog := fun l => (p l).filter fun c => !c.polls && (!c.waits || between l)

theorem Prog.careful_waits (p : Prog) : p.careful.Waits where
  polls := by
    intro l c h
    have := Option.filter_eq_some_iff.mp h
    simp_all
  between := by
    intro l c h hw
    have := Option.filter_eq_some_iff.mp h
    simp_all

/-- Two receives are posted and polled; most recent call first. -/
example : (twoWaits.careful.polling.run env0 7 [] (Sys.start mem0)).2 = none ∧
    (twoWaits.careful.polling.run env0 7 [] (Sys.start mem0)).1.map (fun o => (o.call.polls, o.vals)) =
      [(true, [0, 1, 0, 0]), (false, [2]), (true, [0, 1, 0, 0]), (false, [3]), (false, [2]), (false, [])] ∧
    (twoWaits.careful.run env0 7 [] (Sys.start mem0)).1.map (fun o => o.vals) = [[0, 0, 0], [2], [0, 0, 0], [3], [2], []] := by
  decide +kernel

example : waited (twoWaits.careful.polling.run env0 7 [] (Sys.start mem0)).1 = (twoWaits.careful.run env0 7 [] (Sys.start mem0)).1 :=
  (C87_program_start env0 twoWaits.careful_waits 7 mem0).1

/-- Posts a receive and waits for it, with nobody sending. -/
def forlorn : Prog
  | [] => some .init
  | [_] => some (.irecv 200 3 (-1) 0 5 1)
  | r :: _ => some (.wait (r.vals.headD 0) (.obj ⟨0, 0, 0, 0⟩))

/-- The one is stopped, the other polls on. -/
example : (forlorn.careful.run env0 6 [] (Sys.start mem0)).2 = some (.abort "MPI_Wait: request not complete, deadlock") ∧
    (forlorn.careful.polling.run env0 6 [] (Sys.start mem0)).2 = none ∧
    (forlorn.careful.polling.run env0 6 [] (Sys.start mem0)).1.map (fun o => o.vals) =
      [[2, 0, 0, 0], [2, 0, 0, 0], [2, 0, 0, 0], [2, 0, 0, 0], [2], []] := by
  decide +kernel

end MpiSerial
