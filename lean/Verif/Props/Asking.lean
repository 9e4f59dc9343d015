import Verif.Proofs.Asking
import Verif.Props.Twin

/-!
# C86: asking changes nothing
-/

set_option linter.unusedSimpArgs false
set_option autoImplicit false

namespace MpiSerial

open Res (Post)

theorem ptr_eq {s : Sys} (h : Up s) (x : Int) : (s.ptr x).Post (fun r => r.1 = s) := fun _ hr => (ptr_same h hr).1

theorem handleToDatatype_eq {s : Sys} (h : Up s) (x : Int) : (handleToDatatype s x).Post (fun r => r.1 = s) := by
  unfold handleToDatatype
  refine .ite (Post.bind_ fun _ => .ok rfl) (Post.bind (ptr_eq h x) fun r hr => ?_)
  obtain ⟨s', p⟩ := r
  obtain rfl : s' = s := hr
  cases p with
  | none => exact .ub
  | some l =>
    refine Post.bind_ fun it => ?_
    split
    · exact .ok rfl
    · exact .ub

theorem typeOf_eq {s : Sys} (h : Up s) (env : Env) (x : Int) : (typeOf env s x).Post (fun r => r.1 = s) :=
  Post.bind (handleToDatatype_eq h x) fun _ hr => Post.bind_ fun _ => .ok hr

theorem iprobe_eq {s : Sys} (h : Up s) (source tag comm : Int) (st : StPtr) : (MPI_Iprobe s source tag comm st).Post (fun r => r.1 = s) := by
  unfold MPI_Iprobe
  refine Post.bind (ptr_eq h comm) fun r hr => ?_
  refine .ite .abort (Post.bind_ fun _ => Post.bind_ fun found => ?_)
  cases found with
  | none => exact .ok hr
  | some item => exact Post.bind_ fun _ => Post.bind_ fun _ => Post.bind_ fun _ => .ok hr

/-- The state after the question is the state before. -/
theorem asks_same {env : Env} {s : Sys} (h : Up s) (c : Call) (hc : c.asks = true) : (c.exec env s).Post (fun s' => s' = s) := by
  cases c with
  | initialized => exact .ok rfl
  | iprobe d g c st => exact Post.bind (iprobe_eq h d g c st) fun _ h => .ok h
  | probe d g c st =>
    refine Post.bind (P := fun r => r.1 = s) ?_ fun _ h => .ok h
    unfold MPI_Probe
    exact Post.bind (iprobe_eq h d g c st) fun _ h => .ite .abort (.ok h)
  | typeExtent t =>
    exact Post.bind (P := fun r => r.1 = s) (Post.bind (typeOf_eq h env t) fun _ h => Post.bind_ fun _ => .ok h) fun _ h => .ok h
  | typeSize t =>
    exact Post.bind (P := fun r => r.1 = s) (Post.bind (typeOf_eq h env t) fun _ h => Post.bind_ fun _ => .ok h) fun _ h => .ok h
  | typeLb t => exact Post.bind (P := fun r => r.1 = s) (Post.bind (typeOf_eq h env t) fun _ h => .ok h) fun _ h => .ok h
  | typeUb t => exact Post.bind (P := fun r => r.1 = s) (Post.bind (typeOf_eq h env t) fun _ h => .ok h) fun _ h => .ok h
  | getElements st t =>
    exact Post.bind (P := fun r => r.1 = s) (Post.bind (typeOf_eq h env t) fun _ h => Post.bind_ fun _ => .ok h) fun _ h => .ok h
  | packSize n t comm =>
    refine Post.bind (P := fun r => r.1 = s) (Post.bind (typeOf_eq h env t) fun r hr => ?_) fun _ h => .ok h
    obtain ⟨s', _⟩ := r
    obtain rfl : s' = s := hr
    exact Post.bind (ptr_eq h comm) fun _ h => Post.bind_ fun _ => .ok h
  | barrier c => exact .ok rfl
  | bcast b n t r c => exact .ite (.ok rfl) (.ite .abort (.ok rfl))
  | _ => exact absurd hc (by simp [Call.asks])

theorem answer_exec {env : Env} {s s' : Sys} {c : Call} {o : Out} (h : c.answer env s = .ok (s', o)) : c.exec env s = .ok s' := by
  rw [Call.exec_answer, h]
  rfl

/-! ## Polling -/

theorem test_same {s : Sys} (h : Up s) {r : Int} {st : StPtr} {x : TestRes} (hx : MPI_Test s r st = .ok x) (hf : x.flag = 0) :
    x.sys = s ∧ x.request = r ∧ x.status = st := by
  unfold MPI_Test at hx
  split at hx
  · rw [Res.bind_eq_ok] at hx
    obtain ⟨_, _, h2⟩ := hx
    cases h2
    cases hf
  · rw [Res.bind_eq_ok] at hx
    obtain ⟨⟨s', q⟩, h1, hx⟩ := hx
    obtain rfl : s' = s := (ptr_same h h1).1
    rw [Res.bind_eq_ok] at hx
    obtain ⟨r', _, hx⟩ := hx
    split at hx
    · rename_i hc
      rw [Res.bind_eq_ok] at hx
      obtain ⟨_, _, hx⟩ := hx
      rw [Res.bind_eq_ok] at hx
      obtain ⟨_, _, hx⟩ := hx
      cases hx
      exact absurd hf hc
    · cases hx
      exact ⟨rfl, rfl, rfl⟩

theorem set_same {α : Type} {l : List α} {i : Nat} {x : α} (h : rd l i = .ok x) : l.set i x = l := by
  have h : l[i]? = some x := by
    unfold rd at h
    split at h
    · cases h; assumption
    · cases h
  obtain ⟨hi, h⟩ := List.getElem?_eq_some_iff.mp h
  subst h
  exact List.set_getElem_self hi

theorem testanyLoop_same {s : Sys} (h : Up s) : ∀ (n i : Nat) (rs : List Int) (st : StPtr) (x : Sys × List Int × Int × StPtr),
    testanyLoop n i s rs st = .ok x → x.2.2.1 = 0 → x = (s, rs, 0, st)
  | 0, i, rs, st, x, hx, hf => by cases hx; rfl
  | n + 1, i, rs, st, x, hx, hf => by
    unfold testanyLoop at hx
    rw [Res.bind_eq_ok] at hx
    obtain ⟨a, ha, hx⟩ := hx
    rw [Res.bind_eq_ok] at hx
    obtain ⟨r, hr, hx⟩ := hx
    split at hx
    · rename_i hc
      cases hx
      exact absurd hf hc
    · rename_i hc
      obtain ⟨h1, h2, h3⟩ := test_same h hr (by omega)
      rw [h1, h2, h3, set_same ha] at hx
      exact testanyLoop_same h n (i + 1) rs st x hx hf

theorem testsomeLoop_low : ∀ (n i : Nat) (s : Sys) (rs : List Int) (sts : StArr) (k : Int) (x : ArrRes × Int),
    testsomeLoop n i s rs sts k = .ok x → k ≤ x.2
  | 0, i, s, rs, sts, k, x, hx => by cases hx; exact Int.le_refl _
  | n + 1, i, s, rs, sts, k, x, hx => by
    unfold testsomeLoop at hx
    rw [Res.bind_eq_ok] at hx
    obtain ⟨a, ha, hx⟩ := hx
    rw [Res.bind_eq_ok] at hx
    obtain ⟨p, hp, hx⟩ := hx
    rw [Res.bind_eq_ok] at hx
    obtain ⟨r, hr, hx⟩ := hx
    have := testsomeLoop_low _ _ _ _ _ _ _ hx
    split at this <;> omega

theorem upd_same {sts : StArr} {i : Nat} {p : StPtr} (h : StArr.at sts i = .ok p) : StArr.upd sts i p = sts := by
  cases sts with
  | none => rfl
  | some l =>
    unfold StArr.at at h
    dsimp only at h
    rw [Res.bind_eq_ok] at h
    obtain ⟨st, h1, h2⟩ := h
    cases h2
    exact congrArg some (set_same h1)

theorem testsomeLoop_same {s : Sys} (h : Up s) : ∀ (n i : Nat) (rs : List Int) (sts : StArr) (k : Int) (x : ArrRes × Int),
    testsomeLoop n i s rs sts k = .ok x → x.2 = k → x = (⟨s, rs, sts⟩, k)
  | 0, i, rs, sts, k, x, hx, hf => by cases hx; rfl
  | n + 1, i, rs, sts, k, x, hx, hf => by
    unfold testsomeLoop at hx
    rw [Res.bind_eq_ok] at hx
    obtain ⟨a, ha, hx⟩ := hx
    rw [Res.bind_eq_ok] at hx
    obtain ⟨p, hp, hx⟩ := hx
    rw [Res.bind_eq_ok] at hx
    obtain ⟨r, hr, hx⟩ := hx
    have hl := testsomeLoop_low _ _ _ _ _ _ _ hx
    by_cases hc : r.flag = 0
    · obtain ⟨h1, h2, h3⟩ := test_same h hr hc
      rw [h1, h2, h3, set_same ha, upd_same hp, if_pos hc] at hx
      exact testsomeLoop_same h n (i + 1) rs sts k x hx hf
    · rw [if_neg hc] at hl
      omega

/-! ## The property -/

/-- **C86 (one call).**  Once the library has been started, a call that only asks (MPI_Initialized, MPI_Iprobe, MPI_Probe,
MPI_Type_extent, _size, _lb, _ub, MPI_Get_elements, MPI_Pack_size) or that has nothing to do with a single process (MPI_Barrier, MPI_Bcast)
leaves everything as it was, the memory and the tables of the library alike.  That the library is up is all that is assumed about the state. -/
theorem C86_call (env : Env) {s s' : Sys} (h : s.handles.needInit = false) {c : Call} {o : Out} (hc : c.asks = true)
    (ha : c.answer env s = .ok (s', o)) : s' = s :=
  asks_same h c hc s' (answer_exec ha)

/-- **C86 (polling).**  MPI_Test that finds the request incomplete, MPI_Testany that finds none complete and MPI_Testsome that reports none
change nothing: not the state, not the requests, not the statuses. -/
theorem C86_poll {s : Sys} (h : s.handles.needInit = false) :
    (∀ r st x, MPI_Test s r st = .ok x → x.flag = 0 → x = ⟨s, r, 0, st⟩) ∧
    (∀ n rs i st x, MPI_Testany s n rs i st = .ok x → x.2.2.2.1 = 0 → x = (s, rs, i, 0, st)) ∧
    (∀ n rs ix sts x, MPI_Testsome s n rs ix sts = .ok x → x.outcount = 0 → x = ⟨⟨s, rs, sts⟩, 0, ix⟩) := by
  refine ⟨fun r st x hx hf => ?_, fun n rs i st x hx hf => ?_, fun n rs ix sts x hx hf => ?_⟩
  · obtain ⟨h1, h2, h3⟩ := test_same h hx hf
    cases x
    simp_all
  · unfold MPI_Testany at hx
    rw [Res.bind_eq_ok] at hx
    obtain ⟨y, hy, hx⟩ := hx
    cases hx
    rw [testanyLoop_same h _ _ _ _ _ hy hf]
  · unfold MPI_Testsome at hx
    rw [Res.bind_eq_ok] at hx
    obtain ⟨y, hy, hx⟩ := hx
    cases hx
    rw [testsomeLoop_same h _ _ _ _ _ _ hy hf]

/-! ## Programs -/

theorem deeds_ask {o : Obs} (h : o.call.asks = true) (seen : List Obs) : deeds (o :: seen) = deeds seen := by simp [deeds, h]

theorem deeds_do {o : Obs} (h : o.call.asks = false) (seen : List Obs) : deeds (o :: seen) = o :: deeds seen := by simp [deeds, h]

theorem asks_posts {c : Call} (h : c.asks = true) : c.posts = none := by
  cases c <;> first | rfl | simp [Call.asks] at h

theorem asks_neither {c : Call} (h : c.asks = true) : c.isInit = false ∧ c.isFinalize = false := by
  cases c <;> first | exact ⟨rfl, rfl⟩ | simp [Call.asks] at h

theorem lastPost_deeds (r : Int) : ∀ seen, lastPost (deeds seen) r = lastPost seen r
  | [] => rfl
  | o :: seen => by
    cases h : o.call.asks with
    | true =>
      rw [deeds_ask h, lastPost_deeds r seen]
      simp [lastPost, asks_posts h]
    | false =>
      rw [deeds_do h]
      have := lastPost_deeds r seen
      simp only [lastPost, List.findSome?_cons] at this ⊢
      rw [this]

theorem observe_deeds (seen : List Obs) (c : Call) (s : Sys) (o : Out) : observe (deeds seen) c s o = observe seen c s o := by
  have h : knownReceives (deeds seen) c = knownReceives seen c := by simp only [knownReceives, lastPost_deeds]
  simp only [observe, h]

/-- Between MPI_Init and MPI_Finalize the library is up. -/
theorem between_up {env : Env} {seen : List Obs} {s s' : Sys} {c : Call} {o : Out} (h : between seen = true → Up s)
    (ha : c.answer env s = .ok (s', o)) (hb : between (observe seen c s' o :: seen) = true) : Up s' := by
  have he := answer_exec ha
  cases hi : c.isInit with
  | true => exact Call.init_up c hi s' he
  | false =>
    cases hf : c.isFinalize with
    | true => simp [between, observe, hi, hf] at hb
    | false => exact Call.keeps_up (h (by simpa [between, observe, hi, hf] using hb)) c hi hf s' he

/-- **C86 (programs).**  Take a program and let it ask questions, as many as it likes and wherever it likes between MPI_Init and MPI_Finalize, so
long as what else it does does not depend on the answers.  Whatever the number `n` of calls looked at, there is a number `k` of calls of
the program without questions such that the two runs show the same: same calls, same results, same memory after each call; and they
end the same way, unless it was a question that ended the one (MPI_Probe with nothing to find, a handle that is none). -/
theorem C86_program (env : Env) {p q : Prog} (hq : p.WithQuestions q) : ∀ (n : Nat) (seen : List Obs) (s : Sys),
    (between seen = true → s.handles.needInit = false) →
    ∃ k, k ≤ n ∧ deeds (q.run env n seen s).1 = (p.run env k (deeds seen) s).1 ∧
      ((q.run env n seen s).2 = (p.run env k (deeds seen) s).2 ∨
        (p.run env k (deeds seen) s).2 = none ∧ ∃ c, q (q.run env n seen s).1 = some c ∧ c.asks = true)
  | 0, seen, s, _ => ⟨0, Nat.le_refl _, rfl, .inl rfl⟩
  | n + 1, seen, s, h => by
    rcases hq.some seen with e | ⟨c, e, hc, hb⟩
    · cases hp : p (deeds seen) with
      | none =>
        refine ⟨0, Nat.zero_le _, ?_, .inl ?_⟩ <;> simp [Prog.run, e, hp]
      | some c =>
        have hn := hq.none _ _ hp
        cases ha : c.answer env s with
        | ok x =>
          obtain ⟨s', o⟩ := x
          obtain ⟨k, hk, h1, h2⟩ := C86_program env hq n (observe seen c s' o :: seen) s' (between_up h ha)
          have hd : deeds (observe seen c s' o :: seen) = observe (deeds seen) c s' o :: deeds seen := by
            rw [deeds_do (o := observe seen c s' o) hn, observe_deeds]
          rw [hd] at h1 h2
          refine ⟨k + 1, by omega, ?_⟩
          simp only [Prog.run, e, hp, ha]
          exact ⟨h1, h2⟩
        | _ => refine ⟨1, by omega, ?_, .inl ?_⟩ <;> simp [Prog.run, e, hp, ha]
    · cases ha : c.answer env s with
      | ok x =>
        obtain ⟨s', o⟩ := x
        have hs : s' = s := C86_call env (h hb) hc ha
        obtain ⟨k, hk, h1, h2⟩ := C86_program env hq n (observe seen c s' o :: seen) s' (between_up h ha)
        rw [deeds_ask (o := observe seen c s' o) hc, hs] at h1 h2
        rw [hs] at ha
        refine ⟨k, by omega, ?_⟩
        simp only [Prog.run, e, ha]
        exact ⟨h1, h2⟩
      | _ => exact ⟨0, by omega, by simp [Prog.run, e, ha], .inr ⟨rfl, c, by simp [Prog.run, e, ha], hc⟩⟩

/-- The same from the start of the process: nothing is assumed about the state. -/
theorem C86_program_start (env : Env) {p q : Prog} (hq : p.WithQuestions q) (n : Nat) (m : Mem) :
    ∃ k, k ≤ n ∧ deeds (q.run env n [] (Sys.start m)).1 = (p.run env k [] (Sys.start m)).1 ∧
      ((q.run env n [] (Sys.start m)).2 = (p.run env k [] (Sys.start m)).2 ∨
        (p.run env k [] (Sys.start m)).2 = none ∧ ∃ c, q (q.run env n [] (Sys.start m)).1 = some c ∧ c.asks = true) :=
  C86_program env hq n [] (Sys.start m) (fun h => by simp [between] at h)

/-! ## Examples -/

/-- `p`, looking for a message with tag 5 after each of its calls. -/
def Prog.nosy (p : Prog) : Prog := fun seen =>
  match seen with
  | [] => p []
  | o :: _ => if between seen && !o.call.asks then some (.iprobe MPI_ANY_SOURCE 5 1 (.obj ⟨7, 7, 0, 0⟩)) else p (deeds seen)

theorem Prog.nosy_questions {p : Prog} (h : ∀ l c, p l = some c → c.asks = false) : p.WithQuestions p.nosy where
  none := h
  some := by
    intro seen
    cases seen with
    | nil => exact .inl rfl
    | cons o seen =>
      unfold Prog.nosy
      dsimp only
      split
      · rename_i h
        rw [Bool.and_eq_true] at h
        exact .inr ⟨_, rfl, rfl, h.1⟩
      · exact .inl rfl

theorem twoWaits_asks_nothing : ∀ l c, twoWaits l = some c → c.asks = false := by
  intro l c h
  unfold twoWaits at h
  split at h <;> cases h <;> rfl

/-- Sends a message and receives it later. -/
def sendFirst : Prog
  | [] => some .init
  | [_] => some (.isend 100 3 (-1) 0 5 1)
  | [_, _] => some (.irecv 200 3 (-1) 0 5 1)
  | [r, _, _] => some (.wait (r.vals.headD 0) (.obj ⟨0, 0, 0, 0⟩))
  | _ => none

theorem sendFirst_asks_nothing : ∀ l c, sendFirst l = some c → c.asks = false := by
  intro l c h
  unfold sendFirst at h
  split at h <;> cases h <;> rfl

/-- Six calls and six questions. -/
example : ∃ k, k ≤ 12 ∧ deeds (twoWaits.nosy.run env0 12 [] (Sys.start mem0)).1 = (twoWaits.run env0 k [] (Sys.start mem0)).1 :=
  let ⟨k, h1, h2, _⟩ := C86_program_start env0 (Prog.nosy_questions twoWaits_asks_nothing) 12 mem0
  ⟨k, h1, h2⟩

/-- A request that is not complete is polled. -/
example : T2.s.handles.needInit = false ∧ (match MPI_Test T2.s T2.h st0 with | .ok x => x.flag == 0 | _ => false) = true := by
  decide +kernel

/-- The message is found when it has been sent and not yet received (most recent call first); the calls see what they see without
the questions. -/
example : (sendFirst.nosy.run env0 8 [] (Sys.start mem0)).1.map (fun o => (o.call.asks, o.vals)) =
      [(true, [0, 7, 7, 0, 0]), (false, [0, 0, 0]), (true, [0, 7, 7, 0, 0]), (false, [3]), (true, [1, 0, 5, 0, 0]), (false, [2]), (true, [0, 7, 7, 0, 0]), (false, [])] ∧
    (sendFirst.run env0 4 [] (Sys.start mem0)).1.map (fun o => (o.call.asks, o.vals)) =
      [(false, [0, 0, 0]), (false, [3]), (false, [2]), (false, [])] := by
  decide +kernel

/-- Before MPI_Init it is not so: asking for a size may set up the table of handles. -/
theorem C86_needs_init : ∃ s' o, (Call.packSize 1 (-1) 1).answer env0 (Sys.start mem0) = .ok (s', o) ∧
    (Sys.start mem0).handles.needInit = true ∧ s'.handles.needInit = false := by
  have h : (match (Call.packSize 1 (-1) 1).answer env0 (Sys.start mem0) with | .ok x => !x.1.handles.needInit | _ => false) = true := by
    decide +kernel
  split at h
  · rename_i x hx
    exact ⟨x.1, x.2, hx, rfl, by simpa using h⟩
  · cases h

end MpiSerial
