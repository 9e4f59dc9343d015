import Verif.Proofs.NoStatus
import Verif.Props.Arrays
import Verif.Props.Twin

/-!
# C89: statuses may be ignored

`MPI_STATUS_IGNORE` and `MPI_STATUSES_IGNORE` are null pointers (mpi.h:193-194).  The calls with one status test for that
(req.c:25, 41, recv.c:137, probe.c:52); the array calls pass on the address of the i-th element of the array (req.c:168, 201, 236), which is not null
any more for i > 0.
-/

set_option autoImplicit false

namespace MpiSerial

open Res (Post)

/-- **C89 (one call).**  Ignoring the status changes nothing else: the state afterwards, the other results and the way of dying are the same, in every
state.  For the array calls only with one request; see the three theorems on what goes wrong. -/
theorem C89_call_partial (env : Env) (s : Sys) (c : Call) (hc : c.HasStatus) :
    c.ignoring.answer env s = c.answer env s >>= fun x => .ok (x.1, x.2.ignoring c) :=
  answer_ignoring env s c hc

theorem Call.ignoring_posts (c : Call) : c.ignoring.posts = c.posts := by cases c <;> rfl
theorem Call.ignoring_requests (c : Call) : c.ignoring.requests = c.requests := by cases c <;> rfl

theorem posts_ownVals {c : Call} (h : c.posts ≠ none) (v : List Int) : c.ownVals v = v := by
  cases c <;> first | rfl | exact absurd rfl h

theorem lastPost_ignoring (l : List Obs) (r : Int) : lastPost (l.map Obs.ignoring) r = lastPost l r := by
  induction l with
  | nil => rfl
  | cons o l ih =>
    unfold lastPost at ih ⊢
    rw [List.map_cons, List.findSome?_cons, List.findSome?_cons, ih]
    rw [show (Obs.ignoring o).call.posts = o.call.posts from Call.ignoring_posts o.call]
    by_cases h : o.call.posts = none
    · rw [h]
      simp
    · rw [show (Obs.ignoring o).vals = o.vals from posts_ownVals h _]

theorem ownStats_nil (c : Call) : c.ownStats [] = [] := by
  cases c <;> first | rfl | (unfold Call.ownStats; dsimp only; split <;> rfl)

theorem observe_ignoring (l : List Obs) (c : Call) (s : Sys) (o : Out) :
    observe (l.map Obs.ignoring) c.ignoring s (o.ignoring c) = (observe l c s o).ignoring := by
  have h : knownReceives (l.map Obs.ignoring) c.ignoring = knownReceives l c := by
    unfold knownReceives
    rw [Call.ignoring_requests]
    simp only [lastPost_ignoring]
  unfold observe
  rw [h]
  unfold Obs.ignoring Out.ignoring
  dsimp only
  cases knownReceives l c
  · rw [if_neg (by decide), if_neg (by decide), ownStats_nil]
  · rfl

/-- **C89 (programs).**  A program that makes no use of its statuses may ignore them: it makes the same calls, sees the same results
and the same memory, and ends in the same way.  From any state, any number of calls, whether well formed or not. -/
theorem C89_program_partial (env : Env) {p q : Prog} (hpq : p.IgnoringTo q) (hp : ∀ l c, p l = some c → c.HasStatus) (n : Nat) :
    ∀ (l : List Obs) (s : Sys), q.run env n (l.map Obs.ignoring) s = ((p.run env n l s).1.map Obs.ignoring, (p.run env n l s).2) := by
  induction n with
  | zero => intro l s; rfl
  | succ n ih =>
    intro l s
    simp only [Prog.run]
    rw [hpq l]
    cases hc : p l with
    | none => rfl
    | some c =>
      dsimp only [Option.map_some]
      rw [C89_call_partial env s c (hp l c hc)]
      cases hx : c.answer env s with
      | ok x =>
        have := ih (observe l c x.1 x.2 :: l) x.1
        rw [List.map_cons, ← observe_ignoring] at this
        exact this
      | abort t => rfl
      | exit t => rfl
      | ub t => rfl
      | hang => rfl

/-! ## Arrays of two or more requests -/

theorem test_bad_flag (s : Sys) (h : Int) : (MPI_Test s h .bad).Post fun r => r.flag = 0 := by
  unfold MPI_Test
  refine .ite .ub (Post.bind_ fun x => Post.bind_ fun r => ?_)
  split
  · exact .ub
  · next h => exact .ok (Decidable.byContradiction h)

/-- **C89 is false for MPI_Waitall.**  With MPI_STATUSES_IGNORE and two or more requests it never returns, whatever the requests and their state. -/
theorem C89_fails_waitall (s : Sys) {n : Int} (hn : 2 ≤ n) (rs : List Int) (a : ArrRes) : MPI_Waitall s n rs none ≠ .ok a := by
  obtain ⟨k, hk⟩ : ∃ k, n.toNat = k + 2 := ⟨n.toNat - 2, by omega⟩
  unfold MPI_Waitall
  rw [hk]
  refine (?_ : (waitallLoop (k + 2) 0 s rs none).Post fun _ => False) a
  unfold waitallLoop
  refine Post.bind_ fun h => Post.bind_ fun p => Post.bind_ fun r => .ite .abort ?_
  unfold waitallLoop
  refine Post.bind_ fun h => Post.bind (P := fun p => p = .bad) (.ok rfl) fun p hp => ?_
  subst hp
  refine Post.bind (test_bad_flag _ _) fun r hr => ?_
  rw [if_pos hr]
  exact .abort

theorem testallLoop_none (n : Nat) : ∀ (i : Nat) (s : Sys) (rs : List Int) (f : Int), (0 < n ∨ f = 0) →
    (testallLoop n (i + 1) s rs none f).Post fun x => x.2 = 0 := by
  induction n with
  | zero => intro i s rs f h; exact .ok (h.resolve_left (Nat.lt_irrefl 0))
  | succ n ih =>
    intro i s rs f _
    unfold testallLoop
    refine Post.bind_ fun h => Post.bind (P := fun p => p = .bad) (.ok rfl) fun p hp => ?_
    subst hp
    refine Post.bind (test_bad_flag _ _) fun r hr => ?_
    rw [if_pos hr]
    exact ih (i + 1) _ _ 0 (.inr rfl)

/-- **C89 is false for MPI_Testall.**  With MPI_STATUSES_IGNORE and two or more requests it never says that they are complete. -/
theorem C89_fails_testall (s : Sys) {n : Int} (hn : 2 ≤ n) (rs : List Int) (a : ArrRes) (f : Int)
    (h : MPI_Testall s n rs none = .ok (a, f)) : f = 0 := by
  obtain ⟨k, hk⟩ : ∃ k, n.toNat = k + 2 := ⟨n.toNat - 2, by omega⟩
  unfold MPI_Testall at h
  rw [hk] at h
  refine (?_ : (testallLoop (k + 2) 0 s rs none 1).Post fun x => x.2 = 0) _ h
  unfold testallLoop
  exact Post.bind_ fun h => Post.bind_ fun p => Post.bind_ fun r => testallLoop_none (k + 1) 0 _ _ _ (.inl (Nat.succ_pos k))

theorem testsomeLoop_none (n : Nat) : ∀ (i : Nat) (s : Sys) (rs : List Int) (f : Int),
    (testsomeLoop n (i + 1) s rs none f).Post fun x => x.2 = f := by
  induction n with
  | zero => intro i s rs f; exact .ok rfl
  | succ n ih =>
    intro i s rs f
    unfold testsomeLoop
    refine Post.bind_ fun h => Post.bind (P := fun p => p = .bad) (.ok rfl) fun p hp => ?_
    subst hp
    refine Post.bind (test_bad_flag _ _) fun r hr => ?_
    rw [if_pos hr]
    exact ih (i + 1) _ _ f

/-- **C89 is false for MPI_Testsome and MPI_Waitsome.**  With MPI_STATUSES_IGNORE they never complete more than one request. -/
theorem C89_fails_testsome (s : Sys) (n : Int) (rs ix : List Int) (x : SomeRes)
    (h : MPI_Testsome s n rs ix none = .ok x ∨ MPI_Waitsome s n rs ix none = .ok x) : x.outcount = 0 ∨ x.outcount = 1 := by
  have h : MPI_Testsome s n rs ix none = .ok x := h.elim id id
  unfold MPI_Testsome at h
  refine (?_ : (_ >>= _ : Res SomeRes).Post fun x => x.outcount = 0 ∨ x.outcount = 1) _ h
  refine Post.bind (P := fun x => x.2 = 0 ∨ x.2 = 1) ?_ fun a ha => .ok ha
  cases n.toNat with
  | zero => exact .ok (.inl rfl)
  | succ k =>
    unfold testsomeLoop
    refine Post.bind_ fun h => Post.bind_ fun p => Post.bind_ fun r => ?_
    intro y hy
    rw [testsomeLoop_none k 0 _ _ _ y hy]
    split
    · exact .inl rfl
    · exact .inr rfl

/-! ## Examples -/

/-- `twoWaits` without statuses. -/
def twoWaitsIgnoring : Prog
  | [] => some .init
  | [_] => some (.irecv 200 3 (-1) 0 5 1)
  | [_, _] => some (.isend 100 3 (-1) 0 5 1)
  | [_, r, _] => some (.wait (r.vals.headD 0) .null)
  | [_, _, _, _] => some (.irecv 300 1 (-1) MPI_PROC_NULL 7 1)
  | [r, _, _, _, _] => some (.wait (r.vals.headD 0) .null)
  | _ => none

/-- `twoWaits` looks for its requests at the results of MPI_Irecv only. -/
def twoWaitsOwn : Prog := fun l => twoWaits (l.map fun o => { o with vals := o.call.ownVals o.vals })

theorem twoWaits_ignoring : twoWaitsOwn.IgnoringTo twoWaitsIgnoring := by
  intro l
  rcases l with _ | ⟨a, _ | ⟨b, _ | ⟨c, _ | ⟨d, _ | ⟨e, _ | ⟨f, l⟩⟩⟩⟩⟩⟩ <;> rfl

example : twoWaitsIgnoring.run env0 6 [] (Sys.start mem0)
    = ((twoWaitsOwn.run env0 6 [] (Sys.start mem0)).1.map Obs.ignoring, (twoWaitsOwn.run env0 6 [] (Sys.start mem0)).2) := by
  refine C89_program_partial env0 twoWaits_ignoring (fun l c h => ?_) 6 [] (Sys.start mem0)
  unfold twoWaitsOwn at h
  generalize (l.map fun o => ({ o with vals := o.call.ownVals o.vals } : Obs)) = k at h
  rcases k with _ | ⟨a, _ | ⟨b, _ | ⟨c, _ | ⟨d, _ | ⟨e, _ | ⟨f, l⟩⟩⟩⟩⟩⟩ <;> simp only [twoWaits, Option.some.injEq, reduceCtorEq] at h <;> subst h <;>
    simp [Call.HasStatus]

/-- Both programs wait for their two receives. -/
example : (twoWaitsIgnoring.run env0 6 [] (Sys.start mem0)).1.map (fun o => (o.vals, o.stats)) =
      [([0], [.null]), ([2], []), ([0], [.null]), ([3], []), ([2], []), ([], [])] ∧
    (twoWaitsOwn.run env0 6 [] (Sys.start mem0)).1.map (fun o => (o.vals, o.stats)) =
      [([0, 0, 0], [.obj ⟨-2, -1, 0, 0⟩]), ([2], []), ([0, 0, 0], [.obj ⟨0, 5, 0, 0⟩]), ([3], []), ([2], []), ([], [])] := by
  decide +kernel

/-- Two complete requests: MPI_Waitall, MPI_Testall and MPI_Testsome complete both, if there are statuses. -/
example : (MPI_Waitall H8.s 2 [5, 8] (some [st7, st7])).returned = true ∧ (MPI_Waitall H8.s 2 [5, 8] none).returned = false ∧
    ((MPI_Testall H8.s 2 [5, 8] (some [st7, st7])).getD (⟨H8.s, [], none⟩, 0)).2 = 1 ∧
    ((MPI_Testsome H8.s 2 [5, 8] [] (some [st7, st7])).getD ⟨⟨H8.s, [], none⟩, 0, []⟩).outcount = 2 := by
  decide +kernel

end MpiSerial
