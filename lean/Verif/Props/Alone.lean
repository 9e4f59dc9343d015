import Verif.Spec.Alone
import Verif.Proofs.Demo
import Verif.Props.Twin
import Verif.Props.Coll

/-!
# C91: alone, there is nothing to choose
-/

set_option linter.unusedSimpArgs false
set_option autoImplicit false

namespace MpiSerial

theorem irecv_plain (env : Env) (s : Sys) (b n t d g c : Int) : MPI_Irecv env s b n t (plainSource d) g c = MPI_Irecv env s b n t d g c := by
  unfold plainSource
  split
  · next h => subst h; rfl
  · rfl

theorem iprobe_plain (s : Sys) (d g c : Int) (st : StPtr) : MPI_Iprobe s (plainSource d) g c st = MPI_Iprobe s d g c st := by
  unfold plainSource
  split
  · next h => subst h; rfl
  · rfl

/-- **C91 (one call).**  In every state, the call with the plainest choices does what the call does: the same state
afterwards, the same results, the same way of dying. -/
theorem C91_call (env : Env) (s : Sys) (c : Call) : c.plain.answer env s = c.answer env s := by
  cases c with
  | irecv b n t d g c => simp only [Call.plain, Call.answer, irecv_plain]
  | recv b n t d g c st => simp only [Call.plain, Call.answer, MPI_Recv, irecv_plain]
  | sendrecv b n t d g b' n' t' d' g' c st => simp only [Call.plain, Call.answer, MPI_Sendrecv, irecv_plain]
  | iprobe d g c st => simp only [Call.plain, Call.answer, iprobe_plain]
  | probe d g c st => simp only [Call.plain, Call.answer, MPI_Probe, iprobe_plain]
  | commCreate c g =>
    simp only [Call.plain, Call.answer, MPI_Comm_create, plainGroup]
    by_cases h : g = MPI_GROUP_NULL ∨ g = MPI_GROUP_EMPTY
    · simp only [if_pos h]; rfl
    · simp only [if_neg h]; rfl
  | commSplit c color key =>
    simp only [Call.plain, Call.answer, MPI_Comm_split, plainColor]
    by_cases h : color = MPI_UNDEFINED
    · simp only [if_pos h]; rfl
    · simp only [if_neg h]; rfl
  | intercommCreate a b c d e =>
    simp only [Call.plain]
    by_cases h : a = MPI_COMM_NULL ∧ c = MPI_COMM_NULL
    · rw [if_pos h]; simp only [Call.answer, MPI_Intercomm_create, if_pos h]; rfl
    · rw [if_neg h]; simp only [Call.answer, MPI_Intercomm_create, if_neg h]; rfl
  | _ => rfl

/-- Two calls that differ in their choices only do the same. -/
theorem C91_calls (env : Env) (s : Sys) {c d : Call} (h : c.plain = d.plain) : c.answer env s = d.answer env s := by
  rw [← C91_call env s c, h, C91_call]

theorem Call.plain_posts (c : Call) : c.plain.posts = c.posts := by
  cases c <;> first | rfl | (simp only [Call.plain]; split <;> rfl)

theorem Call.plain_requests (c : Call) : c.plain.requests = c.requests := by
  cases c <;> first | rfl | (simp only [Call.plain]; split <;> rfl)

theorem lastPost_plain (l : List Obs) (r : Int) : lastPost (l.map Obs.plain) r = lastPost l r := by
  induction l with
  | nil => rfl
  | cons o l ih =>
    unfold lastPost at ih ⊢
    rw [List.map_cons, List.findSome?_cons, List.findSome?_cons, ih]
    rw [show (Obs.plain o).call.posts = o.call.posts from Call.plain_posts o.call]
    rfl

theorem observe_plain (l : List Obs) (c : Call) (s : Sys) (o : Out) : observe (l.map Obs.plain) c.plain s o = (observe l c s o).plain := by
  have h : knownReceives (l.map Obs.plain) c.plain = knownReceives l c := by
    unfold knownReceives
    rw [Call.plain_requests]
    simp only [lastPost_plain]
  unfold observe
  rw [h]
  rfl

/-- **C91 (programs).**  Two programs that differ in such choices only see the same results and the same memory and end
in the same way: from any state, for any number of calls, whether well formed or not. -/
theorem C91_program (env : Env) {p q : Prog} (h : p.AlikePlain q) (n : Nat) : ∀ (l l' : List Obs) (s : Sys), l.map Obs.plain = l'.map Obs.plain →
    (p.run env n l s).1.map Obs.plain = (q.run env n l' s).1.map Obs.plain ∧ (p.run env n l s).2 = (q.run env n l' s).2 := by
  induction n with
  | zero => intro l l' s hl; exact ⟨hl, rfl⟩
  | succ n ih =>
    intro l l' s hl
    have hc := h l l' hl
    simp only [Prog.run]
    cases h1 : p l with
    | none =>
      rw [h1, Option.map_none] at hc
      rw [Option.map_eq_none_iff.mp hc.symm]
      exact ⟨hl, rfl⟩
    | some c =>
      rw [h1, Option.map_some] at hc
      obtain ⟨d, h2, hd⟩ := Option.map_eq_some_iff.mp hc.symm
      rw [h2]
      dsimp only
      rw [C91_calls env s hd]
      cases hx : c.answer env s with
      | ok x =>
        refine ih _ _ _ ?_
        rw [List.map_cons, List.map_cons, ← observe_plain, ← observe_plain, hl, hd]
      | abort t => exact ⟨hl, rfl⟩
      | exit t => exact ⟨hl, rfl⟩
      | ub t => exact ⟨hl, rfl⟩
      | hang => exact ⟨hl, rfl⟩

/-! ## Instances -/

/-- Calls that are fixed beforehand. -/
theorem script_alike {cs ds : List Call} (h : cs.map Call.plain = ds.map Call.plain) :
    Prog.AlikePlain (fun l => cs[l.length]?) (fun l => ds[l.length]?) := by
  intro l l' hl
  have hlen : l.length = l'.length := by
    have := congrArg List.length hl
    rwa [List.length_map, List.length_map] at this
  rw [← List.getElem?_map, ← List.getElem?_map, h, hlen]

def chooses : List Call :=
  [.init, .irecv 200 3 (-1) MPI_ANY_SOURCE 5 1, .send 100 3 (-1) 0 5 1, .wait 2 .null, .commSplit 1 7 9, .allreduce 100 300 3 (-1) 4 2]
def choosesPlain : List Call :=
  [.init, .irecv 200 3 (-1) 0 5 1, .send 100 3 (-1) 0 5 1, .wait 2 .null, .commSplit 1 0 0, .allreduce 100 300 3 (-1) 1 1]

/-- A receive from anywhere or from 0, a split by one colour or another, a sum or a product. -/
example (n : Nat) : (Prog.run env0 (fun l => chooses[l.length]?) n [] (.start memAll)).2 =
    (Prog.run env0 (fun l => choosesPlain[l.length]?) n [] (.start memAll)).2 :=
  (C91_program env0 (script_alike (cs := chooses) (ds := choosesPlain) rfl) n [] [] _ rfl).2

/-- They get to the end. -/
example : (Prog.run env0 (fun l => chooses[l.length]?) 6 [] (.start memAll)).1.length = 6 ∧
    (Prog.run env0 (fun l => chooses[l.length]?) 6 [] (.start memAll)).2 = none := by decide +kernel

/-- Tags, destinations and roots are not among these choices: the wildcard for the tag receives a message that a receive
for tag 6 does not, and there is no process 1. -/
theorem C91_needs_choices :
    (Call.recv 200 3 (-1) 0 MPI_ANY_TAG 1 .null).answer env0 H3.s ≠ (Call.recv 200 3 (-1) 0 6 1 .null).answer env0 H3.s ∧
    (Call.bcast 0 0 0 0 1).answer env0 H3.s ≠ (Call.bcast 0 0 0 1 1).answer env0 H3.s := by
  refine ⟨fun h => ?_, fun h => by cases h⟩
  have h := congrArg (fun r => r.fate.isNone) h
  revert h
  decide +kernel

end MpiSerial
