import Verif.Proofs.Tags
import Verif.Props.Twin

/-!
# C88: tags are names

The library keeps the tags it is given (send.c:86, recv.c:97), compares them with each other and with MPI_ANY_TAG (send.c:13-14,
recv.c:15-16, probe.c:6-7), and reports them in statuses (req.c:44, probe.c:55); nothing else, apart from printing them in debug builds.
-/

set_option autoImplicit false

namespace MpiSerial

variable {ρ : Int → Int}

/-- **C88 (one call).**  Calling with other numbers for the tags is calling and then renumbering the tags.  It holds for any state, also one
that cannot arise, and any call: it dies in the same way, or hands back the same results and leaves the library in the same state up to
the numbers of the tags. -/
theorem C88_call (hρ : TagRen ρ) (env : Env) (s : Sys) (c : Call) :
    (c.retag ρ).answer (env.retag ρ) (s.retag ρ) = c.answer env s >>= fun x => .ok (x.1.retag ρ, x.2.retag ρ c) :=
  answer_retag hρ env s c

theorem Call.retag_posts (c : Call) : (c.retag ρ).posts = c.posts := by cases c <;> rfl
theorem Call.retag_requests (c : Call) : (c.retag ρ).requests = c.requests := by cases c <;> rfl

theorem posts_retagVals {c : Call} (h : c.posts ≠ none) (v : List Int) : c.retagVals ρ v = v := by
  cases c <;> first | rfl | exact absurd rfl h

theorem lastPost_retag (l : List Obs) (r : Int) : lastPost (l.map (Obs.retag ρ)) r = lastPost l r := by
  induction l with
  | nil => rfl
  | cons o l ih =>
    unfold lastPost at ih ⊢
    rw [List.map_cons, List.findSome?_cons, List.findSome?_cons, ih]
    rw [show (Obs.retag ρ o).call.posts = o.call.posts from Call.retag_posts o.call]
    by_cases h : o.call.posts = none
    · rw [h]
      simp
    · rw [show (Obs.retag ρ o).vals = o.vals from posts_retagVals h _]

theorem observe_retag (l : List Obs) (c : Call) (s : Sys) (o : Out) :
    observe (l.map (Obs.retag ρ)) (c.retag ρ) (s.retag ρ) (o.retag ρ c) = (observe l c s o).retag ρ := by
  have h : knownReceives (l.map (Obs.retag ρ)) (c.retag ρ) = knownReceives l c := by
    unfold knownReceives
    rw [Call.retag_requests]
    simp only [lastPost_retag]
  unfold observe
  rw [h]
  unfold Obs.retag Out.retag
  dsimp only
  cases knownReceives l c <;> rfl

theorem run_retag (hρ : TagRen ρ) (env : Env) {p q : Prog} (hpq : p.RetaggedTo ρ q) (n : Nat) :
    ∀ (l : List Obs) (s : Sys), q.run (env.retag ρ) n (l.map (Obs.retag ρ)) (s.retag ρ)
      = ((p.run env n l s).1.map (Obs.retag ρ), (p.run env n l s).2) := by
  induction n with
  | zero => intro l s; rfl
  | succ n ih =>
    intro l s
    simp only [Prog.run]
    rw [hpq l]
    cases hc : p l with
    | none => rfl
    | some c =>
      dsimp only [Option.map_some]
      rw [C88_call hρ env s c]
      cases hx : c.answer env s with
      | ok x =>
        have := ih (observe l c x.1 x.2 :: l) x.1
        rw [List.map_cons, ← observe_retag] at this
        exact this
      | abort t => rfl
      | exit t => rfl
      | ub t => rfl
      | hang => rfl

/-- **C88 (programs).**  A program that uses other numbers for its tags - different ones for different tags - makes the same calls, with the other
tags, sees the same results, with the other tags, the same memory after every call, and dies in the same way.  For programs of fewer than
2^30 calls, all well formed. -/
theorem C88_program (hρ : TagRen ρ) (hsur : ∀ t, ∃ t', ρ t' = t) {env : Env} {p q : Prog} (hpq : p.RetaggedTo ρ q) {m : Mem} {n : Nat}
    (hn : n ≤ 1073741823) (hw : p.Wf env n [] (Sys.start m)) :
    q.run env n [] (Sys.start m) = ((p.run env n [] (Sys.start m)).1.map (Obs.retag ρ), (p.run env n [] (Sys.start m)).2) := by
  let j : Nat → ReqRec := fun k => { env.junk k with tag := (hsur (env.junk k).tag).choose }
  have he : (env.withJunk j).retag ρ = env := by
    have : (fun k => (j k).retag ρ) = env.junk := by
      funext k
      show ({ env.junk k with tag := ρ (hsur (env.junk k).tag).choose } : ReqRec) = env.junk k
      rw [(hsur (env.junk k).tag).choose_spec]
    exact congrArg (fun f => ({ env with junk := f } : Env)) this
  have h := run_retag hρ (env.withJunk j) hpq n [] (Sys.start m)
  rw [he, ← C56_program hn hw] at h
  exact h

/-! ## Examples -/

/-- 5 and 9 change places. -/
def swap59 (t : Int) : Int := if t = 5 then 9 else if t = 9 then 5 else t

theorem swap59_swap59 (t : Int) : swap59 (swap59 t) = t := by
  unfold swap59
  split
  · simp_all
  · split <;> simp_all

theorem swap59_ren : TagRen swap59 :=
  ⟨fun a b h => by rw [← swap59_swap59 a, h, swap59_swap59], rfl⟩

/-- `twoWaits` with tag `t` in the place of 5. -/
def twoWaitsTag (t : Int) : Prog
  | [] => some .init
  | [_] => some (.irecv 200 3 (-1) 0 t 1)
  | [_, _] => some (.isend 100 3 (-1) 0 t 1)
  | [_, r, _] => some (.wait (r.vals.headD 0) (.obj ⟨0, 0, 0, 0⟩))
  | [_, _, _, _] => some (.irecv 300 1 (-1) MPI_PROC_NULL 7 1)
  | [r, _, _, _, _] => some (.wait (r.vals.headD 0) (.obj ⟨0, 0, 0, 0⟩))
  | _ => none

theorem head_retagVals (c : Call) (v : List Int) : (c.retagVals ρ v).headD 0 = v.headD 0 := by
  rcases v with _ | ⟨a, v⟩ <;> cases c <;> rfl

theorem twoWaits_retagged : twoWaits.RetaggedTo swap59 (twoWaitsTag 9) := by
  intro l
  rcases l with _ | ⟨a, _ | ⟨b, _ | ⟨c, _ | ⟨d, _ | ⟨e, _ | ⟨f, l⟩⟩⟩⟩⟩⟩
  · rfl
  · rfl
  · rfl
  · show some (Call.wait ((b.call.retagVals swap59 b.vals).headD 0) _) = some (Call.wait (b.vals.headD 0) _)
    rw [head_retagVals]
    rfl
  · rfl
  · show some (Call.wait ((a.call.retagVals swap59 a.vals).headD 0) _) = some (Call.wait (a.vals.headD 0) _)
    rw [head_retagVals]
    rfl
  · rfl

example : (twoWaitsTag 9).run env0 6 [] (Sys.start mem0)
    = ((twoWaits.run env0 6 [] (Sys.start mem0)).1.map (Obs.retag swap59), (twoWaits.run env0 6 [] (Sys.start mem0)).2) :=
  C88_program swap59_ren (fun t => ⟨swap59 t, swap59_swap59 t⟩) twoWaits_retagged (by decide) twoWaits_wf

/-- The tag shows in the status of the receive, and nowhere else. -/
example : ((twoWaitsTag 9).run env0 6 [] (Sys.start mem0)).1.map (fun o => (o.vals, o.stats)) =
      [([0, 0, 0], [.obj ⟨-2, -1, 0, 0⟩]), ([2], []), ([0, 0, 0], [.obj ⟨0, 9, 0, 0⟩]), ([3], []), ([2], []), ([], [])] := by
  decide +kernel

/-- Two messages, and a receive for the second. -/
def sendTwo (a b : Int) : Prog
  | [] => some .init
  | [_] => some (.isend 100 1 (-1) 0 a 1)
  | [_, _] => some (.isend 101 1 (-1) 0 b 1)
  | [_, _, _] => some (.recv 200 1 (-1) 0 b 1 .null)
  | _ => none

/-- What the program finds at an address in the end. -/
def Prog.finds (p : Prog) (n : Nat) (a : Int) : Option UInt8 := ((p.run env0 n [] (Sys.start mem0)).1.head?).bind fun o => o.mem a

/-- Different tags must stay different, and no tag may become MPI_ANY_TAG: in both cases another message is received. -/
theorem C88_needs_ren : mem0 100 ≠ mem0 101 ∧ (sendTwo 5 9).finds 4 200 = mem0 101 ∧
    (sendTwo 5 5).finds 4 200 = mem0 100 ∧ (sendTwo 5 (-1)).finds 4 200 = mem0 100 := by
  decide +kernel

end MpiSerial
