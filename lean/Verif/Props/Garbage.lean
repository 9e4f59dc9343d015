import Verif.Proofs.Garbage
import Verif.Props.Twin

/-!
# C79: what malloc'ed memory held before
-/

set_option autoImplicit false

namespace MpiSerial

/-- The runs agree from any two states whose descriptors are alike. -/
theorem Prog.run_like {P : Prop} {env : Env} {gs : Nat → Garbage} (hg : ∀ n, (env.garbage n).Like P (gs n)) {p : Prog}
    (hc : ∀ seen c, p seen = some c → c.Consts) (n : Nat) :
    ∀ (seen : List Obs) (s : Sys) (H H' : THeap), THeap.Like P H H' → (P ∨ p.NoEmpty env n seen (s.hp H)) →
      p.run env n seen (s.hp H) = p.run (env.withGarbage gs) n seen (s.hp H') := by
  induction n with
  | zero => intros; rfl
  | succ n ih =>
    intro seen s H H' hH hu
    simp only [Prog.run]
    cases hp : p seen with
    | none => rfl
    | some c =>
      have ht := answer_tw hH hg s c (hc _ _ hp) (hu.imp id fun h => (h c hp).1)
      unfold Tw at ht
      have hf := ht.fate
      dsimp only
      cases h : c.answer env (s.hp H) with
      | ok x =>
        obtain ⟨y, hy, z, K, K', rfl, rfl, hK⟩ := ht.ok_left h
        rw [hy]
        exact ih _ z.1 K K' hK (hu.imp id fun h' => (h' c hp).2 _ _ h)
      | _ =>
        rw [h] at hf
        cases h' : c.answer (env.withGarbage gs) (s.hp H') <;> rw [h'] at hf <;> cases hf <;> rfl

/-- C79 (partial): over two mallocs whose memory differs, every program sees the same numbers, statuses and data and dies in the same
way if it does, provided that at every allocation the two never-initialised flags read as zero in both or in none, and that
either the never-initialised first pair reads as a bound marker in both or in none or the program builds no datatype from one without entries.
The programs are arbitrary otherwise: they may make calls with wrong arguments.
Missing: flags and markers that differ, for which it is false (`C79_fails_flags`, `C79_fails_empty`). -/
theorem C79_runs_partial {env : Env} {gs : Nat → Garbage} {p : Prog} {n : Nat} {m : Mem}
    (hg : ∀ k, (env.garbage k).SameFlags (gs k))
    (hm : (∀ k, SameMark ((env.garbage k).pair 0).type ((gs k).pair 0).type) ∨ p.NoEmpty env n [] (Sys.start m))
    (hc : ∀ seen c, p seen = some c → c.Consts) :
    p.run env n [] (Sys.start m) = p.run (env.withGarbage gs) n [] (Sys.start m) := by
  have h0 : ∀ P, THeap.Like P (Sys.start m).theap (Sys.start m).theap := fun P k => .inl ⟨rfl, rfl⟩
  rcases hm with hm | hm
  · exact Prog.run_like (P := True) (fun k => ⟨hg k, fun _ => hm k⟩) hc n [] (Sys.start m) _ _ (h0 _) (.inl trivial)
  · exact Prog.run_like (P := False) (fun k => ⟨hg k, nofun⟩) hc n [] (Sys.start m) _ _ (h0 _) (.inr hm)

/-- C79 (partial), with what C56 says about the storage of requests: no memory the library takes from malloc or takes up again shows in
the run of a well-formed program whose descriptors are alike in flags and first marker. -/
theorem C79_malloc_partial {env : Env} {gs : Nat → Garbage} {j : Nat → ReqRec} {p : Prog} {n : Nat} {m : Mem} (hn : n ≤ 1073741823)
    (hp : p.Wf env n [] (Sys.start m)) (hg : ∀ k, (env.garbage k).SameFlags (gs k))
    (hm : ∀ k, SameMark ((env.garbage k).pair 0).type ((gs k).pair 0).type) (hc : ∀ seen c, p seen = some c → c.Consts) :
    p.run env n [] (Sys.start m) = p.run ((env.withJunk j).withGarbage gs) n [] (Sys.start m) :=
  (C56_program hn hp).trans (C79_runs_partial (env := env.withJunk j) hg (.inl hm) hc)

/-- All calls but those of the constructors with a component and of `mpi_init` are free of conditions. -/
example (env : Env) (s : Sys) (a b c d e : Int) (st : StPtr) : (Call.recv a b c d e 1 st).NoEmpty env s := trivial

/-! ## An instance -/

/-- Builds, with a component of two entries, a vector of three; sends one of these and measures it. -/
def buildsVector : Prog
  | [] => some .init
  | [_] => some (.typeStruct 2 [1, 1] [0, 4] [-3, -1])
  | [r, _] => some (.typeVector 3 1 2 (r.vals.headD 0))
  | [r, _, _] => some (.typeCommit (r.vals.headD 0))
  | [_, r, _, _] => some (.isend 100 1 (r.vals.headD 0) 0 5 1)
  | [_, _, r, _, _] => some (.recv 200 1 (r.vals.headD 0) 0 5 1 st0)
  | [_, _, _, r, _, _] => some (.typeExtent (r.vals.headD 0))
  | _ => none

/-- Memory from malloc that holds whatever is wished, except that the two flags read as zero. -/
def envDirty (f : Nat → Nat → Pair) : Env := env0.withGarbage fun k => ⟨0, 0, f k⟩

theorem buildsVector_consts (seen : List Obs) (c : Call) (h : buildsVector seen = some c) : c.Consts := by
  unfold buildsVector at h
  split at h <;> cases h <;> trivial

/-- The pairs are never read before they are written. -/
example (f : Nat → Nat → Pair) (hf : ∀ k, (f k 0).type ≠ 12 ∧ (f k 0).type ≠ 13) :
    buildsVector.run env0 7 [] (Sys.start mem0) = buildsVector.run (envDirty f) 7 [] (Sys.start mem0) :=
  C79_runs_partial (fun _ => ⟨Iff.rfl, Iff.rfl⟩)
    (.inl fun k => ⟨⟨nofun, fun h => absurd h (hf k).1⟩, ⟨nofun, fun h => absurd h (hf k).2⟩⟩) buildsVector_consts

/-- What the program sees (newest first). -/
example : (buildsVector.run env0 7 [] (Sys.start mem0)).2 = none ∧
    (buildsVector.run env0 7 [] (Sys.start mem0)).1.map Obs.vals = [[40], [0, 5, 0, 1], [4], [], [3], [2], []] := by
  decide +kernel

/-- `Call.NoEmpty`, computed. -/
def Call.noEmpty (env : Env) (s : Sys) : Call → Bool
  | .typeContiguous _ t | .typeHvector _ _ _ t | .typeVector _ _ _ t | .typeHindexed _ _ _ t | .typeIndexed _ _ _ t
  | .typeIndexedBlock _ _ _ t => match typeOf env s t with | .ok x => decide (x.2.count ≠ 0) | _ => true
  | .typeStruct n _ _ ts => match structTypes env ts n.toNat 0 s with | .ok x => x.2.all fun d => decide (d.count ≠ 0) | _ => true
  | _ => true

theorem Call.noEmpty_ok {env : Env} {s : Sys} {c : Call} (h : c.noEmpty env s = true) : c.NoEmpty env s := by
  cases c <;> simp only [Call.noEmpty] at h <;> simp only [Call.NoEmpty] <;> intro s' d he <;> rw [he] at h
  case typeStruct => exact fun x hx => of_decide_eq_true (List.all_eq_true.mp h x hx)
  all_goals exact of_decide_eq_true h

/-- `Prog.NoEmpty`, computed. -/
def Prog.noEmpty (env : Env) (p : Prog) : Nat → List Obs → Sys → Bool
  | 0, _, _ => true
  | n + 1, seen, s =>
    match p seen with
    | none => true
    | some c => c.noEmpty env s && match c.answer env s with | .ok x => p.noEmpty env n (observe seen c x.1 x.2 :: seen) x.1 | _ => true

theorem Prog.noEmpty_ok {env : Env} {p : Prog} : ∀ {n : Nat} {seen : List Obs} {s : Sys}, p.noEmpty env n seen s = true → p.NoEmpty env n seen s
  | 0, _, _, _ => trivial
  | n + 1, seen, s, h => by
    intro c hc
    simp only [Prog.noEmpty, hc, Bool.and_eq_true] at h
    refine ⟨Call.noEmpty_ok h.1, fun s' o ho => ?_⟩
    have := h.2
    rw [ho] at this
    exact Prog.noEmpty_ok this

/-- It builds nothing from a datatype without entries, so nothing in the pairs matters. -/
example (f : Nat → Nat → Pair) : buildsVector.run env0 7 [] (Sys.start mem0) = buildsVector.run (envDirty f) 7 [] (Sys.start mem0) :=
  C79_runs_partial (fun _ => ⟨Iff.rfl, Iff.rfl⟩) (.inr (Prog.noEmpty_ok (by decide +kernel))) buildsVector_consts

/-- Both kinds of leftovers at once. -/
example (j : Nat → ReqRec) (f : Nat → Nat → Pair) (hf : ∀ k, (f k 0).type ≠ 12 ∧ (f k 0).type ≠ 13) :
    twoWaits.run env0 6 [] (Sys.start mem0) =
      twoWaits.run ((env0.withJunk j).withGarbage fun k => ⟨0, 0, f k⟩) 6 [] (Sys.start mem0) :=
  C79_malloc_partial (by decide) twoWaits_wf (fun _ => ⟨Iff.rfl, Iff.rfl⟩)
    (fun k => ⟨⟨nofun, fun h => absurd h (hf k).1⟩, ⟨nofun, fun h => absurd h (hf k).2⟩⟩) (by
      intro seen c h
      unfold twoWaits at h
      split at h <;> cases h <;> trivial)

/-! ## The conditions are needed -/

/-- `{int at 0, char at 4}`, measured. -/
def measuresPair : Prog
  | [] => some .init
  | [_] => some (.typeStruct 2 [1, 1] [0, 4] [-3, -1])
  | [r, _] => some (.typeExtent (r.vals.headD 0))
  | _ => none

/-- C79 fails: whether the extent is rounded up depends on the flags, which are set but never cleared (type.c:362-383). -/
theorem C79_fails_flags :
    (measuresPair.run env0 3 [] (Sys.start mem0)).1.map Obs.vals = [[8], [2], []] ∧
    (measuresPair.run (env0.withGarbage fun _ => ⟨1, 0, fun _ => ⟨0, 0⟩⟩) 3 [] (Sys.start mem0)).1.map Obs.vals = [[5], [2], []] :=
  ⟨by decide +kernel, by decide +kernel⟩

/-- A struct of a datatype without entries at -8 and an int at 0: its lower bound and extent. -/
def measuresEmpty : Prog
  | [] => some .init
  | [_] => some (.typeContiguous 0 (-3))
  | [r, _] => some (.typeStruct 2 [1, 1] [-8, 0] [r.vals.headD 0, -3])
  | [r, _, _] => some (.typeLb (r.vals.headD 0))
  | [_, r, _, _] => some (.typeExtent (r.vals.headD 0))
  | _ => none

/-- C79 fails: `Type_struct` looks at `pairs[0].type` of every component (type.c:280, 286, 326-327), also of one without entries, where
nothing was ever written.  If 12 is there, the empty datatype counts as MPI_LB: the lower bound is -8 instead of 0. -/
theorem C79_fails_empty :
    (measuresEmpty.run env0 5 [] (Sys.start mem0)).1.map Obs.vals = [[4], [0], [3], [2], []] ∧
    (measuresEmpty.run (env0.withGarbage fun _ => ⟨0, 0, fun _ => ⟨0, 12⟩⟩) 5 [] (Sys.start mem0)).1.map Obs.vals =
      [[12], [u64 (-8)], [3], [2], []] :=
  ⟨by decide +kernel, by decide +kernel⟩

end MpiSerial
