import Verif.Spec.FortMach
import Verif.Proofs.FortCalls
import Verif.Proofs.IdealStep
import Verif.Proofs.MachineStep

/-!
# Fortran programs on a machine: proofs
-/

set_option linter.unusedSimpArgs false
set_option autoImplicit false

namespace MpiSerial

open Spec.Fort
open Res (Rel)

/-! ## What completion calls leave alone -/

theorem put_kept {p q : StPtr} {src tag : Int} (h : p.put src tag = .ok q) : q.kept = p.kept := by
  cases p <;> simp only [StPtr.put] at h <;> cases h <;> rfl

theorem test_kept {s : Sys} {r : Int} {st : StPtr} {x : TestRes} (h : MPI_Test s r st = .ok x) : x.status.kept = st.kept := by
  unfold MPI_Test at h
  split at h
  · simp only [Res.bind_eq_ok] at h
    obtain ⟨q, h1, h2⟩ := h
    cases h2
    exact put_kept h1
  · simp only [Res.bind_eq_ok] at h
    obtain ⟨⟨s1, l⟩, _, q, _, h⟩ := h
    dsimp only at h
    split at h
    · simp only [Res.bind_eq_ok] at h
      obtain ⟨q', h1, t, _, h2⟩ := h
      cases h2
      exact put_kept h1
    · cases h
      rfl

theorem upd_kept {sts : StArr} {i : Nat} {p q : StPtr} (h1 : StArr.at sts i = .ok p) (h2 : q.kept = p.kept) :
    (sts.upd i q).ptrs.map StPtr.kept = sts.ptrs.map StPtr.kept := by
  unfold StArr.upd
  split
  · next l st =>
    simp only [StArr.at, Res.bind_eq_ok] at h1
    obtain ⟨st', h3, h4⟩ := h1
    cases h4
    have h5 : l[i]? = some st' := by
      unfold rd at h3
      split at h3 <;> cases h3
      assumption
    simp only [StArr.ptrs, Option.getD_some, List.map_map]
    rw [List.map_set]
    refine List.ext_getElem? fun j => ?_
    rw [List.getElem?_set]
    split
    · next e =>
      subst e
      rw [List.getElem?_map, h5]
      simp only [List.length_map]
      rw [if_pos (by exact (List.getElem?_eq_some_iff.mp h5).1)]
      simp only [Option.map_some]
      exact congrArg some h2
    · rfl
  · rfl

theorem testanyLoop_kept : ∀ (n i : Nat) {s : Sys} {rs : List Int} {st : StPtr} {x : Sys × List Int × Int × StPtr},
    testanyLoop n i s rs st = .ok x → x.2.1.length = rs.length ∧ x.2.2.2.kept = st.kept
  | 0, _, _, _, _, _, h => by cases h; exact ⟨rfl, rfl⟩
  | n + 1, i, s, rs, st, x, h => by
    simp only [testanyLoop, Res.bind_eq_ok] at h
    obtain ⟨r, _, y, h1, h2⟩ := h
    split at h2
    · cases h2
      exact ⟨List.length_set, test_kept h1⟩
    · have h3 := testanyLoop_kept n (i + 1) h2
      exact ⟨h3.1.trans List.length_set, h3.2.trans (test_kept h1)⟩

theorem testallLoop_kept : ∀ (n i : Nat) {s : Sys} {rs : List Int} {sts : StArr} {f : Int} {x : ArrRes × Int},
    testallLoop n i s rs sts f = .ok x → x.1.reqs.length = rs.length ∧ x.1.stats.ptrs.map StPtr.kept = sts.ptrs.map StPtr.kept
  | 0, _, _, _, _, _, _, h => by cases h; exact ⟨rfl, rfl⟩
  | n + 1, i, s, rs, sts, f, x, h => by
    simp only [testallLoop, Res.bind_eq_ok] at h
    obtain ⟨r, _, p, h0, y, h1, h2⟩ := h
    have h3 := testallLoop_kept n (i + 1) h2
    exact ⟨h3.1.trans List.length_set, h3.2.trans (upd_kept h0 (test_kept h1))⟩

theorem testsomeLoop_kept : ∀ (n i : Nat) {s : Sys} {rs : List Int} {sts : StArr} {f : Int} {x : ArrRes × Int},
    testsomeLoop n i s rs sts f = .ok x → x.1.reqs.length = rs.length ∧ x.1.stats.ptrs.map StPtr.kept = sts.ptrs.map StPtr.kept
  | 0, _, _, _, _, _, _, h => by cases h; exact ⟨rfl, rfl⟩
  | n + 1, i, s, rs, sts, f, x, h => by
    simp only [testsomeLoop, Res.bind_eq_ok] at h
    obtain ⟨r, _, p, h0, y, h1, h2⟩ := h
    have h3 := testsomeLoop_kept n (i + 1) h2
    exact ⟨h3.1.trans List.length_set, h3.2.trans (upd_kept h0 (test_kept h1))⟩

theorem waitallLoop_kept : ∀ (n i : Nat) {s : Sys} {rs : List Int} {sts : StArr} {x : ArrRes},
    waitallLoop n i s rs sts = .ok x → x.reqs.length = rs.length ∧ x.stats.ptrs.map StPtr.kept = sts.ptrs.map StPtr.kept
  | 0, _, _, _, _, _, h => by cases h; exact ⟨rfl, rfl⟩
  | n + 1, i, s, rs, sts, x, h => by
    simp only [waitallLoop, Res.bind_eq_ok] at h
    obtain ⟨r, _, p, h0, y, h1, h2⟩ := h
    split at h2
    · cases h2
    · have h3 := waitallLoop_kept n (i + 1) h2
      exact ⟨h3.1.trans List.length_set, h3.2.trans (upd_kept h0 (test_kept h1))⟩

theorem wait_kept {s : Sys} {r : Int} {st : StPtr} {x : Sys × Int × StPtr} (h : MPI_Wait s r st = .ok x) : x.2.2.kept = st.kept := by
  simp only [MPI_Wait, Res.bind_eq_ok] at h
  obtain ⟨y, h1, h2⟩ := h
  split at h2
  · cases h2
  · cases h2
    exact test_kept h1

theorem testany_kept {s : Sys} {n : Int} {rs : List Int} {i : Int} {st : StPtr} {x : Sys × List Int × Int × Int × StPtr}
    (h : MPI_Testany s n rs i st = .ok x) : x.2.1.length = rs.length ∧ x.2.2.2.2.kept = st.kept := by
  simp only [MPI_Testany, Res.bind_eq_ok] at h
  obtain ⟨y, h1, h2⟩ := h
  cases h2
  exact testanyLoop_kept _ _ h1

theorem waitany_kept {s : Sys} {n : Int} {rs : List Int} {i : Int} {st : StPtr} {x : Sys × List Int × Int × StPtr}
    (h : MPI_Waitany s n rs i st = .ok x) : x.2.1.length = rs.length ∧ x.2.2.2.kept = st.kept := by
  simp only [MPI_Waitany, Res.bind_eq_ok] at h
  obtain ⟨y, h1, h2⟩ := h
  split at h2
  · cases h2
  · cases h2
    exact testany_kept h1

theorem testsome_kept {s : Sys} {n : Int} {rs ix : List Int} {sts : StArr} {x : SomeRes} (h : MPI_Testsome s n rs ix sts = .ok x) :
    x.arr.reqs.length = rs.length ∧ x.indices = ix ∧ x.arr.stats.ptrs.map StPtr.kept = sts.ptrs.map StPtr.kept := by
  simp only [MPI_Testsome, Res.bind_eq_ok] at h
  obtain ⟨y, h1, h2⟩ := h
  cases h2
  have h3 := testsomeLoop_kept _ _ h1
  exact ⟨h3.1, rfl, h3.2⟩

/-- The statuses handed back by a completion call are those of the caller but for source and tag. -/
theorem Call.answer_kept {env : Env} {s s' : Sys} {o : MpiSerial.Out} {call : Call} (h : call.answer env s = .ok (s', o)) :
    o.done.map StPtr.kept = call.statuses.map StPtr.kept := by
  cases call <;> simp only [Call.answer, Res.bind_eq_ok, Call.statuses] at h ⊢ <;> try (obtain ⟨x, h1, h2⟩ := h; cases h2)
  case test => simpa [Out.ofDone] using test_kept h1
  case wait => simpa [Out.ofDone] using wait_kept h1
  case testany => simpa [Out.ofDone] using (testany_kept h1).2
  case waitany => simpa [Out.ofDone] using (waitany_kept h1).2
  case testall => exact (testallLoop_kept _ _ h1).2
  case waitall => exact (waitallLoop_kept _ _ h1).2
  case testsome => exact (testsome_kept h1).2.2
  case waitsome => exact (testsome_kept h1).2.2
  all_goals first | rfl | (cases h; rfl)

/-! ## The interface in terms of calls -/

/-- The outcome of a deed on the library. -/
def FDeed.run (env : Env) (s : Sys) : FDeed → Res (Sys × List Spec.Fort.Out)
  | .call k f => k.answer env s >>= fun x => .ok (x.1, f x.2)
  | .quiet r => r >>= fun outs => .ok (s, outs)

theorem Res.bind_then {α β γ : Type} {x : Res α} {f : α → β} {g : β → Res γ} : ((x >>= fun a => .ok (f a)) >>= g) = x >>= fun a => g (f a) := by
  cases x <;> rfl

theorem Res.Rel.comp {α β γ : Type} {R : α → β → Prop} {S : β → γ → Prop} {T : α → γ → Prop} {x : Res α} {y : Res β} {z : Res γ}
    (h1 : x.Rel R y) (h2 : y.Rel S z) (h : ∀ a b c, R a b → S b c → T a c) : x.Rel T z := by
  cases x <;> cases y <;> simp only [Res.Rel] at h1 <;> cases z <;> simp only [Res.Rel] at h2 ⊢
  all_goals first | exact h _ _ _ h1 h2 | exact h1.trans h2 | exact h1.elim | exact h2.elim | simp_all [Res.fate]

theorem obind_map {α β γ : Type} {x : Option α} {f : α → Option γ} {g : α → Option β} {F : β → γ} (h : ∀ a, x = some a → f a = (g a).map F) :
    x.bind f = (x.bind g).map F := by
  cases x with
  | none => rfl
  | some a => exact h a rfl

theorem status_vals (p : Int) (st : StPtr) : Spec.Fort.Out.status p st = Spec.Fort.Out.ints p st.vals := by
  cases st <;> rfl

theorem statuses_vals (p : Int) (sts : StArr) : Spec.Fort.Out.statuses p sts = Spec.Fort.Out.ints p (sts.ptrs.flatMap StPtr.vals) := by
  cases sts with
  | none => rfl
  | some l =>
    simp only [Spec.Fort.Out.statuses, Spec.Fort.Out.ints, StArr.ptrs, Option.getD_some, List.flatMap_map]
    rfl

theorem mapM_length {α β : Type} {f : α → Option β} : ∀ {l : List α} {r : List β}, l.mapM f = some r → r.length = l.length
  | [], r, h => by cases h; rfl
  | a :: l, r, h => by
    simp only [List.mapM_cons, Option.bind_eq_bind, Option.bind_eq_some_iff, Option.pure_def, Option.some.injEq] at h
    obtain ⟨b, _, r', h2, rfl⟩ := h
    simp [mapM_length h2]

theorem intsAt_length {bo : ByteOrder} {m : Mem} {p : Int} {n : Nat} {r : List Int} (h : intsAt bo m p n = some r) : r.length = n := by
  have := mapM_length h
  rwa [List.length_range] at this

theorem split_vals (v : Int) {ix rs : List Int} (k : List Int) {n : Nat} (h1 : ix.length = n) (h2 : rs.length = n) :
    ((v :: (ix ++ rs ++ k)).drop (n + 1)).take n = rs ∧ ((v :: (ix ++ rs ++ k)).drop 1).take n = ix := by
  constructor
  · rw [List.drop_succ_cons, List.append_assoc, ← h1, List.drop_left, h1, ← h2, List.take_left]
  · rw [List.drop_succ_cons, List.drop_zero, List.append_assoc, ← h1, List.take_left]

theorem FCall.meaning_eq (c : FEnv) (s : Sys) (fc : FCall) :
    fc.meaning c s = (fc.deed c s.mem).map (FDeed.run c.env s) := by
  cases fc <;> simp only [FCall.meaning, FCall.deed, Option.bind_eq_bind, Option.pure_def, Option.map_some]
  case waitany =>
    refine obind_map fun n _ => obind_map fun rs hr => obind_map fun i _ => obind_map fun st _ => ?_
    have hl := intsAt_length hr
    simp only [Option.map_some, FDeed.run, Call.answer, Res.bind_then]
    refine congrArg some (Res.bind_congr fun x hx => ?_)
    have h := (waitany_kept hx).1
    rw [hl] at h
    simp [Out.ofDone, status_vals, Out.doneAt, ← h]
  case testany =>
    refine obind_map fun n _ => obind_map fun rs hr => obind_map fun i _ => obind_map fun st _ => ?_
    have hl := intsAt_length hr
    simp only [Option.map_some, FDeed.run, Call.answer, Res.bind_then]
    refine congrArg some (Res.bind_congr fun x hx => ?_)
    have h := (testany_kept hx).1
    rw [hl] at h
    simp [Out.ofDone, status_vals, Out.doneAt, ← h]
  case testall =>
    refine obind_map fun n _ => obind_map fun rs hr => obind_map fun st _ => ?_
    have hl := intsAt_length hr
    simp only [Option.map_some, FDeed.run, Call.answer, Res.bind_then]
    refine congrArg some (Res.bind_congr fun x hx => ?_)
    have h := (testallLoop_kept _ _ hx).1
    rw [hl] at h
    simp [Out.ofDone, statuses_vals, Out.doneAt, ← h]
  case waitall =>
    refine obind_map fun n _ => obind_map fun rs hr => obind_map fun st _ => ?_
    have hl := intsAt_length hr
    simp only [Option.map_some, FDeed.run, Call.answer, Res.bind_then]
    refine congrArg some (Res.bind_congr fun x hx => ?_)
    have h := (waitallLoop_kept _ _ hx).1
    rw [hl] at h
    simp [Out.ofDone, statuses_vals, Out.doneAt, ← h]
  case testsome =>
    refine obind_map fun n _ => obind_map fun rs hr => obind_map fun ix hi => obind_map fun st _ => ?_
    have hl := intsAt_length hr
    have hj := intsAt_length hi
    simp only [Option.map_some, FDeed.run, Call.answer, Res.bind_then]
    refine congrArg some (Res.bind_congr fun x hx => ?_)
    obtain ⟨h, h', _⟩ := testsome_kept hx
    rw [hl] at h
    subst h'
    have h2 := split_vals x.outcount (x.arr.stats.ptrs.flatMap StPtr.kept) hj h
    simp only [Out.ofDone, statuses_vals, Out.doneAt, h2.1, h2.2, List.cons_append, List.headD_cons]
  case waitsome =>
    refine obind_map fun n _ => obind_map fun rs hr => obind_map fun ix hi => obind_map fun st _ => ?_
    have hl := intsAt_length hr
    have hj := intsAt_length hi
    simp only [Option.map_some, FDeed.run, Call.answer, Res.bind_then]
    refine congrArg some (Res.bind_congr fun x hx => ?_)
    obtain ⟨h, h', _⟩ := testsome_kept hx
    rw [hl] at h
    subst h'
    have h2 := split_vals x.outcount (x.arr.stats.ptrs.flatMap StPtr.kept) hj h
    simp only [Out.ofDone, statuses_vals, Out.doneAt, h2.1, h2.2, List.cons_append, List.headD_cons]
  all_goals
    repeat refine obind_map fun _ _ => ?_
    simp only [Option.map_some, FDeed.run, Call.answer, Call.exec, Res.bind_then, Res.ok_bind, Out.ofDone, status_vals, Out.doneAt,
      List.headD_cons, List.flatMap_cons, List.flatMap_nil, List.append_nil, List.tail_cons, List.cons_append, List.nil_append, List.getD_cons_succ, List.getD_cons_zero] <;> rfl

/-! ## Running on a machine -/

/-- Library and machine stay in step under `R` (whose first argument counts the calls made). -/
structure Implements {σ : Type} (env : Env) (K : FMachine σ) (R : Nat → Sys → σ → Prop) : Prop where
  mem : ∀ {k s x}, R k s x → s.mem = K.mem x
  setMem : ∀ {k s x}, R k s x → ∀ m, R (k + 1) { s with mem := m } (K.setMem x m)
  mono : ∀ {k s x}, R k s x → R (k + 1) s x
  answer : ∀ {k s x}, R k s x → k < 1073741823 → ∀ {call}, K.legal x call →
    (call.answer env s).Rel (fun a b => (∀ m, R (k + 1) { a.1 with mem := m } (K.setMem b.1 m)) ∧ R (k + 1) a.1 b.1 ∧
      a.2.vals = b.2.vals ∧ (K.receives x call → a.2.done = b.2.done)) (K.answer x call)

section
variable {σ : Type} {K : FMachine σ} {c : FEnv} {R : Nat → Sys → σ → Prop} {k : Nat} {s : Sys} {x : σ}

/-- The library does what the machine may do. -/
def Follows (K : FMachine σ) (c : FEnv) (R : Nat → Sys → σ → Prop) (k : Nat) (x : σ) (st : FStep) (r : Res Sys) : Prop :=
  match r with
  | .ok s' => ∃ x', K.FStep c x st x' ∧ R k s' x'
  | r => K.FFate c x st = r.fate

theorem Performs.follows {fc : FCall} {r : Res (Sys × List Spec.Fort.Out)} (hp : Performs c.bo (fc.exec c s) r)
    (h1 : ∀ s' outs, r = .ok (s', outs) → ∃ x', K.FMoves c x fc x' outs ∧ s'.mem = K.mem x' ∧
      ∀ m, R k { s' with mem := m } (K.setMem x' m))
    (h2 : K.FFate c x (.call fc) = r.fate) : Follows K c R k x (.call fc) (fc.exec c s) := by
  cases r with
  | ok y =>
    obtain ⟨s', outs⟩ := y
    obtain ⟨m, h3, h4⟩ := hp
    obtain ⟨x', h5, h6, h7⟩ := h1 s' outs rfl
    rw [h3]
    exact ⟨K.setMem x' m, .call h5 (h6 ▸ h4), h7 m⟩
  | _ =>
    dsimp only [Performs] at hp
    rw [← hp] at h2
    cases he : fc.exec c s with
    | ok s' => rw [he] at hp; cases hp
    | _ => rw [he] at h2; exact h2

theorem step_follows (hi : Implements c.env K R) (hr : R k s x) (hk : k < 1073741823) {st : FStep} (hl : K.FLegal c x st) :
    Follows K c R (k + 1) x st (st.exec c s) := by
  cases st with
  | store m => exact ⟨K.setMem x m, .store m, hi.setMem hr m⟩
  | init a =>
    have h := hi.answer hr hk hl
    show Follows K c R (k + 1) x _ (mpi_init_fort c.env a s)
    have ha : (Call.fortInit a).answer c.env s = mpi_init_fort c.env a s >>= fun s' => .ok (s', ⟨[], []⟩) := rfl
    rw [ha] at h
    cases he : mpi_init_fort c.env a s with
    | ok s' =>
      rw [he] at h
      obtain ⟨⟨x', o⟩, h1, h2⟩ := h.ok_left rfl
      exact ⟨x', .init h1, h2.2.1⟩
    | _ =>
      rw [he] at h
      exact h.fate.symm
  | call fc =>
    obtain ⟨hs, ⟨d, hd⟩, hc, hv⟩ := hl
    have hm := fc.meaning_eq c s
    rw [hi.mem hr, hd, Option.map_some] at hm
    have key : (∀ s' outs, d.run c.env s = .ok (s', outs) → ∃ x', K.FMoves c x fc x' outs ∧ s'.mem = K.mem x' ∧
        ∀ m, R (k + 1) { s' with mem := m } (K.setMem x' m)) ∧ K.FFate c x (.call fc) = (d.run c.env s).fate := by
      cases d with
      | call call f =>
        have h := hi.answer hr hk (hc call f hd)
        refine ⟨fun s' outs ho => ?_, ?_⟩
        · simp only [FDeed.run, Res.bind_eq_ok] at ho
          obtain ⟨⟨s1, o⟩, h1, h2⟩ := ho
          cases h2
          obtain ⟨⟨x', o'⟩, h3, h4, h5, h6, h7⟩ := h.ok_left h1
          dsimp only at h4 h5 h6 h7
          have h8 := FMachine.FMoves.call hd h3 (done := o.done) ⟨Call.answer_kept h1, h7⟩
          rw [← h6] at h8
          exact ⟨x', h8, hi.mem h5, h4⟩
        · simp only [FMachine.FFate, hd, FDeed.run]
          rw [← h.fate]
          cases call.answer c.env s <;> rfl
      | quiet r =>
        refine ⟨fun s' outs ho => ?_, ?_⟩
        · simp only [FDeed.run, Res.bind_eq_ok] at ho
          obtain ⟨outs', h1, h2⟩ := ho
          cases h2
          subst h1
          exact ⟨x, .quiet hd, hi.mem hr, hi.setMem hr⟩
        · simp only [FMachine.FFate, hd, FDeed.run]
          cases r <;> rfl
    refine Performs.follows (FCall.performs (by rw [hi.mem hr]; exact hs) hm fun s' outs ho => ?_) key.1 key.2
    obtain ⟨x', h1, _⟩ := key.1 s' outs ho
    rw [hi.mem hr]
    exact hv x' outs h1

theorem run_may (hi : Implements c.env K R) {p : FProg} : ∀ (n k : Nat) (seen : List Mem) (s : Sys) (x : σ), R k s x →
    k + n ≤ 1073741823 → p.Conforms K c n seen x → p.May K c n seen x (p.run c n seen s) := by
  intro n
  induction n with
  | zero => intros; rfl
  | succ n ih =>
    intro k seen s x hr hk hc
    unfold FProg.run FProg.May
    cases hp : p seen with
    | none => rfl
    | some st =>
      obtain ⟨h1, h2⟩ := hc st hp
      have h3 := step_follows hi hr (by omega) h1
      dsimp only
      cases he : st.exec c s with
      | ok s' =>
        rw [he] at h3
        obtain ⟨x', h4, h5⟩ := h3
        have h6 := ih (k + 1) (K.mem x' :: seen) s' x' h5 (by omega) (h2 x' h4)
        dsimp only
        rw [hi.mem h5]
        exact .inl ⟨x', h4, h6⟩
      | _ =>
        rw [he] at h3
        exact .inr ⟨_, h3, rfl⟩

end

/-! ## The two machines -/

/-- The library in step with the reference machine after at most `k` calls. -/
structure InStep (env : Env) (k : Nat) (s : Sys) (M : Mach) : Prop where
  sim : Sim env s M
  ncomms : M.L.ncomms ≤ k
  unmatched : M.L.unmatched ≤ 2 * k

theorem InStep.answer {env : Env} {k : Nat} {s : Sys} {M : Mach} (h : InStep env k s M) (hk : k < 1073741823) {call : Call}
    (hc : call.Wf env M.L) : (call.answer env s).Rel (fun a b => InStep env (k + 1) a.1 b.1 ∧ a.2.vals = b.2.vals ∧
      (call.onlyReceives M.L → a.2.done = b.2.done)) (M.answer env call) := by
  have h1 := h.ncomms
  have h2 := h.unmatched
  have hrm : Room M.L := ⟨by omega, by omega, by omega⟩
  refine (Call.sim h.sim hrm call hc).mono fun a b _ _ ha => ?_
  have h3 := ha.room.1
  have h4 := ha.room.2
  exact ⟨⟨ha.sim, by omega, by omega⟩, ha.vals, ha.done⟩

theorem mach_implements (env : Env) : Implements env (Mach.machine env) (InStep env) where
  mem h := h.sim.mem
  setMem h m := ⟨(h.sim.withMem m).sim, Nat.le_succ_of_le h.ncomms, by have := h.unmatched; show _ ≤ _; dsimp only [Mach.machine]; omega⟩
  mono h := ⟨h.sim, Nat.le_succ_of_le h.ncomms, by have := h.unmatched; omega⟩
  answer h hk _ hc := (h.answer hk hc).mono fun a b _ _ ⟨h1, h2, h3⟩ =>
    ⟨fun m => ⟨(h1.sim.withMem m).sim, h1.ncomms, h1.unmatched⟩, h1, h2, h3⟩

/-- The library in step with the machine of the standard. -/
def InStepI (env : Env) (k : Nat) (s : Sys) (I : Ideal) : Prop := ∃ M, InStep env k s M ∧ Mirror env.cfg M I

theorem Mirror.receives {cfg : Cfg} {M : Mach} {I : Ideal} (hm : Mirror cfg M I) {call : Call} (h : call.onlyReceives I.core.L) :
    call.onlyReceives M.L := by
  intro r hr i o h1 h2
  refine h r hr i o ?_ (by rw [hm.core.ops]; exact h2)
  rw [hm.core.objs]
  exact List.mem_filter.mpr ⟨h1, rfl⟩

theorem ideal_implements {env : Env} (hc : env.cfg.Ok) (hz : ZeroGarbage env) : Implements env (Ideal.machine env) (InStepI env) where
  mem := fun ⟨_, h1, h2⟩ => h1.sim.mem.trans h2.core.mem.symm
  setMem := fun ⟨M, h1, h2⟩ m => ⟨_, (mach_implements env).setMem h1 m, h2.withMem m⟩
  mono := fun ⟨M, h1, h2⟩ => ⟨M, (mach_implements env).mono h1, h2⟩
  answer := fun ⟨M, h1, h2⟩ hk call hl => by
    have h3 := h1.answer hk (wf_of_legal hc h2 hl)
    have h4 := Call.ideal hc hz h2 hl
    refine Rel.comp h3 h4 fun a b d ⟨h5, h6, h7⟩ ⟨h8, h9⟩ => ?_
    refine ⟨fun m => ⟨_, ⟨(h5.sim.withMem m).sim, h5.ncomms, h5.unmatched⟩, h8.withMem m⟩, ⟨_, h5, h8⟩, ?_, fun hr => ?_⟩
    · rw [h6, h9]
    · rw [h7 (h2.receives hr), h9]

end MpiSerial
