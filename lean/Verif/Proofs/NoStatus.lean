import Verif.Spec.NoStatus
import Verif.Proofs.Twin
import Verif.Proofs.Inited

/-!
# Calls with and without a status
-/

set_option linter.unusedSimpArgs false
set_option autoImplicit false

namespace MpiSerial

open Res (Post)

/-- A result is determined by the other one. -/
theorem Res.Rel.eq_bind {α β : Type} {R : α → β → Prop} {x : Res α} {y : Res β} (h : x.Rel R y) {f : α → β}
    (hf : ∀ a b, R a b → b = f a) : y = x >>= fun a => .ok (f a) := by
  cases x <;> cases y <;> simp only [Res.Rel] at h <;> first | exact h.elim | skip
  · rw [hf _ _ h]; rfl
  all_goals first | (subst h; rfl) | rfl

theorem put_ign {p : StPtr} (hp : p ≠ .bad) (a b : Int) : (p.put a b).Rel (fun x y => x ≠ .bad ∧ y = .null) (StPtr.put .null a b) := by
  cases p with
  | null => exact ⟨nofun, rfl⟩
  | obj st => exact ⟨nofun, rfl⟩
  | bad => exact absurd rfl hp

def TestRes.Ign (r r' : TestRes) : Prop := r'.sys = r.sys ∧ r'.request = r.request ∧ r'.flag = r.flag ∧ r.status ≠ .bad ∧ r'.status = .null

theorem test_ignoring {p : StPtr} (hp : p ≠ .bad) (s : Sys) (h : Int) : (MPI_Test s h p).Rel TestRes.Ign (MPI_Test s h .null) := by
  unfold MPI_Test
  split
  · exact (put_ign hp _ _).bind fun a b _ _ hab => ⟨rfl, rfl, rfl, hab⟩
  · refine Res.Rel.bind_same fun x _ => ?_
    refine Res.Rel.bind_same fun r _ => ?_
    split
    · exact (put_ign hp _ _).bind fun a b _ _ hab => Res.Rel.bind_same fun t _ => ⟨rfl, rfl, rfl, hab⟩
    · exact ⟨rfl, rfl, rfl, hp, rfl⟩

def Ign3 (x y : Sys × Int × StPtr) : Prop := y.1 = x.1 ∧ y.2.1 = x.2.1 ∧ x.2.2 ≠ .bad ∧ y.2.2 = .null

theorem wait_ignoring {p : StPtr} (hp : p ≠ .bad) (s : Sys) (h : Int) : (MPI_Wait s h p).Rel Ign3 (MPI_Wait s h .null) := by
  unfold MPI_Wait
  refine (test_ignoring hp s h).bind fun a b _ _ hab => ?_
  obtain ⟨h1, h2, h3, h4, h5⟩ := hab
  rw [h3]
  split
  · rfl
  · exact ⟨h1, h2, h4, h5⟩

def Ign2 (x y : Sys × StPtr) : Prop := y.1 = x.1 ∧ x.2 ≠ .bad ∧ y.2 = .null

theorem recv_ignoring {p : StPtr} (hp : p ≠ .bad) (env : Env) (s : Sys) (b n t d g c : Int) :
    (MPI_Recv env s b n t d g c p).Rel Ign2 (MPI_Recv env s b n t d g c .null) := by
  unfold MPI_Recv
  refine Res.Rel.bind_same fun x _ => (wait_ignoring hp _ _).bind fun a b _ _ hab => ?_
  obtain ⟨h1, -, h3, h4⟩ := hab
  obtain ⟨s1, r1, p1⟩ := a
  obtain ⟨s2, r2, p2⟩ := b
  obtain rfl : p2 = .null := h4
  cases p1 with
  | null => exact ⟨h1, nofun, rfl⟩
  | obj st => exact ⟨h1, nofun, rfl⟩
  | bad => exact absurd rfl h3

theorem sendrecv_ignoring {p : StPtr} (hp : p ≠ .bad) (env : Env) (s : Sys) (b n t d g b' n' t' d' g' c : Int) :
    (MPI_Sendrecv env s b n t d g b' n' t' d' g' c p).Rel Ign2 (MPI_Sendrecv env s b n t d g b' n' t' d' g' c .null) := by
  unfold MPI_Sendrecv
  refine Res.Rel.bind_same fun x _ => Res.Rel.bind_same fun y _ => (wait_ignoring hp _ _).bind fun a b _ _ hab => ?_
  exact ⟨hab.1, hab.2.2⟩

theorem iprobe_ignoring {p : StPtr} (hp : p ≠ .bad) (s : Sys) (d g c : Int) : (MPI_Iprobe s d g c p).Rel Ign3 (MPI_Iprobe s d g c .null) := by
  unfold MPI_Iprobe
  refine Res.Rel.bind_same fun x _ => ?_
  dsimp only
  split
  · rfl
  · refine Res.Rel.bind_same fun x _ => Res.Rel.bind_same fun f _ => ?_
    cases f with
    | none => exact ⟨rfl, rfl, hp, rfl⟩
    | some item =>
      exact Res.Rel.bind_same fun x _ => Res.Rel.bind_same fun f _ => (put_ign hp _ _).bind fun a b _ _ hab => ⟨rfl, rfl, hab⟩

theorem probe_ignoring {p : StPtr} (hp : p ≠ .bad) (s : Sys) (d g c : Int) : (MPI_Probe s d g c p).Rel Ign2 (MPI_Probe s d g c .null) := by
  unfold MPI_Probe
  refine (iprobe_ignoring hp s d g c).bind fun a b _ _ hab => ?_
  obtain ⟨h1, h2, h3, h4⟩ := hab
  obtain ⟨s1, f1, p1⟩ := a
  obtain ⟨s2, f2, p2⟩ := b
  obtain rfl : f2 = f1 := h2
  dsimp only
  split
  · rfl
  · exact ⟨h1, h3, h4⟩

theorem testanyLoop_ignoring (n : Nat) : ∀ (i : Nat) (s : Sys) (reqs : List Int) {p : StPtr}, p ≠ .bad →
    (testanyLoop n i s reqs p).Rel (fun x y => y.1 = x.1 ∧ y.2.1 = x.2.1 ∧ x.2.1.length = reqs.length ∧ y.2.2.1 = x.2.2.1 ∧
      x.2.2.2 ≠ .bad ∧ y.2.2.2 = .null) (testanyLoop n i s reqs .null) := by
  induction n with
  | zero => intro i s reqs p hp; exact ⟨rfl, rfl, rfl, rfl, hp, rfl⟩
  | succ n ih =>
    intro i s reqs p hp
    unfold testanyLoop
    refine Res.Rel.bind_same fun h _ => (test_ignoring hp s h).bind fun a b _ _ hab => ?_
    obtain ⟨h1, h2, h3, h4, h5⟩ := hab
    rw [h1, h2, h3, h5]
    split
    · exact ⟨rfl, rfl, List.length_set, rfl, h4, rfl⟩
    · have := ih (i + 1) a.sys (reqs.set i a.request) h4
      rwa [List.length_set] at this

theorem testany_ignoring {p : StPtr} (hp : p ≠ .bad) (s : Sys) (n : Int) (rs : List Int) (i : Int) :
    (MPI_Testany s n rs i p).Rel (fun x y => y.1 = x.1 ∧ y.2.1 = x.2.1 ∧ x.2.1.length = rs.length ∧ y.2.2.1 = x.2.2.1 ∧
      y.2.2.2.1 = x.2.2.2.1 ∧ x.2.2.2.2 ≠ .bad ∧ y.2.2.2.2 = .null) (MPI_Testany s n rs i .null) := by
  unfold MPI_Testany
  refine (testanyLoop_ignoring _ _ _ _ hp).bind fun a b _ _ hab => ?_
  obtain ⟨h1, h2, h3, h4, h5⟩ := hab
  exact ⟨h1, h2, h3, rfl, h4, h5⟩

theorem waitany_ignoring {p : StPtr} (hp : p ≠ .bad) (s : Sys) (n : Int) (rs : List Int) (i : Int) :
    (MPI_Waitany s n rs i p).Rel (fun x y => y.1 = x.1 ∧ y.2.1 = x.2.1 ∧ x.2.1.length = rs.length ∧ y.2.2.1 = x.2.2.1 ∧
      x.2.2.2 ≠ .bad ∧ y.2.2.2 = .null) (MPI_Waitany s n rs i .null) := by
  unfold MPI_Waitany
  refine (testany_ignoring hp s n rs i).bind fun a b _ _ hab => ?_
  obtain ⟨h1, h2, h3, h4, h5, h6⟩ := hab
  obtain ⟨s1, r1, i1, f1, p1⟩ := a
  obtain ⟨s2, r2, i2, f2, p2⟩ := b
  obtain rfl : f2 = f1 := h5
  dsimp only
  split
  · rfl
  · exact ⟨h1, h2, h3, h4, h6⟩

/-! ## Arrays -/

def ArrRes.Ign (n : Nat) (x y : ArrRes) : Prop := y.sys = x.sys ∧ y.reqs = x.reqs ∧ x.reqs.length = n ∧ y.stats = none

theorem at_ign {sts : StArr} (h : sts ≠ some []) : (StArr.at sts 0).Rel (fun x y => x ≠ .bad ∧ y = .null) (StArr.at none 0) := by
  rcases sts with _ | _ | ⟨a, l⟩
  · exact ⟨nofun, rfl⟩
  · exact absurd rfl h
  · exact ⟨nofun, rfl⟩

theorem upd_none (i : Nat) (p : StPtr) : StArr.upd none i p = none := rfl

theorem testall_ignoring {n : Int} (hn : n ≤ 1) {sts : StArr} (hs : n ≤ 1 → sts ≠ some []) (s : Sys) (rs : List Int) :
    (MPI_Testall s n rs sts).Rel (fun x y => ArrRes.Ign rs.length x.1 y.1 ∧ y.2 = x.2) (MPI_Testall s n rs none) := by
  unfold MPI_Testall
  have : n.toNat = 0 ∨ n.toNat = 1 := by omega
  rcases this with h | h <;> rw [h]
  · exact ⟨⟨rfl, rfl, rfl, rfl⟩, rfl⟩
  · unfold testallLoop
    refine Res.Rel.bind_same fun h _ => (at_ign (hs hn)).bind fun p q _ _ hpq => ?_
    rw [hpq.2]
    refine (test_ignoring hpq.1 s h).bind fun a b _ _ hab => ?_
    obtain ⟨h1, h2, h3, h4, h5⟩ := hab
    rw [h1, h2, h3, h5]
    exact ⟨⟨rfl, rfl, List.length_set, rfl⟩, rfl⟩

theorem waitall_ignoring {n : Int} (hn : n ≤ 1) {sts : StArr} (hs : n ≤ 1 → sts ≠ some []) (s : Sys) (rs : List Int) :
    (MPI_Waitall s n rs sts).Rel (ArrRes.Ign rs.length) (MPI_Waitall s n rs none) := by
  unfold MPI_Waitall
  have : n.toNat = 0 ∨ n.toNat = 1 := by omega
  rcases this with h | h <;> rw [h]
  · exact ⟨rfl, rfl, rfl, rfl⟩
  · unfold waitallLoop
    refine Res.Rel.bind_same fun h _ => (at_ign (hs hn)).bind fun p q _ _ hpq => ?_
    rw [hpq.2]
    refine (test_ignoring hpq.1 s h).bind fun a b _ _ hab => ?_
    obtain ⟨h1, h2, h3, h4, h5⟩ := hab
    rw [h1, h2, h3, h5]
    split
    · rfl
    · exact ⟨rfl, rfl, List.length_set, rfl⟩

theorem testsome_ignoring {n : Int} (hn : n ≤ 1) {sts : StArr} (hs : n ≤ 1 → sts ≠ some []) (s : Sys) (rs ix : List Int) :
    (MPI_Testsome s n rs ix sts).Rel (fun x y => ArrRes.Ign rs.length x.arr y.arr ∧ y.outcount = x.outcount ∧ y.indices = ix ∧ x.indices = ix)
      (MPI_Testsome s n rs ix none) := by
  unfold MPI_Testsome
  have : n.toNat = 0 ∨ n.toNat = 1 := by omega
  rcases this with h | h <;> rw [h]
  · exact ⟨⟨rfl, rfl, rfl, rfl⟩, rfl, rfl, rfl⟩
  · unfold testsomeLoop
    refine Res.Rel.bind (R := fun (x y : ArrRes × Int) => ArrRes.Ign rs.length x.1 y.1 ∧ y.2 = x.2) ?_
      fun a b _ _ hab => ⟨hab.1, hab.2, rfl, rfl⟩
    refine Res.Rel.bind_same fun h _ => (at_ign (hs hn)).bind fun p q _ _ hpq => ?_
    rw [hpq.2]
    refine (test_ignoring hpq.1 s h).bind fun a b _ _ hab => ?_
    obtain ⟨h1, h2, h3, h4, h5⟩ := hab
    rw [h1, h2, h3, h5]
    exact ⟨⟨rfl, rfl, List.length_set, rfl⟩, rfl⟩

/-! ## All calls -/

theorem bind_ok_bind {α β γ : Type} (x : Res α) (f : α → β) (g : β → γ) :
    ((x >>= fun a => .ok (f a)) >>= fun b => .ok (g b)) = x >>= fun a => .ok (g (f a)) := by
  cases x <;> rfl

theorem answer_of_rel {α β : Type} {x : Res α} {y : Res β} {R : α → β → Prop} (h : x.Rel R y) {f : α → Sys × Out} {g : β → Sys × Out} {c : Call}
    (hf : ∀ a b, R a b → g b = ((f a).1, (f a).2.ignoring c)) :
    (y >>= fun b => .ok (g b)) = (x >>= fun a => .ok (f a)) >>= fun z => .ok (z.1, z.2.ignoring c) := by
  rw [bind_ok_bind]
  exact (Res.Rel.bind (S := fun a b => b = ((f a.1).1, (f a.1).2.ignoring c) ∧ a.2 = ()) (g := fun b => .ok (g b)) (f := fun a => .ok (a, ())) h
    fun a b _ _ hab => ⟨hf a b hab, rfl⟩).eq_bind (f := fun a => ((f a.1).1, (f a.1).2.ignoring c)) (fun a b hab => hab.1) |>.trans (bind_ok_bind _ _ _)

theorem take_appended {α : Type} (l k : List α) {n : Nat} (h : l.length = n) : (l ++ k).take n = l := by
  subst h; exact List.take_left

theorem ignoring_other {env : Env} {s : Sys} {c : Call} (h1 : c.ignoring = c) (h2 : ∀ v, c.ownVals v = v)
    (h3 : (c.answer env s).Post fun x => x.2.done = []) (h4 : c.ownStats [] = []) :
    c.ignoring.answer env s = c.answer env s >>= fun x => .ok (x.1, x.2.ignoring c) := by
  rw [h1]
  cases h : c.answer env s with
  | ok x =>
    obtain ⟨s', v, d⟩ := x
    obtain rfl : d = [] := h3 _ h
    show Res.ok _ = Res.ok (s', Out.mk (c.ownVals v) (c.ownStats []))
    rw [h2, h4]
  | abort t => rfl
  | exit t => rfl
  | ub t => rfl
  | hang => rfl

theorem answer_ignoring (env : Env) (s : Sys) (c : Call) (hc : c.HasStatus) :
    c.ignoring.answer env s = c.answer env s >>= fun x => .ok (x.1, x.2.ignoring c) := by
  cases c with
  | recv b n t d g c st =>
    exact answer_of_rel (recv_ignoring hc env s b n t d g c) fun a b h => by rw [h.1, h.2.2]; rfl
  | sendrecv b n t d g b' n' t' d' g' c st =>
    exact answer_of_rel (sendrecv_ignoring hc env s b n t d g b' n' t' d' g' c) fun a b h => by rw [h.1, h.2.2]; rfl
  | iprobe d g c st =>
    exact answer_of_rel (iprobe_ignoring hc s d g c) fun a b h => by rw [h.1, h.2.1, h.2.2.2]; rfl
  | probe d g c st =>
    exact answer_of_rel (probe_ignoring hc s d g c) fun a b h => by rw [h.1, h.2.2]; rfl
  | test r st =>
    exact answer_of_rel (test_ignoring hc s r) fun a b h => by rw [h.1, h.2.1, h.2.2.1, h.2.2.2.2]; rfl
  | wait r st =>
    exact answer_of_rel (wait_ignoring hc s r) fun a b h => by rw [h.1, h.2.1, h.2.2.2]; rfl
  | testany n rs i st =>
    refine answer_of_rel (testany_ignoring hc s n rs i) fun a b h => ?_
    obtain ⟨h1, h2, h3, h4, h5, h6, h7⟩ := h
    rw [h1, h2, h4, h5, h7]
    refine congrArg (Prod.mk _) ?_
    show Out.mk _ _ = Out.mk (List.take (rs.length + 2) _) _
    refine congr (congrArg Out.mk ?_) rfl
    unfold Out.ofDone
    dsimp only
    rw [take_appended _ _ (by simp only [List.length_cons, h3])]
    simp [StPtr.kept]
  | waitany n rs i st =>
    refine answer_of_rel (waitany_ignoring hc s n rs i) fun a b h => ?_
    obtain ⟨h1, h2, h3, h4, h5, h6⟩ := h
    rw [h1, h2, h4, h6]
    refine congrArg (Prod.mk _) ?_
    show Out.mk _ _ = Out.mk (List.take (rs.length + 1) _) _
    refine congr (congrArg Out.mk ?_) rfl
    unfold Out.ofDone
    dsimp only
    rw [take_appended _ _ (by simp only [List.length_cons, h3])]
    simp [StPtr.kept]
  | testall n rs sts =>
    by_cases hn : n ≤ 1
    · unfold Call.ignoring
      dsimp only
      rw [if_pos hn]
      refine answer_of_rel (testall_ignoring hn hc s rs) fun a b h => ?_
      obtain ⟨⟨h1, h2, h3, h4⟩, h5⟩ := h
      rw [h1, h2, h4, h5]
      refine congrArg (Prod.mk _) ?_
      unfold Out.ignoring Call.ownVals Call.ownStats
      dsimp only
      rw [if_pos hn, if_pos hn]
      unfold Out.ofDone
      dsimp only
      rw [take_appended _ _ (by simp only [List.length_cons, h3])]
      simp [StArr.ptrs]
    · unfold Call.ignoring Out.ignoring Call.ownVals Call.ownStats
      simp only [if_neg hn]
      cases Call.answer env s (.testall n rs sts) <;> rfl
  | waitall n rs sts =>
    by_cases hn : n ≤ 1
    · unfold Call.ignoring
      dsimp only
      rw [if_pos hn]
      refine answer_of_rel (waitall_ignoring hn hc s rs) fun a b h => ?_
      obtain ⟨h1, h2, h3, h4⟩ := h
      rw [h1, h2, h4]
      refine congrArg (Prod.mk _) ?_
      unfold Out.ignoring Call.ownVals Call.ownStats
      dsimp only
      rw [if_pos hn, if_pos hn]
      unfold Out.ofDone
      dsimp only
      rw [take_appended _ _ h3]
      simp [StArr.ptrs]
    · unfold Call.ignoring Out.ignoring Call.ownVals Call.ownStats
      simp only [if_neg hn]
      cases Call.answer env s (.waitall n rs sts) <;> rfl
  | testsome n rs ix sts =>
    by_cases hn : n ≤ 1
    · unfold Call.ignoring
      dsimp only
      rw [if_pos hn]
      refine answer_of_rel (testsome_ignoring hn hc s rs ix) fun a b h => ?_
      obtain ⟨⟨h1, h2, h3, h4⟩, h5, h6, h7⟩ := h
      rw [h1, h2, h4, h5, h6, h7]
      refine congrArg (Prod.mk _) ?_
      unfold Out.ignoring Call.ownVals Call.ownStats
      dsimp only
      rw [if_pos hn, if_pos hn]
      unfold Out.ofDone
      dsimp only
      rw [take_appended _ _ (by simp only [List.length_cons, List.length_append, List.cons_append, h3])]
      simp [StArr.ptrs]
    · unfold Call.ignoring Out.ignoring Call.ownVals Call.ownStats
      simp only [if_neg hn]
      cases Call.answer env s (.testsome n rs ix sts) <;> rfl
  | waitsome n rs ix sts =>
    by_cases hn : n ≤ 1
    · unfold Call.ignoring
      dsimp only
      rw [if_pos hn]
      refine answer_of_rel (testsome_ignoring hn hc s rs ix) fun a b h => ?_
      obtain ⟨⟨h1, h2, h3, h4⟩, h5, h6, h7⟩ := h
      rw [h1, h2, h4, h5, h6, h7]
      refine congrArg (Prod.mk _) ?_
      unfold Out.ignoring Call.ownVals Call.ownStats
      dsimp only
      rw [if_pos hn, if_pos hn]
      unfold Out.ofDone
      dsimp only
      rw [take_appended _ _ (by simp only [List.length_cons, List.length_append, List.cons_append, h3])]
      simp [StArr.ptrs]
    · unfold Call.ignoring Out.ignoring Call.ownVals Call.ownStats
      simp only [if_neg hn]
      cases Call.answer env s (.waitsome n rs ix sts) <;> rfl
  | initialized => rfl
  | _ => exact ignoring_other rfl (fun _ => rfl) (Post.bind_ fun _ => .ok rfl) rfl

end MpiSerial
