import Verif.Proofs.LateLib
import Verif.Props.Messages

/-!
# C76: MPI_Type_free and MPI_Request_free may come late, or never
-/

set_option linter.unusedSimpArgs false
set_option autoImplicit false

namespace MpiSerial

section
variable {env : Env} {m : Mem} {p : Prog}

/-- C76: a layer between the program and the machine puts off some of the program's MPI_Type_free and MPI_Request_free calls
(those `off` tells it to), and makes up for some of these later (those `late` tells it to, in any order).  Unless the process runs
out of handle numbers, the program sees exactly what it sees without the layer, in every call, and is stopped in the same call and
in the same way if it is stopped. -/
theorem C76_machine (hst : env.Steady) (hc : p.whole.Correct env m) (off : List Obs → Bool) (late : List Obs → List Nat) (n : Nat) :
    (p.runLateM env off late n [] .start [] (.session m)).2 = some (.abort exhausted) ∨
      p.runLateM env off late n [] .start [] (.session m) = p.runNamed env .lifo n 0 [] .start (.session m) := by
  have h := Late.run off late hst hc n 0 [] .start [] _ (Late.start hc)
  rw [Nat.zero_add] at h
  exact h

/-- C76: it does not run out of handle numbers in its first 262141 calls. -/
theorem C76_bounded (hst : env.Steady) (hc : p.whole.Correct env m) (off : List Obs → Bool) (late : List Obs → List Nat) {n : Nat} (hn : n ≤ 262141) :
    p.runLateM env off late n [] .start [] (.session m) = p.runNamed env .lifo n 0 [] .start (.session m) := by
  refine (C76_machine hst hc off late n).resolve_left (Late.capacity off late hst hc n 0 [] .start [] _ (Late.start hc) ?_)
  show 1 + n ≤ 262142
  omega

/-- C76: the same on the library, after MPI_Init. -/
theorem C76_library (hst : env.Steady) (hc : p.whole.Correct env m) (off : List Obs → Bool) (late : List Obs → List Nat) {n : Nat} (hn : n ≤ 262141) :
    ∃ s o, Call.init.answer env (Sys.start m) = .ok (s, o) ∧
      p.runLateLib env off late n [] .start [] s = p.runNamedLib env n [] .start s := by
  have hm : (Mach.start m).answer env .init = .ok (.session m, ⟨[], []⟩) := by
    show Mach.quiet (Mach.start m).init = _
    rw [session_init]
    rfl
  have hrm : Room (Mach.start m).L := show Room Ledger.start by decide
  have key : ∀ (c : Call) (s : Sys) (M M' : Mach) (o : Out), Sim env s M → Room M.L → c.Wf env M.L → M.answer env c = .ok (M', o) →
      ∃ s' o', c.answer env s = .ok (s', o') ∧ Sim env s' M' := fun c s M M' o hs hr hw hm => by
    obtain ⟨⟨s', o'⟩, h1, h2⟩ := Res.Rel.ok_right (Call.sim hs hr c hw) hm
    exact ⟨s', o', h1, h2.sim⟩
  obtain ⟨s, o, h1, h2⟩ := key .init _ _ _ _ (Sim.start env m) hrm trivial hm
  refine ⟨s, o, h1, ?_⟩
  rw [late_sim off late hst hc n 1 0 [] .start [] s _ (Late.start hc) h2 (fun _ _ hm => (List.not_mem_nil hm).elim) (Nat.le_refl _) (Nat.zero_le _) (by omega),
    C76_bounded hst hc off late hn]
  obtain ⟨ps, hF⟩ := session_full m
  exact (named_sim n 1 0 [] .start s _ ps [] h2 hF ⟨rfl, rfl, rfl, .nil, .nil, .nil, (fun _ h => (List.not_mem_nil h).elim), Int.le_refl _,
      fun _ h => (List.not_mem_nil h).elim⟩ (fun _ _ hm => (List.not_mem_nil hm).elim) (Nat.le_refl _) (Nat.zero_le _) (by omega) (hc n).1).symm

end

/-! ## A program the theorems apply to -/

/-- A program that makes a datatype of three bytes, sends and receives with it, releases it and the request of the receive, makes
another datatype, and waits for the send. -/
def tidying : Prog
  | [] => some (.typeContiguous 3 (-1))
  | [_] => some (.typeCommit 2)
  | [_, _] => some (.irecv 200 1 2 MPI_ANY_SOURCE MPI_ANY_TAG 1)
  | [_, _, _] => some (.isend 100 1 2 0 5 1)
  | [_, _, _, _] => some (.typeFree 2)
  | [_, _, _, _, _] => some (.requestFree 3)
  | [_, _, _, _, _, _] => some (.typeContiguous 2 (-1))
  | [_, _, _, _, _, _, _] => some (.wait 4 st0)
  | _ => none

namespace Stage
def d0 : Stage := ⟨.start, .session memT, []⟩
def d1 : Stage := d0.go (.typeContiguous 3 (-1))
def d2 : Stage := d1.go (.typeCommit 2)
def d3 : Stage := d2.go (.irecv 200 1 2 MPI_ANY_SOURCE MPI_ANY_TAG 1)
def d4 : Stage := d3.go (.isend 100 1 2 0 5 1)
def d5 : Stage := d4.go (.typeFree 2)
def d6 : Stage := d5.go (.requestFree 3)
def d7 : Stage := d6.go (.typeContiguous 2 (-1))
end Stage

theorem IsType.of_decide {env : Env} {L : Ledger} {t : Int} (h : (L.desc env.cfg t).isSome = true) : IsType env L t := Option.isSome_iff_exists.1 h

/-- The datatype with handle `h`, and whether no operation that waits uses it. -/
theorem Wf.typeFree_of_decide {env : Env} {L : Ledger} {h : Int} (h1 : (L.objs.any fun e => decide (e.1 = h) && (match e.2 with | .dtype _ => true | _ => false)) = true)
    (h2 : (L.ops.all fun o => decide (o.st ≠ .pending)) = true) : (Call.typeFree h).Wf env L := by
  obtain ⟨e, he, hd⟩ := List.any_eq_true.1 h1
  obtain ⟨a, b⟩ := e
  simp only [Bool.and_eq_true, decide_eq_true_eq] at hd
  obtain ⟨rfl, hd⟩ := hd
  cases b with
  | dtype t => exact ⟨⟨t, he⟩, fun o hf => absurd hf.2.1 (of_decide_eq_true (List.all_eq_true.1 h2 o hf.1))⟩
  | _ => cases hd

theorem Wf.requestFree_of_decide {env : Env} {L : Ledger} {h : Int} (i : Nat) (h1 : decide ((h, Obj.req i) ∈ L.objs) = true)
    (h2 : (L.ops[i]?.map fun o => decide (o.st ≠ .pending)) = some true) : (Call.requestFree h).Wf env L := by
  obtain ⟨o, ho, hd⟩ := Option.map_eq_some_iff.1 h2
  exact ⟨i, o, of_decide_eq_true h1, ho, of_decide_eq_true hd⟩

theorem tidying_ends : tidying.whole.Ends env0 8 [] .start (.session memT) := by
  have n1 : Stage.d1.ν.number 2 = 2 := by decide +kernel
  have n2 : Stage.d2.ν.number 2 = 2 := by decide +kernel
  have n3 : Stage.d3.ν.number 2 = 2 := by decide +kernel
  have n4 : Stage.d4.ν.number 2 = 2 := by decide +kernel
  have n5 : Stage.d5.ν.number 3 = 3 := by decide +kernel
  have n7 : Stage.d7.ν.number 4 = 4 := by decide +kernel
  refine Layer.Ends.step (M := Stage.d0.M) (ν := Stage.d0.ν) (.typeContiguous 3 (-1)) (Stage.d0.M, ⟨[], []⟩) rfl (known_const (by decide) known_nil)
    (by show Stage.d0.M.L.inited = true; decide +kernel) ⟨by decide, .simple (by decide) (by decide)⟩ (fun h => nomatch h) (by decide +kernel) ?_
  refine Layer.Ends.step (M := Stage.d1.M) (ν := Stage.d1.ν) (.typeCommit 2) (Stage.d1.M, ⟨[], []⟩) rfl (known_name 2 (of_decide_eq_true (by decide +kernel)) known_nil)
    (by show Stage.d1.M.L.inited = true; decide +kernel) ?_ (fun h => nomatch h) (by decide +kernel) ?_
  · show IsType env0 Stage.d1.M.L (Stage.d1.ν.number 2)
    rw [n1]
    exact .of_decide (by decide +kernel)
  refine Layer.Ends.step (M := Stage.d2.M) (ν := Stage.d2.ν) (.irecv 200 1 2 MPI_ANY_SOURCE MPI_ANY_TAG 1) (Stage.d2.M, ⟨[], []⟩) rfl (known_name 2 (of_decide_eq_true (by decide +kernel)) (known_const (by decide) known_nil))
    (by show Stage.d2.M.L.inited = true; decide +kernel) ⟨?_, .inl (.of_decide 0 (by decide +kernel))⟩ (fun _ => rfl) (by decide +kernel) ?_
  · show IsType env0 Stage.d2.M.L (Stage.d2.ν.number 2)
    rw [n2]
    exact .of_decide (by decide +kernel)
  refine Layer.Ends.step (M := Stage.d3.M) (ν := Stage.d3.ν) (.isend 100 1 2 0 5 1) (Stage.d3.M, ⟨[], []⟩) rfl (known_name 2 (of_decide_eq_true (by decide +kernel)) (known_const (by decide) known_nil))
    (by show Stage.d3.M.L.inited = true; decide +kernel) ⟨?_, .inl (.of_decide 0 (by decide +kernel))⟩ (fun _ => rfl) (by decide +kernel) ?_
  · show IsType env0 Stage.d3.M.L (Stage.d3.ν.number 2)
    rw [n3]
    exact .of_decide (by decide +kernel)
  refine Layer.Ends.step (M := Stage.d4.M) (ν := Stage.d4.ν) (.typeFree 2) (Stage.d4.M, ⟨[], []⟩) rfl (known_name 2 (of_decide_eq_true (by decide +kernel)) known_nil)
    (by show Stage.d4.M.L.inited = true; decide +kernel) ?_ (fun h => nomatch h) (by decide +kernel) ?_
  · show (Call.typeFree (Stage.d4.ν.number 2)).Wf env0 Stage.d4.M.L
    rw [n4]
    exact Wf.typeFree_of_decide (by decide +kernel) (by decide +kernel)
  refine Layer.Ends.step (M := Stage.d5.M) (ν := Stage.d5.ν) (.requestFree 3) (Stage.d5.M, ⟨[], []⟩) rfl (known_name 3 (of_decide_eq_true (by decide +kernel)) known_nil)
    (by show Stage.d5.M.L.inited = true; decide +kernel) ?_ (fun h => nomatch h) (by decide +kernel) ?_
  · show (Call.requestFree (Stage.d5.ν.number 3)).Wf env0 Stage.d5.M.L
    rw [n5]
    exact Wf.requestFree_of_decide 0 (by decide +kernel) (by decide +kernel)
  refine Layer.Ends.step (M := Stage.d6.M) (ν := Stage.d6.ν) (.typeContiguous 2 (-1)) (Stage.d6.M, ⟨[], []⟩) rfl (known_const (by decide) known_nil)
    (by show Stage.d6.M.L.inited = true; decide +kernel) ⟨by decide, .simple (by decide) (by decide)⟩ (fun h => nomatch h) (by decide +kernel) ?_
  refine Layer.Ends.step (M := Stage.d7.M) (ν := Stage.d7.ν) (.wait 4 st0) (Stage.d7.M, ⟨[], []⟩) rfl (known_name 4 (of_decide_eq_true (by decide +kernel)) known_nil)
    (by show Stage.d7.M.L.inited = true; decide +kernel) ?_ (fun h => nomatch h) (by decide +kernel) ?_
  · show Stage.d7.ν.number 4 = 0 ∨ _
    rw [n7]
    exact Or.inr ⟨1, of_decide_eq_true (by decide +kernel)⟩
  rfl

theorem tidying_correct : tidying.whole.Correct env0 memT := tidying_ends.correct

/-- The theorems apply to it, whatever the layer does. -/
example (off : List Obs → Bool) (late : List Obs → List Nat) := C76_machine (fun _ => rfl) tidying_correct off late

example (off : List Obs → Bool) (late : List Obs → List Nat) := C76_library (fun _ => rfl) tidying_correct off late (n := 8) (by decide)

/-- With all releases put off, and the first one made up for before the last call, the program gets the message (7 at 200) and
the names it gets without the layer (most recent call first). -/
example : (tidying.runLateM env0 (fun _ => true) (fun seen => if seen.length = 7 then [1] else []) 8 [] .start [] (.session memT)).2 = none ∧
    (tidying.runLateM env0 (fun _ => true) (fun seen => if seen.length = 7 then [1] else []) 8 [] .start [] (.session memT)).1.map (fun o => (o.vals, o.mem 200)) =
      [([0, 0, 0], some 7), ([5], some 7), ([0], some 7), ([], some 7), ([4], some 7), ([3], some 0), ([], some 0), ([2], some 0)] := by
  decide +kernel

/-! ## Releases have to come in the end -/

/-- A program that makes a datatype and releases it, again and again. -/
def churning : Prog := fun seen =>
  if seen.length % 2 = 0 then some (.typeContiguous 1 (-1)) else some (.typeFree ((seen.length / 2 : Nat) + 2))

/-- What MPI_Type_contiguous does in it. -/
theorem churning_make : ∃ T, ∀ M : Mach, M.answer env0 (.typeContiguous 1 (-1)) =
    match M.pool.take with
    | none => .abort exhausted
    | some (h, P) => .ok (⟨M.L.addType h T, P, M.mem, M.built + 1⟩, ⟨[h], []⟩) := by
  obtain ⟨d, hd⟩ : ∃ d, ∀ M : Mach, M.type env0 (-1) = .ok d := ⟨_, fun M => rfl⟩
  obtain ⟨T, hT⟩ : ∃ T, ((Mach.session memT).type env0 (-1) >>= fun d => Type_contiguous env0.cfg (env0.garbage 0) 1 d) = .ok T :=
    ⟨_, Res.eq_getD ⟨0, 0, 0, 0, 0, 0, []⟩ (by decide +kernel)⟩
  rw [hd] at hT
  have hT : Type_contiguous env0.cfg (env0.garbage 0) 1 d = .ok T := hT
  refine ⟨T, fun M => ?_⟩
  show Mach.one (M.type env0 (-1) >>= _) = _
  rw [hd]
  show Mach.one (M.fresh >>= _) = _
  unfold Mach.fresh
  cases M.pool.take with
  | none => rfl
  | some x =>
    obtain ⟨h, P⟩ := x
    show Mach.one (Type_contiguous env0.cfg (env0.garbage 0) 1 d >>= _) = _
    rw [hT]
    rfl

/-- Between two rounds, and within one. -/
inductive Churned : List Obs → Names → Mach → Prop
  | out (j : Nat) {seen : List Obs} {m : Mem} {b : Nat} : seen.length = 2 * j →
      Churned seen ⟨[], j + 2⟩ ⟨(Mach.session m).L, (Mach.session m).pool, m, b⟩
  | within (j : Nat) (T : Typestruct) {seen : List Obs} {m : Mem} {b : Nat} : seen.length = 2 * j + 1 →
      Churned seen ⟨[(j + 2, 2)], j + 3⟩ ⟨(Mach.session m).L.addType 2 T, ⟨(Pool.block 0).tail.tail, 1⟩, m, b⟩

theorem Churned.step {seen : List Obs} {ν : Names} {M : Mach} (h : Churned seen ν M) :
    ∃ c M' o, churning seen = some c ∧ ν.Known c.handles ∧ c.inSession M.L.inited ∧ (c.withHandles ν.number).Wf env0 M.L ∧ churning.whole.May c ∧
      M.answer env0 (c.withHandles ν.number) = .ok (M', o) ∧ ∀ x, Churned (x :: seen) (ν.after c o.vals) M' := by
  cases h with
  | @out j _ m b h1 =>
    obtain ⟨T, hT⟩ := churning_make
    refine ⟨.typeContiguous 1 (-1), _, _, ?_, known_const (by decide) known_nil, rfl, ⟨by decide, .simple (h := -1) (by decide) (by decide)⟩, (fun h => nomatch h), hT _, fun x => ?_⟩
    · unfold churning
      rw [h1, if_pos (by omega)]
    · exact .within j T (by rw [List.length_cons, h1])
  | @within j T _ m b h1 =>
    have hn : Names.number ⟨[((j : Int) + 2, 2)], j + 3⟩ (j + 2) = 2 := by
      unfold Names.number
      rw [if_neg (by omega), List.find?_cons_of_pos (by simp)]
      rfl
    refine ⟨.typeFree (j + 2), ⟨(Mach.session m).L, (Mach.session m).pool, m, b⟩, ⟨[], []⟩, ?_, ?_, rfl, ?_, (fun h => nomatch h), ?_, fun x => ?_⟩
    · unfold churning
      rw [h1, if_neg (by omega), show (2 * j + 1) / 2 = j by omega]
    · exact known_name 2 (List.mem_singleton.2 rfl) known_nil
    · show (Call.typeFree _).Wf _ _
      rw [hn]
      exact ⟨⟨T, List.mem_cons_self ..⟩, fun o ho => nomatch ho.1⟩
    · show Mach.answer env0 _ (.typeFree _) = _
      rw [hn]
      rfl
    · have : (Names.after ⟨[((j : Int) + 2, 2)], j + 3⟩ (.typeFree (j + 2)) []) = ⟨[], ((j + 1 : Nat) : Int) + 2⟩ := by
        unfold Names.after
        rw [if_neg (show ¬ (Call.typeFree (j + 2)).makes = true from nofun)]
        simp [Call.ends]
        omega
      rw [this]
      exact .out (j + 1) (by rw [List.length_cons, h1]; omega)

/-- By itself it goes on for ever. -/
theorem churning_goes_on : ∀ (n k : Nat) {seen : List Obs} {ν : Names} {M : Mach}, Churned seen ν M →
    churning.Opaque env0 .lifo n k seen ν M ∧ (churning.runNamed env0 .lifo n k seen ν M).2 = none ∧
      ∀ c, churning (churning.runNamed env0 .lifo n k seen ν M).1 = some c → churning.whole.May c
  | 0, k, seen, ν, M, h => by
    obtain ⟨c, _, _, h1, _, _, _, h5, _⟩ := h.step
    refine ⟨trivial, rfl, fun c' hc => ?_⟩
    have hc : churning seen = some c' := hc
    rw [h1] at hc
    cases hc
    exact h5
  | n + 1, k, seen, ν, M, h => by
    obtain ⟨c, M', o, h1, h2, h3, h4, h5, h6, h7⟩ := h.step
    obtain ⟨g1, g2⟩ := churning_goes_on n (k + 1) (h7 (ν.observe seen c o M'.mem))
    refine ⟨fun c' hc => ?_, ?_⟩
    · rw [h1] at hc
      cases hc
      refine ⟨h2, h3, h4, fun M'' o' ha => ?_⟩
      rw [show M.with .lifo k = M from rfl, h6] at ha
      cases ha
      exact g1
    · unfold Prog.runNamed
      rw [h1]
      dsimp only
      rw [show M.with .lifo k = M from rfl, h6]
      exact g2

theorem churning_correct (m : Mem) : churning.whole.Correct env0 m := fun n => by
  obtain ⟨h1, h2, h3⟩ := churning_goes_on n 0 (Churned.out 0 (m := m.part churning.whole.region) (b := 0) (seen := []) rfl)
  exact ⟨h1, h3, fun u e => nomatch h2.symm.trans e⟩

/-- Under a layer that never releases anything it runs out of handle numbers. -/
theorem churning_runs_out : ∀ (l n : Nat) (seen : List Obs) (ν : Names) (kept : List Call) (M : Mach), Sane M → M.pool.left = l → seen.length % 2 = 0 →
    (churning.runLateM env0 (fun _ => true) (fun _ => []) (2 * l + 1 + n) seen ν kept M).2 = some (.abort exhausted) := by
  intro l
  induction l with
  | zero =>
    intro n seen ν kept M hs hl he
    obtain ⟨T, hT⟩ := churning_make
    rw [show 2 * 0 + 1 + n = n + 1 by omega]
    unfold Prog.runLateM Prog.runLate
    rw [show churning seen = some (.typeContiguous 1 (-1)) by unfold churning; rw [if_pos he]]
    have hans : M.answer env0 ((Call.typeContiguous 1 (-1)).withHandles ν.number) = _ := hT M
    have hoff : ((Call.typeContiguous 1 (-1)).withHandles ν.number).putOff = none := rfl
    dsimp only [MpiSerial.makeUp]
    rw [if_pos rfl, hoff]
    dsimp only
    rw [hans]
    cases ht : M.pool.take with
    | none => rfl
    | some x =>
      obtain ⟨h, P⟩ := x
      have := (hs.taken ht).2.1
      omega
  | succ l ih =>
    intro n seen ν kept M hs hl he
    obtain ⟨T, hT⟩ := churning_make
    rw [show 2 * (l + 1) + 1 + n = 2 * l + 1 + n + 1 + 1 by omega]
    unfold Prog.runLateM Prog.runLate
    rw [show churning seen = some (.typeContiguous 1 (-1)) by unfold churning; rw [if_pos he]]
    have hans : M.answer env0 ((Call.typeContiguous 1 (-1)).withHandles ν.number) = _ := hT M
    have hoff : ((Call.typeContiguous 1 (-1)).withHandles ν.number).putOff = none := rfl
    dsimp only [MpiSerial.makeUp]
    rw [if_pos rfl, hoff]
    dsimp only
    rw [hans]
    cases ht : M.pool.take with
    | none => rfl
    | some x =>
      obtain ⟨h, P⟩ := x
      dsimp only
      have h1 := (hs.taken ht).2.1
      have hmv : Move (fun _ => True) (fun _ => True) M ⟨M.L.addType h T, P, M.mem, M.built + 1⟩ := .type T ht
      have hlen : ∀ x : Obs, (x :: seen).length % 2 ≠ 0 := fun x => by rw [List.length_cons]; omega
      unfold Prog.runLate
      rw [show ∀ x : Obs, churning (x :: seen) = some (.typeFree (((x :: seen).length / 2 : Nat) + 2)) from fun x => by unfold churning; rw [if_neg (hlen x)]]
      exact ih n _ _ _ _ (hmv.sane hs) (by dsimp only; omega) (by rw [List.length_cons, List.length_cons]; omega)

/-- C76: the alternative in C76_machine is real: a correct program that goes on for ever by itself is stopped after 524285 calls
if none of its releases is made. -/
theorem C76_needs_release (m : Mem) : churning.whole.Correct env0 m ∧ (∀ n, (churning.runNamed env0 .lifo n 0 [] .start (.session m)).2 = none) ∧
    (churning.runLateM env0 (fun _ => true) (fun _ => []) 524285 [] .start [] (.session m)).2 = some (.abort exhausted) := by
  refine ⟨churning_correct m, fun n => (churning_goes_on n 0 (Churned.out 0 (m := m) (b := 0) (seen := []) rfl)).2.1, ?_⟩
  have hs := session_sane m
  have hl : (Mach.session m).pool.left = 262142 := by
    have := hs.amount
    have h1 : (Mach.session m).L.objs.length = 1 := rfl
    omega
  exact churning_runs_out 262142 0 [] .start [] _ hs hl rfl

end MpiSerial
