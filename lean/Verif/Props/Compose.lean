import Verif.Proofs.ComposeLib

/-!
# C68: parts of a program that take turns do not interfere
-/

set_option linter.unusedSimpArgs false
set_option autoImplicit false

namespace MpiSerial

section
variable {ι : Type} [DecidableEq ι] {env : Env} {m : Mem} {l : ι → Layer}

/-- What `turns` lead to, from MPI_Init on. -/
abbrev mixed (env : Env) (m : Mem) (l : ι → Layer) (turns : List ι) : Ended ι :=
  together env l turns (fun _ => []) (fun _ => .start) (.session m)

/-- C68: parts with separate memory and separate communicators run in one process, in any order.  Unless the process runs
out of handle numbers, every part sees exactly what it sees when it has the process to itself, and if the program is stopped
in a call of part `i`, then so is part `i` by itself, in the same call and in the same way. -/
theorem C68_machine (hst : env.Steady) (ha : Apart l) (hc : ∀ i, (l i).Correct env m) (turns : List ι)
    (hf : (mixed env m l turns).fate ≠ some (.abort exhausted)) :
    ∃ done, turns = done ++ (mixed env m l turns).left ∧
      (∀ i, (l i).alone env m (done.count i) = ((mixed env m l turns).seen i, none)) ∧
      ((mixed env m l turns).left = [] → (mixed env m l turns).fate = none) ∧
      ∀ i rest, (mixed env m l turns).left = i :: rest → (mixed env m l turns).fate ≠ none ∧
        (l i).alone env m (done.count i + 1) = ((mixed env m l turns).seen i, (mixed env m l turns).fate) := by
  have := Joint.run hst ha hc turns _ _ _ _ (Joint.start hc) hf
  simpa only [Nat.zero_add] using this

/-- C68: the same holds on the library after MPI_Init, for up to 2^30 - 2 turns. -/
theorem C68_library (hst : env.Steady) (ha : Apart l) (hc : ∀ i, (l i).Correct env m) (turns : List ι) (hlen : turns.length ≤ 1073741822) :
    ∃ s o, Call.init.answer env (Sys.start m) = .ok (s, o) ∧
      togetherLib env l turns (fun _ => []) (fun _ => .start) s = mixed env m l turns := by
  have key : ∀ (s : Sys) (M M' : Mach) (o : Out), Sim env s M → Room M.L → M.answer env .init = .ok (M', o) →
      ∃ s' o', Call.init.answer env s = .ok (s', o') ∧ Sim env s' M' := fun s M M' o hs hr hm => by
    obtain ⟨⟨s', o'⟩, h1, h2⟩ := Res.Rel.ok_right (Call.sim hs hr .init trivial) hm
    exact ⟨s', o', h1, h2.sim⟩
  have hm : (Mach.start m).answer env .init = .ok (.session m, ⟨[], []⟩) := by
    show Mach.quiet (Mach.start m).init = _
    rw [session_init]
    rfl
  have hrm : Room (Mach.start m).L := show Room Ledger.start by decide
  obtain ⟨s, o, h1, h2⟩ := key _ _ _ _ (Sim.start env m) hrm hm
  exact ⟨s, o, h1, together_sim hst ha hc turns 1 _ _ _ s _ (Joint.start hc) h2 (fun _ _ _ hm => (List.not_mem_nil hm).elim)
    (Nat.le_refl _) (Nat.zero_le _) (by omega)⟩

/-- C68: the order of turns makes no difference to what a part sees. -/
theorem C68_order (hst : env.Steady) (ha : Apart l) (hc : ∀ i, (l i).Correct env m) {turns turns' : List ι} (i : ι)
    (h : (mixed env m l turns).fate = none) (h' : (mixed env m l turns').fate = none) (hcount : turns.count i = turns'.count i) :
    (mixed env m l turns).seen i = (mixed env m l turns').seen i := by
  have key : ∀ t : List ι, (mixed env m l t).fate = none → (l i).alone env m (t.count i) = ((mixed env m l t).seen i, none) := fun t ht => by
    obtain ⟨done, d1, d2, _, d4⟩ := C68_machine hst ha hc t (by rw [ht]; nofun)
    cases hl : (mixed env m l t).left with
    | nil =>
      rw [hl, List.append_nil] at d1
      have := d2 i
      rw [← d1] at this
      exact this
    | cons j rest => exact absurd ht (d4 j rest hl).1
  have h1 := key turns h
  have h2 := key turns' h'
  rw [hcount, h2] at h1
  exact (Prod.mk.inj h1).1.symm

/-- C68: if no part by itself is ever stopped, the program is not, except for want of handle numbers. -/
theorem C68_safe (hst : env.Steady) (ha : Apart l) (hc : ∀ i, (l i).Correct env m) (hrun : ∀ i n, ((l i).alone env m n).2 = none) (turns : List ι) :
    (mixed env m l turns).fate = none ∨ (mixed env m l turns).fate = some (.abort exhausted) := by
  by_cases hf : (mixed env m l turns).fate = some (.abort exhausted)
  · exact .inr hf
  · obtain ⟨done, _, _, d3, d4⟩ := C68_machine hst ha hc turns hf
    cases hl : (mixed env m l turns).left with
    | nil => exact .inl (d3 hl)
    | cons i rest =>
      have := d4 i rest hl
      have h2 := hrun i (done.count i + 1)
      rw [this.2] at h2
      exact .inl h2

end

/-! ## Parts that end -/

/-- The part ends after `n` more calls, all of them correct. -/
def Layer.Ends (env : Env) (l : Layer) : Nat → List Obs → Names → Mach → Prop
  | 0, seen, _, _ => l.prog seen = none
  | n + 1, seen, ν, M => ∃ c M' o, l.prog seen = some c ∧ ν.Known c.handles ∧ c.inSession M.L.inited ∧ (c.withHandles ν.number).Wf env M.L ∧ l.May c ∧
      M.answer env (c.withHandles ν.number) = .ok (M', o) ∧ l.Ends env n (ν.observe seen c o M'.mem :: seen) (ν.after c o.vals) M'

theorem Layer.Ends.opaque {env : Env} {l : Layer} : ∀ {n k : Nat} {seen : List Obs} {ν : Names} {M : Mach}, l.Ends env n seen ν M → ∀ j,
    l.prog.Opaque env .lifo j k seen ν M ∧ (l.prog.runNamed env .lifo j k seen ν M).2 = none ∧
    ∀ c, l.prog (l.prog.runNamed env .lifo j k seen ν M).1 = some c → l.May c
  | 0, k, seen, ν, M, h, 0 => ⟨trivial, rfl, fun c hc => by
      have hc : l.prog seen = some c := hc
      rw [show l.prog seen = none from h] at hc
      cases hc⟩
  | 0, k, seen, ν, M, h, j + 1 => by
    have h : l.prog seen = none := h
    refine ⟨fun c hc => ?_, ?_⟩
    · rw [h] at hc; cases hc
    · unfold Prog.runNamed
      rw [h]
      exact ⟨rfl, fun c hc => by rw [h] at hc; cases hc⟩
  | n + 1, k, seen, ν, M, ⟨c, M', o, h1, _, _, _, h5, _⟩, 0 => ⟨trivial, rfl, fun c' hc => by
      rw [show l.prog seen = some c' from hc] at h1
      cases h1
      exact h5⟩
  | n + 1, k, seen, ν, M, ⟨c, M', o, h1, h2, h3, h4, h5, h6, h7⟩, j + 1 => by
    have ih := h7.opaque (k := k + 1) j
    have hw : M.with .lifo k = M := rfl
    refine ⟨fun c' hc => ?_, ?_⟩
    · rw [h1] at hc
      cases hc
      refine ⟨h2, h3, h4, fun M'' o'' ha => ?_⟩
      rw [hw, h6] at ha
      cases ha
      exact ih.1
    · unfold Prog.runNamed
      rw [h1]
      dsimp only
      rw [hw, h6]
      exact ih.2

theorem Layer.Ends.correct {env : Env} {m : Mem} {l : Layer} {n : Nat} (h : l.Ends env n [] .start (.session (m.part l.region))) :
    l.Correct env m := fun j => by
  obtain ⟨h1, h2, h3⟩ := h.opaque (k := 0) j
  exact ⟨h1, h3, fun u e => by rw [Layer.alone, h2] at e; cases e⟩

/-- One call of a part that ends. -/
theorem Layer.Ends.step {env : Env} {l : Layer} {n : Nat} {seen : List Obs} {ν : Names} {M : Mach} (c : Call) (d : Mach × Out)
    (h1 : l.prog seen = some c) (h2 : ν.Known c.handles) (h3 : c.inSession M.L.inited) (h4 : (c.withHandles ν.number).Wf env M.L) (h5 : l.May c)
    (h6 : (M.answer env (c.withHandles ν.number)).fate = none)
    (h7 : l.Ends env n (ν.observe seen c ((M.answer env (c.withHandles ν.number)).getD d).2 ((M.answer env (c.withHandles ν.number)).getD d).1.mem :: seen)
      (ν.after c ((M.answer env (c.withHandles ν.number)).getD d).2.vals) ((M.answer env (c.withHandles ν.number)).getD d).1) :
    l.Ends env (n + 1) seen ν M := by
  cases ha : M.answer env (c.withHandles ν.number) with
  | ok x =>
    rw [ha] at h7
    exact ⟨c, x.1, x.2, h1, h2, h3, h4, h5, ha, h7⟩
  | _ => rw [ha] at h6; cases h6

/-! ## Two parts the theorems apply to -/

/-- A part that sends itself a message on MPI_COMM_WORLD. -/
def oneself : Layer where
  prog
    | [] => some (.irecv 200 3 (-1) 0 5 1)
    | [_] => some (.isend 100 3 (-1) 0 5 1)
    | [_, r] => some (.wait (r.vals.headD 0) st0)
    | _ => none
  region a := decide (100 ≤ a ∧ a < 300)
  world := true

/-- A part that does so, with the same tag, on a copy of MPI_COMM_WORLD. -/
def onCopy : Layer where
  prog
    | [] => some (.commDup 1)
    | [r] => some (.isend 500 2 (-1) 0 5 (r.vals.headD 0))
    | [_, r] => some (.irecv 400 2 (-1) 0 5 (r.vals.headD 0))
    | [r, _, _] => some (.wait (r.vals.headD 0) st0)
    | _ => none
  region a := decide (400 ≤ a ∧ a < 600)
  world := false

def twoParts : Bool → Layer
  | true => oneself
  | false => onCopy

def memT : Mem := fun a => if a = 100 then some 7 else if a = 500 then some 9 else some 0

/-- The machine of a part after a call. -/
def Stage.go (t : Stage) (c : Call) : Stage := t.next .lifo 0 c

namespace Stage
def a0 : Stage := ⟨.start, .session (memT.part oneself.region), []⟩
def a1 : Stage := a0.go (.irecv 200 3 (-1) 0 5 1)
def a2 : Stage := a1.go (.isend 100 3 (-1) 0 5 1)
def a3 : Stage := a2.go (.wait 2 st0)
def b0 : Stage := ⟨.start, .session (memT.part onCopy.region), []⟩
def b1 : Stage := b0.go (.commDup 1)
def b2 : Stage := b1.go (.isend 500 2 (-1) 0 5 2)
def b3 : Stage := b2.go (.irecv 400 2 (-1) 0 5 2)
def b4 : Stage := b3.go (.wait 4 st0)
end Stage

theorem known_const {ν : Names} {x : Int} (hx : x ≤ 1) {xs : List Int} (h : ν.Known xs) : ν.Known (x :: xs) := fun y hy => by
  rcases List.mem_cons.1 hy with rfl | hy
  · exact .inl hx
  · exact h y hy

theorem known_name {ν : Names} {x : Int} (h' : Int) (hx : (x, h') ∈ ν.tab) {xs : List Int} (h : ν.Known xs) : ν.Known (x :: xs) := fun y hy => by
  rcases List.mem_cons.1 hy with rfl | hy
  · exact .inr ⟨h', hx⟩
  · exact h y hy

theorem known_nil {ν : Names} : ν.Known [] := fun _ h => (List.not_mem_nil h).elim

theorem oneself_ends : oneself.Ends env0 3 [] .start (.session (memT.part oneself.region)) := by
  have hc : P2PArgs env0 Stage.a0.M.L (-1) 0 1 := ⟨.simple (by decide) (by decide), .inl (.of_decide 0 (by decide +kernel))⟩
  have hc' : P2PArgs env0 Stage.a1.M.L (-1) 0 1 := ⟨.simple (by decide) (by decide), .inl (.of_decide 0 (by decide +kernel))⟩
  have n2 : Stage.a2.ν.number 2 = 2 := by decide +kernel
  refine Layer.Ends.step (M := Stage.a0.M) (ν := Stage.a0.ν) _ (Stage.a0.M, ⟨[], []⟩) rfl (known_const (by decide) (known_const (by decide) known_nil))
    (by show Stage.a0.M.L.inited = true; decide +kernel) hc (fun _ => rfl) (by decide +kernel) ?_
  refine Layer.Ends.step (M := Stage.a1.M) (ν := Stage.a1.ν) _ (Stage.a1.M, ⟨[], []⟩) rfl (known_const (by decide) (known_const (by decide) known_nil))
    (by show Stage.a1.M.L.inited = true; decide +kernel) hc' (fun _ => rfl) (by decide +kernel) ?_
  refine Layer.Ends.step (M := Stage.a2.M) (ν := Stage.a2.ν) (.wait 2 st0) (Stage.a2.M, ⟨[], []⟩) ?_
    (known_name 2 (of_decide_eq_true (by decide +kernel)) known_nil) (by show Stage.a2.M.L.inited = true; decide +kernel) ?_ (fun h => nomatch h) (by decide +kernel) ?_
  · show some (Call.wait _ st0) = _
    exact congrArg (fun h => some (Call.wait h st0)) (by decide +kernel)
  · show Stage.a2.ν.number 2 = 0 ∨ _
    rw [n2]
    exact Or.inr ⟨0, of_decide_eq_true (by decide +kernel)⟩
  rfl

theorem onCopy_ends : onCopy.Ends env0 4 [] .start (.session (memT.part onCopy.region)) := by
  have n1 : Stage.b1.ν.number 2 = 2 := by decide +kernel
  have n2 : Stage.b2.ν.number 2 = 2 := by decide +kernel
  have n3 : Stage.b3.ν.number 4 = 4 := by decide +kernel
  have hc : P2PArgs env0 Stage.b1.M.L (-1) 0 2 := ⟨.simple (by decide) (by decide), .inl (.of_decide 1 (by decide +kernel))⟩
  have hc' : P2PArgs env0 Stage.b2.M.L (-1) 0 2 := ⟨.simple (by decide) (by decide), .inl (.of_decide 1 (by decide +kernel))⟩
  have hname : ∀ ν : Names, ν.tab = Stage.b1.ν.tab → ν.Known [-1, 2] := fun ν e =>
    known_const (by decide) (known_name 2 (by rw [e]; exact of_decide_eq_true (by decide +kernel)) known_nil)
  refine Layer.Ends.step (M := Stage.b0.M) (ν := Stage.b0.ν) _ (Stage.b0.M, ⟨[], []⟩) rfl (known_const (by decide) known_nil)
    (by show Stage.b0.M.L.inited = true; decide +kernel) trivial (fun h => nomatch h) (by decide +kernel) ?_
  refine Layer.Ends.step (M := Stage.b1.M) (ν := Stage.b1.ν) (.isend 500 2 (-1) 0 5 2) (Stage.b1.M, ⟨[], []⟩) ?_ (hname _ rfl)
    (by show Stage.b1.M.L.inited = true; decide +kernel) (by show P2PArgs env0 _ (-1) 0 (Stage.b1.ν.number 2); rw [n1]; exact hc) (fun h => absurd h (by decide)) (by decide +kernel) ?_
  · show some (Call.isend 500 2 (-1) 0 5 _) = _
    exact congrArg (fun h => some (Call.isend 500 2 (-1) 0 5 h)) (by decide +kernel)
  refine Layer.Ends.step (M := Stage.b2.M) (ν := Stage.b2.ν) (.irecv 400 2 (-1) 0 5 2) (Stage.b2.M, ⟨[], []⟩) ?_
    (known_const (by decide) (known_name 2 (of_decide_eq_true (by decide +kernel)) known_nil))
    (by show Stage.b2.M.L.inited = true; decide +kernel) (by show P2PArgs env0 _ (-1) 0 (Stage.b2.ν.number 2); rw [n2]; exact hc') (fun h => absurd h (by decide)) (by decide +kernel) ?_
  · show some (Call.irecv 400 2 (-1) 0 5 _) = _
    exact congrArg (fun h => some (Call.irecv 400 2 (-1) 0 5 h)) (by decide +kernel)
  refine Layer.Ends.step (M := Stage.b3.M) (ν := Stage.b3.ν) (.wait 4 st0) (Stage.b3.M, ⟨[], []⟩) ?_
    (known_name 4 (of_decide_eq_true (by decide +kernel)) known_nil) (by show Stage.b3.M.L.inited = true; decide +kernel) ?_ (fun h => nomatch h) (by decide +kernel) ?_
  · show some (Call.wait _ st0) = _
    exact congrArg (fun h => some (Call.wait h st0)) (by decide +kernel)
  · show Stage.b3.ν.number 4 = 0 ∨ _
    rw [n3]
    exact Or.inr ⟨1, of_decide_eq_true (by decide +kernel)⟩
  rfl

theorem twoParts_apart : Apart twoParts := by
  constructor
  · intro i j a hij h
    cases i <;> cases j
    · exact absurd rfl hij
    · have h := of_decide_eq_true h
      exact decide_eq_false (by omega)
    · have h := of_decide_eq_true h
      exact decide_eq_false (by omega)
    · exact absurd rfl hij
  · intro i j hi hj
    cases i <;> cases j <;> first | rfl | exact absurd hi (by decide) | exact absurd hj (by decide)

theorem twoParts_correct : ∀ i, (twoParts i).Correct env0 memT
  | true => oneself_ends.correct
  | false => onCopy_ends.correct

/-- The theorems apply to the two parts, in any order. -/
example (turns : List Bool) (hf : (mixed env0 memT twoParts turns).fate ≠ some (.abort exhausted)) :=
  C68_machine (fun _ => rfl) twoParts_apart twoParts_correct turns hf

/-- One order: the part on the copy gets 9 and sees the names 2, 3 and 4, the other gets 7 and sees the names 2 and 3 (most
recent call first). -/
def oneOrder : Ended Bool := mixed env0 memT twoParts [false, true, false, true, true, false, false]

example : oneOrder.fate = none ∧ oneOrder.left = [] := by decide +kernel

example : (oneOrder.seen true).map (fun o => (o.vals, o.stats)) = [([0, 0, 0], [.obj ⟨0, 5, 0, 0⟩]), ([3], []), ([2], [])] ∧
    (oneOrder.seen true).map (fun o => (o.mem 200, o.mem 400)) = [(some 7, none), (some 7, none), (some 0, none)] := by
  decide +kernel

example : (oneOrder.seen false).map (fun o => (o.vals, o.stats)) = [([0, 0, 0], [.obj ⟨0, 5, 0, 0⟩]), ([4], []), ([3], []), ([2], [])] ∧
    (oneOrder.seen false).map (fun o => (o.mem 200, o.mem 400)) = [(none, some 9), (none, some 9), (none, some 0), (none, some 0)] := by
  decide +kernel

/-! ## The communicators have to be separate -/

/-- A part that receives on MPI_COMM_WORLD, too. -/
def thief : Layer where
  prog
    | [] => some (.irecv 400 3 (-1) 0 5 1)
    | _ => none
  region a := decide (400 ≤ a ∧ a < 600)
  world := true

theorem thief_correct : thief.Correct env0 memT := by
  refine Layer.Ends.correct (n := 1) ?_
  exact Layer.Ends.step (M := .session (memT.part thief.region)) (ν := .start) _ (.session (memT.part thief.region), ⟨[], []⟩) rfl
    (known_const (by decide) (known_const (by decide) known_nil)) (by show Ledger.inited _ = true; rfl)
    ⟨.simple (by decide) (by decide), .inl (.of_decide 0 (by decide +kernel))⟩ (fun _ => rfl) (by decide +kernel) rfl

/-- The parts are correct by themselves and their memory is separate, but both use MPI_COMM_WORLD: if `thief` has its turn first
it gets the message, and `oneself`, which returns from MPI_Wait when it is alone, is stopped there. -/
theorem C68_world_shared :
    (mixed env0 memT (fun b => if b then oneself else thief) [false, true, true, true]).fate =
      some (.abort "MPI_Wait: request not complete, deadlock") ∧
    ∀ n, (oneself.alone env0 memT n).2 = none :=
  ⟨by decide +kernel, fun n => (oneself_ends.opaque (k := 0) n).2.1⟩

end MpiSerial
