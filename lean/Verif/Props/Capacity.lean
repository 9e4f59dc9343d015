import Verif.Proofs.Capacity
import Verif.Props.Machine
import Verif.Props.Compose

/-!
# C69: handle numbers do not run out early
-/

set_option linter.unusedSimpArgs false
set_option autoImplicit false

namespace MpiSerial

section
variable {env : Env} {s s' : Sys} {M M' : Mach}

/-- The numbers left and the live objects are always 262143 together. -/
theorem Sim.stock (h : Sim env s M) : M.pool.Positive ∧ M.pool.left + M.L.objs.length = 262143 := by
  obtain ⟨A, lst, hi⟩ := h.reach.inv
  rcases hi.hst with ⟨h1, h2⟩ | ⟨fl, hI⟩
  · rcases h.pool with ⟨_, h4⟩ | ⟨h3, _⟩
    · rw [h4, List.map_eq_nil_iff.1 h2]
      refine ⟨⟨Nat.le_refl _, fun x hx => ?_⟩, ?_⟩
      · obtain ⟨i, hi, rfl⟩ := List.mem_map.1 (show x ∈ Pool.block 0 from hx)
        have := List.mem_range'.1 hi
        omega
      · simp only [Pool.left, Pool.start, Pool.block, List.length_map, List.length_range', List.length_nil]
    · rw [h1] at h3; cases h3
  · have hP := (PoolRel.inv hI).1 h.pool
    rw [hP]
    refine ⟨⟨hI.nb1, fun x hx => ?_⟩, ?_⟩
    · obtain ⟨l, hl, rfl⟩ := List.mem_map.1 (show x ∈ fl.map encLoc from hx)
      exact encLoc_pos (hI.fvalid l hl).2
    · have h1 := hI.size
      have h2 := hI.nb2
      rw [List.length_map] at h1
      simp only [Pool.left, List.length_map]
      omega

/-- C69: a well-formed call of the library stops the program for want of handle numbers only if fewer than it needs are left
of the 262143 there are: at most two, for MPI_Sendrecv, one for the other calls that make objects or move messages, none for
the rest.  If the call returns, the number of live objects has grown by one at most, and only if the call is one that hands
a new handle to the program. -/
theorem C69_call (h : Sim env s M) (hr : Room M.L) {c : Call} (hc : c.Wf env M.L) :
    (M.L.objs.length + c.needs ≤ 262143 → c.answer env s ≠ .abort exhausted) ∧
    ∀ s' o, c.answer env s = .ok (s', o) →
      ∃ M', Sim env s' M' ∧ Steps env s M.L s' M'.L ∧ M'.L.objs.length ≤ M.L.objs.length + c.leaves := by
  obtain ⟨h1, h2⟩ := h.stock
  have hf := M.answer_fits (env := env) h1 (by omega) c
  have hcall := C62_call h hr hc
  refine ⟨fun hn he => ?_, fun s' o hok => ?_⟩
  · have h3 := hcall.1
    rw [he] at h3
    cases hm : M.answer env c with
    | abort m =>
      rw [hm] at h3 hf
      have h4 : exhausted = m := by simpa only [Res.fate, Option.some.injEq, Fate.abort.injEq] using h3
      have := hf h4.symm
      omega
    | _ => rw [hm] at h3; cases h3
  · obtain ⟨M', o', h3, _, _, _, h4, h5⟩ := hcall.2 s' o hok
    rw [h3] at hf
    have h6 := h5.stock.2
    have h7 : M.pool.left ≤ M'.pool.left + c.leaves := hf
    exact ⟨M', h5, h4, by omega⟩

theorem Call.leaves_le (c : Call) : c.leaves ≤ 1 := by
  cases c <;> first | exact Nat.zero_le _ | exact Nat.le_refl _

theorem Call.needs_le (c : Call) : c.needs ≤ 2 := by
  cases c <;> first | exact Nat.zero_le _ | exact Nat.le_refl _ | exact Nat.le_succ _

theorem run_capacity {p : Prog} : ∀ (n k : Nat) (seen : List Obs) (s : Sys) (M : Mach), Sim env s M →
    M.L.objs.length ≤ k → M.L.ncomms ≤ k → M.L.unmatched ≤ 2 * k → k + n ≤ 262142 →
    p.MachWf env n seen M → (p.runMach env n seen M).2 ≠ some (.abort exhausted) := by
  intro n
  induction n with
  | zero => exact fun _ _ _ _ _ _ _ _ _ _ h => nomatch h
  | succ n ih =>
    intro k seen s M hs h1 h2 h3 h4 hwf
    unfold Prog.runMach
    cases hc : p seen with
    | none => exact nofun
    | some c =>
      obtain ⟨h5, h6⟩ := hwf c hc
      have hrm : Room M.L := ⟨by omega, by omega, by omega⟩
      have hsim := Call.sim hs hrm c h5
      have hcall := C69_call hs hrm h5
      have hn := c.needs_le
      have hl := c.leaves_le
      dsimp only
      cases hm : M.answer env c with
      | ok z =>
        obtain ⟨M', o'⟩ := z
        obtain ⟨⟨s', o⟩, hx, hA⟩ := Res.Rel.ok_right hsim hm
        obtain ⟨h7, h8⟩ := hs.stock
        have hf := M.answer_fits (env := env) h7 (by omega) c
        rw [hm] at hf
        have h9 : M.pool.left ≤ M'.pool.left + c.leaves := hf
        have h10 := hA.sim.stock.2
        dsimp only at h10
        refine ih (k + 1) _ s' M' hA.sim (by omega) (by have := hA.room.1; dsimp only at this; omega)
          (by have := hA.room.2; dsimp only at this; omega) (by omega) (h6 _ _ hm)
      | abort msg =>
        intro he
        have h7 : msg = exhausted := by simpa only [Res.fate, Option.some.injEq, Fate.abort.injEq] using he
        obtain ⟨h8, h9⟩ := hs.stock
        have hf := M.answer_fits (env := env) h8 (by omega) c
        rw [hm] at hf
        have := hf h7
        omega
      | _ => exact nofun

/-- C69: a program that makes at most 262142 calls, all well formed, never runs out of handle numbers. -/
theorem C69_program {p : Prog} {m : Mem} {n : Nat} (hn : n ≤ 262142) (h : p.MachWf env n [] (.start m)) :
    (p.run env n [] (Sys.start m)).2 ≠ some (.abort exhausted) := by
  rw [C62_program (by omega) h]
  exact run_capacity n 0 [] _ _ (.start env m) (Nat.le_refl _) (Nat.le_refl _) (Nat.le_refl _) (by omega) h

end

/-- The programs the theorems apply to: the six calls of `twoWaits` (C62), and MPI_Init as the first call. -/
example : (twoWaits.run env0 6 [] (Sys.start mem0)).2 ≠ some (.abort exhausted) := C69_program (by decide) twoWaits_machWf

example : Call.init.answer env0 (Sys.start mem0) ≠ .abort exhausted :=
  (C69_call (Sim.start env0 mem0) (by show Room Ledger.start; decide) (c := .init) trivial).1 (by decide)

/-! ## One call more can be too much -/

/-- MPI_Init, then MPI_Comm_dup again and again. -/
def dupForever : Prog := fun seen => if seen = [] then some .init else some (.commDup 1)

/-- MPI_Init, MPI_Comm_dup 262141 times, and then an MPI_Sendrecv with nobody. -/
def dupThenSendrecv : Prog := fun seen =>
  if seen = [] then some .init else if seen.length = 262142
  then some (.sendrecv 0 0 (-1) MPI_PROC_NULL 0 0 0 (-1) MPI_PROC_NULL 0 MPI_COMM_NULL .null) else some (.commDup 1)

section
variable {env : Env}

theorem Pool.take_exact {P : Pool} (hb : P.blocks ≤ 1024) (hl : 0 < P.left) :
    ∃ h P', P.take = some (h, P') ∧ P'.blocks ≤ 1024 ∧ P'.left + 1 = P.left := by
  obtain ⟨fl, b⟩ := P
  cases fl with
  | cons a fl => exact ⟨a, ⟨fl, b⟩, rfl, hb, by simp only [Pool.left, List.length_cons]; omega⟩
  | nil =>
    have hne : b ≠ 1024 := fun e => by simp only [Pool.left, List.length_nil, e] at hl; omega
    refine ⟨256 * b, ⟨Pool.block b, b + 1⟩, by simp only [Pool.take, if_neg hne], by dsimp only at hb ⊢; omega, ?_⟩
    dsimp only at hb
    simp only [Pool.left, Pool.block, List.length_map, List.length_range', List.length_nil]
    omega

theorem Pool.take_empty {P : Pool} (hb : P.blocks ≤ 1024) (hl : P.left = 0) : P.take = none := by
  obtain ⟨fl, b⟩ := P
  dsimp only at hb
  simp only [Pool.left] at hl
  have h1 : fl = [] := List.length_eq_zero_iff.1 (by omega)
  have h2 : b = 1024 := by omega
  subst h1 h2
  rfl

/-- What an MPI_Comm_dup does when there are numbers left. -/
theorem Mach.dup_ok {M : Mach} (hb : M.pool.blocks ≤ 1024) (hl : 0 < M.pool.left) (c : Int) :
    ∃ M' o, M.answer env (.commDup c) = .ok (M', o) ∧ M'.pool.blocks ≤ 1024 ∧ M'.pool.left + 1 = M.pool.left := by
  obtain ⟨h, P, h1, h2, h3⟩ := Pool.take_exact hb hl
  refine ⟨{ M with pool := P, L := M.L.addComm h }, ⟨[h], []⟩, ?_, h2, h3⟩
  show Mach.one M.newComm = _
  unfold Mach.newComm Mach.fresh
  rw [h1]
  rfl

theorem Mach.dup_empty {M : Mach} (hb : M.pool.blocks ≤ 1024) (hl : M.pool.left = 0) (c : Int) :
    M.answer env (.commDup c) = .abort exhausted := by
  show Mach.one M.newComm = _
  unfold Mach.newComm Mach.fresh
  rw [Pool.take_empty hb hl]
  rfl

/-- MPI_Sendrecv with nobody when one number is left: the send has none. -/
theorem Mach.sendrecv_empty {M : Mach} (hb : M.pool.blocks ≤ 1024) (hl : M.pool.left = 1) :
    M.answer env (.sendrecv 0 0 (-1) MPI_PROC_NULL 0 0 0 (-1) MPI_PROC_NULL 0 MPI_COMM_NULL .null) = .abort exhausted := by
  obtain ⟨h, P, h1, h2, h3⟩ := Pool.take_exact hb (by omega)
  show Mach.oneStatus (M.sendrecv env 0 0 (-1) MPI_PROC_NULL 0 0 0 (-1) MPI_PROC_NULL 0 MPI_COMM_NULL .null) = _
  have e1 : M.irecv env 0 0 (-1) MPI_PROC_NULL 0 MPI_COMM_NULL =
      .ok ({ M with pool := P, L := M.L.postNull .recv 0 0 0 (-1) h }, h) := by
    unfold Mach.irecv Mach.fresh
    rw [h1]
    rfl
  unfold Mach.sendrecv
  rw [e1, Res.ok_bind]
  dsimp only
  have e2 : ({ M with pool := P, L := M.L.postNull .recv 0 0 0 (-1) h } : Mach).send env 0 0 (-1) MPI_PROC_NULL 0 MPI_COMM_NULL = .abort exhausted := by
    unfold Mach.send Mach.isend Mach.fresh
    dsimp only
    rw [Pool.take_empty h2 (by omega)]
    rfl
  rw [e2]
  rfl

theorem dups_run {p : Prog} {c : Call} (lim : Nat) (hp : ∀ seen, seen ≠ [] → seen.length < lim → p seen = some (.commDup 1)) :
    ∀ (n : Nat) (seen : List Obs) (M : Mach), seen ≠ [] → M.pool.blocks ≤ 1024 → seen.length + M.pool.left = 262143 → seen.length + n ≤ lim →
      n ≤ M.pool.left → (∀ seen', seen'.length = seen.length + n → p seen' = some c) →
      (p.runMach env n seen M).2 = none ∧
      ∃ M' : Mach, M'.pool.blocks ≤ 1024 ∧ M'.pool.left + n = M.pool.left ∧
        ((∀ x, M'.answer env c ≠ .ok x) → (p.runMach env (n + 1) seen M).2 = (M'.answer env c).fate) := by
  intro n
  induction n with
  | zero =>
    intro seen M h1 h2 h3 h4 h5 h6
    refine ⟨rfl, M, h2, rfl, fun hne => ?_⟩
    unfold Prog.runMach
    rw [h6 seen rfl]
    dsimp only
    cases hm : M.answer env c with
    | ok x => exact absurd hm (hne x)
    | _ => rfl
  | succ n ih =>
    intro seen M h1 h2 h3 h4 h5 h6
    obtain ⟨M', o, h7, h8, h9⟩ := Mach.dup_ok (env := env) h2 (by omega) 1
    have hs := hp seen h1 (by omega)
    have := ih (⟨.commDup 1, o.vals, if knownReceives seen (.commDup 1) then o.done else [], M'.mem⟩ :: seen) M' (List.cons_ne_nil _ _) h8
      (by rw [List.length_cons]; omega) (by rw [List.length_cons]; omega) (by omega)
      (fun seen' h => h6 seen' (by rw [List.length_cons] at h; omega))
    obtain ⟨g1, M'', g2, g3, g4⟩ := this
    refine ⟨?_, M'', g2, by omega, fun hne => ?_⟩
    · unfold Prog.runMach
      rw [hs]
      dsimp only
      rw [h7]
      exact g1
    · rw [Prog.runMach, hs]
      dsimp only
      rw [h7]
      exact g4 hne

theorem init_run {p : Prog} (hp : p [] = some .init) (m : Mem) (n : Nat) :
    p.runMach env (n + 1) [] (.start m) = p.runMach env n [⟨.init, [], if knownReceives [] .init then [] else [], m⟩] (.session m) := by
  rw [Prog.runMach, hp]
  rfl

theorem session_left (m : Mem) : (Mach.session m).pool.left = 262142 := by
  simp only [Mach.session, Pool.left, Pool.block, List.length_tail, List.length_map, List.length_range']

theorem dupForever_wf : ∀ (n : Nat) (seen : List Obs) (M : Mach), dupForever.MachWf env n seen M
  | 0, _, _ => trivial
  | n + 1, seen, M => fun c hc => by
    refine ⟨?_, fun _ _ _ => dupForever_wf n _ _⟩
    unfold dupForever at hc
    split at hc <;> cases hc <;> trivial

theorem dupThenSendrecv_wf : ∀ (n : Nat) (seen : List Obs) (M : Mach), dupThenSendrecv.MachWf env n seen M
  | 0, _, _ => trivial
  | n + 1, seen, M => fun c hc => by
    refine ⟨?_, fun _ _ _ => dupThenSendrecv_wf n _ _⟩
    unfold dupThenSendrecv at hc
    split at hc
    · cases hc; trivial
    · split at hc
      · cases hc
        exact ⟨⟨.simple (by decide) (by decide), .inr ⟨rfl, rfl⟩⟩, ⟨.simple (by decide) (by decide), .inr ⟨rfl, rfl⟩⟩⟩
      · cases hc; trivial

theorem dupForever_end (m : Mem) (n : Nat) (hn : n = 262142) : (dupForever.runMach env (n + 1) [] (.start m)).2 = none ∧
    (dupForever.runMach env (n + 1 + 1) [] (.start m)).2 = some (.abort exhausted) := by
  rw [init_run rfl m n, init_run rfl m (n + 1)]
  have hl := session_left m
  obtain ⟨h1, M', h2, h3, h4⟩ := dups_run (env := env) (p := dupForever) (c := .commDup 1) (n + 2) (fun seen h _ => if_neg h) n
    [⟨.init, [], if knownReceives [] .init then [] else [], m⟩] (.session m) (List.cons_ne_nil _ _) (show 1 ≤ 1024 by decide)
    (by rw [hl, List.length_singleton]) (by rw [List.length_singleton]; omega) (by omega)
    (fun seen' h => if_neg fun e => by rw [e, List.length_nil, List.length_singleton] at h; omega)
  have he := Mach.dup_empty (env := env) h2 (by omega) 1
  rw [he] at h4
  exact ⟨h1, h4 (by exact fun _ => nofun)⟩

theorem dupThenSendrecv_end (m : Mem) (n : Nat) (hn : n = 262141) :
    (dupThenSendrecv.runMach env (n + 1 + 1) [] (.start m)).2 = some (.abort exhausted) := by
  rw [init_run rfl m (n + 1)]
  have hl := session_left m
  obtain ⟨h1, M', h2, h3, h4⟩ := dups_run (env := env) (p := dupThenSendrecv)
    (c := .sendrecv 0 0 (-1) MPI_PROC_NULL 0 0 0 (-1) MPI_PROC_NULL 0 MPI_COMM_NULL .null) 262142
    (fun seen h hlt => by unfold dupThenSendrecv; rw [if_neg h, if_neg (by omega)]) n
    [⟨.init, [], if knownReceives [] .init then [] else [], m⟩] (.session m) (List.cons_ne_nil _ _) (show 1 ≤ 1024 by decide)
    (by rw [hl, List.length_singleton]) (by rw [List.length_singleton]; omega) (by omega)
    (fun seen' h => by
      rw [List.length_singleton] at h
      have hne : seen' ≠ [] := fun e => by rw [e, List.length_nil] at h; omega
      unfold dupThenSendrecv
      rw [if_neg hne, if_pos (by omega)])
  have he := Mach.sendrecv_empty (env := env) h2 (by omega)
  rw [he] at h4
  exact h4 (by exact fun _ => nofun)

/-- C69: the capacity is reached: after MPI_Init a program can make 262142 communicators, and at the next one it is stopped. -/
theorem C69_reached (m : Mem) : (dupForever.run env 262143 [] (Sys.start m)).2 = none ∧
    (dupForever.run env 262144 [] (Sys.start m)).2 = some (.abort exhausted) := by
  have key : ∀ n, n = 262142 → (dupForever.run env (n + 1) [] (Sys.start m)).2 = none ∧
      (dupForever.run env (n + 1 + 1) [] (Sys.start m)).2 = some (.abort exhausted) := fun n hn => by
    rw [C62_program (by omega) (dupForever_wf _ _ _), C62_program (by omega) (dupForever_wf _ _ _)]
    exact dupForever_end m n hn
  exact key 262142 rfl

/-- C69: the bound of `C69_program` is exact: a program of 262143 calls can run out of numbers, at an MPI_Sendrecv. -/
theorem C69_exact (m : Mem) : dupThenSendrecv.MachWf env 262143 [] (.start m) ∧
    (dupThenSendrecv.run env 262143 [] (Sys.start m)).2 = some (.abort exhausted) := by
  have key : ∀ n, n = 262141 → (dupThenSendrecv.run env (n + 1 + 1) [] (Sys.start m)).2 = some (.abort exhausted) := fun n hn => by
    rw [C62_program (by omega) (dupThenSendrecv_wf _ _ _)]
    exact dupThenSendrecv_end m n hn
  exact ⟨dupThenSendrecv_wf _ _ _, key 262141 rfl⟩

end

/-! ## Parts that take turns (C68) -/

section
variable {ι : Type} [DecidableEq ι] {env : Env} {m : Mem} {l : ι → Layer}

theorem Joint.capacity (hst : env.Steady) (ha : Apart l) (hc : ∀ i, (l i).Correct env m) : ∀ (turns : List ι) (t : ι → Nat) (seen : ι → List Obs)
    (ν : ι → Names) (M : Mach), Joint env m l t seen ν M → M.L.objs.length + turns.length ≤ 262142 →
    (together env l turns seen ν M).fate ≠ some (.abort exhausted) := by
  intro turns
  induction turns with
  | nil => exact fun _ _ _ _ _ _ h => nomatch h
  | cons i turns ih =>
    intro t seen ν M hJ hlen
    rw [List.length_cons] at hlen
    unfold together
    cases hcall : (l i).prog (seen i) with
    | none =>
      refine ih (fun j => if j = i then t i + 1 else t j) seen ν M ⟨hJ.sane, ?_⟩ (by omega)
      obtain ⟨N, k, h1, h2, h3⟩ := hJ.found
      refine ⟨N, k, h1, fun j => ?_, h3⟩
      by_cases hj : j = i
      · subst hj
        rw [if_pos rfl]
        have := h2 j
        exact .inr ⟨by omega, hcall⟩
      · rw [if_neg hj]; exact h2 j
    | some c =>
      have hs := hJ.sane
      have hp : M.pool.Positive := ⟨hs.stock.blocks.1, fun h hm => (hs.stock.unused h hm).1⟩
      have hf := M.answer_fits (env := env) hp (by have := hs.amount; omega) ((l i).call M.mem (c.withHandles (ν i).number))
      have hn := Call.needs_le ((l i).call M.mem (c.withHandles (ν i).number))
      have hl := Call.leaves_le ((l i).call M.mem (c.withHandles (ν i).number))
      have hamt := hs.amount
      have hex : M.answer env ((l i).call M.mem (c.withHandles (ν i).number)) ≠ .abort exhausted := fun e => by
        rw [e] at hf
        have := hf rfl
        omega
      dsimp only
      rcases hJ.turn hst ha hc i hcall with h | ⟨M', o, h, _, hJ'⟩ | ⟨h, h'⟩
      · exact absurd h hex
      · rw [h] at hf ⊢
        have h1 : M.pool.left ≤ M'.pool.left + _ := hf
        have h2 := hJ'.sane.amount
        exact ih _ _ _ _ hJ' (by omega)
      · cases hM : M.answer env ((l i).call M.mem (c.withHandles (ν i).number)) with
        | ok x => exact absurd hM (h x)
        | abort msg =>
          intro he
          have h7 : msg = exhausted := by simpa only [Res.fate, Option.some.injEq, Fate.abort.injEq] using he
          exact hex (by rw [hM, h7])
        | _ => exact nofun

/-- C68: for up to 262141 turns the parts do not interfere at all: each sees what it sees by itself, and the program is
stopped only where one of the parts by itself is stopped, in the same way. -/
theorem C68_bounded (hst : env.Steady) (ha : Apart l) (hc : ∀ i, (l i).Correct env m) (turns : List ι) (hlen : turns.length ≤ 262141) :
    ∃ done, turns = done ++ (mixed env m l turns).left ∧
      (∀ i, (l i).alone env m (done.count i) = ((mixed env m l turns).seen i, none)) ∧
      ((mixed env m l turns).left = [] → (mixed env m l turns).fate = none) ∧
      ∀ i rest, (mixed env m l turns).left = i :: rest → (mixed env m l turns).fate ≠ none ∧
        (l i).alone env m (done.count i + 1) = ((mixed env m l turns).seen i, (mixed env m l turns).fate) :=
  C68_machine hst ha hc turns (Joint.capacity hst ha hc turns _ _ _ _ (Joint.start hc)
    (by show 1 + turns.length ≤ 262142; omega))

end

/-- The two parts of C68 in any order. -/
example (turns : List Bool) (h : turns.length ≤ 262141) := C68_bounded (fun _ => rfl) twoParts_apart twoParts_correct turns h

end MpiSerial
