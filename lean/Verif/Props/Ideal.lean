import Verif.Proofs.IdealStep
import Verif.Props.Machine

/-!
# C63: a conforming program sees what the MPI standard says

`Ideal` (`Spec/Ideal.lean`) has datatypes of the standard in place of descriptors, moves data as the standard says and
reports exact extents, sizes and bounds.  Partial: the calls are those of `Ideal.Legal`, which leaves out what DESIGN,
section 7 lists as deviations of the library (a receive larger than its message, a waiting message received with another
datatype, offsets beyond an `int`, bounds of the wrong sign, MPI_INTEGER16), and the memory that the constructors leave
uninitialised reads as zero (`ZeroGarbage`).
-/

set_option autoImplicit false

namespace MpiSerial

open Res (Rel)
open Spec

/-- C63: a conforming call is well formed, and it ends on the reference machine of C62 as on the machine of the standard;
if it returns, the results and the memory are the same, and the next call can be treated in the same way. -/
theorem C63_call_partial {env : Env} (hc : env.cfg.Ok) (hz : ZeroGarbage env) {M : Mach} {I : Ideal} (hm : Mirror env.cfg M I) {c : Call}
    (hl : I.Legal env c) : c.Wf env M.L ∧ (M.answer env c).fate = (I.answer env c).fate ∧
      ∀ M' o, M.answer env c = .ok (M', o) → ∃ I', I.answer env c = .ok (I', o) ∧ M'.mem = I'.core.mem ∧ Mirror env.cfg M' I' := by
  have h := Call.ideal hc hz hm hl
  refine ⟨wf_of_legal hc hm hl, h.fate, fun M' o hok => ?_⟩
  obtain ⟨⟨I', o'⟩, h1, h2, h3⟩ := h.ok_left hok
  dsimp only at h2 h3
  subst h3
  exact ⟨I', h1, h2.core.mem.symm, h2⟩

theorem run_ideal {env : Env} (hc : env.cfg.Ok) (hz : ZeroGarbage env) {p : Prog} : ∀ (n : Nat) (seen : List Obs) (M : Mach) (I : Ideal),
    Mirror env.cfg M I → p.Conforms env n seen I → p.MachWf env n seen M ∧ p.runMach env n seen M = p.runIdeal env n seen I := by
  intro n
  induction n with
  | zero => intros; exact ⟨trivial, rfl⟩
  | succ n ih =>
    intro seen M I hm hwf
    unfold Prog.runMach Prog.runIdeal
    cases hp : p seen with
    | none => exact ⟨fun c hc => (by rw [hp] at hc; cases hc), rfl⟩
    | some c =>
      obtain ⟨h1, h2⟩ := hwf c hp
      obtain ⟨h3, h4, h5⟩ := C63_call_partial hc hz hm h1
      dsimp only
      cases hx : M.answer env c with
      | ok z =>
        obtain ⟨M', o⟩ := z
        obtain ⟨I', h6, h7, h8⟩ := h5 M' o hx
        rw [h6]
        dsimp only
        rw [h7]
        obtain ⟨h9, h10⟩ := ih _ M' I' h8 (h2 I' o h6)
        refine ⟨fun c' hc' => ?_, h10⟩
        rw [hp] at hc'
        cases hc'
        refine ⟨h3, fun M'' o'' ha => ?_⟩
        rw [hx] at ha
        cases ha
        rw [h7]
        exact h9
      | _ =>
        rw [hx] at h4
        refine ⟨fun c' hc' => ?_, ?_⟩
        · rw [hp] at hc'
          cases hc'
          exact ⟨h3, fun M'' o'' ha => by rw [hx] at ha; cases ha⟩
        · cases hy : I.answer env c <;> rw [hy] at h4 <;> simp_all [Res.fate]

/-- C63: a conforming program of fewer than 2^30 calls sees on the library what it sees on the machine of the standard:
all results, the memory after every call, the statuses of its receives, and how it ends. -/
theorem C63_program_partial {env : Env} (hc : env.cfg.Ok) (hz : ZeroGarbage env) {p : Prog} {m : Mem} {n : Nat} (hn : n ≤ 1073741823)
    (h : p.Conforms env n [] (.start m)) : p.run env n [] (Sys.start m) = p.runIdeal env n [] (.start m) := by
  obtain ⟨h1, h2⟩ := run_ideal hc hz n [] _ _ (.start env.cfg m) h
  rw [C62_program hn h1, h2]

/-! ## A program the theorem applies to -/

theorem Prog.conforms_step {env : Env} {p : Prog} {n : Nat} {seen : List Obs} {I : Ideal} (c : Call) (d : Ideal × Out)
    (hp : p seen = some c) (hc : I.Legal env c)
    (hn : p.Conforms env n (⟨c, ((I.answer env c).getD d).2.vals, if knownReceives seen c then ((I.answer env c).getD d).2.done else [],
      ((I.answer env c).getD d).1.core.mem⟩ :: seen) ((I.answer env c).getD d).1) : p.Conforms env (n + 1) seen I := by
  intro c' hp'
  rw [hp] at hp'
  cases hp'
  refine ⟨hc, fun I' o ha => ?_⟩
  rw [ha] at hn
  exact hn

/-- Builds the vector of two MPI_CHARs two apart, posts a receive for two MPI_CHARs, sends one vector to it, waits, asks for the
extent of the vector, and frees it. -/
def vecProg : Prog
  | [] => some .init
  | [_] => some (.typeVector 2 1 2 (-1))
  | [t, _] => some (.typeCommit (t.vals.headD 0))
  | [_, _, _] => some (.irecv 300 2 (-1) 0 5 1)
  | [_, _, t, _] => some (.send 100 1 (t.vals.headD 0) 0 5 1)
  | [_, r, _, _, _] => some (.wait (r.vals.headD 0) st0)
  | [_, _, _, _, t, _] => some (.typeExtent (t.vals.headD 0))
  | [_, _, _, _, _, t, _] => some (.typeFree (t.vals.headD 0))
  | _ => none

/-- The machine after a call. -/
def Ideal.next (I : Ideal) (c : Call) : Ideal × Out := (I.answer env0 c).getD (I, ⟨[], []⟩)

def W1 : Ideal := ((Ideal.start mem0).next .init).1
def W2 : Ideal := (W1.next (.typeVector 2 1 2 (-1))).1
def W3 : Ideal := (W2.next (.typeCommit 2)).1
def W4 : Ideal := (W3.next (.irecv 300 2 (-1) 0 5 1)).1
def W5 : Ideal := (W4.next (.send 100 1 2 0 5 1)).1
def W6 : Ideal := (W5.next (.wait 3 st0)).1
def W7 : Ideal := (W6.next (.typeExtent 2)).1

deriving instance DecidableEq for DType

theorem comp_char (I : Ideal) : I.comp {} (-1) = some (.data (plain [(0, 0)]), true) := rfl

theorem W3_comp : W3.comp {} 2 = some (.data vec2, true) := by
  have h : W3.types = [(2, vec2, true)] := by decide +kernel
  unfold Ideal.comp
  rw [h]
  rfl

theorem W4_comp : W4.comp {} 2 = some (.data vec2, true) := by
  have h : W4.types = [(2, vec2, true)] := by decide +kernel
  unfold Ideal.comp
  rw [h]
  rfl

theorem W6_comp : W6.comp {} 2 = some (.data vec2, true) := by
  have h : W6.types = [(2, vec2, true)] := by decide +kernel
  unfold Ideal.comp
  rw [h]
  rfl

/-- The eight calls of `vecProg` are those of a conforming program. -/
theorem vecProg_conforms : vecProg.Conforms env0 8 [] (.start mem0) := by
  have h2 : (W1.next (.typeVector 2 1 2 (-1))).2.vals.headD 0 = 2 := by decide +kernel
  have h4 : (W3.next (.irecv 300 2 (-1) 0 5 1)).2.vals.headD 0 = 3 := by decide +kernel
  have hw : ∀ L : Ledger, decide ((1, Obj.comm 0) ∈ L.objs) = true → IsComm L 1 := fun L h => ⟨0, of_decide_eq_true h⟩
  refine Prog.conforms_step .init (.start mem0, ⟨[], []⟩) rfl trivial ?_
  refine Prog.conforms_step (I := W1) (.typeVector 2 1 2 (-1)) (W1, ⟨[], []⟩) rfl
    ⟨by decide, by decide, plain [(0, 0)], ⟨true, comp_char _⟩, by rw [kindSize_eq]; exact vec2_small⟩ ?_
  refine Prog.conforms_step (I := W2) (.typeCommit 2) (W2, ⟨[], []⟩) (congrArg (fun h => some (Call.typeCommit h)) h2) ?_ ?_
  · have h : W2.types = [(2, vec2, false)] := by decide +kernel
    exact ⟨vec2, false, by show W2.comp {} 2 = _; unfold Ideal.comp; rw [h]; rfl⟩
  refine Prog.conforms_step (I := W3) (.irecv 300 2 (-1) 0 5 1) (W3, ⟨[], []⟩) rfl
    ⟨⟨⟨_, comp_char _⟩, .inl (hw _ (by decide +kernel))⟩, fun c j o _ h => ?_⟩ ?_
  · have : ∀ c, W3.core.L.partner c .recv 5 = none := by
      have h : W3.core.L.ops = [] := by decide +kernel
      intro c
      unfold Ledger.partner
      rw [h]
      rfl
    rw [this] at h
    cases h
  refine Prog.conforms_step (I := W4) (.send 100 1 2 0 5 1) (W4, ⟨[], []⟩) (congrArg (fun h => some (Call.send 100 1 h 0 5 1)) h2)
    ⟨⟨⟨_, W4_comp⟩, .inl (hw _ (by decide +kernel))⟩, fun c j o hcm hpt ho _ => ?_⟩ ?_
  · have hobjs : W4.core.L.objs = [(3, .req 0), (1, .comm 0)] := by decide +kernel
    have hops : W4.core.L.ops = [⟨.recv, 0, 5, 300, 2, -1, 3, .pending⟩] := by decide +kernel
    rw [hobjs] at hcm
    have : c = 0 := by simpa using hcm
    subst this
    have : W4.core.L.partner 0 .send 5 = some 0 := by decide +kernel
    rw [this] at hpt
    cases hpt
    rw [hops] at ho
    cases ho
    refine ⟨vec2, plain [(0, 0)], W4_comp, comp_char _, ?_⟩
    have hmem : ∀ a, (W4.core.mem a).isSome = true := by
      intro a
      show (mem0 a).isSome = true
      unfold mem0
      repeat' split
      all_goals rfl
    refine ⟨by rw [kindSize_eq]; exact vec2_legal, fun _ _ _ _ => hmem _, fun _ _ _ _ => hmem _⟩
  refine Prog.conforms_step (I := W5) (.wait 3 st0) (W5, ⟨[], []⟩) (congrArg (fun h => some (Call.wait h st0)) h4)
    (Or.inr ⟨0, of_decide_eq_true (by decide +kernel)⟩) ?_
  refine Prog.conforms_step (I := W6) (.typeExtent 2) (W6, ⟨[], []⟩) (congrArg (fun h => some (Call.typeExtent h)) h2)
    ⟨_, _, W6_comp⟩ ?_
  refine Prog.conforms_step (I := W7) (.typeFree 2) (W7, ⟨[], []⟩) (congrArg (fun h => some (Call.typeFree h)) h2)
    ⟨by decide, ⟨_, _, W6_comp⟩, ?_⟩ trivial
  have : W7.core.L.ops.all (fun o => decide (o.st ≠ .pending)) = true := by decide +kernel
  rw [List.all_eq_true] at this
  intro o ho
  exact absurd ho.2.1 (of_decide_eq_true (this o ho.1))

example : vecProg.run env0 8 [] (Sys.start mem0) = vecProg.runIdeal env0 8 [] (.start mem0) :=
  C63_program_partial cfg_default_ok (fun _ => ⟨rfl, rfl⟩) (by decide) vecProg_conforms

/-- What it sees, computed on the machine of the standard: the bytes 1 and 3 arrive at 300 and 301, the extent is 3. -/
example : (vecProg.runIdeal env0 8 [] (.start mem0)).2 = none ∧
    (vecProg.runIdeal env0 8 [] (.start mem0)).1.map (fun o => (o.vals, o.stats, o.mem 300, o.mem 301, o.mem 302)) =
      [([], [], some 1, some 3, some 0), ([3], [], some 1, some 3, some 0), ([0, 0, 0], [.obj ⟨0, 5, 0, 0⟩], some 1, some 3, some 0),
       ([], [], some 1, some 3, some 0), ([3], [], some 0, some 0, some 0), ([], [], some 0, some 0, some 0),
       ([2], [], some 0, some 0, some 0), ([], [], some 0, some 0, some 0)] := by
  decide +kernel

/-- The hypotheses of C63_call_partial. -/
example : Mirror env0.cfg (.start mem0) (.start mem0) ∧ (Ideal.start mem0).Legal env0 .init ∧
    ((Mach.start mem0).answer env0 .init).fate = none :=
  ⟨.start _ _, trivial, by decide +kernel⟩

end MpiSerial
