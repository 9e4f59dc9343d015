import Verif.Spec.FortSure
import Verif.Props.Twin

/-!
# For C85: the machines have one run, and do not look at leftovers
-/

set_option autoImplicit false

namespace MpiSerial

open Spec.Fort

theorem FMachine.FStep.unique {σ : Type} {K : FMachine σ} {c : FEnv} {x x₁ x₂ : σ} {st : MpiSerial.FStep} (h1 : K.FStep c x st x₁)
    (h2 : K.FStep c x st x₂) (hs : K.FSettled c x st) : x₁ = x₂ := by
  cases st with
  | store m => cases h1; cases h2; rfl
  | init a =>
    cases h1 with
    | init a1 =>
      cases h2 with
      | init a2 => rw [a1] at a2; cases a2; rfl
  | call fc => exact C64_determined h1 h2 hs

theorem FMachine.FStep.fate {σ : Type} {K : FMachine σ} {c : FEnv} {x x₁ : σ} {st : MpiSerial.FStep} (h1 : K.FStep c x st x₁) :
    K.FFate c x st = none := by
  cases h1 with
  | store m => rfl
  | init a1 => simp only [FMachine.FFate, a1]; rfl
  | call h _ =>
    cases h with
    | call d a _ => simp only [FMachine.FFate, d, a]; rfl
    | quiet d => simp only [FMachine.FFate, d]; rfl

theorem FProg.May.unique {σ : Type} {K : FMachine σ} {c : FEnv} {p : FProg} (n : Nat) : ∀ (seen : List Mem) (x : σ)
    (t₁ t₂ : List Mem × Option Fate), p.Settled K c n seen x → p.May K c n seen x t₁ → p.May K c n seen x t₂ → t₁ = t₂ := by
  induction n with
  | zero => intro seen x t₁ t₂ _ h1 h2; exact h1.trans h2.symm
  | succ n ih =>
    intro seen x t₁ t₂ hs h1 h2
    simp only [FProg.May] at h1 h2
    cases hp : p seen with
    | none => rw [hp] at h1 h2; exact h1.trans h2.symm
    | some st =>
      rw [hp] at h1 h2
      obtain ⟨k1, k2⟩ := hs st hp
      rcases h1 with ⟨x1, s1, m1⟩ | ⟨f1, e1, m1⟩
      · rcases h2 with ⟨x2, s2, m2⟩ | ⟨f2, e2, m2⟩
        · cases s1.unique s2 k1
          exact ih _ _ _ _ (k2 _ s1) m1 m2
        · rw [s1.fate] at e2; cases e2
      · rcases h2 with ⟨x2, s2, m2⟩ | ⟨f2, e2, m2⟩
        · rw [s2.fate] at e1; cases e1
        · rw [e1] at e2; cases e2; exact m1.trans m2.symm

theorem Mach.types_withJunk (env : Env) (j : Nat → ReqRec) (M : Mach) (l : List Int) : M.types (env.withJunk j) l = M.types env l := by
  induction l with
  | nil => rfl
  | cons h l ih => simp only [Mach.types, ih]; rfl

theorem Mach.machine_withJunk (env : Env) (j : Nat → ReqRec) : Mach.machine (env.withJunk j) = Mach.machine env := by
  unfold Mach.machine
  congr 1
  funext M c
  cases c <;> first | rfl | (simp only [Mach.answer, Mach.types_withJunk]; rfl)

theorem deed_withJunk (c : FEnv) (j : Nat → ReqRec) (m : Mem) (fc : FCall) : fc.deed (c.withJunk j) m = fc.deed c m := by
  cases fc <;> rfl

theorem supported_withJunk (c : FEnv) (j : Nat → ReqRec) (m : Mem) (fc : FCall) : fc.Supported (c.withJunk j) m ↔ fc.Supported c m := by
  cases fc <;> exact Iff.rfl

section
variable {σ : Type} {K : FMachine σ} {c : FEnv} {j : Nat → ReqRec}

theorem moves_withJunk {x x' : σ} {fc : FCall} {outs : List Spec.Fort.Out} :
    K.FMoves (c.withJunk j) x fc x' outs ↔ K.FMoves c x fc x' outs := by
  constructor
  · intro h
    cases h with
    | call d a w => exact .call (by rw [← deed_withJunk c j]; exact d) a w
    | quiet d => exact .quiet (by rw [← deed_withJunk c j]; exact d)
  · intro h
    cases h with
    | call d a w => exact .call (by rw [deed_withJunk]; exact d) a w
    | quiet d => exact .quiet (by rw [deed_withJunk]; exact d)

theorem step_withJunk {x x' : σ} {st : MpiSerial.FStep} : K.FStep (c.withJunk j) x st x' ↔ K.FStep c x st x' := by
  constructor
  · intro h
    cases h with
    | store m => exact .store m
    | init a => exact .init a
    | call h w => exact .call (moves_withJunk.mp h) w
  · intro h
    cases h with
    | store m => exact .store m
    | init a => exact .init a
    | call h w => exact .call (moves_withJunk.mpr h) w

theorem fate_withJunk {x : σ} {st : MpiSerial.FStep} : K.FFate (c.withJunk j) x st = K.FFate c x st := by
  cases st with
  | call fc => simp only [FMachine.FFate, deed_withJunk]
  | _ => rfl

theorem may_withJunk {p : FProg} {t : List Mem × Option Fate} (n : Nat) :
    ∀ (seen : List Mem) (x : σ), p.May K (c.withJunk j) n seen x t ↔ p.May K c n seen x t := by
  induction n with
  | zero => intro _ _; exact Iff.rfl
  | succ n ih =>
    intro seen x
    simp only [FProg.May, step_withJunk, fate_withJunk, ih]

theorem conforms_withJunk {p : FProg} (n : Nat) :
    ∀ (seen : List Mem) (x : σ), p.Conforms K c n seen x → p.Conforms K (c.withJunk j) n seen x := by
  induction n with
  | zero => intro _ _ _; trivial
  | succ n ih =>
    intro seen x h st hst
    obtain ⟨h1, h2⟩ := h st hst
    refine ⟨?_, fun x' hx => ih _ _ (h2 x' (step_withJunk.mp hx))⟩
    cases st with
    | call fc =>
      obtain ⟨k1, k2, k3, k4⟩ := h1
      refine ⟨(supported_withJunk ..).mpr k1, by rw [deed_withJunk]; exact k2, ?_, fun x' outs h => k4 x' outs (moves_withJunk.mp h)⟩
      rw [deed_withJunk]
      exact k3
    | _ => exact h1

end

end MpiSerial
