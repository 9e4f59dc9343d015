import Verif.Spec.FortMach

/-!
# Programs written partly in C and partly in Fortran

Both parts use the same library and share memory.  The Fortran part sees what is in its variables, the C part also the values that
functions return through pointers to its own variables (`Obs`).
-/

set_option autoImplicit false

namespace MpiSerial

/-- A step of such a program. -/
inductive MStep where
  | fort (st : FStep)
  | c (call : Call)

/-- What the program sees of a step. -/
inductive MObs where
  | fort (m : Mem)
  | c (o : Obs)

/-- A program chooses its next step from what it has seen so far (most recent first). -/
abbrev MProg := List MObs → Option MStep

/-- A step on the library. -/
def MStep.exec (c : FEnv) (s : Sys) : MStep → Res (Sys × MObs)
  | .fort st => st.exec c s >>= fun s' => .ok (s', .fort s'.mem)
  | .c call => call.answer c.env s >>= fun x => .ok (x.1, .c ⟨call, x.2.vals, x.2.done, x.1.mem⟩)

/-- The first `n` steps on the library: what was seen, and how the program died if it did. -/
def MProg.run (c : FEnv) (p : MProg) : Nat → List MObs → Sys → List MObs × Option Fate
  | 0, seen, _ => (seen, none)
  | n + 1, seen, s =>
    match p seen with
    | none => (seen, none)
    | some st =>
      match st.exec c s with
      | .ok (s', o) => p.run c n (o :: seen) s'
      | r => (seen, r.fate)

namespace FMachine

variable {σ : Type} (K : FMachine σ)

/-- A step may take the machine from `x` to `x'`, where the program sees `o`. -/
inductive MMoves (c : FEnv) (x : σ) : MStep → σ → MObs → Prop where
  | fort {st : MpiSerial.FStep} {x' : σ} (h : K.FStep c x st x') : MMoves c x (.fort st) x' (.fort (K.mem x'))
  | c {call : Call} {x' : σ} {o : Out} {done : List StPtr} (ha : K.answer x call = .ok (x', o)) (hw : K.Writes x call o done) :
      MMoves c x (.c call) x' (.c ⟨call, o.vals, done, K.mem x'⟩)

/-- How a step ends that does not return. -/
def MFate (c : FEnv) (x : σ) : MStep → Option Fate
  | .fort st => K.FFate c x st
  | .c call => (K.answer x call).fate

/-- A step of a conforming program. -/
def MLegal (c : FEnv) (x : σ) : MStep → Prop
  | .fort st => K.FLegal c x st
  | .c call => K.legal x call

end FMachine

/-- `t` is a possible run of the first `n` steps on the machine. -/
def MProg.May {σ : Type} (K : FMachine σ) (c : FEnv) (p : MProg) : Nat → List MObs → σ → List MObs × Option Fate → Prop
  | 0, seen, _, t => t = (seen, none)
  | n + 1, seen, x, t =>
    match p seen with
    | none => t = (seen, none)
    | some st => (∃ x' o, K.MMoves c x st x' o ∧ p.May K c n (o :: seen) x' t) ∨
        ∃ f, K.MFate c x st = some f ∧ t = (seen, some f)

/-- Whatever the machine writes where it has a choice, the first `n` steps are those of a conforming program. -/
def MProg.Conforms {σ : Type} (K : FMachine σ) (c : FEnv) (p : MProg) : Nat → List MObs → σ → Prop
  | 0, _, _ => True
  | n + 1, seen, x => ∀ st, p seen = some st → K.MLegal c x st ∧ ∀ x' o, K.MMoves c x st x' o → p.Conforms K c n (o :: seen) x'

end MpiSerial
