import Verif.Proofs.PlaceCalls
import Verif.Spec.PlaceProg
import Verif.Props.FortMach

/-!
# Fortran programs whose completion calls work in place
-/

set_option autoImplicit false

namespace MpiSerial

open Spec.Fort

namespace Place

/-! ## Programs -/

theorem frun_flags {c : FEnv} (hj : IntJunk c.env) {m₀ : Mem} {s : Sys} (hr : FRun c (Sys.start m₀) s) : FlagsInt s := by
  obtain ⟨cs, h⟩ := C50_history_partial hr
  have h0 : FlagsInt (Sys.start m₀) := fun _ _ h => by cases h
  generalize Sys.start m₀ = s0 at h h0
  induction cs generalizing s0 with
  | nil => cases h; exact h0
  | cons k cs ih =>
    rw [execAll] at h
    obtain ⟨s1, h1, h2⟩ := Res.bind_eq_ok.1 h
    exact ih s1 h2 (Call.keeps_fi hj h0 k s1 h1)

theorem frun_snoc {c : FEnv} {s s₁ s' : Sys} (h : FRun c s s₁) {st : FStep} (hs : ∀ fc, st = .call fc → fc.Supported c s₁.mem)
    (hx : st.exec c s₁ = .ok s') : FRun c s s' := by
  induction h with
  | refl s => exact .step st hs hx (.refl _)
  | step st' hs' h' _ ih => exact .step st' hs' h' (ih hs hx)

theorem performs_unique {bo : ByteOrder} {f g : Res Sys} {r : Res (Sys × List Spec.Fort.Out)} (hf : Performs bo f r) (hg : Performs bo g r) : f = g := by
  have other : f.fate = r.fate → g.fate = r.fate → r.fate ≠ none → f = g := by
    intro h1 h2 h3
    have h4 := h1.trans h2.symm
    rw [← h1] at h3
    cases f <;> cases g <;> cases h4 <;> first | rfl | exact absurd rfl h3
  cases r with
  | ok x =>
    obtain ⟨s, outs⟩ := x
    obtain ⟨m1, rfl, w1⟩ := hf
    obtain ⟨m2, rfl, w2⟩ := hg
    rw [Wrote.unique w1 w2]
  | abort msg => exact other hf hg (by simp [Res.fate])
  | exit code => exact other hf hg (by simp [Res.fate])
  | ub u => exact other hf hg (by simp [Res.fate])
  | hang => exact other hf hg (by simp [Res.fate])

end Place

end MpiSerial
