import Verif.Proofs.MoveFort
import Verif.Props.FortMach

/-!
# C84 for Fortran programs
-/

set_option autoImplicit false

namespace MpiSerial

/-- C84: a Fortran subroutine whose arguments all lie `δ` further on does the same, `δ` further on: it dies in the same
way, or leaves every variable and buffer with the same contents and the library in the same state up to the addresses of
buffers in its requests.  For any state and all subroutines but MPI_ADDRESS and MPI_GET_ADDRESS. -/
theorem C84_fortran_call (δ : Int) (c : FEnv) {s : Sys} (hs : s.mem.Fits δ) (fc : FCall) (hc : fc.Moves δ c.ptrs) :
    (fc.moved δ).exec (c.moved δ) (s.moved δ) = fc.exec c s >>= fun s' => .ok (s'.moved δ) :=
  (fcall_movesTo c hs fc hc).eq

theorem fstep_movesTo {δ : Int} (c : FEnv) {s : Sys} (hs : s.mem.Fits δ) (st : FStep) (hst : st.Moves δ c.ptrs) :
    MovesTo δ (st.exec c s) ((st.moved δ).exec (c.moved δ) (s.moved δ)) := by
  cases st with
  | store m => exact .ret (a := { s with mem := m }) hst
  | init a => exact init_fort_movesTo c.env a hs
  | call fc => exact fcall_movesTo c hs fc hst

/-- C84: a Fortran program whose variables lie `δ` further on sees the same in them after every step, and ends in the
same way, for any number of steps, well formed or not.  (`c.moved` also moves the buffer address in storage that never held
a request.) -/
theorem C84_fortran_program {δ : Int} (c : FEnv) {p q : FProg} (hpq : p.MovedTo δ q)
    (hp : ∀ l st, p l = some st → st.Moves δ c.ptrs) (n : Nat) :
    ∀ (l : List Mem) (s : Sys), s.mem.Fits δ → q.run (c.moved δ) n (l.map (Mem.moved δ)) (s.moved δ)
      = ((p.run c n l s).1.map (Mem.moved δ), (p.run c n l s).2) := by
  induction n with
  | zero => intro l s _; rfl
  | succ n ih =>
    intro l s hs
    simp only [FProg.run]
    rw [hpq l]
    cases hc : p l with
    | none => rfl
    | some st =>
      have h := fstep_movesTo c hs st (hp l st hc)
      dsimp only [Option.map_some]
      rw [h.eq]
      cases hx : st.exec c s with
      | ok s' => exact ih (s'.mem :: l) s' (h.post s' hx)
      | abort t => rfl
      | exit t => rfl
      | ub t => rfl
      | hang => rfl

namespace FDemo

open Spec.Fort (intAt)

/-- The variables of `FDemo.exchange`, and nothing else. -/
def varsLow : Mem := fun a => if 0 ≤ a ∧ a < 8192 then vars a else none

theorem varsLow_fits : varsLow.Fits 65536 := by
  intro a ha
  unfold varsLow at ha
  split at ha
  · omega
  · cases ha

/-- The same program, linked to another place. -/
def exchangeHigh : FProg := fun l => (exchange (l.map (Mem.moved (-65536)))).map (FStep.moved 65536)

theorem exchangeHigh_moved : exchange.MovedTo 65536 exchangeHigh := by
  intro l
  rcases l with _ | ⟨a, _ | ⟨b, _ | ⟨x, _ | ⟨d, _ | ⟨e, l⟩⟩⟩⟩⟩ <;> rfl

theorem exchange_moves (l : List Mem) (st : FStep) (hst : exchange l = some st) : st.Moves 65536 cl.ptrs := by
  rcases l with _ | ⟨a, _ | ⟨b, _ | ⟨x, _ | ⟨d, _ | ⟨e, l⟩⟩⟩⟩⟩
  · cases hst; exact True.intro
  · cases hst; exact True.intro
  · cases hst; exact True.intro
  · cases hst; exact fun _ => ⟨by decide, by decide⟩
  · cases hst; exact fun h => absurd rfl h
  · cases hst

/-- The theorem applies; the message arrives 65536 bytes further on. -/
example : exchangeHigh.run (cl.moved 65536) 5 [] ((Sys.start varsLow).moved 65536)
      = ((exchange.run cl 5 [] (Sys.start varsLow)).1.map (Mem.moved 65536), none) ∧
    ((exchangeHigh.run (cl.moved 65536) 5 [] ((Sys.start varsLow).moved 65536)).1.map fun m =>
      ([m 2200, m 67736, m 67738], [68636, 68644, 68736, 68740].map (intAt .little m))) =
      [([none, some 1, some 3], [some 0, some 0, some 0, some 5]), ([none, some 1, some 3], [some 0, some 3, some 0, some 5]),
       ([none, some 1, some 3], [some 2, some 3, some 0, some 0]), ([none, some 201, some 203], [some 2, some 0, some 0, some 0]),
       ([none, some 201, some 203], [some 0, some 0, some 0, some 0])] := by
  have h2 : (exchange.run cl 5 [] (Sys.start varsLow)).2 = none := by decide +kernel
  refine ⟨?_, by decide +kernel⟩
  rw [← h2]
  exact C84_fortran_program cl exchangeHigh_moved exchange_moves 5 [] (Sys.start varsLow) varsLow_fits

/-- One byte of what a call left. -/
def addressByte (r : Res Sys) (a : Int) : Option UInt8 := match r with
  | .ok s => s.mem a
  | _ => none

/-- MPI_GET_ADDRESS is the exception: it tells where its argument lies. -/
theorem C84_fortran_needs_moves :
    addressByte ((FCall.getAddress 2000 3300 3104).exec cl (Sys.start varsLow)) 3302 = some 0 ∧
    addressByte (((FCall.getAddress 2000 3300 3104).moved 65536).exec (cl.moved 65536)
      ((Sys.start varsLow).moved 65536)) (3302 + 65536) = some 1 := by
  decide +kernel

end FDemo

end MpiSerial
