import Verif.Spec.Fate
import Verif.Model.Copy

/-!
# Which fates a computation avoids
-/

set_option autoImplicit false

namespace MpiSerial

namespace Res

variable {α β : Type} {B : Fate → Prop}

theorem avoids_ok (a : α) : (ok a).Avoids B := fun _ h => by cases h

theorem avoids_pure (a : α) : (pure a : Res α).Avoids B := fun _ h => by cases h

theorem avoids_abort {m : String} (h : ¬ B (.abort m)) : (abort m : Res α).Avoids B := fun f hf => by cases hf; exact h

theorem avoids_exit {c : Int} (h : ¬ B (.exit c)) : (exit c : Res α).Avoids B := fun f hf => by cases hf; exact h

theorem avoids_ub {u : UB} (h : ¬ B (.ub u)) : (ub u : Res α).Avoids B := fun f hf => by cases hf; exact h

theorem avoids_bind {x : Res α} {f : α → Res β} (h1 : x.Avoids B) (h2 : ∀ a, x = .ok a → (f a).Avoids B) :
    (x >>= f).Avoids B := by
  cases x with
  | ok a => exact h2 a rfl
  | abort m => exact fun f h => h1 f h
  | exit c => exact fun f h => h1 f h
  | ub u => exact fun f h => h1 f h
  | hang => exact fun f h => h1 f h

theorem avoids_ite {p : Prop} [Decidable p] {x y : Res α} (h1 : p → x.Avoids B) (h2 : ¬ p → y.Avoids B) :
    (if p then x else y).Avoids B := by
  split
  · exact h1 ‹_›
  · exact h2 ‹_›

theorem avoids_of_bind {x : Res α} {f : α → Res β} (h : (x >>= f).Avoids B) : x.Avoids B := by
  cases x with
  | ok a => exact avoids_ok a
  | abort m => exact fun f h' => h f h'
  | exit c => exact fun f h' => h f h'
  | ub u => exact fun f h' => h f h'
  | hang => exact fun f h' => h f h'

theorem avoids_mono {B' : Fate → Prop} {x : Res α} (h : x.Avoids B) (hb : ∀ f, B' f → B f) : x.Avoids B' :=
  fun f hf hb' => h f hf (hb f hb')

end Res

end MpiSerial
