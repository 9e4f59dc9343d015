import Verif.Spec.Compose
import Verif.Proofs.Twin

/-!
# Copying inside a part of memory
-/

set_option linter.unusedSimpArgs false
set_option autoImplicit false

namespace MpiSerial

open Res (Rel)

/-- The second program does something undefined, the first one runs out of handles, or they end in the same way. -/
def Res.Sub {α β : Type} (S : α → β → Prop) (u : Res α) (v : Res β) : Prop :=
  (∃ b, v = .ub b) ∨ u = .abort exhausted ∨ u.Rel S v

namespace Res
variable {α β γ δ : Type} {S : α → β → Prop} {T : γ → δ → Prop}

theorem Sub.ub {u : Res α} {b : UB} : u.Sub S (.ub b) := .inl ⟨b, rfl⟩

theorem Sub.of {u : Res α} {v : Res β} (h : u.Rel S v) : u.Sub S v := .inr (.inr h)

theorem Sub.ok {a : α} {b : β} (h : S a b) : (Res.ok a).Sub S (.ok b) := .of h

theorem Sub.bind {u : Res α} {v : Res β} {f : α → Res γ} {g : β → Res δ} (h : u.Sub S v)
    (h2 : ∀ a b, u = .ok a → v = .ok b → S a b → (f a).Sub T (g b)) : (u >>= f).Sub T (v >>= g) := by
  rcases h with ⟨b, rfl⟩ | rfl | h
  · exact .ub
  · exact .inr (.inl rfl)
  · cases u <;> cases v <;> simp only [Res.Rel] at h <;> try exact h.elim
    · exact h2 _ _ rfl rfl h
    all_goals first | (subst h; exact .of rfl) | exact .of trivial

theorem Sub.mono {S' : α → β → Prop} {u : Res α} {v : Res β} (h : u.Sub S v) (h2 : ∀ a b, u = .ok a → v = .ok b → S a b → S' a b) :
    u.Sub S' v :=
  h.imp id (Or.imp id fun h => h.mono h2)

theorem Sub.ite {p : Prop} [Decidable p] {x x' : Res α} {y y' : Res β} (h1 : p → x.Sub S y) (h2 : ¬ p → x'.Sub S y') :
    (if p then x else x').Sub S (if p then y else y') := by
  split
  · next h => exact h1 h
  · next h => exact h2 h

/-- Something that does not depend on the state comes first. -/
theorem Sub.same {u : Res α} {f : α → Res γ} {g : α → Res δ} (h : ∀ a, u = .ok a → (f a).Sub T (g a)) :
    (u >>= f).Sub T (u >>= g) :=
  Sub.bind (S := fun a b => a = b) (.of (.same fun _ _ => rfl)) fun a b hu _ e => by subst e; exact h a hu

theorem Sub.abort {m : String} : (Res.abort m : Res α).Sub S (.abort m) := .of rfl
theorem Sub.exit {m : Int} : (Res.exit m : Res α).Sub S (.exit m) := .of rfl

end Res

open Res (Sub)

/-- The whole memory `a` after something was done in the region; `b` is the memory of the region. -/
def Confined (R : Int → Bool) (m a b : Mem) : Prop := b = a.part R ∧ ∀ x, R x = false → a x = m x

theorem Confined.refl (R : Int → Bool) (m : Mem) : Confined R m m (m.part R) := ⟨rfl, fun _ _ => rfl⟩

theorem part_some {R : Int → Bool} {m : Mem} {a : Int} (h : (m.part R a).isSome) : R a = true ∧ m.part R a = m a := by
  unfold Mem.part at h ⊢
  cases hr : R a with
  | false => rw [hr] at h; simp at h
  | true => exact ⟨rfl, by simp⟩

theorem memcpy_confined (R : Int → Bool) (m : Mem) (d s : Int) (n : Nat) : (memcpy m d s n).Sub (Confined R m) (memcpy (m.part R) d s n) := by
  unfold memcpy
  refine Sub.ite (fun _ => .ok (.refl R m)) fun h0 => ?_
  by_cases hr : (m.part R).readable d n ∧ (m.part R).readable s n
  · have hm : m.readable d n ∧ m.readable s n :=
      ⟨fun i hi => by rw [← (part_some (hr.1 i hi)).2]; exact hr.1 i hi, fun i hi => by rw [← (part_some (hr.2 i hi)).2]; exact hr.2 i hi⟩
    rw [if_neg (fun h => h hm), if_neg (fun h : ¬ _ => h hr)]
    refine Sub.ite (fun _ => .ub) fun _ => .ok ⟨?_, ?_⟩
    · funext a
      by_cases ha : d ≤ a ∧ a < d + n
      · have h1 := (part_some (hr.1 (a - d).toNat (by omega))).1
        rw [show d + ((a - d).toNat : Int) = a by omega] at h1
        have h2 := (part_some (hr.2 (a - d).toNat (by omega))).2
        rw [show s + ((a - d).toNat : Int) = s + (a - d) by omega] at h2
        rw [if_pos ha, h2]
        unfold Mem.part
        rw [if_pos h1]
        exact (if_pos ha).symm
      · rw [if_neg ha]
        unfold Mem.part
        dsimp only
        rw [if_neg ha]
    · intro a hR
      dsimp only
      rw [if_neg]
      intro ha
      have h1 := (part_some (hr.1 (a - d).toNat (by omega))).1
      rw [show d + ((a - d).toNat : Int) = a by omega, hR] at h1
      cases h1
  · rw [if_pos hr]
    exact .ub

theorem Confined.trans {R : Int → Bool} {m a b : Mem} (h : ∀ x, R x = false → a x = m x) (h2 : ∃ c, Confined R a b c) : ∀ x, R x = false → b x = m x :=
  fun x hx => by obtain ⟨_, _, h3⟩ := h2; rw [h3 x hx, h x hx]

section
variable {R : Int → Bool} {cfg : Cfg}

theorem copyLoop_confined (source : Int) (st : Typestruct) (sext dest : Int) (dt : Typestruct) (dext : Int) : ∀ (n i : Nat) (m : Mem),
    (copyLoop cfg source st sext dest dt dext n i m).Sub (Confined R m) (copyLoop cfg source st sext dest dt dext n i (m.part R)) := by
  intro n
  induction n with
  | zero => intro i m; exact .ok (.refl R m)
  | succ n ih =>
    intro i m
    unfold copyLoop
    refine Sub.same fun _ _ => Sub.same fun _ _ => Sub.same fun _ _ => Sub.same fun _ _ => Sub.ite (fun _ => .exit) fun _ => Sub.same fun _ _ => ?_
    refine Sub.bind (memcpy_confined R m _ _ _) fun a b _ _ ⟨h1, h2⟩ => ?_
    subst h1
    exact (ih (i + 1) a).mono fun x y _ _ h => ⟨h.1, Confined.trans h2 ⟨_, h⟩⟩

theorem Pcopy_data2_confined (m : Mem) (a n : Int) (st : Typestruct) (b k : Int) (dt : Typestruct) :
    (Pcopy_data2 cfg m a n st b k dt).Sub (Confined R m) (Pcopy_data2 cfg (m.part R) a n st b k dt) := by
  unfold Pcopy_data2
  refine Sub.ite (fun _ => .exit) fun _ => Sub.same fun _ _ => Sub.same fun _ _ => Sub.ite (fun _ => .exit) fun _ =>
    Sub.same fun _ _ => Sub.same fun _ _ => ?_
  exact copyLoop_confined ..

/-- Memory and position. -/
def ConfinedP (R : Int → Bool) (m : Mem) (a b : Mem × Int) : Prop := Confined R m a.1 b.1 ∧ a.2 = b.2

theorem packEntries_confined (inbuf : Int) (t : Typestruct) (extent outbuf outsize : Int) (i : Nat) : ∀ (n j : Nat) (m : Mem) (p : Int),
    (packEntries cfg inbuf t extent outbuf outsize i n j (m, p)).Sub (ConfinedP R m) (packEntries cfg inbuf t extent outbuf outsize i n j (m.part R, p)) := by
  intro n
  induction n with
  | zero => intro j m p; exact .ok ⟨.refl R m, rfl⟩
  | succ n ih =>
    intro j m p
    unfold packEntries
    refine Sub.same fun _ _ => Sub.same fun _ _ => Sub.same fun _ _ => Sub.ite (fun _ => .exit) fun _ => ?_
    refine Sub.bind (memcpy_confined R m _ _ _) fun a b _ _ ⟨h1, h2⟩ => ?_
    subst h1
    exact (ih (j + 1) a _).mono fun x y _ _ h => ⟨⟨h.1.1, Confined.trans h2 ⟨_, h.1⟩⟩, h.2⟩

theorem packLoop_confined (inbuf : Int) (t : Typestruct) (extent outbuf outsize : Int) : ∀ (n i : Nat) (m : Mem) (p : Int),
    (packLoop cfg inbuf t extent outbuf outsize n i (m, p)).Sub (ConfinedP R m) (packLoop cfg inbuf t extent outbuf outsize n i (m.part R, p)) := by
  intro n
  induction n with
  | zero => intro j m p; exact .ok ⟨.refl R m, rfl⟩
  | succ n ih =>
    intro j m p
    unfold packLoop
    refine Sub.bind (packEntries_confined inbuf t extent outbuf outsize j _ _ m p) fun a b _ _ h => ?_
    obtain ⟨a, q⟩ := a
    obtain ⟨b, q'⟩ := b
    obtain ⟨⟨h1, h2⟩, h3⟩ := h
    dsimp only at h1 h2 h3
    subst h1 h3
    exact (ih (j + 1) a _).mono fun x y _ _ h => ⟨⟨h.1.1, Confined.trans h2 ⟨_, h.1⟩⟩, h.2⟩

theorem Pack_confined (m : Mem) (inbuf n : Int) (t : Typestruct) (outbuf outsize p : Int) :
    (Pack cfg m inbuf n t outbuf outsize p).Sub (ConfinedP R m) (Pack cfg (m.part R) inbuf n t outbuf outsize p) := by
  unfold Pack
  exact Sub.same fun _ _ => packLoop_confined ..

theorem unpackEntries_confined (inbuf insize outbuf : Int) (t : Typestruct) (extent : Int) (i : Nat) : ∀ (n j : Nat) (m : Mem) (p : Int),
    (unpackEntries cfg inbuf insize outbuf t extent i n j (m, p)).Sub (ConfinedP R m) (unpackEntries cfg inbuf insize outbuf t extent i n j (m.part R, p)) := by
  intro n
  induction n with
  | zero => intro j m p; exact .ok ⟨.refl R m, rfl⟩
  | succ n ih =>
    intro j m p
    unfold unpackEntries
    refine Sub.same fun _ _ => Sub.same fun _ _ => Sub.same fun _ _ => Sub.ite (fun _ => .exit) fun _ => ?_
    refine Sub.bind (memcpy_confined R m _ _ _) fun a b _ _ ⟨h1, h2⟩ => ?_
    subst h1
    exact (ih (j + 1) a _).mono fun x y _ _ h => ⟨⟨h.1.1, Confined.trans h2 ⟨_, h.1⟩⟩, h.2⟩

theorem unpackLoop_confined (inbuf insize outbuf : Int) (t : Typestruct) (extent : Int) : ∀ (n i : Nat) (m : Mem) (p : Int),
    (unpackLoop cfg inbuf insize outbuf t extent n i (m, p)).Sub (ConfinedP R m) (unpackLoop cfg inbuf insize outbuf t extent n i (m.part R, p)) := by
  intro n
  induction n with
  | zero => intro j m p; exact .ok ⟨.refl R m, rfl⟩
  | succ n ih =>
    intro j m p
    unfold unpackLoop
    refine Sub.bind (unpackEntries_confined inbuf insize outbuf t extent j _ _ m p) fun a b _ _ h => ?_
    obtain ⟨a, q⟩ := a
    obtain ⟨b, q'⟩ := b
    obtain ⟨⟨h1, h2⟩, h3⟩ := h
    dsimp only at h1 h2 h3
    subst h1 h3
    exact (ih (j + 1) a _).mono fun x y _ _ h => ⟨⟨h.1.1, Confined.trans h2 ⟨_, h.1⟩⟩, h.2⟩

theorem Unpack_confined (m : Mem) (inbuf insize p outbuf n : Int) (t : Typestruct) :
    (Unpack cfg m inbuf insize p outbuf n t).Sub (ConfinedP R m) (Unpack cfg (m.part R) inbuf insize p outbuf n t) := by
  unfold Unpack
  exact Sub.same fun _ _ => unpackLoop_confined ..

end
end MpiSerial
