/-!
# Outcomes of a C call and C integers

The library is plain sequential C. A call either returns (`ok`), stops the process through
`abort()`/`exit(n)`, runs into undefined behaviour (`ub`), or does not terminate (`hang`).
-/

namespace MpiSerial

/-- Kinds of undefined behaviour the modelled code can run into. -/
inductive UB where
  | nullPtr      -- dereference of a null pointer
  | badPtr       -- dangling or out-of-range pointer (handle table, list heap, type heap)
  | overflow     -- signed integer overflow
  | uninit       -- read of memory that was never written
  | overlap      -- memcpy with overlapping ranges
  | memAccess    -- access to user memory (buffers, arrays, status objects) outside what the caller owns
  | divZero      -- integer division/remainder by zero
  | badFree      -- free() of something not allocated by malloc
  | kind         -- union member of another kind than the one last stored
  | negVLA       -- variable-length array of negative size
  deriving DecidableEq, Repr

/-- Outcome of a C function call. -/
inductive Res (α : Type) where
  | ok (a : α)
  | abort (msg : String)     -- abort(3) after printing a diagnostic
  | exit (code : Int)        -- exit(3)
  | ub (u : UB)
  | hang                     -- a loop that does not terminate
  deriving DecidableEq, Repr

namespace Res

def bind {α β : Type} : Res α → (α → Res β) → Res β
  | ok a, f => f a
  | abort m, _ => abort m
  | exit c, _ => exit c
  | ub u, _ => ub u
  | hang, _ => hang

instance : Monad Res where
  pure := ok
  bind := bind

/-! These are deliberately not `rfl`-lemmas: rewriting with them must not make the kernel unfold a
pending `ck32` on a symbolic number. -/

@[simp] theorem ok_bind {α β : Type} (a : α) (f : α → Res β) : (ok a >>= f) = f a := Eq.trans rfl rfl
@[simp] theorem pure_bind' {α β : Type} (a : α) (f : α → Res β) :
    ((pure a : Res α) >>= f) = f a := Eq.trans rfl rfl
@[simp] theorem abort_bind {α β : Type} (m) (f : α → Res β) : ((abort m : Res α) >>= f) = abort m := Eq.trans rfl rfl
@[simp] theorem exit_bind {α β : Type} (c) (f : α → Res β) : ((exit c : Res α) >>= f) = exit c := Eq.trans rfl rfl
@[simp] theorem ub_bind {α β : Type} (u) (f : α → Res β) : ((ub u : Res α) >>= f) = ub u := Eq.trans rfl rfl
@[simp] theorem hang_bind {α β : Type} (f : α → Res β) : ((hang : Res α) >>= f) = hang := Eq.trans rfl rfl
@[simp] theorem pure_eq {α : Type} (a : α) : (pure a : Res α) = ok a := rfl

instance : LawfulMonad Res := LawfulMonad.mk'
  (id_map := by intro α x; cases x <;> rfl)
  (pure_bind := by intros; rfl)
  (bind_assoc := by intro α β γ x f g; cases x <;> rfl)

theorem bind_eq_ok {α β : Type} {x : Res α} {f : α → Res β} {b : β} :
    (x >>= f) = ok b ↔ ∃ a, x = ok a ∧ f a = ok b := by
  cases x <;> simp

/-- The call returned to its caller. -/
def returned {α : Type} : Res α → Bool
  | ok _ => true
  | _ => false

/-- The call stopped the process through `abort()`. -/
def aborted {α : Type} : Res α → Bool
  | abort _ => true
  | _ => false

end Res

/-! ## C integers (LP64, gcc) -/

/-- `int` and `long` limits (limits.h). -/
notation "INT_MAX" => (2147483647 : Int)
notation "INT_MIN" => (-2147483648 : Int)
notation "LONG_MAX" => (9223372036854775807 : Int)
notation "LONG_MIN" => (-9223372036854775808 : Int)

/-- Conversion to / arithmetic in `unsigned long` (MPI_Aint, size_t): reduction mod 2^64. -/
def u64 (x : Int) : Int := x % 18446744073709551616

/-- Conversion to `long` of an arbitrary integer value (gcc: two's-complement wrap). -/
def s64 (x : Int) : Int :=
  (x + 9223372036854775808) % 18446744073709551616 - 9223372036854775808

/-- Conversion to `int` of an arbitrary integer value (gcc: two's-complement wrap). -/
def s32 (x : Int) : Int := (x + 2147483648) % 4294967296 - 2147483648

/-- Result of a signed `int` operation: overflow is undefined behaviour. -/
def ck32 (x : Int) : Res Int :=
  if -2147483648 ≤ x ∧ x ≤ 2147483647 then .ok x else .ub .overflow

/-- Result of a signed `long` operation: overflow is undefined behaviour. -/
def ck64 (x : Int) : Res Int :=
  if -9223372036854775808 ≤ x ∧ x ≤ 9223372036854775807 then .ok x else .ub .overflow

theorem s32_of_range {x : Int} (h1 : -2147483648 ≤ x) (h2 : x ≤ 2147483647) : s32 x = x := by
  unfold s32; omega
theorem s64_of_range {x : Int} (h1 : -9223372036854775808 ≤ x) (h2 : x ≤ 9223372036854775807) :
    s64 x = x := by unfold s64; omega
theorem u64_of_range {x : Int} (h1 : 0 ≤ x) (h2 : x < 18446744073709551616) : u64 x = x := by
  unfold u64; omega
theorem u64_lt (x : Int) : u64 x < 18446744073709551616 := by unfold u64; omega
theorem u64_nonneg (x : Int) : 0 ≤ u64 x := by unfold u64; omega
@[simp] theorem s64_u64 (x : Int) : s64 (u64 x) = s64 x := by unfold s64 u64; omega
@[simp] theorem u64_s64 (x : Int) : u64 (s64 x) = u64 x := by unfold s64 u64; omega
@[simp] theorem u64_u64 (x : Int) : u64 (u64 x) = u64 x := by unfold u64; omega
@[simp] theorem s32_u64 (x : Int) : s32 (u64 x) = s32 x := by unfold s32 u64; omega
@[simp] theorem s32_s64 (x : Int) : s32 (s64 x) = s32 x := by unfold s32 s64; omega
theorem u64_add_left (x y : Int) : u64 (u64 x + y) = u64 (x + y) := by unfold u64; omega
theorem u64_add_right (x y : Int) : u64 (x + u64 y) = u64 (x + y) := by unfold u64; omega
theorem s64_add_right (x y : Int) : s64 (x + u64 y) = s64 (x + y) := by unfold u64 s64; omega
theorem s64_add_left (x y : Int) : s64 (u64 x + y) = s64 (x + y) := by unfold u64 s64; omega
theorem u64_mul_right (x y : Int) : u64 (x * u64 y) = u64 (x * y) := by
  unfold u64; rw [Int.mul_emod, Int.emod_emod_of_dvd _ (Int.dvd_refl _), ← Int.mul_emod]
theorem u64_mul_left (x y : Int) : u64 (u64 x * y) = u64 (x * y) := by
  rw [Int.mul_comm, u64_mul_right, Int.mul_comm]

theorem ck32_ok {x : Int} (h1 : -2147483648 ≤ x) (h2 : x ≤ 2147483647) : ck32 x = .ok x := by
  simp [ck32, h1, h2]
theorem ck64_ok {x : Int} (h1 : -9223372036854775808 ≤ x) (h2 : x ≤ 9223372036854775807) :
    ck64 x = .ok x := by
  simp [ck64, h1, h2]
theorem ck32_eq_ok {x y : Int} : ck32 x = .ok y ↔ (-2147483648 ≤ x ∧ x ≤ 2147483647) ∧ x = y := by
  unfold ck32; split
  · simp_all
  · simp only [reduceCtorEq, false_iff]; omega
theorem ck64_eq_ok {x y : Int} :
    ck64 x = .ok y ↔ (-9223372036854775808 ≤ x ∧ x ≤ 9223372036854775807) ∧ x = y := by
  unfold ck64; split
  · simp_all
  · simp only [reduceCtorEq, false_iff]; omega

end MpiSerial
