import Verif.Spec.Types

/-!
# Typed transfers

A typed buffer `(buf, count, type)` is the list of its basic elements in order, each an (absolute
address, kind) pair: `repeated map extent count buf`.
-/

namespace MpiSerial.Spec

/-- Copy of one basic element: `len` bytes from address `src` to address `dst`. -/
structure Move where
  dst : Int
  src : Int
  len : Nat

/-- Byte ranges `[a, a+n)` and `[b, b+k)` have no byte in common. -/
def Apart (a n b k : Int) : Prop := a + n ≤ b ∨ b + k ≤ a

/-- Address `a` is one of the `n` bytes from `b`. -/
def InBytes (a b n : Int) : Prop := b ≤ a ∧ a < b + n

/-- Elements `es` are pairwise disjoint in memory. -/
def ElemsDisjoint (sz : Int → Int) (es : List Entry) : Prop :=
  es.Pairwise fun x y => Apart x.1 (sz x.2) y.1 (sz y.2)

/-- No element of `es` shares a byte with an element of `fs`. -/
def ElemsApart (sz : Int → Int) (es fs : List Entry) : Prop :=
  ∀ x ∈ es, ∀ y ∈ fs, Apart x.1 (sz x.2) y.1 (sz y.2)

/-- Every byte of every element is accessible. -/
def Accessible (sz : Int → Int) (acc : Int → Bool) (es : List Entry) : Prop :=
  ∀ x ∈ es, ∀ a, InBytes a x.1 (sz x.2) → acc a = true

/-- The first copy of the type map of an `n`-fold repetition comes first, and so on. -/
theorem repeated_succ (m : List Entry) (e : Int) (n : Nat) (d : Int) :
    repeated m e (n + 1) d = repeated m e n d ++ shift (d + n * e) m := by
  unfold repeated
  rw [List.range_succ, List.flatMap_append]
  simp

end MpiSerial.Spec
