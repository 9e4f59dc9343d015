import Verif.Model.Types
import Verif.Model.Fort

/-!
# What the bytes of a descriptor mean

The System V ABI lays out the members of a C struct one after the other, each at the next multiple of its
alignment; the size of the struct is a multiple of the largest alignment.  `decode` reads a descriptor out of
the bytes of an object according to this rule.
-/

set_option autoImplicit false

namespace MpiSerial.Raw

/-- A member of a struct: size and alignment. -/
structure Member where
  size : Nat
  align : Nat

/-- Next multiple of `a`. -/
def alignUp (n a : Nat) : Nat := (n + (a - 1)) / a * a

/-- Offsets of members that are laid out from `p` on, and the end of the last one. -/
def layout : Nat → List Member → List Nat × Nat
  | p, [] => ([], p)
  | p, m :: ms =>
    let o := alignUp p m.align
    let r := layout (o + m.size) ms
    (o :: r.1, r.2)

/-- Largest alignment. -/
def alignOf (ms : List Member) : Nat := ms.foldl (fun a m => max a m.align) 1

/-- The struct as a member of another one. -/
def asMember (ms : List Member) : Member := ⟨alignUp (layout 0 ms).2 (alignOf ms), alignOf ms⟩

/-- `n` of them in a row. -/
def Member.array (m : Member) (n : Nat) : Member := ⟨n * m.size, m.align⟩

/-- `int` and `long` of LP64. -/
def cInt : Member := ⟨4, 4⟩
def cLong : Member := ⟨8, 8⟩

/-- type.h:17-21: `long disp; Simpletype type;` -/
def typepairMembers : List Member := [cLong, cInt]

/-- type.h:23-36: `int count; long ub; long lb; int committed; int o_lb; int o_ub; typepair pairs[2];` -/
def typestructMembers : List Member :=
  [cInt, cLong, cLong, cInt, cInt, cInt, (asMember typepairMembers).array 2]

/-- The `int` in bytes `off`, ..., `off+3`. -/
def intAt (bo : ByteOrder) (b : List UInt8) (off : Nat) : Int := s32 (bo.value ((b.drop off).take 4))

/-- The `long` in bytes `off`, ..., `off+7`. -/
def longAt (bo : ByteOrder) (b : List UInt8) (off : Nat) : Int := s64 (bo.value ((b.drop off).take 8))

/-- The object is a header and `n` pairs. -/
def Holds (b : List UInt8) (n : Nat) : Prop := b.length = 40 + 16 * n

/-- The descriptor in an object. -/
def decode (bo : ByteOrder) (b : List UInt8) : Typestruct where
  count := intAt bo b 0
  ub := longAt bo b 8
  lb := longAt bo b 16
  committed := intAt bo b 24
  o_lb := intAt bo b 28
  o_ub := intAt bo b 32
  pairs := (List.range ((b.length - 40) / 16)).map fun k => ⟨longAt bo b (40 + 16 * k), intAt bo b (48 + 16 * k)⟩

/-- The object holds the descriptor, with room for one more pair than it counts. -/
def Stores (bo : ByteOrder) (b : List UInt8) (t : Typestruct) : Prop := decode bo b = t ∧ Holds b (t.count + 1).toNat

/-- The object holds a descriptor whose pairs are inside. -/
def Sound (bo : ByteOrder) (b : List UInt8) : Prop :=
  ∃ n, Holds b n ∧ 0 ≤ (decode bo b).count ∧ (decode bo b).count ≤ n ∧ 1 ≤ n

/-- What uninitialised memory reads as. -/
def leftover (bo : ByteOrder) (junk : Nat → UInt8) : Garbage where
  o_lb := s32 (bo.value ((List.range 4).map fun i => junk (28 + i)))
  o_ub := s32 (bo.value ((List.range 4).map fun i => junk (32 + i)))
  pair k := ⟨s64 (bo.value ((List.range 8).map fun i => junk (40 + 16 * k + i))),
    s32 (bo.value ((List.range 4).map fun i => junk (48 + 16 * k + i)))⟩

end MpiSerial.Raw
