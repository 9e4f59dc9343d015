import Verif.Spec.Types

/-!
# C80: how C lays out structs and arrays

The rules of the C ABIs: members in order, each at the next multiple of its alignment, the whole padded to a multiple of the largest
alignment.  Nothing here mentions the library.
-/

set_option autoImplicit false

namespace MpiSerial

mutual
/-- A C type made of basic types (named by their kind), arrays and structs. -/
inductive CType where
  | basic (kind : Int)
  | array (n : Nat) (elem : CType)
  | struct (fields : CFields)
/-- The members of a struct, at least one. -/
inductive CFields where
  | one (t : CType)
  | more (t : CType) (rest : CFields)
end

/-- Size and alignment of the basic types. -/
structure Abi where
  size : Int → Int
  align : Int → Int

/-- The first multiple of `a` that is not below `x`. -/
def nextMultiple (x a : Int) : Int := x + (-x) % a

mutual
/-- `_Alignof` -/
def CType.align (abi : Abi) : CType → Int
  | .basic k => abi.align k
  | .array _ t => t.align abi
  | .struct fs => fs.align abi
/-- The largest alignment of a member. -/
def CFields.align (abi : Abi) : CFields → Int
  | .one t => t.align abi
  | .more t fs => max (t.align abi) (fs.align abi)
end

mutual
/-- `sizeof` -/
def CType.size (abi : Abi) : CType → Int
  | .basic k => abi.size k
  | .array n t => n * t.size abi
  | .struct fs => nextMultiple (fs.stop abi 0) (fs.align abi)
/-- Where the last member ends, if the first may begin at `x`. -/
def CFields.stop (abi : Abi) : CFields → Int → Int
  | .one t, x => nextMultiple x (t.align abi) + t.size abi
  | .more t fs, x => fs.stop abi (nextMultiple x (t.align abi) + t.size abi)
end

/-- `offsetof` of each member, if the first may begin at `x`. -/
def CFields.offsets (abi : Abi) : CFields → Int → List (Int × CType)
  | .one t, x => [(nextMultiple x (t.align abi), t)]
  | .more t fs, x =>
    (nextMultiple x (t.align abi), t) :: fs.offsets abi (nextMultiple x (t.align abi) + t.size abi)

mutual
/-- The basic members a variable of the type at offset `x` consists of, in order: offset and kind. -/
def CType.members (abi : Abi) : CType → Int → List (Int × Int)
  | .basic k, x => [(x, k)]
  | .array n t, x => (List.range n).flatMap fun (i : Nat) => t.members abi (x + i * t.size abi)
  | .struct fs, x => fs.members abi x 0
/-- Those of the members of a struct at offset `x`, the first of which may begin at `y` within it. -/
def CFields.members (abi : Abi) : CFields → Int → Int → List (Int × Int)
  | .one t, x, y => t.members abi (x + nextMultiple y (t.align abi))
  | .more t fs, x, y =>
    t.members abi (x + nextMultiple y (t.align abi)) ++ fs.members abi x (nextMultiple y (t.align abi) + t.size abi)
end

mutual
/-- Every basic type in it is naturally aligned (its alignment is its size, a power of two) and no array is empty. -/
def CType.Natural (abi : Abi) : CType → Prop
  | .basic k => abi.align k = abi.size k ∧ ∃ e : Nat, abi.size k = 2 ^ e
  | .array n t => n ≠ 0 ∧ t.Natural abi
  | .struct fs => fs.Natural abi
/-- All members are. -/
def CFields.Natural (abi : Abi) : CFields → Prop
  | .one t => t.Natural abi
  | .more t fs => t.Natural abi ∧ fs.Natural abi
end

end MpiSerial
