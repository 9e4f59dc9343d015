import Verif.Model.Group
import Mathlib.Data.Set.Insert
import Mathlib.Order.BooleanAlgebra.Set

/-!
# Specification of groups

The only process has rank 0 in the world.  A group is a set of world ranks; `Denotes g S` ties a group
value of the library to the set it stands for.
-/

set_option autoImplicit false

namespace MpiSerial

/-- `g` is a valid (non-null) group value, standing for the set `S`. -/
inductive Denotes : Int → Set Int → Prop
  | empty : Denotes (-1) ∅
  | one : Denotes 1 {0}

/-- Group values a program can get hold of: predefined constants and results of calls. -/
inductive Obtainable : Int → Prop
  | null : Obtainable 0
  | empty : Obtainable (-1)
  | ofComm (comm : Int) : Obtainable (MPI_Comm_group comm)
  | incl {g r : Int} (n : Int) (ranks : List Int) :
      Obtainable g → MPI_Group_incl g n ranks = .ok r → Obtainable r
  | rangeIncl {g r : Int} (n : Int) (ranges : List (Int × Int × Int)) :
      Obtainable g → MPI_Group_range_incl g n ranges = .ok r → Obtainable r
  | union {g g' r : Int} : Obtainable g → Obtainable g' → MPI_Group_union g g' = .ok r → Obtainable r
  | inter {g g' r : Int} :
      Obtainable g → Obtainable g' → MPI_Group_intersection g g' = .ok r → Obtainable r
  | diff {g g' r : Int} :
      Obtainable g → Obtainable g' → MPI_Group_difference g g' = .ok r → Obtainable r
  | free {g : Int} : Obtainable g → Obtainable (MPI_Group_free g)

/-- The call returns a group standing for `S`. -/
def Gives (r : Res Int) (S : Set Int) : Prop := ∃ g : Int, r = .ok g ∧ Denotes g S

/-- MPI's rule for the rank array of `MPI_Group_incl`: the first `n` entries are pairwise different
ranks of the group (a group of one process has the single rank 0, the empty group has none). -/
def ValidRanks (S : Set Int) (n : Int) (ranks : List Int) : Prop :=
  0 ≤ n ∧ n ≤ ranks.length ∧ (∀ r : Int, r ∈ ranks.take n.toNat → r ∈ S) ∧ (ranks.take n.toNat).Nodup

/-- Ranks described by the triple (first, last, stride): first, first+stride, … up to last. -/
def InRange : Int × Int × Int → Int → Prop
  | (first, last, stride), r =>
    stride ∣ r - first ∧ ((0 < stride ∧ first ≤ r ∧ r ≤ last) ∨ (stride < 0 ∧ last ≤ r ∧ r ≤ first))

/-- MPI's rule for the range array of `MPI_Group_range_incl`: non-zero strides, and every rank
described by one of the first `n` triples is a rank of the group described by no other triple. -/
def ValidRanges (S : Set Int) (n : Int) (ranges : List (Int × Int × Int)) : Prop :=
  0 ≤ n ∧ n ≤ ranges.length ∧ (∀ t : Int × Int × Int, t ∈ ranges.take n.toNat → t.2.2 ≠ 0) ∧
  (∀ (t : Int × Int × Int) (r : Int), t ∈ ranges.take n.toNat → InRange t r → r ∈ S) ∧
  (ranges.take n.toNat).Pairwise (fun t u => ∀ r : Int, ¬ (InRange t r ∧ InRange u r))

end MpiSerial
