import Verif.Model.Sys

/-!
# group.c

A group is an `int`; there are three group values (mpi.h `MPI_GROUP_NULL`, `MPI_GROUP_EMPTY`, mpiP.h:76
`MPI_GROUP_ONE`).  Output arguments are results; `int *` arguments are lists, and an access behind
their end is undefined behaviour (`rd`, `wr`).  The Fortran wrappers are in Model/Fort.
-/

namespace MpiSerial

/-- `a[i] = x` for an array argument. -/
def wr {α : Type} (a : List α) (i : Nat) (x : α) : Res (List α) :=
  if i < a.length then .ok (a.set i x) else .ub .memAccess

/-- group.c:16-37 `MPI_Group_incl`. -/
def MPI_Group_incl (group n : Int) (ranks : List Int) : Res Int :=
  if group = MPI_GROUP_NULL then .abort "MPI_Group_incl: null group passed in"
  else if group = MPI_GROUP_EMPTY ∨ n = 0 then .ok MPI_GROUP_EMPTY
  else if n = 1 then do
    let r ← rd ranks 0
    if r = 0 then return MPI_GROUP_ONE
    else .abort "MPI_Group_incl: more than 1 proc in group"
  else .abort "MPI_Group_incl: more than 1 proc in group"

/-- group.c:58-80 `MPI_Group_range_incl`; a row of `int ranges[][3]` is a triple. -/
def MPI_Group_range_incl (group n : Int) (ranges : List (Int × Int × Int)) : Res Int :=
  if group = MPI_GROUP_NULL then .abort "MPI_Group_range_incl: null group passed in"
  else if group = MPI_GROUP_EMPTY ∨ n = 0 then .ok MPI_GROUP_EMPTY
  else if n = 1 then do
    let r ← rd ranges 0
    if r.1 = 0 ∧ r.2.1 = 0 then return MPI_GROUP_ONE
    else .abort "MPI_Group_range_incl: more than 1 proc in group"
  else .abort "MPI_Group_range_incl: more than 1 proc in group"

/-- group.c:98-114 `MPI_Group_union`. -/
def MPI_Group_union (group1 group2 : Int) : Res Int :=
  if group1 = MPI_GROUP_NULL ∨ group2 = MPI_GROUP_NULL then
    .abort "MPI_Group_union: null group passed in"
  else if group1 = MPI_GROUP_ONE ∨ group2 = MPI_GROUP_ONE then .ok MPI_GROUP_ONE
  else .ok MPI_GROUP_EMPTY

/-- group.c:129-146 `MPI_Group_intersection`. -/
def MPI_Group_intersection (group1 group2 : Int) : Res Int :=
  if group1 = MPI_GROUP_NULL ∨ group2 = MPI_GROUP_NULL then
    .abort "MPI_Group_intersection: null group passed in"
  else if group1 = MPI_GROUP_ONE ∧ group2 = MPI_GROUP_ONE then .ok MPI_GROUP_ONE
  else .ok MPI_GROUP_EMPTY

/-- group.c:162-178 `MPI_Group_difference`. -/
def MPI_Group_difference (group1 group2 : Int) : Res Int :=
  if group1 = MPI_GROUP_NULL ∨ group2 = MPI_GROUP_NULL then
    .abort "MPI_Group_intersection: null group passed in"
  else if group1 = MPI_GROUP_EMPTY ∨ group2 = MPI_GROUP_ONE then .ok MPI_GROUP_EMPTY
  else .ok MPI_GROUP_ONE

/-- group.c:192-197 `MPI_Group_free`: the new value of `*group`. -/
def MPI_Group_free (_group : Int) : Int := MPI_GROUP_NULL

/-- group.c:234-247 loop of `MPI_Group_translate_ranks`: `n` iterations left, at index `i`; returns
`ranks2`. -/
def translateLoop (ranks1 : List Int) (group2 : Int) : Nat → Nat → List Int → Res (List Int)
  | 0, _, ranks2 => .ok ranks2
  | n + 1, i, ranks2 => do
    let r ← rd ranks1 i
    if r ≠ 0 then .abort "MPI_Group_translate_ranks: bad input rank"
    else do
      let ranks2 ← wr ranks2 i (if group2 ≠ MPI_GROUP_EMPTY then r else MPI_UNDEFINED)
      translateLoop ranks1 group2 n (i + 1) ranks2

/-- group.c:214-252 `MPI_Group_translate_ranks`: the new contents of `ranks2`.  (The two arrays are
taken as distinct objects; since entry `i` is read before entry `i` is written, passing the same
array twice gives the same result.) -/
def MPI_Group_translate_ranks (group1 n : Int) (ranks1 : List Int) (group2 : Int)
    (ranks2 : List Int) : Res (List Int) :=
  if group1 = MPI_GROUP_NULL ∨ group2 = MPI_GROUP_NULL then
    .abort "MPI_Group_translate_ranks: null group passed in"
  else if n = 0 then .ok ranks2
  else if group1 = MPI_GROUP_EMPTY then .abort "MPI_Group_translate_ranks: empty input group"
  else translateLoop ranks1 group2 n.toNat 0 ranks2

/-- group.c:258-261 `MPI_Group_f2c` -/
def MPI_Group_f2c (group : Int) : Int := group
/-- group.c:267-270 `MPI_Group_c2f` -/
def MPI_Group_c2f (group : Int) : Int := group

end MpiSerial
