/-!
# Cartesian grids as the standard describes them (C60)

No reference to the model: the size of a grid, and the rank of a position in row-major order (MPI 2.2, 7.5.1 and 7.5.2:
"Coordinates in a Cartesian structure start their numbering at 0.  Row-major numbering is always used").
-/

set_option autoImplicit false

namespace MpiSerial.Spec

/-- Number of positions of a grid. -/
def cells : List Int → Int
  | [] => 1
  | d :: ds => d * cells ds

/-- Rank of the position `c` in the grid `dims`, row-major. -/
def rankOf : List Int → List Int → Option Int
  | [], [] => some 0
  | d :: ds, c :: cs => if 0 ≤ c ∧ c < d then (rankOf ds cs).map (fun r => c * cells ds + r) else none
  | _, _ => none

example : cells [2, 3, 4] = 24 ∧ rankOf [2, 3, 4] [1, 2, 3] = some 23 ∧ rankOf [2, 3, 4] [0, 1, 0] = some 4 ∧
    rankOf [2, 3] [0, 3] = none := by decide

/-- What `MPI_Dims_create` may do to the entries: those that are 0 are chosen, the others are constraints
(MPI 2.2, 7.5.2). -/
def Chosen (nnodes : Int) (asked given : List Int) : Prop :=
  given.length = asked.length ∧ cells given = nnodes ∧ (∀ d : Int, d ∈ given → 0 < d) ∧
    ∀ (i : Nat) (d : Int), asked[i]? = some d → d ≠ 0 → given[i]? = some d

end MpiSerial.Spec
