import Verif.Model.Group

/-!
# cart.c

Array arguments are lists (`rd`/`wr`: an access behind their end is undefined behaviour).
-/

namespace MpiSerial

/-- cart.c:24-29 loop of `MPI_Cart_create`: `n` dimensions left, at index `i`. -/
def cartCheck (dims : List Int) : Nat → Nat → Res Unit
  | 0, _ => .ok ()
  | n + 1, i => do
    let d ← rd dims i
    if d > 1 then .abort "MPI_Cart_create: Greater dimension than no. of procs"
    else cartCheck dims n (i + 1)

/-- cart.c:20-34 `MPI_Cart_create` (`periods` and `reorder` are not looked at). -/
def MPI_Cart_create (s : Sys) (comm_old ndims : Int) (dims : List Int) : Res (Sys × Int) := do
  cartCheck dims ndims.toNat 0
  MPI_Comm_dup s comm_old

/-- cart.c:61-65 loop of `MPI_Cart_get`. -/
def cartGetLoop : Nat → Nat → List Int → List Int → Res (List Int × List Int)
  | 0, _, dims, coords => .ok (dims, coords)
  | n + 1, i, dims, coords => do
    let dims ← wr dims i 1
    let coords ← wr coords i 0
    cartGetLoop n (i + 1) dims coords

/-- cart.c:57-67 `MPI_Cart_get`: `dims`, `periods`, `coords` after the call (`periods` is never
written). -/
def MPI_Cart_get (_comm maxdims : Int) (dims periods coords : List Int) :
    Res (List Int × List Int × List Int) := do
  let (dims, coords) ← cartGetLoop maxdims.toNat 0 dims coords
  return (dims, periods, coords)

/-- Loop `for (i=0; i<n; i++) a[i] = x` of cart.c:97-98 and 129-130. -/
def setLoop (x : Int) : Nat → Nat → List Int → Res (List Int)
  | 0, _, a => .ok a
  | n + 1, i, a => do
    let a ← wr a i x
    setLoop x n (i + 1) a

/-- cart.c:87-101 `MPI_Cart_coords`: `coords` after the call. -/
def MPI_Cart_coords (_comm rank maxdims : Int) (coords : List Int) : Res (List Int) :=
  if rank ≠ 0 then .abort "MPI_Cart_coords: Rank != 0"
  else setLoop 0 maxdims.toNat 0 coords

/-- cart.c:119-133 `MPI_Dims_create`: `dims` after the call. -/
def MPI_Dims_create (nnodes ndims : Int) (dims : List Int) : Res (List Int) :=
  if nnodes > 1 then .abort "MPI_Dims_create: More nodes than procs specified."
  else setLoop 1 ndims.toNat 0 dims

end MpiSerial
