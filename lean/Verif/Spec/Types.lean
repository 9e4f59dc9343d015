/-!
# MPI datatypes, as the standard describes them

A datatype is a type map (displacement and kind of every basic element) plus, possibly, explicit
bounds.  Everything is exact integer arithmetic.  `sz` gives the size in bytes of a basic kind.
-/

namespace MpiSerial.Spec

/-- (displacement, basic kind) -/
abbrev Entry := Int × Int

@[ext] structure DType where
  map : List Entry
  /-- lower bound set by MPI_LB (here or in a component) -/
  lbMark : Option Int
  /-- upper bound set by MPI_UB (here or in a component) -/
  ubMark : Option Int

/-- A datatype without explicit bounds. -/
def plain (m : List Entry) : DType := ⟨m, none, none⟩

def shift (d : Int) (m : List Entry) : List Entry := m.map fun e => (e.1 + d, e.2)

/-- `len` consecutive copies of `m`, `ext` bytes apart, the first displaced by `d`. -/
def repeated (m : List Entry) (ext : Int) (len : Nat) (d : Int) : List Entry :=
  (List.range len).flatMap fun (j : Nat) => shift (d + j * ext) m

/-- Least displacement, unless set explicitly. -/
def lb (τ : DType) : Int := τ.lbMark.getD (((τ.map.map fun e => e.1).min?).getD 0)

/-- Greatest displacement plus size, unless set explicitly. -/
def ub (sz : Int → Int) (τ : DType) : Int :=
  τ.ubMark.getD (((τ.map.map fun e => e.1 + sz e.2).max?).getD 0)

/-- Size of the largest basic element. -/
def align (sz : Int → Int) (τ : DType) : Int := ((τ.map.map fun e => sz e.2).max?).getD 1

/-- `x` rounded up to a multiple of `m`. -/
def roundUp (x m : Int) : Int := if x % m = 0 then x else x + (m - x % m)

/-- Distance between consecutive elements of an array of this type. -/
def extent (sz : Int → Int) (τ : DType) : Int :=
  if τ.lbMark = none ∧ τ.ubMark = none then roundUp (ub sz τ - lb τ) (align sz τ)
  else ub sz τ - lb τ

/-- Number of bytes of data. -/
def size (sz : Int → Int) (τ : DType) : Int := (τ.map.map fun e => sz e.2).sum

/-- A component of a struct: one of the two markers or a datatype. -/
inductive Comp where
  | lb
  | ub
  | data (τ : DType)

/-- Data entries contributed by a block (length, displacement, component). -/
def blockMap (sz : Int → Int) : Nat × Int × Comp → List Entry
  | (n, d, .data τ) => repeated τ.map (extent sz τ) n d
  | _ => []

/-- Explicit lower bounds contributed by a block. -/
def blockLb (sz : Int → Int) : Nat × Int × Comp → List Int
  | (_, d, .lb) => [d]
  | (n, d, .data ⟨m, some l, u⟩) => (List.range n).map fun (j : Nat) => l + d + j * extent sz ⟨m, some l, u⟩
  | _ => []

/-- Explicit upper bounds contributed by a block. -/
def blockUb (sz : Int → Int) : Nat × Int × Comp → List Int
  | (_, d, .ub) => [d]
  | (n, d, .data ⟨m, l, some u⟩) => (List.range n).map fun (j : Nat) => u + d + j * extent sz ⟨m, l, some u⟩
  | _ => []

/-- The struct constructor. -/
def struct (sz : Int → Int) (bs : List (Nat × Int × Comp)) : DType :=
  { map := bs.flatMap (blockMap sz)
    lbMark := (bs.flatMap (blockLb sz)).min?
    ubMark := (bs.flatMap (blockUb sz)).max? }

/-- The other constructors, following the standard's definitions. -/
def contiguous (sz : Int → Int) (n : Nat) (τ : DType) : DType :=
  struct sz [(n, 0, .data τ)]
def hvector (sz : Int → Int) (count blocklen : Nat) (stride : Int) (τ : DType) : DType :=
  struct sz ((List.range count).map fun (i : Nat) => (blocklen, stride * i, .data τ))
def vector (sz : Int → Int) (count blocklen : Nat) (stride : Int) (τ : DType) : DType :=
  hvector sz count blocklen (stride * extent sz τ) τ
/-- blocks given as (length, byte displacement) -/
def hindexed (sz : Int → Int) (l : List (Nat × Int)) (τ : DType) : DType :=
  struct sz (l.map fun x => (x.1, x.2, .data τ))
def indexed (sz : Int → Int) (l : List (Nat × Int)) (τ : DType) : DType :=
  hindexed sz (l.map fun x => (x.1, x.2 * extent sz τ)) τ
def indexedBlock (sz : Int → Int) (blocklen : Nat) (l : List Int) (τ : DType) : DType :=
  indexed sz (l.map fun d => (blocklen, d)) τ

end MpiSerial.Spec
