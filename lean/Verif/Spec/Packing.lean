import Verif.Model.Copy
import Verif.Spec.TypeUse
import Verif.Spec.Exchange

/-!
# Messages of many pieces

A program packs pieces of data of different types into one buffer, sends the packed bytes, and unpacks them on the
other side (C70).
-/

set_option autoImplicit false

namespace MpiSerial

open Spec

/-- `count` items of a datatype at `buf`; the program names the datatype by `handle`. -/
structure Piece where
  buf : Int
  count : Nat
  handle : Int
  type : DType

/-- The basic elements of the pieces, in order. -/
def elemsOf (sz : Int → Int) (ps : List Piece) : List Entry := ps.flatMap fun p => placed sz p.type p.count p.buf

/-- Number of bytes of the pieces. -/
def bytesOf (sz : Int → Int) (ps : List Piece) : Int := (ps.map fun p => p.count * Spec.size sz p.type).sum

/-- The program that packs the pieces one after the other. -/
def packAll (env : Env) (outbuf outsize comm : Int) : List Piece → Sys → Int → Res (Sys × Int)
  | [], s, pos => .ok (s, pos)
  | p :: ps, s, pos => do
    let (s, pos) ← MPI_Pack env s p.buf p.count p.handle outbuf outsize pos comm
    packAll env outbuf outsize comm ps s pos

/-- The program that unpacks the pieces one after the other. -/
def unpackAll (env : Env) (inbuf insize comm : Int) : List Piece → Sys → Int → Res (Sys × Int)
  | [], s, pos => .ok (s, pos)
  | p :: ps, s, pos => do
    let (s, pos) ← MPI_Unpack env s inbuf insize pos p.buf p.count p.handle comm
    unpackAll env inbuf insize comm ps s pos

/-- Pieces that may be packed into or unpacked from the `room` bytes at `packed`: sizes and positions are `int`s, addresses
those of the machine, and the pieces do not overlap the packed bytes. -/
structure LegalPieces (sz : Int → Int) (ps : List Piece) (packed room : Int) : Prop where
  small : ∀ p ∈ ps, Spec.size sz p.type ≤ 2147483647
  ints : 0 ≤ room ∧ room ≤ 2147483647 - 128
  addrs : ∀ x ∈ elemsOf sz ps, 0 ≤ x.1 ∧ x.1 < 18446744073709551616
  packedLo : 0 ≤ packed
  packedHi : packed + room ≤ 18446744073709551616 ∧ packed + bytesOf sz ps ≤ 18446744073709551616
  apart : ∀ x ∈ elemsOf sz ps, Apart x.1 (sz x.2) packed room

/-- Handle of MPI_PACKED (mpi.h:93). -/
def packedType : Int := -13

/-- A call that exchanges `n` bytes at `pb` for the `n` bytes at `rb`, both described as MPI_PACKED: a send that finds its
receive posted, or a receive that finds its message waiting.  In the second case the message may be shorter. -/
inductive Carries (env : Env) (s : Sys) (L : Ledger) (pb rb n : Int) : Res Mem → Prop
  | send {R} : Delivers env s L pb n packedType rb n packedType R → Carries env s L pb rb n R
  | recv {R sc} : Collects env s L pb sc packedType rb n packedType R → Carries env s L pb rb n R

/-- `n` bytes that may be carried from `pb` to `rb`. -/
structure LegalCarry (pb rb n : Int) : Prop where
  count : 0 ≤ n ∧ n ≤ 2147483647
  src : 0 ≤ pb ∧ pb + n ≤ 18446744073709551616
  dst : 0 ≤ rb ∧ rb + n ≤ 18446744073709551616
  apart : Apart rb n pb n

/-- The `n` bytes at `pb` have been copied to `rb`, and no other byte has changed. -/
structure Carried (m m' : Mem) (pb rb n : Int) : Prop where
  bytes : ∀ k, 0 ≤ k → k < n → m' (rb + k) = m (pb + k)
  others : ∀ a, ¬ InBytes a rb n → m' a = m a

end MpiSerial
