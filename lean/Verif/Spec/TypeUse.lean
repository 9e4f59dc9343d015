import Verif.Spec.P2P
import Verif.Spec.Transfer

/-!
# Typed messages between buffers described by datatypes of the standard

No descriptor of the library is mentioned here: a buffer is an address, a count and a datatype of the
standard (`Spec.DType`).
-/

set_option autoImplicit false

namespace MpiSerial

open Spec

/-- The basic elements of `count` items of datatype `τ` at `buf`, in order. -/
def Spec.placed (sz : Int → Int) (τ : DType) (count buf : Int) : List Entry :=
  repeated τ.map (extent sz τ) count.toNat buf

/-- A message of `sc` items `τs` at `sb` for a receive of `rc` items `τr` at `rb` that a program may expect
to be carried out: the receive asks for no more elements than there are, corresponding elements have the same
size (and kind, if `strict`), and the receive buffer overlaps neither itself nor the message.  Offsets and
element counts are `int`s (a limit of the code). -/
structure LegalExchange (sz : Int → Int) (strict : Prop) (sb sc : Int) (τs : DType) (rb rc : Int) (τr : DType) : Prop where
  srcCount : 0 ≤ sc
  dstCount : 0 ≤ rc
  srcFits : (τs.map.length : Int) * sc ≤ 2147483647
  dstFits : (τr.map.length : Int) * rc ≤ 2147483647
  enough : (placed sz τr rc rb).length ≤ (placed sz τs sc sb).length
  srcReach : ∀ x ∈ (placed sz τs sc sb).take (placed sz τr rc rb).length,
    -2147483648 ≤ x.1 - sb ∧ x.1 - sb ≤ 2147483647 ∧ 0 ≤ x.1 ∧ x.1 < 18446744073709551616
  dstReach : ∀ x ∈ placed sz τr rc rb,
    -2147483648 ≤ x.1 - rb ∧ x.1 - rb ≤ 2147483647 ∧ 0 ≤ x.1 ∧ x.1 < 18446744073709551616
  kinds : ∀ x ∈ (placed sz τr rc rb).zip (placed sz τs sc sb), sz x.2.2 = sz x.1.2 ∧ (strict → x.2.2 = x.1.2)
  disjoint : ElemsDisjoint sz (placed sz τr rc rb)
  apart : ElemsApart sz (placed sz τr rc rb) ((placed sz τs sc sb).take (placed sz τr rc rb).length)

/-- What a typed message does to memory: the `i`-th element of the receive buffer obtains the bytes of the
`i`-th element of the message, and no other byte changes. -/
structure Moved (sz : Int → Int) (m m' : Mem) (send recv : List Entry) : Prop where
  values : ∀ (i : Nat) (d : Entry), recv[i]? = some d → ∃ e : Entry, send[i]? = some e ∧
    ∀ k, 0 ≤ k → k < sz d.2 → m' (d.1 + k) = m (e.1 + k)
  others : ∀ a, (∀ d ∈ recv, ¬ InBytes a d.1 (sz d.2)) → m' a = m a

/-- Packing or unpacking of `n` items `τ` at `buf`, the packed bytes being at `packed` from `pos` on in a buffer of
`room` bytes: `int` positions, machine addresses, and no overlap. -/
structure LegalPack (sz : Int → Int) (τ : DType) (n buf packed pos room : Int) : Prop where
  count : 0 ≤ n
  small : Spec.size sz τ ≤ 2147483647
  ints : -2147483648 ≤ pos ∧ pos ≤ room ∧ room ≤ 2147483647 - 128
  addrs : ∀ x ∈ placed sz τ n buf, 0 ≤ x.1 ∧ x.1 < 18446744073709551616
  packedLo : 0 ≤ packed + pos
  packedHi : packed + pos + n * Spec.size sz τ ≤ 18446744073709551616 ∧ packed + room ≤ 18446744073709551616
  apart : ∀ x ∈ placed sz τ n buf, Apart x.1 (sz x.2) (packed + pos) (room - pos)

/-- Where in the packed bytes the `i`-th element is: after the ones before it. -/
def packedOffset (sz : Int → Int) (es : List Entry) (i : Nat) : Int := ((es.take i).map fun x => sz x.2).sum

/-- The elements `es` of memory `m` have been packed from `start` on, and no other byte has changed. -/
structure Packed (sz : Int → Int) (m m' : Mem) (es : List Entry) (start : Int) : Prop where
  values : ∀ (i : Nat) (x : Entry), es[i]? = some x → ∀ k, 0 ≤ k → k < sz x.2 →
    m' (start + packedOffset sz es i + k) = m (x.1 + k)
  others : ∀ a, ¬ InBytes a start (es.map fun x => sz x.2).sum → m' a = m a

/-- The elements `es` have been unpacked from `start`, and no other byte has changed. -/
structure Unpacked (sz : Int → Int) (m m' : Mem) (es : List Entry) (start : Int) : Prop where
  values : ∀ (i : Nat) (x : Entry), es[i]? = some x → ∀ k, 0 ≤ k → k < sz x.2 →
    m' (x.1 + k) = m (start + packedOffset sz es i + k)
  others : ∀ a, (∀ x ∈ es, ¬ InBytes a x.1 (sz x.2)) → m' a = m a

/-- Handle `h` is predefined or live. -/
def HandleLive (L : Ledger) (h : Int) : Prop := h < 0 ∨ h ∈ L.objs.map Prod.fst

/-- A stretch of history throughout which handle `h` is not freed. -/
inductive Lasts (env : Env) (h : Int) (s : Sys) (L : Ledger) : Sys → Ledger → Prop
  | now : Lasts env h s L s L
  | then {s' s'' : Sys} {L' L'' : Ledger} : Lasts env h s L s' L' → Step env s' L' s'' L'' → HandleLive L'' h →
      Lasts env h s L s'' L''

end MpiSerial
