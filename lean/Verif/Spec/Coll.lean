import Verif.Model.Coll
import Verif.Spec.Observe

/-!
# What a data-moving collective on one process has to do: a message to oneself
-/

set_option autoImplicit false

namespace MpiSerial

/-- A message to oneself can be exchanged on `comm` with `tag`: `comm` is a live communicator without
older pending traffic that the exchange would run into, and there is room for one more request. -/
structure CanExchange (L : Ledger) (comm : Int) (tag : Int) : Prop where
  live : ∃ c, (comm, Obj.comm c) ∈ L.objs ∧ NoOpen L .send c (fun t => accepts tag t) ∧
    NoOpen L .recv c (fun t => accepts t tag)
  room : L.objs.length + 1 < 262143
  queue : L.unmatched + 1 < 2147483647

/-- Outcome `r` of a call made in state `s` is that of sending `(sb, sc, st)` to oneself into
`(rb, rc, rt)`: the same bytes are written, or the program ends in the same way; and apart from user
memory nothing changes. -/
def LikeSelfMessage (env : Env) (s : Sys) (L : Ledger) (sb sc st rb rc rt : Int) (r : Res Sys) : Prop :=
  ∀ comm tag, CanExchange L comm tag →
    r = (MPI_Sendrecv env s sb sc st 0 tag rb rc rt 0 tag comm .null >>= fun x => .ok { s with mem := x.1.mem })

/-- The handle is a datatype the caller may use: predefined, or derived and live. -/
def IsType (env : Env) (L : Ledger) (h : Int) : Prop := ∃ t, L.desc env.cfg h = some t

/-- `e` is the extent MPI_Type_extent reports for `h` (an MPI_Aint: negative values appear modulo 2^64). -/
def HasExtent (env : Env) (s : Sys) (h e : Int) : Prop := MPI_Type_extent env s h = .ok (s, u64 e)

/-- Displacement `d`, in units of extent `e`, from address `b`: the byte offset is an `int` and the
resulting address does not wrap. -/
def DisplFits (b d e : Int) : Prop :=
  INT_MIN ≤ d * e ∧ d * e ≤ INT_MAX ∧ 0 ≤ b + d * e ∧ b + d * e < 18446744073709551616

/-- Address `a` is where displacement `d`, in units of extent `e`, from address `b` leads if the byte offset is reduced
to the range of `int` - that is, to the one number of that range which differs from it by a multiple of 2^32. -/
def DisplReduced (b d e a : Int) : Prop :=
  ∃ off, INT_MIN ≤ off ∧ off ≤ INT_MAX ∧ (off - d * e) % 4294967296 = 0 ∧ a = b + off ∧
    0 ≤ a ∧ a < 18446744073709551616

end MpiSerial
