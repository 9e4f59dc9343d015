import Verif.Spec.Frame
import Verif.Props.CopyExact

/-!
# Which bytes of user memory a call may change, with no limit on addresses

As Spec/Frame, but with every address as the code computes it: offsets of elements (copy.c:46,82) and of
displacements (collective.c) are reduced to the range of `int`, and addresses wrap modulo 2^64.
-/

set_option autoImplicit false

namespace MpiSerial
open Spec

/-- Byte `a` belongs to a place where an element of the typed buffer `(buf, count, dtype)` lands. -/
def Lands (env : Env) (L : Ledger) (buf count dtype a : Int) : Prop :=
  ∃ t e x, L.desc env.cfg dtype = some t ∧ ExtentIs env.cfg t e ∧
    x ∈ repeated (typeMap t) e count.toNat buf ∧ InBytes a (landing buf x.1) (sz env.cfg x.2)

/-- Address `a` is where displacement `d`, in units of extent `e`, from address `b` leads: the byte offset is the one
number in the range of `int` that differs from `d * e` by a multiple of 2^32; addresses wrap. -/
def DisplLands (b d e a : Int) : Prop :=
  ∃ off, INT_MIN ≤ off ∧ off ≤ INT_MAX ∧ (off - d * e) % 4294967296 = 0 ∧ a = (b + off) % 18446744073709551616

/-- `(buf, count, dtype)` is a typed buffer to which the call copies data; `buf` as the code computes it.  Compare
`Dest`. -/
inductive Target (env : Env) (L : Ledger) : Call → Int → Int → Int → Prop
  | isend {b n t tag comm : Int} {o : Op} : GoesTo L comm tag o → Target env L (.isend b n t 0 tag comm) o.buf o.count o.dtype
  | irsend {b n t tag comm : Int} {o : Op} : GoesTo L comm tag o → Target env L (.irsend b n t 0 tag comm) o.buf o.count o.dtype
  | send {b n t tag comm : Int} {o : Op} : GoesTo L comm tag o → Target env L (.send b n t 0 tag comm) o.buf o.count o.dtype
  | irecv {b n t src tag comm : Int} : Finds L comm tag → src ≠ MPI_PROC_NULL → Target env L (.irecv b n t src tag comm) b n t
  | recv {b n t src tag comm : Int} {st : StPtr} : Finds L comm tag → src ≠ MPI_PROC_NULL →
      Target env L (.recv b n t src tag comm st) b n t
  | sendrecvOut {sb sn st stag rb rn rt src rtag comm : Int} {p : StPtr} {o : Op} : GoesTo L comm stag o →
      Target env L (.sendrecv sb sn st 0 stag rb rn rt src rtag comm p) o.buf o.count o.dtype
  | sendrecvIn {sb sn st dst stag rb rn rt src rtag comm : Int} {p : StPtr} : src ≠ MPI_PROC_NULL →
      Target env L (.sendrecv sb sn st dst stag rb rn rt src rtag comm p) rb rn rt
  | gather {sb sn st rb rn rt comm : Int} : sb ≠ MPI_IN_PLACE → Target env L (.gather sb sn st rb rn rt 0 comm) rb rn rt
  | gatherv {sb sn st rb rn rt d e b comm : Int} {ns ds : List Int} : sb ≠ MPI_IN_PLACE → ns[0]? = some rn → ds[0]? = some d →
      HandleExtent env L rt e → DisplLands rb d e b → Target env L (.gatherv sb sn st rb ns ds rt 0 comm) b rn rt
  | allgather {sb sn st rb rn rt comm : Int} : sb ≠ MPI_IN_PLACE → Target env L (.allgather sb sn st rb rn rt comm) rb rn rt
  | allgatherv {sb sn st rb rn rt d e b comm : Int} {ns ds : List Int} : sb ≠ MPI_IN_PLACE → ns[0]? = some rn →
      ds[0]? = some d → HandleExtent env L rt e → DisplLands rb d e b →
      Target env L (.allgatherv sb sn st rb ns ds rt comm) b rn rt
  | scatter {sb sn st rb rn rt comm : Int} : rb ≠ MPI_IN_PLACE → Target env L (.scatter sb sn st rb rn rt 0 comm) rb rn rt
  | scatterv {sb st rb rn rt comm : Int} {ns ds : List Int} : rb ≠ MPI_IN_PLACE →
      Target env L (.scatterv sb ns ds st rb rn rt 0 comm) rb rn rt
  | reduce {sb rb n t op comm : Int} : Target env L (.reduce sb rb n t op 0 comm) rb n t
  | allreduce {sb rb n t op comm : Int} : sb ≠ MPI_IN_PLACE → Target env L (.allreduce sb rb n t op comm) rb n t
  | reduceScatter {sb rb n t op comm : Int} {ns : List Int} : ns[0]? = some n →
      Target env L (.reduceScatter sb rb ns t op comm) rb n t
  | scan {sb rb n t op comm : Int} : Target env L (.scan sb rb n t op comm) rb n t
  | alltoall {sb sn st rb rn rt comm : Int} : Target env L (.alltoall sb sn st rb rn rt comm) rb rn rt
  | alltoallv {sb st rb rn rt d e b comm : Int} {sns sds ns ds : List Int} : ns[0]? = some rn → ds[0]? = some d →
      HandleExtent env L rt e → DisplLands rb d e b → Target env L (.alltoallv sb sns sds st rb ns ds rt comm) b rn rt
  | alltoallw {sb rb rn rt d comm : Int} {sns sds sts ns ds ts : List Int} : ns[0]? = some rn → ds[0]? = some d →
      ts[0]? = some rt → Target env L (.alltoallw sb sns sds sts rb ns ds ts comm) ((rb + d) % 18446744073709551616) rn rt

/-- MPI_Pack and MPI_Unpack do not go through copy.c.  MPI_Pack: byte `a` is one of a run of bytes that is packed at a
position between `position` and `outsize` (addresses wrap).  MPI_Unpack: byte `a` belongs to an element of the output
buffer (addresses wrap, offsets are not reduced). -/
def Call.packLands (env : Env) (L : Ledger) (a : Int) : Call → Prop
  | .pack _ _ _ outbuf outsize position _ =>
      ∃ p n, position ≤ p ∧ p + n ≤ outsize ∧ InBytes a ((outbuf + p) % 18446744073709551616) n
  | .unpack _ _ _ outbuf n t _ => ∃ ty e x, L.desc env.cfg t = some ty ∧ ExtentIs env.cfg ty e ∧
      x ∈ repeated (typeMap ty) e n.toNat outbuf ∧ InBytes a (x.1 % 18446744073709551616) (sz env.cfg x.2)
  | _ => False

/-- The bytes the code may change in a call. -/
def CodeWrites (env : Env) (L : Ledger) (c : Call) (a : Int) : Prop :=
  (∃ b n t, Target env L c b n t ∧ Lands env L b n t a) ∨ c.packLands env L a ∨ c.stores

/-- A history of well-formed calls from `(s, L)` to `(s', L')` in none of which the code may write byte `a`. -/
inductive SparedBy (env : Env) (a : Int) : Sys → Ledger → Sys → Ledger → Prop
  | refl {s : Sys} {L : Ledger} : SparedBy env a s L s L
  | call {s s1 s2 : Sys} {L L1 L2 : Ledger} {c : Call} : SparedBy env a s L s1 L1 → Room L1 → c.Wf env L1 →
      ¬ CodeWrites env L1 c a → c.exec env s1 = .ok s2 → Steps env s1 L1 s2 L2 → SparedBy env a s L s2 L2

end MpiSerial
