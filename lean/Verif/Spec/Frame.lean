import Verif.Spec.Calls
import Verif.Proofs.Copy

/-!
# Which bytes of user memory a call may change

Stated on the arguments of the call and the client's account of earlier calls (`Ledger`).
-/

set_option autoImplicit false

namespace MpiSerial
open Spec

/-- `e` is the extent of `t` (an MPI_Aint). -/
def ExtentIs (cfg : Cfg) (t : Typestruct) (e : Int) : Prop :=
  Type_extent cfg t = .ok (u64 e) ∧ -9223372036854775808 ≤ e ∧ e < 9223372036854775808

/-- Byte `a` belongs to an element of the typed buffer `(buf, count, dtype)`. -/
def InBuffer (env : Env) (L : Ledger) (buf count dtype a : Int) : Prop :=
  ∃ t e x, L.desc env.cfg dtype = some t ∧ ExtentIs env.cfg t e ∧
    x ∈ repeated (typeMap t) e count.toNat buf ∧ InBytes a x.1 (sz env.cfg x.2)

/-- The elements of the typed buffer lie within `int` offsets of `buf` and at machine addresses. -/
def BufferFits (env : Env) (L : Ledger) (buf count dtype : Int) : Prop :=
  ∀ t e, L.desc env.cfg dtype = some t → ExtentIs env.cfg t e →
    OffsetsFit buf (repeated (typeMap t) e count.toNat buf)

/-- Extent of the datatype with handle `h`. -/
def HandleExtent (env : Env) (L : Ledger) (h e : Int) : Prop :=
  ∃ t, L.desc env.cfg h = some t ∧ ExtentIs env.cfg t e

/-- A receive for `tag` posted now on `comm` finds a message. -/
def Finds (L : Ledger) (comm tag : Int) : Prop :=
  ∃ c j o, (comm, Obj.comm c) ∈ L.objs ∧ Earliest L .send c (fun t => accepts tag t) j o

/-- A message with `tag` sent now on `comm` goes to the receive `o`. -/
def GoesTo (L : Ledger) (comm tag : Int) (o : Op) : Prop :=
  ∃ c j, (comm, Obj.comm c) ∈ L.objs ∧ Earliest L .recv c (fun t => accepts t tag) j o

/-- `(buf, count, dtype)` is a typed buffer into which the call may deliver data: the buffer of the pending
receive that a message goes to; the buffer of a receive that finds a message; the output buffer of MPI_Unpack; the
receive buffer of a collective, if it is not called "in place" and the root is this process. -/
inductive Dest (env : Env) (L : Ledger) : Call → Int → Int → Int → Prop
  | isend {b n t tag comm : Int} {o : Op} : GoesTo L comm tag o → Dest env L (.isend b n t 0 tag comm) o.buf o.count o.dtype
  | irsend {b n t tag comm : Int} {o : Op} : GoesTo L comm tag o → Dest env L (.irsend b n t 0 tag comm) o.buf o.count o.dtype
  | send {b n t tag comm : Int} {o : Op} : GoesTo L comm tag o → Dest env L (.send b n t 0 tag comm) o.buf o.count o.dtype
  | irecv {b n t src tag comm : Int} : Finds L comm tag → src ≠ MPI_PROC_NULL → Dest env L (.irecv b n t src tag comm) b n t
  | recv {b n t src tag comm : Int} {st : StPtr} : Finds L comm tag → src ≠ MPI_PROC_NULL →
      Dest env L (.recv b n t src tag comm st) b n t
  /-- the older receive that the message of MPI_Sendrecv goes to -/
  | sendrecvOut {sb sn st stag rb rn rt src rtag comm : Int} {p : StPtr} {o : Op} : GoesTo L comm stag o →
      Dest env L (.sendrecv sb sn st 0 stag rb rn rt src rtag comm p) o.buf o.count o.dtype
  | sendrecvIn {sb sn st dst stag rb rn rt src rtag comm : Int} {p : StPtr} : src ≠ MPI_PROC_NULL →
      Dest env L (.sendrecv sb sn st dst stag rb rn rt src rtag comm p) rb rn rt
  | unpack {a z p b n t comm : Int} : Dest env L (.unpack a z p b n t comm) b n t
  | gather {sb sn st rb rn rt comm : Int} : sb ≠ MPI_IN_PLACE → Dest env L (.gather sb sn st rb rn rt 0 comm) rb rn rt
  | gatherv {sb sn st rb rn rt d e comm : Int} {ns ds : List Int} : sb ≠ MPI_IN_PLACE → ns[0]? = some rn → ds[0]? = some d →
      HandleExtent env L rt e → Dest env L (.gatherv sb sn st rb ns ds rt 0 comm) (rb + d * e) rn rt
  | allgather {sb sn st rb rn rt comm : Int} : sb ≠ MPI_IN_PLACE → Dest env L (.allgather sb sn st rb rn rt comm) rb rn rt
  | allgatherv {sb sn st rb rn rt d e comm : Int} {ns ds : List Int} : sb ≠ MPI_IN_PLACE → ns[0]? = some rn →
      ds[0]? = some d → HandleExtent env L rt e → Dest env L (.allgatherv sb sn st rb ns ds rt comm) (rb + d * e) rn rt
  | scatter {sb sn st rb rn rt comm : Int} : rb ≠ MPI_IN_PLACE → Dest env L (.scatter sb sn st rb rn rt 0 comm) rb rn rt
  | scatterv {sb st rb rn rt comm : Int} {ns ds : List Int} : rb ≠ MPI_IN_PLACE →
      Dest env L (.scatterv sb ns ds st rb rn rt 0 comm) rb rn rt
  | reduce {sb rb n t op comm : Int} : Dest env L (.reduce sb rb n t op 0 comm) rb n t
  | allreduce {sb rb n t op comm : Int} : sb ≠ MPI_IN_PLACE → Dest env L (.allreduce sb rb n t op comm) rb n t
  | reduceScatter {sb rb n t op comm : Int} {ns : List Int} : ns[0]? = some n →
      Dest env L (.reduceScatter sb rb ns t op comm) rb n t
  | scan {sb rb n t op comm : Int} : Dest env L (.scan sb rb n t op comm) rb n t
  | alltoall {sb sn st rb rn rt comm : Int} : Dest env L (.alltoall sb sn st rb rn rt comm) rb rn rt
  | alltoallv {sb st rb rn rt d e comm : Int} {sns sds ns ds : List Int} : ns[0]? = some rn → ds[0]? = some d →
      HandleExtent env L rt e → Dest env L (.alltoallv sb sns sds st rb ns ds rt comm) (rb + d * e) rn rt
  | alltoallw {sb rb rn rt d comm : Int} {sns sds sts ns ds ts : List Int} : ns[0]? = some rn → ds[0]? = some d →
      ts[0]? = some rt → Dest env L (.alltoallw sb sns sds sts rb ns ds ts comm) (rb + d) rn rt

/-- Byte `a` lies in the part of the output buffer of MPI_Pack between `position` and `outsize`. -/
def Call.packs (a : Int) : Call → Prop
  | .pack _ _ _ outbuf outsize position _ => outbuf + position ≤ a ∧ a < outbuf + outsize
  | _ => False

/-- The program itself writes to its memory. -/
def Call.stores : Call → Prop
  | .store _ => True
  | _ => False

/-- The bytes a call may change. -/
def MayWrite (env : Env) (L : Ledger) (c : Call) (a : Int) : Prop :=
  (∃ b n t, Dest env L c b n t ∧ InBuffer env L b n t a) ∨ c.packs a ∨ c.stores

/-- The limits of the code on addresses: offsets of elements and displacements are stored in an `int`, and
addresses do not wrap. -/
structure Call.AddressesFit (env : Env) (L : Ledger) (c : Call) : Prop where
  dests : ∀ b n t, Dest env L c b n t → BufferFits env L b n t
  displ : match c with
    | .gatherv _ _ _ rb _ ds rt _ _ => ∀ d e, ds[0]? = some d → HandleExtent env L rt e → DisplFits rb d e
    | .allgatherv _ _ _ rb _ ds rt _ => ∀ d e, ds[0]? = some d → HandleExtent env L rt e → DisplFits rb d e
    | .alltoallv _ _ _ _ rb _ ds rt _ => ∀ d e, ds[0]? = some d → HandleExtent env L rt e → DisplFits rb d e
    | .alltoallw _ _ _ _ rb _ ds _ _ => ∀ d, ds[0]? = some d → 0 ≤ rb + d ∧ rb + d < 18446744073709551616
    | .pack _ _ _ outbuf outsize position _ => 0 ≤ outbuf + position ∧ outbuf + outsize ≤ 18446744073709551616
    | _ => True

/-- A history of well-formed calls from `(s, L)` to `(s', L')` none of which may write byte `a`. -/
inductive Spares (env : Env) (a : Int) : Sys → Ledger → Sys → Ledger → Prop
  | refl {s : Sys} {L : Ledger} : Spares env a s L s L
  | call {s s1 s2 : Sys} {L L1 L2 : Ledger} {c : Call} : Spares env a s L s1 L1 → Room L1 → c.Wf env L1 →
      c.AddressesFit env L1 → ¬ MayWrite env L1 c a → c.exec env s1 = .ok s2 → Steps env s1 L1 s2 L2 →
      Spares env a s L s2 L2

/-- Calls that have nothing to do with user memory. -/
def Call.silent : Call → Prop
  | .store _ | .isend _ _ _ _ _ _ | .irsend _ _ _ _ _ _ | .send _ _ _ _ _ _ | .irecv _ _ _ _ _ _
  | .recv _ _ _ _ _ _ _ | .sendrecv _ _ _ _ _ _ _ _ _ _ _ _ | .pack _ _ _ _ _ _ _ | .unpack _ _ _ _ _ _ _
  | .gather _ _ _ _ _ _ _ _ | .gatherv _ _ _ _ _ _ _ _ _ | .allgather _ _ _ _ _ _ _ | .allgatherv _ _ _ _ _ _ _ _
  | .scatter _ _ _ _ _ _ _ _ | .scatterv _ _ _ _ _ _ _ _ _ | .reduce _ _ _ _ _ _ _ | .allreduce _ _ _ _ _ _
  | .reduceScatter _ _ _ _ _ _ | .scan _ _ _ _ _ _ | .alltoall _ _ _ _ _ _ _ | .alltoallv _ _ _ _ _ _ _ _ _
  | .alltoallw _ _ _ _ _ _ _ _ _ => False
  | _ => True

end MpiSerial
