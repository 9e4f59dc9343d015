import Verif.Proofs.Observe

/-!
# Concrete histories

Used by the `example`s beside the property theorems and by the negative witnesses.
-/

set_option autoImplicit false

namespace MpiSerial

/-- The value of a call that returned. -/
def Res.getD {α : Type} (r : Res α) (d : α) : α :=
  match r with
  | .ok a => a
  | _ => d

theorem Res.eq_getD {α : Type} {r : Res α} (d : α) (h : r.returned = true) : r = .ok (r.getD d) := by
  cases r <;> simp [Res.returned, Res.getD] at *

/-- Default configuration; uninitialised storage happens to be zero. -/
def env0 : Env := ⟨{}, fun _ => ⟨none, 0, 0, 0, 0, 0, 0⟩, fun _ => ⟨0, 0, fun _ => ⟨0, 0⟩⟩⟩

/-- A state with its ledger, and the handle the last call returned. -/
structure Demo where
  s : Sys
  L : Ledger
  h : Int := 0

namespace Demo

def Ok (d : Demo) : Prop := Reach env0 d.s d.L

def start (m : Mem) : Demo := ⟨Sys.start m, .start, 0⟩

theorem start_ok (m : Mem) : (start m).Ok := Reach.start

def init (d : Demo) : Demo :=
  ⟨(MPI_Init d.s).getD d.s, { d.L.addComm MPI_COMM_WORLD with inited := true }, 1⟩

theorem init_ok {d : Demo} (hr : d.Ok) (h : decide (d.L.ncomms < 2147483647 ∧
    d.L.ncomms - d.L.nfreed < 1073741823) = true) (hx : (MPI_Init d.s).returned = true) : d.init.Ok := by
  rw [decide_eq_true_iff] at h
  exact hr.step (.init h.1 h.2 (Res.eq_getD _ hx))

def dup (d : Demo) (c : Int) : Demo :=
  let r := (MPI_Comm_dup d.s c).getD (d.s, 0)
  ⟨r.1, d.L.noteComm r.2, r.2⟩

theorem dup_ok {d : Demo} {c : Int} (hr : d.Ok) (h : decide (d.L.ncomms < 2147483647 ∧
    d.L.ncomms - d.L.nfreed < 1073741823) = true) (hx : (MPI_Comm_dup d.s c).returned = true) : (d.dup c).Ok := by
  rw [decide_eq_true_iff] at h
  exact hr.step (.comm h.1 h.2 (.dup c) (Res.eq_getD (d.s, 0) hx))

theorem dup_step {d : Demo} {c : Int} (h : decide (d.L.ncomms < 2147483647 ∧
    d.L.ncomms - d.L.nfreed < 1073741823) = true) (hx : (MPI_Comm_dup d.s c).returned = true) :
    Step env0 d.s d.L (d.dup c).s (d.dup c).L := by
  rw [decide_eq_true_iff] at h
  exact .comm h.1 h.2 (.dup c) (Res.eq_getD (d.s, 0) hx)

theorem dup_eq {d : Demo} {c : Int} (hx : (MPI_Comm_dup d.s c).returned = true) :
    MPI_Comm_dup d.s c = .ok ((d.dup c).s, (d.dup c).h) := Res.eq_getD (d.s, 0) hx

def commFree (d : Demo) (h : Int) : Demo :=
  let r := (MPI_Comm_free d.s h).getD (d.s, 0)
  ⟨r.1, d.L.freeComm h, r.2⟩

theorem commFree_ok {d : Demo} {h : Int} (c : Nat) (hr : d.Ok) (hm : decide ((h, Obj.comm c) ∈ d.L.objs) = true)
    (hx : (MPI_Comm_free d.s h).returned = true) : (d.commFree h).Ok := by
  rw [decide_eq_true_iff] at hm
  exact hr.step (.commFree hm (Res.eq_getD (d.s, 0) hx))

def isend (d : Demo) (buf count dtype tag comm : Int) (c : Nat) : Demo :=
  let r := (MPI_Isend env0 d.s buf count dtype 0 tag comm).getD (d.s, 0)
  ⟨r.1, d.L.post .send c tag buf count dtype r.2, r.2⟩

theorem isend_ok {d : Demo} {buf count dtype tag comm : Int} {c : Nat} (hr : d.Ok)
    (h : decide ((comm, Obj.comm c) ∈ d.L.objs ∧ d.L.unmatched < 2147483647) = true)
    (hx : (MPI_Isend env0 d.s buf count dtype 0 tag comm).returned = true) :
    (d.isend buf count dtype tag comm c).Ok := by
  rw [decide_eq_true_iff] at h
  exact hr.step (.isend h.1 h.2 (Res.eq_getD (d.s, 0) hx))

theorem isend_eq {d : Demo} {buf count dtype tag comm : Int} (c : Nat)
    (hx : (MPI_Isend env0 d.s buf count dtype 0 tag comm).returned = true) :
    MPI_Isend env0 d.s buf count dtype 0 tag comm =
      .ok ((d.isend buf count dtype tag comm c).s, (d.isend buf count dtype tag comm c).h) :=
  Res.eq_getD (d.s, 0) hx

def irecv (d : Demo) (buf count dtype src tag comm : Int) (c : Nat) : Demo :=
  let r := (MPI_Irecv env0 d.s buf count dtype src tag comm).getD (d.s, 0)
  ⟨r.1, d.L.post .recv c tag buf count dtype r.2, r.2⟩

theorem irecv_step {d : Demo} {buf count dtype src tag comm : Int} {c : Nat}
    (h : decide ((comm, Obj.comm c) ∈ d.L.objs ∧ d.L.unmatched < 2147483647 ∧ src ≠ MPI_PROC_NULL) = true)
    (hx : (MPI_Irecv env0 d.s buf count dtype src tag comm).returned = true) :
    Step env0 d.s d.L (d.irecv buf count dtype src tag comm c).s (d.irecv buf count dtype src tag comm c).L := by
  rw [decide_eq_true_iff] at h
  exact .irecv h.1 h.2.1 h.2.2 (Res.eq_getD (d.s, 0) hx)

theorem irecv_ok {d : Demo} {buf count dtype src tag comm : Int} {c : Nat} (hr : d.Ok)
    (h : decide ((comm, Obj.comm c) ∈ d.L.objs ∧ d.L.unmatched < 2147483647 ∧ src ≠ MPI_PROC_NULL) = true)
    (hx : (MPI_Irecv env0 d.s buf count dtype src tag comm).returned = true) :
    (d.irecv buf count dtype src tag comm c).Ok := by
  rw [decide_eq_true_iff] at h
  exact hr.step (.irecv h.1 h.2.1 h.2.2 (Res.eq_getD (d.s, 0) hx))

theorem irecv_eq {d : Demo} {buf count dtype src tag comm : Int} (c : Nat)
    (hx : (MPI_Irecv env0 d.s buf count dtype src tag comm).returned = true) :
    MPI_Irecv env0 d.s buf count dtype src tag comm =
      .ok ((d.irecv buf count dtype src tag comm c).s, (d.irecv buf count dtype src tag comm c).h) :=
  Res.eq_getD (d.s, 0) hx

def irecvNull (d : Demo) (buf count dtype tag comm : Int) : Demo :=
  let r := (MPI_Irecv env0 d.s buf count dtype MPI_PROC_NULL tag comm).getD (d.s, 0)
  ⟨r.1, d.L.postNull .recv tag buf count dtype r.2, r.2⟩

theorem irecvNull_ok {d : Demo} {buf count dtype tag comm : Int} (hr : d.Ok) (c : Nat)
    (h : decide ((comm, Obj.comm c) ∈ d.L.objs) = true)
    (hx : (MPI_Irecv env0 d.s buf count dtype MPI_PROC_NULL tag comm).returned = true) :
    (d.irecvNull buf count dtype tag comm).Ok := by
  rw [decide_eq_true_iff] at h
  exact hr.step (.irecvNull (Or.inr ⟨c, h⟩) (Res.eq_getD (d.s, 0) hx))

def finalize (d : Demo) : Demo := ⟨MPI_Finalize d.s, d.L.finalize, 0⟩

theorem finalize_ok {d : Demo} (hr : d.Ok) : d.finalize.Ok := hr.step .finalize

end Demo

/-! ## A history with every kind of traffic

Memory is zero except for the bytes 1, 2, 3 at 100, 101, 102. -/

def mem0 : Mem := fun a => if a = 100 then some 1 else if a = 101 then some 2 else if a = 102 then some 3 else some 0

/-- MPI_Init. -/
def H1 : Demo := (Demo.start mem0).init
/-- A message with tag 5 on MPI_COMM_WORLD (operation 0, request 2): no receive yet. -/
def H2 : Demo := H1.isend 100 3 (-1) 5 1 0
/-- A second message with tag 5 (operation 1, request 3). -/
def H3 : Demo := H2.isend 101 1 (-1) 5 1 0
/-- A receive for tag 9 (operation 2, request 4): no message for it. -/
def H4 : Demo := H3.irecv 200 1 (-1) 0 9 1 0
/-- A receive for any tag (operation 3, request 5): takes the first message. -/
def H5 : Demo := H4.irecv 300 3 (-1) (-1) (-1) 1 0
/-- A duplicate of MPI_COMM_WORLD (handle 6). -/
def H6 : Demo := H5.dup 1
/-- A message with tag 9 on the duplicate (operation 4, request 7): not for the receive on world. -/
def H7 : Demo := H6.isend 100 1 (-1) 9 6 1
/-- A receive from MPI_PROC_NULL (operation 5, request 8). -/
def H8 : Demo := H7.irecvNull 400 1 (-1) 3 1

theorem H1_ok : H1.Ok := Demo.init_ok (Demo.start_ok _) (by decide +kernel) (by decide +kernel)
theorem H2_ok : H2.Ok := Demo.isend_ok H1_ok (by decide +kernel) (by decide +kernel)
theorem H3_ok : H3.Ok := Demo.isend_ok H2_ok (by decide +kernel) (by decide +kernel)
theorem H4_ok : H4.Ok := Demo.irecv_ok H3_ok (by decide +kernel) (by decide +kernel)
theorem H5_ok : H5.Ok := Demo.irecv_ok H4_ok (by decide +kernel) (by decide +kernel)
theorem H6_ok : H6.Ok := Demo.dup_ok H5_ok (by decide +kernel) (by decide +kernel)
theorem H7_ok : H7.Ok := Demo.isend_ok H6_ok (by decide +kernel) (by decide +kernel)
theorem H8_ok : H8.Ok := Demo.irecvNull_ok H7_ok 0 (by decide +kernel) (by decide +kernel)

/-- The second message of `H8`, taken now by a receive for tag 5. -/
def H9 : Demo := H8.irecv 500 1 (-1) 0 5 1 0
theorem H9_ok : H9.Ok := Demo.irecv_ok H8_ok (by decide +kernel) (by decide +kernel)

theorem H9_step : Step env0 H8.s H8.L H9.s H9.L := Demo.irecv_step (by decide +kernel) (by decide +kernel)

theorem H5_eq : MPI_Irecv env0 H4.s 300 3 (-1) (-1) (-1) 1 = .ok (H5.s, H5.h) :=
  Demo.irecv_eq 0 (by decide +kernel)
theorem H9_eq : MPI_Irecv env0 H8.s 500 1 (-1) 0 5 1 = .ok (H9.s, H9.h) :=
  Demo.irecv_eq 0 (by decide +kernel)

/-- The ledger at the end. -/
theorem H8_ops : H8.L.ops = [
    ⟨.send, 0, 5, 100, 3, -1, 2, .matched 3⟩,
    ⟨.send, 0, 5, 101, 1, -1, 3, .pending⟩,
    ⟨.recv, 0, 9, 200, 1, -1, 4, .pending⟩,
    ⟨.recv, 0, -1, 300, 3, -1, 5, .matched 0⟩,
    ⟨.send, 1, 9, 100, 1, -1, 7, .pending⟩,
    ⟨.recv, 0, 3, 400, 1, -1, 8, .null⟩] := by decide +kernel

theorem H8_objs : H8.L.objs = [(8, .req 5), (7, .req 4), (6, .comm 1), (5, .req 3), (4, .req 2), (3, .req 1),
    (2, .req 0), (1, .comm 0)] := by decide +kernel

end MpiSerial
