import Verif.Spec.Observe

/-!
# Who meets whom

What a program does on one communicator is written down as a word: for every operation, in the order of posting,
whether it is a send or a receive, and its tag.  The rule of the MPI standard then says which operations meet.
-/

set_option autoImplicit false

namespace MpiSerial

/-- One letter: a send or a receive, with its tag. -/
abbrev Letter := Kind × Int

/-- A message with the tag of one is accepted by the other, which is a receive. -/
def Letter.fit (a b : Letter) : Prop :=
  (a.1 = .send ∧ b.1 = .recv ∧ accepts b.2 a.2 = true) ∨ (a.1 = .recv ∧ b.1 = .send ∧ accepts a.2 b.2 = true)

/-- Letters number `k` and `l` of the word fit each other. -/
def FitIn (w : List Letter) (k l : Nat) : Prop := ∃ a b, w[k]? = some a ∧ w[l]? = some b ∧ a.fit b

/-- By the pairing `P` (of earlier with later operations), operation `k` has not met any other when operation `l` is
posted. -/
def FreeAt (P : Nat → Nat → Prop) (k l : Nat) : Prop := (∀ l', l' < l → ¬ P k l') ∧ ∀ j, ¬ P j k

/-- `P` is a pairing by the rule of the standard: operation `l` meets the earlier operation `k` exactly if `k` is the
first operation that fits and has not met another before. -/
def IsPairing (w : List Letter) (P : Nat → Nat → Prop) : Prop :=
  ∀ k l, P k l ↔ k < l ∧ FitIn w k l ∧ FreeAt P k l ∧ ∀ k', k' < k → FitIn w k' l → ¬ FreeAt P k' l

/-- The operation was posted on communicator `c` (operations to MPI_PROC_NULL are on none). -/
def Op.isOn (c : Nat) (o : Op) : Bool := decide (o.cid = c ∧ o.st ≠ .null)

/-- The numbers of the operations posted on communicator `c`. -/
def Ledger.posted (L : Ledger) (c : Nat) : List Nat :=
  (List.range L.ops.length).filter fun i => (L.ops[i]?.map (Op.isOn c)).getD false

/-- The word of communicator `c`. -/
def Ledger.word (L : Ledger) (c : Nat) : List Letter := (L.ops.filter (Op.isOn c)).map fun o => (o.kind, o.tag)

/-- The `k`-th operation on communicator `c` has number `i`. -/
def Ledger.isNth (L : Ledger) (c k i : Nat) : Prop := (L.posted c)[k]? = some i

instance (L : Ledger) (c k i : Nat) : Decidable (L.isNth c k i) := inferInstanceAs (Decidable (_ = _))

/-- The `k`-th and the later `l`-th operation on communicator `c` were matched with each other. -/
def Ledger.joined (L : Ledger) (c k l : Nat) : Prop :=
  k < l ∧ ∃ i j o, L.isNth c k i ∧ L.isNth c l j ∧ L.ops[i]? = some o ∧ o.st = .matched j

/-- `h` is the request of the `k`-th operation on communicator `c`. -/
def Ledger.isRequest (L : Ledger) (c k : Nat) (h : Int) : Prop := ∃ i, L.isNth c k i ∧ (h, Obj.req i) ∈ L.objs

end MpiSerial
