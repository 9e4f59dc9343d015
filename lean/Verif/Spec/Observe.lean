import Verif.Spec.P2P

/-!
# What a client can observe

Completion of a request is what MPI_Test says about it; nothing here looks inside the library.
-/

set_option autoImplicit false

namespace MpiSerial

/-- MPI_Test says that the request is complete, whether or not a status object is supplied. -/
def Complete (s : Sys) (h : Int) : Prop :=
  (∃ r, MPI_Test s h .null = .ok r ∧ r.flag = 1) ∧ ∀ st, ∃ r, MPI_Test s h (.obj st) = .ok r ∧ r.flag = 1

/-- MPI_Test says that the request is not complete. -/
def Incomplete (s : Sys) (h : Int) : Prop := ∀ st, ∃ r, MPI_Test s h st = .ok r ∧ r.flag = 0

/-- MPI_Test says that the request is complete, with this source and tag in the status (the other
fields of the caller's status object keep their value). -/
def CompleteAs (s : Sys) (h src tag : Int) : Prop :=
  ∀ st, ∃ r, MPI_Test s h (.obj st) = .ok r ∧ r.flag = 1 ∧
    r.status = .obj { st with MPI_SOURCE := src, MPI_TAG := tag }

/-- The caller's status object, if one was supplied, updated by `f`. -/
def StPtr.map (f : Status → Status) : StPtr → StPtr
  | .null => .null
  | .obj st => .obj (f st)
  | .bad => .bad

/-- Operation `o` is an unmatched operation of kind `k` on communicator `c`. -/
def Op.open (o : Op) (k : Kind) (c : Nat) : Prop := o.kind = k ∧ o.cid = c ∧ o.st = .pending

instance (o : Op) (k : Kind) (c : Nat) : Decidable (o.open k c) := by unfold Op.open; exact inferInstance

/-- Pending traffic of kind `k` on communicator `c`, in posting order. -/
def Ledger.traffic (L : Ledger) (k : Kind) (c : Nat) : List Op := L.ops.filter (fun o => decide (o.open k c))

/-- Operation number `j` is the earliest posted unmatched operation of kind `k` on communicator `c`
whose tag satisfies `p`. -/
def Earliest (L : Ledger) (k : Kind) (c : Nat) (p : Int → Bool) (j : Nat) (o : Op) : Prop :=
  L.ops[j]? = some o ∧ o.open k c ∧ p o.tag = true ∧
  ∀ j' o', j' < j → L.ops[j']? = some o' → o'.open k c → p o'.tag = false

/-- There is no unmatched operation of kind `k` on communicator `c` whose tag satisfies `p`. -/
def NoOpen (L : Ledger) (k : Kind) (c : Nat) (p : Int → Bool) : Prop :=
  ∀ o ∈ L.ops, o.open k c → p o.tag = false

/-- Several calls. -/
inductive Steps (env : Env) : Sys → Ledger → Sys → Ledger → Prop
  | refl {s L} : Steps env s L s L
  | step {s s' s'' : Sys} {L L' L''} : Steps env s L s' L' → Step env s' L' s'' L'' → Steps env s L s'' L''

end MpiSerial
