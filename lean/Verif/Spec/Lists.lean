import Verif.Model.Lists

/-!
# Client's view of list histories

The client keeps, for every list it created and has not freed, the mathematical sequence of
(item, data) pairs that its own calls should have produced.  This bookkeeping never looks at
prev/next/head/tail/count.
-/

namespace MpiSerial
variable {A : Type}

/-- Lists owned by the client: list pointer and expected sequence of (item pointer, data). -/
abbrev AbsLists (A : Type) := List (Nat × List (Nat × A))

/-- Number of outstanding items. -/
def totalItems (M : AbsLists A) : Nat := (M.map (fun e => e.2.length)).sum

/-- Apply `f` to the sequence of list `l`. -/
def updL (M : AbsLists A) (l : Nat) (f : List (Nat × A) → List (Nat × A)) : AbsLists A :=
  M.map (fun e => if e.1 = l then (e.1, f e.2) else e)

/-- Client loop `temp=NULL; while (AP_list_next(list,&data,&temp)) ...` collecting `(temp, data)`. -/
def walkFrom (h : LHeap A) (l : Nat) : Nat → Option Nat → Res (List (Nat × A))
  | 0, _ => .hang
  | fuel + 1, temp => do
    match ← AP_list_next h l temp with
    | some (t, d) => do
      let r ← walkFrom h l fuel (some t)
      return (t, d) :: r
    | none => return []

/-- Complete traversal of a list with `AP_list_next`. -/
def walk (h : LHeap A) (l : Nat) : Res (List (Nat × A)) := walkFrom h l (h.nextNode + 2) none

/-- One client call (which list it concerns is recorded in the event). -/
inductive LEvent where
  | new (l : Nat) | free (l : Nat) | append (l : Nat) | prepend (l : Nat)
  | deleteItem (l : Nat) | delete (l : Nat) | duplicate (l l' : Nat)
  deriving DecidableEq

/-- Lists an event changes. -/
def LEvent.touches : LEvent → List Nat
  | .new l | .free l | .append l | .prepend l | .deleteItem l | .delete l => [l]
  | .duplicate _ l' => [l']

/-- One successful client call.  The capacity premises say that the number of outstanding
items/lists stays within the C `int` counters (2^31-1). -/
inductive LStep [DecidableEq A] : LHeap A → AbsLists A → LEvent → LHeap A → AbsLists A → Prop
  | new {h h' : LHeap A} {M l} : M.length < 2147483647 → AP_list_new h = .ok (h', l) →
      LStep h M (.new l) h' ((l, []) :: M)
  | free {h h' : LHeap A} {M l} : l ∈ M.map Prod.fst → AP_list_free h l = .ok h' →
      LStep h M (.free l) h' (M.filter (fun e => decide (e.1 ≠ l)))
  | append {h h' : LHeap A} {M l a n} : l ∈ M.map Prod.fst → totalItems M < 2147483647 →
      AP_list_append h l a = .ok (h', n) →
      LStep h M (.append l) h' (updL M l (fun s => s ++ [(n, a)]))
  | prepend {h h' : LHeap A} {M l a n} : l ∈ M.map Prod.fst → totalItems M < 2147483647 →
      AP_list_prepend h l a = .ok (h', n) →
      LStep h M (.prepend l) h' (updL M l (fun s => (n, a) :: s))
  | deleteItem {h h' : LHeap A} {M l s x a} : (l, s) ∈ M → (x, a) ∈ s →
      AP_list_delete_item h l x = .ok h' →
      LStep h M (.deleteItem l) h' (updL M l (fun s => s.filter (fun e => decide (e.1 ≠ x))))
  | delete {h h' : LHeap A} {M l a r} : l ∈ M.map Prod.fst → AP_list_delete h l a = .ok (h', r) →
      LStep h M (.delete l) h' (updL M l (fun s => s.eraseP (fun e => decide (e.2 = a))))
  | duplicate {h h' : LHeap A} {M l l' g s t} : (l, s) ∈ M → M.length < 2147483647 →
      totalItems M + s.length ≤ 2147483647 →
      AP_list_duplicate g h l = .ok (h', l') → walk h' l' = .ok t →
      LStep h M (.duplicate l l') h' ((l', t) :: M)

/-- A sequence of client calls. -/
inductive LRun [DecidableEq A] : LHeap A → AbsLists A → List LEvent → LHeap A → AbsLists A → Prop
  | nil {h : LHeap A} {M} : LRun h M [] h M
  | snoc {h h' h'' : LHeap A} {M M' M'' evs e} :
      LRun h M evs h' M' → LStep h' M' e h'' M'' → LRun h M (evs ++ [e]) h'' M''

end MpiSerial
