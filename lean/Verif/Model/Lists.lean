import Verif.Base

/-!
# list.c - doubly linked lists of pointers

`A` is the type of the stored `void *data` pointers.  List items and list heads live in two heaps
addressed by natural numbers; `none` in a pointer position is NULL, `none` in a heap position is
memory that is not (or no longer) allocated.  malloc is a bump allocator: addresses of freed
objects are never valid again (the C abstract machine's view of dangling pointers).
-/

namespace MpiSerial

/-- listP.h:22-32 `struct _Listitem` (CHECKS off). -/
structure Node (A : Type) where
  data : A
  prev : Option Nat
  next : Option Nat

/-- listP.h:14-19 `struct _List`. -/
structure LHead where
  head : Option Nat
  tail : Option Nat
  count : Int
  deriving DecidableEq

/-- The list module's heap: items, lists, next unused addresses, and the two static counters
list.c:21-22. -/
structure LHeap (A : Type) where
  nodes : Nat → Option (Node A)
  lists : Nat → Option LHead
  nextNode : Nat
  nextList : Nat
  itemcount : Int
  headcount : Int

namespace LHeap
variable {A : Type}

/-- Program start: nothing allocated, counters zero (list.c:21-22). -/
def empty : LHeap A := ⟨fun _ => none, fun _ => none, 0, 0, 0, 0⟩

/-- Read `*list`. -/
def getL (h : LHeap A) (l : Nat) : Res LHead :=
  match h.lists l with
  | some x => .ok x
  | none => .ub .badPtr

/-- Read `*item`. -/
def getN (h : LHeap A) (n : Nat) : Res (Node A) :=
  match h.nodes n with
  | some x => .ok x
  | none => .ub .badPtr

/-- Read `*p` for a possibly null item pointer. -/
def getNp (h : LHeap A) (p : Option Nat) : Res (Nat × Node A) :=
  match p with
  | some n => do let x ← h.getN n; return (n, x)
  | none => .ub .nullPtr

def setL (h : LHeap A) (l : Nat) (x : LHead) : LHeap A :=
  { h with lists := fun k => if k = l then some x else h.lists k }
def setN (h : LHeap A) (n : Nat) (x : Node A) : LHeap A :=
  { h with nodes := fun k => if k = n then some x else h.nodes k }
def dropN (h : LHeap A) (n : Nat) : LHeap A :=
  { h with nodes := fun k => if k = n then none else h.nodes k }
def dropL (h : LHeap A) (l : Nat) : LHeap A :=
  { h with lists := fun k => if k = l then none else h.lists k }

end LHeap

variable {A : Type}

/-- list.c:32-46 `AP_listitem_malloc`, followed by the stores of the caller into the new item
(`x` is its complete initial contents). -/
def AP_listitem_malloc (h : LHeap A) (x : Node A) : Res (LHeap A × Nat) := do
  let c ← ck32 (h.itemcount + 1)
  let n := h.nextNode
  let h := { h with itemcount := c, nextNode := n + 1 }
  return (h.setN n x, n)

/-- list.c:57-61 `AP_listitem_free`. -/
def AP_listitem_free (h : LHeap A) (n : Nat) : Res (LHeap A) := do
  let _ ← h.getN n       -- free() of a dangling pointer is undefined
  let h := h.dropN n
  let c ← ck32 (h.itemcount - 1)
  return { h with itemcount := c }

/-- list.c:73-84 `AP_listitem_verify`: nonzero iff items or lists are outstanding. -/
def AP_listitem_verify (h : LHeap A) : Bool := h.itemcount ≠ 0 || h.headcount ≠ 0

/-- list.c:89-92 `AP_listitem_prev`. -/
def AP_listitem_prev (h : LHeap A) (n : Nat) : Res (Option Nat) := do
  let x ← h.getN n; return x.prev
/-- list.c:96-99 `AP_listitem_next`. -/
def AP_listitem_next (h : LHeap A) (n : Nat) : Res (Option Nat) := do
  let x ← h.getN n; return x.next
/-- list.c:104-107 `AP_listitem_data`. -/
def AP_listitem_data (h : LHeap A) (n : Nat) : Res A := do
  let x ← h.getN n; return x.data

/-- list.c:123-141 `AP_list_new`. -/
def AP_list_new (h : LHeap A) : Res (LHeap A × Nat) := do
  let l := h.nextList
  let h := { h with nextList := l + 1 }
  let h := h.setL l ⟨none, none, 0⟩
  let c ← ck32 (h.headcount + 1)
  return ({ h with headcount := c }, l)

/-- list.c:162-170, the loop of `AP_list_free`; `fuel` bounds the number of iterations. -/
def freeLoop : Nat → LHeap A → Option Nat → Int → Res (LHeap A × Int)
  | _, h, none, count => .ok (h, count)
  | 0, _, some _, _ => .hang
  | fuel + 1, h, some cur, count => do
    let x ← h.getN cur
    let next := x.next
    let h ← AP_listitem_free h cur
    let count ← ck32 (count + 1)
    freeLoop fuel h next count

/-- list.c:154-181 `AP_list_free`. -/
def AP_list_free (h : LHeap A) (l : Nat) : Res (LHeap A) := do
  let L ← h.getL l
  let (h, count) ← freeLoop (h.nextNode + 1) h L.head 0
  if count ≠ L.count then .abort "AP_list_free: count does not match actual length"
  else
    let c ← ck32 (h.headcount - 1)
    return { h with headcount := c }.dropL l

/-- list.c:192-195 `AP_list_size`. -/
def AP_list_size (h : LHeap A) (l : Nat) : Res Int := do
  let L ← h.getL l; return L.count

/-- list.c:206-230 `AP_list_prepend`. -/
def AP_list_prepend (h : LHeap A) (l : Nat) (data : A) : Res (LHeap A × Nat) := do
  let L ← h.getL l
  let (h, new) ← AP_listitem_malloc h ⟨data, none, L.head⟩
  let h ← match L.head with
    | some hd => do let x ← h.getN hd; pure (h.setN hd { x with prev := some new })
    | none => pure h
  let L := { L with head := some new }
  let L := match L.tail with
    | none => { L with tail := some new }
    | some _ => L
  let c ← ck32 (L.count + 1)
  return (h.setL l { L with count := c }, new)

/-- list.c:241-263 `AP_list_append`. -/
def AP_list_append (h : LHeap A) (l : Nat) (data : A) : Res (LHeap A × Nat) := do
  let L ← h.getL l
  let (h, new) ← AP_listitem_malloc h ⟨data, L.tail, none⟩
  let (h, L) ← match L.tail with
    | some tl => do let x ← h.getN tl; pure (h.setN tl { x with next := some new }, L)
    | none => pure (h, { L with head := some new })
  let L := { L with tail := some new }
  let c ← ck32 (L.count + 1)
  return (h.setL l { L with count := c }, new)

/-- list.c:291-318 `AP_list_delete_item` (CHECKS off). -/
def AP_list_delete_item (h : LHeap A) (l : Nat) (item : Nat) : Res (LHeap A) := do
  let L ← h.getL l
  -- set pointer of prior listitem (304-307)
  let x ← h.getN item
  let (h, L) ← (if L.head = some item then pure (h, { L with head := x.next })
    else do
      let (p, xp) ← h.getNp x.prev
      pure (h.setN p { xp with next := x.next }, L))
  -- set pointer of following listitem (311-314)
  let x ← h.getN item
  let (h, L) ← (if L.tail = some item then pure (h, { L with tail := x.prev })
    else do
      let (q, xq) ← h.getNp x.next
      pure (h.setN q { xq with prev := x.prev }, L))
  let h ← AP_listitem_free h item
  let c ← ck32 (L.count - 1)
  return h.setL l { L with count := c }

/-- list.c:426-432 and 454-460, the search loops. -/
def searchLoop (f : A → Res Bool) : Nat → LHeap A → Option Nat → Res (Option Nat)
  | _, _, none => .ok none
  | 0, _, some _ => .hang
  | fuel + 1, h, some cur => do
    let x ← h.getN cur
    let b ← f x.data
    if b then return some cur
    else searchLoop f fuel h x.next

/-- list.c:420-435 `AP_list_search`. -/
def AP_list_search [DecidableEq A] (h : LHeap A) (l : Nat) (data : A) : Res (Option Nat) := do
  let L ← h.getL l
  searchLoop (fun d => .ok (decide (d = data))) (h.nextNode + 1) h L.head

/-- list.c:446-463 `AP_list_search_func`; `f d` is `(*func)(d, fixed_data)`. -/
def AP_list_search_func (h : LHeap A) (l : Nat) (f : A → Res Bool) : Res (Option Nat) := do
  let L ← h.getL l
  searchLoop f (h.nextNode + 1) h L.head

/-- list.c:276-287 `AP_list_delete`. -/
def AP_list_delete [DecidableEq A] (h : LHeap A) (l : Nat) (data : A) : Res (LHeap A × Int) := do
  match ← AP_list_search h l data with
  | some item => do
    let h ← AP_list_delete_item h l item
    return (h, 1)
  | none => return (h, 0)

/-- list.c:323-326 `AP_list_head_item`. -/
def AP_list_head_item (h : LHeap A) (l : Nat) : Res (Option Nat) := do
  let L ← h.getL l; return L.head

/-- list.c:330-339 `AP_list_head`: `none` is the return value 0. -/
def AP_list_head (h : LHeap A) (l : Nat) : Res (Option A) := do
  let L ← h.getL l
  match L.head with
  | some n => do let x ← h.getN n; return some x.data
  | none => return none

/-- list.c:343-352 `AP_list_tail`. -/
def AP_list_tail (h : LHeap A) (l : Nat) : Res (Option A) := do
  let L ← h.getL l
  match L.tail with
  | some n => do let x ← h.getN n; return some x.data
  | none => return none

/-- list.c:373-377 loop of `AP_list_print`: the data printed. -/
def printLoop : Nat → LHeap A → Option Nat → Res (List A)
  | _, _, none => .ok []
  | 0, _, some _ => .hang
  | fuel + 1, h, some cur => do
    let x ← h.getN cur
    let r ← printLoop fuel h x.next
    return x.data :: r

/-- list.c:366-380 `AP_list_print`: count and data printed. -/
def AP_list_print (h : LHeap A) (l : Nat) : Res (Int × List A) := do
  let L ← h.getL l
  let r ← printLoop (h.nextNode + 1) h L.head
  return (L.count, r)

/-- list.c:400-404 loop of `AP_list_revprint`. -/
def revprintLoop : Nat → LHeap A → Option Nat → Res (List A)
  | _, _, none => .ok []
  | 0, _, some _ => .hang
  | fuel + 1, h, some cur => do
    let x ← h.getN cur
    let r ← revprintLoop fuel h x.prev
    return x.data :: r

/-- list.c:393-407 `AP_list_revprint`. -/
def AP_list_revprint (h : LHeap A) (l : Nat) : Res (Int × List A) := do
  let L ← h.getL l
  let r ← revprintLoop (h.nextNode + 1) h L.tail
  return (L.count, r)

/-- list.c:478-498 `AP_list_next`: `none` is return value 0 (outputs untouched), `some (temp, data)`
is return value 1 with the new `*temp` and `*data`. -/
def AP_list_next (h : LHeap A) (l : Nat) (temp : Option Nat) : Res (Option (Nat × A)) := do
  let cur ← match temp with
    | some t => do let x ← h.getN t; pure x.next
    | none => do let L ← h.getL l; pure L.head
  match cur with
  | some c => do let x ← h.getN c; return some (c, x.data)
  | none => return none

/-- list.c:508-516 `AP_list_braindead_next`: `none` is the null pointer. -/
def AP_list_braindead_next (h : LHeap A) (l : Nat) (temp : Option Nat) :
    Res (Option Nat × Option A) := do
  match ← AP_list_next h l temp with
  | some (t, d) => return (some t, some d)
  | none => return (temp, none)

/-- list.c:543-546: link the fresh item behind `prev`, or make it the head of the new list. -/
def dupLink (h : LHeap A) (newl : Nat) (prev : Option Nat) (new : Nat) : Res (LHeap A) :=
  match prev with
  | some p => do let xp ← h.getN p; return h.setN p { xp with next := some new }
  | none => do let NL ← h.getL newl; return h.setL newl { NL with head := some new }

/-- list.c:553-554: terminate the new list. -/
def dupTerm (h : LHeap A) (prev : Option Nat) : Res (LHeap A) :=
  match prev with
  | some p => do let xp ← h.getN p; return h.setN p { xp with next := none }
  | none => return h

/-- list.c:537-551 loop of `AP_list_duplicate`.  `g` is the indeterminate contents of the `next`
field of a fresh item. -/
def dupLoop (g : Option Nat) (newl : Nat) :
    Nat → LHeap A → Option Nat → Option Nat → Res (LHeap A × Option Nat)
  | _, h, none, prev => .ok (h, prev)
  | 0, _, some _, _ => .hang
  | fuel + 1, h, some cur, prev => do
    let x ← h.getN cur
    let (h, new) ← AP_listitem_malloc h ⟨x.data, prev, g⟩
    let h ← dupLink h newl prev new
    let x ← h.getN cur
    dupLoop g newl fuel h x.next (some new)

/-- list.c:528-559 `AP_list_duplicate`. -/
def AP_list_duplicate (g : Option Nat) (h : LHeap A) (l : Nat) : Res (LHeap A × Nat) := do
  let (h, newl) ← AP_list_new h
  let L ← h.getL l
  let (h, prev) ← dupLoop g newl (h.nextNode + 1) h L.head none
  let h ← dupTerm h prev
  let NL ← h.getL newl
  let L ← h.getL l
  return (h.setL newl { NL with tail := prev, count := L.count }, newl)

/-- list.c:572-578 loop of `AP_list_apply`. -/
def applyLoop (f : A → Res Int) : Nat → LHeap A → Option Nat → Int → Res Int
  | _, _, none, total => .ok total
  | 0, _, some _, _ => .hang
  | fuel + 1, h, some cur, total => do
    let x ← h.getN cur
    let v ← f x.data
    let total ← ck32 (total + v)
    applyLoop f fuel h x.next total

/-- list.c:563-581 `AP_list_apply`; `f d` is the value of `(*func)(d, fixed_data)` (callbacks that
modify the list itself are outside the model). -/
def AP_list_apply (h : LHeap A) (l : Nat) (f : A → Res Int) : Res Int := do
  let L ← h.getL l
  applyLoop f (h.nextNode + 1) h L.head 0

end MpiSerial
