import Verif.Model.Checks
import Verif.Spec.Handles
import Verif.Spec.Lists

/-!
# Histories of a program linked with the CHECKS build

The same bookkeeping as in `Spec/Handles.lean` and `Spec/Lists.lean`.
-/

set_option autoImplicit false

namespace MpiSerial

section Handles
variable {D : Type}

/-- One successful call; `L` are the live handles. -/
inductive HStepC : HTab D → List Int → HEvent D → HTab D → List Int → Prop
  | alloc {t t' : HTab D} {L : List Int} {h : Int} {l : Loc} {fresh : D} :
      mpi_alloc_handle t fresh = .ok (t', h, l) → HStepC t L (.alloc h) t' (h :: L)
  | release {t t' : HTab D} {L : List Int} {h : Int} :
      h ∈ L → mpi_free_handle_checks t h = .ok t' → HStepC t L (.release h) t' (L.erase h)
  | lookup {t t' : HTab D} {L : List Int} {h : Int} {p : Option Loc} :
      h ∈ L ∨ h = 0 → mpi_handle_to_ptr_checks t h = .ok (t', p) → HStepC t L (.lookup h) t' L
  | write {t t' : HTab D} {L : List Int} {h : Int} {l : Loc} {d : D} :
      h ∈ L → mpi_handle_to_ptr_checks t h = .ok (t', some l) → HStepC t L (.write h d) (t'.setData l d) L
  | finalize {t : HTab D} {L : List Int} : HStepC t L .finalize (mpi_destroy_handles t) []

/-- A sequence of calls. -/
inductive HRunC : HTab D → List Int → List (HEvent D) → HTab D → List Int → Prop
  | nil {t : HTab D} {L : List Int} : HRunC t L [] t L
  | snoc {t t' t'' : HTab D} {L L' L'' : List Int} {evs : List (HEvent D)} {e : HEvent D} :
      HRunC t L evs t' L' → HStepC t' L' e t'' L'' → HRunC t L (evs ++ [e]) t'' L''

/-- Number of handles in the blocks allocated so far: the least multiple of 256 that has room for the peak
number of live handles since the last finalize and the null handle. -/
def tableSize (evs : List (HEvent D)) : Nat := 256 * max 1 (((livePeak evs).2 + 256) / 256)

end Handles

section Lists
variable {A : Type}

/-- One successful call, AP_list_duplicate excluded. -/
inductive LStepC [DecidableEq A] : CHeap A → AbsLists A → LEvent → CHeap A → AbsLists A → Prop
  | new {c c' : CHeap A} {M : AbsLists A} {l : Nat} : M.length < 2147483647 → AP_list_new_checks c = .ok (c', l) →
      LStepC c M (.new l) c' ((l, []) :: M)
  | free {c c' : CHeap A} {M : AbsLists A} {l : Nat} : l ∈ M.map Prod.fst → AP_list_free_checks c l = .ok c' →
      LStepC c M (.free l) c' (M.filter (fun e => decide (e.1 ≠ l)))
  | append {c c' : CHeap A} {M : AbsLists A} {l n : Nat} {a : A} : l ∈ M.map Prod.fst → totalItems M < 2147483647 →
      AP_list_append_checks c l a = .ok (c', n) → LStepC c M (.append l) c' (updL M l (fun s => s ++ [(n, a)]))
  | prepend {c c' : CHeap A} {M : AbsLists A} {l n : Nat} {a : A} : l ∈ M.map Prod.fst → totalItems M < 2147483647 →
      AP_list_prepend_checks c l a = .ok (c', n) → LStepC c M (.prepend l) c' (updL M l (fun s => (n, a) :: s))
  | deleteItem {c c' : CHeap A} {M : AbsLists A} {l x : Nat} {s : List (Nat × A)} {a : A} : (l, s) ∈ M → (x, a) ∈ s →
      AP_list_delete_item_checks c l x = .ok c' →
      LStepC c M (.deleteItem l) c' (updL M l (fun s => s.filter (fun e => decide (e.1 ≠ x))))
  | delete {c c' : CHeap A} {M : AbsLists A} {l : Nat} {a : A} {r : Int} : l ∈ M.map Prod.fst →
      AP_list_delete_checks c l a = .ok (c', r) →
      LStepC c M (.delete l) c' (updL M l (fun s => s.eraseP (fun e => decide (e.2 = a))))

/-- A sequence of calls. -/
inductive LRunC [DecidableEq A] : CHeap A → AbsLists A → List LEvent → CHeap A → AbsLists A → Prop
  | nil {c : CHeap A} {M : AbsLists A} : LRunC c M [] c M
  | snoc {c c' c'' : CHeap A} {M M' M'' : AbsLists A} {evs : List LEvent} {e : LEvent} :
      LRunC c M evs c' M' → LStepC c' M' e c'' M'' → LRunC c M (evs ++ [e]) c'' M''

end Lists

end MpiSerial
