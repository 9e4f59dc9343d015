import Verif.Model.Handles

/-!
# Client's view of handle histories

A history is a sequence of successful calls.  The set of live handles `L` is bookkeeping done by
the client (add what an allocation returned, drop what was released): it does not look inside the
library's free list or blocks.
-/

namespace MpiSerial
variable {D : Type}

/-- What a client did. -/
inductive HEvent (D : Type) where
  | alloc (h : Int)
  | release (h : Int)
  | lookup (h : Int)
  | write (h : Int) (d : D)
  | finalize

/-- One successful call; `L` are the live handles. -/
inductive HStep : HTab D → List Int → HEvent D → HTab D → List Int → Prop
  /-- create an object -/
  | alloc {t t' : HTab D} {L h l fresh} :
      mpi_alloc_handle t fresh = .ok (t', h, l) → HStep t L (.alloc h) t' (h :: L)
  /-- release a live object -/
  | release {t t' : HTab D} {L h} :
      h ∈ L → mpi_free_handle t h = .ok t' → HStep t L (.release h) t' (L.erase h)
  /-- look up a live handle or the null handle -/
  | lookup {t t' : HTab D} {L h p} :
      h ∈ L ∨ h = 0 → mpi_handle_to_ptr t h = .ok (t', p) → HStep t L (.lookup h) t' L
  /-- modify the object a live handle denotes -/
  | write {t t' : HTab D} {L h l d} :
      h ∈ L → mpi_handle_to_ptr t h = .ok (t', some l) →
      HStep t L (.write h d) (t'.setData l d) L
  /-- `MPI_Finalize` (mpi.c) destroys all handles -/
  | finalize {t : HTab D} {L} : HStep t L .finalize (mpi_destroy_handles t) []

/-- A sequence of calls. -/
inductive HRun : HTab D → List Int → List (HEvent D) → HTab D → List Int → Prop
  | nil {t : HTab D} {L} : HRun t L [] t L
  | snoc {t t' t'' : HTab D} {L L' L'' evs e} :
      HRun t L evs t' L' → HStep t' L' e t'' L'' → HRun t L (evs ++ [e]) t'' L''

/-- `t` is reachable from program start by `evs`, with live handles `L`. -/
def HReach (t : HTab D) (L : List Int) (evs : List (HEvent D)) : Prop :=
  ∃ d : D, HRun (HTab.start d) [] evs t L

/-- Number of live objects, and its peak since the last finalize, computed from the events. -/
def livePeak : List (HEvent D) → Nat × Nat
  | evs => evs.foldl (fun (n, p) e => match e with
      | .alloc _ => (n + 1, max p (n + 1))
      | .release _ => (n - 1, p)
      | .finalize => (0, 0)
      | _ => (n, p)) (0, 0)

end MpiSerial
